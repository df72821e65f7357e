# Axioms

What `#print axioms` reports for the theorems of `MANIFEST.json`; written by `tools/axioms.py`.

| property | theorem | axioms |
|---|---|---|
| C01 | `C01_framing` | propext, Classical.choice, Quot.sound |
| C01 | `C01_bodies` | propext, Classical.choice, Quot.sound |
| C01 | `C01_answers` | propext, Classical.choice, Quot.sound |
| C02 | `C02_extra_field_partial` | propext, Classical.choice, Quot.sound |
| C02 | `C02_violated_type_first` | propext, Quot.sound |
| C02 | `C02_violated_type_behind` | propext, Classical.choice, Quot.sound |
| C03 | `C03_closed_is_null` | propext, Classical.choice, Quot.sound |
| C03 | `C03_lenses` | propext, Classical.choice, Quot.sound |
| C03 | `C03_same_answers` | propext, Classical.choice, Quot.sound |
| C04 | `C04_hover_answered_partial` | propext, Classical.choice, Quot.sound |
| C04 | `C04_replies_partial` | propext, Classical.choice, Quot.sound |
| C04 | `C04_violated_big_macro_number` | propext, Classical.choice, Quot.sound |
| C04 | `C04_violated_invalid_json` | propext, Classical.choice, Quot.sound |
| C04 | `C04_violated_resolve_first` | propext, Classical.choice, Quot.sound |
| C04 | `C04_framed` | propext, Classical.choice, Quot.sound |
| C05 | `C05_stops` | propext, Classical.choice, Quot.sound |
| C05 | `C05_stops_iff` | propext, Classical.choice, Quot.sound |
| C06 | `C06_server_messages` | propext, Classical.choice, Quot.sound |
| C06 | `C06_messages` | propext, Classical.choice, Quot.sound |
| C06 | `C06_diagnostics_partial` | propext, Classical.choice, Quot.sound |
| C06 | `C06_violated_colon` | propext, Classical.choice, Quot.sound |
| C06 | `C06_violated_line_one` | propext, Classical.choice, Quot.sound |
| C07 | `C07_document_lines` | propext, Quot.sound |
| C07 | `C07_checked_lines` | propext, Quot.sound |
| C07 | `C07_same_line` | propext, Quot.sound |
| C08 | `C08_settings_always_reported_partial` | propext, Classical.choice, Quot.sound |
| C08 | `C08_grammar_first_reported_partial` | propext, Classical.choice, Quot.sound |
| C08 | `C08_second_event_silent` | propext, Classical.choice, Quot.sound |
| C08 | `C08_violated` | propext, Classical.choice, Quot.sound |
| C08 | `C08_violated_missing` | propext, Classical.choice, Quot.sound |
| C08 | `C08_violated_descriptions` | propext, Classical.choice, Quot.sound |
| C09 | `C09_exact` | propext, Quot.sound |
| C09 | `C09_range_sound` | propext, Classical.choice, Quot.sound |
| C09 | `C09_range_found_partial` | propext, Classical.choice, Quot.sound |
| C09 | `C09_hover_text` | propext, Classical.choice, Quot.sound |
| C09 | `C09_violated_end_point` | propext, Classical.choice, Quot.sound |
| C10 | `C10_value_in_effect` | propext, Classical.choice, Quot.sound |
| C10 | `C10_missing_iff` | propext, Classical.choice, Quot.sound |
| C10 | `C10_unaffected` | propext, Classical.choice, Quot.sound |
| C11 | `C11_expression_value_in_effect_partial` | propext, Classical.choice, Quot.sound |
| C11 | `C11_violated` | propext, Classical.choice, Quot.sound |
| C12 | `C12_first_evaluation_records_partial` | propext, Classical.choice, Quot.sound |
| C12 | `C12_violated` | propext, Classical.choice, Quot.sound |
| C13 | `C13_expression_value` | propext, Classical.choice, Quot.sound |
| C13 | `C13_expression_value_before_close` | propext, Classical.choice, Quot.sound |
| C14 | `C14_bin_digits` | propext, Classical.choice, Quot.sound |
| C14 | `C14_bcd_of_bin` | propext, Classical.choice, Quot.sound |
| C15 | `C15_accepted_has_expression_prefix_partial` | propext, Classical.choice, Quot.sound |
| C15 | `C15_accepted_assignment_partial` | propext, Classical.choice, Quot.sound |
| C15 | `C15_expression_needs_value_partial` | propext, Classical.choice, Quot.sound |
| C15 | `C15_violated` | propext, Classical.choice, Quot.sound |
| C16 | `C16_structure` | propext, Classical.choice, Quot.sound |
| C16 | `C16_untouched` | propext, Classical.choice, Quot.sound |
| C16 | `C16_switch` | propext, Classical.choice, Quot.sound |
| C16 | `C16_violated_before_dwell` | propext, Classical.choice, Quot.sound |
| C17 | `C17_accuracy_partial` | propext, Classical.choice, Quot.sound |
| C17 | `C17_violated` | propext, Classical.choice, Quot.sound |
| C18 | `C18_rotates_points` | propext, Classical.choice, Quot.sound |
| C18 | `C18_full_turn` | propext, Classical.choice, Quot.sound |
| C18 | `C18_frame` | propext, Classical.choice, Quot.sound |
| C18 | `C18_compose` | propext, Classical.choice, Quot.sound |
| C18 | `C18_planes` | propext, Classical.choice, Quot.sound |
| C19 | `C19_arcs_in_G17_partial` | propext, Classical.choice, Quot.sound |
| C19 | `C19_violated_composition` | propext, Classical.choice, Quot.sound |
| C19 | `C19_violated` | propext, Classical.choice, Quot.sound |
| C19 | `C19_z_axis_keeps` | propext, Classical.choice, Quot.sound |
| C20 | `C20_sequence` | propext, Classical.choice, Quot.sound |
| C20 | `C20_plain_number` | propext, Classical.choice, Quot.sound |
| C20 | `C20_violated_macro_number` | propext, Classical.choice, Quot.sound |
| C21 | `C21_only_number_changes` | propext, Classical.choice, Quot.sound |
| C21 | `C21_protected` | propext, Classical.choice, Quot.sound |
| C21 | `C21_remove` | propext, Classical.choice, Quot.sound |
| C22 | `C22_lossless_by_count` | propext, Classical.choice, Quot.sound |
| C22 | `C22_lossless_by_tool` | propext, Classical.choice, Quot.sound |
| C22 | `C22_lossless_by_work` | propext, Classical.choice, Quot.sound |
| C22 | `C22_lossless_by_text` | propext, Classical.choice, Quot.sound |
| C22 | `C22_succeeds` | propext, Classical.choice, Quot.sound |
| C23 | `C23_at_least` | propext, Classical.choice, Quot.sound |
| C23 | `C23_exact` | propext, Classical.choice, Quot.sound |
| C23 | `C23_only_cycles_delay` | propext, Classical.choice, Quot.sound |
| C23 | `C23_not_in_cycle` | propext, Classical.choice, Quot.sound |
| C23 | `C23_rapid_only` | propext, Classical.choice, Quot.sound |
| C24 | `C24_violated` | propext, Classical.choice, Quot.sound |
| C24 | `C24_text_split_partial` | propext, Classical.choice, Quot.sound |
| C25 | `C25_history` | propext, Classical.choice, Quot.sound |
| C25 | `C25_failed` | propext, Classical.choice, Quot.sound |
| C25 | `C25_position` | propext, Classical.choice, Quot.sound |
| C25 | `C25_exchange` | propext, Classical.choice, Quot.sound |
| C25 | `C25_home` | propext, Classical.choice, Quot.sound |
| C25 | `C25_position_modal` | propext, Classical.choice, Quot.sound |
| C26 | `C26_violated_failed` | propext, Classical.choice, Quot.sound |
| C26 | `C26_violated_decreases` | propext, Classical.choice, Quot.sound |
| C26 | `C26_violated_dwell` | propext, Classical.choice, Quot.sound |
| C26 | `C26_path_grows_partial` | propext, Classical.choice, Quot.sound |
| C26 | `C26_time_grows_partial` | propext, Classical.choice, Quot.sound |
| C26 | `C26_path` | propext, Classical.choice, Quot.sound |
| C26 | `C26_failed_partial` | propext, Classical.choice, Quot.sound |
| C26 | `C26_program` | propext, Classical.choice, Quot.sound |
| C26 | `C26_time_partial` | propext, Classical.choice, Quot.sound |
| C27 | `C27_reset_partial` | propext, Classical.choice, Quot.sound |
| C27 | `C27_reset_iff` | propext, Classical.choice, Quot.sound |
| C27 | `C27_violated_pending` | propext, Classical.choice, Quot.sound |
| C28 | `C28_suffix_partial` | propext, Classical.choice, Quot.sound |
| C28 | `C28_skipped` | propext, Classical.choice, Quot.sound |
| C28 | `C28_violated_string` | propext, Classical.choice, Quot.sound |
| C28 | `C28_violated_refused` | propext, Classical.choice, Quot.sound |
| C29 | `C29_line` | propext, Classical.choice, Quot.sound |
| C29 | `C29_line_incremental` | propext, Classical.choice, Quot.sound |
| C29 | `C29_line_metric` | propext, Classical.choice, Quot.sound |
| C29 | `C29_arc_bounds` | propext, Classical.choice, Quot.sound |
| C29 | `C29_arc_bounds_R` | propext, Classical.choice, Quot.sound |
| C29 | `C29_full_circle_partial` | propext, Classical.choice, Quot.sound |
| C29 | `C29_violated_tiny` | propext, Classical.choice, Quot.sound |
| C29 | `C29_planes_partial` | propext, Classical.choice, Quot.sound |
| C29 | `C29_turning_partial` | propext, Classical.choice, Quot.sound |
| C30 | `C30_unique` | propext, Quot.sound |
| C30 | `C30_rejection` | propext, Quot.sound |
| C30 | `C30_same_word` | propext, Classical.choice, Quot.sound |
| C31 | `C31_groups` | propext, Classical.choice, Quot.sound |
| C31 | `C31_rejection` | propext, Classical.choice, Quot.sound |
| C31 | `C31_missing_variable` | propext, Classical.choice, Quot.sound |
| C32 | `C32_off` | propext, Classical.choice, Quot.sound |
| C32 | `C32_once` | propext, Classical.choice, Quot.sound |
| C32 | `C32_on` | propext, Classical.choice, Quot.sound |
| C33 | `C33_limits_partial` | propext, Classical.choice, Quot.sound |
| C33 | `C33_violated_fraction` | propext, Classical.choice, Quot.sound |
| C33 | `C33_violated_sign` | propext, Classical.choice, Quot.sound |
| C33 | `C33_exact` | propext, Classical.choice, Quot.sound |
| C34 | `C34_travel` | propext, Classical.choice, Quot.sound |
| C34 | `C34_rejection` | propext, Classical.choice, Quot.sound |
| C35 | `C35_ordinary_partial` | propext, Classical.choice, Quot.sound |
| C35 | `C35_history_partial` | propext, Classical.choice, Quot.sound |
| C35 | `C35_violated_accepts` | propext, Classical.choice, Quot.sound |
| C35 | `C35_violated_refuses` | propext, Classical.choice, Quot.sound |
| C36 | `C36_ranges` | propext, Classical.choice, Quot.sound |
| C36 | `C36_fractions` | propext, Classical.choice, Quot.sound |
| C36 | `C36_macros` | propext, Classical.choice, Quot.sound |
| C36 | `C36_violated` | propext, Classical.choice, Quot.sound |
| C36 | `C36_optional_blocks` | propext, Classical.choice, Quot.sound |
| C37 | `C37_round_trip_partial` | propext, Classical.choice, Quot.sound |
| C37 | `C37_mill_partial` | propext, Classical.choice, Quot.sound |
| C37 | `C37_violated` | propext, Classical.choice, Quot.sound |
| C38 | `C38_success_partial` | propext, Classical.choice, Quot.sound |
| C38 | `C38_success_off_partial` | propext, Classical.choice, Quot.sound |
| C38 | `C38_failure_partial` | propext, Classical.choice, Quot.sound |
| C38 | `C38_violated` | propext, Classical.choice, Quot.sound |
| C39 | `C39_line_partial` | propext, Classical.choice, Quot.sound |
| C39 | `C39_program_partial` | propext, Classical.choice, Quot.sound |
| C39 | `C39_violated` | propext, Classical.choice, Quot.sound |
| C40 | `C40_words_read_back` | propext, Classical.choice, Quot.sound |
| C40 | `C40_words_released` | propext, Classical.choice, Quot.sound |
| C40 | `C40_split_read_back` | propext, Classical.choice, Quot.sound |
| C40 | `C40_split_released` | propext, Classical.choice, Quot.sound |
| C40 | `C40_texts_partial` | propext, Classical.choice, Quot.sound |
| C40 | `C40_violated_empty_part` | propext, Classical.choice, Quot.sound |
| C40 | `C40_macros` | propext, Classical.choice, Quot.sound |
| C40 | `C40_line_macros` | propext, Classical.choice, Quot.sound |
| C41 | `C41_text_exists` | none |
| C41 | `C41_arguments_kept` | propext, Quot.sound |
| C41 | `C41_no_arguments` | propext, Quot.sound |
| C41 | `C41_texts_distinct` | none |
| C42 | `C42_comments` | propext, Classical.choice, Quot.sound |
| C42 | `C42_comments_idempotent` | propext, Classical.choice, Quot.sound |
| C42 | `C42_marks` | propext, Classical.choice, Quot.sound |
| C42 | `C42_marks_idempotent` | propext, Classical.choice, Quot.sound |
| C43 | `C43_time` | propext, Classical.choice, Quot.sound |
| C44 | `C44_same_number` | propext, Classical.choice, Quot.sound |
| C44 | `C44_accuracy` | propext, Classical.choice, Quot.sound |
| C44 | `C44_no_trailing` | propext, Classical.choice, Quot.sound |
| C45 | `C45_names` | none |
| C45 | `C45_distinct` | none |
| C45 | `C45_streams` | propext |
| C45 | `C45_violated_rotation` | none |
| C45 | `C45_rotation_partial` | none |
| C45 | `C45_heidenhain` | none |
| C46 | `C46_points_partial` | propext, Classical.choice, Quot.sound |
| C46 | `C46_right_iff_partial` | propext, Classical.choice, Quot.sound |
| C46 | `C46_violated` | propext, Classical.choice, Quot.sound |
| C47 | `C47_stable_partial` | propext, Classical.choice, Quot.sound |
| C47 | `C47_violated_grows` | propext, Classical.choice, Quot.sound |
| C47 | `C47_offers_each_once` | propext, Classical.choice, Quot.sound |
| C47 | `C47_violated_duplicate` | propext |
| C48 | `C48_hover_range` | propext, Classical.choice, Quot.sound |
| C48 | `C48_code_found` | propext, Classical.choice, Quot.sound |
| C49 | `C49_last_word_value` | propext, Classical.choice, Quot.sound |
| C49 | `C49_others_unchanged` | propext, Classical.choice, Quot.sound |
| C49 | `C49_accepts` | propext, Classical.choice, Quot.sound |
| C49 | `C49_missing_value_throws` | propext, Classical.choice, Quot.sound |
| C50 | `C50_substitution_partial` | propext, Classical.choice, Quot.sound |
| C50 | `C50_missing_reported` | propext, Classical.choice, Quot.sound |
| C50 | `C50_violated` | propext, Classical.choice, Quot.sound |
| C51 | `C51_prompts_partial` | propext, Quot.sound |
| C51 | `C51_violated_same_file` | propext, Quot.sound |
| C51 | `C51_violated_hidden_toggle` | propext, Quot.sound |
| C52 | `C52_functions_supported_partial` | propext, Classical.choice, Quot.sound |
| C52 | `C52_violated_sinh` | propext, Classical.choice, Quot.sound |
| C53 | `C53_tool_parts` | propext, Classical.choice, Quot.sound |
| C53 | `C53_first_part` | propext, Classical.choice, Quot.sound |
| C54 | `C54_at_least` | propext, Classical.choice, Quot.sound |
| C54 | `C54_no_more_than_needed` | propext, Classical.choice, Quot.sound |
| C54 | `C54_only_cycles_delay` | propext, Classical.choice, Quot.sound |
| C55 | `C55_first_rapid_block_partial` | propext, Classical.choice, Quot.sound |
| C55 | `C55_violated` | propext, Classical.choice, Quot.sound |
| C56 | `C56_groups` | propext, Classical.choice, Quot.sound |
| C56 | `C56_grammar` | propext, Classical.choice, Quot.sound |
| C57 | `C57_violated_text_behind_nul` | propext, Classical.choice, Quot.sound |
| C57 | `C57_violated_names` | propext, Classical.choice, Quot.sound |
| C57 | `C57_whole_text_partial` | propext, Classical.choice, Quot.sound |
| C58 | `C58_same_diagnostics` | propext, Classical.choice, Quot.sound |
| C59 | `C59_answers_read_back` | propext, Classical.choice, Quot.sound |
| C59 | `C59_session` | propext, Classical.choice, Quot.sound |
| C59 | `C59_unambiguous` | propext, Quot.sound |
| C60 | `C60_helix_lower_partial` | propext, Classical.choice, Quot.sound |
| C60 | `C60_violated_helix` | propext, Classical.choice, Quot.sound |
| C60 | `C60_quarters` | propext, Classical.choice, Quot.sound |
| C60 | `C60_radius_or_centre` | propext, Classical.choice, Quot.sound |
| C60 | `C60_blocks_partial` | propext, Classical.choice, Quot.sound |
| C60 | `C60_violated_arc_after` | propext, Classical.choice, Quot.sound |
| C60 | `C60_violated_origin` | propext, Classical.choice, Quot.sound |
| C60 | `C60_violated_old_centre` | propext, Classical.choice, Quot.sound |
| C61 | `C61_spiral` | propext, Classical.choice, Quot.sound |
| C61 | `C61_spiral_increment` | propext, Classical.choice, Quot.sound |
| C61 | `C61_violated_zero` | propext, Classical.choice, Quot.sound |
| C62 | `C62_work` | propext, Classical.choice, Quot.sound |
| C62 | `C62_rapid_g99` | propext, Classical.choice, Quot.sound |
| C62 | `C62_rapid_g98_iff_partial` | propext, Classical.choice, Quot.sound |
| C62 | `C62_violated_negative_R` | propext, Classical.choice, Quot.sound |
| C62 | `C62_incremental_depth_g99` | propext, Classical.choice, Quot.sound |
| C62 | `C62_incremental_depth_g98_iff_partial` | propext, Classical.choice, Quot.sound |
| C62 | `C62_violated_negative_work` | propext, Classical.choice, Quot.sound |
| C62 | `C62_tapping` | propext, Classical.choice, Quot.sound |
| C62 | `C62_G91` | propext, Classical.choice, Quot.sound |
| C62 | `C62_G91_tapping_partial` | propext, Classical.choice, Quot.sound |
| C62 | `C62_peck_total` | propext, Classical.choice, Quot.sound |
| C62 | `C62_peck_G91` | propext, Classical.choice, Quot.sound |
| C62 | `C62_violated_Q0` | propext, Quot.sound |
| C62 | `C62_violated_modes` | propext, Classical.choice, Quot.sound |
| C62 | `C62_fine` | propext, Quot.sound |
| C62 | `C62_fine_depth` | propext, Classical.choice, Quot.sound |
| C62 | `C62_fine_G91_partial` | propext, Classical.choice, Quot.sound |
| C62 | `C62_back` | propext, Classical.choice, Quot.sound |
| C62 | `C62_violated_back_G91` | propext, Classical.choice, Quot.sound |
| C62 | `C62_bites_partial` | propext, Classical.choice, Quot.sound |
| C62 | `C62_chip_G91_partial` | propext, Classical.choice, Quot.sound |
| C62 | `C62_chip_partial` | propext, Classical.choice, Quot.sound |
| C63 | `C63_R` | propext, Classical.choice, Quot.sound |
| C63 | `C63_R_agree` | propext, Classical.choice, Quot.sound |
| C63 | `C63_IJ_partial` | propext, Classical.choice, Quot.sound |
| C63 | `C63_violated_quarter` | propext, Classical.choice, Quot.sound |
| C63 | `C63_violated_three_quarters` | propext, Classical.choice, Quot.sound |
| C63 | `C63_violated_unreachable` | propext, Classical.choice, Quot.sound |
| C64 | `C64_arc_exact_iff_partial` | propext, Classical.choice, Quot.sound |
| C64 | `C64_arc_wrong_way` | propext, Classical.choice, Quot.sound |
| C64 | `C64_violated_three_quarters` | propext, Classical.choice, Quot.sound |
| C64 | `C64_arc_R` | propext, Classical.choice, Quot.sound |
| C66 | `C66_tool_totals` | propext, Classical.choice, Quot.sound |
| C66 | `C66_violated_no_tool` | propext, Classical.choice, Quot.sound |
| C67 | `C67_order` | propext, Classical.choice, Quot.sound |
| C67 | `C67_needs_unambiguous` | propext, Classical.choice, Quot.sound |
| C68 | `C68_line_partial` | propext, Classical.choice, Quot.sound |
| C71 | `C71_shown_partial` | propext, Classical.choice, Quot.sound |
| C71 | `C71_line_partial` | propext, Classical.choice, Quot.sound |
| C71 | `C71_euclidean_partial` | propext, Classical.choice, Quot.sound |
| C71 | `C71_arc_partial` | propext, Classical.choice, Quot.sound |
| C71 | `C71_full_circle_partial` | propext, Classical.choice, Quot.sound |
| C71 | `C71_turning_partial` | propext, Classical.choice, Quot.sound |
| C71 | `C71_violated_lathe_G19` | propext, Classical.choice, Quot.sound |
| C72 | `C72_toggle_partial` | propext, Quot.sound |
| C72 | `C72_violated_workspace` | propext, Quot.sound |
| C73 | `C73_lenses` | propext, Classical.choice, Quot.sound |
| C74 | `C74_resolved` | propext, Classical.choice, Quot.sound |
| C74 | `C74_resolved_macro` | propext, Classical.choice, Quot.sound |
| C74 | `C74_hovered` | propext, Classical.choice, Quot.sound |
| C74 | `C74_undescribed` | propext, Classical.choice, Quot.sound |
| C75 | `C75_off` | propext, Classical.choice, Quot.sound |
| C69 | `C69_hold_partial` | propext, Classical.choice, Quot.sound |
| C69 | `C69_before_motion_partial` | propext, Classical.choice, Quot.sound |
| C69 | `C69_violated_lost` | propext, Classical.choice, Quot.sound |
| C69 | `C69_violated_before` | propext, Classical.choice, Quot.sound |
| C77 | `C77_shown_partial` | propext, Classical.choice, Quot.sound |
| C77 | `C77_time_partial` | propext, Classical.choice, Quot.sound |
| C77 | `C77_feed_needed` | propext, Classical.choice, Quot.sound |
| C77 | `C77_surface_partial` | propext, Classical.choice, Quot.sound |
| C77 | `C77_violated_mill` | propext, Classical.choice, Quot.sound |
| C77 | `C77_violated_F0` | propext, Classical.choice, Quot.sound |
| C77 | `C77_violated_surface` | propext, Classical.choice, Quot.sound |
| C70 | `C70_cancel` | propext, Classical.choice, Quot.sound |
| C70 | `C70_cancelled` | propext, Classical.choice, Quot.sound |
| C70 | `C70_next_hole_partial` | propext, Classical.choice, Quot.sound |
| C70 | `C70_position_only` | propext, Classical.choice, Quot.sound |
| C70 | `C70_levels_needed` | propext, Classical.choice, Quot.sound |
| C70 | `C70_repeat_partial` | propext, Classical.choice, Quot.sound |
| C70 | `C70_pattern_partial` | propext, Classical.choice, Quot.sound |
| C70 | `C70_first_hole_partial` | propext, Classical.choice, Quot.sound |
| C70 | `C70_first_tap_partial` | propext, Classical.choice, Quot.sound |
| C70 | `C70_first_fine_partial` | propext, Classical.choice, Quot.sound |
| C70 | `C70_violated_depth` | propext, Classical.choice, Quot.sound |
| C70 | `C70_violated_cycle` | propext, Classical.choice, Quot.sound |
| C70 | `C70_violated_K` | propext, Classical.choice, Quot.sound |
| C70 | `C70_violated_row` | propext, Classical.choice, Quot.sound |
| C70 | `C70_violated_lathe` | propext, Classical.choice, Quot.sound |
| C70 | `C70_violated_G18` | propext, Classical.choice, Quot.sound |
| C78 | `C78_block` | propext, Classical.choice, Quot.sound |
| C78 | `C78_program` | propext, Classical.choice, Quot.sound |
| C78 | `C78_variables` | propext, Classical.choice, Quot.sound |
| C78 | `C78_other_variables` | propext, Classical.choice, Quot.sound |
| C78 | `C78_violated_prepared` | propext, Classical.choice, Quot.sound |
| C79 | `C79_block_partial` | propext, Classical.choice, Quot.sound |
| C79 | `C79_program_partial` | propext, Classical.choice, Quot.sound |
| C79 | `C79_violated_no_bite` | propext, Classical.choice, Quot.sound |
| C79 | `C79_violated_zero_bite` | propext, Classical.choice, Quot.sound |
| C79 | `C79_violated_holes` | propext, Classical.choice, Quot.sound |
| C79 | `C79_violated_exchange` | propext, Classical.choice, Quot.sound |
| C79 | `C79_violated_after_helix` | propext, Classical.choice, Quot.sound |
| C65 | `C65_dwell_partial` | propext, Classical.choice, Quot.sound |
| C65 | `C65_violated_moves` | propext, Classical.choice, Quot.sound |
| C65 | `C65_violated_cuts` | propext, Classical.choice, Quot.sound |
| C65 | `C65_violated_hole` | propext, Classical.choice, Quot.sound |
| C80 | `C80_idle_partial` | propext, Classical.choice, Quot.sound |
| C80 | `C80_no_time` | propext, Classical.choice, Quot.sound |
| C80 | `C80_violated_unplaced` | propext, Classical.choice, Quot.sound |
| C81 | `C81_in_force` | propext, Classical.choice, Quot.sound |
| C81 | `C81_start` | propext, Classical.choice, Quot.sound |
| C81 | `C81_times_partial` | propext, Classical.choice, Quot.sound |
| C81 | `C81_points` | propext, Classical.choice, Quot.sound |
| C81 | `C81_text_partial` | propext, Classical.choice, Quot.sound |
| C81 | `C81_exact_partial` | propext, Classical.choice, Quot.sound |
| C81 | `C81_order` | propext, Classical.choice, Quot.sound |
| C81 | `C81_missing` | propext, Classical.choice, Quot.sound |
| C81 | `C81_usable` | propext, Classical.choice, Quot.sound |
| C81 | `C81_violated_heidenhain` | propext, Classical.choice, Quot.sound |
| C81 | `C81_violated_truth` | propext, Classical.choice, Quot.sound |
| C82 | `C82_tables_partial` | propext, Classical.choice, Quot.sound |
| C82 | `C82_accepted` | propext, Classical.choice, Quot.sound |
| C82 | `C82_violated_kept` | propext, Classical.choice, Quot.sound |
| C82 | `C82_violated_negative` | propext |
| C83 | `C83_groups` | propext, Classical.choice, Quot.sound |
| C83 | `C83_accepted` | propext, Classical.choice, Quot.sound |
| C84 | `C84_line_partial` | propext, Classical.choice, Quot.sound |
| C84 | `C84_document_partial` | propext, Classical.choice, Quot.sound |
| C84 | `C84_fresh_partial` | propext, Classical.choice, Quot.sound |
| C84 | `C84_violated_each` | propext, Classical.choice, Quot.sound |
| C84 | `C84_violated_function` | propext, Classical.choice, Quot.sound |
| C84 | `C84_violated_open` | propext, Classical.choice, Quot.sound |
| C84 | `C84_violated_dot` | propext, Classical.choice, Quot.sound |
| C84 | `C84_violated_hash` | propext, Classical.choice, Quot.sound |
| C85 | `C85_line_partial` | propext, Classical.choice, Quot.sound |
| C85 | `C85_refused_partial` | propext, Classical.choice, Quot.sound |
| C85 | `C85_program_partial` | propext, Classical.choice, Quot.sound |
| C85 | `C85_words_partial` | propext, Classical.choice, Quot.sound |
| C86 | `C86_line` | propext, Classical.choice, Quot.sound |
| C86 | `C86_program_partial` | propext, Classical.choice, Quot.sound |
| C87 | `C87_variables_clean_partial` | propext, Classical.choice, Quot.sound |
| C87 | `C87_no_value_partial` | propext, Classical.choice, Quot.sound |
| C87 | `C87_variables_first_partial` | propext, Classical.choice, Quot.sound |
| C87 | `C87_missing_partial` | propext, Classical.choice, Quot.sound |
| C87 | `C87_clean_partial` | propext, Classical.choice, Quot.sound |
| C87 | `C87_first_partial` | propext, Classical.choice, Quot.sound |
| C88 | `C88_endures_partial` | propext, Classical.choice, Quot.sound |
| C88 | `C88_violated_hover` | propext, Classical.choice, Quot.sound |
| C88 | `C88_violated_open` | propext, Classical.choice, Quot.sound |
| C89 | `C89_nothing_lost` | propext, Classical.choice, Quot.sound |
| C89 | `C89_same_text` | propext, Classical.choice, Quot.sound |
| C89 | `C89_violated_name` | propext, Classical.choice, Quot.sound |
| C90 | `C90_hover_above` | propext, Classical.choice, Quot.sound |
| C90 | `C90_diagnostics_above` | propext, Classical.choice, Quot.sound |
| C91 | `C91_start` | propext, Classical.choice, Quot.sound |
| C91 | `C91_blank` | propext, Classical.choice, Quot.sound |
| C91 | `C91_kept` | propext, Classical.choice, Quot.sound |
| C91 | `C91_words` | propext, Classical.choice, Quot.sound |
| C91 | `C91_assigned` | propext, Classical.choice, Quot.sound |
| C91 | `C91_others` | propext, Classical.choice, Quot.sound |
| C91 | `C91_used` | propext, Classical.choice, Quot.sound |
| C91 | `C91_shown` | propext, Classical.choice, Quot.sound |
| C91 | `C91_violated_no_equals` | propext, Classical.choice, Quot.sound |
| C92 | `C92_program_partial` | propext, Classical.choice, Quot.sound |
| C92 | `C92_silent_line_partial` | propext, Classical.choice, Quot.sound |
| C93 | `C93_told` | propext, Classical.choice, Quot.sound |
| C93 | `C93_uncomment` | propext, Classical.choice, Quot.sound |
| C93 | `C93_uncomment_run_partial` | propext, Classical.choice, Quot.sound |
| C93 | `C93_unnumber` | propext, Classical.choice, Quot.sound |
| C93 | `C93_unnumber_run_partial` | propext, Classical.choice, Quot.sound |
| C93 | `C93_renumber` | propext, Classical.choice, Quot.sound |
| C93 | `C93_renumber_run_partial` | propext, Classical.choice, Quot.sound |
| C93 | `C93_rotate` | propext, Classical.choice, Quot.sound |
| C93 | `C93_violated_uncomment` | propext, Classical.choice, Quot.sound |
| C93 | `C93_violated_second_number` | propext, Classical.choice, Quot.sound |
| C93 | `C93_violated_rotate` | propext, Classical.choice, Quot.sound |
| C93 | `C93_violated_convert` | propext, Classical.choice, Quot.sound |
| C94 | `C94_whole` | propext, Classical.choice, Quot.sound |
| C94 | `C94_written` | propext, Classical.choice, Quot.sound |
| C94 | `C94_again` | propext, Classical.choice, Quot.sound |
| C94 | `C94_violated_fraction` | propext |
| C94 | `C94_violated_id` | propext |
| C95 | `C95_history` | propext, Classical.choice, Quot.sound |
| C95 | `C95_safe` | propext, Classical.choice, Quot.sound |
| C95 | `C95_violated_settings` | propext, Classical.choice, Quot.sound |
| C96 | `C96_position` | propext, Classical.choice, Quot.sound |
| C96 | `C96_told` | propext, Classical.choice, Quot.sound |
| C96 | `C96_number` | propext, Quot.sound |
| C96 | `C96_violated_blank` | propext, Classical.choice, Quot.sound |
| C96 | `C96_violated_kept` | propext, Quot.sound |
| C97 | `C97_verdict_partial` | propext, Classical.choice, Quot.sound |
| C97 | `C97_violated_words` | propext, Classical.choice, Quot.sound |
| C98 | `C98_line` | propext, Classical.choice, Quot.sound |
| C98 | `C98_effect` | propext, Classical.choice, Quot.sound |
| C98 | `C98_no_value` | propext, Classical.choice, Quot.sound |
| C98 | `C98_program_partial` | propext, Classical.choice, Quot.sound |
| C98 | `C98_violated_mod` | propext, Classical.choice, Quot.sound |
| C98 | `C98_violated_history` | propext, Classical.choice, Quot.sound |
| C99 | `C99_line_partial` | propext, Classical.choice, Quot.sound |
| C99 | `C99_program_partial` | propext, Classical.choice, Quot.sound |
| C99 | `C99_missing` | propext, Classical.choice, Quot.sound |
| C99 | `C99_violated_sign` | propext, Classical.choice, Quot.sound |
| C99 | `C99_violated_decimals` | propext, Classical.choice, Quot.sound |
| C99 | `C99_violated_units` | propext, Classical.choice, Quot.sound |
| C99 | `C99_violated_equals` | propext, Classical.choice, Quot.sound |
| C100 | `C100_words_partial` | propext, Classical.choice, Quot.sound |
| C100 | `C100_text` | propext, Classical.choice, Quot.sound |
| C100 | `C100_flaw` | propext, Classical.choice, Quot.sound |
| C101 | `C101_block_partial` | propext, Classical.choice, Quot.sound |
| C101 | `C101_program_partial` | propext, Classical.choice, Quot.sound |
| C101 | `C101_start_partial` | propext, Classical.choice, Quot.sound |
| C101 | `C101_turned_partial` | propext, Classical.choice, Quot.sound |
| C102 | `C102_settings_partial` | propext, Classical.choice, Quot.sound |
| C102 | `C102_violated_time` | propext, Classical.choice, Quot.sound |
| C102 | `C102_violated_change` | propext, Classical.choice, Quot.sound |
| C102 | `C102_violated_limit` | propext, Classical.choice, Quot.sound |
| C103 | `C103_texts` | propext, Classical.choice, Quot.sound |
| C103 | `C103_read` | propext |
| C103 | `C103_same` | propext |
| C103 | `C103_ready` | propext, Classical.choice, Quot.sound |
| C103 | `C103_codes` | propext, Classical.choice, Quot.sound |
| C103 | `C103_documents_partial` | propext, Classical.choice, Quot.sound |
| C103 | `C103_variables_partial` | propext, Classical.choice, Quot.sound |
| C104 | `C104_shown_partial` | propext, Classical.choice, Quot.sound |
| C104 | `C104_violated_generic` | propext, Classical.choice, Quot.sound |
| C105 | `C105_amount_partial` | propext, Classical.choice, Quot.sound |
| C105 | `C105_no_more_partial` | propext, Classical.choice, Quot.sound |
| C105 | `C105_exact_partial` | propext, Classical.choice, Quot.sound |
| C105 | `C105_violated_blank` | propext, Classical.choice, Quot.sound |
| C105 | `C105_violated_history` | propext, Classical.choice, Quot.sound |
| C105 | `C105_violated_parameter` | propext, Classical.choice, Quot.sound |
| C106 | `C106_complete` | propext, Classical.choice, Quot.sound |
| C106 | `C106_again` | propext, Classical.choice, Quot.sound |
| C106 | `C106_run_partial` | propext, Classical.choice, Quot.sound |
| C106 | `C106_text` | propext, Classical.choice, Quot.sound |
| C106 | `C106_violated_text` | propext, Classical.choice, Quot.sound |
| C107 | `C107_file_partial` | propext, Classical.choice, Quot.sound |
| C107 | `C107_export_partial` | propext, Classical.choice, Quot.sound |
| C107 | `C107_imported` | propext, Classical.choice, Quot.sound |
| C107 | `C107_text` | propext, Classical.choice, Quot.sound |
| C107 | `C107_export_text` | propext, Classical.choice, Quot.sound |
| C108 | `C108_back_partial` | propext, Classical.choice, Quot.sound |
| C108 | `C108_same_partial` | propext, Classical.choice, Quot.sound |
| C108 | `C108_settings` | propext, Classical.choice, Quot.sound |
| C108 | `C108_violated_feed` | propext, Classical.choice, Quot.sound |
| C108 | `C108_violated_point` | propext, Classical.choice, Quot.sound |
| C108 | `C108_violated_range` | propext, Classical.choice, Quot.sound |
| C108 | `C108_violated_base` | propext, Classical.choice, Quot.sound |
| C108 | `C108_violated_pallet` | propext, Classical.choice, Quot.sound |
| C109 | `C109_parse_partial` | propext, Classical.choice, Quot.sound |
| C109 | `C109_call_partial` | propext, Classical.choice, Quot.sound |
| C109 | `C109_violated_answer` | propext, Classical.choice, Quot.sound |
| C109 | `C109_macros` | propext, Classical.choice, Quot.sound |
| C109 | `C109_line_macros` | propext, Classical.choice, Quot.sound |
| C109 | `C109_path` | propext, Classical.choice, Quot.sound |
| C109 | `C109_split_partial` | propext, Classical.choice, Quot.sound |
| C109 | `C109_violated_split` | propext, Classical.choice, Quot.sound |
| C109 | `C109_texts_partial` | propext, Classical.choice, Quot.sound |
| C109 | `C109_violated_texts` | propext, Classical.choice, Quot.sound |
| C110 | `C110_file` | propext, Classical.choice, Quot.sound |
| C110 | `C110_taken` | propext, Classical.choice, Quot.sound |
| C110 | `C110_violated_null` | propext, Classical.choice, Quot.sound |
| C110 | `C110_same_partial` | propext, Classical.choice, Quot.sound |
| C110 | `C110_parser` | propext, Classical.choice, Quot.sound |
| C110 | `C110_split` | propext |
| C110 | `C110_renumber` | propext |
| C110 | `C110_violated_split` | propext |
| C111 | `C111_read` | propext, Classical.choice, Quot.sound |
| C111 | `C111_write_partial` | propext, Classical.choice, Quot.sound |
| C111 | `C111_back_partial` | propext, Classical.choice, Quot.sound |
| C111 | `C111_violated_brace` | propext, Classical.choice, Quot.sound |
| C111 | `C111_violated_path` | propext, Classical.choice, Quot.sound |
| C111 | `C111_violated_sign` | propext, Classical.choice, Quot.sound |
| C112 | `C112_text_partial` | propext, Classical.choice, Quot.sound |
| C112 | `C112_words` | propext, Classical.choice, Quot.sound |
| C112 | `C112_groups` | propext, Classical.choice, Quot.sound |
| C112 | `C112_same_partial` | propext, Classical.choice, Quot.sound |
| C112 | `C112_english_partial` | propext, Classical.choice, Quot.sound |
| C113 | `C113_exact` | propext, Classical.choice, Quot.sound |
| C113 | `C113_single` | propext, Classical.choice, Quot.sound |
| C113 | `C113_layout` | propext, Classical.choice, Quot.sound |
| C113 | `C113_refused` | propext, Classical.choice, Quot.sound |
| C114 | `C114_line` | propext, Classical.choice, Quot.sound |
| C114 | `C114_once` | propext, Classical.choice, Quot.sound |
| C114 | `C114_refused` | propext, Classical.choice, Quot.sound |
| C114 | `C114_help` | propext, Classical.choice, Quot.sound |
| C114 | `C114_violated_idle` | propext, Classical.choice, Quot.sound |
| C114 | `C114_editor_partial` | propext, Classical.choice, Quot.sound |
| C114 | `C114_violated_dash` | propext |
| C115 | `C115_machine` | propext, Classical.choice, Quot.sound |
| C115 | `C115_file_partial` | propext, Classical.choice, Quot.sound |
| C115 | `C115_violated_twice` | propext, Classical.choice, Quot.sound |
| C115 | `C115_form` | propext, Classical.choice, Quot.sound |
| C116 | `C116_back` | propext, Classical.choice, Quot.sound |
| C116 | `C116_distinct` | propext, Classical.choice, Quot.sound |
| C116 | `C116_read` | propext, Quot.sound |
| C116 | `C116_violated_zeroes` | propext, Classical.choice, Quot.sound |
| C117 | `C117_block_partial` | propext, Classical.choice, Quot.sound |
| C117 | `C117_program_partial` | propext, Classical.choice, Quot.sound |
| C117 | `C117_start_partial` | propext, Classical.choice, Quot.sound |
| C117 | `C117_violated_origin` | propext, Classical.choice, Quot.sound |
| C117 | `C117_violated_distances` | propext, Classical.choice, Quot.sound |
| C117 | `C117_violated_depth` | propext, Classical.choice, Quot.sound |
| C118 | `C118_block_partial` | propext, Classical.choice, Quot.sound |
| C118 | `C118_program_partial` | propext, Classical.choice, Quot.sound |
| C118 | `C118_start_partial` | propext, Classical.choice, Quot.sound |
| C118 | `C118_violated_tapping` | propext, Classical.choice, Quot.sound |
| C118 | `C118_violated_pecks` | propext, Classical.choice, Quot.sound |
| C118 | `C118_violated_helix` | propext, Classical.choice, Quot.sound |
| C119 | `C119_block_partial` | propext, Classical.choice, Quot.sound |
| C119 | `C119_program_partial` | propext, Classical.choice, Quot.sound |
| C119 | `C119_violated_home` | propext, Classical.choice, Quot.sound |
| C119 | `C119_violated_arc` | propext, Classical.choice, Quot.sound |
| C119 | `C119_violated_tool` | propext, Classical.choice, Quot.sound |
| C119 | `C119_violated_pending` | propext, Classical.choice, Quot.sound |
| C120 | `C120_block` | propext, Classical.choice, Quot.sound |
| C120 | `C120_program` | propext, Classical.choice, Quot.sound |
| C120 | `C120_start` | propext, Classical.choice, Quot.sound |
| C121 | `C121_block_partial` | propext, Classical.choice, Quot.sound |
| C121 | `C121_program_partial` | propext, Classical.choice, Quot.sound |
| C121 | `C121_start_partial` | propext, Classical.choice, Quot.sound |
| C121 | `C121_violated_cycle` | propext, Classical.choice, Quot.sound |
| C122 | `C122_block_partial` | propext, Classical.choice, Quot.sound |
| C122 | `C122_program_partial` | propext, Classical.choice, Quot.sound |
| C122 | `C122_start_partial` | propext, Classical.choice, Quot.sound |
| C122 | `C122_violated_surface` | propext, Classical.choice, Quot.sound |
| C123 | `C123_block` | propext, Classical.choice, Quot.sound |
| C123 | `C123_program` | propext, Classical.choice, Quot.sound |
| C123 | `C123_start` | propext, Classical.choice, Quot.sound |
| C124 | `C124_block` | propext, Classical.choice, Quot.sound |
| C124 | `C124_program` | propext, Classical.choice, Quot.sound |
| C124 | `C124_repeat` | propext, Classical.choice, Quot.sound |
| C125 | `C125_distance` | propext, Classical.choice, Quot.sound |
| C125 | `C125_visited` | propext, Classical.choice, Quot.sound |
| C125 | `C125_start` | propext, Classical.choice, Quot.sound |
| C126 | `C126_centre_partial` | propext, Classical.choice, Quot.sound |
| C126 | `C126_radius_partial` | propext, Classical.choice, Quot.sound |
| C126 | `C126_block_partial` | propext, Classical.choice, Quot.sound |
| C126 | `C126_program_partial` | propext, Classical.choice, Quot.sound |
| C126 | `C126_violated_reach` | propext, Classical.choice, Quot.sound |
| C126 | `C126_violated_accepted` | propext, Classical.choice, Quot.sound |
| C127 | `C127_G17_G19_partial` | propext, Classical.choice, Quot.sound |
| C127 | `C127_G18_partial` | propext, Classical.choice, Quot.sound |
| C127 | `C127_block_partial` | propext, Classical.choice, Quot.sound |
| C127 | `C127_violated_G18` | propext, Classical.choice, Quot.sound |
| C127 | `C127_violated_program` | propext, Classical.choice, Quot.sound |
| C128 | `C128_arc` | propext, Classical.choice, Quot.sound |
| C128 | `C128_radius` | propext, Classical.choice, Quot.sound |
| C128 | `C128_program` | propext, Classical.choice, Quot.sound |
| C129 | `C129_told_iff_partial` | propext, Classical.choice, Quot.sound |
| C129 | `C129_asked_partial` | propext, Classical.choice, Quot.sound |
| C129 | `C129_flaw_iff_partial` | propext, Classical.choice, Quot.sound |
| C129 | `C129_violated_comment` | propext, Classical.choice, Quot.sound |
| C129 | `C129_violated_flaw` | propext, Classical.choice, Quot.sound |
| C130 | `C130_lines_partial` | propext, Classical.choice, Quot.sound |
| C130 | `C130_text_partial` | propext |
| C130 | `C130_hover_partial` | propext, Classical.choice, Quot.sound |
| C130 | `C130_violated_changes` | propext, Classical.choice, Quot.sound |
| C130 | `C130_violated_cr` | propext, Classical.choice, Quot.sound |
| C131 | `C131_answered_iff_partial` | propext, Classical.choice, Quot.sound |
| C131 | `C131_fault_partial` | propext, Classical.choice, Quot.sound |
| C131 | `C131_violated_unknown` | propext, Classical.choice, Quot.sound |
| C131 | `C131_violated_text_id` | propext, Classical.choice, Quot.sound |
| C131 | `C131_conversation_partial` | propext, Classical.choice, Quot.sound |
| C131 | `C131_violated_shutdown` | propext, Classical.choice, Quot.sound |
| C132 | `C132_block_partial` | propext, Classical.choice, Quot.sound |
| C132 | `C132_program_partial` | propext, Classical.choice, Quot.sound |
| C132 | `C132_start_partial` | propext, Classical.choice, Quot.sound |
| C132 | `C132_violated_F0` | propext, Classical.choice, Quot.sound |
| C132 | `C132_violated_revolution` | propext, Classical.choice, Quot.sound |
| C133 | `C133_present_partial` | propext, Classical.choice, Quot.sound |
| C133 | `C133_never_given` | propext, Classical.choice, Quot.sound |
| C133 | `C133_violated_closed` | propext, Classical.choice, Quot.sound |
| C133 | `C133_violated_closed_case` | propext, Classical.choice, Quot.sound |
| C133 | `C133_violated_description` | propext, Classical.choice, Quot.sound |
| C134 | `C134_coloured_partial` | propext, Classical.choice, Quot.sound |
| C134 | `C134_violated_semicolon` | propext, Classical.choice, Quot.sound |
| C134 | `C134_violated_toggle` | propext, Classical.choice, Quot.sound |
| C134 | `C134_violated_backslash` | propext, Classical.choice, Quot.sound |
| C134 | `C134_violated_toggle_case` | propext, Classical.choice, Quot.sound |
| C134 | `C134_violated_heidenhain` | propext |
| C134 | `C134_shipped_partial` | propext, Classical.choice, Quot.sound |
| C135 | `C135_turned_partial` | propext, Classical.choice, Quot.sound |
| C135 | `C135_violated_G18` | propext, Classical.choice, Quot.sound |
| C135 | `C135_violated_dwell` | propext, Classical.choice, Quot.sound |
| C136 | `C136_turned_iff_partial` | propext, Classical.choice, Quot.sound |
| C136 | `C136_quarters_partial` | propext, Classical.choice, Quot.sound |
| C136 | `C136_radius_partial` | propext, Classical.choice, Quot.sound |
| C136 | `C136_program_partial` | propext, Classical.choice, Quot.sound |
| C136 | `C136_program_quarters` | propext, Classical.choice, Quot.sound |
| C136 | `C136_violated_eighth` | propext, Classical.choice, Quot.sound |
| C137 | `C137_program_partial` | propext, Classical.choice, Quot.sound |
| C137 | `C137_larger` | propext, Classical.choice, Quot.sound |
| C137 | `C137_violated_chord` | propext, Classical.choice, Quot.sound |
| C138 | `C138_pieces` | propext, Classical.choice, Quot.sound |
| C138 | `C138_program_iff_partial` | propext, Classical.choice, Quot.sound |
| C138 | `C138_radius_partial` | propext, Classical.choice, Quot.sound |
| C138 | `C138_violated_three_quarters` | propext, Classical.choice, Quot.sound |
| C139 | `C139_program_partial` | propext, Classical.choice, Quot.sound |
| C139 | `C139_cuts_partial` | propext, Classical.choice, Quot.sound |
| C140 | `C140_program_partial` | propext, Classical.choice, Quot.sound |
| C140 | `C140_arc_iff_partial` | propext, Classical.choice, Quot.sound |
| C140 | `C140_violated_three_quarters` | propext, Classical.choice, Quot.sound |
| C141 | `C141_moves` | propext, Classical.choice, Quot.sound |
| C141 | `C141_program_partial` | propext, Classical.choice, Quot.sound |
| C141 | `C141_radius_partial` | propext, Classical.choice, Quot.sound |
| C141 | `C141_violated_three_quarters` | propext, Classical.choice, Quot.sound |
| C142 | `C142_program_partial` | propext, Classical.choice, Quot.sound |
| C143 | `C143_program_partial` | propext, Classical.choice, Quot.sound |
| C144 | `C144_turned_partial` | propext, Classical.choice, Quot.sound |
| C144 | `C144_quarters_partial` | propext, Classical.choice, Quot.sound |
| C144 | `C144_back_partial` | propext, Classical.choice, Quot.sound |
