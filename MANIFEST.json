{
 "claims": [
  {
   "property": "C01",
   "status": "proved",
   "theorems": [
    "NC.Props.C01_framing",
    "NC.Props.C01_bodies",
    "NC.Props.C01_answers"
   ],
   "note": ""
  },
  {
   "property": "C02",
   "status": "partial",
   "theorems": [
    "NC.Props.C02_extra_field_partial",
    "NC.Props.C02_violated_type_first",
    "NC.Props.C02_violated_type_behind"
   ],
   "note": "Proved for extra fields without a capital C in front of Content-Length; violated for Content-Type before (server goes deaf) and behind (wrong body delivered)."
  },
  {
   "property": "C03",
   "status": "proved",
   "theorems": [
    "NC.Props.C03_closed_is_null",
    "NC.Props.C03_lenses",
    "NC.Props.C03_same_answers"
   ],
   "note": ""
  },
  {
   "property": "C04",
   "status": "partial",
   "theorems": [
    "NC.Props.C04_hover_answered_partial",
    "NC.Props.C04_replies_partial",
    "NC.Props.C04_violated_big_macro_number",
    "NC.Props.C04_violated_invalid_json",
    "NC.Props.C04_violated_resolve_first",
    "NC.Props.C04_framed"
   ],
   "note": "Every handled request gets exactly one reply under its id; hover is always answered when macro numbers fit an int. Violated: unreadable JSON, huge macro numbers under the cursor and resolve-before-completion end the process."
  },
  {
   "property": "C05",
   "status": "proved",
   "theorems": [
    "NC.Props.C05_stops",
    "NC.Props.C05_stops_iff"
   ],
   "note": ""
  },
  {
   "property": "C06",
   "status": "partial",
   "theorems": [
    "NC.Props.C06_server_messages",
    "NC.Props.C06_messages",
    "NC.Props.C06_diagnostics_partial",
    "NC.Props.C06_violated_colon",
    "NC.Props.C06_violated_line_one"
   ],
   "note": "One message per rejected line proved for every line parser; diagnostics proved when messages have no further colon and no text 'line 1'; violated otherwise."
  },
  {
   "property": "C07",
   "status": "proved",
   "theorems": [
    "NC.Props.C07_document_lines",
    "NC.Props.C07_checked_lines",
    "NC.Props.C07_same_line"
   ],
   "note": ""
  },
  {
   "property": "C08",
   "status": "partial",
   "theorems": [
    "NC.Props.C08_settings_always_reported_partial",
    "NC.Props.C08_grammar_first_reported_partial",
    "NC.Props.C08_second_event_silent",
    "NC.Props.C08_violated",
    "NC.Props.C08_violated_missing",
    "NC.Props.C08_violated_descriptions"
   ],
   "note": "Settings always reported, grammar reported the first time; violated: second event silent, missing grammar ends the process, broken macro descriptions reported once."
  },
  {
   "property": "C09",
   "status": "partial",
   "theorems": [
    "NC.Props.C09_exact",
    "NC.Props.C09_range_sound",
    "NC.Props.C09_range_found_partial",
    "NC.Props.C09_hover_text",
    "NC.Props.C09_violated_end_point"
   ],
   "note": "Own description, soundness of ranges and strict interior proved; the end points of a range are violated."
  },
  {
   "property": "C10",
   "status": "proved",
   "theorems": [
    "NC.Props.C10_value_in_effect",
    "NC.Props.C10_missing_iff",
    "NC.Props.C10_unaffected"
   ],
   "note": ""
  },
  {
   "property": "C11",
   "status": "partial",
   "theorems": [
    "NC.Props.C11_expression_value_in_effect_partial",
    "NC.Props.C11_violated"
   ],
   "note": "Proved when no later line has assigned the variable; in general the expression evaluator reads the newest assignment of any line (violated)."
  },
  {
   "property": "C12",
   "status": "partial",
   "theorems": [
    "NC.Props.C12_first_evaluation_records_partial",
    "NC.Props.C12_violated"
   ],
   "note": "Proved for the first evaluation of a line; a second evaluation of the same line does not overwrite the stored value (violated)."
  },
  {
   "property": "C13",
   "status": "proved",
   "theorems": [
    "NC.Props.C13_expression_value",
    "NC.Props.C13_expression_value_before_close"
   ],
   "note": ""
  },
  {
   "property": "C14",
   "status": "proved",
   "theorems": [
    "NC.Props.C14_bin_digits",
    "NC.Props.C14_bcd_of_bin"
   ],
   "note": ""
  },
  {
   "property": "C15",
   "status": "partial",
   "theorems": [
    "NC.Props.C15_accepted_has_expression_prefix_partial",
    "NC.Props.C15_accepted_assignment_partial",
    "NC.Props.C15_expression_needs_value_partial",
    "NC.Props.C15_violated"
   ],
   "note": "Proved: an accepted text starts with a complete expression. Violated: trailing text after it is ignored."
  },
  {
   "property": "C16",
   "status": "partial",
   "theorems": [
    "NC.Props.C16_structure",
    "NC.Props.C16_untouched",
    "NC.Props.C16_switch",
    "NC.Props.C16_violated_before_dwell"
   ],
   "note": "Structure, untouched words and the switch are proved. Violated for words standing before G4 in a dwell block."
  },
  {
   "property": "C17",
   "status": "partial",
   "theorems": [
    "NC.Props.C17_accuracy_partial",
    "NC.Props.C17_violated"
   ],
   "note": "Proved for words whose target grammar has at least one fraction digit; violated for precision 0."
  },
  {
   "property": "C18",
   "status": "proved",
   "theorems": [
    "NC.Props.C18_rotates_points",
    "NC.Props.C18_full_turn",
    "NC.Props.C18_frame",
    "NC.Props.C18_compose",
    "NC.Props.C18_planes"
   ],
   "note": ""
  },
  {
   "property": "C19",
   "status": "partial",
   "theorems": [
    "NC.Props.C19_arcs_in_G17_partial",
    "NC.Props.C19_violated_composition",
    "NC.Props.C19_violated",
    "NC.Props.C19_z_axis_keeps"
   ],
   "note": "Proved for rotations about Z (G17) and for arcs in G17 under the stated condition; composition and general consistency are violated."
  },
  {
   "property": "C20",
   "status": "partial",
   "theorems": [
    "NC.Props.C20_sequence",
    "NC.Props.C20_plain_number",
    "NC.Props.C20_violated_macro_number"
   ],
   "note": "Sequence proved for blocks whose number word is plain; violated for numbers given by a macro."
  },
  {
   "property": "C21",
   "status": "proved",
   "theorems": [
    "NC.Props.C21_only_number_changes",
    "NC.Props.C21_protected",
    "NC.Props.C21_remove"
   ],
   "note": ""
  },
  {
   "property": "C22",
   "status": "proved",
   "theorems": [
    "NC.Props.C22_lossless_by_count",
    "NC.Props.C22_lossless_by_tool",
    "NC.Props.C22_lossless_by_work",
    "NC.Props.C22_lossless_by_text",
    "NC.Props.C22_succeeds"
   ],
   "note": ""
  },
  {
   "property": "C23",
   "status": "proved",
   "theorems": [
    "NC.Props.C23_at_least",
    "NC.Props.C23_exact",
    "NC.Props.C23_only_cycles_delay",
    "NC.Props.C23_not_in_cycle",
    "NC.Props.C23_rapid_only"
   ],
   "note": ""
  },
  {
   "property": "C24",
   "status": "partial",
   "theorems": [
    "NC.Props.C24_violated",
    "NC.Props.C24_text_split_partial"
   ],
   "note": "Text splitting proved; the other modes number from a counter that is not reset (violated)."
  },
  {
   "property": "C25",
   "status": "proved",
   "theorems": [
    "NC.Props.C25_history",
    "NC.Props.C25_failed",
    "NC.Props.C25_position",
    "NC.Props.C25_exchange",
    "NC.Props.C25_home",
    "NC.Props.C25_position_modal"
   ],
   "note": ""
  },
  {
   "property": "C26",
   "status": "partial",
   "theorems": [
    "NC.Props.C26_violated_failed",
    "NC.Props.C26_violated_decreases",
    "NC.Props.C26_violated_dwell",
    "NC.Props.C26_path_grows_partial",
    "NC.Props.C26_time_grows_partial",
    "NC.Props.C26_path",
    "NC.Props.C26_failed_partial",
    "NC.Props.C26_program",
    "NC.Props.C26_time_partial"
   ],
   "note": "Path total = sum of reported motions for successful blocks, time total incl. exchange/measure/pallet/dwell; failing blocks add nothing unless F/S/rapid feed is missing; totals grow while no drilling cycle is active. Violated: F-not-set block is added, R below Z makes totals negative, dwell beside a T word without exchange is lost."
  },
  {
   "property": "C27",
   "status": "partial",
   "theorems": [
    "NC.Props.C27_reset_partial",
    "NC.Props.C27_reset_iff",
    "NC.Props.C27_violated_pending"
   ],
   "note": "Everything but the pending rapid positioning is reset; equal results proved for machines without automatic rapid after tool exchange; violated otherwise."
  },
  {
   "property": "C28",
   "status": "partial",
   "theorems": [
    "NC.Props.C28_suffix_partial",
    "NC.Props.C28_skipped",
    "NC.Props.C28_violated_string",
    "NC.Props.C28_violated_refused"
   ],
   "note": "Proved for blocks without string attributes behind the slash; violated for pallet/measure codes given as strings and for unknown positions (a skipped block is refused)."
  },
  {
   "property": "C29",
   "status": "partial",
   "theorems": [
    "NC.Props.C29_line",
    "NC.Props.C29_line_incremental",
    "NC.Props.C29_line_metric",
    "NC.Props.C29_arc_bounds",
    "NC.Props.C29_arc_bounds_R",
    "NC.Props.C29_full_circle_partial",
    "NC.Props.C29_violated_tiny",
    "NC.Props.C29_planes_partial",
    "NC.Props.C29_turning_partial"
   ],
   "note": "Proved for G0/G1 and the arc bounds; the full circle for radii the code does not treat as zero (violated below about 5e-9). Block level in all planes, also for lathes with diameters (C29_turning_partial)."
  },
  {
   "property": "C30",
   "status": "proved",
   "theorems": [
    "NC.Props.C30_unique",
    "NC.Props.C30_rejection",
    "NC.Props.C30_same_word"
   ],
   "note": ""
  },
  {
   "property": "C31",
   "status": "proved",
   "theorems": [
    "NC.Props.C31_groups",
    "NC.Props.C31_rejection",
    "NC.Props.C31_missing_variable"
   ],
   "note": ""
  },
  {
   "property": "C32",
   "status": "proved",
   "theorems": [
    "NC.Props.C32_off",
    "NC.Props.C32_once",
    "NC.Props.C32_on"
   ],
   "note": ""
  },
  {
   "property": "C33",
   "status": "partial",
   "theorems": [
    "NC.Props.C33_limits_partial",
    "NC.Props.C33_violated_fraction",
    "NC.Props.C33_violated_sign",
    "NC.Props.C33_exact"
   ],
   "note": "Proved, with an exact condition: the digits before the point decide. Violated for numbers above the limit by a fraction only and for negative numbers that would be above it without sign."
  },
  {
   "property": "C34",
   "status": "proved",
   "theorems": [
    "NC.Props.C34_travel",
    "NC.Props.C34_rejection"
   ],
   "note": ""
  },
  {
   "property": "C35",
   "status": "partial",
   "theorems": [
    "NC.Props.C35_ordinary_partial",
    "NC.Props.C35_history_partial",
    "NC.Props.C35_violated_accepts",
    "NC.Props.C35_violated_refuses"
   ],
   "note": "C35_history_partial covers histories without #, [ and ]; C35_ordinary_partial covers all histories for accepted lines of ordinary words; C35_violated_* show that the restrictions are needed."
  },
  {
   "property": "C36",
   "status": "partial",
   "theorems": [
    "NC.Props.C36_ranges",
    "NC.Props.C36_fractions",
    "NC.Props.C36_macros",
    "NC.Props.C36_violated",
    "NC.Props.C36_optional_blocks"
   ],
   "note": "C36_violated: between brackets a word without digits before the dot escapes the check (#1=[N.5] although N takes no decimals)."
  },
  {
   "property": "C37",
   "status": "partial",
   "theorems": [
    "NC.Props.C37_round_trip_partial",
    "NC.Props.C37_mill_partial",
    "NC.Props.C37_violated"
   ],
   "note": "C37_round_trip_partial and C37_mill_partial exclude the cases of C37_violated; mill_regular shows that the shipped tables are regular."
  },
  {
   "property": "C38",
   "status": "partial",
   "theorems": [
    "NC.Props.C38_success_partial",
    "NC.Props.C38_success_off_partial",
    "NC.Props.C38_failure_partial",
    "NC.Props.C38_violated"
   ],
   "note": "C38_success_partial and C38_failure_partial cover lines without #, C38_success_off_partial checking without macro evaluation; C38_violated has the other cases."
  },
  {
   "property": "C39",
   "status": "partial",
   "theorems": [
    "NC.Props.C39_line_partial",
    "NC.Props.C39_program_partial",
    "NC.Props.C39_violated"
   ],
   "note": "C39_line_partial and C39_program_partial hold with macro evaluation for lines that succeed without a message; C39_violated shows the rest."
  },
  {
   "property": "C40",
   "status": "partial",
   "theorems": [
    "NC.Props.C40_words_read_back",
    "NC.Props.C40_words_released",
    "NC.Props.C40_split_read_back",
    "NC.Props.C40_split_released",
    "NC.Props.C40_texts_partial",
    "NC.Props.C40_violated_empty_part",
    "NC.Props.C40_macros",
    "NC.Props.C40_line_macros"
   ],
   "note": "Word arrays, split arrays and macro arrays proved (read back exactly, released exactly once). Text split proved when no part is empty; violated for an empty part."
  },
  {
   "property": "C41",
   "status": "proved",
   "theorems": [
    "NC.Props.C41_text_exists",
    "NC.Props.C41_arguments_kept",
    "NC.Props.C41_no_arguments",
    "NC.Props.C41_texts_distinct"
   ],
   "note": ""
  },
  {
   "property": "C42",
   "status": "proved",
   "theorems": [
    "NC.Props.C42_comments",
    "NC.Props.C42_comments_idempotent",
    "NC.Props.C42_marks",
    "NC.Props.C42_marks_idempotent"
   ],
   "note": ""
  },
  {
   "property": "C43",
   "status": "proved",
   "theorems": [
    "NC.Props.C43_time"
   ],
   "note": ""
  },
  {
   "property": "C44",
   "status": "proved",
   "theorems": [
    "NC.Props.C44_same_number",
    "NC.Props.C44_accuracy",
    "NC.Props.C44_no_trailing"
   ],
   "note": ""
  },
  {
   "property": "C45",
   "status": "partial",
   "theorems": [
    "NC.Props.C45_names",
    "NC.Props.C45_distinct",
    "NC.Props.C45_streams",
    "NC.Props.C45_violated_rotation",
    "NC.Props.C45_rotation_partial",
    "NC.Props.C45_heidenhain"
   ],
   "note": "Proved for every named configuration value except the rotation direction, whose two names are not read back (violated)."
  },
  {
   "property": "C46",
   "status": "partial",
   "theorems": [
    "NC.Props.C46_points_partial",
    "NC.Props.C46_right_iff_partial",
    "NC.Props.C46_violated"
   ],
   "note": "C46_points_partial says exactly what the points become, C46_right_iff_partial when that is right, C46_violated gives concrete machines."
  },
  {
   "property": "C47",
   "status": "partial",
   "theorems": [
    "NC.Props.C47_stable_partial",
    "NC.Props.C47_violated_grows",
    "NC.Props.C47_offers_each_once",
    "NC.Props.C47_violated_duplicate"
   ],
   "note": "Prefix stability, equality after a document was opened, and exactly-once offers proved; violated: list grows when the first document is opened, padded codes twice."
  },
  {
   "property": "C48",
   "status": "proved",
   "theorems": [
    "NC.Props.C48_hover_range",
    "NC.Props.C48_code_found"
   ],
   "note": ""
  },
  {
   "property": "C49",
   "status": "proved",
   "theorems": [
    "NC.Props.C49_last_word_value",
    "NC.Props.C49_others_unchanged",
    "NC.Props.C49_accepts",
    "NC.Props.C49_missing_value_throws"
   ],
   "note": ""
  },
  {
   "property": "C50",
   "status": "partial",
   "theorems": [
    "NC.Props.C50_substitution_partial",
    "NC.Props.C50_missing_reported",
    "NC.Props.C50_violated"
   ],
   "note": "Substitution proved for macro words without brackets; violated otherwise."
  },
  {
   "property": "C51",
   "status": "partial",
   "theorems": [
    "NC.Props.C51_prompts_partial",
    "NC.Props.C51_violated_same_file",
    "NC.Props.C51_violated_hidden_toggle"
   ],
   "note": "Proved when every update made by the extension stores something new; violated when it stores the value already present, because the ignore flag then stays set."
  },
  {
   "property": "C52",
   "status": "partial",
   "theorems": [
    "NC.Props.C52_functions_supported_partial",
    "NC.Props.C52_violated_sinh"
   ],
   "note": "All functions except SINH are supported; SINH is accepted by the grammar and rejected by the evaluator."
  },
  {
   "property": "C53",
   "status": "proved",
   "theorems": [
    "NC.Props.C53_tool_parts",
    "NC.Props.C53_first_part"
   ],
   "note": ""
  },
  {
   "property": "C54",
   "status": "proved",
   "theorems": [
    "NC.Props.C54_at_least",
    "NC.Props.C54_no_more_than_needed",
    "NC.Props.C54_only_cycles_delay"
   ],
   "note": ""
  },
  {
   "property": "C55",
   "status": "partial",
   "theorems": [
    "NC.Props.C55_first_rapid_block_partial",
    "NC.Props.C55_violated"
   ],
   "note": "Proved when rapid_traverse_cancel_cycle is off; with it on, an unrelated G code such as G54 makes the splitter forget G0 (violated)."
  },
  {
   "property": "C56",
   "status": "proved",
   "theorems": [
    "NC.Props.C56_groups",
    "NC.Props.C56_grammar"
   ],
   "note": ""
  },
  {
   "property": "C57",
   "status": "partial",
   "theorems": [
    "NC.Props.C57_violated_text_behind_nul",
    "NC.Props.C57_violated_names",
    "NC.Props.C57_whole_text_partial"
   ],
   "note": "Proved for texts and names without NUL; violated: everything behind a NUL is ignored, names that differ behind it are mixed up."
  },
  {
   "property": "C58",
   "status": "proved",
   "theorems": [
    "NC.Props.C58_same_diagnostics"
   ],
   "note": ""
  },
  {
   "property": "C59",
   "status": "proved",
   "theorems": [
    "NC.Props.C59_answers_read_back",
    "NC.Props.C59_session",
    "NC.Props.C59_unambiguous"
   ],
   "note": ""
  },
  {
   "property": "C60",
   "status": "partial",
   "theorems": [
    "NC.Props.C60_helix_lower_partial",
    "NC.Props.C60_violated_helix",
    "NC.Props.C60_quarters",
    "NC.Props.C60_radius_or_centre",
    "NC.Props.C60_blocks_partial",
    "NC.Props.C60_violated_arc_after",
    "NC.Props.C60_violated_origin",
    "NC.Props.C60_violated_old_centre"
   ],
   "note": "Violated for every helix that rises: the pitch is multiplied by 2 pi; the formula is right exactly for pitch 0 and an upper bound otherwise. Block level: C60_blocks_partial for helix blocks from a position on all axes; C60_violated_arc_after, C60_violated_origin, C60_violated_old_centre are witnesses."
  },
  {
   "property": "C61",
   "status": "partial",
   "theorems": [
    "NC.Props.C61_spiral",
    "NC.Props.C61_spiral_increment",
    "NC.Props.C61_violated_zero"
   ],
   "note": "Proved; without revolutions or increment the result is NaN (violated there)."
  },
  {
   "property": "C62",
   "status": "partial",
   "theorems": [
    "NC.Props.C62_work",
    "NC.Props.C62_rapid_g99",
    "NC.Props.C62_rapid_g98_iff_partial",
    "NC.Props.C62_violated_negative_R",
    "NC.Props.C62_incremental_depth_g99",
    "NC.Props.C62_incremental_depth_g98_iff_partial",
    "NC.Props.C62_violated_negative_work",
    "NC.Props.C62_tapping",
    "NC.Props.C62_G91",
    "NC.Props.C62_G91_tapping_partial",
    "NC.Props.C62_peck_total",
    "NC.Props.C62_peck_G91",
    "NC.Props.C62_violated_Q0",
    "NC.Props.C62_violated_modes",
    "NC.Props.C62_fine",
    "NC.Props.C62_fine_depth",
    "NC.Props.C62_fine_G91_partial",
    "NC.Props.C62_back",
    "NC.Props.C62_violated_back_G91",
    "NC.Props.C62_bites_partial",
    "NC.Props.C62_chip_G91_partial",
    "NC.Props.C62_chip_partial"
   ],
   "note": "Right for plain drilling in G99, tapping, pecking, fine boring and back boring; exact conditions are proved where it is not (negative reference level with G98, incremental depth with G98, tapping with G91 G99, G76 with G91, G73 in absolute mode, G87 with G91, last bite a whole Q, Q0)."
  },
  {
   "property": "C63",
   "status": "partial",
   "theorems": [
    "NC.Props.C63_R",
    "NC.Props.C63_R_agree",
    "NC.Props.C63_IJ_partial",
    "NC.Props.C63_violated_quarter",
    "NC.Props.C63_violated_three_quarters",
    "NC.Props.C63_violated_unreachable"
   ],
   "note": "Proved for radius words; violated for centre words (short arcs reported as long and the reverse) and an unreachable end gives NaN."
  },
  {
   "property": "C64",
   "status": "partial",
   "theorems": [
    "NC.Props.C64_arc_exact_iff_partial",
    "NC.Props.C64_arc_wrong_way",
    "NC.Props.C64_violated_three_quarters",
    "NC.Props.C64_arc_R"
   ],
   "note": "Radius words: proved. Centre words: right exactly if the arc is at most half a turn or its ends lie inside different quadrants; otherwise the rest of the circle is reported (violated)."
  },
  {
   "property": "C66",
   "status": "partial",
   "theorems": [
    "NC.Props.C66_tool_totals",
    "NC.Props.C66_violated_no_tool"
   ],
   "note": "Full for named tools; violated for the path before the first exchange, which is lost as soon as a T word is read."
  },
  {
   "property": "C67",
   "status": "proved",
   "theorems": [
    "NC.Props.C67_order",
    "NC.Props.C67_needs_unambiguous"
   ],
   "note": ""
  },
  {
   "property": "C68",
   "status": "partial",
   "theorems": [
    "NC.Props.C68_line_partial"
   ],
   "note": "Proved for G0 and G1 on machines other than lathes; arcs, lathes and whole programs are covered by C118, drilling cycles are only compared through C62."
  },
  {
   "property": "C71",
   "status": "partial",
   "theorems": [
    "NC.Props.C71_shown_partial",
    "NC.Props.C71_line_partial",
    "NC.Props.C71_euclidean_partial",
    "NC.Props.C71_arc_partial",
    "NC.Props.C71_full_circle_partial",
    "NC.Props.C71_turning_partial",
    "NC.Props.C71_violated_lathe_G19"
   ],
   "note": "Over exact reals; for arcs apart from the tolerance and for arcs up to half a turn or with ends in different quadrants, since the code is wrong otherwise (C64). Lathes: straight moves (C71_turning_partial) and the form of arcs (C29_turning_partial); wrong in G19 (C71_violated_lathe_G19)."
  },
  {
   "property": "C72",
   "status": "partial",
   "theorems": [
    "NC.Props.C72_toggle_partial",
    "NC.Props.C72_violated_workspace"
   ],
   "note": "Proved when the workspace has no own value; violated otherwise (C72_violated_workspace)."
  },
  {
   "property": "C73",
   "status": "proved",
   "theorems": [
    "NC.Props.C73_lenses"
   ],
   "note": ""
  },
  {
   "property": "C74",
   "status": "proved",
   "theorems": [
    "NC.Props.C74_resolved",
    "NC.Props.C74_resolved_macro",
    "NC.Props.C74_hovered",
    "NC.Props.C74_undescribed"
   ],
   "note": ""
  },
  {
   "property": "C75",
   "status": "proved",
   "theorems": [
    "NC.Props.C75_off"
   ],
   "note": ""
  },
  {
   "property": "C69",
   "status": "partial",
   "theorems": [
    "NC.Props.C69_hold_partial",
    "NC.Props.C69_before_motion_partial",
    "NC.Props.C69_violated_lost",
    "NC.Props.C69_violated_before"
   ],
   "note": "Proved exactly: which blocks keep all groups and which lose them. Blocks with T or M words, G4 and reference returns are outside this theorem."
  },
  {
   "property": "C77",
   "status": "partial",
   "theorems": [
    "NC.Props.C77_shown_partial",
    "NC.Props.C77_time_partial",
    "NC.Props.C77_feed_needed",
    "NC.Props.C77_surface_partial",
    "NC.Props.C77_violated_mill",
    "NC.Props.C77_violated_F0",
    "NC.Props.C77_violated_surface"
   ],
   "note": "Proved for feed per minute on all machines and feed per revolution with G97 on lathes; the formula used with G96 is proved and shown wrong."
  },
  {
   "property": "C70",
   "status": "partial",
   "theorems": [
    "NC.Props.C70_cancel",
    "NC.Props.C70_cancelled",
    "NC.Props.C70_next_hole_partial",
    "NC.Props.C70_position_only",
    "NC.Props.C70_levels_needed",
    "NC.Props.C70_repeat_partial",
    "NC.Props.C70_pattern_partial",
    "NC.Props.C70_first_hole_partial",
    "NC.Props.C70_first_tap_partial",
    "NC.Props.C70_first_fine_partial",
    "NC.Props.C70_violated_depth",
    "NC.Props.C70_violated_cycle",
    "NC.Props.C70_violated_K",
    "NC.Props.C70_violated_row",
    "NC.Props.C70_violated_lathe",
    "NC.Props.C70_violated_G18"
   ],
   "note": "Proved in G17 for first holes (plain drilling, tapping, fine boring), further holes, K0, G91 with K n and whole patterns by induction; the violations are proved."
  },
  {
   "property": "C78",
   "status": "partial",
   "theorems": [
    "NC.Props.C78_block",
    "NC.Props.C78_program",
    "NC.Props.C78_variables",
    "NC.Props.C78_other_variables",
    "NC.Props.C78_violated_prepared"
   ],
   "note": "C78_block, C78_program, C78_variables, C78_other_variables in full for T and M6 in one block; C78_violated_prepared for T and M6 in different blocks."
  },
  {
   "property": "C79",
   "status": "partial",
   "theorems": [
    "NC.Props.C79_block_partial",
    "NC.Props.C79_program_partial",
    "NC.Props.C79_violated_no_bite",
    "NC.Props.C79_violated_zero_bite",
    "NC.Props.C79_violated_holes",
    "NC.Props.C79_violated_exchange",
    "NC.Props.C79_violated_after_helix"
   ],
   "note": "C79_block_partial gives conditions under which a block is defined in any state; C79_program_partial: programs without peck cycles and helices are defined throughout; C79_violated_* are the witnesses. Missing: nothing but the excluded cases, which are violated."
  },
  {
   "property": "C65",
   "status": "partial",
   "theorems": [
    "NC.Props.C65_dwell_partial",
    "NC.Props.C65_violated_moves",
    "NC.Props.C65_violated_cuts",
    "NC.Props.C65_violated_hole"
   ],
   "note": "C65_dwell_partial compares the two runs for G4 with P after blocks without errors, where G0, G1, G80 or no motion is in force, no rapid positioning is pending and the base point gives X, Y, Z. Missing: dwells while G2, G3 or a cycle is in force and the time as X or U: violated (C65_violated_moves, C65_violated_cuts, C65_violated_hole); states after refused blocks."
  },
  {
   "property": "C80",
   "status": "partial",
   "theorems": [
    "NC.Props.C80_idle_partial",
    "NC.Props.C80_no_time",
    "NC.Props.C80_violated_unplaced"
   ],
   "note": "C80_idle_partial compares the two runs after blocks without errors if the base point gives X, Y, Z; C80_no_time: without pallet exchange and measurement the difference is 0. Missing: states after refused blocks; without a full base point it is violated (C80_violated_unplaced)."
  },
  {
   "property": "C81",
   "status": "partial",
   "theorems": [
    "NC.Props.C81_in_force",
    "NC.Props.C81_start",
    "NC.Props.C81_times_partial",
    "NC.Props.C81_points",
    "NC.Props.C81_text_partial",
    "NC.Props.C81_exact_partial",
    "NC.Props.C81_order",
    "NC.Props.C81_missing",
    "NC.Props.C81_usable",
    "NC.Props.C81_violated_heidenhain",
    "NC.Props.C81_violated_truth"
   ],
   "note": "Proved: `C81_exact_partial` (accepted with result s iff the file says s, setting by setting), `C81_text_partial` (the same for the bytes), order, missing settings, usability. Missing: violated for heidenhain and for numbers before truth values."
  },
  {
   "property": "C82",
   "status": "partial",
   "theorems": [
    "NC.Props.C82_tables_partial",
    "NC.Props.C82_accepted",
    "NC.Props.C82_violated_kept",
    "NC.Props.C82_violated_negative"
   ],
   "note": "Proved: `C82_tables_partial`, `C82_accepted`; violated: what is kept of a refused file (`C82_violated_kept` says exactly what), negative decimals."
  },
  {
   "property": "C83",
   "status": "proved",
   "theorems": [
    "NC.Props.C83_groups",
    "NC.Props.C83_accepted"
   ],
   "note": "Proved in full for the tree of the file."
  },
  {
   "property": "C84",
   "status": "partial",
   "theorems": [
    "NC.Props.C84_line_partial",
    "NC.Props.C84_document_partial",
    "NC.Props.C84_fresh_partial",
    "NC.Props.C84_violated_each",
    "NC.Props.C84_violated_function",
    "NC.Props.C84_violated_open",
    "NC.Props.C84_violated_dot",
    "NC.Props.C84_violated_hash"
   ],
   "note": "Lines and documents without an opening bracket are proved never to raise, and every raising line is proved to execute a word that is no number. Missing: texts with brackets in general, where the property is false."
  },
  {
   "property": "C85",
   "status": "partial",
   "theorems": [
    "NC.Props.C85_line_partial",
    "NC.Props.C85_refused_partial",
    "NC.Props.C85_program_partial",
    "NC.Props.C85_words_partial"
   ],
   "note": "Proved for lines without #, with numbers that fit an int and S, T and F whose digits before the point decide whether they are above their limits (otherwise C33 fails). Missing: lines with macros, for which see C98 and C99."
  },
  {
   "property": "C86",
   "status": "partial",
   "theorems": [
    "NC.Props.C86_line",
    "NC.Props.C86_program_partial"
   ],
   "note": "Lines: proved (C86_line). Programs: with the restrictions of C85. Brackets and operators are not covered; a word table is regular when the beginning of a word tells what it is (Spec.Tables.Regular, shown for the shipped tables)."
  },
  {
   "property": "C87",
   "status": "partial",
   "theorems": [
    "NC.Props.C87_variables_clean_partial",
    "NC.Props.C87_no_value_partial",
    "NC.Props.C87_variables_first_partial",
    "NC.Props.C87_missing_partial",
    "NC.Props.C87_clean_partial",
    "NC.Props.C87_first_partial"
   ],
   "note": "Partial: documents of declared words with ordinary numbers, assignments, and variables in the place of numbers with the restrictions of C99; names of axes, groups and words that must be unique contain neither a colon nor the letter i (the placing of diagnostics searches for both in the messages)."
  },
  {
   "property": "C88",
   "status": "partial",
   "theorems": [
    "NC.Props.C88_endures_partial",
    "NC.Props.C88_violated_hover",
    "NC.Props.C88_violated_open"
   ],
   "note": "Partial: texts without opening brackets and with numbers of variables that fit an int; the exceptions are shown to be violations. Undefined behaviour of malformed messages is a separate outcome and not excluded here."
  },
  {
   "property": "C89",
   "status": "partial",
   "theorems": [
    "NC.Props.C89_nothing_lost",
    "NC.Props.C89_same_text",
    "NC.Props.C89_violated_name"
   ],
   "note": "Full for all lines without a program name; the loss after a program name is proved as a violation."
  },
  {
   "property": "C90",
   "status": "proved",
   "theorems": [
    "NC.Props.C90_hover_above",
    "NC.Props.C90_diagnostics_above"
   ],
   "note": "For histories in which every handler returns (C88)."
  },
  {
   "property": "C91",
   "status": "partial",
   "theorems": [
    "NC.Props.C91_start",
    "NC.Props.C91_blank",
    "NC.Props.C91_kept",
    "NC.Props.C91_words",
    "NC.Props.C91_assigned",
    "NC.Props.C91_others",
    "NC.Props.C91_used",
    "NC.Props.C91_shown",
    "NC.Props.C91_violated_no_equals"
   ],
   "note": "Not covered: tool variables, rejected lines with #, kept addresses given by a variable. Violated by a line such as #1 X5 (see the theorem)."
  },
  {
   "property": "C92",
   "status": "partial",
   "theorems": [
    "NC.Props.C92_program_partial",
    "NC.Props.C92_silent_line_partial"
   ],
   "note": "The programs are written without #, with ordinary numbers (they fit an int; the digits before the point decide whether speeds, tools and feeds are above their limits), and a block number does not occur twice on a line where its address is declared unique."
  },
  {
   "property": "C93",
   "status": "partial",
   "theorems": [
    "NC.Props.C93_told",
    "NC.Props.C93_uncomment",
    "NC.Props.C93_uncomment_run_partial",
    "NC.Props.C93_unnumber",
    "NC.Props.C93_unnumber_run_partial",
    "NC.Props.C93_renumber",
    "NC.Props.C93_renumber_run_partial",
    "NC.Props.C93_rotate",
    "NC.Props.C93_violated_uncomment",
    "NC.Props.C93_violated_second_number",
    "NC.Props.C93_violated_rotate",
    "NC.Props.C93_violated_convert"
   ],
   "note": "The running of the rewritten program is shown for programs without # and with ordinary numbers; conversions are only shown to fail."
  },
  {
   "property": "C94",
   "status": "partial",
   "theorems": [
    "NC.Props.C94_whole",
    "NC.Props.C94_written",
    "NC.Props.C94_again",
    "NC.Props.C94_violated_fraction",
    "NC.Props.C94_violated_id"
   ],
   "note": "Violated for numbers without a leading digit (X.5) and for Q-5."
  },
  {
   "property": "C95",
   "status": "partial",
   "theorems": [
    "NC.Props.C95_history",
    "NC.Props.C95_safe",
    "NC.Props.C95_violated_settings"
   ],
   "note": "Violated: a first line without settings is undefined behaviour."
  },
  {
   "property": "C96",
   "status": "partial",
   "theorems": [
    "NC.Props.C96_position",
    "NC.Props.C96_told",
    "NC.Props.C96_number",
    "NC.Props.C96_violated_blank",
    "NC.Props.C96_violated_kept"
   ],
   "note": "Violated: blank lines, a number alone and words beginning with CYCL, BEGIN or END are refused."
  },
  {
   "property": "C97",
   "status": "partial",
   "theorems": [
    "NC.Props.C97_verdict_partial",
    "NC.Props.C97_violated_words"
   ],
   "note": "Verdict and message are proved; the words are not delivered at all (violated)."
  },
  {
   "property": "C98",
   "status": "partial",
   "theorems": [
    "NC.Props.C98_line",
    "NC.Props.C98_effect",
    "NC.Props.C98_no_value",
    "NC.Props.C98_program_partial",
    "NC.Props.C98_violated_mod",
    "NC.Props.C98_violated_history"
   ],
   "note": "Programs: the lines that are no assignments have no variables (C91 treats the values of variables for any document); expressions do not read the variables in which the controller keeps words. Violated for operators of the calculator that the shipped word table lacks, and after a line with a closing bracket too many."
  },
  {
   "property": "C99",
   "status": "partial",
   "theorems": [
    "NC.Props.C99_line_partial",
    "NC.Props.C99_program_partial",
    "NC.Props.C99_missing",
    "NC.Props.C99_violated_sign",
    "NC.Props.C99_violated_decimals",
    "NC.Props.C99_violated_units",
    "NC.Props.C99_violated_equals"
   ],
   "note": "The value, with at most six decimals, must be one the address allows (violated otherwise: success with a message, and the line is not simulated), the sign is in the text or in the value (violated for both), the line has no assignment and does not change the units (violated for both). Programs: no line reads a variable in which the controller keeps words."
  },
  {
   "property": "C100",
   "status": "partial",
   "theorems": [
    "NC.Props.C100_words_partial",
    "NC.Props.C100_text",
    "NC.Props.C100_flaw"
   ],
   "note": "The rounding to float and the text of the message are not modelled."
  },
  {
   "property": "C101",
   "status": "partial",
   "theorems": [
    "NC.Props.C101_block_partial",
    "NC.Props.C101_program_partial",
    "NC.Props.C101_start_partial",
    "NC.Props.C101_turned_partial"
   ],
   "note": "Cycles, tool exchanges and lathes are not covered; for arcs see C123 (mirrored), C135 and C136 (turned), C117 (shifted) and C137 (scaled)."
  },
  {
   "property": "C102",
   "status": "partial",
   "theorems": [
    "NC.Props.C102_settings_partial",
    "NC.Props.C102_violated_time",
    "NC.Props.C102_violated_change",
    "NC.Props.C102_violated_limit"
   ],
   "note": "proved for machines whose settings are also in inches; otherwise violated in the time of rapid moves, in the travel limits and at a change of units"
  },
  {
   "property": "C103",
   "status": "partial",
   "theorems": [
    "NC.Props.C103_texts",
    "NC.Props.C103_read",
    "NC.Props.C103_same",
    "NC.Props.C103_ready",
    "NC.Props.C103_codes",
    "NC.Props.C103_documents_partial",
    "NC.Props.C103_variables_partial"
   ],
   "note": "documents are those of C87 (words as the tables declare them, ordinary numbers); the bytes of the files are read by the model of read_json (`C103_texts`)"
  },
  {
   "property": "C104",
   "status": "partial",
   "theorems": [
    "NC.Props.C104_shown_partial",
    "NC.Props.C104_violated_generic"
   ],
   "note": "false for the M codes of generic_mill and generic_lathe (C104_violated_generic); proved for all others"
  },
  {
   "property": "C105",
   "status": "partial",
   "theorems": [
    "NC.Props.C105_amount_partial",
    "NC.Props.C105_no_more_partial",
    "NC.Props.C105_exact_partial",
    "NC.Props.C105_violated_blank",
    "NC.Props.C105_violated_history",
    "NC.Props.C105_violated_parameter"
   ],
   "note": "Proved: the amounts for every parser state and every file without blank lines (C105_amount_partial, C105_no_more_partial); when a new parser succeeds, and that the amounts are those of the simulation of the words, for lines without '#' and without a retraction plane (C105_exact_partial). Missing: files with blank lines. Violated: C105_violated_blank, C105_violated_history, C105_violated_parameter. A sum that is not finite is not modelled; the drilling cycles are those of C54."
  },
  {
   "property": "C106",
   "status": "partial",
   "theorems": [
    "NC.Props.C106_complete",
    "NC.Props.C106_again",
    "NC.Props.C106_run_partial",
    "NC.Props.C106_text",
    "NC.Props.C106_violated_text"
   ],
   "note": "Proved without restriction for parts by blocks, tools, path or time: C106_complete; that they are read again: C106_again; for parts at a text when all lines are read: C106_text. That the parts run like the file: C106_run_partial, a new parser, no blank lines, no '#', no retraction plane. Violated: C106_violated_text. The numbers themselves repeat (C24)."
  },
  {
   "property": "C107",
   "status": "partial",
   "theorems": [
    "NC.Props.C107_file_partial",
    "NC.Props.C107_export_partial",
    "NC.Props.C107_imported",
    "NC.Props.C107_text",
    "NC.Props.C107_export_text"
   ],
   "note": "The text between Json.NET and boost is modelled (`C107_text`, `C107_export_text`), both as third-party code; the author and the version are left out. Doubles are rationals printed exactly."
  },
  {
   "property": "C108",
   "status": "partial",
   "theorems": [
    "NC.Props.C108_back_partial",
    "NC.Props.C108_same_partial",
    "NC.Props.C108_settings",
    "NC.Props.C108_violated_feed",
    "NC.Props.C108_violated_point",
    "NC.Props.C108_violated_range",
    "NC.Props.C108_violated_base",
    "NC.Props.C108_violated_pallet"
   ],
   "note": "Holds under the conditions of C108_same_partial; C108_back_partial states for every importable file with whole feeds what comes back. Number texts are exact decimals without exponents."
  },
  {
   "property": "C109",
   "status": "partial",
   "theorems": [
    "NC.Props.C109_parse_partial",
    "NC.Props.C109_call_partial",
    "NC.Props.C109_violated_answer",
    "NC.Props.C109_macros",
    "NC.Props.C109_line_macros",
    "NC.Props.C109_path",
    "NC.Props.C109_split_partial",
    "NC.Props.C109_violated_split",
    "NC.Props.C109_texts_partial",
    "NC.Props.C109_violated_texts"
   ],
   "note": "The native function is given by what it finds. Missing: answers of which bytes were not set, files without parts, parts without blocks (all shown to fail)."
  },
  {
   "property": "C110",
   "status": "partial",
   "theorems": [
    "NC.Props.C110_file",
    "NC.Props.C110_taken",
    "NC.Props.C110_violated_null",
    "NC.Props.C110_same_partial",
    "NC.Props.C110_parser",
    "NC.Props.C110_split",
    "NC.Props.C110_renumber",
    "NC.Props.C110_violated_split"
   ],
   "note": "Structures in memory are the lists of their members; sizes and alignment agree on both sides, integers fit, texts are bytes. Violated for null texts (undefined)."
  },
  {
   "property": "C111",
   "status": "partial",
   "theorems": [
    "NC.Props.C111_read",
    "NC.Props.C111_write_partial",
    "NC.Props.C111_back_partial",
    "NC.Props.C111_violated_brace",
    "NC.Props.C111_violated_path",
    "NC.Props.C111_violated_sign"
   ],
   "note": "JSON is a codec that reads what it wrote; items of string.Format with alignment, format or leading zeroes are not modelled; violated for single braces, for the decimal sign and for relative paths."
  },
  {
   "property": "C112",
   "status": "partial",
   "theorems": [
    "NC.Props.C112_text_partial",
    "NC.Props.C112_words",
    "NC.Props.C112_groups",
    "NC.Props.C112_same_partial",
    "NC.Props.C112_english_partial"
   ],
   "note": "A file is a text that spells the tree of the object (`C112_text_partial`); how Newtonsoft reads it is not modelled, nor are sizes and alignment of structures."
  },
  {
   "property": "C113",
   "status": "proved",
   "theorems": [
    "NC.Props.C113_exact",
    "NC.Props.C113_single",
    "NC.Props.C113_layout",
    "NC.Props.C113_refused"
   ],
   "note": "boost's read_json and the writer of Json.NET are third-party code, modelled from their sources as published; malformed UTF-8 and byte order marks are left out."
  },
  {
   "property": "C114",
   "status": "partial",
   "theorems": [
    "NC.Props.C114_line",
    "NC.Props.C114_once",
    "NC.Props.C114_refused",
    "NC.Props.C114_help",
    "NC.Props.C114_violated_idle",
    "NC.Props.C114_editor_partial",
    "NC.Props.C114_violated_dash"
   ],
   "note": "Missing: configured paths that begin with a dash. Violated: a path that is a dash and the letter of an option prevents the start (C114_violated_dash); the options single-line-output, convert-length, rotate and rotate-option are accepted and ignored (C114_violated_idle)."
  },
  {
   "property": "C115",
   "status": "partial",
   "theorems": [
    "NC.Props.C115_machine",
    "NC.Props.C115_file_partial",
    "NC.Props.C115_violated_twice",
    "NC.Props.C115_form"
   ],
   "note": "Missing: names of files in which the extension occurs before the end as well; there the first occurrence is removed instead (C115_violated_twice: tool.nc.b.nc is shown as tool.b.nc). JSON.parse of the editor is a parameter."
  },
  {
   "property": "C116",
   "status": "partial",
   "theorems": [
    "NC.Props.C116_back",
    "NC.Props.C116_distinct",
    "NC.Props.C116_read",
    "NC.Props.C116_violated_zeroes"
   ],
   "note": "Violated for texts with zeroes behind the point: 54.01 is read as the code 54.1 (C116_violated_zeroes)."
  },
  {
   "property": "C117",
   "status": "partial",
   "theorems": [
    "NC.Props.C117_block_partial",
    "NC.Props.C117_program_partial",
    "NC.Props.C117_start_partial",
    "NC.Props.C117_violated_origin",
    "NC.Props.C117_violated_distances",
    "NC.Props.C117_violated_depth"
   ],
   "note": "Proved for straight moves, arcs, spirals, helices in G90 that end off the origin, cycles moved sideways in G17 and everything between. Violated by helices that end at the origin (C117_violated_origin), helices in G91 (C117_violated_distances) and cycles moved in depth (C117_violated_depth)."
  },
  {
   "property": "C118",
   "status": "partial",
   "theorems": [
    "NC.Props.C118_block_partial",
    "NC.Props.C118_program_partial",
    "NC.Props.C118_start_partial",
    "NC.Props.C118_violated_tapping",
    "NC.Props.C118_violated_pecks",
    "NC.Props.C118_violated_helix"
   ],
   "note": "Proved for straight moves, arcs in the plane, dwells, tool exchanges, base points and cycles by coordinates, on mills and lathes. Violated by tapping with G99 (C118_violated_tapping), pecking G73 (C118_violated_pecks) and helices (C118_violated_helix) by distances; a T word beside G91 gives a message that names 91."
  },
  {
   "property": "C119",
   "status": "partial",
   "theorems": [
    "NC.Props.C119_block_partial",
    "NC.Props.C119_program_partial",
    "NC.Props.C119_violated_home",
    "NC.Props.C119_violated_arc",
    "NC.Props.C119_violated_tool",
    "NC.Props.C119_violated_pending"
   ],
   "note": "Equality of whole results. Not covered: a motion repeated beside M6, G28 or pending rapid positioning, arcs and cycles repeated without any value, G codes repeated beside a T word; for these the claim is false (C119_violated_home, _arc, _tool, _pending)."
  },
  {
   "property": "C120",
   "status": "proved",
   "theorems": [
    "NC.Props.C120_block",
    "NC.Props.C120_program",
    "NC.Props.C120_start"
   ],
   "note": "Proved for blocks, programs and from the start: the states are equal apart from the feed, the speed and the times."
  },
  {
   "property": "C121",
   "status": "partial",
   "theorems": [
    "NC.Props.C121_block_partial",
    "NC.Props.C121_program_partial",
    "NC.Props.C121_start_partial",
    "NC.Props.C121_violated_cycle"
   ],
   "note": "Proved for programs that succeed and report no length below zero, which over the real numbers all programs without drilling cycles do (C121_start_partial). False for a cycle whose R lies below its depth: its length is negative and the time grows with the feed (C121_violated_cycle)."
  },
  {
   "property": "C122",
   "status": "partial",
   "theorems": [
    "NC.Props.C122_block_partial",
    "NC.Props.C122_program_partial",
    "NC.Props.C122_start_partial",
    "NC.Props.C122_violated_surface"
   ],
   "note": "Proved for exact numbers (the root takes squares out, as the real root does) and moves by coordinates without tool or M words. Violated with G96 and a feed per turn: the spindle speed is computed from the length of the motion, so that two halves take half the time (C122_violated_surface)."
  },
  {
   "property": "C123",
   "status": "proved",
   "theorems": [
    "NC.Props.C123_block",
    "NC.Props.C123_program",
    "NC.Props.C123_start"
   ],
   "note": "Full in its quantifier. Over the reals (or any ordered field with an odd arctangent)."
  },
  {
   "property": "C124",
   "status": "proved",
   "theorems": [
    "NC.Props.C124_block",
    "NC.Props.C124_program",
    "NC.Props.C124_repeat"
   ],
   "note": "Full for exact arithmetic (the sums of doubles are rounded)."
  },
  {
   "property": "C125",
   "status": "proved",
   "theorems": [
    "NC.Props.C125_distance",
    "NC.Props.C125_visited",
    "NC.Props.C125_start"
   ],
   "note": "Full in its quantifier, over the reals (or any ordered field with a distance)."
  },
  {
   "property": "C126",
   "status": "partial",
   "theorems": [
    "NC.Props.C126_centre_partial",
    "NC.Props.C126_radius_partial",
    "NC.Props.C126_block_partial",
    "NC.Props.C126_program_partial",
    "NC.Props.C126_violated_reach",
    "NC.Props.C126_violated_accepted"
   ],
   "note": "Proved for arcs that can reach their end and whose radius is not within the tolerance; violated for the others."
  },
  {
   "property": "C127",
   "status": "partial",
   "theorems": [
    "NC.Props.C127_G17_G19_partial",
    "NC.Props.C127_G18_partial",
    "NC.Props.C127_block_partial",
    "NC.Props.C127_violated_G18",
    "NC.Props.C127_violated_program"
   ],
   "note": "Partial because G18 is violated (`C127_violated_G18`, `C127_violated_program`); the exact condition is proved for each plane."
  },
  {
   "property": "C128",
   "status": "proved",
   "theorems": [
    "NC.Props.C128_arc",
    "NC.Props.C128_radius",
    "NC.Props.C128_program"
   ],
   "note": ""
  },
  {
   "property": "C129",
   "status": "partial",
   "theorems": [
    "NC.Props.C129_told_iff_partial",
    "NC.Props.C129_asked_partial",
    "NC.Props.C129_flaw_iff_partial",
    "NC.Props.C129_violated_comment",
    "NC.Props.C129_violated_flaw"
   ],
   "note": "Partial because violated for text that is not ASCII (`C129_violated_comment`, `C129_violated_flaw`); it is proved that the ranges told are right exactly if the text before the token is ASCII, for flaws if it has no tabs."
  },
  {
   "property": "C130",
   "status": "partial",
   "theorems": [
    "NC.Props.C130_lines_partial",
    "NC.Props.C130_text_partial",
    "NC.Props.C130_hover_partial",
    "NC.Props.C130_violated_changes",
    "NC.Props.C130_violated_cr"
   ],
   "note": "Partial because violated for several changes in one notification (`C130_violated_changes`) and for CR without LF (`C130_violated_cr`)."
  },
  {
   "property": "C131",
   "status": "partial",
   "theorems": [
    "NC.Props.C131_answered_iff_partial",
    "NC.Props.C131_fault_partial",
    "NC.Props.C131_violated_unknown",
    "NC.Props.C131_violated_text_id",
    "NC.Props.C131_conversation_partial",
    "NC.Props.C131_violated_shutdown"
   ],
   "note": "Exact for each message handled without fault; methods without handler, ids that are not integers and requests after shutdown violate it."
  },
  {
   "property": "C132",
   "status": "partial",
   "theorems": [
    "NC.Props.C132_block_partial",
    "NC.Props.C132_program_partial",
    "NC.Props.C132_start_partial",
    "NC.Props.C132_violated_F0",
    "NC.Props.C132_violated_revolution"
   ],
   "note": "Machines that are no lathes, feeds above zero, no drilling cycles (lengths not below zero); violated with F0 and on lathes by feed per revolution."
  },
  {
   "property": "C133",
   "status": "partial",
   "theorems": [
    "NC.Props.C133_present_partial",
    "NC.Props.C133_never_given",
    "NC.Props.C133_violated_closed",
    "NC.Props.C133_violated_closed_case",
    "NC.Props.C133_violated_description"
   ],
   "note": "Readable settings, grammar and description files that stay the same, no NUL characters; violated for closed documents and for unreadable descriptions."
  },
  {
   "property": "C134",
   "status": "partial",
   "theorems": [
    "NC.Props.C134_coloured_partial",
    "NC.Props.C134_violated_semicolon",
    "NC.Props.C134_violated_toggle",
    "NC.Props.C134_violated_backslash",
    "NC.Props.C134_violated_toggle_case",
    "NC.Props.C134_violated_heidenhain",
    "NC.Props.C134_shipped_partial"
   ],
   "note": "Comments without backslash, word tables without ( and ; (proved for every shipped control); violated for backslashes, for ; and for the command that comments a line out. The rules of the editor are from general knowledge."
  },
  {
   "property": "C135",
   "status": "partial",
   "theorems": [
    "NC.Props.C135_turned_partial",
    "NC.Props.C135_violated_G18",
    "NC.Props.C135_violated_dwell"
   ],
   "note": "Missing: arcs outside of G17 (refuted in G18) and dwells by X (refuted), machines off the axis (there the points of the machine have to be turned too, see C123), rotations about X and Y and by quarter turns."
  },
  {
   "property": "C136",
   "status": "partial",
   "theorems": [
    "NC.Props.C136_turned_iff_partial",
    "NC.Props.C136_quarters_partial",
    "NC.Props.C136_radius_partial",
    "NC.Props.C136_program_partial",
    "NC.Props.C136_program_quarters",
    "NC.Props.C136_violated_eighth"
   ],
   "note": "Programs of straight moves and arcs on machines other than lathes: for every number of quarters proved (C136_program_quarters), for other angles for the arcs whose quadrants and coincidences agree (C136_program_partial, exact for blocks in C136_turned_iff_partial). Missing: helices, spirals and cycles (for half turns see C135)."
  },
  {
   "property": "C137",
   "status": "partial",
   "theorems": [
    "NC.Props.C137_program_partial",
    "NC.Props.C137_larger",
    "NC.Props.C137_violated_chord"
   ],
   "note": "Proved for programs of straight moves and arcs on machines other than lathes for which the tolerances decide alike (C137_program_partial), for k >= 1 with a condition on the first program only (C137_larger); refuted for chords below the tolerance (C137_violated_chord). Missing: helices, spirals and cycles."
  },
  {
   "property": "C138",
   "status": "partial",
   "theorems": [
    "NC.Props.C138_pieces",
    "NC.Props.C138_program_iff_partial",
    "NC.Props.C138_radius_partial",
    "NC.Props.C138_violated_three_quarters"
   ],
   "note": "The pieces of at most half a turn are always counted with the length of the arc (C138_pieces); for programs of straight moves and arcs on machines other than lathes the paths agree exactly in the cases named (C138_program_iff_partial), for arcs by their radius always (C138_radius_partial); refuted otherwise (C138_violated_three_quarters). Points are at least the tolerance apart. Missing: helices."
  },
  {
   "property": "C139",
   "status": "partial",
   "theorems": [
    "NC.Props.C139_program_partial",
    "NC.Props.C139_cuts_partial"
   ],
   "note": "Machines that are no lathes; tools are not chosen together with a dwell (C26). For F0 and for feed per revolution the time is another (C132_violated_F0, C132_violated_revolution)."
  },
  {
   "property": "C140",
   "status": "partial",
   "theorems": [
    "NC.Props.C140_program_partial",
    "NC.Props.C140_arc_iff_partial",
    "NC.Props.C140_violated_three_quarters"
   ],
   "note": "Programs of straight moves and arcs on machines other than lathes (C140_program_partial), exact for one arc (C140_arc_iff_partial), refuted otherwise (C140_violated_three_quarters). Full circles cannot be given by their radius; ends and radii are above the tolerance. Missing: helices."
  },
  {
   "property": "C141",
   "status": "partial",
   "theorems": [
    "NC.Props.C141_moves",
    "NC.Props.C141_program_partial",
    "NC.Props.C141_radius_partial",
    "NC.Props.C141_violated_three_quarters"
   ],
   "note": "Programs of straight moves and arcs on machines other than lathes: arcs by their centre of at most half a turn, full circles, and arcs with ends inside different quadrants (C141_program_partial), all arcs by their radius (C141_radius_partial); refuted for the other arcs by their centre (C141_violated_three_quarters). The ends coincide or are apart by the tolerance, and the radius is above it. Missing: helices."
  },
  {
   "property": "C142",
   "status": "partial",
   "theorems": [
    "NC.Props.C142_program_partial"
   ],
   "note": "Missing: rapid motions, sizes for which the fixed tolerances decide differently (see C137), lathes."
  },
  {
   "property": "C143",
   "status": "partial",
   "theorems": [
    "NC.Props.C143_program_partial"
   ],
   "note": "Missing: rapid motions, and arcs by their centre of more than half a turn that are counted with the shorter way round (C141_violated_three_quarters); lathes."
  },
  {
   "property": "C144",
   "status": "partial",
   "theorems": [
    "NC.Props.C144_turned_partial",
    "NC.Props.C144_quarters_partial",
    "NC.Props.C144_back_partial"
   ],
   "note": "Proved for turning by quarters and for the way back, and for other angles if the arcs are counted alike (C136 is violated for some arcs of more than half a turn). Missing: rapid motions, lathes."
  }
 ]
}