{
 "C02": "Proved for extra fields without a capital C in front of Content-Length; violated for Content-Type before (server goes deaf) and behind (wrong body delivered).",
 "C04": "Every handled request gets exactly one reply under its id; hover is always answered when macro numbers fit an int. Violated: unreadable JSON, huge macro numbers under the cursor and resolve-before-completion end the process.",
 "C06": "One message per rejected line proved for every line parser; diagnostics proved when messages have no further colon and no text 'line 1'; violated otherwise.",
 "C08": "Settings always reported, grammar reported the first time; violated: second event silent, missing grammar ends the process, broken macro descriptions reported once.",
 "C09": "Own description, soundness of ranges and strict interior proved; the end points of a range are violated.",
 "C100": "The rounding to float and the text of the message are not modelled.",
 "C101": "Cycles, tool exchanges and lathes are not covered; for arcs see C123 (mirrored), C135 and C136 (turned), C117 (shifted) and C137 (scaled).",
 "C102": "proved for machines whose settings are also in inches; otherwise violated in the time of rapid moves, in the travel limits and at a change of units",
 "C103": "documents are those of C87 (words as the tables declare them, ordinary numbers); the bytes of the files are read by the model of read_json (`C103_texts`)",
 "C104": "false for the M codes of generic_mill and generic_lathe (C104_violated_generic); proved for all others",
 "C105": "Proved: the amounts for every parser state and every file without blank lines (C105_amount_partial, C105_no_more_partial); when a new parser succeeds, and that the amounts are those of the simulation of the words, for lines without '#' and without a retraction plane (C105_exact_partial). Missing: files with blank lines. Violated: C105_violated_blank, C105_violated_history, C105_violated_parameter. A sum that is not finite is not modelled; the drilling cycles are those of C54.",
 "C106": "Proved without restriction for parts by blocks, tools, path or time: C106_complete; that they are read again: C106_again; for parts at a text when all lines are read: C106_text. That the parts run like the file: C106_run_partial, a new parser, no blank lines, no '#', no retraction plane. Violated: C106_violated_text. The numbers themselves repeat (C24).",
 "C107": "The text between Json.NET and boost is modelled (`C107_text`, `C107_export_text`), both as third-party code; the author and the version are left out. Doubles are rationals printed exactly.",
 "C108": "Holds under the conditions of C108_same_partial; C108_back_partial states for every importable file with whole feeds what comes back. Number texts are exact decimals without exponents.",
 "C109": "The native function is given by what it finds. Missing: answers of which bytes were not set, files without parts, parts without blocks (all shown to fail).",
 "C11": "Proved when no later line has assigned the variable; in general the expression evaluator reads the newest assignment of any line (violated).",
 "C110": "Structures in memory are the lists of their members; sizes and alignment agree on both sides, integers fit, texts are bytes. Violated for null texts (undefined).",
 "C111": "JSON is a codec that reads what it wrote; items of string.Format with alignment, format or leading zeroes are not modelled; violated for single braces, for the decimal sign and for relative paths.",
 "C112": "A file is a text that spells the tree of the object (`C112_text_partial`); how Newtonsoft reads it is not modelled, nor are sizes and alignment of structures.",
 "C113": "boost's read_json and the writer of Json.NET are third-party code, modelled from their sources as published; malformed UTF-8 and byte order marks are left out.",
 "C114": "Missing: configured paths that begin with a dash. Violated: a path that is a dash and the letter of an option prevents the start (C114_violated_dash); the options single-line-output, convert-length, rotate and rotate-option are accepted and ignored (C114_violated_idle).",
 "C115": "Missing: names of files in which the extension occurs before the end as well; there the first occurrence is removed instead (C115_violated_twice: tool.nc.b.nc is shown as tool.b.nc). JSON.parse of the editor is a parameter.",
 "C116": "Violated for texts with zeroes behind the point: 54.01 is read as the code 54.1 (C116_violated_zeroes).",
 "C117": "Proved for straight moves, arcs, spirals, helices in G90 that end off the origin, cycles moved sideways in G17 and everything between. Violated by helices that end at the origin (C117_violated_origin), helices in G91 (C117_violated_distances) and cycles moved in depth (C117_violated_depth).",
 "C118": "Proved for straight moves, arcs in the plane, dwells, tool exchanges, base points and cycles by coordinates, on mills and lathes. Violated by tapping with G99 (C118_violated_tapping), pecking G73 (C118_violated_pecks) and helices (C118_violated_helix) by distances; a T word beside G91 gives a message that names 91.",
 "C119": "Equality of whole results. Not covered: a motion repeated beside M6, G28 or pending rapid positioning, arcs and cycles repeated without any value, G codes repeated beside a T word; for these the claim is false (C119_violated_home, _arc, _tool, _pending).",
 "C12": "Proved for the first evaluation of a line; a second evaluation of the same line does not overwrite the stored value (violated).",
 "C120": "Proved for blocks, programs and from the start: the states are equal apart from the feed, the speed and the times.",
 "C121": "Proved for programs that succeed and report no length below zero, which over the real numbers all programs without drilling cycles do (C121_start_partial). False for a cycle whose R lies below its depth: its length is negative and the time grows with the feed (C121_violated_cycle).",
 "C122": "Proved for exact numbers (the root takes squares out, as the real root does) and moves by coordinates without tool or M words. Violated with G96 and a feed per turn: the spindle speed is computed from the length of the motion, so that two halves take half the time (C122_violated_surface).",
 "C123": "Full in its quantifier. Over the reals (or any ordered field with an odd arctangent).",
 "C124": "Full for exact arithmetic (the sums of doubles are rounded).",
 "C125": "Full in its quantifier, over the reals (or any ordered field with a distance).",
 "C126": "Proved for arcs that can reach their end and whose radius is not within the tolerance; violated for the others.",
 "C127": "Partial because G18 is violated (`C127_violated_G18`, `C127_violated_program`); the exact condition is proved for each plane.",
 "C129": "Partial because violated for text that is not ASCII (`C129_violated_comment`, `C129_violated_flaw`); it is proved that the ranges told are right exactly if the text before the token is ASCII, for flaws if it has no tabs.",
 "C130": "Partial because violated for several changes in one notification (`C130_violated_changes`) and for CR without LF (`C130_violated_cr`).",
 "C131": "Exact for each message handled without fault; methods without handler, ids that are not integers and requests after shutdown violate it.",
 "C132": "Machines that are no lathes, feeds above zero, no drilling cycles (lengths not below zero); violated with F0 and on lathes by feed per revolution.",
 "C133": "Readable settings, grammar and description files that stay the same, no NUL characters; violated for closed documents and for unreadable descriptions.",
 "C134": "Comments without backslash, word tables without ( and ; (proved for every shipped control); violated for backslashes, for ; and for the command that comments a line out. The rules of the editor are from general knowledge.",
 "C135": "Missing: arcs outside of G17 (refuted in G18) and dwells by X (refuted), machines off the axis (there the points of the machine have to be turned too, see C123), rotations about X and Y and by quarter turns.",
 "C136": "Programs of straight moves and arcs on machines other than lathes: for every number of quarters proved (C136_program_quarters), for other angles for the arcs whose quadrants and coincidences agree (C136_program_partial, exact for blocks in C136_turned_iff_partial). Missing: helices, spirals and cycles (for half turns see C135).",
 "C137": "Proved for programs of straight moves and arcs on machines other than lathes for which the tolerances decide alike (C137_program_partial), for k >= 1 with a condition on the first program only (C137_larger); refuted for chords below the tolerance (C137_violated_chord). Missing: helices, spirals and cycles.",
 "C138": "The pieces of at most half a turn are always counted with the length of the arc (C138_pieces); for programs of straight moves and arcs on machines other than lathes the paths agree exactly in the cases named (C138_program_iff_partial), for arcs by their radius always (C138_radius_partial); refuted otherwise (C138_violated_three_quarters). Points are at least the tolerance apart. Missing: helices.",
 "C139": "Machines that are no lathes; tools are not chosen together with a dwell (C26). For F0 and for feed per revolution the time is another (C132_violated_F0, C132_violated_revolution).",
 "C140": "Programs of straight moves and arcs on machines other than lathes (C140_program_partial), exact for one arc (C140_arc_iff_partial), refuted otherwise (C140_violated_three_quarters). Full circles cannot be given by their radius; ends and radii are above the tolerance. Missing: helices.",
 "C141": "Programs of straight moves and arcs on machines other than lathes: arcs by their centre of at most half a turn, full circles, and arcs with ends inside different quadrants (C141_program_partial), all arcs by their radius (C141_radius_partial); refuted for the other arcs by their centre (C141_violated_three_quarters). The ends coincide or are apart by the tolerance, and the radius is above it. Missing: helices.",
 "C142": "Missing: rapid motions, sizes for which the fixed tolerances decide differently (see C137), lathes.",
 "C143": "Missing: rapid motions, and arcs by their centre of more than half a turn that are counted with the shorter way round (C141_violated_three_quarters); lathes.",
 "C144": "Proved for turning by quarters and for the way back, and for other angles if the arcs are counted alike (C136 is violated for some arcs of more than half a turn). Missing: rapid motions, lathes.",
 "C15": "Proved: an accepted text starts with a complete expression. Violated: trailing text after it is ignored.",
 "C16": "Structure, untouched words and the switch are proved. Violated for words standing before G4 in a dwell block.",
 "C17": "Proved for words whose target grammar has at least one fraction digit; violated for precision 0.",
 "C19": "Proved for rotations about Z (G17) and for arcs in G17 under the stated condition; composition and general consistency are violated.",
 "C20": "Sequence proved for blocks whose number word is plain; violated for numbers given by a macro.",
 "C24": "Text splitting proved; the other modes number from a counter that is not reset (violated).",
 "C26": "Path total = sum of reported motions for successful blocks, time total incl. exchange/measure/pallet/dwell; failing blocks add nothing unless F/S/rapid feed is missing; totals grow while no drilling cycle is active. Violated: F-not-set block is added, R below Z makes totals negative, dwell beside a T word without exchange is lost.",
 "C27": "Everything but the pending rapid positioning is reset; equal results proved for machines without automatic rapid after tool exchange; violated otherwise.",
 "C28": "Proved for blocks without string attributes behind the slash; violated for pallet/measure codes given as strings and for unknown positions (a skipped block is refused).",
 "C29": "Proved for G0/G1 and the arc bounds; the full circle for radii the code does not treat as zero (violated below about 5e-9). Block level in all planes, also for lathes with diameters (C29_turning_partial).",
 "C33": "Proved, with an exact condition: the digits before the point decide. Violated for numbers above the limit by a fraction only and for negative numbers that would be above it without sign.",
 "C35": "C35_history_partial covers histories without #, [ and ]; C35_ordinary_partial covers all histories for accepted lines of ordinary words; C35_violated_* show that the restrictions are needed.",
 "C36": "C36_violated: between brackets a word without digits before the dot escapes the check (#1=[N.5] although N takes no decimals).",
 "C37": "C37_round_trip_partial and C37_mill_partial exclude the cases of C37_violated; mill_regular shows that the shipped tables are regular.",
 "C38": "C38_success_partial and C38_failure_partial cover lines without #, C38_success_off_partial checking without macro evaluation; C38_violated has the other cases.",
 "C39": "C39_line_partial and C39_program_partial hold with macro evaluation for lines that succeed without a message; C39_violated shows the rest.",
 "C40": "Word arrays, split arrays and macro arrays proved (read back exactly, released exactly once). Text split proved when no part is empty; violated for an empty part.",
 "C45": "Proved for every named configuration value except the rotation direction, whose two names are not read back (violated).",
 "C46": "C46_points_partial says exactly what the points become, C46_right_iff_partial when that is right, C46_violated gives concrete machines.",
 "C47": "Prefix stability, equality after a document was opened, and exactly-once offers proved; violated: list grows when the first document is opened, padded codes twice.",
 "C50": "Substitution proved for macro words without brackets; violated otherwise.",
 "C51": "Proved when every update made by the extension stores something new; violated when it stores the value already present, because the ignore flag then stays set.",
 "C52": "All functions except SINH are supported; SINH is accepted by the grammar and rejected by the evaluator.",
 "C55": "Proved when rapid_traverse_cancel_cycle is off; with it on, an unrelated G code such as G54 makes the splitter forget G0 (violated).",
 "C57": "Proved for texts and names without NUL; violated: everything behind a NUL is ignored, names that differ behind it are mixed up.",
 "C60": "Violated for every helix that rises: the pitch is multiplied by 2 pi; the formula is right exactly for pitch 0 and an upper bound otherwise. Block level: C60_blocks_partial for helix blocks from a position on all axes; C60_violated_arc_after, C60_violated_origin, C60_violated_old_centre are witnesses.",
 "C61": "Proved; without revolutions or increment the result is NaN (violated there).",
 "C62": "Right for plain drilling in G99, tapping, pecking, fine boring and back boring; exact conditions are proved where it is not (negative reference level with G98, incremental depth with G98, tapping with G91 G99, G76 with G91, G73 in absolute mode, G87 with G91, last bite a whole Q, Q0).",
 "C63": "Proved for radius words; violated for centre words (short arcs reported as long and the reverse) and an unreachable end gives NaN.",
 "C64": "Radius words: proved. Centre words: right exactly if the arc is at most half a turn or its ends lie inside different quadrants; otherwise the rest of the circle is reported (violated).",
 "C65": "C65_dwell_partial compares the two runs for G4 with P after blocks without errors, where G0, G1, G80 or no motion is in force, no rapid positioning is pending and the base point gives X, Y, Z. Missing: dwells while G2, G3 or a cycle is in force and the time as X or U: violated (C65_violated_moves, C65_violated_cuts, C65_violated_hole); states after refused blocks.",
 "C66": "Full for named tools; violated for the path before the first exchange, which is lost as soon as a T word is read.",
 "C68": "Proved for G0 and G1 on machines other than lathes; arcs, lathes and whole programs are covered by C118, drilling cycles are only compared through C62.",
 "C69": "Proved exactly: which blocks keep all groups and which lose them. Blocks with T or M words, G4 and reference returns are outside this theorem.",
 "C70": "Proved in G17 for first holes (plain drilling, tapping, fine boring), further holes, K0, G91 with K n and whole patterns by induction; the violations are proved.",
 "C71": "Over exact reals; for arcs apart from the tolerance and for arcs up to half a turn or with ends in different quadrants, since the code is wrong otherwise (C64). Lathes: straight moves (C71_turning_partial) and the form of arcs (C29_turning_partial); wrong in G19 (C71_violated_lathe_G19).",
 "C72": "Proved when the workspace has no own value; violated otherwise (C72_violated_workspace).",
 "C77": "Proved for feed per minute on all machines and feed per revolution with G97 on lathes; the formula used with G96 is proved and shown wrong.",
 "C78": "C78_block, C78_program, C78_variables, C78_other_variables in full for T and M6 in one block; C78_violated_prepared for T and M6 in different blocks.",
 "C79": "C79_block_partial gives conditions under which a block is defined in any state; C79_program_partial: programs without peck cycles and helices are defined throughout; C79_violated_* are the witnesses. Missing: nothing but the excluded cases, which are violated.",
 "C80": "C80_idle_partial compares the two runs after blocks without errors if the base point gives X, Y, Z; C80_no_time: without pallet exchange and measurement the difference is 0. Missing: states after refused blocks; without a full base point it is violated (C80_violated_unplaced).",
 "C81": "Proved: `C81_exact_partial` (accepted with result s iff the file says s, setting by setting), `C81_text_partial` (the same for the bytes), order, missing settings, usability. Missing: violated for heidenhain and for numbers before truth values.",
 "C82": "Proved: `C82_tables_partial`, `C82_accepted`; violated: what is kept of a refused file (`C82_violated_kept` says exactly what), negative decimals.",
 "C83": "Proved in full for the tree of the file.",
 "C84": "Lines and documents without an opening bracket are proved never to raise, and every raising line is proved to execute a word that is no number. Missing: texts with brackets in general, where the property is false.",
 "C85": "Proved for lines without #, with numbers that fit an int and S, T and F whose digits before the point decide whether they are above their limits (otherwise C33 fails). Missing: lines with macros, for which see C98 and C99.",
 "C86": "Lines: proved (C86_line). Programs: with the restrictions of C85. Brackets and operators are not covered; a word table is regular when the beginning of a word tells what it is (Spec.Tables.Regular, shown for the shipped tables).",
 "C87": "Partial: documents of declared words with ordinary numbers, assignments, and variables in the place of numbers with the restrictions of C99; names of axes, groups and words that must be unique contain neither a colon nor the letter i (the placing of diagnostics searches for both in the messages).",
 "C88": "Partial: texts without opening brackets and with numbers of variables that fit an int; the exceptions are shown to be violations. Undefined behaviour of malformed messages is a separate outcome and not excluded here.",
 "C89": "Full for all lines without a program name; the loss after a program name is proved as a violation.",
 "C90": "For histories in which every handler returns (C88).",
 "C91": "Not covered: tool variables, rejected lines with #, kept addresses given by a variable. Violated by a line such as #1 X5 (see the theorem).",
 "C92": "The programs are written without #, with ordinary numbers (they fit an int; the digits before the point decide whether speeds, tools and feeds are above their limits), and a block number does not occur twice on a line where its address is declared unique.",
 "C93": "The running of the rewritten program is shown for programs without # and with ordinary numbers; conversions are only shown to fail.",
 "C94": "Violated for numbers without a leading digit (X.5) and for Q-5.",
 "C95": "Violated: a first line without settings is undefined behaviour.",
 "C96": "Violated: blank lines, a number alone and words beginning with CYCL, BEGIN or END are refused.",
 "C97": "Verdict and message are proved; the words are not delivered at all (violated).",
 "C98": "Programs: the lines that are no assignments have no variables (C91 treats the values of variables for any document); expressions do not read the variables in which the controller keeps words. Violated for operators of the calculator that the shipped word table lacks, and after a line with a closing bracket too many.",
 "C99": "The value, with at most six decimals, must be one the address allows (violated otherwise: success with a message, and the line is not simulated), the sign is in the text or in the value (violated for both), the line has no assignment and does not change the units (violated for both). Programs: no line reads a variable in which the controller keeps words."
}