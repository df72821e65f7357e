# Design of the formal model of vscode-ncproj

The sources in `/repo` (a C++ parser library, a C++ language server and a
TypeScript editor client) are modelled function by function in Lean 4.  The
properties of `properties.jsonl` are proved about that model for all inputs,
states and histories.  `MANIFEST.json` lists the theorems of each property.

## How to read the model

* `lean/Verif/*.lean` holds the model (one module per source file or group of
  files) and, in modules named `...Proofs` and the like, helper lemmas.  Every
  definition that stands for code cites the file and lines in `/repo`.
* `lean/Verif/Spec/*.lean` holds the specifications.  They do not mention the
  functions of the model.
* `lean/Verif/Props/*.lean` holds the theorems.  A theorem `Cnn_...` belongs to
  property `Cnn`.  Beside each theorem an `example` meets its hypotheses.
* A theorem that proves less than its property ends in `_partial`.
* Where the code violates a property, `Cnn_violated...` proves the negation with
  a concrete witness; the statement in `properties.jsonl` is kept in full and
  carries a remark "(Violated: ...)".
* `Demo`, `SimDemo`, `GrammarDemo`, `PipeDemo` are instances for examples:
  a small server, a small machine, the shipped word tables of the Fanuc mill.

Functions of the code are total, computable Lean functions.  Stateful objects
are a state record and a step function; state left behind by an exception is
returned too, because the callers keep using the object.  `Out` has three
results: a value, an exception, and undefined behaviour (`ub`).

## Trusted base

* The Lean 4.33.0 kernel.
* The axioms `propext`, `Classical.choice` and `Quot.sound`, and no others.
  `AXIOMS.md` lists the axioms of every theorem.  There are no axioms of our
  own, and neither the compiler nor external solvers are trusted.
* The hand translation from C++ and TypeScript to Lean.  The repository's own unit tests
  (`parser_ut`) were carried over to `Verif/Agreement`: all their expectations of the parts that are
  modelled, about five hundred, hold in the model, numbers within the tolerance of the tests.  These are
  tests of the translation, evaluated by the kernel; no theorem depends on them.
* The behaviour of libraries, as written down at the definitions that replace
  them (next section).

## What is modelled, and where it is simplified

| Source | Module | Simplifications |
| --- | --- | --- |
| `nclangsrv/nclangsrv.cpp` main loop | `Framing` | a byte is a character |
| `nclangsrv/JsonMessageHandler.cpp`, `CodesReader`, `MacrosDescReader`, `WordGrammarReader`, `NCSettingsReader` (use, not file formats) | `Server`, `Json` | rapidjson's reader is a parameter, its writer is modelled; a hash table is iterated in order of insertion; file contents are given with each message |
| `NCParser::parse` with its readers and its line parser | `Whole` | the world of `Server` with `Settings` and `Pipeline` in it; sums that are not finite are shown as zero |
| `NCSettingsReader`, `WordGrammarReader`, `CodeGroupsReader` | `Settings` | from the tree boost's `read_json` makes of the file; a number with a fraction is read exactly; `get_value<bool>` takes 1 and 0 |
| `nclangsrv/NCParser.cpp` | `Lines`, `Server` | the line parser is a parameter in the server theorems; totals are rational numbers |
| `parser/fanuc/AllAttributesParserGrammar.{h,cpp}` | `Grammar` | Spirit's rules as functions on the remaining text; lines contain no line break; tab stops of 4 |
| `parser/fanuc/AllAttributesParser.cpp` | `Pipeline`, `Removal`, `Message`, `Transform` | after `set_ncsettings`; `M_PI` and `M_E` are parameters |
| `parser/fanuc/ValueCalculator.cpp` | `Calc` | numbers are rational; transcendental functions are an arbitrary oracle; a result that is not finite is an error of its own |
| `MacroEvaluator`, `MacroEvaluatedCodeVerifier`, `SystemMacroAssigner`, `MacroDefines.h`, `util.h` | `Macro`, `MacroMap`, `Num` | `stod` has no overflow |
| `UniqueCode`, `CodeGroupsVerifier`, `SameWordInBlockVerifier`, `RotationVerifier`, `RangeVerifier`, `GrammarSelector` | `Verifiers`, `Pipeline` | |
| `PathCalculator.{h,cpp}`, `MathUtils.h` | `PathCalc` | numbers of any ordered field; `sqrt`, `atan`, `asin`, `log`, `M_PI` are parameters (the geometric theorems take the real functions); infinity and NaN are `none` |
| `AttributesPathCalculator.{h,cpp}` | `AttrPath` | as above; a reference to a temporary that has ended (lines 1346-1353) is read as `Absolute` |
| `Renumberer`, `UnitConverter`, `AxesRotator`, `FileSplitter` | `Renumber`, `UnitConv`, `Rotator`, `Splitter` | the splitter's path and time are a parameter in `Splitter`, those of the simulation in `SplitFile` |
| `split_file` of `parser/fanuc/AllAttributesParser.cpp` | `SplitFile` | sums of path or time that are not finite are an outcome of their own; what is left in the parts after a failure is left out |
| `cmtconfig/NCSettingsForm.cs`, `NCSettingsForm/*.cs`, `NCSettingsDefinition.cs` | `Form` | doubles are rationals printed exactly; no exponents or white space in numbers; pictures, author and version left out; the language of the form only as culture |
| `parser_net/AllAttributesParser.cs` (methods that return something) | `Net` | native functions by their results; malformed UTF-8 simplified |
| `parser_net/AllAttributesParser.cs`, `FanucAllAttributesParser.cs` (`SetNCSettings`, constructor, requests), structures of `AllAttributesParserWrapper{,Base}.h`, `GeneralParserDefines.h` | `Hand` | a structure is the list of its members; sizes and alignment agree; keys of dictionaries are not null |
| `parser_net/PredefinedBlocks.cs` | `Blocks` | JSON is a codec; `string.Format` for `{0}` and doubled braces; input and output succeed |
| `parser_net/Grammar.cs`, `CodeGroups.cs` | `NetFiles` | a file is the tree of an object; descriptions are left out |
| `conf/*` (settings, words, code groups, keys of the descriptions) | `Shipped`, `ShippedText` | copied by `tools/shipped.py` and `tools/shippedtext.py`; titles and texts are arbitrary |
| `read_json` of boost (called in `NCSettingsReader.cpp`, `WordGrammarReader.cpp`, `CodeGroupsReader.cpp`) | `JsonFile` | third-party code, not in the repository; well-formed UTF-8 without byte order mark, no bound on nesting |
| `JsonConvert.SerializeObject` of Json.NET (called in `NCSettingsDefinition.cs`) | `JsonWrite` | third-party code, not in the repository; bytes in UTF-8, the escapes of U+0085, U+2028 and U+2029 left out |
| `AllAttributesParserWrapper{,Base}.cpp` | `Wrapper` | allocations are numbered; sizes are not bounded |
| `heidenhain/AllAttributesParser{Grammar.h,.h,.cpp,Wrapper.cpp,Defines.h,Defines.cpp}` | `Heidenhain` | one line at a time, ASCII; `int_` of boost wraps into the unsigned identifier as the compiler does |
| `OrderAttributeParser.cpp` | `OrderAttr` | the one instance `float, float`; values are rational; `inf` and `nan` are not read |
| `GeneralParserDefines.cpp`, `AllAttributesParserDefines.cpp` | `Enums` | values outside an enumeration are not modelled |
| `vscode-client/src/extension.ts` | `Extension`, `Launch` (`arguments`), `Status` | configuration events arrive at once; defaults of `package.json` included; file names without directories |
| `syntaxes/ncproj.tmLanguage.json` (comments), `language-configuration.json` (`lineComment`) | `Colour` | how the editor runs them is third-party behaviour, from general knowledge; keywords left out (none contains `(` or `;`); one line at a time |
| `nclangsrv.cpp` (`main`), command line parser of boost `program_options` | `Launch` | the parser is third-party code, not in the repository; no multibyte or wide arguments |
| `parser_net/CodeGroups.cs` (`CodeGroupValue`) | `CodeText` | `uint.Parse` with the styles of an integer, ASCII digits |

Not modelled: `SplitFile` of the Heidenhain interface (a stub like its other
transformations), the logger, the reader of Json.NET,
threads, the rounding of `double`, memory exhaustion, the UTF-8 encoding of
Polish messages, and the build.

## The properties

Each entry says what is modelled and how the property is proved.  What is
missing and what is violated stands in the notes of `MANIFEST.json` and in the
section on findings.

### Server and client

- **C01** Framing: the reading loop as a machine with one mode per inner loop; induction over the list of messages and, inside a message, over its characters.
- **C02** Extra header fields: same machine; invariant for header text without a capital C, two witnesses for `Content-Type`.
- **C03** Latest text: the handler as a step function; refinement to a specification that only remembers the last text per document, by induction over the history.
- **C04** Replies: the written replies of a step are counted per kind of message; the count is lifted to sessions by induction.
- **C05** Stopping: the loop stops exactly at the first `shutdown` or `exit`; induction over the messages.
- **C06** Diagnostics: the checking loop for an arbitrary line parser, then the colon-splitting of messages; induction over lines.
- **C07** Line numbers: both ways of cutting a text into lines are modelled and proved equal by induction over the text.
- **C08** Missing configuration: readers with their "already read" flags; case analysis of the first event, two-step witnesses.
- **C09** Descriptions of macros: lookup in the tables; soundness and completeness inside ranges by induction over the table.
- **C47** Suggestions: the list is a prefix of every later one; invariant over histories.
- **C48** Hover range: the search loop with an abstract leftmost matcher; loop invariant.
- **C57** NUL characters: the whole text is used if there is none; witnesses otherwise.
- **C58** Diagnostics depend on the text: two-run comparison over arbitrary histories.
- **C59** JSON: a reader written for the specification reads every written value back; structural induction over values, then over sessions.
- **C73** Lenses: totals per tool as the specification; induction over the lines. `C71_shown_partial` and `C77_shown_partial` state what a total is a sum of: the motion the simulation of the line reports.
- **C74** Explanations: completion items and hovers are traced back to the description file.
- **C81** Settings: each conversion of text is proved equivalent to a grammar of the specification, then the reader field by field. From the text to the machine: `Spec/InForce.lean` lists which text decides which part of the configuration (`C81_in_force`), which codes are in force before the first block (`C81_start`), which times are charged (`C81_times_partial`) and where the points come from (`C81_points`).
- **C82**, **C83** Word tables and code groups: induction over the entries; lookup in the result against the last entry, or any entry, of the file.
- **C43** Times: division with remainder.
- **C51**, **C72** Prompts and toggling: the editor's configuration store as a state machine; invariant on the ignore flag.

### Language: lines, macros, checks

- **C10** Macro table: a list sorted by the code's comparator; `lower_bound` gives the latest assignment not after the line, by induction over recordings.
- **C11**, **C12** Expressions and re-evaluation: same table; partial results and witnesses.
- **C13** Expressions: a precedence grammar as specification; printing and parsing meet by structural induction.
- **C14** BIN and BCD: strong induction on the digits.
- **C15** Ill-formed expressions: whatever is consumed is an expression of the specification, by induction on the fuel of the parser.
- **C44** Number display: the characters denote the same decimal.
- **C49** System variables: fold over the words; the last word wins, all other variables are untouched.
- **C50** Substitution: fold over the words against a word-by-word specification.
- **C52** Function names: exhaustive over the table, for every argument.
- **C30**, **C31** Unique addresses and code groups: exact characterisation by induction over the block.
- **C32** Spindle: the verifier's history as an automaton.
- **C33**, **C34** Limits: equivalences. The code looks at the digits before the point only; `C33_limits_partial` is for words where they decide (`Clear`), `C33_exact` shows that C33 holds for no other words; witnesses for fractions and signs.
- **C35** Verdict: the grammar keeps a status between lines; two-run comparison of states that agree on what an ordinary line can see.
- **C36** Ranges: every word accepted went through `judge`; induction over the words of the line.
- **C37** Writing and reading: every rule reads back what is written, then whole lines by induction; the shipped tables meet the hypotheses by computation.
- **C38** Success and messages: the stages of `parse` with explicit exceptions; case analysis of the stages.
- **C39** Units: invariant of the pipeline, lifted to programs by induction.
- **C46** Machine points: `set_ncsettings` for any settings; exact characterisation and witnesses.
- **C84** No text ends the server: every stage of `parse` with explicit exceptions; invariants of the grammar object and of the words it makes, by induction over the words of a line and the lines of a document.
- **C85** A line is accepted exactly when nothing is wrong with it: the stages of `parse` composed with the specifications of the single checks (C30 to C34), `Spec.Check.Flawless`; programs by induction over the lines, with the simulation threaded through.
- **C86** What the word table declares is accepted: `Spec.Proper.Line` says which words a table declares; every word is read from what is written of it (`attr_direct`), lines by induction over the words; the converse of C36. Programs by composition with C85.
- **C87** The diagnostics begin at the first flawed line: the server with its readers and its line parser (`Whole`); what every check says when it refuses (`Tells`, `Refuses`, by case analysis of all checks) has no colon and no text `line 1`, so the server places it right (C43); lines by induction with the parser threaded through (C85, C86). `Props/DocVars` carries this over to documents with assignments and variables: by C98 and C99 they run like the document with the values in their places (`C87_variables_clean_partial`, `C87_variables_first_partial`), an assignment without value is quoted on its line (`C87_no_value_partial`), a variable without value is named on its line (`C87_missing_partial`). Partial: words as the tables declare them, names without colon and without the letter i, the restrictions of C99.
- **C88** No history of messages ends the server by an exception: every handler of the server with its line parser (`Whole`), case analysis of all steps that can throw, induction over the history with the invariant that open documents only have lines whose variables have small numbers. Partial: texts without opening brackets (C84), small numbers of variables; both limits are necessary (`C88_violated_…`).
- **C89** Nothing on an accepted line is lost: `Spec.Lost.Consists` says which text words consist of; every rule of the grammar keeps its characters (`value_solid`, `operand_solid`, `made_solid`), lines by induction over the words.
- **C90** Nothing depends on the lines below: a line records values of variables for its own number only (`parse_wrote`, all stages), so a longer document has the same values up to any line; lifted to two arbitrary histories of the whole server. Diagnostics: the run over a document splits at any line.
- **C91** What a variable is worth: `Before` is the parser that has read the lines above; its values are those of the finished document (`before_values`), and every kind of line has its own step theorem (`C91_start`, `C91_blank`, `C91_kept`, `C91_words`, `C91_assigned`, `C91_others`, `C91_used`), written with a separate notion of the number a line gives an address (Spec/Variables.lean) and of the value of an expression (Spec/Expr.lean). `C91_shown` joins it to the hover answer after any history. Not covered: tool variables (written by the simulation, C26-C28, C78), rejected lines that contain `#` (they may or may not have assigned before the flaw was found), kept addresses given by a variable (an example). Violated by `#1 X5` (`C91_violated_no_equals`).
- **C92** Comments and block numbers: `Alike` relates lines with the same words but for comments and block numbers (Spec/Alike.lean). `C92_program_partial` (on top of C85): two alike programs get the same verdict and leave the same simulation and units; every part of the check is shown to ignore silent words (`flawless_alike`, `visitAll_alike`). `C92_silent_line_partial`: a line of nothing else moves nothing. Partial: no `#` in the text, ordinary numbers, block numbers not repeated where their address is unique.
- **C93** Rewriting files line by line: `Xform.call` is a call of the interface (grammar, block function, renumberer state), `calls` the loop over a file, `texts` what is written from the answers. `C93_uncomment`, `C93_unnumber`, `C93_renumber`, `C93_rotate`: the words are those of the specification (Spec/Rewrite.lean, C18, C20) and their text is read back as the same words, whatever was read before (on top of C86). `C93_uncomment_run_partial`, `C93_unnumber_run_partial`, `C93_renumber_run_partial`: the new program runs like the old one (on top of C92). Conditions: words as the tables declare them, neighbours that can stand beside each other, something left on the line, numbers only at the beginning; rotations need tables that treat the axes alike. Violated without them: `C93_violated_uncomment`, `C93_violated_second_number`, `C93_violated_rotate`, `C93_violated_convert`. `C93_told`: the answer of a call tells the message and the words of the line it was given.
- **C94**, **C95**, **C96**, **C97** The Heidenhain parser (`Hei.phrase`, `Hei.parse`). Its language is stated as relations between a text and words (Spec/Heidenhain.lean: `Shows`, `Line`, and `Neat` for words written apart), `write` writes words. `C94_whole`: accepted lines are a `Line` of the words delivered; `C94_written`: `Neat` lines are accepted; `C94_again`: the words are read again from what is written. `C95_history`, `C95_safe`: any two histories of calls, and exactly which histories are defined. `C96_position`, `C96_told`, `C96_number`: place and message of a refusal, by an invariant of the sequence of words; `C96_violated_blank`, `C96_violated_kept` are refusals nobody expects. `C97_verdict_partial`: verdict and message through the C interface; the words never arrive. `C45_heidenhain` covers the two enumerations of this parser.
- **C98** Assignments: the expressions, their text and their value are those of Spec/Expr.lean, `FitE` says which of them the word table can spell (Spec/Assign.lean). `assign_read` (AssignRead.lean) shows by induction on the expression that the grammar accepts the text word by word with brackets in step, `inert_stage` (AssignStage.lean) that all later checks treat the words like a comment. `C98_line`, `C98_effect`, `C98_no_value`: one line in any state of the parser; `C98_program_partial`: programs from a fresh parser, where the values are computed line by line by the specification (`computed`). Not covered: other lines with variables, computed variable numbers (`#[1+2]`, refused by the grammar inside assignments), blanks between the words. Violated: `C98_violated_mod`, `C98_violated_history`.
- **C99** Lines with variables: `Filled` (Spec/Filled.lean) relates the words of a line to those with numbers in the place of variables; the number is the decimal number with up to six places nearest to the value. `trunc_writes` (FillText.lean) shows that the evaluated code has this text, `tight_direct` (GrammarTight.lean) that the code, which has no blanks, is read back as these words, `strip_stage` and `systemStage_swap` (FillProofs.lean) that comments (which the code lacks) and the texts read so far play no part. `C99_line_partial`, `C99_missing`: one line in any state of the parser; `C99_program_partial`: both programs run in step (`resolved_run`), and the one with the values is decided by C98 and C85. Missing: values the address does not allow, a sign before a negative value, lines with assignments to words and lines that change the units, which all go wrong (`C99_violated_sign`, `C99_violated_decimals`, `C99_violated_equals`, `C99_violated_units`); programs that read variables in which the controller keeps words.
- **C100** Two wanted letters: a line of words is a list of letters with signed decimal numbers (Spec/Wanted.lean). `C100_words_partial` shows by splitting the line at the first wanted word that success, both values and the absence of a message are as the words say; `C100_text` that success on any text means the letters stand there, each directly before a number; `C100_flaw` that a letter without number fails with its place and leaves the caller's values. Missing: the rounding to `float`, the position in the message text.
- **C101** Similar parts: a similarity (Spec/Similar.lean) permutes the axes, turns some round, shifts and scales; words of similar parts are related one by one, `G90`/`G91` deciding between coordinates and distances. `C101_block_partial` and `C101_program_partial` show by a simulation relation over blocks that outcomes are equal, times are equal, lengths are scaled and positions are images; `C101_start_partial` the same from the start of a simulation; `C101_turned_partial` that a program turned by `RotateAxes` ends in the turned point after the same time. The only assumption on the root is that it takes squares of the scale out, which the real root does and which says nothing for scale 1. Missing: arcs, cycles, tool exchanges, lathes.
- **C102** Inches: `C102_settings_partial` is C101 for the scale 5/127, with G20 for G21, if rapid feed and base point are given in inches too. The full statement is false because the code never converts settings or positions: `C102_violated_time` (rapid moves take 1/25.4 of the time), `C102_violated_limit` (20 inches pass a limit of 500 mm), `C102_violated_change` (X254 in mm, then X10 in inches counts 244).
- **C103** Shipped controls: `Verif/Shipped.lean` holds the trees of the 11 directories of conf (written by tools/shipped.py), `Verif/ShippedText.lean` their bytes (tools/shippedtext.py); `C103_texts` shows by computation in the kernel that `readJson` makes these trees of these bytes. `C103_read` and `C103_same` compute the readers on them; `C103_codes` carries the ranges of G and M over to `C86_line`, so every code of a group is accepted after any lines; `C103_ready` shows that every setup made of a shipped control and of settings with capital letters as axes is `Orderly` and `Ready`, the hypotheses of C87, C98 and C99; `C103_documents_partial` and `C103_variables_partial` are C87 without them.
- **C104** Shipped descriptions: the keys of the description files are in `Verif/Shipped.lean`, titles and texts are arbitrary. `C104_shown_partial` follows from `C74_hovered` because no key of these files has a leading zero and no two entries share a name. False for the generic controls, whose M codes are described as `00` to `09` while hover strips the zeros: `C104_violated_generic`, by `C74_undescribed` (a code without description is shown as it is written).
- **C105** Splitting by path or time: `split_file` with the model of a check (`parse`) for every line. `C105_amount_partial` and `C105_no_more_partial` join C54 with what the check reports after each line; `C105_exact_partial` adds, through C85, when it succeeds and that the amounts are those of the simulation of the words. False for blank lines, for a parser that has split before, and for amounts that are not positive (`C105_violated_*`).
- **C106** The parts are the file: `C106_complete` (every line read to its end, C22, only numbers change), `C106_again` and `C106_text` (the blocks read again as their words, through C86), `C106_run_partial` (the parts run like the file, through C92). The settings of the numbers, whose greatest number is 0, are shown to number like settings within the range of the address. False for parts at a text when a line has a fault (`C106_violated_text`).
- **C107** The settings form: `Form.exportFile` reads the controls (`readKin`, `readCnc`, `readPoint`, `readZero`), `File.tree` is the tree that is written, `Conf.readSettings` the reader of the server. `C107_file_partial`: a file with known names and finite numbers is read and means what it says (`Kept`, Spec/Form.lean, states every setting by the first entry with its name). `C107_export_partial`: every exported file is such a file. `C107_imported`: after an import the lists still hold what is selected. `C107_text` and `C107_export_text` are the same for the bytes (`File.text`, the writer of Json.NET).
- **C108** Import and export: `importFile` fills the controls, `exportFile` reads them. `C108_back_partial` states what comes back of every importable file with whole feeds, `C108_same_partial` when it is the same, `C108_settings` that the server then has the same settings. The texts are those of .NET in both cultures (`numText`, `netNum`; decimals by induction over the digits), ranges go through `float` (`single`, shown to be the nearest number of 24 bits). False otherwise: `C108_violated_feed`, `_point`, `_range`, `_base`, `_pallet`, each for every file of its kind.
- **C109** The .NET class: `Net.call`, `parseOnly`, `macroValues`, `lineMacroValues`, `pathValues`, `split`, `splitTexts` are its methods on top of the model of the C interface (C40), with a heap whose released cells stay `none`. UTF-8 is specified by its bit patterns (Spec/Net.lean) and shown to be decoded exactly. `C109_parse_partial`, `C109_call_partial`, `C109_macros`, `C109_line_macros`, `C109_path`, `C109_split_partial`, `C109_texts_partial`: the caller gets what was found, and the heap is the old one with released cells behind it. False otherwise: `C109_violated_answer`, `C109_violated_split`, `C109_violated_texts`.
- **C110** Handing over: the structures of .NET (`kinCells`, `axisCells`, `cncCells`, `zeroCells`, `wordCells`, `optionCells`, `splitCells`, `renumberCells`) are written with the enumerations and the order of AllAttributesParser.cs and read with those of the C++ headers (`readKin`, `readCnc`, ...; the tables of enumerators are transcribed separately). `C110_file`: the settings are those of the file the client hands over; `C110_same_partial`: they are the ones the server reads from the same file; `C110_taken`: exactly when settings are taken; `C110_parser`: words, operators, groups, options, language, driver and machine of the parser; `C110_split`, `C110_renumber`: requests. False for null texts: `C110_violated_null`, `C110_violated_split`. Missing: sizes and alignment of members, code pages of texts.
- **C111** Predefined blocks: `Blocks.read`, `Blocks.write` over a disk (paths to contents) and a platform that satisfies `Sound`; templates are specified by `Expands`. `C111_read`: exactly the groups of the directory, expanded; `C111_write_partial`: `Written` for a directory given by its full path; `C111_back_partial`: read again as written, for code without braces. False otherwise: `C111_violated_brace`, `C111_violated_sign`, `C111_violated_path`.
- **C112** The same files: `GrammarFile.tree`, `GroupsFile.tree` and `File.tree` are the JSON of the objects of .NET; the server reads them with `readGrammar`, `readGroups`, `readSettings` (C81, C88), the client hands the objects over (C110). `C112_words`, `C112_groups`: equal tables and groups; `C112_same_partial`: the whole setup is equal but for the language, `C112_english_partial`: equal. `C112_text_partial`: the same for any texts that spell the objects. Missing: how Newtonsoft reads.
- **C113** Configuration files as JSON: `JsonFile` is the recursive descent of boost's `read_json`, `Spec/JsonText.lean` the grammar of JSON as an inductive relation between trees and texts. `C113_exact`: both agree for every text and tree (induction over the derivation in one direction, over the bound of the recursion in the other); `C113_single`, `C113_layout`, `C113_refused` follow. `File.text_spells`: what Json.NET writes is in the relation, by induction over values.
- **C114** Start of the server: `Launch` is the argument list of the extension and the command line parser with abbreviations, short options and values apart or joined. `C114_line` by induction over the spelled line (names in full or abbreviated, letters, values apart or joined), `C114_refused`, `C114_once` and `C114_help` for the lines that do not start the server, `C114_editor_partial` by composing it with the effective configuration.
- **C115** Status bar: `Status` with `JSON.parse` as a parameter; trimming (white space and the last member of a name are defined in the spec, not in the model) and the removal of the extension by list lemmas.
- **C116** Texts of codes: reading inverts printing (`C116_back`, `C116_distinct`); `C116_read` characterises exactly the texts that are read and their value.
- **C117** A part elsewhere: words of the moved program are related one by one (Spec/Moved.lean), G90/G91 deciding whether a number is a coordinate. Each function of the calculator commutes with moving the state (`SimMoved.lean`, `SimMovedRun.lean`: visitor, T word, dwell, all motions, totals, saving of positions), so `C117_block_partial` is an equality of whole states; `C117_program_partial` by induction over the program with the modes after a block that succeeds (`evaluate_modes`), `C117_start_partial` from the start. False for helices at the origin or in G91 and for the depth of cycles (`C117_violated_...`).
- **C118** Distances and coordinates: Spec/Coords.lean relates the words of the two programs (a coordinate is the place the tool comes from plus the distance, G90 in the place of G91). `SimCoords.lean` shows for every function of the calculator that the state with G90 in force is the same (visitor, T word, dwell, straight moves, arcs, cycles by coordinates, totals, saving of positions): `C118_block_partial` is an equality of whole states. `C118_program_partial` by induction over the program, the places being those of the simulation itself (`Rewritten`); `C118_start_partial` from the start. False for tapping, pecking and helices by distances (`C118_violated_...`).
- **C119** Repeated words: Spec/Repeat.lean says when a word repeats what is in force (`Repeats`) and when a block is padded with such words (`Padded`). `SimRepeat.lean` compares the visited words of the two blocks (equal except for the modal values, which fall back to what is in force) and takes the equality through every part of `evaluate`: `C119_block_partial` is an equality of whole results, `C119_program_partial` by induction over programs with the states of the simulation itself (`Restated`). False beside a return to the base point, a T word, pending rapid positioning and for arcs without values (`C119_violated_...`).
- **C120** Feeds, speeds and times: Spec/Rates.lean relates programs whose F and S words differ. `SimRates.lean` takes through every function of the calculator that the two states agree in everything but the feed, the speed and the times, and that feeds are above, at or below zero alike (`evaluate_same`, for any relation of feeds that tells these apart): `C120_block`, `C120_program` by induction, `C120_start` for the reported values from the start. Times of the machine are part of the machine `paced n c`.
- **C121** Higher feeds: the same relation with `AsHigh`, and beside it that each time is no longer (`evaluate_later`: time of work is length by feed, by feed and speed, or by surface speed). `C121_block_partial`, `C121_program_partial` assume that reported lengths are not below zero (`Onward`, `Forward`); `C121_start_partial` proves this over the reals for every program without drilling cycles. False for a cycle with R below its depth (`C121_violated_cycle`).
- **C122** Moves in pieces: Spec/Pieces.lean says when a block goes to a point on the way of another one (`Way`). `SimPieces.lean` gives the result of a straight move explicitly (`evaluate_straight`) and shows that two in a row leave the same state as one (`evaluate_pieces`: a point on the way leaves no trace in the bounds, lengths and times add up). `C122_block_partial`, `C122_program_partial` by induction over `Finer` (any number of points), `C122_start_partial` over the reals. False with surface speed (`C122_violated_surface`).
- **C123** Mirrored parts: Spec/Mirror.lean says which words change sign (X, I and Y, J of the mirrored axes) and when G2 and G3 change places. `SimMirror.lean` shows that the quadrants of arcs, their case tables for both senses, radii, spirals and helices commute with the mirror for every odd arctangent; `SimMirrorRun.lean` carries that through the evaluation (`evaluate_mv`). `C123_block`, `C123_program` by induction, `C123_start` over the reals. Messages of refused blocks are not compared, since they may name the code that was exchanged. Hypotheses: plane G17, dwells not given by a mirrored X, `cancel2 = cancel3`, positions within their bounds (kept by every block, `Pcs.evaluate_held`).
- **C124** Rounds: `Standing` (Props/Rounds.lean) says when two states have the machine at the same place with the same tool and the same in force; totals, totals per tool, bounds and the lengths of the last block may differ. `SimBooks.lean` shows that every motion function commutes with replacing these (`motion_lg`) and that the accounting adds the same to both (`evaluate_bk`). `C124_block`, `C124_program`; `C124_repeat`: by induction on the number of rounds. Totals are exact sums here; doubles round.
- **C125** The way and the distance: by induction over the program from `C71_line_partial` (the length of a straight block is the distance of the positions before and after it), `C26_path` (totals) and the triangle inequality (`Metric`, which `realFns` meets by `C29_line_metric`): `C125_distance`, `C125_visited` (by way of the position after any prefix), `C125_start` (with the distance of Mathlib's Euclidean space). Arcs are left out: the code reports the radius for arcs within its tolerance (`C29_violated_tiny`).
- **C126** Arcs and chords: `short_chord` (sin t ≤ t at the arctangent the code takes), hence for the long arc and the full circle; `C126_centre_partial`, `C126_radius_partial` for the functions, `C126_block_partial` for blocks (by `C29_planes_partial`), `C126_program_partial` for programs of straight moves and arcs (the claim of C125 with arcs; `AllFit` says where each arc can reach its end). Violated by radii too small for the arc to reach its end: `C126_violated_reach`, `C126_violated_accepted`.
- **C127** Sense of arcs: the specification (`Spec/Space.lean`) is a turn in space about the axis across the plane, with the cross product of Mathlib; `turn_arc` shows that in the coordinates the code uses it is an arc in the sense of the code in G17 and G19 and in the opposite sense in G18. With `C64_arc_exact_iff_partial` follows when exactly the length is right: `C127_G17_G19_partial`, `C127_G18_partial` for the functions, `C127_block_partial` for blocks (by `C29_planes_partial`). `C71_arc_partial` states G18 in the coordinates of the code (X before Z). Violated in G18: `C127_violated_G18`, `C127_violated_program`. The convention for G18 (Z is the first and X the second axis, seen from the positive end of Y) is that of ISO 841 / Fanuc machines and does not come from /repo; the specification rests on it. (parser_ut/fanuc/PathCalculatorTest.cpp:30-76 expects the same lengths of the same numbers in all planes.) The concrete cases beside `C127_block_partial` and `C127_violated_program` run over the rationals with a constant in place of the arctangent (`quarters`); the witness over the reals is `C127_violated_G18`.
- **C128** There and back: `C128_arc` (all arcs about a centre, also those within the tolerance: the case distinctions of the code are symmetric in the ends), `C128_radius`, and for programs `moves_total` (the total is the sum of the motions, by induction over the program from `C71_line_partial`, `C29_planes_partial` and `C26_path`), hence `C128_program`. The motions of a program (`MovesAlong`) are stated by the positions before and after each block. Helices and drilling cycles are not treated. The example beside `C128_program` runs a program there and back over the rationals with the stand-in functions `quarters`; the real functions are not computable, so `Props/RealRuns.lean` evaluates blocks over ℝ by simplification and applies `C128_program` to them.
- **C129** Columns: `Spec/Columns.lean` counts in UTF-16 as the Language Server Protocol does, UTF-8 is that of Spec/Net.lean; texts inside the server are lists of bytes. A character has as many units as bytes exactly if it is ASCII (`units_bytes`), hence with C48 `C129_told_iff_partial` (when exactly the range told is right), `C129_asked_partial` (what is asked), `C129_flaw_iff_partial` (column of a flaw, no tabs). Violated: `C129_violated_comment`, `C129_violated_flaw`. That the editor does not negotiate another encoding: neither the server nor the client mentions `positionEncoding`. The place of a flaw is where the part the parser could not take begins (for `/G0 ]` that is where the code begins, not the bracket), as in C07.
- **C130** Text and lines of the editor: `Spec/Editor.lean` has the text after the notifications (changes in their order) and the lines (ended by LF, CR LF or CR) of the protocol, while C03 and C07 are stated with the first change and with LF. `C130_text_partial` (one change in each notification) by induction over the history, `C130_lines_partial` by induction over the lines, `C130_hover_partial` with C48. Violated: `C130_violated_changes`, `C130_violated_cr`.
- **C131** Requests: `Spec/Rpc.lean` has requests (method and id, the id any value but null), answers (same id, a result or an error) and the messages up to `exit`, from JSON-RPC 2.0 and the protocol rather than from the list of methods in C04. `C131_answered_iff_partial`: of a request handled without fault the answer is right exactly if the method is one of seven and the id an integer of 32 bits (cases of `handle_step`); `C131_fault_partial`: with other ids four of the methods never return; `C131_conversation_partial` lifts it to the process and a conversation without `shutdown` (by `C05_stops`). Violated: `C131_violated_unknown`, `C131_violated_text_id`, `C131_violated_shutdown`. The client library (`vscode-languageclient`, package.json:133) is not part of /repo; that it numbers its requests with integers is general knowledge and not checked here.
- **C132** Average speed: `Spec/Pace.lean` has the bounds of the F words of a program and the time it stands still (C26). The times of the motions of a block are between those at the bounds (`C132_block_partial`, cases of `evaluate_eval`, the feed in force by `visitAll_rates`), hence by induction for programs with tools, arcs and dwells (`C132_program_partial`, from `C26_path` and `C26_time_partial`) and from the start over the reals (`C132_start_partial`). Left out: lathes (feed per revolution, `C132_violated_revolution`), drilling cycles (lengths below zero, C121), F0 (`C132_violated_F0`). A bound for the feed per revolution would have to come from F times S, which the verifier does not check (`max_working_feed` is compared with the F word only, RangeVerifier.cpp:49). The concrete case is over ℚ with stand-ins for the functions; over the reals there is no worked case.
- **C133** Problems listed: `Spec/Listed.lean` has the list of an editor per document, as a fold over the messages the server writes, and the present text is that of C03 (`latest`). `listed_follow` is the invariant (every message that gives no text leaves all lists alone, `silent_step`, by the cases of `handle_step`; a text replaces the list of its document by what its check from scratch gives, `publish_inv`); `C133_present_partial` compares any two conversations with the same present text, `C133_never_given` the documents without text. Violated: `C133_violated_closed` (for every history: closing leaves the list as it is), `C133_violated_closed_case`, `C133_violated_description`. Not covered: files that change during the conversation. That servers for single files should withdraw the problems of closed documents is the convention of the protocol and not from /repo.
- **C134** Comments of the editor: `Spec/Colour.lean` says where the words of a line are and marks the characters of comments (`Placed`). `made_bare`: every word but a comment is written without `(` and `;` (cases of `Made`), hence by induction over the words of a line that is read the marks are those of the editor (`C134_coloured_partial`); the words of all shipped controls are of this kind (`C134_shipped_partial`). Violated: `C134_violated_semicolon` (for every line), `C134_violated_toggle` (for every line and word table), `C134_violated_backslash`, `C134_violated_toggle_case`. The checked line is without trailing white space. All of this is about the Fanuc dialect; in the Heidenhain dialect, where `;` does begin a comment, the colour ends with a bracket (`C134_violated_heidenhain`).
- **C135** Half a turn: `halfTurn_dec` shows that the table of 180° about Z changes the sign of X, Y, I, J and nothing else, `halfTurn_blocks` that the rotated block is the block of the part mirrored at both axes in the sense of C123, for words as the parser reads them (`Shape`, `number_shape`). `C135_turned_partial` then follows from `C123_start` over ℝ with the true functions, on one and the same machine when its points lie on the axis; its conclusion is stated with `opposite` of Spec/HalfTurn.lean. Refuted for arcs in G18 and for dwells by X, both with exact rational witnesses. Missing: the other eight rotations in the simulation (as texts they are C19).
- **C136** Turned arcs: Spec/Turned.lean turns a point by any angle about any point; `arc_turned` shows that arcs go to arcs of the same radius, sweep and sense. `ArcRun` says that the evaluation of a block moves along an arc by its centre in G17; with `arcIJ_of_arc` and `C29_planes_partial` its length is known (`ArcRun.length`), and `C136_turned_iff_partial` says exactly when the lengths of the two blocks agree. `C136_quarters_partial` needs no condition on quadrants. `C136_violated_eighth`: an arc turned by 45°. An example meets `ArcRun` for an arc and the arc turned by a quarter. Programs: with `moves_total` of C128, `C136_program_partial` (any angle, arcs for which the turn makes no difference, `Leg.Kept`) and `C136_program_quarters` (quarters, no condition; tolerances included). A run over ℝ that meets all hypotheses is in `Props/RealRuns.lean`.
- **C137** Parts of another size: Spec/Scaled.lean multiplies the coordinates of a point. `arc_scaled` takes arcs to arcs of the multiplied radius with the same sweep, `quadrants_scaled` and `arcAngle_scaled` show that the choice of the long arc and the angle do not depend on the size, so the length of a motion is multiplied (`scaled_len`) where the tolerances decide alike. With `moves_total` of C128 this gives `C137_program_partial`; `C137_larger` puts the condition for k ≥ 1 on the first program only. `C137_violated_chord`: ends nearer than the tolerance. A run over ℝ that meets all hypotheses is in `Props/RealRuns.lean`.
- **C138** Arcs in pieces: Spec/Parted.lean says at which points an arc is interrupted, each piece being an arc of at most half a turn. `arc_joined` and `parted_arc` show that the pieces together are an arc, `C138_pieces` (induction on the pieces, `C64_arc_exact_iff_partial` for each) that their lengths add up to its length. With `moves_total` of C128, `C138_program_iff_partial` says exactly when the program with the arc in one block adds the same path; full circles by `arc_closed`. Arcs by their radius agree without exception (`C138_radius_partial`, by `C64_arc_R`). `C138_violated_three_quarters`: three quarters in one block. A run over ℝ that meets all hypotheses is in `Props/RealRuns.lean`.
- **C139** One feed: `constant_block` gives the times of the motions of an accepted block exactly, by the cases of `evaluate_eval`; `Ways` adds up the lengths reported for the blocks. `C139_program_partial` by induction over the program with `C26_path` and `C26_time_partial`, `C139_cuts_partial` compares two programs. An example with a cut and a rapid motion meets all hypotheses.
- **C140** Centre or radius: `BothWays` relates an arc by its centre to the arc by its radius; `C64_arc_R` and `C64_arc_exact_iff_partial` give both lengths. With `moves_total` of C128, `C140_program_partial` (any number of arcs rewritten, induction over the motions) and `C140_arc_iff_partial` (exactly when the paths agree for one arc). `C140_violated_three_quarters`: the arc of C64. A run over ℝ that meets all hypotheses is in `Props/RealRuns.lean`.
- **C141** Arcs by straight moves: the specification (`Spec/Chorded.lean`) says which points lie on the arc and how far apart. `C141_moves` bounds the straight moves by induction over the points (each is `2 r sin (φ/2)`, and `x - x³/6 < sin x < x`), `C141_program_partial` gives the path of programs by `moves_total` (C128). The arc must be counted with its length, which by `C64_arc_exact_iff_partial` is the case for full circles, up to half a turn, and with ends inside different quadrants, and for arcs by their radius always (`C141_radius_partial`); otherwise refuted: `C141_violated_three_quarters`. The case beside the theorem is a run over ℝ.
- **C142** Time of a part of another size: `C142_program_partial` (`Props/SizedTime.lean`) joins C137 (the paths are `L` and `k L`) and C139 (one feed: path and time of a program), so the cuts take `k u / u'` times as long besides `standstill`. The example is a run over the reals, a quarter turn and the same turn in twice the size. Missing: rapid motions (`Ways … 0`), sizes for which the tolerances decide differently (`SameScale`, see `C137`), and lathes.
- **C143** Time of an arc by straight moves: `C143_program_partial` (`Props/ChordTime.lean`) joins C141 (bound of the paths) and C139 (one feed). The example is a run over the reals of a quarter turn and the straight move instead of it. Missing: as for C141, and rapid motions (`Ways … 0`).
- **C144** Time of turned and reversed programs: `C144_turned_partial`, `C144_quarters_partial` and `C144_back_partial` (`Props/TurnedTime.lean`) join C136 and C128 (same path) with C139 (one feed). The examples are runs over the reals. Missing: arcs that C136 shows to be counted differently when turned by other angles (`Leg.Kept`), rapid motions (`Ways … 0`), and lathes.
- **C75** No evaluation, no effect: two-run comparison of the pipeline.
- **C41** Texts of errors: all message names and languages, arbitrary arguments.
- **C45**, **C56** Names and arrays of the configuration: case analysis, induction over arrays.
- **C40** C interface: flattening and reading back; each allocation is released exactly once.

### Transformations of programs

- **C16**, **C17** Unit conversion: a visitor folded over the block; error bound over the rationals.
- **C18**, **C19** Rotations: the tables act on coordinates as the rotations of the specification, for every word.
- **C20**, **C21** Renumbering: refinement to an arithmetic sequence; frame lemmas.
- **C22**, **C23**, **C53**, **C54**, **C55** Splitting: concatenation invariant, then sizes of the parts by induction over the blocks.
- **C24** Numbering of parts: composition of splitter and renumberer.
- **C42** Removal of comments and marks: list lemmas.

### Simulation

- **C25** Ranges of words: state invariant over histories, including failing blocks.
- **C26** Totals: one lemma about what a block adds, then induction over programs.
- **C27** Reset: two-run comparison.
- **C28** Skipped blocks: the visitor does not change after the slash.
- **C29**, **C64** Lines and arcs over the real numbers: `arctan` and `arcsin` against the angle of the specification.
- **C60** Helix: formula over the reals, and whole blocks.
- **C61** Spiral: the closed form is the integral of the speed (interval integral of Mathlib).
- **C62** Cycles: distances against a list of tool positions.
- **C63**, **C68** Incremental programming: compared with the absolute one.
- **C65**, **C80** Dwells and idle blocks: two runs of the calculator, one with and one without the block, are compared block by block (`evaluate_alt` in `SimAlt.lean`: later blocks read no remembered value but those of `readBack`); an invariant (`Tidy`) holds between blocks without errors.
- **C66**, **C78** Tools: invariant relating tables to the tool in use.
- **C67** Order of words: permutation of the block, by induction over transpositions.
- **C69**, **C77** Modal words and times: one lemma (`steady_block`) describes every block without tool change, drilling or helix; induction over programs.
- **C70** Holes: `drill_block` describes a hole, patterns by induction over holes. `C70_cancel` and `C70_cancelled` say which motions end a cycle and that a new one must name R and Z again.
- **C71** Length of the motion: block level form of C29 and C64 in all planes.
- **C79** Definedness: no block of a tame program reaches `ub`; invariant over programs.

## Findings

Behaviour of the code that contradicts what a user would expect.  Where a name
is given, the theorem proves it on the model.

Server and client
* An extra header before or behind `Content-Length` breaks the framing (`C02_violated_...`).
* Unreadable JSON, a huge macro number under the cursor, and resolving before the first completion end the process (`C04_violated_...`).
* A message with a colon is cut; the text "line 1" in a message marks the wrong line (`C06_violated_...`).
* A missing configuration is reported only once (`C08_violated...`).
* The end points of a documented macro range are not found (`C09_violated_end_point`).
* Everything behind a NUL character is ignored (`C57_violated_...`).
* The toggle command writes a value that a workspace value hides (`C72_violated_workspace`).
* Hovering over `G0.5` strips the zero; parts of a lens of 256 characters and more are read past the buffer.

Grammar and pipeline
* The grammar's status survives from line to line: after `#1=2` the lines `X5+3` and `/12 X5` are accepted, after `X5]` correct brackets are refused (`C35_violated_...`).
* `#2=5MOD3` is refused with the shipped tables although the calculator knows `MOD` (`C98_violated_mod`; likewise `ACOS`, `ASIN`, `EXP`, `LOG`); after the refused line `#1=1]` the line `#1=[1]` is refused, too (`C98_violated_history`); `#1=#9` without a value for `#9` is refused with an empty message (`C98_no_value`).
* With `#1=1/3`, or any value with more decimals than the address allows, `G0 X#1` is answered with success, a message comes along, and the motion is left out of the simulation (`C99_violated_decimals`); the same for `X-#1` with a negative value, which becomes `X--5` (`C99_violated_sign`). `S1=5 X#1` is checked as `S15X1` (`C99_violated_equals`). A variable in a line decides whether the new or the old units hold for its own motion (`C99_violated_units`).
* A word behind a variable without an equals sign assigns: `#1 X5` is accepted and gives `#1` the value 5 (`C91_violated_no_equals`).
* Heidenhain: blank lines, block numbers alone and all words that begin with `CYCL`, `BEGIN` or `END` without being the statement (`ENDWHILE`) are refused (`C96_violated_blank`, `C96_violated_kept`); `X.5` is a word `X.` with value 5 (`C94_violated_fraction`); `Q-5` becomes parameter 4294967291 (`C94_violated_id`); parsing before `SetNCSettings` dereferences null (`C95_violated_settings`); `ParseValue` never sets the array of words (`C97_violated_words`), so a caller that disposes of it frees an unset pointer.
* Removing comments can change what a line means: `O1 (c) X1` becomes `O1 X1`, which is rejected, and `A2 (c) =5` becomes the assignment `A2 =5` (`C93_violated_uncomment`); renumbering gives `X1 N5` a second number (`C93_violated_second_number`).
* A rotation takes the variable in `G#17` for a plane and writes `G#18`; `G02` and `G03` keep their direction where `G2` and `G3` are exchanged (`C93_violated_rotate`). A conversion can leave the range of the new units: `X9999` becomes `X253974.6` (`C93_violated_convert`).
* Between brackets a number without digits before the dot is not checked (`C36_violated`).
* The ranges stay those of the default units after G20 and G21; `DecimalSeparatorMissing` is never reported.
* Messages of macro evaluation are overwritten by the empty message of the grammar; `G1 X#1` with a too large `#1` succeeds with a message; a refused first word fails without one (`C38_violated`).
* A line with macros switches the units before the path is calculated, a line without after it; without evaluation G20 and G21 never switch (`C39_violated`).
* `it.second - count ? at : 0` groups as `(it.second - count) ? at : 0` (`C46_violated`).
* `F[SIN[30]]`, or a lone `S` after a line that left a bracket open, ends the server: `SystemMacroAssigner` converts an empty text and nobody catches the exception (`C84_violated_...`); `X1 SIN#` reads an empty `optional` (`C84_violated_hash`).
* `SINH` is accepted and cannot be evaluated (`C52_violated_sinh`); text behind an expression is ignored (`C15_violated`); expressions read the newest assignment of any line (`C11_violated`).
* Removing a comment can join words when the text is read again (`#1= (c) #2`).

Simulation
* The totals are updated before "F not set" is thrown (`C26_violated_failed`); a retract level below the depth makes totals fall (`C26_violated_decreases`); dwell beside a T word is lost (`C26_violated_dwell`).
* Automatic rapid after a tool exchange survives a reset (`C27_violated_pending`).
* String attributes behind a slash are simulated (`C28_violated_string`).
* Arcs by centre of more than half a turn with both ends in one quadrant are reported as the rest of the circle (`C64_violated_three_quarters`); the incremental arc functions are not reached from `evaluate`.
* The pitch of a helix is multiplied by 2 pi (`C60_violated_helix`); stale centres, an end at the origin and an arc after a helix go wrong (`C60_violated_...`).
* Drilling: later Z, R and Q are ignored, a switch of cycle keeps the old distances, K is ignored in absolute mode, a row advances once, diameters are not halved, only Z is skipped in G18 and G19 (`C70_violated_...`); several cycles have wrong distances (`C62_violated_...`).
* Units are never converted: travel limits, feed limit, rapid feed and positions keep their numbers when a program is in inches or changes between G20 and G21 (`C102_violated_...`).
* Splitting by path or time counts the motion before a blank line again, and starts the simulation from where the last file ended (`C105_violated_blank`, `C105_violated_history`). An amount that is not positive raises `file_splitter_exception`, which is not a `std::out_of_range` and leaves the interface (`C105_violated_parameter`).
* Splitting at a text ignores what reading a line returns: the rest of a line with a fault is lost and the call returns true (`C106_violated_text`).
* The descriptions of M0 to M9 of generic_mill and generic_lathe are stored as `00` to `09`, which hover never looks up (`C104_violated_generic`). The Polish description files are UTF-16 and of an older layout; the server only ever asks for the English ones.
* Modal words on a block without motion are lost while G2, G3 or a cycle is modal, and before the first motion (`C69_violated_...`).
* G96 computes the speed from the length of the path, G95 is ignored except on lathes, F0 takes no time (`C77_violated_...`).
* T in one block and M6 in a later one: the exchange is timed, the tool is not changed (`C78_violated_prepared`).
* Undefined behaviour: a peck cycle without Q or with Q0, K beyond `int`, an exchange point that lacks an axis, an arc after a helix (`C79_violated_...`).
* On a lathe in G19 the wrong axes are halved (`C71_violated_lathe_G19`).
* `G4 X` is a dwell and a motion at once; `G04 X` changes the position; a dwell inside a drilling cycle drills another hole (`C65_violated_...`).
* The shipped settings offer the driver `heidenhain`, which the reader refuses: the whole file becomes unreadable (`C81_violated_heidenhain`).
* `7 true` is read as true (`C81_violated_truth`); `-1` decimals are read as 4294967295 (`C82_violated_negative`).
* The settings form: a fractional feed is imported but cannot be exported (`int.Parse` throws); machine points are written with the separator of the culture and read with the invariant one, so that in Polish 1,5 becomes 15; ranges go through `float`; I, J, K of the points are those of the file opened before; the codes of pallet and probe are dropped (`C108_violated_...`).
* .NET: `SplitFile` returns before `DisposeSplitFile` when there are no parts; `SplitFileString` leaves the pointer of an empty part unset; `bool` results lack `MarshalAs(I1)` (`C109_violated_...`).
* .NET: `Kinematics` and `FileSplitting` have strings that are null unless set; the native side builds `std::string` from the null pointer (`C110_violated_null`, `C110_violated_split`).
* .NET: `PredefinedBlocks.Read` formats the lines of user files too, so `{{` becomes `{` and, once written, an exception for the whole directory (`C111_violated_brace`); `Write` compares `FullName` with paths as they were given (`C111_violated_path`).
* Of a refused word table the entries before the unreadable one stay in force (`C82_violated_kept`).
* A setting in seconds with a fraction (6.5) refuses the whole file; `default_rotation_direction` is read but not used.
* Without a full base point a block with nothing but its number is refused (`C80_violated_unplaced`).
* The path before the first tool is in no tool's total (`C66_violated_no_tool`).
* Letters after a program number are dropped by the grammar: `O1 TEST` is read as `O1`, so rewriting a program loses the name (`C89_violated_name`).
* A configured path `-h` (or another dash and letter of an option) prevents the start of the server (`C114_violated_dash`); the options `single-line-output`, `convert-length`, `rotate` and `rotate-option` are accepted and ignored (`C114_violated_idle`). `package.json` declares neither `ncproj.macro.descriptions.path` nor the commands for it.
* The length of a helix depends on where the part lies: a helix that ends at X0 Y0 is counted as half a turn instead of a quarter (`C117_violated_origin`), in G91 the distances are compared with the coordinates of its start (`C117_violated_distances`); the rapid moves of a G98 cycle with R below zero depend on the height of the part (`C117_violated_depth`).
* The same hole has another length of rapid moves by distances than by coordinates: tapping with G99 loses the way to R (`C118_violated_tapping`), G73 counts the retracts between the pecks only by distances (`C118_violated_pecks`).
* A repeated G1 beside G28 makes the rapid move to the base point a cut (`C119_violated_home`); a repeated G2 without values is an error (`C119_violated_arc`), a G code in force repeated beside a T word too (`C119_violated_tool`).
* A drilling cycle whose R lies below its depth has a negative length, and a higher feed makes it take longer (`C121_violated_cycle`).
* With G96 the spindle speed is computed from the length of the motion instead of the diameter: a move in two pieces takes half the time of the whole (`C122_violated_surface`).
* An arc whose radius is too small to reach its end is accepted without a message (`C126_violated_reach`, `C126_violated_accepted`): over a distance of 100 with R1 the length is about 3, and the next block starts at the programmed end (AttributesPathCalculator.cpp:738-1100 and PathCalculator.cpp:42-49, 177-184 take the absolute value under the root).
* Arcs in G18 are taken with X as the first and Z as the second axis, that is, seen from the wrong side: G2 and G3 are exchanged, and an arc through a quadrant limit is counted as the rest of the circle (`C127_violated_G18`, `C127_violated_program`).
* Columns are counted in bytes of UTF-8 while the editor counts UTF-16: behind a comment with a Polish letter hover over a code finds nothing or tells a wrong range, and diagnostics are displaced, also behind tabs (`C129_violated_comment`, `C129_violated_flaw`).
* Of several changes in one notification the server takes the first in place of the last, and CR alone does not end a line (`C130_violated_changes`, `C130_violated_cr`).
* Requests of unknown methods are never answered, ids that are texts are answered under a number or are a fault, and after `shutdown` nothing more is read (`C131_violated_unknown`, `C131_violated_text_id`, `C131_violated_shutdown`).
* On a lathe F times S may exceed the rapid feed of the machine; the simulation accepts the block and times it so (`C132_violated_revolution`).
* The problems of a document stay listed after it is closed (`C133_violated_closed`); the problem of an unreadable description file vanishes with the next change (`C133_violated_description`).
* The editor's command that comments a line out puts `# ` in front of it, which is no comment for the checker: `G1 X5` becomes a fault, `5=1` an assignment (`C134_violated_toggle`, `C134_violated_toggle_case`).
* What follows a `;` is coloured as comment but refused; after `(a\)` the words of the line are coloured as comment but read as words (`C134_violated_semicolon`, `C134_violated_backslash`).
* Rotating a program by half a turn about Z also turns the dwell `G4 X2` into `G4 X-2`, which the simulation counts as a negative time (`C135_violated_dwell`); an arc in G18 keeps its sense and is counted with a quarter instead of three quarters of the circle (`C135_violated_G18`).
* The length counted for an arc of more than half a turn depends on how the part lies on the table: from (1, 0) to (0, -1) in G3 a quarter is counted, turned by an eighth three quarters (`C136_violated_eighth`).
* An arc by its radius with ends nearer than 1e-8 is counted with a full circle, the same arc of a part four times as large with at most half a circle (`C137_violated_chord`).
* Three quarters of a circle from (1, 0) to (0, -1) are counted with one quarter by one block and with three quarters by two blocks (`C138_violated_three_quarters`).
* The same arc is counted with a quarter by its centre and with three quarters by its radius (`C140_violated_three_quarters`).
- `C141_violated_three_quarters`: three quarters of a circle from (1, 0) to (0, -1) are counted with one quarter, so the same arc made by three straight moves has a longer path than the arc.
* The status bar loses the first occurrence of the extension, not the last (`C115_violated_twice`); the text 54.01 is read as the code 54.1 (`C116_violated_zeroes`).
* A lone decimal point that passes the grammar ends in an uncaught `invalid_argument` (`C84_violated_dot`); signs of F and S are ignored; decimals of G codes are ignored when codes are classified.

Transformations
* With precision 0 the zeros of an integer are trimmed, so F2540 becomes F1 (`C17_violated`), words before G4 are converted (`C16_violated_before_dwell`), arc codes and rotations do not compose (`C19_violated...`), numbers given by a macro break the sequence (`C20_violated_macro_number`), parts are not numbered afresh (`C24_violated`), an unrelated G code makes the splitter forget G0 (`C55_violated`), an empty part of a text split is lost (`C40_violated_empty_part`).

## Testing the theorems

`seeded/LOG.jsonl` has one line per wrong program tried: the definition edited,
the edit, the claim it breaks, the theorems that failed, and, where everything
still proved, the theorems that were tightened because of it.
