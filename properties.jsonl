{"id": "C01", "title": "Server framing delivers every message body intact and in order", "statement": "When a client writes any sequence of messages to the language server's stdin as 'Content-Length: <byte count>' CR LF CR LF <body>, the server hands exactly those bodies, in that order and byte for byte, to its message handler, whatever the bodies contain (including text that looks like a header), as long as every body is non-empty and does not start with CR or LF.", "quantifier": "every finite sequence of message bodies, every body content, any noise free of the letter 'C' between messages", "why_tests_cant": "The set of byte streams is infinite; a test fixes a handful of bodies and cannot exclude a body that desynchronises the reader.", "anchors": ["nclangsrv/nclangsrv.cpp:main"]}
{"id": "C02", "title": "Extra header fields do not break framing", "statement": "A message that carries a legal additional header field (e.g. Content-Type), before or after Content-Length, is still delivered with its exact body. (The code violates this: see the negation theorems.)", "quantifier": "every header block permitted by the base protocol, every body", "why_tests_cant": "Interaction of header order, body length and following traffic; a test only covers one order and one following byte stream.", "anchors": ["nclangsrv/nclangsrv.cpp:main"]}
{"id": "C03", "title": "Answers always come from the latest text of the asked document", "statement": "After any sequence of open/change/close notifications, hover and code-lens requests for a document are answered from the text of its most recent open/change that was not followed by a close; closed or never opened documents yield a null result; events of other documents never change the answer.", "quantifier": "every history of notifications and requests over any set of document URIs, with texts and URIs free of NUL characters (see C57)", "why_tests_cant": "Histories are unbounded; tests replay a few.", "anchors": ["nclangsrv/JsonMessageHandler.cpp:textDocument_didOpen,textDocument_didChange,textDocument_didClose,textDocument_hover,textDocument_codeLens"]}
{"id": "C04", "title": "Exactly one response per request, none per notification", "statement": "Each initialize/completion/resolve/hover/codeLens/shutdown request with an integer id writes exactly one framed response carrying that id; didOpen/didChange writes exactly one publishDiagnostics notification for the document's URI; every other message writes nothing.", "quantifier": "every sequence of messages", "why_tests_cant": "Requires reasoning about all interleavings of message kinds.", "anchors": ["nclangsrv/JsonMessageHandler.cpp:parse"]}
{"id": "C05", "title": "Server stops after shutdown/exit and only then", "statement": "As long as every handler returns (crashes are the subject of C04), the server loop terminates exactly after the first shutdown or exit message: no later byte is read or message processed, and no other message terminates it.", "quantifier": "every message sequence, every chunking into well-formed frames", "why_tests_cant": "Unbounded histories.", "anchors": ["nclangsrv/nclangsrv.cpp:main", "nclangsrv/JsonMessageHandler.cpp:shutdown,parse"]}
{"id": "C06", "title": "Each rejected line gives one diagnostic on that line, with its message", "statement": "For every program text, the published diagnostics contain exactly one entry per rejected line, in line order, and the entry's zero-based line is that line's index and its text is the rejection message. (The text part fails when the message contains ':'.)", "quantifier": "every program text and every verdict of the line parser", "why_tests_cant": "The message goes through text formatting and re-tokenisation; failure depends on arbitrary content.", "anchors": ["nclangsrv/NCParser.cpp:parse", "nclangsrv/JsonMessageHandler.cpp:textDocument_publishDiagnostics"]}
{"id": "C07", "title": "Line numbering used for checking and for hover agree", "statement": "The lines the checker numbers and the lines hover/code-lens positions refer to are the same lines of the document: same count, and the checked line is the document line without trailing white space.", "quantifier": "every text (any mix of LF, CR LF, empty lines, missing final newline)", "why_tests_cant": "All texts; off-by-one cases at the end of the file depend on the combination.", "anchors": ["nclangsrv/NCParser.cpp:splitLines,rtrim", "nclangsrv/JsonMessageHandler.cpp:textDocument_publishDiagnostics"]}
{"id": "C08", "title": "A missing configuration keeps being reported", "statement": "If the word grammar (or code groups, or macro description file) cannot be read, every publish of diagnostics reports it until it can be read. (Violated: only the first one reports it.)", "quantifier": "every history of document events", "why_tests_cant": "It is a property of the second and later events after a failure.", "anchors": ["nclangsrv/NCParser.cpp:parse", "nclangsrv/JsonMessageHandler.cpp:fetch_macrosDesc"]}
{"id": "C09", "title": "Macro description lookup honours exact keys and documented ranges", "statement": "Hovering a macro number shows the description stored for exactly that number if there is one, otherwise the description whose documented range contains the number, otherwise none. (Violated at the end points of a range.)", "quantifier": "every description table and every macro number", "why_tests_cant": "Quantifies over all tables and numbers.", "anchors": ["nclangsrv/MacrosDescReader.cpp:getDesc,readRanges"]}
{"id": "C10", "title": "Macro value in effect on a line", "statement": "Looking up #n for line L yields the value recorded by the latest line not after L that recorded #n, and fails exactly when there is none; recording other variables or later lines never changes it.", "quantifier": "every sequence of recorded assignments (any variable, any line, any order), every variable and line", "why_tests_cant": "Ordering subtleties of the container (custom descending comparator and lower_bound) must hold for all insertion orders.", "anchors": ["parser/fanuc/MacroDefines.h", "parser/fanuc/MacroEvaluatedCodeVerifier.cpp", "parser/fanuc/CodeGroupsVerifier.cpp"]}
{"id": "C11", "title": "Expressions see the same macro values as code words", "statement": "A #n inside a macro expression on line L evaluates to the value in effect on line L (as in C10). (Only true when no later line has been recorded: expressions take the globally latest line.)", "quantifier": "every recorded history and line", "why_tests_cant": "Depends on unbounded edit/parse history.", "anchors": ["parser/fanuc/ValueCalculator.cpp:eval"]}
{"id": "C12", "title": "Re-evaluating a line updates its macro assignment", "statement": "After parsing line L with '#n = e' the variable holds e's value for L even if L was parsed before with another expression. (Violated: the first value recorded for a line is kept.)", "quantifier": "every history of parsed lines", "why_tests_cant": "History property.", "anchors": ["parser/fanuc/MacroEvaluator.cpp:evaluate"]}
{"id": "C13", "title": "Macro expressions: grammar and evaluation", "statement": "Writing any arithmetic expression tree fully bracketed and evaluating the text gives the mathematical value of the tree; operators of one level group to the left; * / AND MOD bind tighter than + - OR XOR.", "quantifier": "every expression tree of any depth", "why_tests_cant": "Infinite set of trees; proof is by structural induction.", "anchors": ["parser/fanuc/ValueCalculator.cpp:calculator,eval"]}
{"id": "C14", "title": "BIN and BCD are inverse", "statement": "BCD[BIN[n]] = n for every unsigned 32 bit n; BIN[n] has the decimal digits of n as hexadecimal digits.", "quantifier": "all 2^32 values (proved for all n)", "why_tests_cant": "Exhaustive test impractical, and the 64-bit range argument must be made.", "anchors": ["parser/fanuc/ValueCalculator.cpp:uint32_to_bcd,bcd_to_ui32"]}
{"id": "C15", "title": "Ill-formed macro expressions are rejected", "statement": "An assignment whose right-hand side is not entirely an expression is rejected. (Violated: trailing text after a valid prefix is silently ignored.)", "quantifier": "every right-hand side text", "why_tests_cant": "Universal over texts.", "anchors": ["parser/fanuc/ValueCalculator.cpp:parse"]}
{"id": "C16", "title": "Unit conversion touches only dimensional words", "statement": "Converting a block keeps the number and order of its words, keeps every word's address, and leaves every word unchanged except length/feed words and the G20/G21 switch; words of a block marked by a leading '/', words of a dwell (G4) block, words with macro or bracket values and the I,J,K,R of G68 are unchanged.", "quantifier": "every block, every word grammar, both directions", "why_tests_cant": "Frame property over all blocks.", "anchors": ["parser/fanuc/UnitConverter.cpp"]}
{"id": "C17", "title": "Unit conversion is accurate to the printed precision", "statement": "The number printed for a converted word differs from the exact conversion by at most half a unit of the last printed decimal. (Violated when the word has no decimals: trailing zeros of the integer are stripped.)", "quantifier": "every decimal value and precision", "why_tests_cant": "Numeric bound over an infinite set.", "anchors": ["parser/fanuc/UnitConverter.cpp:UnitConverterVisitor"]}
{"id": "C18", "title": "Axis rotations compose as rotations on coordinates", "statement": "Rotating a block's axis words by 90 degrees twice equals 180, 90 then 180 equals 270, 90 then 270 restores the block (up to dropping an explicit '+'), for each axis, for every word and sign.", "quantifier": "every block of coordinate words", "why_tests_cant": "Group law over all blocks.", "anchors": ["parser/fanuc/AxesRotator.cpp"]}
{"id": "C19", "title": "Arc direction codes rotate consistently", "statement": "Rotating G2/G3 by 90 then 270 about the same axis restores them, and 90 twice equals 180. (Violated for the X and Y axes.)", "quantifier": "every axis and code", "why_tests_cant": "Needs comparing all compositions.", "anchors": ["parser/fanuc/AxesRotator.cpp"]}
{"id": "C20", "title": "Renumbering emits the documented sequence", "statement": "Numbers inserted or replaced by renumbering consecutive blocks form start, start+step, start+2*step, ... restarting from the lowest allowed number whenever the maximum would be exceeded, on every frequency-th eligible block and on no other block; with leading zeros each is written in as many columns as the highest allowed number has.", "quantifier": "every sequence of blocks, every step, frequency, maximum", "why_tests_cant": "Induction over unbounded block sequences.", "anchors": ["parser/fanuc/Renumberer.cpp:renumber"]}
{"id": "C21", "title": "Renumbering and removing numbers change nothing but the block number", "statement": "After renumbering or removing numbers, a block's other words are the same and in the same order; with 'existing only' no block gains a number; blocks starting with %, O, a comment or '/' are unchanged.", "quantifier": "every block and setting", "why_tests_cant": "Frame property.", "anchors": ["parser/fanuc/Renumberer.cpp"]}
{"id": "C22", "title": "Splitting loses nothing", "statement": "Splitting a program by block count, tool change, path length or time yields parts whose concatenation, after dropping the inserted retraction-plane blocks, is the original program in order.", "quantifier": "every program, parameter and retraction plane", "why_tests_cant": "Infinite programs; needs invariant of the splitter loop.", "anchors": ["parser/fanuc/FileSplitter.cpp"]}
{"id": "C23", "title": "Block-count split sizes", "statement": "Splitting by n blocks gives parts of exactly n blocks except a shorter last one, when no cycle suppresses a cut; cuts never fall inside a modal drilling cycle.", "quantifier": "every program and n", "why_tests_cant": "Induction over programs.", "anchors": ["parser/fanuc/FileSplitter.cpp"]}
{"id": "C24", "title": "Split output is numbered consecutively", "statement": "After splitting with renumbering requested, blocks of the output carry increasing numbers. (Violated: a maximum of 0 makes every block after the first carry the same number.)", "quantifier": "every program", "why_tests_cant": "Sequence property.", "anchors": ["parser/fanuc/AllAttributesParser.cpp:split_file", "parser/fanuc/Renumberer.cpp"]}
{"id": "C25", "title": "Word ranges bracket every value seen", "statement": "At any time the reported range of an address satisfies min <= current <= max, min/max only widen, and current is the last programmed (absolute) value.", "quantifier": "every sequence of evaluated blocks, including failed ones", "why_tests_cant": "Invariant over unbounded histories.", "anchors": ["parser/fanuc/AttributesPathCalculator.cpp:copy_on_return"]}
{"id": "C26", "title": "Path and time totals accumulate", "statement": "After every evaluated block, total path = previous total + block's rapid path + block's work path, likewise for time plus exchange/dwell times; totals never decrease; failed blocks add nothing. (Last part violated.)", "quantifier": "every sequence of blocks", "why_tests_cant": "History invariant.", "anchors": ["parser/fanuc/AttributesPathCalculator.cpp:evaluate"]}
{"id": "C27", "title": "Resetting the path calculator restores the initial state", "statement": "After reset every later sequence of blocks gives the same results as on a fresh calculator. (Violated by the pending rapid-after-tool-exchange flag.)", "quantifier": "every history before and after", "why_tests_cant": "Two-run (2-safety) property.", "anchors": ["parser/fanuc/AttributesPathCalculator.cpp:reset"]}
{"id": "C28", "title": "Skipped (optional) blocks are not simulated", "statement": "Words following '/' in a block never influence path, time, ranges or modal state.", "quantifier": "every block suffix and state", "why_tests_cant": "Non-interference over all suffixes.", "anchors": ["parser/fanuc/AttributesPathCalculator.cpp:AttributesPathCalculatorVisitor"]}
{"id": "C29", "title": "Path geometry", "statement": "Rapid/linear moves have the Euclidean length of the displacement (symmetric, zero only for no move, triangle inequality); a full circle of radius r has length 2*pi*r; arc lengths are between 0 and the full circle; G18/G19 are G17 with axes permuted.", "quantifier": "every coordinates over the reals", "why_tests_cant": "Continuous domain.", "anchors": ["parser/fanuc/PathCalculator.cpp", "parser/fanuc/MathUtils.h"]}
{"id": "C30", "title": "Unique addresses", "statement": "A block is rejected as non-unique exactly when an address declared unique occurs at least twice in it.", "quantifier": "every block and grammar", "why_tests_cant": "All blocks.", "anchors": ["parser/fanuc/UniqueCode.cpp", "parser/fanuc/SameWordInBlockVerifier.cpp"]}
{"id": "C31", "title": "Code groups", "statement": "A block is rejected for a group conflict exactly when two of its G (or two of its M) codes belong to a common group; with missing reporting, exactly when additionally some code is in no group.", "quantifier": "every block and group table", "why_tests_cant": "All blocks and tables.", "anchors": ["parser/fanuc/CodeGroupsVerifier.cpp"]}
{"id": "C32", "title": "Spindle verification reports at most one missing setting", "statement": "With operator rotation off, the missing S/M3 error is raised at most once per program, exactly at the first feed/cycle block before which (inclusive) S or M3/M4 has not been programmed; with operator rotation on, every S and M3/M4 is rejected.", "quantifier": "every program", "why_tests_cant": "History property.", "anchors": ["parser/fanuc/RotationVerifier.cpp"]}
{"id": "C33", "title": "Speed, tool and feed limits", "statement": "A block is rejected by the limit check exactly when an S, T or F word programs more than the configured maximum. (Violated for fractions just above the limit and blind to sign.)", "quantifier": "every block and configuration", "why_tests_cant": "Universal.", "anchors": ["parser/fanuc/RangeVerifier.cpp"]}
{"id": "C34", "title": "Axis travel limits respect the zero point", "statement": "A position is rejected exactly when position plus zero point lies outside the axis' travel range.", "quantifier": "every position, range, zero point", "why_tests_cant": "Universal over numbers.", "anchors": ["parser/fanuc/RangeVerifier.cpp"]}
{"id": "C35", "title": "Verdict on a line depends on the line only", "statement": "The verdict on a line and the words read from it are the same whatever lines were checked before. (Violated: after the line #1=2 the line X5+3 is accepted although it is refused at first, and after X5] correctly bracketed lines are refused. It holds when no earlier line contained a macro sign # or a bracket.)", "quantifier": "every history and line", "why_tests_cant": "2-safety property over histories.", "anchors": ["parser/fanuc/AllAttributesParserGrammar.h:verify_range"]}
{"id": "C36", "title": "Accepted words are within their declared ranges", "statement": "Every plain numeric word of an accepted line has its integer part within the range declared for its address, its digits after the dot (read as a number) within the declared range, and no dot where decimals are forbidden; a macro number lies in the range declared for #; the digit of an optional block is 1 to 9. (Violated for a word between brackets without digits before the dot: #1=[N.5].)", "quantifier": "every line, grammar table and history", "why_tests_cant": "All lines.", "anchors": ["parser/fanuc/AllAttributesParserGrammar.h:verify_range"]}
{"id": "C37", "title": "Rendering parsed words and parsing again is stable", "statement": "Writing the words of an accepted line with single blanks between them, as the conversions do, and parsing that text with the parser in the same state gives the same words and the same final state. (Violated: O12 AB N5 is written O12 N5, which is rejected; G1 , and X[5], Y1 are rejected when written; A 2=5 becomes an assignment to A2. It holds for regular word tables, such as the shipped ones, when there is no lone comma, no letter after a program name and no assignable name in front of =.)", "quantifier": "every accepted line", "why_tests_cant": "Round trip over all lines.", "anchors": ["parser/fanuc/AllAttributesParserGrammar.h", "nclangsrv/NCParser.cpp:AttributesVisitor"]}
{"id": "C38", "title": "Success means no error", "statement": "When checking a line reports success, no error message is produced; when it reports failure, the message is non-empty. (Both directions violated: after `#1=99999*2` the line `G1 X#1` succeeds with a message; lines that begin with no word, whose first word is out of range, whose value is out of range after evaluation, or that assign a missing value fail without one.)", "quantifier": "every line, history and setting", "why_tests_cant": "Over all paths through the pipeline.", "anchors": ["parser/fanuc/AllAttributesParser.cpp:parse"]}
{"id": "C39", "title": "Unit switch follows G20/G21", "statement": "After each successfully checked line, the active unit system is the one selected by the last G20/G21 executed, else the configured default. (Violated: without macro evaluation no line switches, and evaluated code that cannot be read to its end is reported as success but not executed.)", "quantifier": "every history", "why_tests_cant": "History.", "anchors": ["parser/fanuc/GrammarSelector.cpp", "parser/fanuc/AllAttributesParser.cpp"]}
{"id": "C40", "title": "C interface hands out exactly the parser's data", "statement": "Reading back the flattened arrays of a parsed/split result reconstructs the nested result; each array is released exactly once. (Violated for an empty part of a text split.)", "quantifier": "every nested result", "why_tests_cant": "All shapes.", "anchors": ["parser/AllAttributesParserWrapperBase.cpp", "parser/fanuc/AllAttributesParserWrapper.cpp"]}
{"id": "C41", "title": "Every error has a text in every language and keeps its arguments", "statement": "For each error kind and language a text exists, and the produced message contains all arguments in order.", "quantifier": "every error kind, language and argument list", "why_tests_cant": "Table completeness plus all argument lists.", "anchors": ["parser/fanuc/MessageTextImpl.h", "parser/fanuc/MessageText_en.cpp", "parser/fanuc/MessageText_pl.cpp"]}
{"id": "C42", "title": "Comment and optional-block removal", "statement": "Removing comments deletes exactly the comment words; removing optional block markers deletes exactly the leading run of '/n' words; both are idempotent and keep the order of the rest.", "quantifier": "every block", "why_tests_cant": "All blocks.", "anchors": ["parser/fanuc/AllAttributesParser.cpp:remove_comment,remove_optional_block"]}
{"id": "C43", "title": "Time display", "statement": "The displayed time denotes the rounded millisecond value exactly (reading h:mm:ss.mmm back gives it), minutes and seconds are below 60, and the text fits the fixed buffer.", "quantifier": "every time value representable in 64-bit milliseconds", "why_tests_cant": "All values; buffer bound.", "anchors": ["nclangsrv/NCParser.cpp:formatTime"]}
{"id": "C44", "title": "Number display drops only insignificant zeros", "statement": "The trimmed display of a value denotes the same number as the untrimmed six-decimal display.", "quantifier": "every value", "why_tests_cant": "All values.", "anchors": ["parser/util.h:to_string_trunc"]}
{"id": "C45", "title": "Configuration names round-trip", "statement": "Each configuration enumeration value is read back from the name it is written as, and different values have different names.", "quantifier": "every enumeration and value, every other string is rejected", "why_tests_cant": "Rejection ranges over all strings.", "anchors": ["parser/GeneralParserDefines.cpp", "parser/fanuc/AllAttributesParserDefines.cpp"]}
{"id": "C46", "title": "Machine points are translated by the zero point", "statement": "After configuring the machine, tool-exchange and base points used for path calculation are the configured ones minus the zero point on X, Y, Z and unchanged on other axes. (Violated: a coordinate on X, Y, Z becomes that of the zero point, or 0 if it was 1, and a non-zero coordinate on another axis cannot be configured at all.)", "quantifier": "every configuration", "why_tests_cant": "All numbers.", "anchors": ["parser/fanuc/AllAttributesParser.cpp:set_ncsettings"]}
{"id": "C47", "title": "Suggestions are stable and duplicate free", "statement": "Completion offers each described code once (plus its zero-padded synonym), and repeated requests return the same list with the same data numbers.", "quantifier": "every description table and request history", "why_tests_cant": "Histories and tables.", "anchors": ["nclangsrv/JsonMessageHandler.cpp:textDocument_completion,fetch_gCodesDesc", "nclangsrv/CodesReader.cpp:read"]}
{"id": "C48", "title": "Hover range covers the hovered token", "statement": "If hover returns a token, its range is non-empty, lies inside the line, contains the requested character, and the text in that range is the token.", "quantifier": "every line and character", "why_tests_cant": "All lines.", "anchors": ["nclangsrv/JsonMessageHandler.cpp:searchPattern"]}
{"id": "C49", "title": "System variables mirror programmed words", "statement": "After a line, the system variables of B D E F H M N O S hold the last such word's value on that line, and other variables are unchanged.", "quantifier": "every line and history", "why_tests_cant": "All lines/histories.", "anchors": ["parser/fanuc/SystemMacroAssigner.cpp"]}
{"id": "C50", "title": "Macro substitution replaces exactly the macro words", "statement": "The evaluated code of a line equals the line with each '#n' word value replaced by the variable's value in effect and everything else unchanged.", "quantifier": "every line and macro table", "why_tests_cant": "All lines.", "anchors": ["parser/fanuc/MacroEvaluatedCodeVerifier.cpp"]}
{"id": "C51", "title": "Configuration change prompts", "statement": "A user change to a relevant setting always triggers the reload prompt. (Violated: a self-made update suppresses the next event even if it is a different one.)", "quantifier": "every sequence of configuration events", "why_tests_cant": "Histories.", "anchors": ["vscode-client/src/extension.ts"]}
{"id": "C52", "title": "Every function name of the expression language can be evaluated", "statement": "Every function name the expression grammar accepts is supported by the evaluator: an accepted call never fails with 'unsupported function'.", "quantifier": "every function name in the symbol table, every argument value", "why_tests_cant": "Needs the whole symbol table against the whole evaluator and every argument.", "anchors": ["parser/fanuc/ValueCalculator.cpp:build_symbols,eval"]}
{"id": "C53", "title": "Tool-change split parts", "statement": "Splitting by tool change gives a first part with at most one tool exchange, and every further part has exactly one tool exchange, in its first block. If no block asks for two exchanges and there are further parts, the first part has exactly one: nothing is cut off before the first exchange.", "quantifier": "every program, both tool exchange conventions", "why_tests_cant": "Induction over programs.", "anchors": ["parser/fanuc/FileSplitter.cpp:evaluate_tool_change"]}
{"id": "C54", "title": "Path/time split amounts", "statement": "Splitting by path length or machining time, every part but the last contains at least the requested amount of work motion, and (without drilling cycles and without the rapid-only restriction) no part continues after the amount is reached.", "quantifier": "every program, limit and assignment of work motions to blocks", "why_tests_cant": "Induction over programs and arbitrary path results.", "anchors": ["parser/fanuc/FileSplitter.cpp:evaluate"]}
{"id": "C55", "title": "Rapid-only split cuts at the next rapid block", "statement": "With the rapid-only restriction, once n blocks are reached, the program is cut at the very next block under G0.", "quantifier": "every program, n and configuration", "why_tests_cant": "Needs the modal state over arbitrary programs.", "anchors": ["parser/fanuc/FileSplitter.cpp:SplitterVisitor"]}
{"id": "C56", "title": "Configuration arrays are understood as meant", "statement": "When a client hands over its code groups and word grammar as flattened arrays, the parser's table puts a code in a group exactly when the client's configuration lists it there, and the grammar used for an address is the last one given for it; no element outside the arrays is read.", "quantifier": "every configuration: any number of groups, group sizes including zero, repeated groups, codes and addresses", "why_tests_cant": "The offset arithmetic of the flattened arrays can be wrong for configurations (empty or repeated groups) no test lists.", "anchors": ["parser/fanuc/AllAttributesParserWrapper.cpp:11-74"]}
{"id": "C57", "title": "Documents are processed to their end", "statement": "A document is analysed to its last character and kept under its full name, whatever characters its text and name contain.", "quantifier": "every document text and URI, including NUL characters", "why_tests_cant": "Test documents do not contain NUL characters at arbitrary places.", "anchors": ["nclangsrv/JsonMessageHandler.cpp:371-394"]}
{"id": "C58", "title": "Diagnostics depend on the text only", "statement": "With unchanged, readable configuration, the diagnostics published for a text depend only on that text: not on earlier texts of the document, other open documents, or requests in between.", "quantifier": "every pair of histories and every text", "why_tests_cant": "Quantifies over pairs of message histories of any length.", "anchors": ["nclangsrv/JsonMessageHandler.cpp:1004-1129", "nclangsrv/NCParser.cpp:259-520"]}
{"id": "C59", "title": "Everything written is the JSON that was meant", "statement": "Each answer or notification the server writes is well formed JSON, and reading it yields exactly the value the server built, whatever characters document names, messages, titles and descriptions contain; a text has only one reading.", "quantifier": "every message, history and content of strings", "why_tests_cant": "Escaping has to be right for all strings and nestings.", "anchors": ["nclangsrv/JsonMessageHandler.cpp:350-360", "nclangsrv/JsonMessageHandler.cpp:602-1129"]}
{"id": "C60", "title": "Helix length", "statement": "The length reported for a turn of a helix is the length of the curve with the given radius and pitch; four quarter turns make one turn; giving the radius or the centre makes no difference. A program block G2 or G3 with a third-axis word adds the length of its turn, or quarter turn, once to the path of work. (Violated: a rising helix is reported too long; after a helix a plain arc has no pitch to read and is undefined; a quarter turn ending at the origin counts as half a turn; an R word is passed over while I and J of an earlier block are in force.)", "quantifier": "every radius, pitch and centre over the reals; every helix block on every machine and position", "why_tests_cant": "Continuous domain; the truth is an integral; the words in force from earlier blocks form an unbounded history.", "anchors": ["parser/fanuc/PathCalculator.cpp:306-383", "parser/fanuc/AttributesPathCalculator.cpp:640-1180"]}
{"id": "C61", "title": "Archimedean spiral length", "statement": "The length reported for a spiral of l revolutions (or of increment q per revolution) reaching the radius given by the centre words is the length of the curve whose radius is proportional to the angle.", "quantifier": "every centre and positive number of revolutions or increment, over the reals", "why_tests_cant": "Continuous domain; the truth is an integral.", "anchors": ["parser/fanuc/PathCalculator.cpp:385-405"]}
{"id": "C62", "title": "Distances of drilling cycles", "statement": "Work and rapid distance of a drilling cycle are those of the tool that goes from the initial level to the reference level, drills, taps or pecks to the bottom and returns to the initial (G98) or reference level (G99), in absolute and incremental programming alike.", "quantifier": "every levels, pecks, cycle and return mode", "why_tests_cant": "Unbounded number of pecks and a continuous domain with sign cases.", "anchors": ["parser/fanuc/PathCalculator.cpp:407-748"]}
{"id": "C63", "title": "Arcs in incremental programming", "statement": "An arc programmed with G91 has the length of the arc, equal to that of the same arc in absolute words.", "quantifier": "every arc over the reals, centre or radius words", "why_tests_cant": "Continuous domain.", "anchors": ["parser/fanuc/PathCalculator.cpp:203-304"]}
{"id": "C64", "title": "Arc length", "statement": "The length reported for a circular move is radius times the angle swept in the programmed sense, for centre words as well as for radius words (positive radius: at most half a turn).", "quantifier": "every centre, radius, sense and end points over the reals", "why_tests_cant": "Continuous domain with quadrant case distinctions.", "anchors": ["parser/fanuc/PathCalculator.cpp:12-201"]}
{"id": "C66", "title": "Totals of each tool", "statement": "In a program evaluated without errors, the path and time reported for the tool in use are the sums of the motions, and of the times of the motions, of all blocks executed with that tool, however often it was put away and fetched again in between.", "quantifier": "every machine, program, unit and starting macro table; every tool", "why_tests_cant": "The number of exchanges and of blocks between them is unbounded, and the totals are carried over in a table between exchanges.", "anchors": ["parser/fanuc/AttributesPathCalculator.cpp:483-575", "parser/fanuc/AttributesPathCalculator.cpp:1287-1355"]}
{"id": "C67", "title": "The order of words does not matter", "statement": "The words of a block that is evaluated may be written in any order: as long as no two of them set the same thing (an address, or a G code of the same modal group) and there is no block skip, every order gives the same totals, positions, modal state, macro variables and outcome.", "quantifier": "every block, permutation, machine, unit and state", "why_tests_cant": "Factorially many orders of blocks of unbounded length over every state.", "anchors": ["parser/fanuc/AttributesPathCalculator.cpp:63-300", "parser/fanuc/AttributesPathCalculator.cpp:483-1356"]}
{"id": "C68", "title": "G90 and G91 agree", "statement": "A straight move by distances (G91) and one to coordinates (G90) that lead from the same place to the same place report the same rapid and work path.", "quantifier": "every pair of such blocks, every machine other than a lathe, every state", "why_tests_cant": "Continuous domain of positions and distances, any set of axes in the block.", "anchors": ["parser/fanuc/AttributesPathCalculator.cpp:635-1290"]}
{"id": "C71", "title": "The reported path is the length of the motion", "statement": "The path reported for a block is the geometric length of the motion between the positions before and after the block (X of a lathe being a diameter): the Euclidean distance for G0 and G1, radius times angle for G2 and G3 in the selected plane, the circumference for a block that ends where it began. (Violated: arcs of more than half a turn with both ends in one quadrant, see C64; the sense of arcs in G18, see C127; on a lathe in G19 Y is halved in place of X.)", "quantifier": "every block without tool, M or reference words, every machine, every state", "why_tests_cant": "Continuous domain; positions result from an unbounded history of blocks.", "anchors": ["parser/fanuc/AttributesPathCalculator.cpp:635-1290", "parser/fanuc/PathCalculator.cpp:20-405"]}
{"id": "C72", "title": "Toggling the path/time calculation switches it", "statement": "Running the toggle command changes the effective value of the path/time setting to its opposite, so that toggling twice restores it. (Fails when the workspace has its own value.)", "quantifier": "every configuration (default, user, workspace values)", "why_tests_cant": "All combinations of configuration layers, including repeated toggles.", "anchors": ["vscode-client/src/extension.ts:364-375"]}
{"id": "C73", "title": "Path and time lenses", "statement": "When path and time are calculated, a lens stands on exactly those lines after which the total time differs from that after the previous non-blank line; it shows the totals after that line and the sums of the rapid and cutting parts up to it, each row only when its amount is at least 0.01. Every non-blank line is parsed once, in order, in the state left by the lines before it.", "quantifier": "every program text, every line parser, every sequence of totals", "why_tests_cant": "Unbounded programs; lenses depend on the whole history of totals.", "anchors": ["nclangsrv/NCParser.cpp:153-203,396-500"]}
{"id": "C74", "title": "A code is explained with its own description", "statement": "With readable description files without double names, hovering over a code written with any number of leading zeros, and resolving a suggestion for a code or macro, show title and text of the entry of that code in the description file of its letter (user file first for macros), whatever happened before.", "quantifier": "every description file, every entry without superfluous leading zero, every history of messages", "why_tests_cant": "All tables, codes and histories; tests look up a few codes.", "anchors": ["nclangsrv/CodesReader.cpp:30-60", "nclangsrv/JsonMessageHandler.cpp:494-772"]}
{"id": "C75", "title": "Without macro evaluation a check has no effect", "statement": "Checking a line with macro evaluation switched off changes no variable, no unit system, no position, no total and no spindle state, whether the line is accepted or refused.", "quantifier": "every machine, parser state, line number and line", "why_tests_cant": "Over all states and lines.", "anchors": ["parser/fanuc/AllAttributesParser.cpp:parse"]}
{"id": "C69", "title": "Modal words stay in force", "statement": "After a block has been checked, the motion (G0 to G3, cycles), plane, G90/G91, G94/G95, G98/G99, G96/G97, the feed F and the speed S in force are those the block gives last, and otherwise those in force before it. (Violated: while an arc or a drilling cycle is modal, a block that gives only modal words such as `F50` or `G91` is forgotten; with no default motion set F, S, G94 and G95 before the first motion are forgotten.)", "quantifier": "every block without tool and M words, every machine configuration, every state", "why_tests_cant": "What is in force results from an unbounded history of blocks, and every subset of the groups may be given in any order.", "anchors": ["parser/fanuc/AttributesPathCalculator.cpp:76-330", "parser/fanuc/AttributesPathCalculator.cpp:560-650", "parser/fanuc/AttributesPathCalculator.cpp:1287-1294"]}
{"id": "C77", "title": "Machining time is path over feed", "statement": "The work time reported for a block is its work path divided by the feed per minute in force (F, or F times the spindle speed with feed per revolution), the rapid time is the rapid path divided by the rapid feed, and a block with a work path is refused while no feed was given. (Violated: feed per revolution is ignored except on lathes; with constant surface speed the spindle speed is computed from the length of the path in place of the diameter; with F0 a cut takes no time.)", "quantifier": "every block without tool and M words, every machine configuration, every state", "why_tests_cant": "Continuous domain; feed and speed result from an unbounded history of blocks.", "anchors": ["parser/fanuc/AttributesPathCalculator.cpp:1296-1343", "parser/fanuc/MathUtils.h:50-58"]}
{"id": "C70", "title": "Every hole of a drilling cycle is counted with its levels", "statement": "While a drilling cycle is in force, each block that gives a position drills a hole there: its work path is that of the cycle with the levels in force, its rapid path that of the cycle plus the distance from the previous position to the hole; with K0 the tool is only positioned, with K n the hole is drilled n times at the distance of the block from each other; a first hole without reference level or depth is refused. So a pattern of n holes adds n cycles and the way from hole to hole to the total. (Violated: levels or another cycle given in a further block are ignored; K is ignored with G90; after K n with G91 the position is that of the first of the holes; on a lathe the way to the hole is measured in diameters; in G18 and G19 Z is not remembered.)", "quantifier": "every block without tool and M words, every sequence of such blocks, every state", "why_tests_cant": "Unbounded patterns of holes, and the cycle depends on the history of blocks.", "anchors": ["parser/fanuc/AttributesPathCalculator.cpp:1101-1281", "parser/fanuc/PathCalculator.cpp:407-766"]}
{"id": "C78", "title": "The tool in use", "statement": "After each accepted block the tool reported is the one named by the T word of the last tool exchange: the first T word of a block with M6, or, on machines where T alone exchanges, the last T word of a block; on lathes the first half of the digits. From the line of the exchange on, variables 4120, 4320 and 4520 hold its number; no other variable changes. (Violated: a tool prepared by T in an earlier block is not taken by M6.)", "quantifier": "every machine, program and starting macro table", "why_tests_cant": "The exchanges and the blocks between them are unbounded, and every block must leave the tool alone.", "anchors": ["parser/fanuc/AttributesPathCalculator.cpp:89-99", "parser/fanuc/AttributesPathCalculator.cpp:250-261", "parser/fanuc/AttributesPathCalculator.cpp:513-549"]}
{"id": "C79", "title": "Simulating a block is defined", "statement": "Evaluating any sequence of parsed blocks never runs into undefined behaviour, whether or not blocks are refused. (Violated: a peck cycle without Q or with Q0; a repetition count beyond int; an arc after a helix that was left by a straight line; a tool exchange with G28 where the tool exchange point leaves out an axis.)", "quantifier": "every machine, program and state", "why_tests_cant": "Undefined behaviour may look right in a test; what is in force from earlier blocks is an unbounded history.", "anchors": ["parser/fanuc/AttributesPathCalculator.cpp:468-1356", "parser/fanuc/PathCalculator.cpp:511-748"]}
{"id": "C65", "title": "A dwell takes its time and does nothing else", "statement": "A dwell block (G4 with its time, optionally with a block number and M codes other than the tool exchange) is accepted wherever it stands, adds its time to the total time, and changes nothing else: neither its own path nor the path, times, positions, ranges, tool totals, variables or outcome of any later block. (Violated: with the time as X, G4 moves the axis by that many millimetres, and G04 even leaves it there; while a drilling cycle is in force a dwell drills another hole; P stays remembered as a position.)", "quantifier": "every machine, every program before and after the block, every block", "why_tests_cant": "The effect on all later blocks is a comparison of two runs of arbitrary programs.", "anchors": ["parser/fanuc/AttributesPathCalculator.cpp:327-385", "parser/fanuc/AttributesPathCalculator.cpp:575-633"]}
{"id": "C80", "title": "A block without motion, speeds, modes and tools has no effect", "statement": "A block that holds nothing but a block number, comments and M codes other than the tool exchange is accepted and changes nothing, whatever is in force: all later blocks have the same path, times, positions, ranges, tool totals, variables and outcome as without it; only a pallet exchange or a measurement adds its time to the total time. (Violated: where the base point leaves out an axis, such a block is refused until the position is known.)", "quantifier": "every machine, every program before and after the block, every block", "why_tests_cant": "The effect on all later blocks is a comparison of two runs of arbitrary programs.", "anchors": ["parser/fanuc/AttributesPathCalculator.cpp:468-1356"]}
{"id": "C81", "title": "The settings in force are those of the settings file", "statement": "A settings file is accepted exactly when every setting is there and can be read as what it is (a whole number, a number, a truth value, one of the names), and then each setting in force has the value written in the file; the order of the settings does not matter, further settings do not matter, and a file that lacks one is refused. The machine configuration made from it is one the path calculator can work with. (Violated: the driver heidenhain is offered by the shipped file and makes the whole file unreadable; a number before a truth value is overlooked.)", "quantifier": "every tree of a settings file", "why_tests_cant": "A file has some fifty settings of any text each; tests read the shipped files.", "anchors": ["nclangsrv/NCSettingsReader.cpp:78-165", "conf/nc_settings.json:13"]}
{"id": "C82", "title": "The words known are those of the word table", "statement": "A word grammar file is accepted exactly when both tables and the operations are there and every entry can be read; then the table of a unit system has exactly the words of that section, each with the range, decimals, uniqueness and kind its last entry declares, and the operations are those of the file in order. A refused file leaves the words in force as they were. (Violated: a refused file leaves the words before the first unreadable entry in force; a negative number of decimals is accepted as a large one.)", "quantifier": "every tree of a word grammar file, every word", "why_tests_cant": "The entries are arbitrary in number, order and text.", "anchors": ["nclangsrv/WordGrammarReader.cpp:21-61"]}
{"id": "C83", "title": "A code belongs to the groups that list it", "statement": "A file of code groups is accepted exactly when every entry can be read, and then a code belongs to a group exactly when the file lists the code in that group.", "quantifier": "every tree of a file of code groups, every group, every code", "why_tests_cant": "The groups are arbitrary in number and may overlap.", "anchors": ["nclangsrv/CodeGroupsReader.cpp:34-47"]}
{"id": "C84", "title": "No text ends the server", "statement": "Whatever a document says, checking it comes back: every line is accepted or refused with a message, and no exception leaves the check and ends the server. (Violated: a line whose words include an address kept in a system variable, B D E F H M N O S, without digits ends the server as soon as the line grammar lets it pass, which it does while a bracket is open or the value is a function, F[SIN[30]]; a bracket left open in one line does this to the lines after it; a position with a lone decimal point does it too.)", "quantifier": "every text of any number of lines, every machine and every word table that declares the addresses", "why_tests_cant": "The texts are unbounded, and whether a line ends the server depends on the lines before it, because the state of the line grammar is carried over.", "anchors": ["parser/fanuc/AllAttributesParser.cpp:203-331", "parser/fanuc/SystemMacroAssigner.cpp:34-47", "parser/fanuc/AllAttributesParserGrammar.h:214-229"]}
{"id": "C85", "title": "A line is accepted exactly when nothing is wrong with it", "statement": "A line that is read as words is accepted exactly when its simulation succeeds and nothing is wrong with its words: no address that the table of the units in force declares unique occurs twice, no kept address lacks its number, and, as far as the options ask for it, no maximum is exceeded, the first feed move has a spindle that turns, no two codes share a group, a Haas has one M code, and every axis is inside its travel. After an accepted line the units, the simulation and what is known about the spindle are those of its words; after an accepted program the simulation is that of all its words, block by block. Otherwise the line is refused with a message. (Speeds, tools and feeds with fractions or signs are compared wrongly, see C33; lines with # see C38 and C39.)", "quantifier": "every machine, every word table and every table of code groups, every choice of options, every text of any number of lines", "why_tests_cant": "The checks interact through the state carried from line to line, and the programs are unbounded.", "anchors": ["parser/fanuc/AllAttributesParser.cpp:203-331"]}
{"id": "C86", "title": "What the word table declares is accepted", "statement": "For a word table without ambiguities, a line of words written with blanks between them is accepted and read as exactly these words, whatever was read before, when every word is one of: an address of the table with a number inside its declared range (with a sign, with as many decimals as declared, with a fraction alone, or with the number of a variable), an address written with = and such a number, a comment without closing bracket inside, a program name of letters, digits and underscores that does not begin like another name of the table, or % at the end. A program written from such words is accepted exactly when nothing is wrong with it in the sense of C85, and its simulation is that of the words.", "quantifier": "every regular word table, every line of any number of such words, every state of the parser", "why_tests_cant": "The table, the numbers and the line are unbounded; a false alarm on one number of one address is enough to break it.", "anchors": ["parser/fanuc/AllAttributesParserGrammar.h:180-330", "parser/fanuc/AllAttributesParserGrammar.h:verify_range", "parser/fanuc/AllAttributesParser.cpp:203-331"]}
{"id": "C87", "title": "The diagnostics shown begin at the first flawed line", "statement": "When the editor opens or changes a document written with declared words, assignments and variables, the server publishes no diagnostics if every block of it, with the values of the variables in their places, is free of flaws (repeated words, values out of range, travel, speed, feed, tool and code group rules, wrong arcs and cycles); otherwise the first diagnostic it publishes is on the line of the first flawed block, at column 0 and with a text that is not empty, whatever the lines after it say. An assignment whose expression has no value is quoted, a variable without a value is named. Blank lines and white space at the end of lines do not matter, and neither does what the server did before.", "quantifier": "every document of any number of lines, every history of messages, every configuration whose tables and groups are in order and whose names contain neither a colon nor the letter i", "why_tests_cant": "Documents and histories are unbounded; the flaw of a line depends on units, path and rotation carried over from all lines before, and the position of the diagnostic is read back from the text of the message.", "anchors": ["nclangsrv/NCParser.cpp:259-520", "nclangsrv/JsonMessageHandler.cpp:965-1125", "parser/fanuc/AllAttributesParser.cpp:203-336"]}
{"id": "C88", "title": "No history of messages ends the server by an exception", "statement": "With configuration files that can be read and description files that exist, the server comes back from every message of any history: opening, changing and closing documents, looking at words, asking for suggestions, lenses and their details, also when messages are malformed or name unknown documents; no exception leaves a handler. (Violated: looking at a variable whose number does not fit an int, as in (#3000000000), ends the server once a document is open; so does opening a document with F[SIN[30]].)", "quantifier": "every history of messages of any length and content, every machine, settings and word tables that declare the addresses", "why_tests_cant": "Histories and texts are unbounded, and what a message does depends on everything read and opened before it.", "anchors": ["nclangsrv/JsonMessageHandler.cpp:203-303", "nclangsrv/JsonMessageHandler.cpp:602-791", "nclangsrv/NCParser.cpp:259-520"]}
{"id": "C89", "title": "Nothing on an accepted line is lost", "statement": "When a line is accepted, the words that are read from it, written one after the other, are the line itself without its blanks and tabs: no character of an accepted line is dropped, changed, doubled or reordered on the way into the words that are checked, simulated and rewritten. (Violated for the letters after a program number: O1 TEST is read as O1 and the name is gone.)", "quantifier": "every line of any length, every word table, every parser state", "why_tests_cant": "The texts are unbounded and every rule of the grammar can lose characters in its own way.", "anchors": ["parser/fanuc/AllAttributesParserGrammar.h:60-501", "parser/fanuc/AllAttributesParser.cpp:339-383"]}
{"id": "C90", "title": "What is shown on a line does not depend on the lines below it", "statement": "Hover answers on a line and the diagnostics of the lines up to it are determined by the document up to and including that line: changing, adding or removing lines below changes neither, whatever happened before in either session.", "quantifier": "every pair of histories, every document, every cut, every position", "why_tests_cant": "Pairs of unbounded documents and histories; the table of variables is filled by the whole document before any hover is answered.", "anchors": ["nclangsrv/NCParser.cpp:259-520", "nclangsrv/JsonMessageHandler.cpp:602-791", "parser/fanuc/MacroDefines.h:10-28"]}
{"id": "C91", "title": "A variable is worth what the lines above gave it", "statement": "The value shown for a variable on a line of the latest text is the one in effect there: before the first line only #3101 and #3102 have values (pi and e); blank lines, lines without a variable, and accepted lines that name a variable only as the value of a word keep every variable other than the kept addresses; an accepted assignment #n=expression gives #n the value of the expression computed with the values in effect above the line and keeps the others; an accepted line without variables gives the variables of the kept addresses (feed, spindle speed, ...) the last number the line writes for that address, or keeps them. (Violated: #1 X5, with no equals sign, gives #1 the value 5.)", "quantifier": "every document, every line of it, every variable, every history of messages before the hover", "why_tests_cant": "Documents, expressions and histories are unbounded; the value on a line depends on every line above it.", "anchors": ["parser/fanuc/AllAttributesParser.cpp:200-290", "parser/fanuc/MacroEvaluator.cpp:13-110", "parser/fanuc/SystemMacroAssigner.cpp:13-75", "parser/fanuc/MacroDefines.h:10-28", "nclangsrv/JsonMessageHandler.cpp:602-791"]}
{"id": "C92", "title": "Comments and block numbers have no influence", "statement": "Two programs that differ only in comments and block numbers are both accepted or both not; when accepted, they leave the same path, times, positions, ranges and unit system. A line of nothing but comments and block numbers changes no total, no position and no modal value (except that G80 gives way to G0 as after any line).", "quantifier": "every pair of programs whose lines are read as the same words but for comments and block numbers, every machine, every option", "why_tests_cant": "Programs are unbounded and a comment or number may stand at any place of any line; every stage of the check and the simulation has to ignore it.", "anchors": ["parser/fanuc/AllAttributesParser.cpp:200-337", "parser/fanuc/AttributesPathCalculator.cpp:60-420", "parser/fanuc/CodeGroupsVerifier.cpp:20-129", "parser/fanuc/SameWordInBlockVerifier.cpp:10-51", "parser/fanuc/RotationVerifier.cpp:10-88"]}
{"id": "C93", "title": "Rewritten programs are read as the words they were given and mean the same", "statement": "When every line of a program is passed to RemoveComment, RemoveNumbering, Renumber or RotateAxes and the returned words are written as text, every line of the new text is accepted and read as exactly these words, whatever was read before; for comments and numbers the new program gets the same verdict as the old one and leaves the same path, times, positions and units. (Violated where a comment separates words that do not stand beside each other, where a block number stands elsewhere on the line, by G#17 under a rotation, and by unit conversions that leave the range of the new units.)", "quantifier": "every accepted program, every number of lines, every setting of the renumberer within the range of its address, every rotation", "why_tests_cant": "Programs, words and numbers are unbounded and the calls share the grammar's and the renumberer's state over all lines.", "anchors": ["parser/fanuc/AllAttributesParser.cpp:384-630", "parser/fanuc/AllAttributesParserWrapper.cpp:297-350", "parser/fanuc/Renumberer.cpp:26-129", "parser/fanuc/AxesRotator.cpp:39-223", "parser/AllAttributesParserWrapperBase.cpp:144-184"]}
{"id": "C94", "title": "Heidenhain lines are read whole", "statement": "A line accepted by the Heidenhain parser consists of an optional block number, the words delivered and blanks, nothing is lost or read twice; words written apart are accepted and read as written; and the words of an accepted line, written again, are read as the same words. (Violated in what a number is: X.5 is the word `X.` with value 5, and the parameter number of Q-5 comes back as 4294967291.)", "quantifier": "every line, every list of words, every parser after any history", "why_tests_cant": "Lines and lists of words are unbounded; the tests show some dozen lines.", "anchors": ["parser/heidenhain/AllAttributesParserGrammar.h", "parser/heidenhain/AllAttributesParser.cpp", "parser/heidenhain/AllAttributesParserDefines.h"]}
{"id": "C95", "title": "The Heidenhain parser keeps no memory of earlier lines", "statement": "The answer to a line does not depend on the lines parsed before, on the calls of the other functions, nor on how the parser was made. A parser made without settings may be used as soon as it was given its settings. (Violated before: the first line parsed without settings is undefined behaviour.)", "quantifier": "every line, every two histories of calls", "why_tests_cant": "Histories are unbounded.", "anchors": ["parser/heidenhain/AllAttributesParser.cpp", "parser/heidenhain/AllAttributesParser.h", "parser/heidenhain/AllAttributesParserGrammar.h"]}
{"id": "C96", "title": "A refused Heidenhain line is told with its place", "statement": "There is a message exactly if the line is refused; it names the column, counted with tabs of four, repeats the text from this column on, and the words delivered are those in front of it. A block number must be followed by a blank. (Lines one would expect to be accepted are refused: blank lines, a block number alone, words that only begin with CYCL, BEGIN or END.)", "quantifier": "every line, every parser after any history", "why_tests_cant": "The place of a flaw can be anywhere in a line of any length.", "anchors": ["parser/heidenhain/AllAttributesParserGrammar.h", "parser/heidenhain/AllAttributesParser.cpp"]}
{"id": "C97", "title": "The C interface of the Heidenhain parser delivers what was parsed", "statement": "ParseValue returns the verdict, leaves a fresh text with the message if the line is refused and touches no other memory, and delivers the words of the line. (Violated: the words are never delivered, the caller's array and length stay unset.)", "quantifier": "every line, every parser and every state of the caller's variables", "why_tests_cant": "Lines and states of the memory are unbounded.", "anchors": ["parser/heidenhain/AllAttributesParserWrapper.cpp", "parser/AllAttributesParserWrapperBase.cpp"]}
{"id": "C98", "title": "Assignments compute", "statement": "A line #n=expression is accepted exactly when the expression has a value by the rules of arithmetic (variables have the value last assigned to them, from the first line of the program on) and nothing else is due on the line; from then on #n has this value, no other variable changes, and for the machine the line is no more than a comment. A program with assignments is accepted exactly when all expressions have values and the program with comments in their place is accepted, and the simulation is the one of that program.", "quantifier": "every expression of numbers in range, variables, brackets, operators and functions the word table declares, nested to any depth; every program of such lines and of lines without variables; every state of the parser in which brackets are in step", "why_tests_cant": "Expressions, programs and states of the parser are unbounded.", "anchors": ["parser/fanuc/AllAttributesParserGrammar.h", "parser/fanuc/AllAttributesParser.cpp", "parser/fanuc/MacroEvaluator.cpp", "parser/fanuc/ValueCalculator.cpp"]}
{"id": "C99", "title": "A line with variables is the line with their values", "statement": "A line in which variables stand in the place of numbers is answered exactly as the line in which the values of these variables stand there, with the same message if it is refused, and it has the same effect on position, totals, units and variables. A program with assignments and variables is accepted exactly when nothing is wrong with the program in which the computed values stand, and the simulation is the one of that program. A line with a variable that has no value is refused, the message names such a variable, and nothing changes.", "quantifier": "every line and every program of words the word table declares and of assignments, every state of the parser, every value that the address of the variable allows", "why_tests_cant": "Lines, programs, values and states of the parser are unbounded.", "anchors": ["parser/fanuc/AllAttributesParser.cpp", "parser/fanuc/MacroEvaluatedCodeVerifier.cpp", "parser/fanuc/AllAttributesParserGrammar.h"]}
{"id": "C100", "title": "The values of two wanted letters are found", "statement": "Asked for two letters, OrderAttributeParser::parse answers true exactly if the line has a word with the first letter and behind the first such word a word with the second letter; the values are those of these words, also if the first one is all there is. On any text success means that the letters stand there in this order, each directly in front of a number. A letter that is not directly followed by a number is refused with its place and the caller's values stay.", "quantifier": "every line of words, every text, every pair of letters, every former value", "why_tests_cant": "The words of interest can be anywhere in a line of any length.", "anchors": ["parser/fanuc/OrderAttributeParser.cpp"]}
{"id": "C101", "title": "Programs of similar parts are simulated alike", "statement": "If a program is written for a similar part (turned by quarters, mirrored, shifted, scaled: coordinates and feeds are those of the similar part), and the machine's rapid feed and base point are scaled alike, then the simulation fails in the same block with the same error or not at all, the time is the same, lengths are scaled and every position is the image of the original position. In particular a program turned by the tool's own RotateAxes takes the same time and ends in the turned point.", "quantifier": "every straight program, every similarity of the three axes, every machine, every state, absolute and incremental coordinates mixed", "why_tests_cant": "Programs, coordinates and similarities are unbounded; a wrong sign or a mixed-up axis shows only for some of them.", "anchors": ["parser/fanuc/AttributesPathCalculator.cpp", "parser/fanuc/PathCalculator.cpp", "parser/fanuc/AxesRotator.cpp"]}
{"id": "C102", "title": "A program in inches is simulated like the same program in millimetres", "statement": "A program with G20 and all coordinates and feeds in inches takes the same time, goes the same way and is held against the same travel limits as the same program with G21 in millimetres; a change of units in the middle does not move the machine.", "quantifier": "every straight program, every machine", "why_tests_cant": "Programs and coordinates are unbounded; the units are state that is kept over lines.", "anchors": ["parser/fanuc/AttributesPathCalculator.cpp", "parser/fanuc/RangeVerifier.cpp", "parser/fanuc/AllAttributesParser.cpp"]}
{"id": "C103", "title": "Every shipped control is usable", "statement": "The word tables and code groups of every directory under conf are read to their ends; the metric and the imperial table declare the same addresses for the same purposes; every code that is in a group can be written in a program with either default units; and with all settings whose axes are capital letters, documents of declared words with passing blocks have no diagnostics and the first flawed block gets the first one.", "quantifier": "every shipped control, every customary settings, every code of a group, every history of lines, every document of declared words", "why_tests_cant": "Settings, documents and histories are unbounded, and a table that cannot hold one of the words of a control, or hides one behind another one, shows only for some lines.", "anchors": ["conf/fanuc_mill/grammar.json", "conf/fanuc_mill/gcode_groups.json", "nclangsrv/WordGrammarReader.cpp", "nclangsrv/CodeGroupsReader.cpp", "nclangsrv/NCParser.cpp"]}
{"id": "C104", "title": "Every shipped description of a code is shown", "statement": "With the description files of a shipped control, hovering over a described code, written with any number of leading zeros, shows its title and its text. (Violated for M0 to M9 of the generic controls.)", "quantifier": "every shipped control, every described code, all titles and texts, every history of messages, every document and position", "why_tests_cant": "Histories, documents and positions are unbounded; a description stored under a key that hover never asks for is only seen by hovering over that code with that control.", "anchors": ["nclangsrv/CodesReader.cpp", "nclangsrv/JsonMessageHandler.cpp", "conf/generic_mill/desc/mcode_desc_en.json"]}
{"id": "C105", "title": "Parts split by path or time contain what was asked for", "statement": "Splitting a file by path or time with a positive amount succeeds exactly if nothing is wrong with its lines; every part but the last contains at least the amount of work motion that the simulation of the lines finds, and, without drilling cycles and unless only rapid blocks may begin a part, no part goes on after the amount is reached. The result depends on the file and the settings only. (Violated by blank lines, which count the motion before them again, and by files split before; an amount that is not positive raises an exception that is not caught.)", "quantifier": "all files, all amounts, all settings and tables, every parser state where stated", "why_tests_cant": "Files and amounts are unbounded and the amount of a part depends on the modal state of the whole file before it; a test sees single files.", "anchors": ["parser/fanuc/AllAttributesParser.cpp", "parser/fanuc/FileSplitter.cpp"]}
{"id": "C106", "title": "The parts of a file are the file", "statement": "When a file is split, every line that is not blank has been read to its end, and the parts, written one after the other, are the blocks of the file in their order with nothing changed but the block numbers and with the retraction planes where parts meet; every written block is read as the same words, and the written parts run like the file. (Violated when parts begin at a text: what follows a fault in a line is lost and the call succeeds.)", "quantifier": "all files, all kinds of splitting, all amounts and retraction planes, all tables and parser states", "why_tests_cant": "A word lost or changed in one block of a large file is not seen by looking at examples, and damages the machined part.", "anchors": ["parser/fanuc/AllAttributesParser.cpp", "parser/fanuc/FileSplitter.cpp", "parser/fanuc/Renumberer.cpp"]}
{"id": "C107", "title": "Exported settings are accepted by the language server", "statement": "Whatever has been entered or imported into the settings form, a file that its export produces is read by the language server, and every setting of the server has exactly the value that the file states for it: machine, driver, axes with their ranges, kinematics, initial parameters, exchange point, base point and program zero.", "quantifier": "all contents of the form that its lists allow, both cultures, all files the form was opened with, all definitions", "why_tests_cant": "The form and the server are written in two languages and share nothing but names of keys; a test exports a few forms, while users combine all values of all controls.", "anchors": ["cmtconfig/NCSettingsForm.cs", "cmtconfig/NCSettingsForm/CNCKinematics.cs", "cmtconfig/NCSettingsForm/CNCInitialParams.cs", "cmtconfig/NCSettingsForm/CNCMachinePoints.cs", "cmtconfig/NCSettingsForm/CNCProgramZero.cs", "cmtconfig/NCSettingsDefinition.cs", "nclangsrv/NCSettingsReader.cpp"]}
{"id": "C108", "title": "Importing and exporting settings keeps them", "statement": "A settings file that the form can import is exported again with the same settings, so that the server behaves the same with it. (Violated: fractional feeds cannot be exported, in Polish machine points with decimals are multiplied by a power of ten, ranges of axes are rounded to single precision, coordinates other than X, Y and Z are taken from the file the form was opened with, and data of a pallet changer or a probe is forgotten when the machine has none.)", "quantifier": "all importable files, both cultures, all earlier contents of the form, all definitions", "why_tests_cant": "Every setting may have any value, and what comes back depends on the culture and on the file the form was opened with before.", "anchors": ["cmtconfig/NCSettingsForm.cs", "cmtconfig/NCSettingsForm/CNCKinematics.cs", "cmtconfig/NCSettingsForm/CNCMachinePoints.cs", "cmtconfig/NCSettingsForm/CNCProgramZero.cs", "cmtconfig/NCSettingsForm/CNCMachineTool.cs"]}
{"id": "C109", "title": "The .NET interface hands over what was found and leaves nothing behind", "statement": "A call of the .NET class returns the answer, the words, the variables, the totals or the parts that the parser found, in their order, with texts and messages in the characters they were written in; it touches no memory that is not its own, everything the call allocated is released when it returns, and nothing else is. (Violated: when the first line is refused the arrays of a split file are never released; a part without blocks, as when a file is split at a text of its first line or is empty, makes the text split read a pointer that was never set; of the answer, a byte, four bytes are read.)", "quantifier": "all heaps, all results of the parser, both platforms and all code pages", "why_tests_cant": "Leaks and reads of released or unset memory do not show in results; results vary in the number of parts, blocks and words.", "anchors": ["parser_net/AllAttributesParser.cs", "parser/AllAttributesParserWrapperBase.cpp", "parser/fanuc/AllAttributesParserWrapper.cpp"]}
{"id": "C110", "title": "What a .NET client hands over is what the parser works with", "statement": "The machine, its kinematics, its points, the start modes and the zero point given to SetNCSettings, the words, operators, code groups, options, language and control given to the constructor, and the requests to split and to number a file arrive in the native parser as they were given; a client that hands over the members of a settings file has the same settings as the server that reads the file. (Violated: a text left at its default is a null reference, and the native side makes a string of a null pointer.)", "quantifier": "all settings files, all dictionaries with distinct keys, all word tables, code groups, options and requests", "why_tests_cant": "Structures are declared twice, in two languages, with enumerations, flags and arrays in an order that nothing checks; a swapped pair of members or a wrong enumerator shows only for the settings that use it.", "anchors": ["parser_net/AllAttributesParser.cs:1480-1553", "parser_net/FanucAllAttributesParser.cs", "parser/AllAttributesParserWrapperBase.cpp:16-28", "parser/AllAttributesParserWrapperBase.cpp:186-228", "parser/fanuc/AllAttributesParserWrapper.cpp:14-56"]}
{"id": "C111", "title": "Predefined blocks: what is written is what is read, and nothing else is touched", "statement": "Reading a directory of predefined blocks gives every group of its JSON files with the decimal sign in place of {0}; writing stores the groups that may be written, removes the JSON files of the directory that belong to no group, and leaves every other file, in particular those of groups that may only be read, as it is; groups that were written are read again as they were. (Violated: a single brace in a line makes the whole directory unreadable after it was written, the decimal sign of written blocks no longer follows the setting, and with a relative path the files of groups that may only be read are deleted.)", "quantifier": "all disks, directories, groups, decimal signs and codecs of groups", "why_tests_cant": "Files are deleted by comparing paths that are spelled by different functions; templates and texts look alike until a brace occurs.", "anchors": ["parser_net/PredefinedBlocks.cs"]}
{"id": "C112", "title": "The same files give a .NET client and the server the same parser", "statement": "A .NET client that reads a grammar, the groups of G and M codes and a settings file with the classes of parser_net and hands them to the native parser, and the language server that reads the same files, work with the same word tables, operators, code groups, machine and start modes, so both say the same about every program; only the language of the messages may differ.", "quantifier": "all grammars, code groups and settings files with distinct keys and numbers of their types", "why_tests_cant": "Two readers in two languages, and a third declaration of every structure between them, have to agree for all files.", "anchors": ["parser_net/Grammar.cs", "parser_net/CodeGroups.cs", "parser_net/FanucAllAttributesParser.cs", "nclangsrv/WordGrammarReader.cpp", "nclangsrv/CodeGroupsReader.cpp", "nclangsrv/NCSettingsReader.cpp"]}
{"id": "C113", "title": "Configuration files are read as the JSON they are", "statement": "A settings, grammar or code group file is read exactly if its text is JSON, and then as the tree it spells: escapes, white space, line ends and layout make no difference, a text has one meaning, and a text that is no JSON configures nothing and is reported. What the settings form writes, and every file that is shipped, is such a text.", "quantifier": "all texts of files, all trees", "why_tests_cant": "The texts are infinitely many; a test tries some files and cannot exclude another layout, escape or nesting that is read differently.", "anchors": ["nclangsrv/NCSettingsReader.cpp:read", "nclangsrv/WordGrammarReader.cpp:read", "nclangsrv/CodeGroupsReader.cpp:read", "cmtconfig/NCSettingsDefinition.cs:Write", "conf/"]}
{"id": "C114", "title": "The server works with what the editor is configured with", "statement": "However the options of the server are spelled (with '=' or apart, abbreviated or by their letters) and ordered, the server starts and works with the paths that were given, writes a log exactly if a path was given for it and calculates path and time exactly if this was asked for (with true, yes, on or 1, in small or capital letters). Stray arguments, unknown or ambiguous names, options without value and options given twice are refused; --help ends the server. Whatever is configured in the editor, in whatever scope or by default, the server that the extension starts works with it.", "quantifier": "all configurations of the editor, all lists of options, spellings and orders", "why_tests_cant": "Paths are arbitrary texts and may look like options, values or abbreviations; a test starts the server with some of them.", "anchors": ["vscode-client/src/extension.ts:startLangServerNCProj", "nclangsrv/nclangsrv.cpp:main"]}
{"id": "C115", "title": "The status bar names the machine", "statement": "When the settings file names a machine the status bar shows this name without surrounding white space; otherwise it shows the name of the file without its extension. What the settings form saves is shown by the name that was entered.", "quantifier": "all contents and names of files", "why_tests_cant": "Names of files and machines are arbitrary texts; a test tries some of them.", "anchors": ["vscode-client/src/extension.ts:setStatusText", "vscode-client/src/extension.ts:stem"]}
{"id": "C116", "title": "The text of a code names it", "statement": "The text under which a code is stored or shown is read back as the same code, and different codes have different texts. A text is read as a code exactly if it is a whole number of 32 bits or two of them with a point between.", "quantifier": "all codes, all texts", "why_tests_cant": "There are 2^64 codes; a test tries some.", "anchors": ["parser_net/CodeGroups.cs:CodeGroupValue"]}
{"id": "C117", "title": "A part may lie elsewhere on the table", "statement": "If a part is moved on the table, together with the points of the machine, and its program is written for the new place (coordinates moved; distances, centres, radii, feeds and codes as before), the simulation accepts and refuses the same blocks with the same messages, reports the same path lengths, times, totals per tool and variables, and all positions and their bounds are moved by the same amounts.", "quantifier": "all shifts of X, Y and Z, all machines, all programs (straight moves, arcs, helices, spirals, cycles, dwells, tool exchanges, base points, G90 and G91), all states", "why_tests_cant": "Tests compare single paths at one place; the lengths of arcs, helices and cycles must not depend on where the part lies for any shift, program and machine.", "anchors": ["parser/fanuc/AttributesPathCalculator.cpp:evaluate", "parser/fanuc/AttributesPathCalculator.cpp:copy_on_return", "parser/fanuc/PathCalculator.cpp"]}
{"id": "C118", "title": "A program by distances and the same program by coordinates are simulated alike", "statement": "If every distance of a program (G91) is replaced by the coordinate the tool comes from plus the distance, and G91 by G90, the simulation accepts and refuses the same blocks with the same messages and reports the same positions, bounds, path lengths, times, totals per tool, modes and variables.", "quantifier": "all machines, all states, all programs that mix G90 and G91 (straight moves, arcs, dwells, tool exchanges, base points, cycles)", "why_tests_cant": "Tests check either kind of block on single examples; the two ways through the code must agree for every program, machine and sequence of modes.", "anchors": ["parser/fanuc/AttributesPathCalculator.cpp:evaluate", "parser/fanuc/AttributesPathCalculator.cpp:copy_on_return", "parser/fanuc/PathCalculator.cpp"]}
{"id": "C119", "title": "A block may repeat what is in force", "statement": "Words that repeat what is in force (a motion, plane, G90 or G91, G94 to G99, the feed, the speed) can be put into a block, or left out of it, without any effect: the simulation accepts and refuses the same blocks with the same messages, and reports the same positions, bounds, path lengths, times, totals per tool, modes and variables.", "quantifier": "all machines, all states, all blocks and programs, any number of repeated words at any place in the block", "why_tests_cant": "Programs are written with or without the repeated words; a test compares single blocks, the claim is about every combination of repeated words, block and state, and about what all later blocks report.", "anchors": ["parser/fanuc/AttributesPathCalculator.cpp:evaluate", "parser/fanuc/AttributesPathCalculator.cpp:AttributesPathCalculatorVisitor"]}
{"id": "C120", "title": "Feeds, speeds and times of the machine have no influence on the path", "statement": "If the feeds and spindle speeds of a program (all above zero) are replaced by others above zero, and the rapid feed of the machine and its times for tool exchange, pallet exchange and measurement by others, then the simulation accepts and refuses the same blocks with the same messages, assigns the same variables and reports the same positions, bounds, path lengths in all and for each tool, tool and modes; only the feed, the speed and the times differ.", "quantifier": "all machines with the axes described, all other rapid feeds and times, all states, all blocks and programs, all replaced F and S words", "why_tests_cant": "Feeds are changed all the time while the path must stay; tests compare single programs, the claim covers every program, every state and every choice of feeds.", "anchors": ["parser/fanuc/AttributesPathCalculator.cpp:evaluate", "parser/fanuc/MathUtils.h:CalcTime", "parser/GeneralParserDefines.h:Kinematics"]}
{"id": "C121", "title": "A higher feed or a faster machine never takes longer", "statement": "If the feeds and spindle speeds of a program are raised, or the machine has a higher rapid feed or shorter times for tool exchange, pallet exchange and measurement, then the simulation reports no longer time: in all, for the tool in use, for the last motion and for each tool.", "quantifier": "all machines with the axes described, all other rapid feeds and times that are no slower, all states and programs, all raised F and S words", "why_tests_cant": "Time estimates are compared when feeds are optimised; tests settle single cases, the claim is about all programs (feed per minute, per turn, constant surface speed, tool changes, pending rapid moves) and all raises.", "anchors": ["parser/fanuc/AttributesPathCalculator.cpp:evaluate", "parser/fanuc/MathUtils.h:CalcTime"]}
{"id": "C122", "title": "A straight move may be made in pieces", "statement": "If points on the way are put before straight moves (G0 or G1 to coordinates), each as a block of its own with the same other words, then a program that is accepted stays so, and at its end the simulation reports the same positions, bounds, path lengths and times in all and for each tool, tool, modes and variables; only the last motion is shorter.", "quantifier": "all machines, all states, all programs, any number of points at any part of the way, mills and lathes, feeds per minute and per turn", "why_tests_cant": "Programs from other systems are made of many short moves; a test compares a few, the claim is about any number of points on any straight move in any program, with everything the later blocks report.", "anchors": ["parser/fanuc/AttributesPathCalculator.cpp:evaluate", "parser/fanuc/AttributesPathCalculator.cpp:copy_on_return", "parser/fanuc/MathUtils.h:CalcLineLength3d"]}
{"id": "C123", "title": "A mirrored part is simulated alike", "statement": "If a part is mirrored at the X axis, at the Y axis or at both (turned by half a turn), together with the points of the machine, and its program is written for the mirrored part (the coordinates and centres along the mirrored axes with the other sign; G2 and G3 exchanged when one axis is mirrored), the simulation accepts and refuses the same blocks, reports the same path lengths, times, totals per tool and variables, and the positions and their bounds are mirrored.", "quantifier": "all programs in the plane G17 (straight moves, arcs by centre and by radius, helices, spirals, cycles, dwells not given by a mirrored address, tool exchanges, G90 and G91), all machines that treat G2 and G3 alike when cancelling cycles, all states with the position within its bounds", "why_tests_cant": "The length of an arc is found by cases over the quadrants of its ends, for each sense of rotation; a test covers a few of the cases, the symmetry is about all of them, for any arc in any program.", "anchors": ["parser/fanuc/PathCalculator.cpp", "parser/fanuc/AttributesPathCalculator.cpp:evaluate", "parser/fanuc/AttributesPathCalculator.cpp:copy_on_return"]}
{"id": "C124", "title": "What was counted before has no influence, and rounds add up", "statement": "What a block does depends only on where the machine stands, the tool and what is in force (feed, speed, motion, plane, cycle): whatever the totals, the totals per tool, the bounds and the variables are, it has the same outcome, the same lengths and times, the same position and modes afterwards, and adds the same to the totals of path and time. Hence a program that is accepted and leaves the machine where it was, with the same in force, may be run any number of times: every round is accepted and takes the same path and time, so that n rounds take n times that of one.", "quantifier": "all blocks and programs, all machines, all pairs of states that agree in position, tool and what is in force, all numbers of rounds", "why_tests_cant": "The state of the calculator has sixteen parts, and a leak from the totals, the totals per tool or the bounds into the computation shows only for particular histories; the claim is about all histories and any number of rounds.", "anchors": ["parser/fanuc/AttributesPathCalculator.cpp:evaluate", "parser/fanuc/AttributesPathCalculator.cpp:copy_on_return"]}
{"id": "C125", "title": "The way is never shorter than the distance", "statement": "An accepted program of straight moves (G0 and G1, in G90 and G91) is reported with a total path at least as long as the distance in space from the position where it begins to the position where it ends, and at least as long as the distance by way of any position it visits in between.", "quantifier": "all programs of straight moves of any length on machines that are no lathes, all positions and modes before", "why_tests_cant": "The claim relates the sum of the reported lengths of arbitrarily many blocks to the positions reported independently of them; it fails if any block, in any mode, reports a length that does not belong to its positions.", "anchors": ["parser/fanuc/AttributesPathCalculator.cpp:evaluate", "parser/fanuc/AttributesPathCalculator.cpp:copy_on_return", "parser/fanuc/PathCalculator.cpp"]}
{"id": "C126", "title": "An arc is never shorter than its chord", "statement": "The reported length of an arc (G2, G3, by centre or by radius, in any plane) is at least the straight distance between the positions before and after it. (Violated: arcs whose radius is too small to reach the programmed end are accepted and reported with about half a turn of the small circle, and the simulation goes on from the end; and for radii within the tolerance.)", "quantifier": "all arcs in a plane, all positions, machines that are no lathes", "why_tests_cant": "The angle of the arc is found by the quadrants of its ends and an arctangent; that the result is never below the chord is a statement about all real coordinates.", "anchors": ["parser/fanuc/PathCalculator.cpp", "parser/fanuc/AttributesPathCalculator.cpp:evaluate"]}
{"id": "C127", "title": "G2 is clockwise and G3 counter-clockwise as seen from the axis across the plane", "statement": "In every plane the path reported for an arc with a centre is radius times the angle of the turn that G2 (clockwise) or G3 (counter-clockwise) makes as seen from the positive end of the axis across the plane of a right-handed machine: Z for G17, Y for G18, X for G19. (Violated in G18: the code takes X as the first and Z as the second axis, which is the view from the negative end of Y, so that a quarter turn through a quadrant limit is counted as three quarters and arcs of more than half a turn as the rest of the circle.)", "quantifier": "every centre, radius, angle, sense and plane over the reals; every block without tool, M or reference words, every state of a mill", "why_tests_cant": "Continuous domain; the unit tests check the three planes with the same numbers, which is the fault.", "anchors": ["parser/fanuc/PathCalculator.h:61-102", "parser/fanuc/AttributesPathCalculator.cpp:790-860", "parser/fanuc/PathCalculator.cpp:12-148"]}
{"id": "C128", "title": "The way back is as long as the way there", "statement": "A program that makes the motions of another program backwards, in the opposite order, straight moves from end to beginning and arcs about the same centre (or with the same radius) with the other one of G2 and G3, adds the same to the path.", "quantifier": "every two accepted programs of straight moves and arcs in the planes, in coordinates or distances, every state of a mill without automatic rapid motion, over the reals", "why_tests_cant": "Unbounded programs over a continuous domain; the case distinctions on quadrants and tolerances of arcs have to be symmetric.", "anchors": ["parser/fanuc/AttributesPathCalculator.cpp:635-1290", "parser/fanuc/PathCalculator.cpp:12-201"]}
{"id": "C129", "title": "Places are told and understood in the columns of the editor", "statement": "The Language Server Protocol counts the characters of a line in units of UTF-16. Hover over a code, at any of its columns in the editor, is about that code, and the range told is the range of columns it has there; the column of a diagnostic is the column of the flaw. (Violated: the server counts the bytes of UTF-8, so that behind a comment with Polish letters hover misses the code or tells columns too far to the right, and the message about a flaw also advances to the next multiple of four at a tab.)", "quantifier": "every document, history, line and column", "why_tests_cant": "All texts and all encodings of their characters; the unit tests use ASCII lines.", "anchors": ["nclangsrv/JsonMessageHandler.cpp:117-135", "nclangsrv/JsonMessageHandler.cpp:600-740", "nclangsrv/JsonMessageHandler.cpp:1055-1105", "parser/fanuc/AllAttributesParser.cpp:280-287"]}
{"id": "C130", "title": "The text and the lines are those of the editor", "statement": "By the Language Server Protocol the changes of a notification apply in their order and lines end with LF, CR LF or CR. The text answers come from is the text the document has in the editor, and its lines are the lines of the editor, so that hover over a code in a line of the editor is about that code. (Violated: of several changes in one notification the server takes the first, and a CR alone does not end a line.)", "quantifier": "every history of notifications, every text, line and column", "why_tests_cant": "Unbounded histories and all texts with any mix of line ends.", "anchors": ["nclangsrv/JsonMessageHandler.cpp:379-394", "nclangsrv/JsonMessageHandler.cpp:1006-1012"]}
{"id": "C131", "title": "Every request is answered once, under its own id, until exit", "statement": "Each message with a method and an id (any id but null) that arrives before the exit notification is answered by exactly one message that carries the same id and a result or an error, whatever its method. (Violated: methods the server does not know get no answer; ids that are texts are answered under a number by initialize, completion and shutdown and are undefined behaviour in hover, codeLens and the resolve requests; shutdown ends the process, so that later requests and exit are not read.)", "quantifier": "every request, every state of the server, every sequence of framed messages", "why_tests_cant": "All methods, ids and histories; nothing tests that something is not written.", "anchors": ["nclangsrv/JsonMessageHandler.cpp:203-303", "nclangsrv/JsonMessageHandler.cpp:494-963", "nclangsrv/nclangsrv.cpp:main"]}
{"id": "C132", "title": "The average speed lies between the lowest and the highest feed", "statement": "If the feeds of an accepted program and the rapid feed of the machine lie between u and v, then the path reported for the program divided by the time reported for it, apart from exchanges, measuring and dwells, lies between u and v; in particular a program is never reported to take less time than its path takes at the highest feed. (Violated: with F0 a cut takes no time; on lathes with feed per revolution F times S may be any feed, above the rapid feed of the machine.)", "quantifier": "every program of any length with tools, arcs, dwells and modes, every feed bound, every state and machine that is no lathe", "why_tests_cant": "The claim relates the sums over arbitrarily many blocks, with feeds given in some of them and kept in others, to bounds given in advance.", "anchors": ["parser/fanuc/AttributesPathCalculator.cpp:1296-1355", "parser/fanuc/MathUtils.h:CalcTime"]}
{"id": "C133", "title": "The problems listed are those of the present texts", "statement": "An editor lists for each document what the last publishDiagnostics notification for it said. After any conversation the list of an open document is determined by its present text alone: earlier texts, other documents and requests leave no trace, and there always is a list; for a document whose text was never given there is none, and for a closed document none remains. (Violated: closing a document withdraws nothing, so its problems stay listed; the problem of an unreadable description file is listed with the first text given and gone with the next.)", "quantifier": "every history of notifications and requests over any set of documents, with texts and names free of NUL characters", "why_tests_cant": "The list is the result of an unbounded history of notifications of which each replaces one of unboundedly many lists.", "anchors": ["nclangsrv/JsonMessageHandler.cpp:371-394", "nclangsrv/JsonMessageHandler.cpp:1004-1129"]}
{"id": "C134", "title": "What the editor shows as a comment is a comment for the checker", "statement": "In every line the checker reads, the characters the editor colours as comment are exactly those of the comments the checker reads; a text the editor colours as comment is never a fault; and a line commented out with the editor's command is a comment for the checker. (Violated: a backslash before the closing bracket hides it from the editor, so that the words after the comment are coloured as comment; the checker reads no line with a semicolon outside of brackets; the command puts a # in front of the line, which is a variable, so that the line is a fault or even an assignment.)", "quantifier": "every line, every word table whose words contain neither ( nor ;", "why_tests_cant": "Two independent scanners, one a regular-expression grammar run by the editor, the other the line parser, have to agree on all texts.", "anchors": ["syntaxes/ncproj.tmLanguage.json:29-40", "language-configuration.json:4", "parser/fanuc/AllAttributesParserGrammar.h:298"]}
{"id": "C135", "title": "A program rotated by half a turn about Z is simulated like the original", "statement": "A program whose axes are rotated by 180 degrees about Z is simulated on the same machine like the program itself: it stops at the same block or not at all, and leaves the same variables, the same path, times and totals of each tool; it ends at the opposite point (-x, -y) at the same height and sweeps the opposite range. (Violated: an arc in G18 keeps its sense although it is seen from behind, so that its length is counted wrongly; a dwell written with X becomes negative.)", "quantifier": "every program whose blocks are turnable (plane G17, places and centres with numbers, dwells not by X), every machine that starts in G17 with its base and exchange points on the axis", "why_tests_cant": "The rotation and the simulation are two independent parts; a test compares a rotated text or one simulated path, not the whole simulation of every rotated program.", "anchors": ["parser/fanuc/AxesRotator.cpp:136-150", "parser/fanuc/AxesRotator.cpp:176-223", "parser/fanuc/PathCalculator.cpp:12-201"]}
{"id": "C136", "title": "Turning a part on the table does not change the length of its arcs", "statement": "If a part is turned by any angle about any point of the table and its program is written for the new place, every arc in the plane of the table is counted with the same length. (Violated: the length counted for an arc of more than half a turn by its centre depends on the quadrants its ends lie in, so that turning the part by an eighth changes a quarter into three quarters.)", "quantifier": "every arc by centre or radius, every angle and centre of the turn; equality for an arc by its centre exactly if it is at most half a turn or the quadrants agree, in particular for every number of quarters", "why_tests_cant": "The angle is a real number and the choice of the arc is made by cases on quadrants; tests have arcs in a few places only.", "anchors": ["parser/fanuc/PathCalculator.cpp:12-148", "parser/fanuc/PathCalculator.cpp:150-201"]}
{"id": "C137", "title": "A part k times as large has a path k times as long", "statement": "If the program of a part is written for a part k times as large (k > 0; all coordinates, centres and radii multiplied by k) and both programs are accepted, the path counted for the second is k times that of the first, arcs included. (Violated for arcs whose ends are nearer than 1e-8: they are counted as full circles in the one size and as short arcs in the other.)", "quantifier": "every program of straight moves and arcs by centre or radius in every plane, every factor; for larger parts (k >= 1) every program whose arcs have a radius of at least 1e-8 and ends that coincide or differ by 1e-8", "why_tests_cant": "The factor is a real number and the lengths go through square roots, arctangents, quadrants and absolute tolerances; tests compare a few parts in one size.", "anchors": ["parser/fanuc/PathCalculator.cpp:12-148", "parser/fanuc/PathCalculator.cpp:150-201", "parser/fanuc/AttributesPathCalculator.cpp"]}
{"id": "C138", "title": "An arc may be made in pieces", "statement": "If an arc of a program is replaced by several arcs one after the other about the same centre, which together are the arc, the path counted is the same. (Violated: an arc of more than half a turn whose ends do not lie inside different quadrants is counted with the shorter way round; made in pieces of at most half a turn it is counted with its length.)", "quantifier": "every arc in a plane, every number of pieces of at most half a turn each, every accepted program around it; for arcs by their radius without exception, for arcs by their centre the paths agree exactly if the arc is at most half a turn, a full circle, or has its ends inside different quadrants", "why_tests_cant": "The number of pieces and the places where they are cut are arbitrary; which way round is counted is decided by cases on quadrants.", "anchors": ["parser/fanuc/PathCalculator.cpp:12-148", "parser/fanuc/AttributesPathCalculator.cpp"]}
{"id": "C139", "title": "At one feed the time of a program is its way over the feed", "statement": "If all F words of an accepted program give the same feed, the time reported for the whole program is the sum of the ways of its cuts divided by that feed, the sum of the ways of its rapid motions divided by the rapid feed of the machine, and the times of exchanges, measuring and dwells; the path reported is the sum of the ways. In particular two programs without rapid motions at the same feed take the same time exactly if their paths agree, so that the comparisons of paths (C122, C128, C136, C138) are comparisons of times.", "quantifier": "every program of any length with arcs, cycles, tools, dwells and modes, every feed and rapid feed above zero, every state and machine that is no lathe", "why_tests_cant": "Sums over arbitrarily many blocks with the feed given in one of them and kept in the others.", "anchors": ["parser/fanuc/AttributesPathCalculator.cpp:evaluate"]}
{"id": "C140", "title": "An arc may be given by its centre or by its radius", "statement": "If some arcs of a program are given by their radius instead of their centre (R negative for more than half a turn, as the controls have it) and both programs are accepted, the paths counted are the same. (Violated: by the centre an arc of more than half a turn whose ends do not lie inside different quadrants is counted with the shorter way round, by the radius with its length.)", "quantifier": "every program of straight moves and arcs in every plane, every choice of the arcs that are rewritten; for one arc the paths agree exactly if it is at most half a turn or its ends lie inside different quadrants", "why_tests_cant": "Two ways through the code, one with quadrants and one with the sign of R, must agree for all real coordinates and programs of any length.", "anchors": ["parser/fanuc/PathCalculator.cpp:12-148", "parser/fanuc/PathCalculator.cpp:150-201", "parser/fanuc/AttributesPathCalculator.cpp"]}
{"id": "C141", "title": "An arc may be made by short straight moves", "statement": "If a program makes an arc by straight moves between points on it, as post-processors do, the reported path is not longer than that of the program with the arc, and with points at most an angle d apart it is shorter at most by d*d/24 of the length of the arc (all else being the same).", "quantifier": "all arcs, all numbers of points and ways of choosing them, all programs of straight moves and arcs before and after, all machines other than lathes", "why_tests_cant": "The points may be any and any number; a test compares a few arcs and subdivisions with a tolerance and does not show the bound.", "anchors": ["parser/fanuc/PathCalculator.cpp:12-148", "parser/fanuc/PathCalculator.cpp:150-201", "parser/fanuc/AttributesPathCalculator.cpp"]}
{"id": "C142", "title": "A part k times as large takes k times as long", "statement": "If a program makes the motions of another for a part k times as large, at the same feed the cuts take k times as long, and with the feeds u and u' they take k*u/u' times as long; the time the machine stands still is not scaled.", "quantifier": "all factors k > 0, all feeds u, u' > 0, all programs of straight cuts and arcs, all machines other than lathes", "why_tests_cant": "The claim relates two arbitrary programs of any length; tests compare single programs with recorded times.", "anchors": ["parser/fanuc/PathCalculator.cpp:12-148", "parser/fanuc/PathCalculator.cpp:150-201", "parser/fanuc/AttributesPathCalculator.cpp"]}
{"id": "C143", "title": "An arc made by short straight moves takes about the same time", "statement": "At one feed, a program that makes an arc by straight moves between points on it at most an angle d apart takes not longer than the program with the arc, and shorter at most by d*d/24 of the time of the arc, besides the time the machine stands still.", "quantifier": "all arcs, feeds, numbers of points and ways of choosing them, all programs of straight cuts and arcs before and after, all machines other than lathes", "why_tests_cant": "The points may be any and any number; a test compares the times of a few subdivisions and does not show the bound.", "anchors": ["parser/fanuc/PathCalculator.cpp:12-148", "parser/fanuc/PathCalculator.cpp:150-201", "parser/fanuc/AttributesPathCalculator.cpp"]}
{"id": "C144", "title": "Turning a part or cutting its contour backwards does not change the time", "statement": "At one feed, a program that makes the motions of another one turned by any angle about any point of the table, or backwards in the opposite order, takes as long as the other one, besides the time the machine stands still.", "quantifier": "all angles, centres and feeds, all programs of straight cuts and arcs, all machines other than lathes", "why_tests_cant": "The claim relates two arbitrary programs of any length; tests compare single programs with recorded times.", "anchors": ["parser/fanuc/PathCalculator.cpp:12-148", "parser/fanuc/PathCalculator.cpp:150-201", "parser/fanuc/AttributesPathCalculator.cpp"]}
