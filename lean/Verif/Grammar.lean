import Verif.Message

/-!
# The line grammar (parser/fanuc/AllAttributesParserGrammar.h and .cpp)

A position in the text is the text that remains.  `qi::blank` is the skipper:
blanks and tabs are dropped before every terminal, before `lexeme` and before a
rule declared without a skipper (the digits, the brackets, comment and program
name), but not inside those and not inside `no_skip`.  `>` after its first
operand throws `expectation_failure` instead of failing.

`verify_range` works on the member `st` of the grammar object.  Nothing ever
resets it, so it is part of the state that goes from line to line; it also keeps
the changes made by alternatives which failed later.
-/

namespace NC.Gram
open NC NC.Message

/-! ## verify_range -/

/-- `status` (AllAttributesParserGrammar.h:62-68), all zero at first (493). -/
structure Status where
  wasMacro : Bool := false
  wasEq : Bool := false
  opened : Int := 0
  closed : Int := 0
deriving DecidableEq, Repr

/-- `make_message` where the text is used at once (C41: there always is one). -/
def outText : Out Empty Str → Str
  | .ok s => s
  | _ => []

/-- What `verify_range` says: `true`, `false` after adding `m` to the message,
or an exception of `std::stoi`. -/
inductive Verdict where
  | pass
  | refuse (m : Str)
  | raise (e : NumExc)
deriving DecidableEq, Repr

/-- The words `+ - * /` (AllAttributesParserGrammar.h:187). -/
def isOp (w : Str) : Bool := w = c!"+" || w = c!"-" || w = c!"*" || w = c!"/"

/-- The opening brackets are counted (AllAttributesParserGrammar.h:104-105). -/
def addOpen (d : Dec) (s : Status) : Status :=
  match d.openB with
  | some b => { s with opened := s.opened + b.length }
  | none => s

/-- The flags (AllAttributesParserGrammar.h:112-115). -/
def noteMacro (d : Dec) (s : Status) : Status :=
  if d.word = c!"#" then { s with wasMacro := true }
  else if s.wasMacro && decide (d.word = c!"=") then { s with wasEq := true }
  else s

/-- The closing brackets are counted (AllAttributesParserGrammar.h:116-117). -/
def addClose (d : Dec) (s : Status) : Status :=
  match d.closeB with
  | some b => { s with closed := s.closed + b.length }
  | none => s

/-- The brackets of an operand are taken off again (AllAttributesParserGrammar.h:191-195). -/
def takeOff (d : Dec) (s : Status) : Status :=
  match d.closeB with
  | some b => { s with opened := s.opened - b.length, closed := s.closed - b.length }
  | none => s

/-- The message for a number that is not in its range (AllAttributesParserGrammar.h:86, 182). -/
def notInRange (l : Lang) (wg : WordGrammar) (n : Int) : Str :=
  outText (makeMessage .ValueNotInRange l [intStr n, intStr wg.rangeFrom, intStr wg.rangeTo, wg.word])

/-- `verify_range` of a number (AllAttributesParserGrammar.h:78-95). -/
def judgeInt (g : WordMap) (l : Lang) (w : Str) (n : Int) : Verdict :=
  match g.find w with
  | none => .pass
  | some wg => if n < wg.rangeFrom ∨ n > wg.rangeTo then .refuse (notInRange l wg n) else .pass

/-- A word whose value is a macro (AllAttributesParserGrammar.h:125-135,
AllAttributesParserGrammar.cpp:18-32); `what()` of the exceptions of `std::stoi` is `stoi`. -/
def judgeMacro (g : WordMap) (l : Lang) (m : Str) : Option Str → Verdict
  | none => .refuse (outText (makeMessage0 .ValueMissingForHash l))
  | some v =>
    match stoi v with
    | .ok n => judgeInt g l m n
    | _ => .refuse c!"stoi"

/-- Nothing but a digit may follow the `/` of an optional block
(AllAttributesParserGrammar.h:151-155, 161-165). -/
def judgeChars (l : Lang) (d : Dec) : Verdict :=
  if d.sign.isSome || d.dot.isSome || d.mac.isSome || d.value2.isSome then
    .refuse (outText (makeMessage0 .ForbiddenCharsInOptionalBlock l))
  else .pass

/-- An optional block (AllAttributesParserGrammar.h:141-170).  The value consists of
digits, so that it is not negative and `unsigned` changes nothing. -/
def judgeOptional (l : Lang) (d : Dec) : Verdict :=
  match d.value with
  | none => judgeChars l d
  | some v =>
    match stoi v with
    | .ok n =>
      if n < 1 ∨ n > 9 then .refuse (outText (makeMessage .ValueNotInRangeForOptionalBlock l [intStr n]))
      else judgeChars l d
    | .throw e => .raise e
    | .ub => .raise .invalidArgument

/-- A word without a value (AllAttributesParserGrammar.h:214-218, 225-229). -/
def judgeMissing (l : Lang) (wg : WordGrammar) (s : Status) (d : Dec) : Verdict :=
  if s.opened ≠ 0 ∨ d.word = c!"=" ∨ isOp d.word = true then .pass
  else .refuse (outText (makeMessage .ValueMissing l [wg.word]))

/-- The digits after the dot (AllAttributesParserGrammar.h:240-256). -/
def judgeDecimals (l : Lang) (wg : WordGrammar) (d : Dec) (v2 : Str) : Verdict :=
  if d.dot ≠ some '.' then .refuse (outText (makeMessage .DecimalSeparatorMissing l [wg.word]))
  else
    match stoi v2 with
    | .ok n =>
      if n < wg.decFrom ∨ n > wg.decTo then
        .refuse (outText (makeMessage .ValueAfterDecimalSeparatorNotInRange l
          [v2, natStr wg.decFrom, natStr wg.decTo, wg.word]))
      else .pass
    | .throw e => .raise e
    | .ub => .raise .invalidArgument

/-- A word with a value in range and not between brackets (AllAttributesParserGrammar.h:203-256). -/
def judgeFraction (l : Lang) (wg : WordGrammar) (d : Dec) : Verdict :=
  if wg.decTo = 0 then
    if d.dot.isSome then .refuse (outText (makeMessage .ExpectedInteger l [wg.word])) else .pass
  else
    match d.value2 with
    | none => .pass
    | some v2 => judgeDecimals l wg d v2

/-- A word without digits in front of the dot (AllAttributesParserGrammar.h:212-256). -/
def judgeNoValue (l : Lang) (wg : WordGrammar) (s : Status) (d : Dec) : Verdict :=
  if wg.decTo = 0 then judgeMissing l wg s d
  else
    match d.value2 with
    | none => judgeMissing l wg s d
    | some v2 => judgeDecimals l wg d v2

/-- The number with its sign (AllAttributesParserGrammar.h:177-179). -/
def signed (d : Dec) (n : Int) : Int := if d.sign = some '-' then -n else n

/-- A word with a value (AllAttributesParserGrammar.h:175-256). -/
def judgeValue (l : Lang) (wg : WordGrammar) (s : Status) (d : Dec) (v : Str) : Status × Verdict :=
  match stoi v with
  | .throw e => (s, .raise e)
  | .ub => (s, .raise .invalidArgument)
  | .ok n =>
    if signed d n < wg.rangeFrom ∨ signed d n > wg.rangeTo then (s, .refuse (notInRange l wg (signed d n)))
    else if isOp d.word = true ∧ s.opened > 0 then (takeOff d s, .pass)
    else if isOp d.word = true ∧ ¬ (s.wasMacro = true ∧ s.wasEq = true) then (s, .refuse [])
    else (s, judgeFraction l wg d)

/-- The part for words without macro (AllAttributesParserGrammar.h:137-256). -/
def judgePlain (l : Lang) (wg : WordGrammar) (s : Status) (d : Dec) : Status × Verdict :=
  if d.word = c!"/" ∧ s.wasMacro = false then (s, judgeOptional l d)
  else
    match d.value with
    | some v => judgeValue l wg s d v
    | none => (s, judgeNoValue l wg s d)

/-- The part for words of the grammar (AllAttributesParserGrammar.h:119-256). -/
def judge (g : WordMap) (l : Lang) (wg : WordGrammar) (s : Status) (d : Dec) : Status × Verdict :=
  if d.closeB.isSome ∧ s.opened - s.closed < 0 then (s, .refuse (outText (makeMessage0 .NonMatchingCloseBracket l)))
  else
    match d.mac with
    | some m => (s, judgeMacro g l m d.value)
    | none => judgePlain l wg s d

/-- `verify_range` (AllAttributesParserGrammar.h:100-257). -/
def verify (g : WordMap) (l : Lang) (d : Dec) (s : Status) : Status × Verdict :=
  match g.find d.word with
  | none => (addOpen d s, .pass)
  | some wg => judge g l wg (addClose d (noteMacro d (addOpen d s))) d

/-! ## Terminals -/

/-- `qi::blank`. -/
def isBlank (c : Char) : Bool := c = ' ' || c = '\t'

/-- The skipper. -/
def skip (s : Str) : Str := s.dropWhile isBlank

/-- The longer of two matches. -/
def longer (a : Option Str) (w : Str) : Option Str :=
  match a with
  | none => some w
  | some v => if v.length < w.length then some w else some v

/-- `qi::symbols`: the longest entry that begins the text; the empty entry is not stored. -/
def longest (syms : List Str) (s : Str) : Option Str :=
  (syms.filter (fun w => w ≠ [] && w.isPrefixOf s)).foldl longer none

/-- `symbols` without skipping: the entry and what follows. -/
def symbol (syms : List Str) (s : Str) : Option (Str × Str) :=
  match longest syms s with
  | some w => some (w, s.drop w.length)
  | none => none

/-- `-qi::char_("-+")`. -/
def optSign (s : Str) : Option Char × Str :=
  match skip s with
  | '-' :: r => (some '-', r)
  | '+' :: r => (some '+', r)
  | r => (none, r)

/-- `-rule` with `rule = +...`: the characters satisfying `p`, none if there is none. -/
def optRun (p : Char → Bool) (s : Str) : Option Str × Str :=
  match s.takeWhile p with
  | [] => (none, s)
  | c :: t => (some (c :: t), s.dropWhile p)

/-- `-qi::string("#")`. -/
def optHash (s : Str) : Option Str × Str :=
  match skip s with
  | '#' :: r => (some c!"#", r)
  | r => (none, r)

/-- `qi::no_skip[-qi::char_('.')]`. -/
def optDot (s : Str) : Option Char × Str :=
  match s with
  | '.' :: r => (some '.', r)
  | r => (none, r)

def isOpen (c : Char) : Bool := c = '['
def isClose (c : Char) : Bool := c = ']'

/-- From the macro sign on, common to the four rules
(AllAttributesParserGrammar.h:334-336, 373-374, 408-410, 447-448). -/
def value (word : Str) (assign : Option Char) (sign : Option Char) (openB : Option Str) (s : Str) : Dec × Str :=
  let m := optHash s
  let v := optRun isDig (skip m.2)
  let p := optDot v.2
  let v2 := optRun isDig p.2
  let c := optRun isClose (skip v2.2)
  (⟨word, assign, sign, openB, m.1, v.1, p.1, v2.1, c.1⟩, c.2)

/-- From the sign on, with opening brackets (AllAttributesParserGrammar.h:372-374, 408-410, 446-448). -/
def operand (word : Str) (assign : Option Char) (s : Str) : Dec × Str :=
  let g := optSign s
  let o := optRun isOpen (skip g.2)
  value word assign g.1 o.1 o.2

/-- From the sign on, without opening brackets (AllAttributesParserGrammar.h:333-336). -/
def operandClosed (word : Str) (s : Str) : Dec × Str :=
  let g := optSign s
  value word none g.1 none g.2

/-! ## The rules -/

/-- The symbol tables of the parser (AllAttributesParser.h:141-143). -/
structure Symbols where
  chars : List Str
  decs : List Str
  assigns : List Str
deriving Repr

/-- `skip_symbols` (AllAttributesParser.cpp:172). -/
def skipSymbols : List Str := [c!"%", c!"O", c!"/"]

/-- `build_symbols` (AllAttributesParser.cpp:165-196). -/
def buildSymbols (g : WordMap) (ops : List Str) : Symbols :=
  { chars := [c!","]
    decs := ((g.filter (fun p => !decide (p.2.wtype = .assignable))).map (·.1) ++ ops).filter
      (fun w => !skipSymbols.contains w)
    assigns := (g.filter (fun p => decide (p.2.wtype = .assignable))).map (·.1) }

/-- What a grammar object is made of (AllAttributesParserGrammar.h:452-464). -/
structure Gram where
  words : WordMap
  syms : Symbols
  lang : Lang
deriving Repr

/-- The grammar object of a parser: `words` is the table of the default units
(AllAttributesParser.cpp:160-161), `table` the metric one, which was active when
the parser was made (50, 165-196). -/
def built (words table : WordMap) (ops : List Str) (lang : Lang) : Gram := ⟨words, buildSymbols table ops, lang⟩

/-- The mutable part of a grammar object (AllAttributesParserGrammar.h:492-493). -/
structure PS where
  st : Status := {}
  msg : Str := []
deriving DecidableEq, Repr

/-- What a rule does: match, fail, throw `expectation_failure` at a position, or
let an exception of `std::stoi` pass. -/
inductive Res where
  | match_ (a : Attr) (rest : Str)
  | fail
  | expect (at_ : Str)
  | raise (e : NumExc)
deriving DecidableEq, Repr

/-- `rule[qi::_pass = verify_range_bind]` (AllAttributesParserGrammar.h:337, 375, 411, 449). -/
def checked (G : Gram) (ps : PS) (p : Dec × Str) : PS × Res :=
  let r := verify G.words G.lang p.1 ps.st
  match r.2 with
  | .pass => ({ ps with st := r.1 }, .match_ (.dec p.1) p.2)
  | .refuse m => (⟨r.1, ps.msg ++ m⟩, .fail)
  | .raise e => ({ ps with st := r.1 }, .raise e)

/-- `space_empty_attribute_grammar` under `no_skip` (AllAttributesParserGrammar.h:266, 466). -/
def charRule (G : Gram) (s : Str) : Res :=
  match symbol G.syms.chars s with
  | some (w, c :: r) => if isBlank c then .match_ (.chr w '\x00') (skip r) else .fail
  | _ => .fail

/-- `assignable_symbols >> '='` begins the text (AllAttributesParserGrammar.h:445). -/
def assignAhead (G : Gram) (s : Str) : Bool :=
  match symbol G.syms.assigns (skip s) with
  | some (_, r) =>
    match skip r with
    | '=' :: _ => true
    | _ => false
  | none => false

/-- `decimal_attribute_grammar` (AllAttributesParserGrammar.h:445-449). -/
def decimalRule (G : Gram) (ps : PS) (s : Str) : PS × Res :=
  if assignAhead G s then (ps, .fail)
  else
    match symbol G.syms.decs (skip s) with
    | some (w, r) => checked G ps (operand w none r)
    | none => (ps, .fail)

/-- Does `/` come next? -/
def slashNext (s : Str) : Bool :=
  match skip s with
  | '/' :: _ => true
  | _ => false

/-- `division_attribute_grammar` (AllAttributesParserGrammar.h:372-375). -/
def divisionRule (G : Gram) (ps : PS) (s : Str) : PS × Res :=
  match skip s with
  | '/' :: r => if slashNext r then (ps, .expect r) else checked G ps (operand c!"/" none r)
  | _ => (ps, .fail)

/-- `assignable_attribute_grammar` (AllAttributesParserGrammar.h:408-411). -/
def assignRule (G : Gram) (ps : PS) (s : Str) : PS × Res :=
  match symbol G.syms.assigns (skip s) with
  | some (w, r) =>
    match skip r with
    | '=' :: t => checked G ps (operand w (some '=') t)
    | t => (ps, .expect t)
  | none => (ps, .fail)

/-- `optional_block_grammar` (AllAttributesParserGrammar.h:333-337). -/
def optionalRule (G : Gram) (ps : PS) (s : Str) : PS × Res :=
  match skip s with
  | '/' :: r => if slashNext r then (ps, .expect r) else checked G ps (operandClosed c!"/" r)
  | _ => (ps, .fail)

/-- The characters of a comment. -/
def inComment (c : Char) : Bool := !decide (c = ')')

/-- `comment_attribute_grammar` (AllAttributesParserGrammar.h:298). -/
def commentRule (s : Str) : Res :=
  match skip s with
  | '(' :: r =>
    match r.dropWhile inComment with
    | _ :: t => .match_ (.str c!"(" (r.takeWhile inComment)) t
    | [] => .expect []
  | _ => .fail

/-- `start_program_grammar` (AllAttributesParserGrammar.h:282). -/
def startRule (s : Str) : Res :=
  match skip s with
  | '%' :: r => if skip r = [] then .match_ (.chr c!"%" '\x00') [] else .fail
  | _ => .fail

/-- `qi::alpha`. -/
def isAlpha (c : Char) : Bool := ('a' ≤ c && c ≤ 'z') || ('A' ≤ c && c ≤ 'Z')

/-- `qi::char_("a-zA-Z0-9_")`. -/
def inName (c : Char) : Bool := isAlpha c || isDig c || c = '_'

/-- `program_name_grammar` (AllAttributesParserGrammar.h:314): blanks and letters
after the name are dropped. -/
def nameRule (s : Str) : Res :=
  match skip s with
  | 'O' :: r =>
    match optRun inName r with
    | (some n, t) => .match_ (.str c!"O" n) ((skip t).dropWhile isAlpha)
    | (none, t) => .expect t
  | _ => .fail

/-- The next alternative is tried when one fails. -/
def orElse (r : PS × Res) (next : PS → PS × Res) : PS × Res :=
  match r.2 with
  | .fail => next r.1
  | _ => r

/-- `line_attribute` (AllAttributesParserGrammar.h:466-467). -/
def lineAttribute (G : Gram) (ps : PS) (s : Str) : PS × Res :=
  orElse (ps, charRule G s) fun ps =>
  orElse (decimalRule G ps s) fun ps =>
  orElse (divisionRule G ps s) fun ps =>
  orElse (assignRule G ps s) fun ps =>
  orElse (optionalRule G ps s) fun ps =>
  orElse (ps, commentRule s) fun ps =>
  orElse (ps, startRule s) fun ps =>
  (ps, nameRule s)

/-- What `phrase_parse` does: `true`, `false`, or an exception; with the words
that are in the caller's vector then. -/
inductive PRes where
  | accept (b : Block)
  | reject
  | expect (b : Block) (at_ : Str)
  | raise (b : Block) (e : NumExc)
deriving DecidableEq, Repr

/-- After the last word: `> qi::eoi` (AllAttributesParserGrammar.h:468). -/
def atEnd (b : Block) (s : Str) : PRes := if skip s = [] then .accept b else .expect b (skip s)

/-- Further words; every word takes at least one character, so that the length
of the text is enough for `fuel`. -/
def moreWords (G : Gram) : Nat → PS → Block → Str → PS × PRes
  | 0, ps, b, s => (ps, atEnd b s)
  | fuel + 1, ps, b, s =>
    match lineAttribute G ps s with
    | (ps', .match_ a r) => moreWords G fuel ps' (b ++ [a]) r
    | (ps', .fail) => (ps', atEnd b s)
    | (ps', .expect t) => (ps', .expect b t)
    | (ps', .raise e) => (ps', .raise b e)

/-- `line_attribute_vec = +line_attribute > qi::eoi` (AllAttributesParserGrammar.h:468). -/
def phrase (G : Gram) (ps : PS) (s : Str) : PS × PRes :=
  match lineAttribute G ps s with
  | (ps', .match_ a r) => moreWords G s.length ps' [a] r
  | (ps', .fail) => (ps', .reject)
  | (ps', .expect t) => (ps', .expect [] t)
  | (ps', .raise e) => (ps', .raise [] e)

/-! ## Positions in messages -/

/-- `get_column` of `support_line_pos_iterator.hpp`, with tabs every four
columns; the text has no line break. -/
def columnFrom (col : Nat) : Str → Nat
  | [] => col
  | c :: t => columnFrom (if c = '\t' then col + (4 - (col - 1) % 4) else col + 1) t

/-- The text in front of a position. -/
def before (s at_ : Str) : Str := s.take (s.length - at_.length)

/-- The message for an expectation failure (AllAttributesParser.cpp:280-287,
353-360).  `get_line` is 1 since the text has no line break. -/
def expectText (s at_ msg : Str) : Str :=
  c!"1:" ++ natStr (columnFrom 1 (before s at_)) ++ c!": " ++ at_ ++ (if msg = [] then [] else c!" <- " ++ msg)

/-- The result of a call: the words left in the vector, the return value and the
message (`none`: the caller's message is left alone), or an exception nobody catches. -/
inductive Call where
  | ret (b : Block) (ok : Bool) (msg : Option Str)
  | uncaught (e : NumExc)
deriving DecidableEq, Repr

/-- `simple_parse` (AllAttributesParser.cpp:339-369). -/
def simpleParse (G : Gram) (ps : PS) (s : Str) : PS × Call :=
  match phrase G { ps with msg := [] } s with
  | (ps', .accept b) => (ps', .ret b true none)
  | (ps', .reject) => (ps', .ret [] false none)
  | (ps', .expect b t) => (ps', .ret b false (some (expectText s t ps'.msg)))
  | (ps', .raise b .outOfRange) => (ps', .ret b false (some c!"stoi"))
  | (ps', .raise _ .invalidArgument) => (ps', .uncaught .invalidArgument)

end NC.Gram
