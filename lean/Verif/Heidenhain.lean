import Verif.Grammar
import Verif.Wrapper

/-!
# The Heidenhain line parser (parser/heidenhain)

A position in the text is the text that remains.  The grammars of the words have
no skipper: blanks are dropped in front of a word and, where the grammar says so,
inside it.  `>` binds weaker than `>>`; after its first operand a failure of an
operand throws `expectation_failure` with the position of the operand.

Simplifications: a character is a byte; a text has no line break, so that
`get_line` is 1; `uint_` and `int_` fail when the number does not fit (that is
what Spirit does); allocation does not fail.
-/

namespace NC.Hei
open NC NC.Gram

/-! ## The words -/

/-- `EBeginEnd` (AllAttributesParserDefines.h:18-22). -/
inductive BeginEnd where
  | start | finish
deriving DecidableEq, Repr

/-- `EUnit` (AllAttributesParserDefines.h:27-31). -/
inductive Measure where
  | mm | inch
deriving DecidableEq, Repr

/-- `ProgramBeginEndData` (AllAttributesParserDefines.h:36-41). -/
structure Program where
  beginEnd : BeginEnd
  name : Str
  measure : Measure
deriving DecidableEq, Repr

/-- `CommentData` (AllAttributesParserDefines.h:43-48); `semicolon` is always `;`, `tilde`
is `~` or the character 0, here `true` or `false`. -/
structure Comment where
  text : Str
  tilde : Bool
deriving DecidableEq, Repr

/-- `CycleDef` (AllAttributesParserDefines.h:55-62); `word1` is always `CYCL`. -/
structure Cycle where
  word : Str
  value : Option Str
  dot : Option Char
  value2 : Option Str
deriving DecidableEq, Repr

/-- `CycleParam` (AllAttributesParserDefines.h:64-73); `name` is always `Q`, `assign` always `=`;
`id` is a `uint32_t`. -/
structure Param where
  id : Nat
  sign : Option Char
  value : Str
  dot : Option Char
  value2 : Option Str
deriving DecidableEq, Repr

/-- `GeneralAttributeData` (AllAttributesParserDefines.h:75-84). -/
structure General where
  word : Str
  sign : Option Char
  name : Option Char
  value : Option Str
  dot : Option Char
  value2 : Option Str
  tilde : Option Char
deriving DecidableEq, Repr

/-- `AttributeVariant` (AllAttributesParserDefines.h:93-94); `number` is `LineNumberData` (50-53). -/
inductive Item where
  | number (n : Nat)
  | comment (c : Comment)
  | program (p : Program)
  | general (g : General)
  | cycle (c : Cycle)
  | param (p : Param)
deriving DecidableEq, Repr

/-- `to_string(EBeginEnd)` (AllAttributesParserDefines.cpp:13-25). -/
def beginEndText : BeginEnd → Str
  | .start => c!"begin"
  | .finish => c!"end"

/-- `to_EBeginEnd` (AllAttributesParserDefines.cpp:27-35); `none`: `std::invalid_argument`. -/
def toBeginEnd (s : Str) : Option BeginEnd :=
  if s = c!"begin" then some .start else if s = c!"end" then some .finish else none

/-- `to_string(EUnit)` (AllAttributesParserDefines.cpp:40-52). -/
def measureText : Measure → Str
  | .mm => c!"mm"
  | .inch => c!"inch"

/-- `to_EUnit` (AllAttributesParserDefines.cpp:54-62); `none`: `std::invalid_argument`. -/
def toMeasure (s : Str) : Option Measure :=
  if s = c!"mm" then some .mm else if s = c!"inch" then some .inch else none

/-! ## Terminals -/

/-- What a rule does: it matches, it does not, or it throws at a position. -/
inductive Res (α : Type) where
  | got (a : α) (rest : Str)
  | fail
  | stop (at_ : Str)
deriving DecidableEq, Repr

/-- An operand of `>` which is not the first. -/
def expect {α β : Type} (at_ : Str) (o : Option α) (k : α → Res β) : Res β :=
  match o with
  | none => .stop at_
  | some a => k a

/-- `+qi::blank`. -/
def blanks1 : Str → Option Str
  | [] => none
  | c :: t => if isBlank c then some (skip t) else none

/-- `qi::lit` and `qi::string`. -/
def lit (w s : Str) : Option Str := if w.isPrefixOf s then some (s.drop w.length) else none

/-- `qi::uint_`. -/
def uint (s : Str) : Option (Nat × Str) :=
  match optRun isDig s with
  | (some d, r) => if readNat d < 2 ^ 32 then some (readNat d, r) else none
  | (none, _) => none

/-- The digits of `qi::int_`, the number not above `top`. -/
def intDigits (top : Nat) (s : Str) : Option (Nat × Str) :=
  match optRun isDig s with
  | (some d, r) => if readNat d ≤ top then some (readNat d, r) else none
  | (none, _) => none

/-- `qi::int_`, converted to `uint32_t`. -/
def int32 (s : Str) : Option (Nat × Str) :=
  match s with
  | '-' :: t =>
    match intDigits (2 ^ 31) t with
    | some (n, r) => some ((2 ^ 32 - n) % 2 ^ 32, r)
    | none => none
  | '+' :: t => intDigits (2 ^ 31 - 1) t
  | _ => intDigits (2 ^ 31 - 1) s

/-- `-qi::char_("-+")` without skipper. -/
def sign (s : Str) : Option Char × Str :=
  match s with
  | '-' :: r => (some '-', r)
  | '+' :: r => (some '+', r)
  | r => (none, r)

/-- `-qi::char_(c)` without skipper. -/
def optChar (c : Char) (s : Str) : Option Char × Str :=
  match s with
  | [] => (none, [])
  | d :: r => if d = c then (some c, r) else (none, d :: r)

/-- `qi::space`. -/
def isSpace (c : Char) : Bool :=
  c = ' ' || c = '\t' || c = '\n' || c = '\r' || c = '\x0b' || c = '\x0c'

/-- `+qi::space | qi::eoi`. -/
def spaces : Str → Option Str
  | [] => some []
  | c :: t => if isSpace c then some (t.dropWhile isSpace) else none

/-- `!qi::char_("a-zA-Z0-9_")`. -/
def notName : Str → Option Unit
  | [] => some ()
  | c :: _ => if inName c then none else some ()

/-! ## The rules -/

/-- `begin_end` (AllAttributesParserGrammar.h:101). -/
def beginEnd (s : Str) : Option (BeginEnd × Str) :=
  match lit c!"BEGIN" s with
  | some r => some (.start, r)
  | none =>
    match lit c!"END" s with
    | some r => some (.finish, r)
    | none => none

/-- `unit` (AllAttributesParserGrammar.h:103). -/
def measure (s : Str) : Option (Measure × Str) :=
  match lit c!"MM" s with
  | some r => some (.mm, r)
  | none =>
    match lit c!"INCH" s with
    | some r => some (.inch, r)
    | none => none

/-- `start_program` behind `BEGIN` or `END` (AllAttributesParserGrammar.h:105-107). -/
def programRest (b : BeginEnd) (r0 : Str) : Res Program :=
  expect r0 (blanks1 r0) fun r1 =>
  expect r1 (lit c!"PGM" r1) fun r2 =>
  expect r2 (blanks1 r2) fun r3 =>
  expect (r3.dropWhile inName) (blanks1 (r3.dropWhile inName)) fun r5 =>
  expect r5 (measure r5) fun u =>
  expect u.2 (spaces u.2) fun r7 =>
  expect r7 (notName r7) fun _ => .got ⟨b, r3.takeWhile inName, u.1⟩ r7

/-- `start_program` (AllAttributesParserGrammar.h:105-107). -/
def startProgram (s : Str) : Res Program :=
  match beginEnd s with
  | none => .fail
  | some (b, r) => programRest b r

/-- `comment` (AllAttributesParserGrammar.h:147): `>>` binds stronger than `>`. -/
def comment : Str → Res Comment
  | ';' :: t =>
    match t.dropWhile (fun c => c ≠ '~') with
    | [] => .got ⟨t, false⟩ []
    | ['~'] => .got ⟨t.takeWhile (fun c => c ≠ '~'), true⟩ []
    | r => .stop r
  | _ => .fail

/-- `line_number` (AllAttributesParserGrammar.h:162). -/
def lineNumber (s : Str) : Res Nat :=
  match uint s with
  | none => .fail
  | some (n, r) =>
    match r with
    | c :: t => if isBlank c then .got n t else .stop r
    | [] => .stop []

/-- `DEF` or `CALL` (AllAttributesParserGrammar.h:179). -/
def defCall (s : Str) : Option (Str × Str) :=
  match lit c!"DEF" s with
  | some r => some (c!"DEF", r)
  | none =>
    match lit c!"CALL" s with
    | some r => some (c!"CALL", r)
    | none => none

/-- `cycle_def` (AllAttributesParserGrammar.h:179-181). -/
def cycleDef (s : Str) : Res Cycle :=
  match lit c!"CYCL" s with
  | none => .fail
  | some r0 =>
    expect r0 (blanks1 r0) fun r1 =>
    expect r1 (defCall r1) fun w =>
    let v := optRun isDig (skip w.2)
    let d := optChar '.' v.2
    let v2 := optRun isDig d.2
    .got ⟨w.1, v.1, d.1, v2.1⟩ v2.2

/-- `cycle_param` behind the `=` (AllAttributesParserGrammar.h:200-201). -/
def paramValue (id : Nat) (s : Str) : Res Param :=
  let g := sign (skip s)
  let v := optRun isDig g.2
  let d := optChar '.' v.2
  let v2 := optRun isDig d.2
  .got ⟨id, g.1, v.1.getD [], d.1, v2.1⟩ v2.2

/-- `cycle_param` (AllAttributesParserGrammar.h:200-201). -/
def cycleParam : Str → Res Param
  | 'Q' :: r0 =>
    expect r0 (int32 r0) fun n =>
    expect (skip n.2) (lit c!"=" (skip n.2)) fun r => paramValue n.1 r
  | _ => .fail

/-- `allowed_operations` (AllAttributesParser.h:138-141). -/
def operations : List Str :=
  [c!"K1X", c!"K1Y", c!"K1Z", c!"K2X", c!"K2Y", c!"K2Z", c!"K3X", c!"K3Y", c!"K3Z",
   c!"P01", c!"P02", c!"P03", c!"P04", c!"P05", c!"P06", c!"P07", c!"P1X", c!"P1Y"]

/-- `qi::char_("a-zA-Z.:/")`. -/
def inWord (c : Char) : Bool := isAlpha c || c = '.' || c = ':' || c = '/'

/-- `qi::char_("a-zA-Z0-9")`. -/
def inQuotes (c : Char) : Bool := isAlpha c || isDig c

/-- `attr_value_quoted_string` (AllAttributesParserGrammar.h:126). -/
def quoted : Str → Res Str
  | '"' :: t =>
    match optRun inQuotes t with
    | (none, _) => .stop t
    | (some w, '"' :: r) => .got ('"' :: w ++ ['"']) r
    | (some _, r) => .stop r
  | _ => .fail

/-- The first operand of `general_attribute` (AllAttributesParserGrammar.h:127-128). -/
def word (s : Str) : Res Str :=
  match symbol operations s with
  | some (w, r) => .got w r
  | none =>
    match optRun inWord s with
    | (some w, r) => .got w r
    | (none, _) =>
      match s with
      | '#' :: r => .got c!"#" r
      | '=' :: r => .got c!"=" r
      | _ => quoted s

/-- `general_attribute` behind the word (AllAttributesParserGrammar.h:128-129). -/
def generalRest (w : Str) (s : Str) : General × Str :=
  let g := sign (skip s)
  let q := optChar 'Q' g.2
  let v := optRun isDig q.2
  let d := optChar '.' v.2
  let v2 := optRun isDig d.2
  let t := optChar '~' v2.2
  (⟨w, g.1, q.1, v.1, d.1, v2.1, t.1⟩, t.2)

/-- `general_attribute` (AllAttributesParserGrammar.h:127-129). -/
def general (s : Str) : Res General :=
  match word s with
  | .got w r => .got (generalRest w r).1 (generalRest w r).2
  | .fail => .fail
  | .stop at_ => .stop at_

/-- An alternative of `line_attribute`: the next one is tried only if this one does not match. -/
def orElse {α : Type} (r : Res α) (f : α → Item) (next : Res Item) : Res Item :=
  match r with
  | .got a t => .got (f a) t
  | .stop at_ => .stop at_
  | .fail => next

/-- `line_attribute` (AllAttributesParserGrammar.h:224-225). -/
def item (s : Str) : Res Item :=
  orElse (cycleDef (skip s)) .cycle <|
  orElse (cycleParam (skip s)) .param <|
  orElse (comment (skip s)) .comment <|
  orElse (startProgram (skip s)) .program <|
  orElse (general (skip s)) .general .fail

/-- `*line_attribute`: the words, and where it ended (`true`: an exception).  A word takes at
least one character, so the length of the text is enough fuel. -/
def items : Nat → Str → List Item × Bool × Str
  | 0, s => ([], false, s)
  | n + 1, s =>
    match item s with
    | .got a r => (a :: (items n r).1, (items n r).2)
    | .fail => ([], false, s)
    | .stop at_ => ([], true, at_)

/-- What `phrase_parse` does: the words in the vector, and the position if it throws. -/
inductive Parsed where
  | accept (b : List Item)
  | refuse (b : List Item) (at_ : Str)
deriving DecidableEq, Repr

/-- `+line_attribute > qi::eoi` (AllAttributesParserGrammar.h:226). -/
def rest (b : List Item) (s : Str) : Parsed :=
  match items s.length s with
  | (ws, true, at_) => .refuse (b ++ ws) at_
  | ([], false, _) => .refuse b s
  | (ws, false, r) => if skip r = [] then .accept (b ++ ws) else .refuse (b ++ ws) (skip r)

/-- `line_attribute_vec` (AllAttributesParserGrammar.h:226).  The first operand of `>` is
optional: the rule cannot fail without throwing. -/
def phrase (s : Str) : Parsed :=
  match lineNumber (skip s) with
  | .got n r => rest [.number n] r
  | .fail => rest [] (skip s)
  | .stop at_ => .refuse [] at_

/-! ## The parser -/

/-- The grammar object: `message` and `was_cycle_def` (AllAttributesParserGrammar.h:249-250). -/
structure Grammar where
  message : Str := []
  wasCycleDef : Bool := false
deriving DecidableEq, Repr

/-- The words of a result. -/
def Parsed.words : Parsed → List Item
  | .accept b => b
  | .refuse b _ => b

/-- A cycle definition. -/
def Item.isCycle : Item → Bool
  | .cycle _ => true
  | _ => false

/-- What a call of `parse` leaves: the words, the return value, the message (`none`: the
caller's message is left alone). -/
structure Answer where
  words : List Item
  ok : Bool
  message : Option Str
deriving DecidableEq, Repr

/-- `parse` on a grammar object (AllAttributesParser.cpp:90-120; `simple_parse`, 128-159, is the same). -/
def parseWith (G : Grammar) (s : Str) : Grammar × Answer :=
  let G1 : Grammar := { G with message := [] }
  let p := phrase s
  let G2 : Grammar := { G1 with wasCycleDef := G1.wasCycleDef || p.words.any Item.isCycle }
  match p with
  | .accept b => (G2, ⟨b, true, none⟩)
  | .refuse b at_ => (G2, ⟨b, false, some (expectText s at_ G2.message)⟩)

/-- `AllAttributesParser`: the grammar may be missing (AllAttributesParser.h:146). -/
structure Parser where
  grammar : Option Grammar
deriving DecidableEq, Repr

/-- The constructor (AllAttributesParser.cpp:25-36). -/
def create (instantiateWithoutNCSettings : Bool) : Parser :=
  ⟨if instantiateWithoutNCSettings then some {} else none⟩

/-- `set_ncsettings` (AllAttributesParser.cpp:43-73), as far as it has an effect. -/
def setNCSettings (_ : Parser) : Parser := ⟨some {}⟩

/-- `parse` (AllAttributesParser.cpp:90-120): the grammar is used without a look at the pointer. -/
def parse (p : Parser) (s : Str) : Out Empty (Parser × Answer) :=
  match p.grammar with
  | none => .ub
  | some G => .ok (⟨some (parseWith G s).1⟩, (parseWith G s).2)

/-! ## The C interface -/

/-- What a caller does with the parser through the wrapper, as far as it can change something. -/
inductive Use where
  /-- `ParseValue`, `Parse` -/
  | parse (s : Str)
  /-- `SetNCSettings` -/
  | settings
  /-- `ConvertLength`, `RemoveNumbering`, `Renumber`, `RotateAxes`, `RemoveComment`,
  `RemoveOptionalBlock`: `return false` (AllAttributesParser.h:74-120) -/
  | transform
deriving DecidableEq, Repr

/-- One call. -/
def use (p : Parser) : Use → Out Empty Parser
  | .parse s =>
    match parse p s with
    | .ok r => .ok r.1
    | .throw e => .throw e
    | .ub => .ub
  | .settings => .ok (setNCSettings p)
  | .transform => .ok p

/-- A history of calls. -/
def useAll (p : Parser) : List Use → Out Empty Parser
  | [] => .ok p
  | u :: us =>
    match use p u with
    | .ok q => useAll q us
    | .throw e => .throw e
    | .ub => .ub

/-- The variables of the caller that a call may write. -/
structure Vars where
  heap : Wrap.Heap
  value : Wrap.Ptr
  length : Nat
  message : Wrap.Ptr

/-- `fill_parsed_values` (AllAttributesParserWrapper.cpp:113-118): the body of
`fill_WordValueWrapper` (102-111) is commented out, `fill_message` (92-100) is that of the other parser. -/
def fill (v : Vars) (_ : List Item) (msg : Str) : Vars :=
  { v with heap := (Wrap.fillMessage v.heap msg v.message).1, message := (Wrap.fillMessage v.heap msg v.message).2 }

/-- `ParseValue` (AllAttributesParserWrapper.cpp:125-134). -/
def parseValue (p : Parser) (s : Str) (v : Vars) : Out Empty (Parser × Bool × Vars) :=
  match parse p s with
  | .ok (q, a) => .ok (q, a.ok, fill v a.words (a.message.getD []))
  | .throw e => .throw e
  | .ub => .ub

/-- The transformations (AllAttributesParserWrapper.cpp:241-285, 425-447): neither words nor a message. -/
def transform (v : Vars) : Bool × Vars := (false, fill v [] [])

/-- `GetPathValues` (AllAttributesParserWrapper.cpp:211-215): `get_path_result` throws the
`int` 0 (AllAttributesParser.h:63-66) after the first `new`. -/
def getPathValues : Out Int Unit := .throw 0

/-- `GetMacroValues`, `GetLineMacroValues` (AllAttributesParserWrapper.cpp:136-138, 158-160): the length. -/
def getMacroValues : Nat := 0

end NC.Hei
