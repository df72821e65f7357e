import Verif.Num

/-!
# Unit conversion (parser/fanuc/UnitConverter.cpp)

`double` is modelled by `ℚ`: `/ 25.4` and `* 25.4` are exact.  `std::stoi` and
`std::stod` may throw (`NumExc`); nothing in the visitor catches them.
-/

namespace NC.UnitConv
open NC

/-- `UnitConversionType` (parser/GeneralParserDefines.h). -/
inductive Dir where
  | metricToImperial | imperialToMetric
deriving DecidableEq, Repr

/-- Visitor flags (UnitConverter.cpp:160-162). -/
structure Flags where
  first : Bool := false
  ignoreRest : Bool := false
  g68 : Bool := false
deriving DecidableEq, Repr

/-- `cache_grammar` (UnitConverter.cpp:174-184): the convertible words of a
grammar. -/
def convWords (m : WordMap) : WordMap :=
  m.filter (fun p => decide (p.2.wtype = .length) || decide (p.2.wtype = .feed))

/-- `stoi` of a present value; the C++ conditions test `data.value` first. -/
def optStoi : Option Str → Out NumExc (Option Int)
  | none => .ok none
  | some v => do let n ← stoi v; pure (some n)

/-- The value text (UnitConverter.cpp:100-106). -/
def valueText (d : Dec) : Str :=
  d.value.getD [] ++ d.dot.toList ++ d.value2.getD []

/-- The conversion factor (UnitConverter.cpp:109-117). -/
def factor (dir : Dir) (q : ℚ) : ℚ :=
  match dir with
  | .metricToImperial => q / (254 / 10)
  | .imperialToMetric => q * (254 / 10)

/-- Printing precision (UnitConverter.cpp:119-125). -/
def precision (wg : WordGrammar) : Nat :=
  if 0 < wg.decTo then (natStr wg.decTo).length else 0

/-- `trim_right_if(is_any_of("."))`. -/
def rstripDot (s : Str) : Str := (s.reverse.dropWhile (· = '.')).reverse

/-- The trimmed number text (UnitConverter.cpp:127-132). -/
def numberText (p : Nat) (q : ℚ) : Str := rstripDot (rstrip0 (fixedStr p q))

/-- Storing the text into the word (UnitConverter.cpp:134-148). -/
def store (d : Dec) (t : Str) : Dec :=
  if '.' ∈ t then
    let rest := (t.dropWhile (· ≠ '.')).drop 1
    { d with value := some (t.takeWhile (· ≠ '.')), dot := some '.',
             value2 := if rest = [] then d.value2 else some rest }
  else { d with value := some t, dot := none, value2 := none }

/-- The part of the visitor after the special G codes
(UnitConverter.cpp:96-148). -/
def convertWord (cw : WordMap) (dir : Dir) (d : Dec) : Out NumExc Dec :=
  match cw.find d.word with
  | none => .ok d
  | some wg => do
    let q ← stod (valueText d)
    pure (store d (numberText (precision wg) (factor dir q)))

/-- The words protected after G68 (UnitConverter.cpp:164). -/
def g68Params : List Str := [c!"I", c!"J", c!"K", c!"R"]

/-- UnitConverter.cpp:87-148. -/
def afterG (cw : WordMap) (dir : Dir) (f : Flags) (d : Dec) : Out NumExc (Flags × Dec) :=
  if f.g68 ∧ d.word ∈ g68Params then .ok (f, d)
  else do let d' ← convertWord cw dir d; pure (f, d')

/-- The G68 test on the second number (UnitConverter.cpp:70-83). -/
def g68Case (cw : WordMap) (dir : Dir) (f : Flags) (d : Dec) : Option Int → Out NumExc (Flags × Dec)
  | none => .ok ({ f with g68 := true }, d)
  | some n2 =>
    if n2 = 2 ∨ n2 = 3 ∨ n2 = 4 then .ok ({ f with g68 := true }, d)
    else afterG cw dir f d

/-- UnitConverter.cpp:55-148 for the G code number, if any. -/
def gCase (cw : WordMap) (dir : Dir) (f : Flags) (d : Dec) : Option Int → Out NumExc (Flags × Dec)
  | none => afterG cw dir f d
  | some n =>
    if n = 20 ∧ dir = .imperialToMetric then .ok (f, { d with value := some c!"21" })
    else if n = 21 ∧ dir = .metricToImperial then .ok (f, { d with value := some c!"20" })
    else if n = 68 then do let n2 ← optStoi d.value2; g68Case cw dir f d n2
    else afterG cw dir f d

/-- `operator()(DecimalAttributeData&)` (UnitConverter.cpp:31-149). -/
def visitDec (cw : WordMap) (dir : Dir) (f : Flags) (d : Dec) : Out NumExc (Flags × Dec) :=
  if f.ignoreRest then .ok (f, d)
  else if !f.first && decide (d.word = c!"/") then .ok ({ f with ignoreRest := true }, d)
  else do
    let f1 : Flags := { f with first := true }
    let gv ← (if d.word = c!"G" then optStoi d.value else .ok none)
    if gv = some 4 then .ok ({ f1 with ignoreRest := true }, d)
    else if d.mac.isSome ∨ d.openB.isSome ∨ d.closeB.isSome then .ok (f1, d)
    else gCase cw dir f1 d gv

/-- The variant dispatch; other attributes are untouched
(UnitConverter.cpp:151-154). -/
def visit (cw : WordMap) (dir : Dir) (f : Flags) : Attr → Out NumExc (Flags × Attr)
  | .dec d => do let r ← visitDec cw dir f d; pure (r.1, .dec r.2)
  | a => .ok (f, a)

/-- The loop over the block (UnitConverter.cpp:190-191, 198-199). -/
def convertFrom (cw : WordMap) (dir : Dir) : Flags → Block → Out NumExc Block
  | _, [] => .ok []
  | f, a :: as => do
    let r ← visit cw dir f a
    let rest ← convertFrom cw dir r.1 as
    pure (r.2 :: rest)

/-- The grammar that decides what is converted and how many decimals are
printed: the one of the *target* unit (UnitConverter.cpp:186-200). -/
def targetGrammar (g : FanucGrammar) : Dir → WordMap
  | .metricToImperial => g.imperial
  | .imperialToMetric => g.metric

/-- `mm_to_inch` / `inch_to_mm` (UnitConverter.cpp:186-200). -/
def convert (g : FanucGrammar) (dir : Dir) (b : Block) : Out NumExc Block :=
  convertFrom (convWords (targetGrammar g dir)) dir {} b

end NC.UnitConv
