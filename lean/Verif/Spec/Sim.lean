import Verif.Base
import Mathlib.Algebra.Order.Field.Basic
import Mathlib.Data.Rat.Cast.Defs

/-!
# What a block of a program means

Independent of the calculator: the words of a block, the positions it leads to,
and what a range named about the values of an address.
-/

namespace NC.Spec.Sim
open NC

/-- The decimal words of a block, up to a `/`. -/
def words : Block → List Dec
  | [] => []
  | .dec d :: t => if d.word = c!"/" then [] else d :: words t
  | .str _ _ :: t => words t
  | .chr _ _ :: t => words t

/-- The number a value word is written with. -/
def number (d : Dec) : Option ℚ :=
  if d.value.isSome ∨ d.dot.isSome then
    match stod (d.sign.toList ++ d.value.getD [] ++ d.dot.toList ++ d.value2.getD []) with
    | .ok q => some q
    | _ => none
  else none

/-- The value of a word: a dwell `P` without decimal point is in milliseconds. -/
def value {K : Type} [Field K] (d : Dec) : Option K :=
  (number d).map (fun q : ℚ => if d.word = c!"P" ∧ d.dot = none then (q : K) / 1000 else (q : K))

/-- The value an address is given by a block: that of its last word. -/
def programmed {K : Type} [Field K] (b : Block) (a : Str) : Option K :=
  (((words b).filter (fun d => d.word = a)).filterMap value).getLast?

/-- The code of a G or M word. -/
def code (d : Dec) : Option Int :=
  match d.value with
  | none => none
  | some v =>
    match stoi v with
    | .ok n => some n
    | _ => none

/-- G90 or G91. -/
def modeWord (d : Dec) : Option Bool :=
  if d.word = c!"G" ∧ code d = some 90 then some false
  else if d.word = c!"G" ∧ code d = some 91 then some true
  else none

/-- Incremental programming: the last of G90 and G91, or as before. -/
def incremental (b : Block) (old : Bool) : Bool := ((words b).filterMap modeWord).getLast?.getD old

/-- A word of a block that just moves: no T or M word, and G codes of motions, planes, G90 and G91 only. -/
def PlainWord (d : Dec) : Prop :=
  d.word ≠ c!"T" ∧ d.word ≠ c!"M" ∧
    (d.word = c!"G" → ∃ n ∈ ([0, 1, 2, 3, 17, 18, 19, 90, 91] : List Int), code d = some n)

/-- A block that just moves. -/
def Plain (b : Block) : Prop := ∀ d ∈ words b, PlainWord d

/-- The G codes of a block are those of `Plain` and the return to the base point. -/
def PlainCodes (b : Block) : Prop := ∀ d ∈ words b, d.word = c!"G" →
  (∃ n ∈ ([0, 1, 2, 3, 17, 18, 19, 90, 91] : List Int), code d = some n) ∨ (d.value = some c!"28" ∧ d.dot = none)

/-- The block exchanges the tool. -/
def Exchange (b : Block) : Prop :=
  ∃ d ∈ words b, d.word = c!"M" ∧ code d = some 6 ∧ d.dot = none ∧ d.value2 = none

/-- The block returns to the base point. -/
def Home (b : Block) : Prop := ∃ d ∈ words b, d.word = c!"G" ∧ d.value = some c!"28" ∧ d.dot = none

/-- The position of every address. -/
abbrev Pos (K : Type) := Str → Option K

/-- The position after a block: G90 words are coordinates, with G91 those of the
linear axes are distances. -/
def moved {K : Type} [Field K] (incr : Bool) (words pos : Pos K) : Pos K := fun a =>
  match words a with
  | none => pos a
  | some x => if incr ∧ (a = c!"X" ∨ a = c!"Y" ∨ a = c!"Z") then some ((pos a).getD 0 + x) else some x

/-- `lo`, `cur`, `hi` are the least, last and greatest of the values of an address. -/
structure Brackets {K : Type} [LinearOrder K] (h : List K) (lo cur hi : K) : Prop where
  last : h.getLast? = some cur
  lo_mem : lo ∈ h
  hi_mem : hi ∈ h
  between : ∀ x ∈ h, lo ≤ x ∧ x ≤ hi

/-! ## Motions and planes -/

/-- The motion a G word selects: rapid, straight, clockwise or counter-clockwise. -/
def motionWord (d : Dec) : Option Int :=
  if d.word = c!"G" ∧ (code d = some 0 ∨ code d = some 1 ∨ code d = some 2 ∨ code d = some 3) then code d else none

/-- The motion of a block: the last one it names, or as before. -/
def motionCode (b : Block) (old : Int) : Int := ((words b).filterMap motionWord).getLast?.getD old

/-- The plane a G word selects. -/
def planeWord (d : Dec) : Option Int :=
  if d.word = c!"G" ∧ (code d = some 17 ∨ code d = some 18 ∨ code d = some 19) then code d else none

/-- The plane of a block: the last one it names, or as before. -/
def planeCode (b : Block) (old : Int) : Int := ((words b).filterMap planeWord).getLast?.getD old

/-- The axes of a plane, the axis across it, and the addresses of the centre. -/
structure PlaneAxes where
  u : Str
  v : Str
  across : Str
  cu : Str
  cv : Str

/-- G17 is XY, G18 is XZ, G19 is YZ. -/
def planeAxes (n : Int) : PlaneAxes :=
  if n = 18 then ⟨c!"X", c!"Z", c!"Y", c!"I", c!"K"⟩
  else if n = 19 then ⟨c!"Y", c!"Z", c!"X", c!"J", c!"K"⟩
  else ⟨c!"X", c!"Y", c!"Z", c!"I", c!"J"⟩

/-- The modal group of a G code. -/
def modalGroup (n : Int) : Option Nat :=
  if n ∈ ([0, 1, 2, 3, 73, 74, 76, 80, 81, 82, 83, 84, 85, 86, 87, 88, 89] : List Int) then some 1
  else if n ∈ ([17, 18, 19] : List Int) then some 2
  else if n ∈ ([90, 91] : List Int) then some 3
  else if n ∈ ([94, 95] : List Int) then some 5
  else if n ∈ ([98, 99] : List Int) then some 10
  else if n ∈ ([96, 97] : List Int) then some 13
  else none

/-- What a word sets: the modal group of a G code, or its address; M codes just add up. -/
def sets : Attr → Option (Str × Nat)
  | .dec d =>
    if d.word = c!"G" then
      match code d with
      | some n => (modalGroup n).map (fun g => (c!"G", g))
      | none => none
    else if d.word = c!"M" then none
    else some (d.word, 0)
  | _ => none

/-- No two words of a block set the same. -/
def Unambiguous (b : Block) : Prop := b.Pairwise (fun a a' => sets a = none ∨ sets a' = none ∨ sets a ≠ sets a')

/-! ## Times without motion -/

/-- The times of a machine and the codes that take them. -/
structure Times (K : Type) where
  exchange : K
  measure : K
  pallet : K
  /-- Tools are measured at each exchange. -/
  auto : Bool
  /-- T exchanges the tool, not M6. -/
  byTool : Bool
  measureCode : Str × Str
  palletCode : Str × Str

/-- M6. -/
def isM6 (d : Dec) : Bool :=
  decide (d.word = c!"M") && decide (code d = some 6) && decide (d.dot = none) && decide (d.value2 = none)

/-- A T word. -/
def isTool (d : Dec) : Bool :=
  decide (d.word = c!"T") && d.value.isSome && decide (d.dot = none) && decide (d.value2 = none)

/-- G4. -/
def isDwell (d : Dec) : Bool :=
  decide (d.word = c!"G") && (decide (d.value = some c!"4") || decide (d.value = some c!"04")) &&
    (decide (d.dot = none) || decide (d.value2 = none))

/-- The code is an M word of the block or a word without number. -/
def named (b : Block) (k : Str × Str) : Bool :=
  (decide (k.1 = c!"M") && (words b).any (fun d =>
    decide (d.word = c!"M") && decide (d.value = some k.2) && decide (d.dot = none) && decide (d.value2 = none))) ||
  b.any (fun a => decide (a = .str k.1 k.2))

/-- The block exchanges the tool. -/
def exchanges {K : Type} (m : Times K) (b : Block) : Bool :=
  if m.byTool then (words b).any isTool else (words b).any isM6

/-- The seconds of a dwell. -/
def dwellTime {K : Type} [Field K] (b : Block) : K :=
  if (words b).any isDwell then
    (programmed b c!"X").getD 0 + (programmed b c!"U").getD 0 + (programmed b c!"P").getD 0
  else 0

/-- The time of tool and pallet exchange and of measuring. -/
def machineTime {K : Type} [Field K] (m : Times K) (b : Block) : K :=
  (if exchanges m b then m.exchange + (if m.auto then m.measure else 0) else 0) +
  (if !m.auto && named b m.measureCode then m.measure else 0) +
  (if named b m.palletCode then m.pallet else 0)

/-! ## The tool in use -/

/-- The T word by which a block exchanges the tool: with M6 the first one (the next may already select the tool
after it), on a machine that exchanges by T alone the last one. -/
def chosen (byTool : Bool) (b : Block) : Option Dec :=
  if (words b).any isM6 then ((words b).filter isTool).head?
  else if byTool then ((words b).filter isTool).getLast?
  else none

/-- The tool a T word names: on a lathe the first half of the digits, the others are the offset. -/
inductive Names (lathe : Bool) : Str → Str → Prop
  | whole (v : Str) : lathe = false ∨ v.length ≤ 2 → Names lathe v v
  | half (a b : Str) : lathe = true → 2 < a.length + b.length → b.length = a.length ∨ b.length = a.length + 1 →
      Names lathe (a ++ b) a

end NC.Spec.Sim
