import Verif.Base

/-! # Specification vocabulary for unit conversion -/

namespace NC.Spec.UnitConv
open NC

/-- The first decimal word of a block. -/
def firstDec : Block → Option Dec
  | [] => none
  | .dec d :: _ => some d
  | _ :: as => firstDec as

/-- The number of a G code word. -/
def gCode (d : Dec) : Option Int :=
  if d.word = ['G'] then
    match d.value with
    | some v => match stoi v with
      | .ok n => some n
      | _ => none
    | none => none
  else none

/-- The words so far make the rest of the block non-convertible: an optional
block mark comes first, or a dwell G4 has been programmed. -/
def Skipped (b : Block) : Prop :=
  (∃ d, firstDec b = some d ∧ d.word = ['/']) ∨ ∃ d, Attr.dec d ∈ b ∧ gCode d = some 4

/-- No macro and no bracket in the word. -/
def Plain (d : Dec) : Prop := d.mac = none ∧ d.openB = none ∧ d.closeB = none

/-- A coordinate rotation word: G68, G68.2, G68.3, G68.4. -/
def IsG68 (d : Dec) : Prop :=
  Plain d ∧ gCode d = some 68 ∧
    (d.value2 = none ∨ ∃ v, d.value2 = some v ∧ (stoi v = .ok 2 ∨ stoi v = .ok 3 ∨ stoi v = .ok 4))

/-- A coordinate rotation has been programmed in the block. -/
def Rotating (b : Block) : Prop := ∃ d, Attr.dec d ∈ b ∧ IsG68 d

/-- The word has a dimension: a length or a feed, with its grammar. -/
def Dimensional (m : WordMap) (w : Str) (wg : WordGrammar) : Prop :=
  (w, wg) ∈ m ∧ (wg.wtype = .length ∨ wg.wtype = .feed)

/-- The word's digits denote the unsigned number `q`. -/
def Denotes (d : Dec) (q : ℚ) : Prop :=
  ∃ ip fp : Str, (∀ c ∈ ip, isDig c = true) ∧ (∀ c ∈ fp, isDig c = true) ∧
    ((d.value = none ∧ ip = []) ∨ d.value = some ip) ∧
    ((d.dot = none ∧ d.value2 = none ∧ fp = [] ∧ ip ≠ []) ∨
     (d.dot = some '.' ∧ ((d.value2 = none ∧ fp = []) ∨ d.value2 = some fp) ∧ (ip ≠ [] ∨ fp ≠ []))) ∧
    q = readNat ip + readNat fp / 10 ^ fp.length

end NC.Spec.UnitConv
