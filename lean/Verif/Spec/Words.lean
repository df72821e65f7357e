import Verif.Base

/-! # Specification vocabulary: words of a line and their declared ranges -/

namespace NC.Spec.Words
open NC

/-- A run of digits, at least one. -/
def Digits (s : Str) : Prop := s ≠ [] ∧ ∀ c ∈ s, isDig c = true

/-- The number in front of the dot, with its sign. -/
def number (d : Dec) (v : Str) : Int := if d.sign = some '-' then -(readNat v : Int) else (readNat v : Int)

/-- The digits after the dot are digits within the declared range. -/
def FractionOk (wg : WordGrammar) (d : Dec) (f : Str) : Prop :=
  Digits f ∧ d.dot = some '.' ∧ wg.decFrom ≤ readNat f ∧ readNat f ≤ wg.decTo

/-- A number as its address declares it. -/
structure Within (wg : WordGrammar) (d : Dec) (v : Str) : Prop where
  digits : Digits v
  low : wg.rangeFrom ≤ number d v
  high : number d v ≤ wg.rangeTo
  whole : wg.decTo = 0 → d.dot = none ∧ d.value2 = none
  fraction : ∀ f, d.value2 = some f → FractionOk wg d f

/-- The addresses which are operators. -/
def operators : List Str := [c!"+", c!"-", c!"*", c!"/"]

/-- A word with a number or a macro number and without brackets, at an address
that is no operator; or a comment, a program name, or `%`. -/
def Plain : Attr → Prop
  | .dec d => d.value ≠ none ∧ d.openB = none ∧ d.closeB = none ∧ d.word ∉ operators
  | .str _ _ => True
  | .chr _ _ => True

end NC.Spec.Words
