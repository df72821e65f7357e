import Verif.Spec.Modal

/-!
# Programs that differ in feeds and speeds
-/

namespace NC.Spec.Rates
open NC NC.Spec.Sim

/-- A word and the same word, or a feed or speed and another one related by `P`. -/
inductive Word (P : ℚ → ℚ → Prop) : Attr → Attr → Prop
  | same (a : Attr) : Word P a a
  | rate (d d' : Dec) (q q' : ℚ) : d.word ∈ ([c!"F", c!"S"] : List Str) → d'.word = d.word → rateOf d = some q → rateOf d' = some q' →
      P q q' → Word P (.dec d) (.dec d')

/-- Programs that differ in feeds and speeds only. -/
def Program (P : ℚ → ℚ → Prop) : List (Int × Block) → List (Int × Block) → Prop :=
  List.Forall₂ fun x y => y.1 = x.1 ∧ List.Forall₂ (Word P) x.2 y.2

/-- Any feeds and speeds above zero. -/
def Any (q q' : ℚ) : Prop := 0 < q ∧ 0 < q'

/-- The second is at least as high. -/
def Higher (q q' : ℚ) : Prop := 0 < q ∧ q ≤ q'

section
variable {K : Type} [Field K] [LinearOrder K]

/-- The second time is not longer; what is no number stays so. -/
def NotLonger : Option K → Option K → Prop
  | some x, some y => y ≤ x
  | none, none => True
  | _, _ => False

/-- Both above zero, or the same. -/
def Like (x y : K) : Prop := y = x ∨ (0 < x ∧ 0 < y)

/-- At least as high, or the same. -/
def AsHigh (x y : K) : Prop := y = x ∨ (0 < x ∧ x ≤ y)

end
end NC.Spec.Rates
