import Verif.Spec.Geometry

/-!
# An arc made by straight moves

The straight moves lead from point to point on the arc.
-/

namespace NC.Spec.Geo
open Real

/-- Points on the arc of sweep `φ` about `c` from `p`, and its end: from each to the next the arc sweeps at most `δ`. -/
inductive Chorded (s : Sense) (c : ℝ × ℝ) (r δ : ℝ) : ℝ → ℝ × ℝ → List (ℝ × ℝ) → Prop
  | last {φ : ℝ} {p q : ℝ × ℝ} : IsArc s c r φ p q → φ ≤ δ → Chorded s c r δ φ p [q]
  | piece {φ ψ : ℝ} {p q : ℝ × ℝ} {l : List (ℝ × ℝ)} : IsArc s c r φ p q → φ ≤ δ → Chorded s c r δ ψ q l → Chorded s c r δ (φ + ψ) p (q :: l)

end NC.Spec.Geo
