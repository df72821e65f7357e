import Verif.Spec.Geometry

/-!
# An arc made in pieces

The arc is interrupted at points on it; every piece is at most half a turn.
-/

namespace NC.Spec.Geo
open Real

/-- The points at which the arc of sweep `φ` about `c` from `p` is interrupted, and its end: every piece is an arc of the same sense
about the same centre, of at most half a turn. -/
inductive Parted (s : Sense) (c : ℝ × ℝ) (r : ℝ) : ℝ → ℝ × ℝ → List (ℝ × ℝ) → Prop
  | last {φ : ℝ} {p q : ℝ × ℝ} : IsArc s c r φ p q → φ ≤ π → Parted s c r φ p [q]
  | piece {φ ψ : ℝ} {p q : ℝ × ℝ} {l : List (ℝ × ℝ)} : IsArc s c r φ p q → φ ≤ π → Parted s c r ψ q l → Parted s c r (φ + ψ) p (q :: l)

end NC.Spec.Geo
