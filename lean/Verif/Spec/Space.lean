import Verif.Spec.Geometry
import Verif.Base
import Mathlib.LinearAlgebra.CrossProduct

/-!
# Arcs in space

Independent of the code: a turn about an axis of a right-handed machine.
-/

namespace NC.Spec.Geo
open NC Real Matrix

/-- The axis a plane is seen from: Z for G17, Y for G18, X for G19. -/
def seenFrom (plane : Int) : Fin 3 → ℝ := if plane = 18 then ![0, 1, 0] else if plane = 19 then ![1, 0, 0] else ![0, 0, 1]

/-- The turn by `φ` about the axis `n` through `c`, counter-clockwise as seen from the positive end of the axis
(`n × a` is `a` after a quarter of such a turn) or clockwise, leads from `p` to `q`; `p` is at the distance `r` from `c` in the plane across `n`. -/
def Turn (n : Fin 3 → ℝ) (s : Sense) (c : Fin 3 → ℝ) (r φ : ℝ) (p q : Fin 3 → ℝ) : Prop :=
  0 < r ∧ 0 < φ ∧ φ ≤ 2 * π ∧ n ⬝ᵥ (p - c) = 0 ∧ (p - c) ⬝ᵥ (p - c) = r ^ 2 ∧
    q - c = cos φ • (p - c) + (s.sgn * sin φ) • (n ⨯₃ (p - c))

/-- The number of an axis. -/
def axisNo (a : Str) : Fin 3 := if a = ['X'] then 0 else if a = ['Y'] then 1 else 2

end NC.Spec.Geo
