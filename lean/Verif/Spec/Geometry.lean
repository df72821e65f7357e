import Mathlib.Analysis.SpecialFunctions.Trigonometric.Basic
import Mathlib.Analysis.InnerProductSpace.PiL2
import Mathlib.MeasureTheory.Integral.IntervalIntegral.Basic
import Mathlib.Analysis.Calculus.Deriv.Basic

/-!
# What the lengths should be

Written without reference to the model: straight moves, circular arcs, helices
and spirals as curves, and the distances travelled in a drilling cycle.
-/

namespace NC.Spec.Geo
open Real

/-- A point of space. -/
noncomputable def pt (x y z : ℝ) : EuclideanSpace ℝ (Fin 3) := !₂[x, y, z]

/-- Sense of rotation: clockwise (G2) or counter-clockwise (G3). -/
inductive Sense where
  | cw | ccw

/-- The sign of the angle. -/
def Sense.sgn : Sense → ℝ
  | .cw => -1
  | .ccw => 1

/-- The number of the G code. -/
def Sense.code : Sense → Nat
  | .cw => 2
  | .ccw => 3

/-- The arc with centre `c`, radius `r > 0` and sweep `φ` (0 < φ ≤ 2π) leads from `p` to `q`. -/
def IsArc (s : Sense) (c : ℝ × ℝ) (r φ : ℝ) (p q : ℝ × ℝ) : Prop :=
  0 < r ∧ 0 < φ ∧ φ ≤ 2 * π ∧
    ∃ θ, p = (c.1 + r * cos θ, c.2 + r * sin θ) ∧
      q = (c.1 + r * cos (θ + s.sgn * φ), c.2 + r * sin (θ + s.sgn * φ))

/-- Length of a plane curve with the given coordinates over [0, b]. -/
noncomputable def curveLength (x y : ℝ → ℝ) (b : ℝ) : ℝ :=
  ∫ t in (0 : ℝ)..b, √(deriv x t ^ 2 + deriv y t ^ 2)

/-- Length of a space curve with the given coordinates over [0, b]. -/
noncomputable def curveLength3 (x y z : ℝ → ℝ) (b : ℝ) : ℝ :=
  ∫ t in (0 : ℝ)..b, √(deriv x t ^ 2 + deriv y t ^ 2 + deriv z t ^ 2)

/-- The points `a` and `b` (relative to the centre) are in the interiors of two
different quadrants. -/
def DifferentQuadrants (a b : ℝ × ℝ) : Prop :=
  a.1 ≠ 0 ∧ a.2 ≠ 0 ∧ b.1 ≠ 0 ∧ b.2 ≠ 0 ∧ (a.1 * b.1 < 0 ∨ a.2 * b.2 < 0)

end NC.Spec.Geo
