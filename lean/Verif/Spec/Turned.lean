import Verif.Spec.Geometry

/-!
# A part turned on the table

The part is turned by any angle about any point of the table.
-/

namespace NC.Spec.Geo
open Real

/-- Where a point of the part is after the turn by `θ` about `o`. -/
noncomputable def turnedTo (θ : ℝ) (o p : ℝ × ℝ) : ℝ × ℝ :=
  (o.1 + (cos θ * (p.1 - o.1) - sin θ * (p.2 - o.2)), o.2 + (sin θ * (p.1 - o.1) + cos θ * (p.2 - o.2)))

end NC.Spec.Geo
