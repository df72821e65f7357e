import Verif.Spec.Geometry

/-!
# A part of another size

The coordinates of the part are multiplied by a factor.
-/

namespace NC.Spec.Geo

/-- Where a point of the part is if the part is `k` times as large. -/
def scaledTo (k : ℝ) (p : ℝ × ℝ) : ℝ × ℝ := (k * p.1, k * p.2)

end NC.Spec.Geo
