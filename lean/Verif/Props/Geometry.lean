import Verif.GeometryProofs
import Mathlib.Analysis.SpecialFunctions.Integrals.Basic
import Mathlib.Analysis.SpecialFunctions.Log.Deriv
import Mathlib.Analysis.SpecialFunctions.Trigonometric.Deriv

/-!
# C29, C60, C61, C64: lengths of moves

The calculator (`PathCalc.lean`) at the real numbers against curve lengths
(`Spec/Geometry.lean`).
-/

namespace NC.Props
open NC NC.Path Real NC.Spec.Geo

local notation "RF" => realFns

/-! ## C29: straight moves -/

/-- A straight move (G0 and G1 use the same function) has the Euclidean distance of its end points. -/
theorem C29_line (x y z x' y' z' : ℝ) :
    dist3 RF x y z x' y' z' = dist (pt x y z) (pt x' y' z') := by
  rw [EuclideanSpace.dist_eq]
  simp [Fin.sum_univ_three, pt, Real.dist_eq, dist3, len3, realFns]

/-- Incremental: the length of the displacement. -/
theorem C29_line_incremental (x y z : ℝ) : len3 RF x y z = dist (pt 0 0 0) (pt x y z) := by
  rw [← C29_line]
  simp [dist3, len3, realFns]

/-- A move takes no path only if it goes nowhere, and a detour is never shorter. -/
theorem C29_line_metric (a b c a' b' c' a'' b'' c'' : ℝ) :
    (dist3 RF a b c a' b' c' = 0 ↔ a = a' ∧ b = b' ∧ c = c') ∧
    dist3 RF a b c a' b' c' = dist3 RF a' b' c' a b c ∧
    0 ≤ dist3 RF a b c a' b' c' ∧
    dist3 RF a b c a'' b'' c'' ≤ dist3 RF a b c a' b' c' + dist3 RF a' b' c' a'' b'' c'' := by
  simp only [C29_line]
  refine ⟨?_, dist_comm _ _, dist_nonneg, dist_triangle _ _ _⟩
  rw [dist_eq_zero]
  constructor
  · intro h
    have h0 := congrFun (congrArg (fun v : EuclideanSpace ℝ (Fin 3) => (v : Fin 3 → ℝ)) h)
    exact ⟨by simpa [pt] using h0 0, by simpa [pt] using h0 1, by simpa [pt] using h0 2⟩
  · rintro ⟨rfl, rfl, rfl⟩; rfl

example : dist3 RF 0 0 0 3 4 0 = 5 := by
  simp only [dist3, len3, realFns]
  rw [show ((0 : ℝ) - 3) ^ 2 + (0 - 4) ^ 2 + (0 - 0) ^ 2 = 5 ^ 2 by norm_num]
  exact Real.sqrt_sq (by norm_num)

/-! ## C29, C64: arcs -/

/-- The length of an arc is radius times sweep (checked against the length of the curve). -/
theorem arc_curve (s : Sense) (c : ℝ × ℝ) {r : ℝ} (hr : 0 < r) (θ φ : ℝ) :
    curveLength (fun t => c.1 + r * cos (θ + s.sgn * t)) (fun t => c.2 + r * sin (θ + s.sgn * t)) φ = r * φ := by
  unfold curveLength
  have h1 : ∀ t, deriv (fun t => c.1 + r * cos (θ + s.sgn * t)) t = -(r * s.sgn * sin (θ + s.sgn * t)) := by
    intro t
    have hd : HasDerivAt (fun t => c.1 + r * cos (θ + s.sgn * t)) (r * (-sin (θ + s.sgn * t) * (s.sgn * 1))) t :=
      (((((hasDerivAt_id t).const_mul s.sgn).const_add θ).cos).const_mul r).const_add c.1
    rw [hd.deriv]; ring
  have h2 : ∀ t, deriv (fun t => c.2 + r * sin (θ + s.sgn * t)) t = r * s.sgn * cos (θ + s.sgn * t) := by
    intro t
    have hd : HasDerivAt (fun t => c.2 + r * sin (θ + s.sgn * t)) (r * (cos (θ + s.sgn * t) * (s.sgn * 1))) t :=
      (((((hasDerivAt_id t).const_mul s.sgn).const_add θ).sin).const_mul r).const_add c.2
    rw [hd.deriv]; ring
  have h3 : ∀ t, √(deriv (fun t => c.1 + r * cos (θ + s.sgn * t)) t ^ 2 +
      deriv (fun t => c.2 + r * sin (θ + s.sgn * t)) t ^ 2) = r := by
    intro t
    rw [h1, h2]
    have hs : s.sgn ^ 2 = 1 := by cases s <;> norm_num [Sense.sgn]
    have : (-(r * s.sgn * sin (θ + s.sgn * t))) ^ 2 + (r * s.sgn * cos (θ + s.sgn * t)) ^ 2 =
        r ^ 2 * s.sgn ^ 2 * (sin (θ + s.sgn * t) ^ 2 + cos (θ + s.sgn * t) ^ 2) := by ring
    rw [this, hs, Real.sin_sq_add_cos_sq, mul_one, mul_one, Real.sqrt_sq hr.le]
  simp only [h3]
  simp [mul_comm]

/-- Whatever the words say, the length of an arc is between zero and the full circle. -/
theorem C29_arc_bounds (xp yp xc yc i j : ℝ) (dir : Nat) :
    0 ≤ arcIJ RF xp yp xc yc i j dir ∧ arcIJ RF xp yp xc yc i j dir ≤ 2 * π * √(i ^ 2 + j ^ 2) := by
  have hr := Real.sqrt_nonneg (i ^ 2 + j ^ 2)
  have hp := Real.pi_gt_three
  rw [arcIJ_eq]
  split
  · constructor
    · exact hr
    · nlinarith
  · have h := arcAngle_bounds (long := longArc RF dir (-i) (-j) (xc - (xp + i)) (yc - (yp + j)))
      (same := decide (samePoint xp yp xc yc)) (r := √(i ^ 2 + j ^ 2))
      (half := √((xp - xc) ^ 2 + (yp - yc) ^ 2) / 2) (by positivity)
    exact angle_length hr h.1 h.2

/-- Likewise for an arc given by its radius. -/
theorem C29_arc_bounds_R (xp yp xc yc rc : ℝ) :
    0 ≤ arcR RF xp yp xc yc rc ∧ arcR RF xp yp xc yc rc ≤ 2 * π * |rc| := by
  have hr := abs_nonneg rc
  have hp := Real.pi_gt_three
  unfold arcR
  simp only
  split
  · constructor
    · exact hr
    · nlinarith
  · have h := arcAngle_bounds (long := decide (rc < 0))
      (same := decide (samePoint xp yp xc yc)) (r := |rc|)
      (half := dist2 RF xp yp xc yc / 2) (by unfold dist2 len2 realFns; positivity)
    exact angle_length hr h.1 h.2

/-- An arc that ends where it began is the full circle. -/
theorem C29_full_circle_partial (x y i j : ℝ) (dir : Nat) (ht : tol ≤ (π - 1) * √(i ^ 2 + j ^ 2)) :
    arcIJ RF x y x y i j dir = 2 * π * √(i ^ 2 + j ^ 2) := by
  rw [arcIJ_eq, if_neg]
  · have hs : samePoint x y x y := by unfold samePoint; simp [tol_pos]
    unfold arcAngle
    simp only [hs, decide_true, if_true]
    ring
  · rw [tiny_iff (Real.sqrt_nonneg _)]; linarith

example : arcIJ RF 1 2 1 2 3 4 2 = 2 * π * 5 := by
  have h5 : √((3 : ℝ) ^ 2 + 4 ^ 2) = 5 := by
    rw [show ((3 : ℝ) ^ 2 + 4 ^ 2) = 5 ^ 2 by norm_num]; exact Real.sqrt_sq (by norm_num)
  have := C29_full_circle_partial 1 2 3 4 2 (by
    rw [h5]; have := Real.pi_gt_three; unfold tol; linarith)
  rw [this, h5]

/-- For every arc with a radius above the tolerance whose ends differ by more than the tolerance:
the length is right exactly when the arc is at most half a turn or its ends lie inside two different
quadrants around the centre. -/
theorem C64_arc_exact_iff_partial {s : Sense} {c p q : ℝ × ℝ} {r φ : ℝ} (h : IsArc s c r φ p q)
    (ht : tol ≤ (π - 1) * r) (hs : tol ≤ |p.1 - q.1| ∨ tol ≤ |p.2 - q.2|) :
    arcIJ RF p.1 p.2 q.1 q.2 (c.1 - p.1) (c.2 - p.2) s.code = r * φ ↔
      φ ≤ π ∨ DifferentQuadrants (p.1 - c.1, p.2 - c.2) (q.1 - c.1, q.2 - c.2) := by
  have hr := h.1
  rw [arcIJ_of_arc h (by rw [tiny_iff hr.le]; linarith)
    (by unfold samePoint; rintro ⟨a, b⟩; rcases hs with hs | hs <;> linarith)]
  constructor
  · intro he
    by_contra hc
    push Not at hc
    rw [if_pos hc] at he
    have := mul_left_cancel₀ hr.ne' he
    linarith [hc.1]
  · intro hc
    rw [if_neg]
    rintro ⟨h1, h2⟩
    rcases hc with hc | hc
    · linarith
    · exact h2 hc

/-- When it is wrong, the other way round the circle is reported. -/
theorem C64_arc_wrong_way {s : Sense} {c p q : ℝ × ℝ} {r φ : ℝ} (h : IsArc s c r φ p q)
    (ht : tol ≤ (π - 1) * r) (hs : tol ≤ |p.1 - q.1| ∨ tol ≤ |p.2 - q.2|)
    (hφ : π < φ) (hd : ¬ DifferentQuadrants (p.1 - c.1, p.2 - c.2) (q.1 - c.1, q.2 - c.2)) :
    arcIJ RF p.1 p.2 q.1 q.2 (c.1 - p.1) (c.2 - p.2) s.code = r * (2 * π - φ) := by
  have hr := h.1
  rw [arcIJ_of_arc h (by rw [tiny_iff hr.le]; linarith)
    (by unfold samePoint; rintro ⟨a, b⟩; rcases hs with hs | hs <;> linarith), if_pos ⟨hφ, hd⟩]

/-- Violated: the three-quarter turn `G3 X0 Y-1 I-1 J0` from (1, 0), a very common block, is reported
as a quarter turn. -/
theorem C64_violated_three_quarters :
    IsArc .ccw (0, 0) 1 (3 * π / 2) (1, 0) (0, -1) ∧
      arcIJ RF 1 0 0 (-1) (-1) 0 3 = π / 2 := by
  have hp := Real.pi_gt_three
  have harc : IsArc .ccw (0, 0) 1 (3 * π / 2) (1, 0) (0, -1) := by
    refine ⟨one_pos, by linarith, by linarith, 0, by simp, ?_⟩
    have h1 : 3 * π / 2 = π + π / 2 := by ring
    have c1 : cos (3 * π / 2) = 0 := by rw [h1, Real.cos_add]; simp
    have s1 : sin (3 * π / 2) = -1 := by rw [h1, Real.sin_add]; simp
    simp [Sense.sgn, c1, s1]
  refine ⟨harc, ?_⟩
  have := C64_arc_wrong_way harc (by unfold tol; linarith) (Or.inl (by unfold tol; norm_num)) (by linarith)
    (by unfold DifferentQuadrants; simp)
  simp only [Sense.code] at this
  norm_num at this
  rw [this]; ring

/-- An arc given by its radius: a positive radius selects the arc of at most half a turn, a negative one
the arc of at least half a turn, whatever the sense of rotation. -/
theorem C64_arc_R {s : Sense} {c p q : ℝ × ℝ} {r φ : ℝ} (h : IsArc s c r φ p q) (ht : tol ≤ (π - 1) * r)
    (hs : tol ≤ |p.1 - q.1| ∨ tol ≤ |p.2 - q.2|) :
    (φ ≤ π → arcR RF p.1 p.2 q.1 q.2 r = r * φ) ∧
    (π ≤ φ → φ < 2 * π → arcR RF p.1 p.2 q.1 q.2 (-r) = r * φ) := by
  have hp := Real.pi_pos
  have hr := h.1
  have hns : ¬ samePoint p.1 p.2 q.1 q.2 := by
    unfold samePoint; rintro ⟨a, b⟩; rcases hs with hs | hs <;> linarith
  have hnt : ¬ tinyRadius RF r := by rw [tiny_iff hr.le]; linarith
  have hd : dist2 RF p.1 p.2 q.1 q.2 / 2 = r * sin (φ / 2) := by
    rw [← chord h]; rfl
  constructor
  · intro hφ
    unfold arcR
    simp only [abs_of_pos hr, hd, hnt, if_false, hns, decide_false, not_lt.mpr hr.le]
    unfold arcAngle
    simp only [Bool.false_eq_true, if_false]
    rw [shortAngle_sweep hr h.2.1 (by linarith), min_eq_left (by linarith)]
    simp only [realFns]
    field_simp
  · intro hφ hφ2
    unfold arcR
    have hneg : -r < 0 := by linarith
    simp only [abs_neg, abs_of_pos hr, hd, hnt, if_false, hns, decide_false, hneg, decide_true]
    unfold arcAngle
    simp only [Bool.false_eq_true, if_false, if_true]
    rw [shortAngle_sweep hr h.2.1 hφ2, min_eq_right (by linarith)]
    simp only [realFns]
    field_simp
    ring

/-- The hypotheses are met by the quarter turn about the origin. -/
example : IsArc .ccw (0, 0) 1 (π / 2) (1, 0) (0, 1) ∧ tol ≤ (π - 1) * 1 ∧ tol ≤ |(1 : ℝ) - 0| := by
  have hp := Real.pi_gt_three
  refine ⟨⟨one_pos, by linarith, by linarith, 0, by simp, ?_⟩, by unfold tol; linarith, by unfold tol; norm_num⟩
  simp [Sense.sgn]

/-- A radius below the tolerance: the radius itself is reported, also for a full circle (violated). -/
theorem C29_violated_tiny : arcIJ RF 0 0 0 0 (1 / 1000000000) 0 2 ≠ 2 * π * (1 / 1000000000) := by
  have hp := Real.pi_gt_three
  have hp2 := Real.pi_lt_four
  have hsq : √((1 / 1000000000 : ℝ) ^ 2 + 0 ^ 2) = 1 / 1000000000 := by
    rw [show ((1 / 1000000000 : ℝ) ^ 2 + 0 ^ 2) = (1 / 1000000000) ^ 2 by ring]
    exact Real.sqrt_sq (by norm_num)
  rw [arcIJ_eq, hsq, if_pos]
  · intro h; linarith
  · rw [tiny_iff (by norm_num)]; unfold tol; linarith

/-! ## C60: helix -/

/-- One turn of a helix of radius `r` and pitch `p`, as a curve. -/
theorem helix_curve (r p : ℝ) :
    curveLength3 (fun t => r * cos t) (fun t => r * sin t) (fun t => p / (2 * π) * t) (2 * π) =
      √((2 * π * r) ^ 2 + p ^ 2) := by
  have hp := Real.pi_pos
  unfold curveLength3
  have h1 : ∀ t, deriv (fun t => r * cos t) t = -(r * sin t) := by
    intro t
    have hd : HasDerivAt (fun t => r * cos t) (r * (-sin t)) t := (Real.hasDerivAt_cos t).const_mul r
    rw [hd.deriv]; ring
  have h2 : ∀ t, deriv (fun t => r * sin t) t = r * cos t := by
    intro t
    have hd : HasDerivAt (fun t => r * sin t) (r * cos t) t := (Real.hasDerivAt_sin t).const_mul r
    rw [hd.deriv]
  have h3 : ∀ t, deriv (fun t => p / (2 * π) * t) t = p / (2 * π) := by
    intro t
    have hd : HasDerivAt (fun t => p / (2 * π) * t) (p / (2 * π) * 1) t := (hasDerivAt_id t).const_mul _
    rw [hd.deriv, mul_one]
  have h4 : ∀ t, √(deriv (fun t => r * cos t) t ^ 2 + deriv (fun t => r * sin t) t ^ 2 +
      deriv (fun t => p / (2 * π) * t) t ^ 2) = √(r ^ 2 + (p / (2 * π)) ^ 2) := by
    intro t
    rw [h1, h2, h3]
    congr 1
    have : (-(r * sin t)) ^ 2 + (r * cos t) ^ 2 = r ^ 2 * (sin t ^ 2 + cos t ^ 2) := by ring
    rw [this, Real.sin_sq_add_cos_sq, mul_one]
  simp only [h4]
  simp only [intervalIntegral.integral_const, sub_zero, smul_eq_mul]
  rw [show (2 * π * r) ^ 2 + p ^ 2 = (2 * π) ^ 2 * (r ^ 2 + (p / (2 * π)) ^ 2) by field_simp]
  rw [Real.sqrt_mul (sq_nonneg _), Real.sqrt_sq (by positivity)]

/-- The reported length of a turn is never below the length of the curve … -/
theorem C60_helix_lower_partial (p i j : ℝ) :
    curveLength3 (fun t => √(i ^ 2 + j ^ 2) * cos t) (fun t => √(i ^ 2 + j ^ 2) * sin t)
      (fun t => p / (2 * π) * t) (2 * π) ≤ helix RF p i j := by
  have hp := Real.pi_gt_three
  rw [helix_curve]
  have h : helix RF p i j = √((2 * π) ^ 2 * (√(i ^ 2 + j ^ 2) ^ 2 + p ^ 2)) := by
    rw [Real.sqrt_mul (sq_nonneg _), Real.sqrt_sq (by positivity)]; rfl
  rw [h]
  apply Real.sqrt_le_sqrt
  have h4 : 1 ≤ (2 * π) ^ 2 := by nlinarith
  nlinarith [mul_le_mul_of_nonneg_right h4 (sq_nonneg p)]

/-- … and right only if the helix does not rise at all (violated for every real helix). -/
theorem C60_violated_helix (p i j : ℝ) :
    helix RF p i j = curveLength3 (fun t => √(i ^ 2 + j ^ 2) * cos t) (fun t => √(i ^ 2 + j ^ 2) * sin t)
      (fun t => p / (2 * π) * t) (2 * π) ↔ p = 0 := by
  have hp := Real.pi_gt_three
  rw [helix_curve]
  have h : helix RF p i j = √((2 * π) ^ 2 * (√(i ^ 2 + j ^ 2) ^ 2 + p ^ 2)) := by
    rw [Real.sqrt_mul (sq_nonneg _), Real.sqrt_sq (by positivity)]; rfl
  rw [h, Real.sqrt_inj (by positivity) (by positivity)]
  constructor
  · intro he
    have : ((2 * π) ^ 2 - 1) * p ^ 2 = 0 := by linarith
    rcases mul_eq_zero.mp this with h | h
    · nlinarith
    · exact pow_eq_zero_iff (two_ne_zero) |>.mp h
  · rintro rfl; ring

/-- Four equal quarters make the turn that is reported for the whole. -/
theorem C60_quarters (dz i j : ℝ) :
    helixQuarter RF dz i j + helixQuarter RF dz i j + helixQuarter RF dz i j + helixQuarter RF dz i j =
      helix RF (4 * dz) i j := by
  unfold helixQuarter helix
  rw [mul_comm dz 4]; ring

/-- Giving the radius or the centre makes no difference. -/
theorem C60_radius_or_centre (p dz i j : ℝ) :
    helixR RF p (√(i ^ 2 + j ^ 2)) = helix RF p i j ∧
      helixQuarterR RF dz (√(i ^ 2 + j ^ 2)) = helixQuarter RF dz i j := ⟨rfl, rfl⟩

example : helix RF 3 4 0 = 2 * π * 5 := by
  unfold helix circle2 len2 realFns
  simp only
  rw [show ((4 : ℝ) ^ 2 + 0 ^ 2) = 4 ^ 2 by norm_num, Real.sqrt_sq (by norm_num),
    show ((4 : ℝ) ^ 2 + 3 ^ 2) = 5 ^ 2 by norm_num, Real.sqrt_sq (by norm_num)]

/-! ## C61: Archimedean spiral -/

/-- The length reported for a spiral of `l > 0` revolutions reaching the radius given by I and J is the
length of the curve with radius proportional to the angle. -/
theorem C61_spiral (i j l : ℝ) (hl : 0 < l) :
    archimedesL RF i j l = some (curveLength
      (fun t => √(i ^ 2 + j ^ 2) / (2 * π * l) * t * cos t)
      (fun t => √(i ^ 2 + j ^ 2) / (2 * π * l) * t * sin t) (2 * π * l)) := by
  have hp := Real.pi_pos
  have hlp : 0 < 2 * π * l := by positivity
  set R := √(i ^ 2 + j ^ 2) with hR
  have hR0 : 0 ≤ R := Real.sqrt_nonneg _
  set a := R / (2 * π * l) with ha
  have ha0 : 0 ≤ a := by positivity
  have h1 : ∀ t, deriv (fun t => a * t * cos t) t = a * (cos t - t * sin t) := by
    intro t
    have hd : HasDerivAt (fun t => a * t * cos t) (a * 1 * cos t + a * t * (-sin t)) t :=
      ((hasDerivAt_id t).const_mul a).mul (Real.hasDerivAt_cos t)
    rw [hd.deriv]; ring
  have h2 : ∀ t, deriv (fun t => a * t * sin t) t = a * (sin t + t * cos t) := by
    intro t
    have hd : HasDerivAt (fun t => a * t * sin t) (a * 1 * sin t + a * t * cos t) t :=
      ((hasDerivAt_id t).const_mul a).mul (Real.hasDerivAt_sin t)
    rw [hd.deriv]; ring
  have h3 : ∀ t, √(deriv (fun t => a * t * cos t) t ^ 2 + deriv (fun t => a * t * sin t) t ^ 2) =
      a * √(1 + t ^ 2) := by
    intro t
    rw [h1, h2]
    have : (a * (cos t - t * sin t)) ^ 2 + (a * (sin t + t * cos t)) ^ 2 =
        a ^ 2 * ((sin t ^ 2 + cos t ^ 2) * (1 + t ^ 2)) := by ring
    rw [this, Real.sin_sq_add_cos_sq, one_mul, Real.sqrt_mul (sq_nonneg _), Real.sqrt_sq ha0]
  unfold curveLength
  simp only [h3]
  have hprim : ∀ t : ℝ, HasDerivAt (fun t => (t * √(1 + t ^ 2) + Real.log (t + √(1 + t ^ 2))) / 2) (√(1 + t ^ 2)) t := by
    intro t
    have hpos : 0 < 1 + t ^ 2 := by positivity
    have hs : 0 < √(1 + t ^ 2) := Real.sqrt_pos.mpr hpos
    have hts : 0 < t + √(1 + t ^ 2) := by
      have h4 : |t| < √(1 + t ^ 2) := by
        rw [← Real.sqrt_sq_eq_abs]
        exact Real.sqrt_lt_sqrt (sq_nonneg _) (by linarith)
      have := neg_abs_le t
      linarith
    have d0 : HasDerivAt (fun t : ℝ => 1 + t ^ 2) (2 * t) t := by
      have := ((hasDerivAt_id t).pow 2).const_add 1
      simpa using this
    have d1 : HasDerivAt (fun t : ℝ => √(1 + t ^ 2)) (2 * t / (2 * √(1 + t ^ 2))) t := d0.sqrt hpos.ne'
    have d2 : HasDerivAt (fun t : ℝ => t * √(1 + t ^ 2)) (1 * √(1 + t ^ 2) + t * (2 * t / (2 * √(1 + t ^ 2)))) t :=
      (hasDerivAt_id t).mul d1
    have d3 : HasDerivAt (fun t : ℝ => Real.log (t + √(1 + t ^ 2)))
        ((1 + 2 * t / (2 * √(1 + t ^ 2))) / (t + √(1 + t ^ 2))) t := ((hasDerivAt_id t).add d1).log hts.ne'
    have d4 : HasDerivAt (fun t => (t * √(1 + t ^ 2) + Real.log (t + √(1 + t ^ 2))) / 2) _ t :=
      (d2.add d3).div_const 2
    refine d4.congr_deriv ?_
    clear d0 d1 d2 d3 d4
    have hsq : √(1 + t ^ 2) ^ 2 = 1 + t ^ 2 := Real.sq_sqrt hpos.le
    generalize hw : √(1 + t ^ 2) = w at *
    have e1 : (1 + 2 * t / (2 * w)) / (t + w) = 1 / w := by
      field_simp
      ring
    rw [e1]
    field_simp
    nlinarith
  have hint : ∫ t in (0 : ℝ)..(2 * π * l), √(1 + t ^ 2) =
      ((2 * π * l) * √(1 + (2 * π * l) ^ 2) + Real.log ((2 * π * l) + √(1 + (2 * π * l) ^ 2))) / 2 := by
    rw [intervalIntegral.integral_eq_sub_of_hasDerivAt (fun t _ => hprim t)
      (Continuous.intervalIntegrable (by fun_prop) _ _)]
    simp
  rw [intervalIntegral.integral_const_mul, hint]
  unfold archimedesL archimedes
  rw [if_neg hl.ne']
  have e2 : l * 2 * π = 2 * π * l := by ring
  simp only [len2, realFns, e2]
  rw [← hR, ha]
  congr 1
  ring

/-- With the increment per revolution instead of the number of revolutions. -/
theorem C61_spiral_increment (i j q : ℝ) (hq : 0 < q) (hr : 0 < i ^ 2 + j ^ 2) :
    archimedesQ RF i j q = some (curveLength
      (fun t => q / (2 * π) * t * cos t) (fun t => q / (2 * π) * t * sin t)
      (2 * π * (√(i ^ 2 + j ^ 2) / q))) := by
  have hp := Real.pi_pos
  have hR : 0 < √(i ^ 2 + j ^ 2) := Real.sqrt_pos.mpr hr
  have h := C61_spiral i j (√(i ^ 2 + j ^ 2) / q) (by positivity)
  unfold archimedesQ
  rw [if_neg hq.ne']
  have e : √(i ^ 2 + j ^ 2) / (2 * π * (√(i ^ 2 + j ^ 2) / q)) = q / (2 * π) := by field_simp
  rw [e] at h
  exact h

/-- Without revolutions, or without an increment, there is no number. -/
theorem C61_violated_zero (i j : ℝ) : archimedesL RF i j 0 = none ∧ archimedesQ RF i j 0 = none := by
  constructor <;> simp [archimedesL, archimedes, archimedesQ]

example : (0 : ℝ) < 3 ∧ (0 : ℝ) < 3 ^ 2 + 4 ^ 2 := by norm_num

end NC.Props
