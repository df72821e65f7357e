import Verif.PathCalc
import Verif.Spec.Geometry
import Mathlib.Analysis.SpecialFunctions.Trigonometric.Arctan
import Mathlib.Analysis.SpecialFunctions.Trigonometric.Bounds
import Mathlib.Analysis.SpecialFunctions.Sqrt
import Mathlib.Analysis.Real.Pi.Bounds

/-!
# Lemmas for the path geometry over the reals
-/

namespace NC.Path
open NC Real NC.Spec.Geo

/-- The mathematical functions. -/
noncomputable def realFns : Fns ℝ where
  sqrt := Real.sqrt
  atan := Real.arctan
  asin := Real.arcsin
  log := Real.log
  pi := π

local notation "RF" => realFns

theorem tol_pos : (0 : ℝ) < tol := by unfold tol; norm_num

theorem deg_pos : 0 < deg RF := by
  have := Real.pi_pos
  unfold deg realFns; positivity

theorem tiny_iff {r : ℝ} (h : 0 ≤ r) : tinyRadius RF r ↔ (π - 1) * r < tol := by
  have hp := Real.pi_gt_three
  unfold tinyRadius
  have : (2 * (RF).pi * r) / 2 - r = (π - 1) * r := by simp only [realFns]; ring
  rw [this, abs_of_nonneg (mul_nonneg (by linarith) h)]

theorem atanDiv_nonneg {a b : ℝ} (ha : 0 ≤ a) (hb : 0 ≤ b) :
    0 ≤ atanDiv RF a b ∧ atanDiv RF a b ≤ π / 2 := by
  have hp := Real.pi_pos
  unfold atanDiv
  simp only [realFns]
  split
  · split
    · constructor <;> linarith
    · rw [if_neg (by linarith)]; constructor <;> linarith
  · constructor
    · exact Real.arctan_nonneg.mpr (div_nonneg ha hb)
    · exact (Real.arctan_lt_pi_div_two _).le

theorem shortAngle_bounds {r half : ℝ} (hh : 0 ≤ half) :
    0 ≤ shortAngle RF r half ∧ shortAngle RF r half ≤ 180 := by
  have hd := deg_pos
  have hp := Real.pi_pos
  have h := atanDiv_nonneg (a := half) (b := (RF).sqrt |r ^ 2 - half ^ 2|) hh (Real.sqrt_nonneg _)
  unfold shortAngle
  constructor
  · have := mul_nonneg h.1 hd.le; linarith
  · have h2 := mul_le_mul_of_nonneg_right h.2 hd.le
    have h3 : π / 2 * deg RF = 90 := by unfold deg realFns; field_simp; norm_num
    linarith

theorem arcAngle_bounds {long same : Bool} {r half : ℝ} (hh : 0 ≤ half) :
    0 ≤ arcAngle RF long same r half ∧ arcAngle RF long same r half ≤ 360 := by
  have h := shortAngle_bounds (r := r) hh
  unfold arcAngle
  split
  · norm_num
  · split <;> constructor <;> linarith

theorem angle_length {α r : ℝ} (hr : 0 ≤ r) (h0 : 0 ≤ α) (h1 : α ≤ 360) :
    0 ≤ α / 180 * (RF).pi * r ∧ α / 180 * (RF).pi * r ≤ 2 * π * r := by
  have hp := Real.pi_pos
  simp only [realFns]
  have hpr : 0 ≤ π * r := mul_nonneg hp.le hr
  constructor
  · have : α / 180 * π * r = α / 180 * (π * r) := by ring
    rw [this]; exact mul_nonneg (by linarith) hpr
  · nlinarith

/-- Radius as computed by the code. -/
theorem radius_eq (xp yp i j : ℝ) :
    (RF).sqrt ((xp + i - xp) ^ 2 + (yp + j - yp) ^ 2) = √(i ^ 2 + j ^ 2) := by
  simp only [realFns]; congr 1; ring

theorem relative_eq (cx cy x y : ℝ) : relative cx cy x y = (x - cx, y - cy) := by
  unfold relative
  split
  · rfl
  · rename_i h; push Not at h; simp [h.1, h.2]

theorem arcIJ_eq (xp yp xc yc i j : ℝ) (dir : Nat) :
    arcIJ RF xp yp xc yc i j dir =
      if tinyRadius RF (√(i ^ 2 + j ^ 2)) then √(i ^ 2 + j ^ 2)
      else arcAngle RF (longArc RF dir (-i) (-j) (xc - (xp + i)) (yc - (yp + j)))
        (decide (samePoint xp yp xc yc)) (√(i ^ 2 + j ^ 2)) (√((xp - xc) ^ 2 + (yp - yc) ^ 2) / 2)
          / 180 * π * √(i ^ 2 + j ^ 2) := by
  unfold arcIJ
  simp only [radius_eq, relative_eq]
  have h1 : xp - (xp + i) = -i := by ring
  have h2 : yp - (yp + j) = -j := by ring
  rw [h1, h2]
  rfl

/-! ## The long arc test -/

theorem atan_lt_iff {px py qx qy : ℝ} (hp : px ≠ 0) (hq : qx ≠ 0) (h : px * qx < 0) :
    atanDiv RF py px * deg RF < atanDiv RF qy qx * deg RF ↔ px * qy - py * qx < 0 := by
  rw [mul_lt_mul_iff_left₀ deg_pos]
  unfold atanDiv
  rw [if_neg hp, if_neg hq]
  simp only [realFns]
  rw [Real.arctan_lt_arctan_iff]
  have key : qy / qx - py / px = (px * qy - py * qx) / (px * qx) := by field_simp
  rw [← sub_pos, key, div_pos_iff]
  constructor
  · rintro (⟨_, h2⟩ | ⟨h1, _⟩)
    · linarith
    · exact h1
  · intro h1; exact Or.inr ⟨h1, h⟩

theorem atan_gt_iff {px py qx qy : ℝ} (hp : px ≠ 0) (hq : qx ≠ 0) (h : px * qx < 0) :
    atanDiv RF qy qx * deg RF < atanDiv RF py px * deg RF ↔ 0 < px * qy - py * qx := by
  rw [atan_lt_iff hq hp (by rw [mul_comm]; exact h)]
  constructor <;> intro h <;> nlinarith

/-- The sign the cross product of start and end has for the sense of rotation. -/
theorem quadrant_cases (x y : ℝ) :
    (quadrant x y = 1 ∧ 0 < x ∧ 0 < y) ∨ (quadrant x y = 3 ∧ x < 0 ∧ y < 0) ∨
    (quadrant x y = 4 ∧ 0 < x ∧ y < 0) ∨ (quadrant x y = 2 ∧ x < 0 ∧ 0 < y) ∨
    (quadrant x y = 0 ∧ (x = 0 ∨ y = 0)) := by
  unfold quadrant
  split
  · left; tauto
  · split
    · right; left; tauto
    · split
      · right; right; left; tauto
      · split
        · right; right; right; left; tauto
        · right; right; right; right
          refine ⟨rfl, ?_⟩
          by_contra hc
          push Not at hc
          rcases lt_or_gt_of_ne hc.1 with h1 | h1 <;> rcases lt_or_gt_of_ne hc.2 with h2 | h2 <;> tauto

theorem longArc_iff (s : Sense) (px py qx qy : ℝ) :
    longArc RF s.code px py qx qy = true ↔
      s.sgn * (px * qy - py * qx) < 0 ∧ DifferentQuadrants (px, py) (qx, qy) := by
  have axis : ∀ (a b : Nat), a = 0 ∨ b = 0 → ∀ u v : ℝ,
      (longByFour s.code a b || longByThree s.code a b u v) = false := by
    intro a b h u v
    cases s <;> rcases h with rfl | rfl <;> simp [longByFour, longByThree, opposite, Sense.code]
  have same : ∀ (a : Nat), ∀ u v : ℝ,
      (longByFour s.code a a || longByThree s.code a a u v) = false := by
    intro a u v
    cases s <;> simp [longByFour, longByThree, opposite, Sense.code] <;> omega
  unfold longArc DifferentQuadrants
  rcases quadrant_cases px py with ⟨h, h1, h2⟩ | ⟨h, h1, h2⟩ | ⟨h, h1, h2⟩ | ⟨h, h1, h2⟩ | ⟨h, h1⟩ <;>
  rcases quadrant_cases qx qy with ⟨k, k1, k2⟩ | ⟨k, k1, k2⟩ | ⟨k, k1, k2⟩ | ⟨k, k1, k2⟩ | ⟨k, k1⟩ <;>
  rw [h, k]
  all_goals first
    | (rw [axis _ _ (by simp)]
       simp only [Bool.false_eq_true, false_iff]
       rintro ⟨_, a, b, c, d, _⟩
       first | (rcases h1 with h1 | h1 <;> contradiction) | (rcases k1 with k1 | k1 <;> contradiction))
    | (rw [same]
       simp only [Bool.false_eq_true, false_iff]
       rintro ⟨_, _, _, _, _, hd⟩
       have e1 : 0 < px * qx := by nlinarith
       have e2 : 0 < py * qy := by nlinarith
       rcases hd with hd | hd <;> linarith)
    | skip
  all_goals
    (first | have A := mul_pos h1 k2 | have A := mul_pos_of_neg_of_neg h1 k2 | have A := mul_neg_of_pos_of_neg h1 k2 | have A := mul_neg_of_neg_of_pos h1 k2)
    (first | have B := mul_pos h2 k1 | have B := mul_pos_of_neg_of_neg h2 k1 | have B := mul_neg_of_pos_of_neg h2 k1 | have B := mul_neg_of_neg_of_pos h2 k1)
    (first | have C := mul_pos h1 k1 | have C := mul_pos_of_neg_of_neg h1 k1 | have C := mul_neg_of_pos_of_neg h1 k1 | have C := mul_neg_of_neg_of_pos h1 k1)
    (first | have D := mul_pos h2 k2 | have D := mul_pos_of_neg_of_neg h2 k2 | have D := mul_neg_of_pos_of_neg h2 k2 | have D := mul_neg_of_neg_of_pos h2 k2)
    have n1 : px ≠ 0 := by first | exact h1.ne' | exact h1.ne
    have n2 : py ≠ 0 := by first | exact h2.ne' | exact h2.ne
    have n3 : qx ≠ 0 := by first | exact k1.ne' | exact k1.ne
    have n4 : qy ≠ 0 := by first | exact k2.ne' | exact k2.ne
    cases s <;>
    simp only [longByFour, longByThree, opposite, Sense.code, Sense.sgn, n1, n2, n3, n4, ne_eq, not_false_eq_true,
      true_and] <;>
    simp <;>
    first
      | (rw [atan_lt_iff n1 n3 C]; constructor <;> intro h' <;> first | linarith | exact ⟨by linarith, by first | exact Or.inl C | exact Or.inr D⟩ | exact h'.1)
      | (rw [atan_gt_iff n1 n3 C]; constructor <;> intro h' <;> first | linarith | exact ⟨by linarith, by first | exact Or.inl C | exact Or.inr D⟩ | linarith [h'.1])
      | (intro h'; linarith)
      | exact ⟨by linarith, by first | exact Or.inl C | exact Or.inr D⟩

/-! ## The angle over a chord -/

theorem shortAngle_sweep {r φ : ℝ} (hr : 0 < r) (h0 : 0 < φ) (h1 : φ < 2 * π) :
    shortAngle RF r (r * sin (φ / 2)) = min φ (2 * π - φ) * (180 / π) := by
  have hp := Real.pi_pos
  have hsin : 0 < sin (φ / 2) := Real.sin_pos_of_pos_of_lt_pi (by linarith) (by linarith)
  have hsq : (RF).sqrt |r ^ 2 - (r * sin (φ / 2)) ^ 2| = r * |cos (φ / 2)| := by
    have h2 : r ^ 2 - (r * sin (φ / 2)) ^ 2 = (r * |cos (φ / 2)|) ^ 2 := by
      rw [mul_pow, mul_pow, sq_abs, Real.cos_sq']; ring
    rw [h2, abs_of_nonneg (sq_nonneg _)]
    exact Real.sqrt_sq (mul_nonneg hr.le (abs_nonneg _))
  have key : atanDiv RF (r * sin (φ / 2)) (r * |cos (φ / 2)|) = min φ (2 * π - φ) / 2 := by
    unfold atanDiv
    simp only [realFns]
    rcases lt_trichotomy φ π with h | h | h
    · have hc : 0 < cos (φ / 2) := Real.cos_pos_of_mem_Ioo ⟨by linarith, by linarith⟩
      rw [abs_of_pos hc, if_neg (mul_pos hr hc).ne', mul_div_mul_left _ _ hr.ne', ← Real.tan_eq_sin_div_cos,
        Real.arctan_tan (by linarith) (by linarith), min_eq_left (by linarith)]
    · subst h
      have hc : cos (π / 2) = 0 := Real.cos_pi_div_two
      rw [hc]
      simp only [abs_zero, mul_zero, if_true]
      rw [if_pos (mul_pos hr hsin), min_eq_left (by linarith)]
    · have hc : cos (φ / 2) < 0 := Real.cos_neg_of_pi_div_two_lt_of_lt (by linarith) (by linarith)
      have hc' : 0 < -cos (φ / 2) := by linarith
      rw [abs_of_neg hc, if_neg (mul_pos hr hc').ne', mul_div_mul_left _ _ hr.ne']
      have e1 : sin (φ / 2) = sin (π - φ / 2) := (Real.sin_pi_sub _).symm
      have e2 : -cos (φ / 2) = cos (π - φ / 2) := (Real.cos_pi_sub _).symm
      rw [e1, e2, ← Real.tan_eq_sin_div_cos, Real.arctan_tan (by linarith) (by linarith),
        min_eq_right (by linarith)]
      ring
  unfold shortAngle
  rw [hsq, key]
  unfold deg realFns
  ring

/-- Half the chord of an arc. -/
theorem chord {s : Sense} {c p q : ℝ × ℝ} {r φ : ℝ} (h : IsArc s c r φ p q) :
    √((p.1 - q.1) ^ 2 + (p.2 - q.2) ^ 2) / 2 = r * sin (φ / 2) := by
  obtain ⟨hr, h0, h1, θ, hp, hq⟩ := h
  have hsin : 0 ≤ sin (φ / 2) := Real.sin_nonneg_of_nonneg_of_le_pi (by linarith) (by linarith)
  have hcos : cos (θ + s.sgn * φ) * cos θ + sin (θ + s.sgn * φ) * sin θ = 1 - 2 * sin (φ / 2) ^ 2 := by
    rw [← Real.cos_sub]
    have : θ + s.sgn * φ - θ = s.sgn * φ := by ring
    rw [this]
    have h2 : cos (s.sgn * φ) = cos φ := by cases s <;> simp [Sense.sgn]
    rw [h2]
    have h3 : cos φ = cos (2 * (φ / 2)) := by congr 1; ring
    rw [h3, Real.cos_two_mul, Real.cos_sq']; ring
  have e : (p.1 - q.1) ^ 2 + (p.2 - q.2) ^ 2 = (2 * (r * sin (φ / 2))) ^ 2 := by
    rw [hp, hq]
    have a1 := Real.sin_sq_add_cos_sq θ
    have a2 := Real.sin_sq_add_cos_sq (θ + s.sgn * φ)
    simp only
    generalize hA : cos (θ + s.sgn * φ) = A at *
    generalize hB : sin (θ + s.sgn * φ) = B at *
    generalize hC : cos θ = C at *
    generalize hD : sin θ = D at *
    have : (c.1 + r * C - (c.1 + r * A)) ^ 2 + (c.2 + r * D - (c.2 + r * B)) ^ 2 =
        r ^ 2 * ((D ^ 2 + C ^ 2) + (B ^ 2 + A ^ 2) - 2 * (A * C + B * D)) := by ring
    rw [this, a1, a2, hcos]; ring
  rw [e, Real.sqrt_sq (by positivity)]
  ring

/-- The cross product of start and end relative to the centre. -/
theorem cross {s : Sense} {c p q : ℝ × ℝ} {r φ : ℝ} (h : IsArc s c r φ p q) :
    s.sgn * ((p.1 - c.1) * (q.2 - c.2) - (p.2 - c.2) * (q.1 - c.1)) = r ^ 2 * sin φ := by
  obtain ⟨hr, h0, h1, θ, hp, hq⟩ := h
  rw [hp, hq]
  simp only
  have : (c.1 + r * cos θ - c.1) * (c.2 + r * sin (θ + s.sgn * φ) - c.2) -
      (c.2 + r * sin θ - c.2) * (c.1 + r * cos (θ + s.sgn * φ) - c.1) =
      r ^ 2 * (sin (θ + s.sgn * φ) * cos θ - cos (θ + s.sgn * φ) * sin θ) := by ring
  rw [this, ← Real.sin_sub]
  have h2 : θ + s.sgn * φ - θ = s.sgn * φ := by ring
  rw [h2]
  cases s <;> simp [Sense.sgn]

theorem radius_of_arc {s : Sense} {c p q : ℝ × ℝ} {r φ : ℝ} (h : IsArc s c r φ p q) :
    √((c.1 - p.1) ^ 2 + (c.2 - p.2) ^ 2) = r := by
  obtain ⟨hr, h0, h1, θ, hp, hq⟩ := h
  rw [hp]
  simp only
  have : (c.1 - (c.1 + r * cos θ)) ^ 2 + (c.2 - (c.2 + r * sin θ)) ^ 2 = r ^ 2 * (sin θ ^ 2 + cos θ ^ 2) := by ring
  rw [this, Real.sin_sq_add_cos_sq, mul_one, Real.sqrt_sq hr.le]

open Classical in
/-- The value computed for an arc given by its centre. -/
theorem arcIJ_of_arc {s : Sense} {c p q : ℝ × ℝ} {r φ : ℝ} (h : IsArc s c r φ p q)
    (ht : ¬ tinyRadius RF r) (hs : ¬ samePoint p.1 p.2 q.1 q.2) :
    arcIJ RF p.1 p.2 q.1 q.2 (c.1 - p.1) (c.2 - p.2) s.code =
      r * (if π < φ ∧ ¬ DifferentQuadrants (p.1 - c.1, p.2 - c.2) (q.1 - c.1, q.2 - c.2) then 2 * π - φ else φ) := by
  have hp := Real.pi_pos
  have hr := h.1
  have h2π : φ < 2 * π := by
    rcases lt_or_eq_of_le h.2.2.1 with h' | h'
    · exact h'
    · exfalso; apply hs
      obtain ⟨_, _, _, θ, hp', hq⟩ := h
      have e1 : cos (θ + s.sgn * φ) = cos θ := by
        rw [h']; cases s
        · simp only [Sense.sgn]; rw [show θ + -1 * (2 * π) = θ - 2 * π by ring, Real.cos_sub_two_pi]
        · simp only [Sense.sgn]; rw [one_mul, Real.cos_add_two_pi]
      have e2 : sin (θ + s.sgn * φ) = sin θ := by
        rw [h']; cases s
        · simp only [Sense.sgn]; rw [show θ + -1 * (2 * π) = θ - 2 * π by ring, Real.sin_sub_two_pi]
        · simp only [Sense.sgn]; rw [one_mul, Real.sin_add_two_pi]
      have : p = q := by rw [hp', hq, e1, e2]
      rw [this]; unfold samePoint; simp [tol_pos]
  rw [arcIJ_eq, radius_of_arc h, if_neg ht, chord h]
  have hneg1 : -(c.1 - p.1) = p.1 - c.1 := by ring
  have hneg2 : -(c.2 - p.2) = p.2 - c.2 := by ring
  have hq1 : q.1 - (p.1 + (c.1 - p.1)) = q.1 - c.1 := by ring
  have hq2 : q.2 - (p.2 + (c.2 - p.2)) = q.2 - c.2 := by ring
  rw [hneg1, hneg2, hq1, hq2]
  have hlong := longArc_iff s (p.1 - c.1) (p.2 - c.2) (q.1 - c.1) (q.2 - c.2)
  rw [cross h] at hlong
  have hsn : r ^ 2 * sin φ < 0 ↔ π < φ := by
    constructor
    · intro hneg
      by_contra hle
      have := Real.sin_nonneg_of_nonneg_of_le_pi h.2.1.le (not_lt.mp hle)
      nlinarith [sq_nonneg r]
    · intro hlt
      have h3 : 0 < sin (φ - π) := Real.sin_pos_of_pos_of_lt_pi (by linarith) (by linarith)
      rw [Real.sin_sub_pi] at h3
      have : 0 < r ^ 2 := by positivity
      nlinarith
  rw [hsn] at hlong
  unfold arcAngle
  rw [shortAngle_sweep hr h.2.1 h2π]
  simp only [hs, decide_false, Bool.false_eq_true, if_false]
  by_cases hlt : π < φ
  · have hmin : min φ (2 * π - φ) = 2 * π - φ := min_eq_right (by linarith)
    rw [hmin]
    by_cases hd : DifferentQuadrants (p.1 - c.1, p.2 - c.2) (q.1 - c.1, q.2 - c.2)
    · rw [if_pos (hlong.mpr ⟨hlt, hd⟩), if_neg (by tauto)]
      field_simp; ring
    · rw [if_neg (fun h' => hd (hlong.mp h').2), if_pos ⟨hlt, hd⟩]
      field_simp
  · have hmin : min φ (2 * π - φ) = φ := min_eq_left (by linarith)
    rw [hmin, if_neg (fun h' => hlt (hlong.mp h').1), if_neg (fun h' => hlt h'.1)]
    field_simp

end NC.Path
