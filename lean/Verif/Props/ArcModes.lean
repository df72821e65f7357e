import Verif.Props.Geometry

/-!
# C63: arcs programmed incrementally (G91)
-/

namespace NC.Props
open NC NC.Path Real NC.Spec.Geo

local notation "RF" => realFns

theorem arcsin_half {φ : ℝ} (h0 : 0 < φ) (h1 : φ < 2 * π) :
    Real.arcsin (sin (φ / 2)) = min φ (2 * π - φ) / 2 := by
  rcases le_total φ π with h | h
  · rw [Real.arcsin_sin (by linarith) (by linarith), min_eq_left (by linarith)]
  · rw [← Real.sin_pi_sub, Real.arcsin_sin (by linarith) (by linarith), min_eq_right (by linarith)]; ring

/-- The common part of both incremental arcs, for a real arc. -/
theorem arcIncr_of_arc {s : Sense} {c p q : ℝ × ℝ} {r φ : ℝ} (h : IsArc s c r φ p q) (ht : tol ≤ (π - 1) * r)
    (hφ : φ < 2 * π) (long : Bool) :
    arcIncr RF (q.1 - p.1) (q.2 - p.2) r long =
      some (r * (if long then 2 * π - min φ (2 * π - φ) else min φ (2 * π - φ))) := by
  have hp := Real.pi_pos
  have hr := h.1
  have h0 := h.2.1
  have hsin : 0 < sin (φ / 2) := Real.sin_pos_of_pos_of_lt_pi (by linarith) (by linarith)
  have hhalf : len2 RF (q.1 - p.1) (q.2 - p.2) / 2 = r * sin (φ / 2) := by
    rw [← chord h]
    unfold len2
    simp only [realFns]
    congr 2
    ring
  have hne : ¬ (q.1 - p.1 = 0 ∧ q.2 - p.2 = 0) := by
    rintro ⟨a, b⟩
    rw [a, b] at hhalf
    unfold len2 at hhalf
    simp [realFns] at hhalf
    rcases hhalf with h | h <;> linarith
  have hnt : ¬ tinyRadius RF r := by rw [tiny_iff hr.le]; linarith
  have hdiv : r * sin (φ / 2) / r = sin (φ / 2) := by field_simp
  have hasin : asinDiv RF (r * sin (φ / 2)) r = some (min φ (2 * π - φ) / 2) := by
    unfold asinDiv
    rw [if_neg hr.ne', hdiv, if_pos (Real.abs_sin_le_one _)]
    simp only [realFns]
    rw [arcsin_half h0 hφ]
  unfold arcIncr
  simp only [if_neg hne, if_neg hnt, if_true, hhalf, hasin]
  have ha : min φ (2 * π - φ) / 2 * deg RF * 2 / 360 * 2 * (RF).pi * r = r * min φ (2 * π - φ) := by
    unfold deg
    simp only [realFns]
    field_simp
    ring
  rw [ha]
  congr 1
  cases long
  · simp
  · simp only [if_true, realFns]; ring

/-- With a radius word the incremental arc has the length of the arc: a positive radius selects the arc of
at most half a turn, a negative one that of at least half a turn. -/
theorem C63_R {s : Sense} {c p q : ℝ × ℝ} {r φ : ℝ} (h : IsArc s c r φ p q) (ht : tol ≤ (π - 1) * r)
    (hφ2 : φ < 2 * π) :
    (φ ≤ π → arcRIncr RF (q.1 - p.1) (q.2 - p.2) r = some (r * φ)) ∧
    (π ≤ φ → arcRIncr RF (q.1 - p.1) (q.2 - p.2) (-r) = some (r * φ)) := by
  have hr := h.1
  have hneg : -r < 0 := by linarith
  constructor
  · intro hφ
    unfold arcRIncr
    rw [abs_of_pos hr, arcIncr_of_arc h ht hφ2]
    simp only [not_lt.mpr hr.le, decide_false, Bool.false_eq_true, if_false]
    rw [min_eq_left (by linarith)]
  · intro hφ
    unfold arcRIncr
    rw [abs_neg, abs_of_pos hr, arcIncr_of_arc h ht hφ2]
    simp only [hneg, decide_true, if_true]
    rw [min_eq_right (by linarith)]
    congr 2; ring

/-- Absolute and incremental programming of an arc with radius word agree. -/
theorem C63_R_agree {s : Sense} {c p q : ℝ × ℝ} {r φ : ℝ} (h : IsArc s c r φ p q) (ht : tol ≤ (π - 1) * r)
    (hs : tol ≤ |p.1 - q.1| ∨ tol ≤ |p.2 - q.2|) (hφ2 : φ < 2 * π) :
    (φ ≤ π → arcRIncr RF (q.1 - p.1) (q.2 - p.2) r = some (arcR RF p.1 p.2 q.1 q.2 r)) ∧
    (π ≤ φ → arcRIncr RF (q.1 - p.1) (q.2 - p.2) (-r) = some (arcR RF p.1 p.2 q.1 q.2 (-r))) := by
  refine ⟨fun hφ => ?_, fun hφ => ?_⟩
  · rw [(C63_R h ht hφ2).1 hφ, (C64_arc_R h ht hs).1 hφ]
  · rw [(C63_R h ht hφ2).2 hφ, (C64_arc_R h ht hs).2 hφ hφ2]

/-- With centre words the incremental arc has the length of the arc or of the rest of the circle. -/
theorem C63_IJ_partial {s : Sense} {c p q : ℝ × ℝ} {r φ : ℝ} (h : IsArc s c r φ p q) (ht : tol ≤ (π - 1) * r)
    (hφ2 : φ < 2 * π) (dir : Nat) :
    arcIJIncr RF (q.1 - p.1) (q.2 - p.2) (c.1 - p.1) (c.2 - p.2) dir = some (r * φ) ∨
    arcIJIncr RF (q.1 - p.1) (q.2 - p.2) (c.1 - p.1) (c.2 - p.2) dir = some (r * (2 * π - φ)) := by
  unfold arcIJIncr
  have hl : len2 RF (c.1 - p.1) (c.2 - p.2) = r := by
    rw [← radius_of_arc h]; rfl
  rw [hl, arcIncr_of_arc h ht hφ2]
  cases longIncr dir (q.1 - p.1) (q.2 - p.2) (c.1 - p.1) (c.2 - p.2) <;> simp only [Bool.false_eq_true, if_false, if_true]
  · rcases min_choice φ (2 * π - φ) with e | e <;> rw [e]
    · exact Or.inl rfl
    · exact Or.inr rfl
  · rcases min_choice φ (2 * π - φ) with e | e <;> rw [e]
    · exact Or.inr rfl
    · left; congr 2; ring

/-- The quarter turn from the origin about (0, 1), counter-clockwise. -/
theorem quarterArc : IsArc .ccw (0, 1) 1 (π / 2) (0, 0) (1, 1) := by
  have hp := Real.pi_pos
  refine ⟨one_pos, by linarith, by linarith, -(π / 2), ?_, ?_⟩
  · simp
  · simp [Sense.sgn]

/-- Violated: `G91 G3 X1 Y1 I0 J1`, a quarter turn, is reported as three quarters of the circle, while the
same arc in absolute words has the right length. -/
theorem C63_violated_quarter :
    arcIJIncr RF 1 1 0 1 3 = some (3 * π / 2) ∧ arcIJ RF 0 0 1 1 0 1 3 = π / 2 := by
  have hp := Real.pi_gt_three
  constructor
  · have h := arcIncr_of_arc quarterArc (by unfold tol; linarith) (by linarith) true
    have hl : len2 RF 0 1 = 1 := by unfold len2; simp [realFns]
    have hlong : longIncr 3 (1 : ℝ) 1 0 1 = true := by unfold longIncr; norm_num
    unfold arcIJIncr
    rw [hl, hlong]
    simp only [sub_zero, if_true] at h
    rw [h, min_eq_left (by linarith)]
    congr 1; ring
  · have h := (C64_arc_exact_iff_partial quarterArc (by unfold tol; linarith) (Or.inl (by unfold tol; norm_num))).mpr
      (Or.inl (by linarith))
    simp only [Sense.code, sub_zero, one_mul] at h
    exact h

/-- Violated: `G91 G3 X-1 Y-1 I-1 J0`, three quarters, is reported as a quarter. -/
theorem C63_violated_three_quarters :
    IsArc .ccw (0, 0) 1 (3 * π / 2) (1, 0) (0, -1) ∧ arcIJIncr RF (-1) (-1) (-1) 0 3 = some (π / 2) := by
  have hp := Real.pi_gt_three
  have harc := C64_violated_three_quarters.1
  refine ⟨harc, ?_⟩
  have h := arcIncr_of_arc harc (by unfold tol; linarith) (by linarith) false
  have hl : len2 RF (-1) 0 = 1 := by unfold len2; simp [realFns]
  have hlong : longIncr 3 (-1 : ℝ) (-1) (-1) 0 = false := by unfold longIncr; norm_num
  unfold arcIJIncr
  rw [hl, hlong]
  simp only [zero_sub, sub_zero, Bool.false_eq_true, if_false] at h
  rw [h, min_eq_right (by linarith)]
  congr 1; ring

/-- Violated: an end point farther away than the diameter gives no number (and the totals become NaN),
while in absolute words the length is bounded (`C29_arc_bounds_R`). -/
theorem C63_violated_unreachable (x y r : ℝ) (hr : 0 < r) (ht : tol ≤ (π - 1) * r) (h : (2 * r) ^ 2 < x ^ 2 + y ^ 2) :
    arcRIncr RF x y r = none := by
  have hd : 2 * r < len2 RF x y := by
    unfold len2
    exact (Real.lt_sqrt (by linarith)).mpr h
  have hne : ¬ (x = 0 ∧ y = 0) := by
    rintro ⟨rfl, rfl⟩
    have := sq_nonneg (2 * r)
    norm_num at h
    linarith
  have hnt : ¬ tinyRadius RF r := by rw [tiny_iff hr.le]; linarith
  have hasin : asinDiv RF (len2 RF x y / 2) r = none := by
    unfold asinDiv
    rw [if_neg hr.ne', if_neg]
    rw [abs_of_pos (div_pos (by linarith) hr), not_le, lt_div_iff₀ hr]
    linarith
  unfold arcRIncr arcIncr
  simp only [abs_of_pos hr, if_neg hne, if_neg hnt, if_true, hasin]

example : tol ≤ (π - 1) * 1 ∧ (2 * (1 : ℝ)) ^ 2 < 3 ^ 2 + 0 ^ 2 := by
  have hp := Real.pi_gt_three
  constructor
  · unfold tol; linarith
  · norm_num

end NC.Props
