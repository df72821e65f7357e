import Verif.Props.SimLength
import Verif.Props.Geometry
import Verif.Spec.Space
import Verif.SimDemo
import Mathlib.Analysis.SpecialFunctions.Complex.Arg

/-!
# C127: the sense of an arc as seen from the axis across the plane
-/

namespace NC.Props
open NC NC.Path NC.Ver NC.AttrPath NC.Spec.Sim NC.Spec.Geo Real Matrix

local notation "RF" => realFns

/-- The opposite sense. -/
def backwards : Sense → Sense
  | .cw => .ccw
  | .ccw => .cw

theorem backwards_sgn (s : Sense) : (backwards s).sgn = -s.sgn := by cases s <;> simp [backwards, Sense.sgn]

/-- A point on a circle has an angle. -/
theorem has_angle {a b r : ℝ} (hr : 0 < r) (h : a ^ 2 + b ^ 2 = r ^ 2) : ∃ θ, a = r * cos θ ∧ b = r * sin θ := by
  have hn : ‖(⟨a, b⟩ : ℂ)‖ = r := by
    rw [Complex.norm_def, Complex.normSq_mk, ← sq, ← sq, h, Real.sqrt_sq hr.le]
  refine ⟨Complex.arg ⟨a, b⟩, ?_, ?_⟩
  · have := Complex.norm_mul_cos_arg ⟨a, b⟩
    rw [hn] at this
    exact this.symm
  · have := Complex.norm_mul_sin_arg ⟨a, b⟩
    rw [hn] at this
    exact this.symm

/-- An arc in the plane from its equations. -/
theorem arc_of {s : Sense} {c p q : ℝ × ℝ} {r φ : ℝ} (hr : 0 < r) (h0 : 0 < φ) (h1 : φ ≤ 2 * π)
    (hp : (p.1 - c.1) ^ 2 + (p.2 - c.2) ^ 2 = r ^ 2)
    (hu : q.1 - c.1 = cos φ * (p.1 - c.1) - s.sgn * sin φ * (p.2 - c.2))
    (hv : q.2 - c.2 = cos φ * (p.2 - c.2) + s.sgn * sin φ * (p.1 - c.1)) : IsArc s c r φ p q := by
  obtain ⟨θ, e1, e2⟩ := has_angle hr hp
  have hc : cos (s.sgn * φ) = cos φ := by cases s <;> simp [Sense.sgn]
  have hs : sin (s.sgn * φ) = s.sgn * sin φ := by cases s <;> simp [Sense.sgn]
  refine ⟨hr, h0, h1, θ, ?_, ?_⟩
  · ext <;> simp only <;> linarith
  · rw [e1, e2] at hu hv
    rw [cos_add, sin_add, hc, hs]
    ext <;> simp only <;> linarith

/-- The same arc the other way round. -/
theorem other_way {s : Sense} {c p q : ℝ × ℝ} {r φ : ℝ} (h : IsArc s c r φ p q) (hf : φ < 2 * π) :
    IsArc (backwards s) c r (2 * π - φ) p q := by
  obtain ⟨hr, h0, h1, θ, e1, e2⟩ := h
  refine ⟨hr, by linarith, by linarith, θ, e1, ?_⟩
  have : θ + (backwards s).sgn * (2 * π - φ) = θ + s.sgn * φ + (backwards s).sgn * (2 * π) := by rw [backwards_sgn]; ring
  rw [this, e2]
  cases s
  · simp only [backwards, Sense.sgn, one_mul, cos_add_two_pi, sin_add_two_pi]
  · simp only [backwards, Sense.sgn, neg_one_mul, ← sub_eq_add_neg, cos_sub_two_pi, sin_sub_two_pi]

/-- The axes of a plane as numbers. -/
def firstNo (plane : Int) : Fin 3 := axisNo (planeAxes plane).u
def secondNo (plane : Int) : Fin 3 := axisNo (planeAxes plane).v

/-- A turn about the axis of the plane is an arc in its coordinates; in G18 the code's coordinates are left-handed. -/
theorem turn_arc {n : Int} {s : Sense} {c p q : Fin 3 → ℝ} {r φ : ℝ} (h : Turn (seenFrom n) s c r φ p q) :
    IsArc (if n = 18 then backwards s else s) (c (firstNo n), c (secondNo n)) r φ (p (firstNo n), p (secondNo n)) (q (firstNo n), q (secondNo n)) := by
  obtain ⟨hr, h0, h1, hn, hp, hq⟩ := h
  have q0 := congrFun hq 0
  have q1 := congrFun hq 1
  have q2 := congrFun hq 2
  by_cases h18 : n = 18
  · subst h18
    rw [if_pos rfl, show firstNo 18 = 0 by decide, show secondNo 18 = 2 by decide]
    simp only [seenFrom, if_true, cross_apply, vec3_dotProduct, Pi.sub_apply, Pi.add_apply, Pi.smul_apply, smul_eq_mul,
      Matrix.cons_val_zero, Matrix.cons_val_one, Matrix.cons_val] at hn hp q0 q1 q2
    refine arc_of hr h0 h1 ?_ ?_ ?_
    · simp only; nlinarith
    · simp only [backwards_sgn]; linarith
    · simp only [backwards_sgn]; linarith
  · rw [if_neg h18]
    by_cases h19 : n = 19
    · subst h19
      rw [show firstNo 19 = 1 by decide, show secondNo 19 = 2 by decide]
      simp only [seenFrom, h18, if_true, if_false, cross_apply, vec3_dotProduct, Pi.sub_apply, Pi.add_apply, Pi.smul_apply, smul_eq_mul,
        Matrix.cons_val_zero, Matrix.cons_val_one, Matrix.cons_val] at hn hp q0 q1 q2
      refine arc_of hr h0 h1 ?_ ?_ ?_
      · simp only; nlinarith
      · simp only; linarith
      · simp only; linarith
    · have e1 : firstNo n = 0 := by unfold firstNo planeAxes; rw [if_neg h18, if_neg h19]; decide
      have e2 : secondNo n = 1 := by unfold secondNo planeAxes; rw [if_neg h18, if_neg h19]; decide
      rw [e1, e2]
      simp only [seenFrom, h18, h19, if_false, cross_apply, vec3_dotProduct, Pi.sub_apply, Pi.add_apply, Pi.smul_apply, smul_eq_mul,
        Matrix.cons_val_zero, Matrix.cons_val_one, Matrix.cons_val] at hn hp q0 q1 q2
      refine arc_of hr h0 h1 ?_ ?_ ?_
      · simp only; nlinarith
      · simp only; linarith
      · simp only; linarith

/-- The functions of the planes (PathCalculator.h:61-102 calls the same function with the coordinates of the plane and the number of the
code): of the turn G2 or G3 stands for, seen from the positive end of the axis across the plane, the length is right in G17 and G19
exactly if the turn is at most half a turn or its ends lie inside different quadrants. -/
theorem C127_G17_G19_partial {n : Int} (hn : n ≠ 18) {s : Sense} {c p q : Fin 3 → ℝ} {r φ : ℝ} (h : Turn (seenFrom n) s c r φ p q)
    (ht : tol ≤ (π - 1) * r) (hs : tol ≤ |p (firstNo n) - q (firstNo n)| ∨ tol ≤ |p (secondNo n) - q (secondNo n)|) :
    arcIJ RF (p (firstNo n)) (p (secondNo n)) (q (firstNo n)) (q (secondNo n)) (c (firstNo n) - p (firstNo n))
        (c (secondNo n) - p (secondNo n)) s.code = r * φ ↔
      φ ≤ π ∨ DifferentQuadrants (p (firstNo n) - c (firstNo n), p (secondNo n) - c (secondNo n))
        (q (firstNo n) - c (firstNo n), q (secondNo n) - c (secondNo n)) := by
  have h1 := turn_arc h
  rw [if_neg hn] at h1
  have h2 := C64_arc_exact_iff_partial h1 ht hs
  simp only at h2
  exact h2

/-- In G18 it is right exactly for half a turn and for less than that if the ends do not lie inside different quadrants. -/
theorem C127_G18_partial {s : Sense} {c p q : Fin 3 → ℝ} {r φ : ℝ} (h : Turn (seenFrom 18) s c r φ p q)
    (ht : tol ≤ (π - 1) * r) (hs : tol ≤ |p 0 - q 0| ∨ tol ≤ |p 2 - q 2|) :
    arcIJ RF (p 0) (p 2) (q 0) (q 2) (c 0 - p 0) (c 2 - p 2) s.code = r * φ ↔
      φ = π ∨ (φ < π ∧ ¬ DifferentQuadrants (p 0 - c 0, p 2 - c 2) (q 0 - c 0, q 2 - c 2)) := by
  have h1 := turn_arc h
  rw [if_pos rfl, show firstNo 18 = 0 by decide, show secondNo 18 = 2 by decide] at h1
  have hr := h1.1
  have hp := Real.pi_pos
  have hf : φ < 2 * π := by
    refine lt_of_le_of_ne h1.2.2.1 ?_
    rintro rfl
    have hq := h.2.2.2.2.2
    rw [Real.cos_two_pi, Real.sin_two_pi, mul_zero, zero_smul, one_smul, add_zero] at hq
    have h0 : q 0 = p 0 := by have := congrFun hq 0; simp only [Pi.sub_apply] at this; linarith
    have h2 : q 2 = p 2 := by have := congrFun hq 2; simp only [Pi.sub_apply] at this; linarith
    rw [h0, h2, sub_self, sub_self, abs_zero] at hs
    unfold tol at hs
    rcases hs with hs | hs <;> norm_num at hs
  have h2 := other_way h1 hf
  have hb : backwards (backwards s) = s := by cases s <;> rfl
  rw [hb] at h2
  have hi := C64_arc_exact_iff_partial h2 ht hs
  simp only at hi
  by_cases hd : DifferentQuadrants (p 0 - c 0, p 2 - c 2) (q 0 - c 0, q 2 - c 2)
  · have he := hi.mpr (Or.inr hd)
    rw [he]
    constructor
    · intro e
      have := mul_left_cancel₀ hr.ne' e
      exact Or.inl (by linarith)
    · rintro (e | ⟨_, e⟩)
      · rw [e]; ring
      · exact absurd hd e
  · by_cases hl : 2 * π - φ ≤ π
    · rw [hi.mpr (Or.inl hl)]
      constructor
      · intro e
        have := mul_left_cancel₀ hr.ne' e
        exact Or.inl (by linarith)
      · rintro (e | ⟨e, _⟩)
        · rw [e]; ring
        · linarith
    · have hw := C64_arc_wrong_way h2 ht hs (not_le.mp hl) hd
      simp only at hw
      rw [hw]
      constructor
      · intro _
        exact Or.inr ⟨by linarith [not_le.mp hl], hd⟩
      · intro _
        ring

/-- **C127, blocks.** The turn of an accepted block from the position before it to the position after it is reported with its length in G17 and
G19 exactly if it is at most half a turn or ends inside another quadrant, and in G18 exactly if it is half a turn, or less and does not end
inside another quadrant. -/
theorem C127_block_partial {c : Cfg ℝ} (hc : WF c) (hx : AxesOk c) (hm : c.mtype = .other) (inch : Inch)
    (line : Int) (b : Block) (p : St ℝ × MacroMap ℚ) (hp : Inv p.1) (hb : Plain b) (hne : b ≠ [])
    (hr : NotPending p.1 b) {n : Int} (hn : planeCode b (planeNum p.1.plane) = n) (hA : ArcBlock b p.1 (planeAxes n))
    (hR : programmed (K := ℝ) b c!"R" = none) (h : (evaluate RF c inch line b p).2 = .ok ()) {P Q C : Fin 3 → ℝ} {r φ : ℝ} {s : Sense}
    (hX : pos p.1 (planeAxes n).u = some (P (firstNo n))) (hY : pos p.1 (planeAxes n).v = some (P (secondNo n)))
    (hX' : pos (evaluate RF c inch line b p).1.1 (planeAxes n).u = some (Q (firstNo n)))
    (hY' : pos (evaluate RF c inch line b p).1.1 (planeAxes n).v = some (Q (secondNo n)))
    (hI : pos (evaluate RF c inch line b p).1.1 (planeAxes n).cu = some (C (firstNo n) - P (firstNo n)))
    (hJ : pos (evaluate RF c inch line b p).1.1 (planeAxes n).cv = some (C (secondNo n) - P (secondNo n)))
    (hs : motionCode b p.1.g = s.code) (ht : Turn (seenFrom n) s C r φ P Q) (hr0 : tol ≤ (π - 1) * r)
    (hd : tol ≤ |P (firstNo n) - Q (firstNo n)| ∨ tol ≤ |P (secondNo n) - Q (secondNo n)|) :
    (evaluate RF c inch line b p).1.1.path.work = some (r * φ) ↔
      if n = 18 then φ = π ∨ (φ < π ∧ ¬ DifferentQuadrants (P 0 - C 0, P 2 - C 2) (Q 0 - C 0, Q 2 - C 2))
      else φ ≤ π ∨ DifferentQuadrants (P (firstNo n) - C (firstNo n), P (secondNo n) - C (secondNo n))
        (Q (firstNo n) - C (firstNo n), Q (secondNo n) - C (secondNo n)) := by
  subst hn
  obtain ⟨x1, y1, e1, e2, _, k⟩ := C29_planes_partial RF hc hx hm inch line b p hp hb hne hr hA h hX hY
  rw [e1] at hX'
  rw [e2] at hY'
  rcases k with ⟨i1, j1, k1, k2, _, k3⟩ | ⟨r1, k1, _⟩
  · rw [hI] at k1
    rw [hJ] at k2
    rw [k3, hs, Option.some.inj hX', Option.some.inj hY', ← Option.some.inj k1, ← Option.some.inj k2, Option.some.injEq,
      show ((s.code : Int)).toNat = s.code by cases s <;> rfl]
    generalize planeCode b (planeNum p.1.plane) = n at *
    by_cases h18 : n = 18
    · subst h18
      rw [if_pos rfl]
      rw [show firstNo 18 = 0 by decide, show secondNo 18 = 2 by decide] at *
      exact C127_G18_partial ht hr0 hd
    · rw [if_neg h18]
      exact C127_G17_G19_partial h18 ht hr0 hd
  · rw [hR] at k1; cases k1

/-- A quarter turn about Y, clockwise as seen from its positive end. -/
theorem quarter_turn : Turn (seenFrom 18) .cw ![0, 0, 0] √2 (π / 2) ![1, 0, 1] ![-1, 0, 1] := by
  have hp := Real.pi_pos
  refine ⟨by positivity, by linarith, by linarith, ?_, ?_, ?_⟩
  · simp [seenFrom, vec3_dotProduct]
  · rw [Real.sq_sqrt (by norm_num)]
    simp [vec3_dotProduct]
    norm_num
  · rw [Real.cos_pi_div_two, Real.sin_pi_div_two]
    ext i
    fin_cases i <;> simp [seenFrom, cross_apply, Sense.sgn]

/-- **C127 violated.** G18 G2 X-1 Z1 I-1 K-1 from X1 Z1 is a quarter turn, seen from the positive end of Y as G17 is seen from the positive
end of Z (Z is the first axis of G18 and X the second); three quarters of the circle are counted. -/
theorem C127_violated_G18 :
    Turn (seenFrom 18) .cw ![0, 0, 0] √2 (π / 2) ![1, 0, 1] ![-1, 0, 1] ∧
      arcIJ RF 1 1 (-1) 1 (-1) (-1) 2 = √2 * (3 * π / 2) := by
  refine ⟨quarter_turn, ?_⟩
  have hp := Real.pi_gt_three
  have h2 : 1 ≤ √2 := Real.one_le_sqrt.mpr (by norm_num)
  have h1 := turn_arc quarter_turn
  rw [if_pos rfl, show firstNo 18 = 0 by decide, show secondNo 18 = 2 by decide] at h1
  have h3 := other_way h1 (by linarith)
  have h4 := (C64_arc_exact_iff_partial h3 (by unfold tol; nlinarith) (Or.inl (by simp [tol]; norm_num))).mpr
    (Or.inr (by simp [DifferentQuadrants]))
  simp [backwards, Sense.code] at h4
  rw [h4]
  ring

/-- `C127_G17_G19_partial` with `Turn`: the same turn about Z, G17 G3. -/
example : Turn (seenFrom 17) .ccw ![0, 0, 0] √2 (π / 2) ![1, 1, 0] ![-1, 1, 0] := by
  have hp := Real.pi_pos
  refine ⟨by positivity, by linarith, by linarith, ?_, ?_, ?_⟩
  · simp [seenFrom, vec3_dotProduct]
  · rw [Real.sq_sqrt (by norm_num)]
    simp [vec3_dotProduct]
    norm_num
  · rw [Real.cos_pi_div_two, Real.sin_pi_div_two]
    ext i
    fin_cases i <;> simp [seenFrom, cross_apply, Sense.sgn]

section
open SimDemo

/-- The functions with the arctangent of one, a quarter of the circle number of `qf`. -/
def quarters : Fns ℚ := { qf with atan := fun _ => 11 / 14 }

/-- The block as a program: from X3 Y3 Z3, in G17 and in G18 the same number of the code counts the same arc, although the planes are
seen from opposite sides: of the turns by a quarter about Z (G3) and about Y (G2), one is counted with a quarter, one with three quarters. -/
theorem C127_violated_program :
    let p := run mill [[w c!"G" c!"1", w c!"X" c!"3", w c!"Y" c!"3", w c!"Z" c!"3", w c!"F" c!"100"]] (start mill)
    let b : Block := [w c!"G" c!"17", w c!"G" c!"3", wn c!"X" c!"3", w c!"Y" c!"3", wn c!"I" c!"3", wn c!"J" c!"3"]
    let b' : Block := [w c!"G" c!"18", w c!"G" c!"2", wn c!"X" c!"3", w c!"Z" c!"3", wn c!"I" c!"3", wn c!"K" c!"3"]
    (evaluate quarters mill false 1 b p).2 = .ok () ∧ (evaluate quarters mill false 1 b' p).2 = .ok () ∧
    ∃ l, (evaluate quarters mill false 1 b p).1.1.path.work = some l ∧ 0 < l ∧
      (evaluate quarters mill false 1 b' p).1.1.path.work = some (3 * l) := by
  refine ⟨by decide +kernel, by decide +kernel, ((evaluate quarters mill false 1 [w c!"G" c!"17", w c!"G" c!"3", wn c!"X" c!"3", w c!"Y" c!"3", wn c!"I" c!"3", wn c!"J" c!"3"] (run mill [[w c!"G" c!"1", w c!"X" c!"3", w c!"Y" c!"3", w c!"Z" c!"3", w c!"F" c!"100"]] (start mill))).1.1.path.work).getD 0, by decide +kernel, by decide +kernel, by decide +kernel⟩

/-- The hypotheses of `C127_block_partial` on blocks are met. -/
example :
    let b : Block := [w c!"G" c!"18", w c!"G" c!"2", wn c!"X" c!"3", w c!"Z" c!"3", wn c!"I" c!"3", wn c!"K" c!"3"]
    planeCode b 17 = 18 ∧ ArcBlock (K := ℚ) b (start mill).1 (planeAxes 18) ∧ programmed (K := ℚ) b c!"R" = none :=
  ⟨by decide +kernel, ⟨by decide +kernel, by decide +kernel, by decide +kernel, by decide +kernel, by decide +kernel⟩, by decide +kernel⟩

end

end NC.Props
