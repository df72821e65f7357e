import Verif.Props.Back
import Verif.Spec.Scaled

/-!
# C137: the path of a part of another size
-/

namespace NC.Props
open NC NC.Path NC.Ver NC.AttrPath NC.Spec.Sim NC.Spec.Geo Real

local notation "RF" => realFns

/-- An arc of the part is an arc of the larger part, of the same sweep and sense. -/
theorem arc_scaled {s : Sense} {c p q : ℝ × ℝ} {r φ k : ℝ} (hk : 0 < k) (h : IsArc s c r φ p q) :
    IsArc s (scaledTo k c) (k * r) φ (scaledTo k p) (scaledTo k q) := by
  obtain ⟨h1, h2, h3, α, rfl, rfl⟩ := h
  refine ⟨mul_pos hk h1, h2, h3, α, ?_, ?_⟩ <;> unfold scaledTo <;> ext <;> dsimp only <;> ring

theorem quadrants_scaled {k : ℝ} (hk : 0 < k) (p q c : ℝ × ℝ) :
    DifferentQuadrants ((scaledTo k p).1 - (scaledTo k c).1, (scaledTo k p).2 - (scaledTo k c).2)
        ((scaledTo k q).1 - (scaledTo k c).1, (scaledTo k q).2 - (scaledTo k c).2) ↔
      DifferentQuadrants (p.1 - c.1, p.2 - c.2) (q.1 - c.1, q.2 - c.2) := by
  have hk2 : 0 < k * k := mul_pos hk hk
  have hn : ∀ x : ℝ, k * x ≠ 0 ↔ x ≠ 0 := fun x => by simp [hk.ne']
  have hm : ∀ x y : ℝ, k * x * (k * y) < 0 ↔ x * y < 0 := fun x y => by
    rw [show k * x * (k * y) = k * k * (x * y) by ring]
    constructor
    · intro h; by_contra h'; nlinarith [mul_nonneg hk2.le (not_lt.mp h')]
    · intro h; exact mul_neg_of_pos_of_neg hk2 h
  unfold DifferentQuadrants scaledTo
  dsimp only
  simp only [← mul_sub, hn, hm]

theorem sqrt_scaled {k : ℝ} (hk : 0 ≤ k) (x : ℝ) : √(k ^ 2 * x) = k * √x := by
  rw [Real.sqrt_mul (sq_nonneg k), Real.sqrt_sq hk]

theorem dist2_scaled {k : ℝ} (hk : 0 ≤ k) (p q : ℝ × ℝ) :
    dist2 RF (scaledTo k p).1 (scaledTo k p).2 (scaledTo k q).1 (scaledTo k q).2 = k * dist2 RF p.1 p.2 q.1 q.2 := by
  unfold dist2 len2 scaledTo
  show √_ = k * √_
  rw [← sqrt_scaled hk]
  congr 1
  ring

/-- The motion of the larger part. -/
def Leg.scaledBy (k : ℝ) : Leg → Leg
  | .line x y z x' y' z' => .line (k * x) (k * y) (k * z) (k * x') (k * y') (k * z')
  | .centre s c p q => .centre s (scaledTo k c) (scaledTo k p) (scaledTo k q)
  | .radius r p q => .radius (k * r) (scaledTo k p) (scaledTo k q)

/-- Neither the arc of the part nor that of the larger part is mistaken for a point or a circle, or both are. -/
def Leg.SameScale (k : ℝ) : Leg → Prop
  | .line .. => True
  | .centre _ c p q =>
      (samePoint (k * p.1) (k * p.2) (k * q.1) (k * q.2) ↔ samePoint p.1 p.2 q.1 q.2) ∧
      ((π - 1) * (k * √((p.1 - c.1) ^ 2 + (p.2 - c.2) ^ 2)) < tol ↔ (π - 1) * √((p.1 - c.1) ^ 2 + (p.2 - c.2) ^ 2) < tol)
  | .radius r p q =>
      (samePoint (k * p.1) (k * p.2) (k * q.1) (k * q.2) ↔ samePoint p.1 p.2 q.1 q.2) ∧
      ((π - 1) * (k * |r|) < tol ↔ (π - 1) * |r| < tol)

theorem arc_far {s : Sense} {c p q : ℝ × ℝ} {r φ : ℝ} (h : IsArc s c r φ p q) : √((p.1 - c.1) ^ 2 + (p.2 - c.2) ^ 2) = r := by
  obtain ⟨h1, _, _, α, rfl, _⟩ := h
  dsimp only
  rw [show (c.1 + r * cos α - c.1) ^ 2 + (c.2 + r * sin α - c.2) ^ 2 = r ^ 2 by linear_combination r ^ 2 * sin_sq_add_cos_sq α,
    Real.sqrt_sq h1.le]

theorem arcAngle_scaled {k r : ℝ} (hk : 0 < k) (long same : Bool) (half : ℝ) :
    arcAngle RF long same (k * r) (k * half) = arcAngle RF long same r half := by
  have e : shortAngle RF (k * r) (k * half) = shortAngle RF r half := by
    unfold shortAngle
    congr 2
    have e1 : (RF).sqrt |(k * r) ^ 2 - (k * half) ^ 2| = k * (RF).sqrt |r ^ 2 - half ^ 2| := by
      show √_ = k * √_
      rw [← sqrt_scaled hk.le, show (k * r) ^ 2 - (k * half) ^ 2 = k ^ 2 * (r ^ 2 - half ^ 2) by ring, abs_mul, abs_of_nonneg (sq_nonneg k)]
    rw [e1]
    unfold atanDiv
    simp only [mul_eq_zero, hk.ne', false_or, mul_div_mul_left _ _ hk.ne', mul_pos_iff_of_pos_left hk]
    have hneg : k * half < 0 ↔ half < 0 := by
      constructor
      · intro h; by_contra h'; nlinarith [mul_nonneg hk.le (not_lt.mp h')]
      · intro h; exact mul_neg_of_pos_of_neg hk h
    simp only [hneg]
  unfold arcAngle
  rw [e]

open Classical in
theorem scaled_len {k : ℝ} (hk : 0 < k) {m : Leg} (hr : m.Round) (h : m.SameScale k) : (m.scaledBy k).len = k * m.len := by
  cases m with
  | line x y z x' y' z' =>
    show √((k * x - k * x') ^ 2 + (k * y - k * y') ^ 2 + (k * z - k * z') ^ 2) = k * √((x - x') ^ 2 + (y - y') ^ 2 + (z - z') ^ 2)
    rw [← sqrt_scaled hk.le]
    congr 1
    ring
  | centre s c p q =>
    obtain ⟨hs, ht⟩ := h
    obtain ⟨r, φ, ha⟩ := hr
    have ha' := arc_scaled hk ha
    rw [arc_far ha] at ht
    rw [← tiny_iff ha.1.le, ← tiny_iff ha'.1.le] at ht
    show arcIJ RF _ _ _ _ _ _ _ = k * arcIJ RF _ _ _ _ _ _ _
    by_cases h1 : tinyRadius RF r
    · exact ((arc_small ha').1 (ht.mpr h1)).trans (by rw [(arc_small ha).1 h1])
    · have h1' := fun z => h1 (ht.mp z)
      by_cases h2 : samePoint p.1 p.2 q.1 q.2
      · refine ((arc_small ha').2 h1' (hs.mpr h2)).trans ?_
        rw [(arc_small ha).2 h1 h2]
        ring
      · rw [arcIJ_of_arc ha h1 h2, arcIJ_of_arc ha' h1' (fun z => h2 (hs.mp z)), mul_assoc]
        exact congrArg (fun z => k * (r * z)) (if_congr (and_congr_right' (not_congr (quadrants_scaled hk p q c))) rfl rfl)
  | radius r p q =>
    obtain ⟨hs, ht⟩ := h
    have ht' : tinyRadius RF (k * |r|) ↔ tinyRadius RF |r| := by
      rw [tiny_iff (abs_nonneg r), tiny_iff (mul_nonneg hk.le (abs_nonneg r))]
      exact ht
    have hs' : samePoint (scaledTo k p).1 (scaledTo k p).2 (scaledTo k q).1 (scaledTo k q).2 ↔ samePoint p.1 p.2 q.1 q.2 := hs
    show arcR RF _ _ _ _ _ = k * arcR RF _ _ _ _ _
    unfold arcR
    have hneg : k * r < 0 ↔ r < 0 := by
      constructor
      · intro h; by_contra h'; nlinarith [mul_nonneg hk.le (not_lt.mp h')]
      · intro h; exact mul_neg_of_pos_of_neg hk h
    simp only [dist2_scaled hk.le, abs_mul, abs_of_pos hk, mul_div_assoc, decide_eq_decide.mpr hs', decide_eq_decide.mpr hneg]
    by_cases h1 : tinyRadius RF |r|
    · rw [if_pos h1, if_pos (ht'.mpr h1)]
    · rw [if_neg h1, if_neg (fun z => h1 (ht'.mp z)), arcAngle_scaled hk]
      ring

/-- **C137, programs.** Two accepted programs of straight moves and arcs, the second of which makes the motions of the first for a part
`k` times as large: the path added is `k` times as long. -/
theorem C137_program_partial {c : Cfg ℝ} (hc : WF c) (hx : AxesOk c) (hm : c.mtype = .other) (ha : c.autoRapid = false) (inch : Inch) {q q' : Prog}
    {p p' : St ℝ × MacroMap ℚ} {ms : List Leg} {k : ℝ} (hk : 0 < k) (h : MovesAlong c inch q p ms)
    (h' : MovesAlong c inch q' p' (ms.map (Leg.scaledBy k))) (hs : ∀ m ∈ ms, m.SameScale k)
    (hp : Inv p.1) (hp' : Inv p'.1) (hr : p.1.autoRapid = false) (hr' : p'.1.autoRapid = false) {a a' : ℝ}
    (hA : p.1.path.total = some a) (hA' : p'.1.path.total = some a')
    (hok : (Sml.run RF c inch q p).2 = .ok ()) (hok' : (Sml.run RF c inch q' p').2 = .ok ()) :
    ∃ L, (Sml.run RF c inch q p).1.1.path.total = some (a + L) ∧ (Sml.run RF c inch q' p').1.1.path.total = some (a' + k * L) := by
  obtain ⟨h1, h2⟩ := moves_total hc hx hm ha inch h hp hr hA hok
  obtain ⟨h3, _⟩ := moves_total hc hx hm ha inch h' hp' hr' hA' hok'
  refine ⟨_, h1, ?_⟩
  rw [h3, List.map_map, ← List.sum_map_mul_left]
  congr 3
  apply List.map_congr_left
  intro m hmem
  exact scaled_len hk (h2 m hmem) (hs m hmem)

/-- Arcs with a radius of at least the tolerance and ends that coincide exactly or differ by at least the tolerance. -/
def Leg.Sound : Leg → Prop
  | .line .. => True
  | .centre _ c p q => (p = q ∨ tol ≤ |p.1 - q.1| ∨ tol ≤ |p.2 - q.2|) ∧ tol ≤ √((p.1 - c.1) ^ 2 + (p.2 - c.2) ^ 2)
  | .radius r p q => (p = q ∨ tol ≤ |p.1 - q.1| ∨ tol ≤ |p.2 - q.2|) ∧ tol ≤ |r|

theorem same_scaled {k : ℝ} (hk : 1 ≤ k) {p q : ℝ × ℝ} (h : p = q ∨ tol ≤ |p.1 - q.1| ∨ tol ≤ |p.2 - q.2|) :
    samePoint (k * p.1) (k * p.2) (k * q.1) (k * q.2) ↔ samePoint p.1 p.2 q.1 q.2 := by
  unfold samePoint
  have ht : (0 : ℝ) < tol := by unfold tol; norm_num
  rcases h with rfl | h
  · simp [ht]
  · have e : ∀ x : ℝ, |x| ≤ |k * x| := fun x => by
      rw [abs_mul, abs_of_pos (by linarith : 0 < k)]
      nlinarith [abs_nonneg x]
    rw [← mul_sub, ← mul_sub]
    have e1 := e (p.1 - q.1)
    have e2 := e (p.2 - q.2)
    constructor <;> rintro ⟨a, b⟩ <;> exfalso <;> rcases h with h | h <;> linarith

theorem radius_scaled {k r : ℝ} (hk : 1 ≤ k) (h : tol ≤ r) : (π - 1) * (k * r) < tol ↔ (π - 1) * r < tol := by
  have hp := Real.pi_gt_three
  have ht : (0 : ℝ) < tol := by unfold tol; norm_num
  have h1 : r ≤ k * r := by nlinarith
  have h2 : r ≤ (π - 1) * r := by nlinarith
  have h3 : k * r ≤ (π - 1) * (k * r) := by nlinarith
  constructor <;> intro z <;> exfalso <;> linarith

/-- **C137, larger parts.** For a part that is larger no condition on the second program is needed. -/
theorem C137_larger {c : Cfg ℝ} (hc : WF c) (hx : AxesOk c) (hm : c.mtype = .other) (ha : c.autoRapid = false) (inch : Inch) {q q' : Prog}
    {p p' : St ℝ × MacroMap ℚ} {ms : List Leg} {k : ℝ} (hk : 1 ≤ k) (h : MovesAlong c inch q p ms)
    (h' : MovesAlong c inch q' p' (ms.map (Leg.scaledBy k))) (hs : ∀ m ∈ ms, m.Sound)
    (hp : Inv p.1) (hp' : Inv p'.1) (hr : p.1.autoRapid = false) (hr' : p'.1.autoRapid = false) {a a' : ℝ}
    (hA : p.1.path.total = some a) (hA' : p'.1.path.total = some a')
    (hok : (Sml.run RF c inch q p).2 = .ok ()) (hok' : (Sml.run RF c inch q' p').2 = .ok ()) :
    ∃ L, (Sml.run RF c inch q p).1.1.path.total = some (a + L) ∧ (Sml.run RF c inch q' p').1.1.path.total = some (a' + k * L) := by
  refine C137_program_partial hc hx hm ha inch (by linarith) h h' ?_ hp hp' hr hr' hA hA' hok hok'
  intro m hmem
  have := hs m hmem
  cases m with
  | line => trivial
  | centre s c p q => exact ⟨same_scaled hk this.1, radius_scaled hk this.2⟩
  | radius r p q => exact ⟨same_scaled hk this.1, radius_scaled hk this.2⟩

/-- **C137 fails for tiny chords.** An arc of the radius 1 to a point nearer than the tolerance is counted with a full circle; the same arc of
a part four times as large with at most half a circle, a quarter of what it should be. -/
theorem C137_violated_chord :
    arcR RF 0 0 (tol / 2) 0 1 = 2 * π ∧ arcR RF (4 * 0) (4 * 0) (4 * (tol / 2)) (4 * 0) (4 * 1) ≤ 4 * π ∧
      ¬ (Leg.radius 1 (0, 0) (tol / 2, 0)).Sound := by
  have hp := Real.pi_gt_three
  have ht := tol_pos
  have hv : (tol : ℝ) < 1 := by unfold tol; norm_num
  refine ⟨?_, ?_, ?_⟩
  · unfold arcR
    simp only [abs_one]
    rw [if_neg (by rw [tiny_iff (by norm_num)]; linarith)]
    have : samePoint (0 : ℝ) 0 (tol / 2) 0 := by
      unfold samePoint
      rw [zero_sub, abs_neg, abs_of_pos (by linarith)]
      constructor
      · linarith
      · simpa using ht
    simp only [this, decide_true, arcAngle, if_true]
    show 360 / 180 * π * 1 = 2 * π
    ring
  · unfold arcR
    simp only [mul_one, mul_zero]
    rw [abs_of_pos (by norm_num), if_neg (by rw [tiny_iff (by norm_num)]; linarith)]
    have : ¬ samePoint (0 : ℝ) 0 (4 * (tol / 2)) 0 := by
      unfold samePoint
      rw [zero_sub, abs_neg, abs_of_pos (by linarith)]
      rintro ⟨h, _⟩
      linarith
    have h4 : ¬ ((4 : ℝ) < 0) := by norm_num
    simp only [this, h4, decide_false, arcAngle, if_false]
    have hb := (shortAngle_bounds (r := 4) (half := dist2 RF 0 0 (4 * (tol / 2)) 0 / 2) (div_nonneg (Real.sqrt_nonneg _) (by norm_num))).2
    show _ / 180 * π * 4 ≤ 4 * π
    simp only [Bool.false_eq_true, if_false]
    nlinarith
  · rintro ⟨h | h | h, _⟩
    · have := congrArg Prod.fst h
      dsimp only at this
      linarith
    · dsimp only at h
      rw [zero_sub, abs_neg, abs_of_pos (by linarith)] at h
      linarith
    · simp at h
      linarith

section
open SimDemo

/-- The motions of `thither` for a part twice as large. -/
def twice : Prog := [(1, [w c!"G" c!"1", w c!"X" c!"6", w c!"Y" c!"8", w c!"F" c!"100"]), (2, []),
  (3, [w c!"G" c!"3", wn c!"X" c!"8", w c!"Y" c!"6", wn c!"I" c!"6", wn c!"J" c!"8"])]

/-- Both programs are accepted and the second adds twice as much. -/
example :
    let e := Sml.run quarters mill false thither (initial mill, [])
    let e' := Sml.run quarters mill false twice (initial mill, [])
    e.2 = .ok () ∧ e'.2 = .ok () ∧ pos e.1.1 c!"X" = some (-4) ∧ pos e'.1.1 c!"X" = some (-8) ∧
      ∃ L, 12 < L ∧ e.1.1.path.total = some (0 + L) ∧ e'.1.1.path.total = some (0 + 2 * L) := by
  refine ⟨by decide +kernel, by decide +kernel, by decide +kernel, by decide +kernel,
    ((Sml.run quarters mill false thither (initial mill, [])).1.1.path.total).getD 0, by decide +kernel, by decide +kernel, by decide +kernel⟩

/-- The arc of `thither` is sound, and its motion for the larger part is that of `twice`. -/
example : (Leg.centre .ccw (0, 0) (3, 4) (-4, 3)).Sound ∧
    (Leg.centre .ccw (0, 0) (3, 4) (-4, 3)).scaledBy 2 = .centre .ccw (0, 0) (6, 8) (-8, 6) := by
  refine ⟨⟨.inr (.inl ?_), ?_⟩, ?_⟩
  · norm_num [tol]
  · norm_num [tol]
    rw [show (25 : ℝ) = 5 ^ 2 by norm_num, Real.sqrt_sq (by norm_num)]
    norm_num
  · norm_num [Leg.scaledBy, scaledTo]

end

end NC.Props
