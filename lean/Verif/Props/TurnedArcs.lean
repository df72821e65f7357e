import Verif.Props.Back
import Verif.Spec.Turned

/-!
# C136: the length of an arc when the part is turned
-/

namespace NC.Props
open NC NC.Path NC.Ver NC.AttrPath NC.Spec.Sim NC.Spec.Geo Real

local notation "RF" => realFns

/-- The turn takes an arc to an arc of the same radius, sweep and sense. -/
theorem arc_turned {s : Sense} {c p q : ℝ × ℝ} {r φ : ℝ} (h : IsArc s c r φ p q) (θ : ℝ) (o : ℝ × ℝ) :
    IsArc s (turnedTo θ o c) r φ (turnedTo θ o p) (turnedTo θ o q) := by
  obtain ⟨h1, h2, h3, α, rfl, rfl⟩ := h
  refine ⟨h1, h2, h3, α + θ, ?_, ?_⟩
  · unfold turnedTo
    rw [cos_add, sin_add]
    ext <;> dsimp only <;> ring
  · unfold turnedTo
    rw [show α + θ + s.sgn * φ = α + s.sgn * φ + θ by ring, cos_add (α + s.sgn * φ), sin_add (α + s.sgn * φ)]
    ext <;> dsimp only <;> ring

theorem turned_rel (θ : ℝ) (o p c : ℝ × ℝ) :
    (turnedTo θ o p).1 - (turnedTo θ o c).1 = cos θ * (p.1 - c.1) - sin θ * (p.2 - c.2) ∧
    (turnedTo θ o p).2 - (turnedTo θ o c).2 = sin θ * (p.1 - c.1) + cos θ * (p.2 - c.2) := by
  unfold turnedTo
  constructor <;> dsimp only <;> ring

/-- Quarter turns take quadrants to quadrants. -/
theorem quadrants_quarter {θ : ℝ} (h : sin θ = 0 ∨ cos θ = 0) (o p q c : ℝ × ℝ) :
    DifferentQuadrants ((turnedTo θ o p).1 - (turnedTo θ o c).1, (turnedTo θ o p).2 - (turnedTo θ o c).2)
        ((turnedTo θ o q).1 - (turnedTo θ o c).1, (turnedTo θ o q).2 - (turnedTo θ o c).2) ↔
      DifferentQuadrants (p.1 - c.1, p.2 - c.2) (q.1 - c.1, q.2 - c.2) := by
  rw [(turned_rel θ o p c).1, (turned_rel θ o p c).2, (turned_rel θ o q c).1, (turned_rel θ o q c).2]
  generalize p.1 - c.1 = a
  generalize p.2 - c.2 = b
  generalize q.1 - c.1 = d
  generalize q.2 - c.2 = e
  have hc := sin_sq_add_cos_sq θ
  unfold DifferentQuadrants
  dsimp only
  rcases h with h | h
  · rw [h] at hc ⊢
    have : cos θ = 1 ∨ cos θ = -1 := mul_self_eq_one_iff.mp (by nlinarith)
    rcases this with k | k <;> rw [k] <;> simp
  · rw [h] at hc ⊢
    have : sin θ = 1 ∨ sin θ = -1 := mul_self_eq_one_iff.mp (by nlinarith)
    rcases this with k | k <;> rw [k] <;> simp <;> tauto

/-- The block moves along an arc by its centre in the plane G17: from `P` to `Q` about `C`. -/
structure ArcRun {K : Type} [Field K] [LinearOrder K] [FloorRing K] (F : Fns K) (c : Cfg K) (inch : Inch) (line : Int) (b : Block) (p : St K × MacroMap ℚ) (s : Sense) (P Q C : K × K) : Prop where
  inv : Inv p.1
  plain : Plain b
  ne : b ≠ []
  pend : NotPending p.1 b
  plane : planeCode b (planeNum p.1.plane) = 17
  arc : ArcBlock b p.1 (planeAxes 17)
  noR : programmed (K := K) b c!"R" = none
  ok : (evaluate F c inch line b p).2 = .ok ()
  fromX : pos p.1 c!"X" = some P.1
  fromY : pos p.1 c!"Y" = some P.2
  toX : pos (evaluate F c inch line b p).1.1 c!"X" = some Q.1
  toY : pos (evaluate F c inch line b p).1.1 c!"Y" = some Q.2
  centreX : pos (evaluate F c inch line b p).1.1 c!"I" = some (C.1 - P.1)
  centreY : pos (evaluate F c inch line b p).1.1 c!"J" = some (C.2 - P.2)
  sense : motionCode b p.1.g = s.code

open Classical in
theorem ArcRun.length {c : Cfg ℝ} (hc : WF c) (hx : AxesOk c) (hm : c.mtype = .other) {inch : Inch} {line : Int} {b : Block}
    {p : St ℝ × MacroMap ℚ} {s : Sense} {P Q C : ℝ × ℝ} (h : ArcRun RF c inch line b p s P Q C) {r φ : ℝ} (ha : IsArc s C r φ P Q)
    (ht : tol ≤ (π - 1) * r) (hd : tol ≤ |P.1 - Q.1| ∨ tol ≤ |P.2 - Q.2|) :
    (evaluate RF c inch line b p).1.1.path.work =
      some (r * (if π < φ ∧ ¬ DifferentQuadrants (P.1 - C.1, P.2 - C.2) (Q.1 - C.1, Q.2 - C.2) then 2 * π - φ else φ)) := by
  have hA := h.arc
  have hX : pos p.1 (planeAxes 17).u = some P.1 := h.fromX
  have hY : pos p.1 (planeAxes 17).v = some P.2 := h.fromY
  rw [← h.plane] at hA hX hY
  obtain ⟨x1, y1, e1, e2, _, k⟩ := C29_planes_partial RF hc hx hm inch line b p h.inv h.plain h.ne h.pend hA h.ok hX hY
  rw [h.plane] at e1 e2 k
  have e1' := h.toX.symm.trans e1
  have e2' := h.toY.symm.trans e2
  rcases k with ⟨i1, j1, k1, k2, _, k3⟩ | ⟨r1, k1, _⟩
  · have k1' := h.centreX.symm.trans k1
    have k2' := h.centreY.symm.trans k2
    rw [k3, h.sense, ← Option.some.inj e1', ← Option.some.inj e2', ← Option.some.inj k1', ← Option.some.inj k2',
      show ((s.code : Int)).toNat = s.code by cases s <;> rfl,
      arcIJ_of_arc ha (by rw [tiny_iff ha.1.le]; linarith)
        (by unfold samePoint; rintro ⟨a, b⟩; rcases hd with hs | hs <;> linarith)]
  · rw [h.noR] at k1; cases k1

/-- **C136, any angle.** A block moves along an arc, another along the same arc of the part turned by any angle about any point: the
lengths counted are the same exactly if the arc is at most half a turn, or if its ends lie inside different quadrants about the centre
before and after or neither before nor after the turn. -/
theorem C136_turned_iff_partial {c : Cfg ℝ} (hc : WF c) (hx : AxesOk c) (hm : c.mtype = .other) {inch : Inch} {line line' : Int} {b b' : Block}
    {p p' : St ℝ × MacroMap ℚ} {s : Sense} {P Q C o : ℝ × ℝ} {θ r φ : ℝ} (h : ArcRun RF c inch line b p s P Q C)
    (h' : ArcRun RF c inch line' b' p' s (turnedTo θ o P) (turnedTo θ o Q) (turnedTo θ o C)) (ha : IsArc s C r φ P Q)
    (ht : tol ≤ (π - 1) * r) (hd : tol ≤ |P.1 - Q.1| ∨ tol ≤ |P.2 - Q.2|)
    (hd' : tol ≤ |(turnedTo θ o P).1 - (turnedTo θ o Q).1| ∨ tol ≤ |(turnedTo θ o P).2 - (turnedTo θ o Q).2|) :
    (evaluate RF c inch line' b' p').1.1.path.work = (evaluate RF c inch line b p).1.1.path.work ↔
      φ ≤ π ∨ (DifferentQuadrants ((turnedTo θ o P).1 - (turnedTo θ o C).1, (turnedTo θ o P).2 - (turnedTo θ o C).2)
          ((turnedTo θ o Q).1 - (turnedTo θ o C).1, (turnedTo θ o Q).2 - (turnedTo θ o C).2) ↔
        DifferentQuadrants (P.1 - C.1, P.2 - C.2) (Q.1 - C.1, Q.2 - C.2)) := by
  rw [h.length hc hx hm ha ht hd, h'.length hc hx hm (arc_turned ha θ o) ht hd', Option.some.injEq, mul_right_inj' ha.1.ne']
  generalize DifferentQuadrants (P.1 - C.1, P.2 - C.2) (Q.1 - C.1, Q.2 - C.2) = D
  generalize DifferentQuadrants _ _ = D'
  by_cases hp : φ ≤ π
  · simp [hp, not_lt.mpr hp]
  · have hp' := not_le.mp hp
    by_cases hD : D <;> by_cases hD' : D' <;> simp only [hp, hp', hD, hD', not_true, not_false_iff, and_true, and_false, if_true, if_false, false_or, iff_true, iff_false, false_iff, true_iff, iff_self] <;> intro e <;> linarith

/-- **C136, quarters.** If the part is turned by a number of quarters, the lengths are the same. -/
theorem C136_quarters_partial {c : Cfg ℝ} (hc : WF c) (hx : AxesOk c) (hm : c.mtype = .other) {inch : Inch} {line line' : Int} {b b' : Block}
    {p p' : St ℝ × MacroMap ℚ} {s : Sense} {P Q C o : ℝ × ℝ} {r φ : ℝ} (k : ℤ) (h : ArcRun RF c inch line b p s P Q C)
    (h' : ArcRun RF c inch line' b' p' s (turnedTo (k * (π / 2)) o P) (turnedTo (k * (π / 2)) o Q) (turnedTo (k * (π / 2)) o C))
    (ha : IsArc s C r φ P Q) (ht : tol ≤ (π - 1) * r) (hd : tol ≤ |P.1 - Q.1| ∨ tol ≤ |P.2 - Q.2|) :
    (evaluate RF c inch line' b' p').1.1.path.work = (evaluate RF c inch line b p).1.1.path.work := by
  have hq : sin (k * (π / 2)) = 0 ∨ cos (k * (π / 2)) = 0 := by
    have := sin_two_mul (k * (π / 2))
    rw [show 2 * (k * (π / 2)) = k * π by ring, sin_int_mul_pi] at this
    rcases mul_eq_zero.mp this.symm with e | e
    · exact .inl (by linarith)
    · exact .inr e
  refine (C136_turned_iff_partial hc hx hm h h' ha ht hd ?_).mpr (.inr (quadrants_quarter hq o P Q C))
  rw [(turned_rel _ o P Q).1, (turned_rel _ o P Q).2]
  have hcs := sin_sq_add_cos_sq (k * (π / 2))
  generalize sin (k * (π / 2)) = u at *
  generalize cos (k * (π / 2)) = v at *
  rcases hq with e | e
  · rw [e] at hcs ⊢
    have : v = 1 ∨ v = -1 := mul_self_eq_one_iff.mp (by nlinarith)
    rcases this with k | k <;> rw [k] <;> simpa [abs_neg, neg_add_eq_sub, abs_sub_comm] using hd
  · rw [e] at hcs ⊢
    have : u = 1 ∨ u = -1 := mul_self_eq_one_iff.mp (by nlinarith)
    rcases this with k | k <;> rw [k] <;> simpa [abs_neg, neg_add_eq_sub, abs_sub_comm, or_comm] using hd

/-- **C136, arcs by their radius.** What is counted for an arc given by its radius is the same for every angle of the turn. -/
theorem C136_radius_partial (P Q o : ℝ × ℝ) (θ r : ℝ) (hd : tol ≤ |P.1 - Q.1| ∨ tol ≤ |P.2 - Q.2|)
    (hd' : tol ≤ |(turnedTo θ o P).1 - (turnedTo θ o Q).1| ∨ tol ≤ |(turnedTo θ o P).2 - (turnedTo θ o Q).2|) :
    arcR RF (turnedTo θ o P).1 (turnedTo θ o P).2 (turnedTo θ o Q).1 (turnedTo θ o Q).2 r = arcR RF P.1 P.2 Q.1 Q.2 r := by
  have ns : ∀ {A B : ℝ × ℝ}, (tol ≤ |A.1 - B.1| ∨ tol ≤ |A.2 - B.2|) → ¬ samePoint A.1 A.2 B.1 B.2 := by
    rintro A B h ⟨a, b⟩
    rcases h with h | h <;> linarith
  have hdist : dist2 RF (turnedTo θ o P).1 (turnedTo θ o P).2 (turnedTo θ o Q).1 (turnedTo θ o Q).2 = dist2 RF P.1 P.2 Q.1 Q.2 := by
    unfold dist2 len2
    congr 1
    have e1 := (turned_rel θ o Q P).1
    have e2 := (turned_rel θ o Q P).2
    have e3 := (turned_rel θ o P Q).1
    have e4 := (turned_rel θ o P Q).2
    have hc := sin_sq_add_cos_sq θ
    first
      | rw [e1, e2]; linear_combination ((Q.1 - P.1) ^ 2 + (Q.2 - P.2) ^ 2) * hc
      | rw [e3, e4]; linear_combination ((P.1 - Q.1) ^ 2 + (P.2 - Q.2) ^ 2) * hc
  unfold arcR
  rw [hdist]
  simp only [ns hd, ns hd', decide_false]

/-! ## Programs -/

/-- The motion of the turned part. -/
noncomputable def Leg.turnedBy (θ : ℝ) (o : ℝ × ℝ) : Leg → Leg
  | .line x y z x' y' z' => .line (turnedTo θ o (x, y)).1 (turnedTo θ o (x, y)).2 z (turnedTo θ o (x', y')).1 (turnedTo θ o (x', y')).2 z'
  | .centre s c p q => .centre s (turnedTo θ o c) (turnedTo θ o p) (turnedTo θ o q)
  | .radius r p q => .radius r (turnedTo θ o p) (turnedTo θ o q)

/-- The arcs for which the turn makes no difference: the ends coincide within the tolerance before and after the turn or neither before
nor after it; an arc by its centre is at most half a turn, or the quadrants of its ends are different before and after or neither. -/
def Leg.Kept (θ : ℝ) (o : ℝ × ℝ) : Leg → Prop
  | .line .. => True
  | .centre s c p q =>
      (samePoint (turnedTo θ o p).1 (turnedTo θ o p).2 (turnedTo θ o q).1 (turnedTo θ o q).2 ↔ samePoint p.1 p.2 q.1 q.2) ∧
      ((∃ r φ, IsArc s c r φ p q ∧ φ ≤ π) ∨
        (DifferentQuadrants ((turnedTo θ o p).1 - (turnedTo θ o c).1, (turnedTo θ o p).2 - (turnedTo θ o c).2)
            ((turnedTo θ o q).1 - (turnedTo θ o c).1, (turnedTo θ o q).2 - (turnedTo θ o c).2) ↔
          DifferentQuadrants (p.1 - c.1, p.2 - c.2) (q.1 - c.1, q.2 - c.2)))
  | .radius _ p q => samePoint (turnedTo θ o p).1 (turnedTo θ o p).2 (turnedTo θ o q).1 (turnedTo θ o q).2 ↔ samePoint p.1 p.2 q.1 q.2

theorem turned_dist (θ : ℝ) (o P Q : ℝ × ℝ) :
    ((turnedTo θ o P).1 - (turnedTo θ o Q).1) ^ 2 + ((turnedTo θ o P).2 - (turnedTo θ o Q).2) ^ 2 = (P.1 - Q.1) ^ 2 + (P.2 - Q.2) ^ 2 := by
  rw [(turned_rel θ o P Q).1, (turned_rel θ o P Q).2]
  linear_combination ((P.1 - Q.1) ^ 2 + (P.2 - Q.2) ^ 2) * sin_sq_add_cos_sq θ

open Classical in
theorem arc_kept {s : Sense} {c p q o : ℝ × ℝ} {r φ θ : ℝ} (h : IsArc s c r φ p q)
    (hs : samePoint (turnedTo θ o p).1 (turnedTo θ o p).2 (turnedTo θ o q).1 (turnedTo θ o q).2 ↔ samePoint p.1 p.2 q.1 q.2)
    (hk : φ ≤ π ∨ (DifferentQuadrants ((turnedTo θ o p).1 - (turnedTo θ o c).1, (turnedTo θ o p).2 - (turnedTo θ o c).2)
            ((turnedTo θ o q).1 - (turnedTo θ o c).1, (turnedTo θ o q).2 - (turnedTo θ o c).2) ↔
          DifferentQuadrants (p.1 - c.1, p.2 - c.2) (q.1 - c.1, q.2 - c.2))) :
    (Leg.centre s (turnedTo θ o c) (turnedTo θ o p) (turnedTo θ o q)).len = (Leg.centre s c p q).len := by
  have h' := arc_turned h θ o
  show arcIJ RF _ _ _ _ _ _ _ = arcIJ RF _ _ _ _ _ _ _
  by_cases ht : tinyRadius RF r
  · exact ((arc_small h').1 ht).trans ((arc_small h).1 ht).symm
  · by_cases hp : samePoint p.1 p.2 q.1 q.2
    · exact ((arc_small h').2 ht (hs.mpr hp)).trans ((arc_small h).2 ht hp).symm
    · rw [arcIJ_of_arc h ht hp, arcIJ_of_arc h' ht (fun k => hp (hs.mp k))]
      rcases hk with hk | hk
      · rw [if_neg (fun k => absurd k.1 (not_lt.mpr hk)), if_neg (fun k => absurd k.1 (not_lt.mpr hk))]
      · exact congrArg (r * ·) (if_congr (and_congr_right' (not_congr hk)) rfl rfl)

theorem turned_len {θ : ℝ} {o : ℝ × ℝ} {m : Leg} (hr : m.Round) (h : m.Kept θ o) : (m.turnedBy θ o).len = m.len := by
  cases m with
  | line x y z x' y' z' =>
    show dist3 RF _ _ _ _ _ _ = dist3 RF _ _ _ _ _ _
    unfold dist3 len3
    rw [turned_dist]
  | centre s c p q =>
    obtain ⟨hs, hk⟩ := h
    rcases hk with ⟨r, φ, ha, hk⟩ | hk
    · exact arc_kept ha hs (.inl hk)
    · obtain ⟨r, φ, ha⟩ := hr
      exact arc_kept ha hs (.inr hk)
  | radius r p q =>
    show arcR RF _ _ _ _ _ = arcR RF _ _ _ _ _
    have h : samePoint (turnedTo θ o p).1 (turnedTo θ o p).2 (turnedTo θ o q).1 (turnedTo θ o q).2 ↔ samePoint p.1 p.2 q.1 q.2 := h
    have e : dist2 RF (turnedTo θ o p).1 (turnedTo θ o p).2 (turnedTo θ o q).1 (turnedTo θ o q).2 = dist2 RF p.1 p.2 q.1 q.2 := by
      unfold dist2 len2
      rw [turned_dist]
    unfold arcR
    simp only [e, decide_eq_decide.mpr h]

theorem sin_or_cos (k : ℤ) : sin (k * (π / 2)) = 0 ∨ cos (k * (π / 2)) = 0 := by
  have := sin_two_mul (k * (π / 2))
  rw [show 2 * (k * (π / 2)) = k * π by ring, sin_int_mul_pi] at this
  rcases mul_eq_zero.mp this.symm with e | e
  · exact .inl (by linarith)
  · exact .inr e

theorem same_quarter (k : ℤ) (o p q : ℝ × ℝ) :
    samePoint (turnedTo (k * (π / 2)) o p).1 (turnedTo (k * (π / 2)) o p).2 (turnedTo (k * (π / 2)) o q).1 (turnedTo (k * (π / 2)) o q).2 ↔
      samePoint p.1 p.2 q.1 q.2 := by
  unfold samePoint
  rw [(turned_rel _ o p q).1, (turned_rel _ o p q).2]
  have hcs := sin_sq_add_cos_sq (k * (π / 2))
  have hq := sin_or_cos k
  generalize sin (k * (π / 2)) = u at *
  generalize cos (k * (π / 2)) = v at *
  generalize p.1 - q.1 = x
  generalize p.2 - q.2 = y
  rcases hq with e | e
  · rw [e] at hcs ⊢
    have : v = 1 ∨ v = -1 := mul_self_eq_one_iff.mp (by nlinarith)
    rcases this with k | k <;> rw [k] <;> simp [abs_neg]
  · rw [e] at hcs ⊢
    have : u = 1 ∨ u = -1 := mul_self_eq_one_iff.mp (by nlinarith)
    rcases this with k | k <;> rw [k] <;> simp [abs_neg, and_comm]

/-- **C136, programs.** Two accepted programs of straight moves and arcs, the second of which makes the motions of the first for the part
turned by any angle about any point, add the same to the path if the turn makes no difference for the arcs. -/
theorem C136_program_partial {c : Cfg ℝ} (hc : WF c) (hx : AxesOk c) (hm : c.mtype = .other) (ha : c.autoRapid = false) (inch : Inch) {q q' : Prog}
    {p p' : St ℝ × MacroMap ℚ} {ms : List Leg} {θ : ℝ} {o : ℝ × ℝ} (h : MovesAlong c inch q p ms)
    (h' : MovesAlong c inch q' p' (ms.map (Leg.turnedBy θ o))) (hk : ∀ m ∈ ms, m.Kept θ o)
    (hp : Inv p.1) (hp' : Inv p'.1) (hr : p.1.autoRapid = false) (hr' : p'.1.autoRapid = false) {a a' : ℝ}
    (hA : p.1.path.total = some a) (hA' : p'.1.path.total = some a')
    (hok : (Sml.run RF c inch q p).2 = .ok ()) (hok' : (Sml.run RF c inch q' p').2 = .ok ()) :
    ∃ L, (Sml.run RF c inch q p).1.1.path.total = some (a + L) ∧ (Sml.run RF c inch q' p').1.1.path.total = some (a' + L) := by
  obtain ⟨h1, h2⟩ := moves_total hc hx hm ha inch h hp hr hA hok
  obtain ⟨h3, _⟩ := moves_total hc hx hm ha inch h' hp' hr' hA' hok'
  refine ⟨_, h1, ?_⟩
  rw [h3, List.map_map]
  congr 3
  apply List.map_congr_left
  intro m hmem
  exact turned_len (h2 m hmem) (hk m hmem)

/-- **C136, programs, quarters.** For quarters there is no condition on the arcs. -/
theorem C136_program_quarters {c : Cfg ℝ} (hc : WF c) (hx : AxesOk c) (hm : c.mtype = .other) (ha : c.autoRapid = false) (inch : Inch) {q q' : Prog}
    {p p' : St ℝ × MacroMap ℚ} {ms : List Leg} (k : ℤ) {o : ℝ × ℝ} (h : MovesAlong c inch q p ms)
    (h' : MovesAlong c inch q' p' (ms.map (Leg.turnedBy (k * (π / 2)) o)))
    (hp : Inv p.1) (hp' : Inv p'.1) (hr : p.1.autoRapid = false) (hr' : p'.1.autoRapid = false) {a a' : ℝ}
    (hA : p.1.path.total = some a) (hA' : p'.1.path.total = some a')
    (hok : (Sml.run RF c inch q p).2 = .ok ()) (hok' : (Sml.run RF c inch q' p').2 = .ok ()) :
    ∃ L, (Sml.run RF c inch q p).1.1.path.total = some (a + L) ∧ (Sml.run RF c inch q' p').1.1.path.total = some (a' + L) := by
  refine C136_program_partial hc hx hm ha inch h h' ?_ hp hp' hr hr' hA hA' hok hok'
  intro m _
  cases m with
  | line => trivial
  | centre s c p q => exact ⟨same_quarter k o p q, .inr (quadrants_quarter (sin_or_cos k) o p q c)⟩
  | radius r p q => exact same_quarter k o p q

/-- **C136 fails for other angles.** From (1, 0) three quarters about the origin to (0, -1): counted with one quarter. Turned by an
eighth, the same arc is counted with three quarters. -/
theorem C136_violated_eighth :
    let P : ℝ × ℝ := (1, 0)
    let Q : ℝ × ℝ := (0, -1)
    let P' := turnedTo (π / 4) (0, 0) P
    let Q' := turnedTo (π / 4) (0, 0) Q
    IsArc .ccw (0, 0) 1 (3 * π / 2) P Q ∧ IsArc .ccw (0, 0) 1 (3 * π / 2) P' Q' ∧
      arcIJ RF P.1 P.2 Q.1 Q.2 (0 - P.1) (0 - P.2) 3 = π / 2 ∧
      arcIJ RF P'.1 P'.2 Q'.1 Q'.2 (0 - P'.1) (0 - P'.2) 3 = 3 * π / 2 := by
  intro P Q P' Q'
  have hp := Real.pi_gt_three
  have h0 : turnedTo (π / 4) (0, 0) (0, 0) = (0, 0) := by simp [turnedTo]
  have h1 := C64_violated_three_quarters.1
  have h2 := arc_turned h1 (π / 4) (0, 0)
  rw [h0] at h2
  have hs : 0 < √2 := by positivity
  have hs2 : √2 * √2 = 2 := Real.mul_self_sqrt (by norm_num)
  have hs1 : 1 < √2 := by nlinarith
  have e1 : P' = (√2 / 2, √2 / 2) := by simp [P', P, turnedTo]
  have e2 : Q' = (√2 / 2, -(√2 / 2)) := by simp [Q', Q, turnedTo]
  refine ⟨h1, h2, ?_, ?_⟩
  · have := C64_violated_three_quarters.2
    simpa [P, Q] using this
  · have h3 : IsArc .ccw (0, 0) 1 (3 * π / 2) P' Q' := h2
    have := (C64_arc_exact_iff_partial h3 (by unfold tol; linarith) (Or.inr (by
      rw [e1, e2]
      dsimp only
      rw [abs_of_pos (by linarith)]
      unfold tol
      linarith))).mpr (Or.inr (by
        rw [e1, e2]
        refine ⟨?_, ?_, ?_, ?_, .inr ?_⟩ <;> dsimp only <;> nlinarith))
    simpa [Sense.code] using this

section
open NC.SimDemo

/-- Blocks along an arc, and along the arc turned by a quarter about the origin. -/
example :
    let b : Block := [w c!"G" c!"3", wn c!"X" c!"3", w c!"Y" c!"3", wn c!"I" c!"3", wn c!"J" c!"3"]
    let b' : Block := [w c!"G" c!"3", wn c!"X" c!"3", wn c!"Y" c!"3", w c!"I" c!"3", wn c!"J" c!"3"]
    let p := SimDemo.run mill [[w c!"G" c!"1", w c!"X" c!"3", w c!"Y" c!"3", w c!"F" c!"100"]] (start mill)
    let p' := SimDemo.run mill [[w c!"G" c!"1", wn c!"X" c!"3", w c!"Y" c!"3", w c!"F" c!"100"]] (start mill)
    ArcRun quarters mill false 1 b p .ccw (3, 3) (-3, 3) (0, 0) ∧ ArcRun quarters mill false 1 b' p' .ccw (-3, 3) (-3, -3) (0, 0) := by
  intro b b' p p'
  have hi : Inv p.1 := evaluate_inv qf mill_wf false 1 _ (start mill) (initial_inv mill_wf)
  have hi' : Inv p'.1 := evaluate_inv qf mill_wf false 1 _ (start mill) (initial_inv mill_wf)
  have pw : ∀ (a : Block), (∀ d ∈ words a, d.word ≠ c!"T" ∧ d.word ≠ c!"M" ∧ (d.word = c!"G" → code d = some 3)) → Plain a :=
    fun a h d hd => ⟨(h d hd).1, (h d hd).2.1, fun q => ⟨3, by decide, (h d hd).2.2 q⟩⟩
  refine ⟨⟨hi, pw b (by decide +kernel), by decide, .inr (by decide +kernel), by decide +kernel,
    ⟨by decide +kernel, by decide +kernel, by decide +kernel, by decide +kernel, by decide +kernel⟩, by decide +kernel, by decide +kernel,
    by decide +kernel, by decide +kernel, by decide +kernel, by decide +kernel, by decide +kernel, by decide +kernel, by decide +kernel⟩,
    ⟨hi', pw b' (by decide +kernel), by decide, .inr (by decide +kernel), by decide +kernel,
    ⟨by decide +kernel, by decide +kernel, by decide +kernel, by decide +kernel, by decide +kernel⟩, by decide +kernel, by decide +kernel,
    by decide +kernel, by decide +kernel, by decide +kernel, by decide +kernel, by decide +kernel, by decide +kernel, by decide +kernel⟩⟩

/-- The turn by a quarter takes the one arc to the other. -/
example : turnedTo (((1 : ℤ) : ℝ) * (π / 2)) (0, 0) (3, 3) = (-3, 3) ∧ turnedTo (((1 : ℤ) : ℝ) * (π / 2)) (0, 0) (-3, 3) = (-3, -3) := by
  simp [turnedTo]

end
end NC.Props
