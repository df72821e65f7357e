import Verif.Props.Back

/-!
# C140: an arc may be given by its centre or by its radius
-/

namespace NC.Props
open NC NC.Path NC.Ver NC.AttrPath NC.Spec.Sim NC.Spec.Geo Real

local notation "RF" => realFns

/-- The arc of sweep `φ` by its centre, and by its radius as the controls have it: negative if it is more than half a turn. -/
structure BothWays (s : Sense) (c : ℝ × ℝ) (r φ : ℝ) (p q : ℝ × ℝ) (m m' : Leg) : Prop where
  arc : IsArc s c r φ p q
  open' : φ < 2 * π
  wide : tol ≤ (π - 1) * r
  apart : tol ≤ |p.1 - q.1| ∨ tol ≤ |p.2 - q.2|
  centre : m = .centre s c p q
  radius : m' = .radius (if φ ≤ π then r else -r) p q

/-- By its radius the arc is counted with its length. -/
theorem BothWays.radius_len {s : Sense} {c : ℝ × ℝ} {r φ : ℝ} {p q : ℝ × ℝ} {m m' : Leg} (h : BothWays s c r φ p q m m') : m'.len = r * φ := by
  rw [h.radius]
  by_cases k : φ ≤ π
  · rw [if_pos k]
    exact (C64_arc_R h.arc h.wide h.apart).1 k
  · rw [if_neg k]
    exact (C64_arc_R h.arc h.wide h.apart).2 (not_le.mp k).le h.open'

/-- The lengths agree exactly for the arcs of at most half a turn and those with ends inside different quadrants. -/
theorem BothWays.len_iff {s : Sense} {c : ℝ × ℝ} {r φ : ℝ} {p q : ℝ × ℝ} {m m' : Leg} (h : BothWays s c r φ p q m m') :
    m.len = m'.len ↔ φ ≤ π ∨ DifferentQuadrants (p.1 - c.1, p.2 - c.2) (q.1 - c.1, q.2 - c.2) := by
  rw [h.radius_len, h.centre]
  exact C64_arc_exact_iff_partial h.arc h.wide h.apart

/-- Motions that are the same, or the same arc by its centre and by its radius, of at most half a turn or with ends inside different quadrants. -/
def SameMotion (m m' : Leg) : Prop :=
  m = m' ∨ ∃ s c r φ p q, BothWays s c r φ p q m m' ∧ (φ ≤ π ∨ DifferentQuadrants (p.1 - c.1, p.2 - c.2) (q.1 - c.1, q.2 - c.2))

/-- **C140, programs.** Two accepted programs of straight moves and arcs, of which the second gives any of the arcs of the first by their radius:
they add the same to the path.  (`_partial`: for arcs of more than half a turn the ends lie inside different quadrants.) -/
theorem C140_program_partial {cf : Cfg ℝ} (hc : WF cf) (hx : AxesOk cf) (hm : cf.mtype = .other) (hauto : cf.autoRapid = false) (inch : Inch)
    {q q' : Prog} {p p' : St ℝ × MacroMap ℚ} {ms ms' : List Leg} (h : MovesAlong cf inch q p ms) (h' : MovesAlong cf inch q' p' ms')
    (hs : List.Forall₂ SameMotion ms ms')
    (hp : Inv p.1) (hp' : Inv p'.1) (hr : p.1.autoRapid = false) (hr' : p'.1.autoRapid = false) {a : ℝ}
    (hA : p.1.path.total = some a) (hA' : p'.1.path.total = some a)
    (hok : (Sml.run RF cf inch q p).2 = .ok ()) (hok' : (Sml.run RF cf inch q' p').2 = .ok ()) :
    (Sml.run RF cf inch q' p').1.1.path.total = (Sml.run RF cf inch q p).1.1.path.total := by
  rw [(moves_total hc hx hm hauto inch h hp hr hA hok).1, (moves_total hc hx hm hauto inch h' hp' hr' hA' hok').1]
  congr 2
  clear h h' hok hok'
  induction hs with
  | nil => rfl
  | cons k _ ih =>
    rw [List.map_cons, List.map_cons, List.sum_cons, List.sum_cons, ih]
    congr 1
    rcases k with rfl | ⟨s, c, r, φ, P, Q, k, e⟩
    · rfl
    · exact (k.len_iff.mpr e).symm

/-- **C140, one arc.** If exactly one arc is given the other way, the paths agree exactly for the arcs named. -/
theorem C140_arc_iff_partial {cf : Cfg ℝ} (hc : WF cf) (hx : AxesOk cf) (hm : cf.mtype = .other) (hauto : cf.autoRapid = false) (inch : Inch)
    {q q' : Prog} {p p' : St ℝ × MacroMap ℚ} {before after : List Leg} {m m' : Leg} {s : Sense} {c P Q : ℝ × ℝ} {r φ : ℝ}
    (h : MovesAlong cf inch q p (before ++ m :: after)) (h' : MovesAlong cf inch q' p' (before ++ m' :: after))
    (hb : BothWays s c r φ P Q m m')
    (hp : Inv p.1) (hp' : Inv p'.1) (hr : p.1.autoRapid = false) (hr' : p'.1.autoRapid = false) {a : ℝ}
    (hA : p.1.path.total = some a) (hA' : p'.1.path.total = some a)
    (hok : (Sml.run RF cf inch q p).2 = .ok ()) (hok' : (Sml.run RF cf inch q' p').2 = .ok ()) :
    (Sml.run RF cf inch q p).1.1.path.total = (Sml.run RF cf inch q' p').1.1.path.total ↔
      φ ≤ π ∨ DifferentQuadrants (P.1 - c.1, P.2 - c.2) (Q.1 - c.1, Q.2 - c.2) := by
  rw [(moves_total hc hx hm hauto inch h hp hr hA hok).1, (moves_total hc hx hm hauto inch h' hp' hr' hA' hok').1, ← hb.len_iff]
  simp

/-- **C140 fails for some arcs of more than half a turn.** Three quarters about the origin from (1, 0) to (0, -1): a quarter by the centre, three
quarters by the radius. -/
theorem C140_violated_three_quarters :
    BothWays .ccw (0, 0) 1 (3 * π / 2) (1, 0) (0, -1) (.centre .ccw (0, 0) (1, 0) (0, -1)) (.radius (-1) (1, 0) (0, -1)) ∧
      (Leg.centre .ccw (0, 0) (1, 0) (0, -1)).len = π / 2 ∧ (Leg.radius (-1) (1, 0) (0, -1)).len = 3 * π / 2 := by
  have hp := Real.pi_gt_three
  have h : BothWays .ccw (0, 0) 1 (3 * π / 2) (1, 0) (0, -1) (.centre .ccw (0, 0) (1, 0) (0, -1)) (.radius (-1) (1, 0) (0, -1)) := by
    refine ⟨C64_violated_three_quarters.1, by linarith, by unfold tol; linarith, .inl (by norm_num [tol]), rfl, ?_⟩
    rw [if_neg (by linarith)]
  refine ⟨h, ?_, ?_⟩
  · have := C64_violated_three_quarters.2
    show arcIJ RF 1 0 0 (-1) (0 - 1) (0 - 0) 3 = π / 2
    simpa using this
  · rw [h.radius_len, one_mul]

section
open SimDemo

/-- The quarter of `thither` by its radius. -/
def byRadius : Prog := [(1, [w c!"G" c!"1", w c!"X" c!"3", w c!"Y" c!"4", w c!"F" c!"100"]), (2, []),
  (3, [w c!"G" c!"3", wn c!"X" c!"4", w c!"Y" c!"3", w c!"R" c!"5"])]

/-- Both programs are accepted, end at the same place and add the same. -/
example :
    let e := Sml.run quarters mill false thither (initial mill, [])
    let e' := Sml.run quarters mill false byRadius (initial mill, [])
    e.2 = .ok () ∧ e'.2 = .ok () ∧ pos e.1.1 c!"X" = some (-4) ∧ pos e'.1.1 c!"X" = some (-4) ∧
      (∃ L, 12 < L ∧ e.1.1.path.total = some L) ∧ e'.1.1.path.total = e.1.1.path.total := by
  refine ⟨by decide +kernel, by decide +kernel, by decide +kernel, by decide +kernel,
    ⟨((Sml.run quarters mill false thither (initial mill, [])).1.1.path.total).getD 0, by decide +kernel, by decide +kernel⟩, by decide +kernel⟩

/-- The motions of the two are the same in the sense of `C140_program_partial`. -/
example : List.Forall₂ SameMotion [.line 0 0 0 3 4 0, .centre .ccw (0, 0) (3, 4) (-4, 3)] [.line 0 0 0 3 4 0, .radius 5 (3, 4) (-4, 3)] := by
  have hp := Real.pi_gt_three
  refine .cons (.inl rfl) (.cons (.inr ⟨.ccw, (0, 0), 5, π / 2, (3, 4), (-4, 3), ⟨?_, by linarith, by unfold tol; linarith, .inl (by norm_num [tol]), rfl, ?_⟩,
    .inl (by linarith)⟩) .nil)
  · refine arc_of (by norm_num) (by linarith) (by linarith) (by norm_num) ?_ ?_ <;>
      rw [Real.cos_pi_div_two, Real.sin_pi_div_two] <;> simp [Sense.sgn]
  · rw [if_pos (by linarith)]

end
end NC.Props
