import Verif.Props.RealRuns
import Verif.Spec.Chorded
import Mathlib.Analysis.SpecialFunctions.Trigonometric.Bounds

/-!
# C141: an arc may be made by short straight moves
-/

namespace NC.Props
open NC NC.Path NC.Ver NC.AttrPath NC.Spec.Sim NC.Spec.Geo Real

local notation "RF" => realFns

/-- The straight moves at the height `z`. -/
def chordsOf (z : ℝ) : ℝ × ℝ → List (ℝ × ℝ) → List Leg
  | _, [] => []
  | p, q :: l => .line p.1 p.2 z q.1 q.2 z :: chordsOf z q l

/-- A straight move between the ends of an arc. -/
theorem chord_move {s : Sense} {c p q : ℝ × ℝ} {r φ δ : ℝ} (h : IsArc s c r φ p q) (hd : φ ≤ δ) (z : ℝ) :
    (Leg.line p.1 p.2 z q.1 q.2 z).len ≤ r * φ ∧ r * φ - (Leg.line p.1 p.2 z q.1 q.2 z).len ≤ r * φ * δ ^ 2 / 24 := by
  have e : (Leg.line p.1 p.2 z q.1 q.2 z).len = 2 * (r * sin (φ / 2)) := by
    show √((p.1 - q.1) ^ 2 + (p.2 - q.2) ^ 2 + (z - z) ^ 2) = _
    rw [sub_self, zero_pow two_ne_zero, add_zero, ← chord h]
    ring
  have h1 := h.1
  have h2 := h.2.1
  have hu := sin_lt (show 0 < φ / 2 by linarith)
  have hl := sin_gt_sub_cube (show 0 < φ / 2 by linarith)
  rw [e]
  refine ⟨by nlinarith, ?_⟩
  have k1 : r * φ - 2 * (r * sin (φ / 2)) ≤ r * φ * φ ^ 2 / 24 := by
    have := mul_le_mul_of_nonneg_left hl.le h1.le
    nlinarith
  have k2 : φ ^ 2 ≤ δ ^ 2 := by nlinarith
  have k3 := mul_le_mul_of_nonneg_left k2 (mul_pos h1 h2).le
  linarith

/-- **C141, moves.** The straight moves along an arc are together not longer than it, and shorter at most by a part of `δ² / 24` of it. -/
theorem C141_moves {s : Sense} {c p : ℝ × ℝ} {r δ φ : ℝ} {l : List (ℝ × ℝ)} (h : Chorded s c r δ φ p l) (z : ℝ) :
    ((chordsOf z p l).map Leg.len).sum ≤ r * φ ∧ r * φ - ((chordsOf z p l).map Leg.len).sum ≤ r * φ * δ ^ 2 / 24 := by
  induction h with
  | last ha hd =>
    have := chord_move ha hd z
    simp only [chordsOf, List.map_cons, List.map_nil, List.sum_cons, List.sum_nil, add_zero]
    exact this
  | piece ha hd _ ih =>
    have := chord_move ha hd z
    simp only [chordsOf, List.map_cons, List.sum_cons]
    constructor <;> [nlinarith [this.1, ih.1]; nlinarith [this.2, ih.2]]

/-- The points together lead along the arc to the last of them. -/
theorem chorded_arc {s : Sense} {c p : ℝ × ℝ} {r δ φ : ℝ} {l : List (ℝ × ℝ)} (h : Chorded s c r δ φ p l) :
    0 < φ ∧ (φ ≤ 2 * π → ∀ q, l.getLast? = some q → IsArc s c r φ p q) := by
  induction h with
  | last ha _ =>
    refine ⟨ha.2.1, ?_⟩
    intro _ q e
    cases e
    exact ha
  | @piece φ ψ p q l ha hp hl ih =>
    refine ⟨by linarith [ha.2.1, ih.1], ?_⟩
    intro hs q' e
    have hne : l ≠ [] := by cases hl <;> simp
    rw [List.getLast?_cons_of_ne_nil hne] at e
    exact arc_joined ha (ih.2 (by linarith [ha.2.1]) q' e) hs

/-- An arc about its centre that is counted with its length, also a full circle. -/
theorem centre_len {s : Sense} {c P Q : ℝ × ℝ} {r φ : ℝ} (ha : IsArc s c r φ P Q) (ht : tol ≤ (π - 1) * r)
    (hd : P = Q ∨ ((tol ≤ |P.1 - Q.1| ∨ tol ≤ |P.2 - Q.2|) ∧ (φ ≤ π ∨ DifferentQuadrants (P.1 - c.1, P.2 - c.2) (Q.1 - c.1, Q.2 - c.2)))) :
    Leg.len (.centre s c P Q) = r * φ := by
  rcases hd with rfl | ⟨hd, hq⟩
  · have : Leg.len (.centre s c P P) = 360 / 180 * π * r :=
      (arc_small ha).2 (by rw [tiny_iff ha.1.le]; linarith) (by unfold samePoint; simp [tol_pos])
    rw [this, arc_closed ha]
    ring
  · exact (C64_arc_exact_iff_partial ha ht hd).mpr hq

theorem chords_program {cf : Cfg ℝ} (hc : WF cf) (hx : AxesOk cf) (hm : cf.mtype = .other) (hauto : cf.autoRapid = false) (inch : Inch)
    {q q' : Prog} {p p' : St ℝ × MacroMap ℚ} {before after : List Leg} {m : Leg} {s : Sense} {c P : ℝ × ℝ} {r φ δ z : ℝ} {l : List (ℝ × ℝ)}
    (h : MovesAlong cf inch q p (before ++ [m] ++ after)) (h' : MovesAlong cf inch q' p' (before ++ chordsOf z P l ++ after))
    (hl : Chorded s c r δ φ P l) (e : m.len = r * φ)
    (hp : Inv p.1) (hp' : Inv p'.1) (hr : p.1.autoRapid = false) (hr' : p'.1.autoRapid = false) {a : ℝ}
    (ha : p.1.path.total = some a) (ha' : p'.1.path.total = some a)
    (hok : (Sml.run RF cf inch q p).2 = .ok ()) (hok' : (Sml.run RF cf inch q' p').2 = .ok ()) :
    ∃ L L', (Sml.run RF cf inch q p).1.1.path.total = some L ∧ (Sml.run RF cf inch q' p').1.1.path.total = some L' ∧
      L' ≤ L ∧ L - L' ≤ r * φ * δ ^ 2 / 24 := by
  refine ⟨_, _, (moves_total hc hx hm hauto inch h hp hr ha hok).1, (moves_total hc hx hm hauto inch h' hp' hr' ha' hok').1, ?_⟩
  have k := C141_moves hl z
  simp only [List.map_append, List.sum_append, List.map_cons, List.map_nil, List.sum_cons, List.sum_nil, add_zero, e]
  constructor <;> linarith [k.1, k.2]

/-- **C141, programs.** Two accepted programs make the same motions except that the second makes an arc of the first by straight moves between
points on it, from each of which to the next the arc sweeps at most `δ`: the second path is not longer, and shorter at most by `r φ δ² / 24`.
(`_partial`: the arc is a full circle or at most half a turn, or its ends lie inside different quadrants.) -/
theorem C141_program_partial {cf : Cfg ℝ} (hc : WF cf) (hx : AxesOk cf) (hm : cf.mtype = .other) (hauto : cf.autoRapid = false) (inch : Inch)
    {q q' : Prog} {p p' : St ℝ × MacroMap ℚ} {before after : List Leg} {s : Sense} {c P Q : ℝ × ℝ} {r φ δ z : ℝ} {l : List (ℝ × ℝ)}
    (h : MovesAlong cf inch q p (before ++ [.centre s c P Q] ++ after)) (h' : MovesAlong cf inch q' p' (before ++ chordsOf z P l ++ after))
    (hl : Chorded s c r δ φ P l) (hQ : l.getLast? = some Q) (hφ : φ ≤ 2 * π) (ht : tol ≤ (π - 1) * r)
    (hd : P = Q ∨ ((tol ≤ |P.1 - Q.1| ∨ tol ≤ |P.2 - Q.2|) ∧ (φ ≤ π ∨ DifferentQuadrants (P.1 - c.1, P.2 - c.2) (Q.1 - c.1, Q.2 - c.2))))
    (hp : Inv p.1) (hp' : Inv p'.1) (hr : p.1.autoRapid = false) (hr' : p'.1.autoRapid = false) {a : ℝ}
    (ha : p.1.path.total = some a) (ha' : p'.1.path.total = some a)
    (hok : (Sml.run RF cf inch q p).2 = .ok ()) (hok' : (Sml.run RF cf inch q' p').2 = .ok ()) :
    ∃ L L', (Sml.run RF cf inch q p).1.1.path.total = some L ∧ (Sml.run RF cf inch q' p').1.1.path.total = some L' ∧
      L' ≤ L ∧ L - L' ≤ r * φ * δ ^ 2 / 24 :=
  chords_program hc hx hm hauto inch h h' hl (centre_len ((chorded_arc hl).2 hφ Q hQ) ht hd) hp hp' hr hr' ha ha' hok hok'

/-- **C141, arcs by their radius.** There is no exception if the arc is programmed by its radius (negative if it is more than half a turn). -/
theorem C141_radius_partial {cf : Cfg ℝ} (hc : WF cf) (hx : AxesOk cf) (hm : cf.mtype = .other) (hauto : cf.autoRapid = false) (inch : Inch)
    {q q' : Prog} {p p' : St ℝ × MacroMap ℚ} {before after : List Leg} {s : Sense} {c P Q : ℝ × ℝ} {r φ δ z : ℝ} {l : List (ℝ × ℝ)}
    (h : MovesAlong cf inch q p (before ++ [.radius (if φ ≤ π then r else -r) P Q] ++ after))
    (h' : MovesAlong cf inch q' p' (before ++ chordsOf z P l ++ after))
    (hl : Chorded s c r δ φ P l) (hQ : l.getLast? = some Q) (hφ : φ < 2 * π) (ht : tol ≤ (π - 1) * r)
    (hd : tol ≤ |P.1 - Q.1| ∨ tol ≤ |P.2 - Q.2|)
    (hp : Inv p.1) (hp' : Inv p'.1) (hr : p.1.autoRapid = false) (hr' : p'.1.autoRapid = false) {a : ℝ}
    (ha : p.1.path.total = some a) (ha' : p'.1.path.total = some a)
    (hok : (Sml.run RF cf inch q p).2 = .ok ()) (hok' : (Sml.run RF cf inch q' p').2 = .ok ()) :
    ∃ L L', (Sml.run RF cf inch q p).1.1.path.total = some L ∧ (Sml.run RF cf inch q' p').1.1.path.total = some L' ∧
      L' ≤ L ∧ L - L' ≤ r * φ * δ ^ 2 / 24 := by
  have hA := (chorded_arc hl).2 hφ.le Q hQ
  refine chords_program hc hx hm hauto inch h h' hl ?_ hp hp' hr hr' ha ha' hok hok'
  by_cases k : φ ≤ π
  · rw [if_pos k]
    exact (C64_arc_R hA ht hd).1 k
  · rw [if_neg k]
    exact (C64_arc_R hA ht hd).2 (not_le.mp k).le hφ

/-- **C141 fails for some arcs of more than half a turn.** Three quarters about the origin from (1, 0) to (0, -1), counted with a quarter: the
three straight moves between the quarters are longer than what is counted for the arc. -/
theorem C141_violated_three_quarters :
    Chorded .ccw (0, 0) 1 (π / 2) (π / 2 + (π / 2 + π / 2)) (1, 0) [(0, 1), (-1, 0), (0, -1)] ∧
      (Leg.centre .ccw (0, 0) (1, 0) (0, -1)).len < ((chordsOf 0 (1, 0) [(0, 1), (-1, 0), (0, -1)]).map Leg.len).sum := by
  have hp := Real.pi_gt_three
  have hp' := Real.pi_lt_four
  refine ⟨.piece ?_ le_rfl (.piece ?_ le_rfl (.last ?_ le_rfl)), ?_⟩
  iterate 3
    · refine arc_of (by norm_num) (by linarith) (by linarith) (by norm_num) ?_ ?_ <;>
        rw [Real.cos_pi_div_two, Real.sin_pi_div_two] <;> simp [Sense.sgn]
  · rw [C140_violated_three_quarters.2.1]
    have hl (x y x' y' : ℝ) (k : 1 ≤ (x - x') ^ 2 + (y - y') ^ 2) : 1 ≤ (Leg.line x y 0 x' y' 0).len := by
      show 1 ≤ √((x - x') ^ 2 + (y - y') ^ 2 + (0 - 0) ^ 2)
      exact Real.one_le_sqrt.mpr (by linarith)
    have h1 := hl 1 0 0 1 (by norm_num)
    have h2 := hl 0 1 (-1) 0 (by norm_num)
    have h3 := hl (-1) 0 0 (-1) (by norm_num)
    simp only [chordsOf, List.map_cons, List.map_nil, List.sum_cons, List.sum_nil, add_zero]
    linarith

/-! ## A concrete case -/

section
open SimDemo RealRuns

set_option linter.unusedSimpArgs false

/-- The straight move instead of the quarter turn from (3, 4). -/
def chordBlock : Block := [w c!"G" c!"1", wn c!"X" c!"4", w c!"Y" c!"3", w c!"F" c!"100"]

theorem valG1 : stoiE c!"1" = .ok 1 := by decide +kernel
theorem kept1X : skipped 1 [] ['X'] = false := by decide +kernel
theorem kept1Y : skipped 1 [] ['Y'] = false := by decide +kernel
theorem kept1Z : skipped 1 [] ['Z'] = false := by decide +kernel

theorem chordBlock_visit (x y : ℝ) : visitAll (millAt x y) {} chordBlock = .ok { vals := [(c!"X", -4), (c!"Y", 3)], f := some 100, g := some 1 } := by
  simp [visitAll, visit, chordBlock, w, wn, readWord, gcodeParams, millAt, readVal, valXm4, valY3, valF, valG1, readFeed, readCode, scaleP, gKind, Act.on,
    setCode, VMap.put, ordXY, ordXZ, ordYX, ordYZ, ordZX, ordZY]

theorem chordBlock_run : let e := evaluate RF (millAt 3 4) false 1 chordBlock (initial (millAt 3 4), [])
    e.2 = .ok () ∧ pos e.1.1 c!"X" = some (-4) ∧ pos e.1.1 c!"Y" = some 3 ∧ pos e.1.1 c!"Z" = some 10 := by
  have h100 : ¬ ((100 : ℝ) < 0) := by norm_num
  dsimp only
  unfold evaluate
  rw [if_neg (by decide), chordBlock_visit, initial_at]
  simp [evalVis, toolPart, toolOf, mTimes, gAfter, millAt, clearMotions, afterTool, startPart, dwell, Part.andThen, moveBlock, current, motion, linear,
    linearAbs, setMotion, target, setWork, account, checks, addTimes, addPath, saveModal, savePositions, atTool, atBase,
    cancelBy, cancelCycle, copySt, copyBack, copyOne, movesIncr, widen, finish, VMap.put, VMap.get, pos, h100, latheProg,
    kept0X, kept0Y, kept0Z, kept1X, kept1Y, kept1Z, ordXY, ordXZ, ordYX, ordYZ, ordZX, ordZY]
  try norm_num

theorem chordBlock_moves : MovesAlong (millAt 3 4) false [(1, chordBlock)] (initial (millAt 3 4), []) (chordsOf 10 (3, 4) [(-4, 3)]) := by
  obtain ⟨-, h1, h2, h3⟩ := chordBlock_run
  have hg : (initial (millAt 3 4)).g = 0 := by rw [initial_at]
  refine MovesAlong.step (1, chordBlock) [] _ (some _) [] ?_ ?_ (.done _)
  · show ∀ d ∈ words chordBlock, PlainWord d
    unfold PlainWord
    decide +kernel
  · refine ⟨by decide, ?_, (initial_pos _ _).1, (initial_pos _ _).2, ?_, h1, h2, h3⟩
    · show motionCode chordBlock (initial (millAt 3 4)).g = 0 ∨ _
      rw [hg]
      decide +kernel
    · show pos (initial (millAt 3 4)) c!"Z" = some 10
      rw [initial_at]
      simp [pos, VMap.get]

/-- The quarter turn and the straight move instead of it, run over the real numbers: the straight move is shorter. -/
example : ∃ L L', (Sml.run RF (millAt 3 4) false [(1, quarter)] (initial (millAt 3 4), [])).1.1.path.total = some L ∧
    (Sml.run RF (millAt 3 4) false [(1, chordBlock)] (initial (millAt 3 4), [])).1.1.path.total = some L' ∧
    L' ≤ L ∧ L - L' ≤ 5 * (π / 2) * (π / 2) ^ 2 / 24 := by
  have hp := Real.pi_gt_three
  have hok : (Sml.run RF (millAt 3 4) false [(1, chordBlock)] (initial (millAt 3 4), [])).2 = .ok () := by
    unfold Sml.run
    rw [chordBlock_run.1]
    rfl
  have hm : MovesAlong (millAt 3 4) false [(1, chordBlock)] (initial (millAt 3 4), []) ([] ++ chordsOf 10 (3, 4) [(-4, 3)] ++ []) := chordBlock_moves
  refine C141_program_partial (before := []) (after := []) (millAt_wf 3 4) (millAt_axes 3 4) rfl rfl false quarter_moves hm (.last quarter_arc le_rfl)
    rfl (by linarith) ?_ (Or.inr ⟨Or.inl ?_, Or.inl (by linarith)⟩) (initial_empty _ _).1 (initial_empty _ _).1 (initial_empty _ _).2.1
    (initial_empty _ _).2.1 (initial_empty _ _).2.2 (initial_empty _ _).2.2 quarter_accepted hok
  · unfold tol
    linarith
  · dsimp only
    unfold tol
    norm_num

/-- With the quarter turn by its radius. -/
example : ∃ L L', (Sml.run RF (millAt 3 4) false [(1, quarterByRadius)] (initial (millAt 3 4), [])).1.1.path.total = some L ∧
    (Sml.run RF (millAt 3 4) false [(1, chordBlock)] (initial (millAt 3 4), [])).1.1.path.total = some L' ∧
    L' ≤ L ∧ L - L' ≤ 5 * (π / 2) * (π / 2) ^ 2 / 24 := by
  have hp := Real.pi_gt_three
  have hok : (Sml.run RF (millAt 3 4) false [(1, chordBlock)] (initial (millAt 3 4), [])).2 = .ok () := by
    unfold Sml.run
    rw [chordBlock_run.1]
    rfl
  have hm : MovesAlong (millAt 3 4) false [(1, chordBlock)] (initial (millAt 3 4), []) ([] ++ chordsOf 10 (3, 4) [(-4, 3)] ++ []) := chordBlock_moves
  refine C141_radius_partial (before := []) (after := []) (millAt_wf 3 4) (millAt_axes 3 4) rfl rfl false (Q := (-4, 3)) (φ := π / 2) ?_ hm
    (.last quarter_arc le_rfl) rfl (by linarith) ?_ (Or.inl ?_) (initial_empty _ _).1 (initial_empty _ _).1 (initial_empty _ _).2.1
    (initial_empty _ _).2.1 (initial_empty _ _).2.2 (initial_empty _ _).2.2 quarterByRadius_accepted hok
  · rw [if_pos (by linarith)]
    exact quarterByRadius_moves
  · unfold tol
    linarith
  · dsimp only
    unfold tol
    norm_num

end

end NC.Props
