import Verif.Props.Chords
import Verif.Props.SizedTime

/-!
# C143: the time of an arc made by straight moves
-/

namespace NC.Props
open NC NC.Path NC.Ver NC.AttrPath NC.Spec.Sim NC.Spec.Geo NC.Rts NC.Spec.Pace Real

local notation "RF" => realFns

/-- **C143.** At one feed `u`, a program that makes an arc by straight moves between points on it at most the angle `δ` apart takes, besides the
time the machine stands still, not longer than the program with the arc, and at most the time of `δ² / 24` of the arc less.
(`_partial`: as `C141_program_partial`, without rapid motions.) -/
theorem C143_program_partial {cf : Cfg ℝ} (hc : WF cf) (hx : AxesOk cf) (hm : cf.mtype = .other) (hauto : cf.autoRapid = false)
    (hmf : 0 < cf.maxFast) (inch : Inch)
    {q q' : Prog} {p p' : St ℝ × MacroMap ℚ} {before after : List Leg} {s : Sense} {c P Q : ℝ × ℝ} {r φ δ z u : ℝ} {l : List (ℝ × ℝ)} (hu : 0 < u)
    (h : MovesAlong cf inch q p (before ++ [.centre s c P Q] ++ after)) (h' : MovesAlong cf inch q' p' (before ++ chordsOf z P l ++ after))
    (hl : Chorded s c r δ φ P l) (hQ : l.getLast? = some Q) (hφ : φ ≤ 2 * π) (ht : tol ≤ (π - 1) * r)
    (hd : P = Q ∨ ((tol ≤ |P.1 - Q.1| ∨ tol ≤ |P.2 - Q.2|) ∧ (φ ≤ π ∨ DifferentQuadrants (P.1 - c.1, P.2 - c.2) (Q.1 - c.1, Q.2 - c.2))))
    {W W' : ℝ} (hW : Ways RF cf inch q p W 0) (hW' : Ways RF cf inch q' p' W' 0)
    (hp : Inv p.1) (hp' : Inv p'.1) (hr : p.1.autoRapid = false) (hr' : p'.1.autoRapid = false)
    (hf : FeedIn u u p.1) (hf' : FeedIn u u p'.1)
    (hb : ∀ x ∈ q, FeedsIn u u x.2 ∧ NoToolDwell cf x.2) (hb' : ∀ x ∈ q', FeedsIn u u x.2 ∧ NoToolDwell cf x.2) {a b b' : ℝ}
    (ha : p.1.path.total = some a) (ha' : p'.1.path.total = some a) (hB : p.1.time.total = some b) (hB' : p'.1.time.total = some b')
    (hok : (Sml.run RF cf inch q p).2 = .ok ()) (hok' : (Sml.run RF cf inch q' p').2 = .ok ()) :
    ∃ T T', (Sml.run RF cf inch q p).1.1.time.total = some (b + (T + standstill (timesOf cf) q)) ∧
      (Sml.run RF cf inch q' p').1.1.time.total = some (b' + (T' + standstill (timesOf cf) q')) ∧
      T' ≤ T ∧ T - T' ≤ 60 * (r * φ / u) * (δ ^ 2 / 24) := by
  have hn : NoLathe cf := ⟨by rw [hm]; decide, by rw [hm]; decide⟩
  obtain ⟨L, L', e1, e2, e3, e4⟩ := C141_program_partial hc hx hm hauto inch h h' hl hQ hφ ht hd hp hp' hr hr' ha ha' hok hok'
  obtain ⟨f1, g1⟩ := C139_program_partial RF hc hx hn hu hmf inch hW hp hf hb hok ha hB
  obtain ⟨f2, g2⟩ := C139_program_partial RF hc hx hn hu hmf inch hW' hp' hf' hb' hok' ha' hB'
  have w1 := Option.some.inj (e1.symm.trans f1)
  have w2 := Option.some.inj (e2.symm.trans f2)
  refine ⟨60 * (W / u), 60 * (W' / u), ?_, ?_, ?_, ?_⟩
  · rw [g1, zero_div, mul_zero, add_zero]
  · rw [g2, zero_div, mul_zero, add_zero]
  · have : W' / u ≤ W / u := div_le_div_of_nonneg_right (by linarith) hu.le
    linarith
  · have : (W - W') / u ≤ (r * φ * δ ^ 2 / 24) / u := div_le_div_of_nonneg_right (by linarith) hu.le
    calc 60 * (W / u) - 60 * (W' / u) = 60 * ((W - W') / u) := by ring
      _ ≤ 60 * ((r * φ * δ ^ 2 / 24) / u) := by linarith
      _ = _ := by ring

/-! ## A concrete case -/

section
open SimDemo RealRuns

set_option linter.unusedSimpArgs false

theorem chordBlock_ways : ∃ W, Ways RF (millAt 3 4) false [(1, chordBlock)] (initial (millAt 3 4), []) W 0 := by
  have e : ∃ w, (evaluate RF (millAt 3 4) false 1 chordBlock (initial (millAt 3 4), [])).1.1.path.work = some w ∧
      (evaluate RF (millAt 3 4) false 1 chordBlock (initial (millAt 3 4), [])).1.1.path.fast = some 0 := by
    have h100 : ¬ ((100 : ℝ) < 0) := by norm_num
    unfold evaluate
    rw [if_neg (by decide), chordBlock_visit, initial_at]
    simp [evalVis, toolPart, toolOf, mTimes, gAfter, millAt, clearMotions, afterTool, startPart, dwell, Part.andThen, moveBlock, current, motion,
      linear, linearAbs, setMotion, target, setWork, account, checks, addTimes, addPath, saveModal, savePositions, atTool, atBase,
      cancelBy, cancelCycle, copySt, copyBack, copyOne, movesIncr, widen, finish, VMap.put, VMap.get, h100, latheProg,
      kept0X, kept0Y, kept0Z, kept1X, kept1Y, kept1Z, ordXY, ordXZ, ordYX, ordYZ, ordZX, ordZY]
  obtain ⟨w, h1, h2⟩ := e
  have := Ways.step (F := RF) (c := millAt 3 4) (inch := false) (1, chordBlock) [] (initial (millAt 3 4), []) h1 h2 (Ways.done _)
  exact ⟨w + 0, by simpa using this⟩

theorem chordBlock_feeds : FeedsIn (100 : ℝ) 100 chordBlock ∧ NoToolDwell (millAt 3 4) chordBlock := by
  have h1 : ∀ d ∈ words chordBlock, d.word = c!"F" → rateOf d = some 100 := by decide +kernel
  have h2 : (words chordBlock).any isTool = false := by decide +kernel
  refine ⟨?_, fun h => by rw [h2] at h; cases h⟩
  intro d hd hw q hq
  rw [h1 d hd hw] at hq
  cases hq
  norm_num

/-- The quarter turn of radius 5 and the straight move instead of it at the feed 100. -/
example : ∃ T T', (Sml.run RF (millAt 3 4) false [(1, quarter)] (initial (millAt 3 4), [])).1.1.time.total =
      some (0 + (T + standstill (timesOf (millAt 3 4)) [(1, quarter)])) ∧
    (Sml.run RF (millAt 3 4) false [(1, chordBlock)] (initial (millAt 3 4), [])).1.1.time.total =
      some (0 + (T' + standstill (timesOf (millAt 3 4)) [(1, chordBlock)])) ∧
    T' ≤ T ∧ T - T' ≤ 60 * (5 * (π / 2) / 100) * ((π / 2) ^ 2 / 24) := by
  have hp := Real.pi_gt_three
  obtain ⟨W, hW⟩ := quarter_ways
  obtain ⟨W', hW'⟩ := chordBlock_ways
  have h0 : (initial (millAt 3 4)).f < 0 := by rw [initial_at]; norm_num
  have hT : (initial (millAt 3 4)).time.total = some 0 := by rw [initial_at]; rfl
  have hok : (Sml.run RF (millAt 3 4) false [(1, chordBlock)] (initial (millAt 3 4), [])).2 = .ok () := by
    unfold Sml.run
    rw [chordBlock_run.1]
    rfl
  have hm : MovesAlong (millAt 3 4) false [(1, chordBlock)] (initial (millAt 3 4), []) ([] ++ chordsOf 10 (3, 4) [(-4, 3)] ++ []) := chordBlock_moves
  refine C143_program_partial (before := []) (after := []) (millAt_wf 3 4) (millAt_axes 3 4) rfl rfl (by show (0 : ℝ) < 600; norm_num) false
    (by norm_num) quarter_moves hm (.last quarter_arc le_rfl)
    rfl (by linarith) ?_ (Or.inr ⟨Or.inl ?_, Or.inl (by linarith)⟩) hW hW' (initial_empty _ _).1 (initial_empty _ _).1 (initial_empty _ _).2.1
    (initial_empty _ _).2.1 (.inl h0) (.inl h0) ?_ ?_ (initial_empty _ _).2.2 (initial_empty _ _).2.2 hT hT quarter_accepted hok
  · unfold tol
    linarith
  · dsimp only
    unfold tol
    norm_num
  · intro x hx
    rw [List.mem_singleton.mp hx]
    exact feeds_100 _ (by simp)
  · intro x hx
    rw [List.mem_singleton.mp hx]
    exact chordBlock_feeds

end

end NC.Props
