import Verif.Props.RealRuns
import Verif.Props.OneFeed

/-!
# C142: the time of a part of another size
-/

namespace NC.Props
open NC NC.Path NC.Ver NC.AttrPath NC.Spec.Sim NC.Spec.Geo NC.Rts NC.Spec.Pace Real

local notation "RF" => realFns

/-- **C142.** Two accepted programs of cuts, straight moves and arcs, each with one feed, the second of which makes the motions of the first for a
part `k` times as large: besides the time the machine stands still, the second takes `k u / u'` times as long, where `u` and `u'` are the feeds.
(`_partial`: no rapid motions, the tolerances decide alike for both sizes, and machines that are no lathes.) -/
theorem C142_program_partial {c : Cfg ℝ} (hc : WF c) (hx : AxesOk c) (hm : c.mtype = .other) (ha : c.autoRapid = false) (hmf : 0 < c.maxFast)
    (inch : Inch) {q q' : Prog} {p p' : St ℝ × MacroMap ℚ} {ms : List Leg} {k u u' : ℝ} (hk : 0 < k) (hu : 0 < u) (hu' : 0 < u')
    (h : MovesAlong c inch q p ms) (h' : MovesAlong c inch q' p' (ms.map (Leg.scaledBy k))) (hs : ∀ m ∈ ms, m.SameScale k)
    {W W' : ℝ} (hW : Ways RF c inch q p W 0) (hW' : Ways RF c inch q' p' W' 0)
    (hp : Inv p.1) (hp' : Inv p'.1) (hr : p.1.autoRapid = false) (hr' : p'.1.autoRapid = false)
    (hf : FeedIn u u p.1) (hf' : FeedIn u' u' p'.1)
    (hb : ∀ x ∈ q, FeedsIn u u x.2 ∧ NoToolDwell c x.2) (hb' : ∀ x ∈ q', FeedsIn u' u' x.2 ∧ NoToolDwell c x.2) {x x' a a' : ℝ}
    (hX : p.1.path.total = some x) (hX' : p'.1.path.total = some x') (hA : p.1.time.total = some a) (hA' : p'.1.time.total = some a')
    (hok : (Sml.run RF c inch q p).2 = .ok ()) (hok' : (Sml.run RF c inch q' p').2 = .ok ()) :
    ∃ T, (Sml.run RF c inch q p).1.1.time.total = some (a + (T + standstill (timesOf c) q)) ∧
      (Sml.run RF c inch q' p').1.1.time.total = some (a' + (k * u / u' * T + standstill (timesOf c) q')) := by
  have hn : NoLathe c := ⟨by rw [hm]; decide, by rw [hm]; decide⟩
  obtain ⟨L, e1, e2⟩ := C137_program_partial hc hx hm ha inch hk h h' hs hp hp' hr hr' hX hX' hok hok'
  obtain ⟨f1, g1⟩ := C139_program_partial RF hc hx hn hu hmf inch hW hp hf hb hok hX hA
  obtain ⟨f2, g2⟩ := C139_program_partial RF hc hx hn hu' hmf inch hW' hp' hf' hb' hok' hX' hA'
  have w1 : W = L := by
    have := Option.some.inj (e1.symm.trans f1)
    linarith
  have w2 : W' = k * L := by
    have := Option.some.inj (e2.symm.trans f2)
    linarith
  subst w1
  refine ⟨60 * (W / u), ?_, ?_⟩
  · rw [g1, zero_div, mul_zero, add_zero]
  · rw [g2, w2, zero_div, mul_zero, add_zero]
    congr 3
    field_simp

/-! ## A concrete case -/

section
open SimDemo RealRuns

set_option linter.unusedSimpArgs false

theorem quarter_ways : ∃ W, Ways RF (millAt 3 4) false [(1, quarter)] (initial (millAt 3 4), []) W 0 := by
  have hp := Real.pi_gt_three
  have hn : NoLathe (millAt 3 4) := ⟨by show MType.other ≠ _; decide, by show MType.other ≠ _; decide⟩
  have e : ∃ w, (evaluate RF (millAt 3 4) false 1 quarter (initial (millAt 3 4), [])).1.1.path.work = some w ∧
      (evaluate RF (millAt 3 4) false 1 quarter (initial (millAt 3 4), [])).1.1.path.fast = some 0 := by
    have h100 : ¬ ((100 : ℝ) < 0) := by norm_num
    unfold evaluate
    rw [if_neg (by decide), quarter_visit, initial_at]
    simp [evalVis, toolPart, toolOf, mTimes, gAfter, millAt, clearMotions, afterTool, startPart, dwell, Part.andThen, moveBlock, current, motion,
      circular, circularFrom, axesOf, arcStep, helixStep, helixStart, arc, setWork, account, checks, addTimes, addPath, saveModal, savePositions,
      atTool, atBase, cancelBy, cancelCycle, copySt, finish, VMap.get, h100, latheProg]
  obtain ⟨w, h1, h2⟩ := e
  have := Ways.step (F := RF) (c := millAt 3 4) (inch := false) (1, quarter) [] (initial (millAt 3 4), []) h1 h2 (Ways.done _)
  exact ⟨w + 0, by simpa using this⟩

theorem quarterTwice_ways : ∃ W, Ways RF (millAt 3 4) false [(1, quarterTwice)] (initial (millAt 6 8), []) W 0 := by
  have e : ∃ w, (evaluate RF (millAt 3 4) false 1 quarterTwice (initial (millAt 6 8), [])).1.1.path.work = some w ∧
      (evaluate RF (millAt 3 4) false 1 quarterTwice (initial (millAt 6 8), [])).1.1.path.fast = some 0 := by
    have h100 : ¬ ((100 : ℝ) < 0) := by norm_num
    unfold evaluate
    rw [if_neg (by decide), quarterTwice_visit, initial_at]
    simp [evalVis, toolPart, toolOf, mTimes, gAfter, millAt, clearMotions, afterTool, startPart, dwell, Part.andThen, moveBlock, current, motion,
      circular, circularFrom, axesOf, arcStep, helixStep, helixStart, arc, setWork, account, checks, addTimes, addPath, saveModal, savePositions,
      atTool, atBase, cancelBy, cancelCycle, copySt, finish, VMap.get, h100, latheProg]
  obtain ⟨w, h1, h2⟩ := e
  have := Ways.step (F := RF) (c := millAt 3 4) (inch := false) (1, quarterTwice) [] (initial (millAt 6 8), []) h1 h2 (Ways.done _)
  exact ⟨w + 0, by simpa using this⟩

theorem feeds_100 : ∀ b ∈ [quarter, quarterTwice], FeedsIn (100 : ℝ) 100 b ∧ NoToolDwell (millAt 3 4) b := by
  intro b hb
  have : b ∈ [quarter, quarterTwice] → (∀ d ∈ words b, d.word = c!"F" → rateOf d = some 100) ∧ ((words b).any isTool = false) := by
    revert b
    decide +kernel
  obtain ⟨h1, h2⟩ := this hb
  refine ⟨?_, fun h => by rw [h2] at h; cases h⟩
  intro d hd hw q hq
  rw [h1 d hd hw] at hq
  cases hq
  norm_num

/-- The quarter turn in twice the size at the same feed takes twice as long. -/
example : ∃ T, (Sml.run RF (millAt 3 4) false [(1, quarter)] (initial (millAt 3 4), [])).1.1.time.total =
      some (0 + (T + standstill (timesOf (millAt 3 4)) [(1, quarter)])) ∧
    (Sml.run RF (millAt 3 4) false [(1, quarterTwice)] (initial (millAt 6 8), [])).1.1.time.total =
      some (0 + (2 * 100 / 100 * T + standstill (timesOf (millAt 3 4)) [(1, quarterTwice)])) := by
  have hp := Real.pi_gt_three
  obtain ⟨W, hW⟩ := quarter_ways
  obtain ⟨W', hW'⟩ := quarterTwice_ways
  have h0 (x y : ℝ) : (initial (millAt x y)).f < 0 := by rw [initial_at]; norm_num
  have ht (x y : ℝ) : (initial (millAt x y)).time.total = some 0 := by rw [initial_at]; rfl
  refine C142_program_partial (millAt_wf 3 4) (millAt_axes 3 4) rfl rfl (by show (0 : ℝ) < 600; norm_num) false (by norm_num) (by norm_num) (by norm_num)
    quarter_moves ?_ ?_ hW hW' (initial_empty _ _).1 (initial_empty _ _).1 (initial_empty _ _).2.1 (initial_empty _ _).2.1 (.inl (h0 _ _))
    (.inl (h0 _ _)) ?_ ?_ (initial_empty _ _).2.2 (initial_empty _ _).2.2 (ht _ _) (ht _ _) quarter_accepted quarterTwice_accepted
  · have e : [Leg.centre .ccw (0, 0) (3, 4) (-4, 3)].map (Leg.scaledBy 2) = [.centre .ccw (0, 0) (6, 8) (-8, 6)] := by
      simp only [List.map_cons, List.map_nil, Leg.scaledBy, scaledTo]
      norm_num
    rw [e]
    exact quarterTwice_moves
  · intro m hm
    rw [List.mem_singleton.mp hm]
    refine ⟨?_, ?_⟩
    · unfold samePoint tol
      norm_num
    · dsimp only
      rw [show ((3 : ℝ) - 0) ^ 2 + (4 - 0) ^ 2 = 5 ^ 2 by norm_num, Real.sqrt_sq (by norm_num)]
      unfold tol
      constructor <;> intro h <;> exfalso <;> norm_num at h <;> linarith
  · intro x hx
    rw [List.mem_singleton.mp hx]
    exact feeds_100 _ (by simp)
  · intro x hx
    rw [List.mem_singleton.mp hx]
    exact feeds_100 _ (by simp)

end

end NC.Props
