import Verif.Props.SizedTime

/-!
# C144: the time of a part turned on the table and of a contour cut backwards
-/

namespace NC.Props
open NC NC.Path NC.Ver NC.AttrPath NC.Spec.Sim NC.Spec.Geo NC.Rts NC.Spec.Pace Real

local notation "RF" => realFns

/-- **C144, turned.** At one feed, a program whose motions are turned on the table takes as long, besides the time the machine stands still.
(`_partial`: no rapid motions, machines that are no lathes, and arcs that are counted alike when turned, see C136.) -/
theorem C144_turned_partial {c : Cfg ℝ} (hc : WF c) (hx : AxesOk c) (hm : c.mtype = .other) (ha : c.autoRapid = false) (hmf : 0 < c.maxFast)
    (inch : Inch) {q q' : Prog} {p p' : St ℝ × MacroMap ℚ} {ms : List Leg} {u : ℝ} (hu : 0 < u) (h : MovesAlong c inch q p ms)
    {θ : ℝ} {o : ℝ × ℝ} (h' : MovesAlong c inch q' p' (ms.map (Leg.turnedBy θ o))) (hk : ∀ m ∈ ms, m.Kept θ o)
    {W W' : ℝ} (hW : Ways RF c inch q p W 0) (hW' : Ways RF c inch q' p' W' 0)
    (hp : Inv p.1) (hp' : Inv p'.1) (hr : p.1.autoRapid = false) (hr' : p'.1.autoRapid = false)
    (hf : FeedIn u u p.1) (hf' : FeedIn u u p'.1)
    (hb : ∀ x ∈ q, FeedsIn u u x.2 ∧ NoToolDwell c x.2) (hb' : ∀ x ∈ q', FeedsIn u u x.2 ∧ NoToolDwell c x.2) {x x' a a' : ℝ}
    (hX : p.1.path.total = some x) (hX' : p'.1.path.total = some x') (hA : p.1.time.total = some a) (hA' : p'.1.time.total = some a')
    (hok : (Sml.run RF c inch q p).2 = .ok ()) (hok' : (Sml.run RF c inch q' p').2 = .ok ()) :
    ∃ T, (Sml.run RF c inch q p).1.1.time.total = some (a + (T + standstill (timesOf c) q)) ∧
      (Sml.run RF c inch q' p').1.1.time.total = some (a' + (T + standstill (timesOf c) q')) := by
  have hn : NoLathe c := ⟨by rw [hm]; decide, by rw [hm]; decide⟩
  obtain ⟨L, e1, e2⟩ := C136_program_partial hc hx hm ha inch h h' hk hp hp' hr hr' hX hX' hok hok'
  obtain ⟨f1, g1⟩ := C139_program_partial RF hc hx hn hu hmf inch hW hp hf hb hok hX hA
  obtain ⟨f2, g2⟩ := C139_program_partial RF hc hx hn hu hmf inch hW' hp' hf' hb' hok' hX' hA'
  have w1 := Option.some.inj (e1.symm.trans f1)
  have w2 := Option.some.inj (e2.symm.trans f2)
  have w : W' = W := by linarith
  refine ⟨60 * (W / u), ?_, ?_⟩
  · rw [g1, zero_div, mul_zero, add_zero]
  · rw [g2, w, zero_div, mul_zero, add_zero]

/-- **C144, quarter turns.** Turned by quarters there is no condition on the arcs. -/
theorem C144_quarters_partial {c : Cfg ℝ} (hc : WF c) (hx : AxesOk c) (hm : c.mtype = .other) (ha : c.autoRapid = false) (hmf : 0 < c.maxFast)
    (inch : Inch) {q q' : Prog} {p p' : St ℝ × MacroMap ℚ} {ms : List Leg} {u : ℝ} (hu : 0 < u) (h : MovesAlong c inch q p ms)
    (k : ℤ) {o : ℝ × ℝ} (h' : MovesAlong c inch q' p' (ms.map (Leg.turnedBy (k * (π / 2)) o)))
    {W W' : ℝ} (hW : Ways RF c inch q p W 0) (hW' : Ways RF c inch q' p' W' 0)
    (hp : Inv p.1) (hp' : Inv p'.1) (hr : p.1.autoRapid = false) (hr' : p'.1.autoRapid = false)
    (hf : FeedIn u u p.1) (hf' : FeedIn u u p'.1)
    (hb : ∀ x ∈ q, FeedsIn u u x.2 ∧ NoToolDwell c x.2) (hb' : ∀ x ∈ q', FeedsIn u u x.2 ∧ NoToolDwell c x.2) {x x' a a' : ℝ}
    (hX : p.1.path.total = some x) (hX' : p'.1.path.total = some x') (hA : p.1.time.total = some a) (hA' : p'.1.time.total = some a')
    (hok : (Sml.run RF c inch q p).2 = .ok ()) (hok' : (Sml.run RF c inch q' p').2 = .ok ()) :
    ∃ T, (Sml.run RF c inch q p).1.1.time.total = some (a + (T + standstill (timesOf c) q)) ∧
      (Sml.run RF c inch q' p').1.1.time.total = some (a' + (T + standstill (timesOf c) q')) := by
  have hn : NoLathe c := ⟨by rw [hm]; decide, by rw [hm]; decide⟩
  obtain ⟨L, e1, e2⟩ := C136_program_quarters hc hx hm ha inch k h h' hp hp' hr hr' hX hX' hok hok'
  obtain ⟨f1, g1⟩ := C139_program_partial RF hc hx hn hu hmf inch hW hp hf hb hok hX hA
  obtain ⟨f2, g2⟩ := C139_program_partial RF hc hx hn hu hmf inch hW' hp' hf' hb' hok' hX' hA'
  have w1 := Option.some.inj (e1.symm.trans f1)
  have w2 := Option.some.inj (e2.symm.trans f2)
  have w : W' = W := by linarith
  refine ⟨60 * (W / u), ?_, ?_⟩
  · rw [g1, zero_div, mul_zero, add_zero]
  · rw [g2, w, zero_div, mul_zero, add_zero]

/-- **C144, backwards.** At one feed, a contour cut backwards takes as long, besides the time the machine stands still.
(`_partial`: no rapid motions, machines that are no lathes.) -/
theorem C144_back_partial {c : Cfg ℝ} (hc : WF c) (hx : AxesOk c) (hm : c.mtype = .other) (ha : c.autoRapid = false) (hmf : 0 < c.maxFast)
    (inch : Inch) {q q' : Prog} {p p' : St ℝ × MacroMap ℚ} {ms : List Leg} {u : ℝ} (hu : 0 < u) (h : MovesAlong c inch q p ms)
    (h' : MovesAlong c inch q' p' (ms.reverse.map Leg.back))
    {W W' : ℝ} (hW : Ways RF c inch q p W 0) (hW' : Ways RF c inch q' p' W' 0)
    (hp : Inv p.1) (hp' : Inv p'.1) (hr : p.1.autoRapid = false) (hr' : p'.1.autoRapid = false)
    (hf : FeedIn u u p.1) (hf' : FeedIn u u p'.1)
    (hb : ∀ x ∈ q, FeedsIn u u x.2 ∧ NoToolDwell c x.2) (hb' : ∀ x ∈ q', FeedsIn u u x.2 ∧ NoToolDwell c x.2) {x x' a a' : ℝ}
    (hX : p.1.path.total = some x) (hX' : p'.1.path.total = some x') (hA : p.1.time.total = some a) (hA' : p'.1.time.total = some a')
    (hok : (Sml.run RF c inch q p).2 = .ok ()) (hok' : (Sml.run RF c inch q' p').2 = .ok ()) :
    ∃ T, (Sml.run RF c inch q p).1.1.time.total = some (a + (T + standstill (timesOf c) q)) ∧
      (Sml.run RF c inch q' p').1.1.time.total = some (a' + (T + standstill (timesOf c) q')) := by
  have hn : NoLathe c := ⟨by rw [hm]; decide, by rw [hm]; decide⟩
  obtain ⟨L, e1, e2⟩ := C128_program hc hx hm ha inch h h' hp hp' hr hr' hX hX' hok hok'
  obtain ⟨f1, g1⟩ := C139_program_partial RF hc hx hn hu hmf inch hW hp hf hb hok hX hA
  obtain ⟨f2, g2⟩ := C139_program_partial RF hc hx hn hu hmf inch hW' hp' hf' hb' hok' hX' hA'
  have w1 := Option.some.inj (e1.symm.trans f1)
  have w2 := Option.some.inj (e2.symm.trans f2)
  have w : W' = W := by linarith
  refine ⟨60 * (W / u), ?_, ?_⟩
  · rw [g1, zero_div, mul_zero, add_zero]
  · rw [g2, w, zero_div, mul_zero, add_zero]

/-! ## Concrete cases -/

section
open SimDemo RealRuns

set_option linter.unusedSimpArgs false

theorem quarterTurned_ways : ∃ W, Ways RF (millAt 3 4) false [(1, quarterTurned)] (initial (millAt (-4) 3), []) W 0 := by
  have e : ∃ w, (evaluate RF (millAt 3 4) false 1 quarterTurned (initial (millAt (-4) 3), [])).1.1.path.work = some w ∧
      (evaluate RF (millAt 3 4) false 1 quarterTurned (initial (millAt (-4) 3), [])).1.1.path.fast = some 0 := by
    have h100 : ¬ ((100 : ℝ) < 0) := by norm_num
    unfold evaluate
    rw [if_neg (by decide), quarterTurned_visit, initial_at]
    simp [evalVis, toolPart, toolOf, mTimes, gAfter, millAt, clearMotions, afterTool, startPart, dwell, Part.andThen, moveBlock, current, motion,
      circular, circularFrom, axesOf, arcStep, helixStep, helixStart, arc, setWork, account, checks, addTimes, addPath, saveModal, savePositions,
      atTool, atBase, cancelBy, cancelCycle, copySt, finish, VMap.get, h100, latheProg]
  obtain ⟨w, h1, h2⟩ := e
  have := Ways.step (F := RF) (c := millAt 3 4) (inch := false) (1, quarterTurned) [] (initial (millAt (-4) 3), []) h1 h2 (Ways.done _)
  exact ⟨w + 0, by simpa using this⟩

theorem quarterBack_ways : ∃ W, Ways RF (millAt 3 4) false [(1, quarterBack)] (initial (millAt (-4) 3), []) W 0 := by
  have e : ∃ w, (evaluate RF (millAt 3 4) false 1 quarterBack (initial (millAt (-4) 3), [])).1.1.path.work = some w ∧
      (evaluate RF (millAt 3 4) false 1 quarterBack (initial (millAt (-4) 3), [])).1.1.path.fast = some 0 := by
    have h100 : ¬ ((100 : ℝ) < 0) := by norm_num
    unfold evaluate
    rw [if_neg (by decide), quarterBack_visit, initial_at]
    simp [evalVis, toolPart, toolOf, mTimes, gAfter, millAt, clearMotions, afterTool, startPart, dwell, Part.andThen, moveBlock, current, motion,
      circular, circularFrom, axesOf, arcStep, helixStep, helixStart, arc, setWork, account, checks, addTimes, addPath, saveModal, savePositions,
      atTool, atBase, cancelBy, cancelCycle, copySt, finish, VMap.get, h100, latheProg]
  obtain ⟨w, h1, h2⟩ := e
  have := Ways.step (F := RF) (c := millAt 3 4) (inch := false) (1, quarterBack) [] (initial (millAt (-4) 3), []) h1 h2 (Ways.done _)
  exact ⟨w + 0, by simpa using this⟩

theorem feeds_100_more : ∀ b ∈ [quarterTurned, quarterBack], FeedsIn (100 : ℝ) 100 b ∧ NoToolDwell (millAt 3 4) b := by
  intro b hb
  have : b ∈ [quarterTurned, quarterBack] → (∀ d ∈ words b, d.word = c!"F" → rateOf d = some 100) ∧ ((words b).any isTool = false) := by
    revert b
    decide +kernel
  obtain ⟨h1, h2⟩ := this hb
  refine ⟨?_, fun h => by rw [h2] at h; cases h⟩
  intro d hd hw q hq
  rw [h1 d hd hw] at hq
  cases hq
  norm_num

/-- The quarter turn and the same turned by a quarter. -/
example : ∃ T, (Sml.run RF (millAt 3 4) false [(1, quarter)] (initial (millAt 3 4), [])).1.1.time.total =
      some (0 + (T + standstill (timesOf (millAt 3 4)) [(1, quarter)])) ∧
    (Sml.run RF (millAt 3 4) false [(1, quarterTurned)] (initial (millAt (-4) 3), [])).1.1.time.total =
      some (0 + (T + standstill (timesOf (millAt 3 4)) [(1, quarterTurned)])) := by
  obtain ⟨W, hW⟩ := quarter_ways
  obtain ⟨W', hW'⟩ := quarterTurned_ways
  have h0 (x y : ℝ) : (initial (millAt x y)).f < 0 := by rw [initial_at]; norm_num
  have ht (x y : ℝ) : (initial (millAt x y)).time.total = some 0 := by rw [initial_at]; rfl
  refine C144_quarters_partial (u := 100) (millAt_wf 3 4) (millAt_axes 3 4) rfl rfl (by show (0 : ℝ) < 600; norm_num) false (by norm_num) quarter_moves 1 (o := (0, 0)) ?_ hW hW'
    (initial_empty _ _).1 (initial_empty _ _).1 (initial_empty _ _).2.1 (initial_empty _ _).2.1 (.inl (h0 _ _))
    (.inl (h0 _ _)) ?_ ?_ (initial_empty _ _).2.2 (initial_empty _ _).2.2 (ht _ _) (ht _ _) quarter_accepted quarterTurned_accepted
  · have e (x y : ℝ) : turnedTo ((1 : ℤ) * (π / 2)) (0, 0) (x, y) = (-y, x) := by
      unfold turnedTo
      rw [Int.cast_one, one_mul, Real.cos_pi_div_two, Real.sin_pi_div_two]
      simp
    have e' : [Leg.centre .ccw (0, 0) (3, 4) (-4, 3)].map (Leg.turnedBy ((1 : ℤ) * (π / 2)) (0, 0)) = [.centre .ccw (0, 0) (-4, 3) (-3, -4)] := by
      simp only [List.map_cons, List.map_nil, Leg.turnedBy, e, neg_zero]
    rw [e']
    exact quarterTurned_moves
  · intro x hx
    rw [List.mem_singleton.mp hx]
    exact feeds_100 _ (by simp)
  · intro x hx
    rw [List.mem_singleton.mp hx]
    exact feeds_100_more _ (by simp)

/-- The quarter turn and the way back. -/
example : ∃ T, (Sml.run RF (millAt 3 4) false [(1, quarter)] (initial (millAt 3 4), [])).1.1.time.total =
      some (0 + (T + standstill (timesOf (millAt 3 4)) [(1, quarter)])) ∧
    (Sml.run RF (millAt 3 4) false [(1, quarterBack)] (initial (millAt (-4) 3), [])).1.1.time.total =
      some (0 + (T + standstill (timesOf (millAt 3 4)) [(1, quarterBack)])) := by
  obtain ⟨W, hW⟩ := quarter_ways
  obtain ⟨W', hW'⟩ := quarterBack_ways
  have h0 (x y : ℝ) : (initial (millAt x y)).f < 0 := by rw [initial_at]; norm_num
  have ht (x y : ℝ) : (initial (millAt x y)).time.total = some 0 := by rw [initial_at]; rfl
  refine C144_back_partial (u := 100) (millAt_wf 3 4) (millAt_axes 3 4) rfl rfl (by show (0 : ℝ) < 600; norm_num) false (by norm_num) quarter_moves quarterBack_moves hW hW'
    (initial_empty _ _).1 (initial_empty _ _).1 (initial_empty _ _).2.1 (initial_empty _ _).2.1 (.inl (h0 _ _))
    (.inl (h0 _ _)) ?_ ?_ (initial_empty _ _).2.2 (initial_empty _ _).2.2 (ht _ _) (ht _ _) quarter_accepted quarterBack_accepted
  · intro x hx
    rw [List.mem_singleton.mp hx]
    exact feeds_100 _ (by simp)
  · intro x hx
    rw [List.mem_singleton.mp hx]
    exact feeds_100_more _ (by simp)

end

end NC.Props
