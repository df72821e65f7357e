import Verif.Props.SimTotals
import Verif.Props.SimCases

/-!
# Properties of the simulation of blocks: totals of each tool
-/

namespace NC.Props
open NC NC.Path NC.Ver NC.AttrPath NC.Spec.Sim

section
variable {K : Type} [Field K] [LinearOrder K] [FloorRing K]

/-- What is reported after each block: the tool, the motion of the block and its time. -/
def reports (F : Fns K) (c : Cfg K) (inch : Inch) : Prog → St K × MacroMap ℚ → List (Str × Fl K × Fl K)
  | [], _ => []
  | x :: t, p =>
    ((evaluate F c inch x.1 x.2 p).1.1.path.toolId, pathOf (evaluate F c inch x.1 x.2 p).1.1,
      timeOf (evaluate F c inch x.1 x.2 p).1.1) :: reports F c inch t (evaluate F c inch x.1 x.2 p).1

/-- The sum of the motions reported for a tool. -/
def pathBy (t : Str) (h : List (Str × Fl K × Fl K)) : Fl K :=
  ((h.filter (fun e => e.1 = t)).map (fun e => e.2.1)).foldl addF (some 0)

/-- The sum of the motion times reported for a tool. -/
def timeBy (t : Str) (h : List (Str × Fl K × Fl K)) : Fl K :=
  ((h.filter (fun e => e.1 = t)).map (fun e => e.2.2)).foldl addF (some 0)

/-- The path kept for a tool. -/
def keptPath (s : St K) (t : Str) : Fl K :=
  if t = s.tool then s.path.toolTotal else (s.tPath.get t).getD (some 0)

/-- The time kept for a tool. -/
def keptTime (s : St K) (t : Str) : Fl K :=
  if t = s.tool then s.time.toolTotal else (s.tTime.get t).getD (some 0)

/-- The same is kept for all tools. -/
def SameKept (s s' : St K) : Prop :=
  ∀ t : Str, t ≠ [] → keptPath s' t = keptPath s t ∧ keptTime s' t = keptTime s t

omit [LinearOrder K] [FloorRing K] in
theorem SameKept.refl (s : St K) : SameKept s s := fun _ _ => ⟨rfl, rfl⟩

omit [LinearOrder K] [FloorRing K] in
theorem SameKept.trans {s t u : St K} (h : SameKept s t) (h' : SameKept t u) : SameKept s u :=
  fun a ha => ⟨(h' a ha).1.trans (h a ha).1, (h' a ha).2.trans (h a ha).2⟩

omit [LinearOrder K] [FloorRing K] in
theorem kept_of {s s' : St K} (h1 : s'.tool = s.tool) (h2 : s'.tPath = s.tPath) (h3 : s'.tTime = s.tTime)
    (h4 : s'.path.toolTotal = s.path.toolTotal) (h5 : s'.time.toolTotal = s.time.toolTotal) : SameKept s s' := by
  intro t _
  unfold keptPath keptTime
  rw [h1, h2, h3, h4, h5]
  exact ⟨rfl, rfl⟩

omit [LinearOrder K] [FloorRing K] in
theorem fetchTool_kept (c : Cfg K) (s : St K) :
    (fetchTool c s).tool = s.tool ∧ (fetchTool c s).tPath = s.tPath ∧ (fetchTool c s).tTime = s.tTime ∧
    (fetchTool c s).path.toolTotal = (s.tPath.get s.tool).getD (some 0) ∧
    (fetchTool c s).time.toolTotal = (s.tTime.get s.tool).getD (some 0) ∧ (fetchTool c s).path.toolId = s.tool ∧
    (fetchTool c s).path.work = s.path.work ∧ (fetchTool c s).path.fast = s.path.fast ∧
    (fetchTool c s).time.work = s.time.work ∧ (fetchTool c s).time.fast = s.time.fast := by
  unfold fetchTool exchangeTimes
  dsimp only
  split
  · split <;> exact ⟨rfl, rfl, rfl, rfl, rfl, rfl, rfl, rfl, rfl, rfl⟩
  · exact ⟨rfl, rfl, rfl, rfl, rfl, rfl, rfl, rfl, rfl, rfl⟩

omit [LinearOrder K] [FloorRing K] in
/-- Putting one tool away and taking another keeps what belongs to each. -/
theorem swap_kept (c : Cfg K) (s : St K) (t' : Str) : SameKept s (fetchTool c { storeTool c s with tool := t' }) := by
  obtain ⟨h1, h2, h3, h4, h5, _⟩ := fetchTool_kept c { storeTool c s with tool := t' }
  intro t ht
  unfold keptPath keptTime
  rw [h1, h2, h3, h4, h5]
  show (if t = t' then ((storeTool c s).tPath.get t').getD (some 0) else ((storeTool c s).tPath.get t).getD (some 0)) = _ ∧
    (if t = t' then ((storeTool c s).tTime.get t').getD (some 0) else ((storeTool c s).tTime.get t).getD (some 0)) = _
  have e1 : ∀ (a b : Fl K), t = t' → a = b → a = b := fun _ _ _ h => h
  have hp : (if t = t' then ((storeTool c s).tPath.get t').getD (some 0) else ((storeTool c s).tPath.get t).getD (some 0)) =
      ((storeTool c s).tPath.get t).getD (some 0) := by
    split
    · rename_i e; rw [e]
    · rfl
  have hq : (if t = t' then ((storeTool c s).tTime.get t').getD (some 0) else ((storeTool c s).tTime.get t).getD (some 0)) =
      ((storeTool c s).tTime.get t).getD (some 0) := by
    split
    · rename_i e; rw [e]
    · rfl
  rw [hp, hq]
  unfold storeTool
  dsimp only
  by_cases hs : s.tool ≠ []
  · rw [if_pos hs, if_pos hs, VMap.get_put, VMap.get_put]
    by_cases he : s.tool = t
    · rw [if_pos he, if_pos he, if_pos he.symm, if_pos he.symm]
      exact ⟨rfl, rfl⟩
    · rw [if_neg he, if_neg he, if_neg (fun e => he e.symm), if_neg (fun e => he e.symm)]
      exact ⟨rfl, rfl⟩
  · rw [if_neg hs, if_neg hs]
    have he : ¬ t = s.tool := by
      intro e
      rw [e] at ht
      exact hs ht
    rw [if_neg he, if_neg he]
    exact ⟨rfl, rfl⟩

omit [LinearOrder K] [FloorRing K] in
theorem begun_kept (c : Cfg K) (v : Vis K) (s : St K) : SameKept s (begun c v s) ∧ (begun c v s).tool = s.tool ∧
    (begun c v s).path.toolId = s.path.toolId ∧ pathOf (begun c v s) = some 0 ∧ timeOf (begun c v s) = some 0 := by
  obtain ⟨x, hx⟩ := begun_addTime c v s
  rw [hx]
  refine ⟨kept_of rfl rfl rfl rfl rfl, rfl, rfl, ?_, ?_⟩
  · exact addF_zeros
  · exact addF_zeros

omit [FloorRing K] in
theorem ready_kept {c : Cfg K} (v : Vis K) (s : St K) (hs : s.path.toolId = s.tool) :
    SameKept s (started c v (dwell v (exchanged c v (begun c v s)))) ∧
    (started c v (dwell v (exchanged c v (begun c v s)))).path.toolId =
      (started c v (dwell v (exchanged c v (begun c v s)))).tool := by
  obtain ⟨h1, h2, h3, _⟩ := begun_kept c v s
  have he : SameKept s (exchanged c v (begun c v s)) ∧ (exchanged c v (begun c v s)).path.toolId = (exchanged c v (begun c v s)).tool := by
    unfold exchanged
    split
    · exact ⟨h1, by rw [h3, h2, hs]⟩
    · rename_i t _
      refine ⟨h1.trans (swap_kept c _ t), ?_⟩
      obtain ⟨f1, _, _, _, _, f6, _⟩ := fetchTool_kept c { storeTool c (begun c v s) with tool := t }
      rw [f1, f6]
  obtain ⟨y, hy⟩ := dwell_fields v (exchanged c v (begun c v s))
  have hd : SameKept s (dwell v (exchanged c v (begun c v s))) ∧
      (dwell v (exchanged c v (begun c v s))).path.toolId = (dwell v (exchanged c v (begun c v s))).tool := by
    rw [hy]
    exact ⟨he.1.trans (kept_of rfl rfl rfl rfl rfl), he.2⟩
  unfold started
  split
  · exact ⟨hd.1.trans (kept_of rfl rfl rfl rfl rfl), hd.2⟩
  · split
    · exact ⟨hd.1.trans (kept_of rfl rfl rfl rfl rfl), hd.2⟩
    · exact hd

/-- A block adds its motion to what is kept for the tool that is then in use, and nothing to the others. -/
theorem eval_kept {F : Fns K} {c : Cfg K} {inch : Inch} {b : Block} {s s' : St K}
    (hs : s.path.toolId = s.tool) (hg : s.g = -1 ∨ Good s.g) (h : Eval F c inch b s (.ok ()) s') :
    s'.path.toolId = s'.tool ∧ ∀ t : Str, t ≠ [] →
      keptPath s' t = addF (keptPath s t) (if t = s'.tool then pathOf s' else some 0) ∧
      keptTime s' t = addF (keptTime s t) (if t = s'.tool then timeOf s' else some 0) := by
  have quiet : ∀ s' : St K, SameKept s s' → s'.path.toolId = s'.tool → pathOf s' = some 0 → timeOf s' = some 0 →
      s'.path.toolId = s'.tool ∧ ∀ t : Str, t ≠ [] →
      keptPath s' t = addF (keptPath s t) (if t = s'.tool then pathOf s' else some 0) ∧
      keptTime s' t = addF (keptTime s t) (if t = s'.tool then timeOf s' else some 0) := by
    intro s' h1 h2 h3 h4
    refine ⟨h2, fun t ht => ?_⟩
    rw [h3, h4, ite_self, addF_zero, addF_zero]
    exact h1 t ht
  generalize ho : (Out.ok () : Out Exc Unit) = o at h
  cases h with
  | empty hb => exact quiet _ (kept_of rfl rfl rfl rfl rfl) hs addF_zeros addF_zeros
  | unread e _ => cases ho
  | unreadUb _ => cases ho
  | alone v t hv ht ha hw =>
    obtain ⟨b1, b2, b3, b4, b5⟩ := begun_kept c v s
    obtain ⟨f1, f2, f3, f4, f5, f6, f7, f8, f9, f10⟩ := fetchTool_kept c (storeTool c (begun c v s))
    refine quiet _ ?_ ?_ ?_ ?_
    · have h1 := swap_kept c (begun c v s) (begun c v s).tool
      refine b1.trans (SameKept.trans h1 ?_)
      exact kept_of rfl rfl rfl rfl rfl
    · exact f6.trans f1.symm
    · show addF (fetchTool c (storeTool c (begun c v s))).path.work (fetchTool c (storeTool c (begun c v s))).path.fast = some 0
      rw [f7, f8]; exact b4
    · show addF (fetchTool c (storeTool c (begun c v s))).time.work (fetchTool c (storeTool c (begun c v s))).time.fast = some 0
      rw [f9, f10]; exact b5
  | aloneErr v t n hv ht ha hw => cases ho
  | badTool v t e hv ht ha hq => cases ho
  | badToolUb v t hv ht ha hq => cases ho
  | before v hv ht ha hb hr hgg hvg =>
    obtain ⟨b1, b2, b3, b4, b5⟩ := begun_kept c v s
    obtain ⟨y, hy⟩ := dwell_fields v (begun c v s)
    refine quiet _ ?_ ?_ ?_ ?_
    · rw [hy]; exact b1.trans (kept_of rfl rfl rfl rfl rfl)
    · rw [hy]; exact b3.trans (hs.trans b2.symm)
    · rw [hy]; exact b4
    · rw [hy]; exact b5
  | halt v S M o hb hv ht hS hn hm ho' =>
    obtain ⟨r1, r2⟩ := ready_kept (c := c) v s hs
    have hf := ready_fields c v s
    have hgd := good_ready (c := c) (v := v) (s := s) hg
    dsimp only at hf
    rw [← hS] at r1 r2 hf hgd
    obtain ⟨_, _, _, _, _, _, _, _, _, _, _, f6, f7, _, _, f8, f9⟩ := hf
    rcases finish_ok ho.symm with h | h
    · exact absurd h ho'
    · subst h
      obtain ⟨m1, _⟩ := motion_false (hgd hn (visitAll_good (by intro g hg; cases hg) hv)) hm
      rw [m1]
      refine quiet _ r1 r2 ?_ ?_
      · unfold pathOf; rw [f6, f7]; exact addF_zeros
      · unfold timeOf; rw [f8, f9]; exact addF_zeros
  | done v S M s' o hb hv ht hS hn hm ha =>
    obtain ⟨r1, r2⟩ := ready_kept (c := c) v s hs
    rw [← hS] at r1 r2
    have hM := motion_only F c v (current v S) S
    rw [hm] at hM
    obtain ⟨w, f, cy, h1, x, hM⟩ := hM
    dsimp only at hM
    have hcnt : SameKept s M := r1.trans (by rw [hM]; exact kept_of rfl rfl rfl rfl rfl)
    have key : ∀ s' : St K, s'.tool = M.tool → s'.tPath = M.tPath → s'.tTime = M.tTime → s'.path.toolId = M.tool →
        s'.path.toolTotal = addF M.path.toolTotal (pathOf s') → s'.time.toolTotal = addF M.time.toolTotal (timeOf s') →
        s'.path.toolId = s'.tool ∧ ∀ t : Str, t ≠ [] →
        keptPath s' t = addF (keptPath s t) (if t = s'.tool then pathOf s' else some 0) ∧
        keptTime s' t = addF (keptTime s t) (if t = s'.tool then timeOf s' else some 0) := by
      intro s' e1 e2 e3 e4 e5 e6
      refine ⟨e4.trans e1.symm, fun t ht => ?_⟩
      rw [← (hcnt t ht).1, ← (hcnt t ht).2]
      unfold keptPath keptTime
      rw [e1, e2, e3]
      by_cases he : t = M.tool
      · rw [if_pos he, if_pos he, if_pos he, if_pos he, if_pos he, if_pos he]
        exact ⟨e5, e6⟩
      · rw [if_neg he, if_neg he, if_neg he, if_neg he, if_neg he, if_neg he, addF_zero, addF_zero]
        exact ⟨rfl, rfl⟩
    rw [account_eq] at ha
    split at ha
    · cases ha
      unfold savePositions
      split
      · exact key _ rfl rfl rfl rfl rfl rfl
      · split
        · exact key _ rfl rfl rfl rfl rfl rfl
        · exact key _ rfl rfl rfl rfl rfl rfl
    · cases ha; cases ho
    · cases ha; cases ho

theorem pathBy_cons (t : Str) (e : Str × Fl K × Fl K) (h : List (Str × Fl K × Fl K)) (x : Fl K) :
    (((e :: h).filter (fun e => e.1 = t)).map (fun e => e.2.1)).foldl addF x =
      ((h.filter (fun e => e.1 = t)).map (fun e => e.2.1)).foldl addF (addF x (if t = e.1 then e.2.1 else some 0)) := by
  by_cases he : e.1 = t
  · rw [List.filter_cons_of_pos (by simpa using he), if_pos he.symm]; rfl
  · rw [List.filter_cons_of_neg (by simpa using he), if_neg (fun h => he h.symm), addF_zero]

theorem timeBy_cons (t : Str) (e : Str × Fl K × Fl K) (h : List (Str × Fl K × Fl K)) (x : Fl K) :
    (((e :: h).filter (fun e => e.1 = t)).map (fun e => e.2.2)).foldl addF x =
      ((h.filter (fun e => e.1 = t)).map (fun e => e.2.2)).foldl addF (addF x (if t = e.1 then e.2.2 else some 0)) := by
  by_cases he : e.1 = t
  · rw [List.filter_cons_of_pos (by simpa using he), if_pos he.symm]; rfl
  · rw [List.filter_cons_of_neg (by simpa using he), if_neg (fun h => he h.symm), addF_zero]

theorem kept_sum (F : Fns K) {c : Cfg K} (hc : WF c) (inch : Inch) (prog : Prog) (p : St K × MacroMap ℚ)
    (hp : Inv p.1) (hi : p.1.path.toolId = p.1.tool) (h : AllOk F c inch prog p) :
    (final F c inch prog p).1.path.toolId = (final F c inch prog p).1.tool ∧ ∀ t : Str, t ≠ [] →
      keptPath (final F c inch prog p).1 t =
        (((reports F c inch prog p).filter (fun e => e.1 = t)).map (fun e => e.2.1)).foldl addF (keptPath p.1 t) ∧
      keptTime (final F c inch prog p).1 t =
        (((reports F c inch prog p).filter (fun e => e.1 = t)).map (fun e => e.2.2)).foldl addF (keptTime p.1 t) := by
  induction prog generalizing p with
  | nil => exact ⟨hi, fun _ _ => ⟨rfl, rfl⟩⟩
  | cons x l ih =>
    have hE := evaluate_eval F c inch x.1 x.2 p
    rw [h.1] at hE
    obtain ⟨k1, k2⟩ := eval_kept hi hp.good hE
    obtain ⟨i1, i2⟩ := ih _ (evaluate_inv F hc inch x.1 x.2 p hp) k1 h.2
    refine ⟨i1, fun t ht => ?_⟩
    have r : reports F c inch (x :: l) p = ((evaluate F c inch x.1 x.2 p).1.1.path.toolId,
        pathOf (evaluate F c inch x.1 x.2 p).1.1, timeOf (evaluate F c inch x.1 x.2 p).1.1) ::
        reports F c inch l (evaluate F c inch x.1 x.2 p).1 := rfl
    have fn : final F c inch (x :: l) p = final F c inch l (evaluate F c inch x.1 x.2 p).1 := rfl
    rw [r, fn, pathBy_cons, timeBy_cons, (i2 t ht).1, (i2 t ht).2, (k2 t ht).1, (k2 t ht).2]
    dsimp only
    rw [k1]
    exact ⟨rfl, rfl⟩

/-- **C66.** The path and time reported for the tool in use are the sums of the motions, and of their times,
of all blocks of the program executed with that tool, however often it was exchanged in between. -/
theorem C66_tool_totals (F : Fns K) {c : Cfg K} (hc : WF c) (inch : Inch) (prog : Prog) (m : MacroMap ℚ)
    (h : AllOk F c inch prog (initial c, m)) (ht : (final F c inch prog (initial c, m)).1.path.toolId ≠ []) :
    (final F c inch prog (initial c, m)).1.path.toolTotal =
      pathBy (final F c inch prog (initial c, m)).1.path.toolId (reports F c inch prog (initial c, m)) ∧
    (final F c inch prog (initial c, m)).1.time.toolTotal =
      timeBy (final F c inch prog (initial c, m)).1.path.toolId (reports F c inch prog (initial c, m)) := by
  obtain ⟨k1, k2⟩ := kept_sum F hc inch prog (initial c, m) (initial_inv hc) rfl h
  obtain ⟨k3, k4⟩ := k2 _ ht
  unfold keptPath at k3
  unfold keptTime at k4
  rw [if_pos k1] at k3 k4
  have e1 : keptPath (initial c) (final F c inch prog (initial c, m)).1.path.toolId = some 0 := by
    unfold keptPath; split <;> rfl
  have e2 : keptTime (initial c) (final F c inch prog (initial c, m)).1.path.toolId = some 0 := by
    unfold keptTime; split <;> rfl
  unfold keptPath at e1
  unfold keptTime at e2
  rw [k3, k4, e1, e2]
  exact ⟨rfl, rfl⟩

end

section
open SimDemo

/-- `C66_tool_totals`: T1 works 5 mm, T2 works 5 mm, T1 is taken again and works 10 mm more; 40 mm and 2 · 50 mm
lead to the tool exchange point and count for the tool taken there. -/
example :
    let prog : Prog := [(1, [w c!"T" c!"1", w c!"M" c!"6"]),
      (2, [w c!"G" c!"1", w c!"X" c!"3", w c!"Y" c!"4", w c!"F" c!"100"]),
      (3, [w c!"X" c!"0", w c!"Y" c!"0"]), (4, [w c!"T" c!"2", w c!"M" c!"6"]),
      (5, [w c!"G" c!"1", w c!"X" c!"6", w c!"Y" c!"8"]), (6, [w c!"X" c!"0", w c!"Y" c!"0"]),
      (7, [w c!"T" c!"1", w c!"M" c!"6"]), (8, [w c!"G" c!"1", w c!"X" c!"3", w c!"Y" c!"4"])]
    (final qf mill false prog (start mill)).1.path.toolTotal = some (40 + 5 + 5 + 5) ∧
    (final qf mill false prog (start mill)).1.path.toolId = c!"1" ∧
    (reports qf mill false prog (start mill)).map (fun e => (e.1, e.2.1)) =
      [(c!"1", some 40), (c!"1", some 5), (c!"1", some 5), (c!"2", some 0), (c!"2", some 10), (c!"2", some 10),
       (c!"1", some 0), (c!"1", some 5)] := by
  decide +kernel

/-- **C66, violated.** The path before the first tool exchange is lost as soon as a tool is named. -/
theorem C66_violated_no_tool :
    let prog : Prog := [(1, [w c!"G" c!"1", w c!"X" c!"3", w c!"Y" c!"4", w c!"F" c!"100"]), (2, [w c!"T" c!"1"])]
    (final qf mill false prog (start mill)).1.path.toolId = [] ∧
    (final qf mill false prog (start mill)).1.path.toolTotal = some 0 ∧
    pathBy [] (reports qf mill false prog (start mill)) = some 5 := by decide +kernel

end
end NC.Props
