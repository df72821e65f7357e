import Verif.Props.Pace

/-!
# C139: at one feed the time is the way over the feed
-/

namespace NC.Props
open NC NC.Path NC.Ver NC.AttrPath NC.Spec.Sim NC.Rts NC.Spec.Pace

section
variable {K : Type} [Field K] [LinearOrder K] [IsStrictOrderedRing K] [FloorRing K]

/-- The times of the motions of an accepted block at the feed `u`. -/
theorem constant_block (F : Fns K) {c : Cfg K} (hc : AxesOk c) (hn : NoLathe c) {u : K} (hu : 0 < u) (hmf : 0 < c.maxFast)
    (inch : Inch) (line : Int) {b : Block} (p : St K × MacroMap ℚ) (hi : Inv p.1) (hp : FeedIn u u p.1) (hb : FeedsIn u u b)
    (h : (evaluate F c inch line b p).2 = .ok ()) :
    FeedIn u u (evaluate F c inch line b p).1.1 ∧
      ∀ w q, (evaluate F c inch line b p).1.1.path.work = some w → (evaluate F c inch line b p).1.1.path.fast = some q →
        (evaluate F c inch line b p).1.1.time.work = some (60 * (w / u)) ∧ (evaluate F c inch line b p).1.1.time.fast = some (60 * (q / c.maxFast)) := by
  have hE := evaluate_eval F c inch line b p
  rw [h] at hE
  generalize (evaluate F c inch line b p).1.1 = s' at hE ⊢
  generalize hoo : (Out.ok () : Out Exc Unit) = o at hE
  have zero : ∀ t : St K, t.path.work = some 0 → t.path.fast = some 0 → t.time.work = some 0 → t.time.fast = some 0 →
      ∀ w q, t.path.work = some w → t.path.fast = some q → t.time.work = some (60 * (w / u)) ∧ t.time.fast = some (60 * (q / c.maxFast)) := by
    intro t h1 h2 h3 h4 w q hw hq
    rw [h1] at hw; rw [h2] at hq
    cases hw; cases hq
    exact ⟨by rw [h3]; simp, by rw [h4]; simp⟩
  cases hE with
  | empty hb => exact ⟨hp, zero _ rfl rfl rfl rfl⟩
  | unread e _ => cases hoo
  | unreadUb _ => cases hoo
  | alone v t hv ht ha hw =>
    obtain ⟨y, hy⟩ := fetchTool_fields c (storeTool c (begun c v p.1))
    obtain ⟨x, hx⟩ := begun_addTime c v p.1
    unfold copySt
    dsimp only
    rw [hy, hx]
    exact ⟨hp, zero _ rfl rfl rfl rfl⟩
  | aloneErr v t n hv ht ha hw => cases hoo
  | badTool v t e hv ht ha hq => cases hoo
  | badToolUb v t hv ht ha hq => cases hoo
  | before v hv ht ha hb hr hg hvg =>
    obtain ⟨x, hx⟩ := begun_addTime c v p.1
    obtain ⟨y, hy⟩ := dwell_fields v (begun c v p.1)
    rw [hy, hx]
    exact ⟨hp, zero _ rfl rfl rfl rfl⟩
  | halt v' S M o hb hv ht hS hn hm ho' =>
    have hr := ready_fields c v' p.1
    rw [← hS] at hr
    dsimp only at hr
    have hg := good_ready (c := c) (v := v') hi.good
    rw [← hS] at hg
    have hg := hg hn (visitAll_good (by intro g hg; cases hg) hv)
    rcases finish_ok hoo.symm with h | h
    · exact absurd h ho'
    · subst h
      obtain ⟨h1, h2⟩ := motion_false hg hm
      have hM := motion_only F c v' (current v' S) S
      rw [hm] at hM
      obtain ⟨w', f', cy, hh, x, hM⟩ := hM
      dsimp only at hM
      have e1 : s'.f = S.f := by rw [hM]
      have e2 : s'.time = S.time := by rw [hM]
      refine ⟨?_, zero _ ?_ ?_ ?_ ?_⟩
      · unfold FeedIn; rw [e1, hr.2.2.2.1]; exact hp
      · rw [h1]; exact hr.2.2.2.2.2.2.2.2.2.2.2.1
      · rw [h1]; exact hr.2.2.2.2.2.2.2.2.2.2.2.2.1
      · rw [e2]; exact hr.2.2.2.2.2.2.2.2.2.2.2.2.2.2.2.1
      · rw [e2]; exact hr.2.2.2.2.2.2.2.2.2.2.2.2.2.2.2.2
  | done v' S M s' o hb' hv ht hS hn' hm ha =>
    have hr := ready_fields c v' p.1
    rw [← hS] at hr
    dsimp only at hr
    have hcf : (current v' S).f = rate c!"F" b p.1.f := by
      rw [← (visitAll_rates hc hv p.1.f).1, ← hr.2.2.2.1]; rfl
    have hcur : (current v' S).f < 0 ∨ (u ≤ (current v' S).f ∧ (current v' S).f ≤ u) := by
      rw [hcf]; exact rate_in hb hp
    rw [account_eq] at ha
    cases hk : checks c (current v' S) (counted F c inch (current v' S) M) with
    | throw e => rw [hk] at ha; cases ha; cases hoo
    | ub => rw [hk] at ha; cases ha; cases hoo
    | ok z =>
      rw [hk] at ha; cases ha
      have sp : ∀ t : St K, (savePositions c v' t).path = t.path ∧ (savePositions c v' t).time = t.time ∧ (savePositions c v' t).f = t.f := by
        intro t
        unfold savePositions
        split
        · exact ⟨rfl, rfl, rfl⟩
        · split <;> exact ⟨rfl, rfl, rfl⟩
      obtain ⟨s1, s2, s3⟩ := sp (counted F c inch (current v' S) M)
      unfold FeedIn
      rw [s1, s2, s3]
      refine ⟨hcur, ?_⟩
      intro w q hw hq
      have hW : workTime F c inch (current v' S) (some w) = some (60 * (w / u)) := by
        unfold workTime
        dsimp only
        by_cases hz : w = 0
        · rw [if_neg (by simp [hz]), hz, zero_div, mul_zero]
        · have hpos : ¬ (current v' S).f < 0 := by
            intro hneg
            unfold checks at hk
            rw [if_pos ⟨by rw [hw]; simpa using hz, hneg⟩] at hk
            cases hk
          rcases hcur with hneg | ⟨k1, k2⟩
          · exact absurd hneg hpos
          · have hfu : (current v' S).f = u := le_antisymm k2 k1
            have hf : 0 < (current v' S).f := hfu ▸ hu
            rw [if_pos ⟨hz, hf⟩]
            have hfm : feedPerMinute F c inch (current v' S) w = (current v' S).f := by
              unfold feedPerMinute
              rw [noLathe_prog hn]
              simp
            rw [hfm]
            unfold calcTime
            rw [if_neg hf.ne', hfu]
            rfl
      have hQ : fastTime c (some q) = some (60 * (q / c.maxFast)) := by
        unfold fastTime
        dsimp only
        by_cases hz : q = 0
        · rw [if_neg (by simp [hz]), hz, zero_div, mul_zero]
        · rw [if_pos ⟨hz, hmf⟩]
          unfold calcTime
          rw [if_neg hmf.ne']
          rfl
      refine ⟨?_, ?_⟩
      · rw [← hW, ← hw]; rfl
      · rw [← hQ, ← hq]; rfl

/-- The cuts and the rapid motions reported for the blocks of a program add up to `W` and `R`. -/
inductive Ways (F : Fns K) (c : Cfg K) (inch : Inch) : Prog → St K × MacroMap ℚ → K → K → Prop
  | done (p) : Ways F c inch [] p 0 0
  | step (l : Int × Block) (t : Prog) (p) {w r W R : K} : (evaluate F c inch l.1 l.2 p).1.1.path.work = some w →
      (evaluate F c inch l.1 l.2 p).1.1.path.fast = some r → Ways F c inch t (evaluate F c inch l.1 l.2 p).1 W R →
      Ways F c inch (l :: t) p (w + W) (r + R)

/-- **C139, a program.** With one feed `u` in all F words, the time of an accepted program is the way of its cuts over that feed, the way of
its rapid motions over the rapid feed, and the time it stands still; the path is the sum of the ways.  (`_partial`: machines that are no
lathes.) -/
theorem C139_program_partial (F : Fns K) {c : Cfg K} (hw : WF c) (hc : AxesOk c) (hn : NoLathe c) {u : K} (hu : 0 < u) (hmf : 0 < c.maxFast)
    (inch : Inch) {q : Prog} {p : St K × MacroMap ℚ} {W R : K} (h : Ways F c inch q p W R) (hi : Inv p.1) (hp : FeedIn u u p.1)
    (hb : ∀ x ∈ q, FeedsIn u u x.2 ∧ NoToolDwell c x.2) (hok : (Sml.run F c inch q p).2 = .ok ())
    {x a : K} (hx : p.1.path.total = some x) (ha : p.1.time.total = some a) :
    (Sml.run F c inch q p).1.1.path.total = some (x + (W + R)) ∧
      (Sml.run F c inch q p).1.1.time.total = some (a + (60 * (W / u) + 60 * (R / c.maxFast) + standstill (timesOf c) q)) := by
  induction h generalizing x a with
  | done p =>
    refine ⟨?_, ?_⟩
    · show p.1.path.total = _
      rw [hx]; simp
    · show p.1.time.total = _
      rw [ha]; simp [standstill]
  | step l t p h1 h2 _ ih =>
    unfold Sml.run at hok ⊢
    cases ho : (evaluate F c inch l.1 l.2 p).2 with
    | throw e => rw [ho] at hok; cases hok
    | ub => rw [ho] at hok; cases hok
    | ok z =>
      rw [ho] at hok
      dsimp only at hok ⊢
      obtain ⟨b1, b2⟩ := hb l List.mem_cons_self
      obtain ⟨k1, k2⟩ := constant_block F hc hn hu hmf inch l.1 p hi hp b1 ho
      obtain ⟨k2, k3⟩ := k2 _ _ h1 h2
      have hP := C26_path F c inch l.1 l.2 p hi ho
      have hT := C26_time_partial F hc inch l.1 l.2 p hi ho b2
      rw [hx, h1, h2] at hP
      rw [ha, k2, k3] at hT
      obtain ⟨e1, e2⟩ := ih (evaluate_inv F hw inch l.1 l.2 p hi) k1 (fun x hx => hb x (List.mem_cons_of_mem _ hx)) hok hP hT
      have hst : standstill (timesOf c) (l :: t) = machineTime (timesOf c) l.2 + dwellTime l.2 + standstill (timesOf c) t := rfl
      refine ⟨?_, ?_⟩
      · rw [e1]; congr 1; ring
      · rw [e2, hst]; congr 1; ring

/-- **C139, without rapid motions.** If nothing is moved at rapid feed, path and time determine each other. -/
theorem C139_cuts_partial (F : Fns K) {c : Cfg K} (hw : WF c) (hc : AxesOk c) (hn : NoLathe c) {u : K} (hu : 0 < u) (hmf : 0 < c.maxFast)
    (inch : Inch) {q q' : Prog} {p p' : St K × MacroMap ℚ} {W W' : K} (h : Ways F c inch q p W 0) (h' : Ways F c inch q' p' W' 0)
    (hi : Inv p.1) (hi' : Inv p'.1) (hp : FeedIn u u p.1) (hp' : FeedIn u u p'.1)
    (hb : ∀ x ∈ q, FeedsIn u u x.2 ∧ NoToolDwell c x.2) (hb' : ∀ x ∈ q', FeedsIn u u x.2 ∧ NoToolDwell c x.2)
    (hok : (Sml.run F c inch q p).2 = .ok ()) (hok' : (Sml.run F c inch q' p').2 = .ok ()) {x a : K}
    (hx : p.1.path.total = some x) (hx' : p'.1.path.total = some x) (ha : p.1.time.total = some a) (ha' : p'.1.time.total = some a)
    (hs : standstill (timesOf c) q' = standstill (timesOf c) q) :
    (Sml.run F c inch q' p').1.1.time.total = (Sml.run F c inch q p).1.1.time.total ↔
      (Sml.run F c inch q' p').1.1.path.total = (Sml.run F c inch q p).1.1.path.total := by
  obtain ⟨e1, e2⟩ := C139_program_partial F hw hc hn hu hmf inch h hi hp hb hok hx ha
  obtain ⟨e3, e4⟩ := C139_program_partial F hw hc hn hu hmf inch h' hi' hp' hb' hok' hx' ha'
  rw [e1, e2, e3, e4, hs]
  simp [hu.ne']

end

section
open SimDemo

/-- A cut of 30, and a rapid motion of 40, at the feed 100. -/
def oneFeed : Prog := [(1, [w c!"G" c!"1", w c!"X" c!"30", w c!"F" c!"100"]), (2, [w c!"G" c!"0", w c!"Y" c!"40"]), (3, [])]

example : NoLathe mill ∧ 0 < mill.maxFast ∧ FeedIn 100 100 (initial mill) ∧
    (∀ x ∈ oneFeed, FeedsIn (100 : ℚ) 100 x.2 ∧ NoToolDwell mill x.2) ∧
    (Sml.run qf mill false oneFeed (initial mill, [])).2 = .ok () ∧ Ways qf mill false oneFeed (initial mill, []) 30 40 ∧
    (Sml.run qf mill false oneFeed (initial mill, [])).1.1.time.total = some (60 * (30 / 100) + 60 * (40 / mill.maxFast)) := by
  refine ⟨⟨by decide +kernel, by decide +kernel⟩, by decide +kernel, .inl (by decide +kernel), ?_, by decide +kernel, ?_, by decide +kernel⟩
  · unfold NoToolDwell
    intro x hx
    have : x ∈ oneFeed → (∀ d ∈ words x.2, d.word = c!"F" → rateOf d = some 100) ∧ ((words x.2).any isTool = false) := by
      revert x
      decide +kernel
    obtain ⟨h1, h2⟩ := this hx
    refine ⟨?_, fun h => by rw [h2] at h; cases h⟩
    intro d hd hw q hq
    rw [h1 d hd hw] at hq
    cases hq
    norm_num
  · have h : Ways qf mill false oneFeed (initial mill, []) (30 + (0 + (0 + 0))) (0 + (40 + (0 + 0))) := by
      refine Ways.step _ _ _ (by decide +kernel) (by decide +kernel) ?_
      refine Ways.step _ _ _ (by decide +kernel) (by decide +kernel) ?_
      exact Ways.step _ _ _ (by decide +kernel) (by decide +kernel) (Ways.done _)
    norm_num at h
    exact h

end
end NC.Props
