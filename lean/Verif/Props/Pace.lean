import Verif.Props.Rates
import Verif.Props.SimTotals
import Verif.Props.SimCases
import Verif.Spec.Pace

/-!
# C132: the average speed lies between the lowest and the highest feed
-/

namespace NC.Props
open NC NC.Path NC.Ver NC.AttrPath NC.Spec.Sim NC.Rts NC.Spec.Pace

section
variable {K : Type} [Field K] [LinearOrder K] [IsStrictOrderedRing K] [FloorRing K]

/-- No feed was given yet, or one within bounds. -/
def FeedIn (u v : K) (s : St K) : Prop := s.f < 0 ∨ (u ≤ s.f ∧ s.f ≤ v)

omit [IsStrictOrderedRing K] [FloorRing K] in
theorem rate_in {u v : K} {b : Block} (hb : FeedsIn u v b) {old : K} (ho : old < 0 ∨ (u ≤ old ∧ old ≤ v)) :
    rate c!"F" b old < 0 ∨ (u ≤ rate c!"F" b old ∧ rate c!"F" b old ≤ v) := by
  unfold rate
  cases hl : (((words b).filter (fun d => d.word = c!"F")).filterMap (fun d => (rateOf d).map (fun q : ℚ => (q : K)))).getLast? with
  | none => exact ho
  | some x =>
    right
    obtain ⟨d, hd, hx⟩ := List.mem_filterMap.mp (List.mem_of_getLast? hl)
    obtain ⟨hd, hw⟩ := List.mem_filter.mp hd
    obtain ⟨q, hq, rfl⟩ := Option.map_eq_some_iff.mp hx
    exact hb d hd (by simpa using hw) q hq

/-- A machine that is no lathe. -/
def NoLathe (c : Cfg K) : Prop := c.mtype ≠ .lathe ∧ c.mtype ≠ .millturn

omit [LinearOrder K] [IsStrictOrderedRing K] [FloorRing K] in
theorem noLathe_prog {c : Cfg K} (h : NoLathe c) (p : Plane) : latheProg c p = false := by
  unfold latheProg
  rw [decide_eq_false h.1, decide_eq_false h.2]
  rfl

omit [FloorRing K] in
/-- A time at a feed within bounds. -/
theorem pace_time {u v w f : K} (hu : 0 < u) (hw : 0 ≤ w) (h1 : u ≤ f) (h2 : f ≤ v) :
    u * (60 * (w / f)) ≤ 60 * w ∧ 60 * w ≤ v * (60 * (w / f)) := by
  have hf : 0 < f := lt_of_lt_of_le hu h1
  have e : 60 * w = f * (60 * (w / f)) := by field_simp
  have hn : 0 ≤ 60 * (w / f) := mul_nonneg (by norm_num) (div_nonneg hw hf.le)
  constructor
  · calc u * (60 * (w / f)) ≤ f * (60 * (w / f)) := mul_le_mul_of_nonneg_right h1 hn
      _ = 60 * w := e.symm
  · calc 60 * w = f * (60 * (w / f)) := e
      _ ≤ v * (60 * (w / f)) := mul_le_mul_of_nonneg_right h2 hn

/-- **C132, a block.** The time of the motions of an accepted block is between that at the highest and that at the lowest feed. -/
theorem C132_block_partial (F : Fns K) {c : Cfg K} (hc : AxesOk c) (hn : NoLathe c) {u v : K} (hu : 0 < u) (hf1 : u ≤ c.maxFast) (hf2 : c.maxFast ≤ v)
    (inch : Inch) (line : Int) {b : Block} (p : St K × MacroMap ℚ) (hi : Inv p.1) (hp : FeedIn u v p.1) (hb : FeedsIn u v b)
    (h : (evaluate F c inch line b p).2 = .ok ()) (ho : Onward (evaluate F c inch line b p).1.1) :
    FeedIn u v (evaluate F c inch line b p).1.1 ∧
      ∀ w q, (evaluate F c inch line b p).1.1.path.work = some w → (evaluate F c inch line b p).1.1.path.fast = some q →
        ∃ tw tq, (evaluate F c inch line b p).1.1.time.work = some tw ∧ (evaluate F c inch line b p).1.1.time.fast = some tq ∧
          u * (tw + tq) ≤ 60 * (w + q) ∧ 60 * (w + q) ≤ v * (tw + tq) := by
  have hE := evaluate_eval F c inch line b p
  rw [h] at hE
  generalize (evaluate F c inch line b p).1.1 = s' at hE ho ⊢
  generalize hoo : (Out.ok () : Out Exc Unit) = o at hE
  have zero : ∀ t : St K, t.path.work = some 0 → t.path.fast = some 0 → t.time.work = some 0 → t.time.fast = some 0 →
      ∀ w q, t.path.work = some w → t.path.fast = some q → ∃ tw tq, t.time.work = some tw ∧ t.time.fast = some tq ∧
          u * (tw + tq) ≤ 60 * (w + q) ∧ 60 * (w + q) ≤ v * (tw + tq) := by
    intro t h1 h2 h3 h4 w q hw hq
    rw [h1] at hw; rw [h2] at hq
    cases hw; cases hq
    exact ⟨0, 0, h3, h4, by simp, by simp⟩
  cases hE with
  | empty hb => exact ⟨hp, zero _ rfl rfl rfl rfl⟩
  | unread e _ => cases hoo
  | unreadUb _ => cases hoo
  | alone v t hv ht ha hw =>
    obtain ⟨y, hy⟩ := fetchTool_fields c (storeTool c (begun c v p.1))
    obtain ⟨x, hx⟩ := begun_addTime c v p.1
    unfold copySt
    dsimp only
    rw [hy, hx]
    exact ⟨hp, zero _ rfl rfl rfl rfl⟩
  | aloneErr v t n hv ht ha hw => cases hoo
  | badTool v t e hv ht ha hq => cases hoo
  | badToolUb v t hv ht ha hq => cases hoo
  | before v hv ht ha hb hr hg hvg =>
    obtain ⟨x, hx⟩ := begun_addTime c v p.1
    obtain ⟨y, hy⟩ := dwell_fields v (begun c v p.1)
    rw [hy, hx]
    exact ⟨hp, zero _ rfl rfl rfl rfl⟩
  | halt v' S M o hb hv ht hS hn hm ho' =>
    have hr := ready_fields c v' p.1
    rw [← hS] at hr
    dsimp only at hr
    have hg := good_ready (c := c) (v := v') hi.good
    rw [← hS] at hg
    have hg := hg hn (visitAll_good (by intro g hg; cases hg) hv)
    rcases finish_ok hoo.symm with h | h
    · exact absurd h ho'
    · subst h
      obtain ⟨h1, h2⟩ := motion_false hg hm
      have hM := motion_only F c v' (current v' S) S
      rw [hm] at hM
      obtain ⟨w', f', cy, hh, x, hM⟩ := hM
      dsimp only at hM
      have e1 : s'.f = S.f := by rw [hM]
      have e2 : s'.time = S.time := by rw [hM]
      refine ⟨?_, zero _ ?_ ?_ ?_ ?_⟩
      · unfold FeedIn; rw [e1, hr.2.2.2.1]; exact hp
      · rw [h1]; exact hr.2.2.2.2.2.2.2.2.2.2.2.1
      · rw [h1]; exact hr.2.2.2.2.2.2.2.2.2.2.2.2.1
      · rw [e2]; exact hr.2.2.2.2.2.2.2.2.2.2.2.2.2.2.2.1
      · rw [e2]; exact hr.2.2.2.2.2.2.2.2.2.2.2.2.2.2.2.2
  | done v' S M s' o hb' hv ht hS hn' hm ha =>
    have hr := ready_fields c v' p.1
    rw [← hS] at hr
    dsimp only at hr
    have hcf : (current v' S).f = rate c!"F" b p.1.f := by
      rw [← (visitAll_rates hc hv p.1.f).1, ← hr.2.2.2.1]; rfl
    have hcur : (current v' S).f < 0 ∨ (u ≤ (current v' S).f ∧ (current v' S).f ≤ v) := by
      rw [hcf]; exact rate_in hb hp
    rw [account_eq] at ha
    cases hk : checks c (current v' S) (counted F c inch (current v' S) M) with
    | throw e => rw [hk] at ha; cases ha; cases hoo
    | ub => rw [hk] at ha; cases ha; cases hoo
    | ok z =>
      rw [hk] at ha; cases ha
      have sp : ∀ t : St K, (savePositions c v' t).path = t.path ∧ (savePositions c v' t).time = t.time ∧ (savePositions c v' t).f = t.f := by
        intro t
        unfold savePositions
        split
        · exact ⟨rfl, rfl, rfl⟩
        · split <;> exact ⟨rfl, rfl, rfl⟩
      obtain ⟨s1, s2, s3⟩ := sp (counted F c inch (current v' S) M)
      unfold Onward at ho
      unfold FeedIn
      rw [s1] at ho
      rw [s1, s2, s3]
      refine ⟨hcur, ?_⟩
      intro w q hw hq
      have hw0 := ho.1 w hw
      have hq0 := ho.2 q hq
      have hmf : 0 < c.maxFast := lt_of_lt_of_le hu hf1
      have hW : ∃ tw, workTime F c inch (current v' S) (some w) = some tw ∧ u * tw ≤ 60 * w ∧ 60 * w ≤ v * tw := by
        unfold workTime
        dsimp only
        by_cases hz : w = 0
        · rw [if_neg (by simp [hz])]
          exact ⟨0, rfl, by simp [hz], by simp [hz]⟩
        · have hpos : ¬ (current v' S).f < 0 := by
            intro hneg
            unfold checks at hk
            rw [if_pos ⟨by rw [hw]; simpa using hz, hneg⟩] at hk
            cases hk
          rcases hcur with hneg | ⟨k1, k2⟩
          · exact absurd hneg hpos
          · have hf : 0 < (current v' S).f := lt_of_lt_of_le hu k1
            rw [if_pos ⟨hz, hf⟩]
            have hfm : feedPerMinute F c inch (current v' S) w = (current v' S).f := by
              unfold feedPerMinute
              rw [noLathe_prog hn]
              simp
            rw [hfm]
            unfold calcTime
            rw [if_neg hf.ne']
            exact ⟨60 * (w / (current v' S).f), rfl, pace_time hu hw0 k1 k2⟩
      have hQ : ∃ tq, fastTime c (some q) = some tq ∧ u * tq ≤ 60 * q ∧ 60 * q ≤ v * tq := by
        unfold fastTime
        dsimp only
        by_cases hz : q = 0
        · rw [if_neg (by simp [hz])]
          exact ⟨0, rfl, by simp [hz], by simp [hz]⟩
        · rw [if_pos ⟨hz, hmf⟩]
          unfold calcTime
          rw [if_neg hmf.ne']
          exact ⟨60 * (q / c.maxFast), rfl, pace_time hu hq0 hf1 hf2⟩
      obtain ⟨tw, a1, a2, a3⟩ := hW
      obtain ⟨tq, b1, b2, b3⟩ := hQ
      refine ⟨tw, tq, ?_, ?_, ?_, ?_⟩
      · rw [← a1, ← hw]; rfl
      · rw [← b1, ← hq]; rfl
      · rw [mul_add, mul_add]; exact add_le_add a2 b2
      · rw [mul_add, mul_add]; exact add_le_add a3 b3

/-- Tools are not chosen together with a dwell, unless that exchanges them. -/
def NoToolDwell (c : Cfg K) (b : Block) : Prop :=
  (words b).any isTool = true → exchanges (timesOf c) b = true ∨ dwellTime (K := K) b = 0

/-- A total that is no number stays so. -/
theorem total_none (F : Fns K) {c : Cfg K} (hw : WF c) (inch : Inch) (q : Prog) (p : St K × MacroMap ℚ) (hi : Inv p.1)
    (hok : (Sml.run F c inch q p).2 = .ok ()) (h : p.1.path.total = none) : (Sml.run F c inch q p).1.1.path.total = none := by
  induction q generalizing p with
  | nil => exact h
  | cons l t ih =>
    unfold Sml.run at hok ⊢
    cases ho : (evaluate F c inch l.1 l.2 p).2 with
    | throw e => rw [ho] at hok; cases hok
    | ub => rw [ho] at hok; cases hok
    | ok z =>
      rw [ho] at hok
      dsimp only at hok ⊢
      refine ih _ (evaluate_inv F hw inch l.1 l.2 p hi) hok ?_
      rw [C26_path F c inch l.1 l.2 p hi ho, h]
      rfl

/-- **C132, a program.** With all feeds of a program and the rapid feed between `u` and `v`, the path reported for it, divided by the time
reported apart from exchanges, measuring and dwells, is between `u` and `v`.  (`_partial`: machines that are no lathes, feeds above zero,
no reported length is below zero.) -/
theorem C132_program_partial (F : Fns K) {c : Cfg K} (hw : WF c) (hc : AxesOk c) (hn : NoLathe c) {u v : K} (hu : 0 < u) (hf1 : u ≤ c.maxFast)
    (hf2 : c.maxFast ≤ v) (inch : Inch) (q : Prog) (p : St K × MacroMap ℚ) (hi : Inv p.1) (hp : FeedIn u v p.1)
    (hb : ∀ x ∈ q, FeedsIn u v x.2 ∧ NoToolDwell c x.2) (hfw : Forward F c inch q p) (hok : (Sml.run F c inch q p).2 = .ok ())
    {x y a : K} (hx : p.1.path.total = some x) (hy : (Sml.run F c inch q p).1.1.path.total = some y) (ha : p.1.time.total = some a) :
    ∃ e, (Sml.run F c inch q p).1.1.time.total = some e ∧
      u * (e - a - standstill (timesOf c) q) ≤ 60 * (y - x) ∧ 60 * (y - x) ≤ v * (e - a - standstill (timesOf c) q) := by
  induction q generalizing p x a with
  | nil =>
    have e : y = x := by
      have : p.1.path.total = some y := hy
      rw [hx] at this; exact (Option.some.inj this).symm
    refine ⟨a, ha, ?_, ?_⟩ <;> simp [e, standstill]
  | cons l t ih =>
    unfold Sml.run at hok hy ⊢
    cases ho : (evaluate F c inch l.1 l.2 p).2 with
    | throw e => rw [ho] at hok; cases hok
    | ub => rw [ho] at hok; cases hok
    | ok z =>
      rw [ho] at hok hy
      dsimp only at hok hy ⊢
      obtain ⟨f1, f2⟩ := hfw ho
      obtain ⟨b1, b2⟩ := hb l List.mem_cons_self
      obtain ⟨k1, k2⟩ := C132_block_partial F hc hn hu hf1 hf2 inch l.1 p hi hp b1 ho f1
      have hI := evaluate_inv F hw inch l.1 l.2 p hi
      have hP := C26_path F c inch l.1 l.2 p hi ho
      have hT := C26_time_partial F hc inch l.1 l.2 p hi ho b2
      have hsome : ∃ w r, (evaluate F c inch l.1 l.2 p).1.1.path.work = some w ∧ (evaluate F c inch l.1 l.2 p).1.1.path.fast = some r := by
        have no : (evaluate F c inch l.1 l.2 p).1.1.path.total ≠ none := by
          intro hnone
          rw [total_none F hw inch t _ hI hok hnone] at hy
          cases hy
        rw [hP] at no
        cases e1 : (evaluate F c inch l.1 l.2 p).1.1.path.work with
        | none => rw [e1, hx] at no; exact absurd rfl no
        | some w =>
          cases e2 : (evaluate F c inch l.1 l.2 p).1.1.path.fast with
          | none => rw [e1, e2, hx] at no; exact absurd rfl no
          | some r => exact ⟨w, r, rfl, rfl⟩
      obtain ⟨w, r, hw', hr'⟩ := hsome
      obtain ⟨tw, tr, c1, c2, c3, c4⟩ := k2 w r hw' hr'
      rw [hx, hw', hr'] at hP
      rw [ha, c1, c2] at hT
      obtain ⟨e, e1, e2, e3⟩ := ih _ hI k1 (fun x hx => hb x (List.mem_cons_of_mem _ hx)) f2 hok (x := x + (w + r)) hP hy hT
      have hst : standstill (timesOf c) (l :: t) = machineTime (timesOf c) l.2 + dwellTime l.2 + standstill (timesOf c) t := rfl
      refine ⟨e, e1, ?_, ?_⟩
      · have : e - a - standstill (timesOf c) (l :: t) = (e - (a + (machineTime (timesOf c) l.2 + dwellTime l.2) + (tw + tr)) - standstill (timesOf c) t) + (tw + tr) := by
          rw [hst]; ring
        rw [this, mul_add]
        have := add_le_add e2 c3
        refine this.trans (le_of_eq ?_)
        ring
      · have : e - a - standstill (timesOf c) (l :: t) = (e - (a + (machineTime (timesOf c) l.2 + dwellTime l.2) + (tw + tr)) - standstill (timesOf c) t) + (tw + tr) := by
          rw [hst]; ring
        rw [this, mul_add]
        refine le_trans (le_of_eq ?_) (add_le_add e3 c4)
        ring

end

section

/-- **C132, from the start.** A program without drilling cycles on a machine that starts without one: the time is at least that of the path at
the highest feed, if exchanges, measuring and dwells take no negative time. -/
theorem C132_start_partial {c : Cfg ℝ} (hw : WF c) (hc : AxesOk c) (hn : NoLathe c) {u v : ℝ} (hu : 0 < u) (hf1 : u ≤ c.maxFast)
    (hf2 : c.maxFast ≤ v) (inch : Inch) (q : Prog) (m : MacroMap ℚ) (hg : (isDrill c.motion || isDrillQ c.motion) = false)
    (hd : ∀ x ∈ q, ∀ d ∈ words x.2, ¬ Drills d) (hb : ∀ x ∈ q, FeedsIn u v x.2 ∧ NoToolDwell c x.2)
    (hok : (Sml.run realFns c inch q (initial c, m)).2 = .ok ()) {y : ℝ} (hy : (Sml.run realFns c inch q (initial c, m)).1.1.path.total = some y)
    (hs : 0 ≤ standstill (timesOf c) q) :
    ∃ e, (Sml.run realFns c inch q (initial c, m)).1.1.time.total = some e ∧ 60 * y / v ≤ e ∧ e ≤ 60 * y / u + standstill (timesOf c) q := by
  have hf : ∀ (q : Prog) (p : St ℝ × MacroMap ℚ), (isDrill p.1.g || isDrillQ p.1.g) = false → (∀ x ∈ q, ∀ d ∈ words x.2, ¬ Drills d) →
      Forward realFns c inch q p := by
    intro q
    induction q with
    | nil => intro p _ _; trivial
    | cons x t ih =>
      intro p h1 h2 h3
      obtain ⟨k1, k2⟩ := onward_of hc inch x.1 x.2 p h1 (h2 x List.mem_cons_self) h3
      exact ⟨k1, ih _ k2 fun y hy => h2 y (List.mem_cons_of_mem _ hy)⟩
  obtain ⟨e, h1, h2, h3⟩ := C132_program_partial realFns hw hc hn hu hf1 hf2 inch q (initial c, m) (initial_inv hw)
    (Or.inl (by show (-1 : ℝ) < 0; norm_num)) hb (hf q _ hg hd) hok (x := 0) (a := 0) rfl hy rfl
  have hv : 0 < v := lt_of_lt_of_le hu (hf1.trans hf2)
  refine ⟨e, h1, ?_, ?_⟩
  · rw [div_le_iff₀ hv]
    have := mul_le_mul_of_nonneg_left hs hv.le
    nlinarith
  · have : u * (e - standstill (timesOf c) q) ≤ 60 * y := by nlinarith
    have h4 : e - standstill (timesOf c) q ≤ 60 * y / u := by rw [le_div_iff₀ hu]; nlinarith
    linarith

end

section
open NC.SimDemo

/-- The program `steady` has feeds between 50 and 600 and is accepted; its way is 82 and its time 45.2 s, 5 s of which for the tool
exchange. -/
theorem steady_pace : (∀ x ∈ steady, FeedsIn (50 : ℚ) 600 x.2 ∧ NoToolDwell mill x.2) ∧ NoLathe mill ∧ standstill (timesOf mill) steady = 5 ∧
    (Sml.run qf mill false steady (initial mill, [])).2 = .ok () ∧
    (Sml.run qf mill false steady (initial mill, [])).1.1.path.total = some 82 ∧
    (Sml.run qf mill false steady (initial mill, [])).1.1.time.total = some (226 / 5) := by
  refine ⟨?_, ⟨by decide, by decide⟩, by decide +kernel, by decide +kernel, by decide +kernel, by decide +kernel⟩
  intro x hx
  simp only [steady, List.mem_cons, List.not_mem_nil, or_false] at hx
  have fin : ∀ b : Block, ((words b).all fun d => d.word != c!"F" || (match rateOf d with
      | some q => decide ((50 : ℚ) ≤ q) && decide (q ≤ 600)
      | none => true)) = true → FeedsIn (50 : ℚ) 600 b := by
    intro b hb d hd hw q hq
    have := List.all_eq_true.mp hb d hd
    rw [hw, hq] at this
    simp only [bne_self_eq_false, Bool.false_or, Bool.and_eq_true, decide_eq_true_eq] at this
    exact_mod_cast this
  have dw : ∀ b : Block, decide (dwellTime (K := ℚ) b = 0) = true → NoToolDwell mill b := by
    intro b hb _
    exact Or.inr (by simpa using hb)
  rcases hx with rfl | rfl | rfl | rfl <;> exact ⟨fin _ (by decide +kernel), dw _ (by decide +kernel)⟩

/-- `C132_program_partial` applies to it. -/
example : ∃ e, (Sml.run qf mill false steady (initial mill, [])).1.1.time.total = some e ∧
    50 * (e - 0 - standstill (timesOf mill) steady) ≤ 60 * (82 - 0) ∧ 60 * (82 - 0) ≤ 600 * (e - 0 - standstill (timesOf mill) steady) := by
  have dec : ∀ s : St ℚ, (s.path.work.all fun x => decide (0 ≤ x)) = true → (s.path.fast.all fun x => decide (0 ≤ x)) = true → Onward s := by
    intro s h1 h2
    refine ⟨fun x hx => ?_, fun x hx => ?_⟩
    · rw [hx] at h1; simpa using h1
    · rw [hx] at h2; simpa using h2
  obtain ⟨h1, h2, h3, h4, h5, h6⟩ := steady_pace
  exact C132_program_partial qf mill_wf mill_axes h2 (by norm_num) (by decide +kernel) (by decide +kernel) false steady (initial mill, []) (initial_inv mill_wf)
    (Or.inl (by decide +kernel)) h1
    (fun _ => ⟨dec _ (by decide +kernel) (by decide +kernel), fun _ => ⟨dec _ (by decide +kernel) (by decide +kernel),
      fun _ => ⟨dec _ (by decide +kernel) (by decide +kernel), fun _ => ⟨dec _ (by decide +kernel) (by decide +kernel), trivial⟩⟩⟩⟩) h4 rfl h5 rfl

/-- **C132 is violated by F0**: a way of 10 takes no time. -/
theorem C132_violated_F0 :
    let q : Prog := [(1, [w c!"G" c!"1", w c!"X" c!"10", w c!"F" c!"0"])]
    (Sml.run qf mill false q (initial mill, [])).2 = .ok () ∧ (Sml.run qf mill false q (initial mill, [])).1.1.path.total = some 10 ∧
      (Sml.run qf mill false q (initial mill, [])).1.1.time.total = some 0 := by
  and_intros <;> decide +kernel

/-- A lathe. -/
def paceLathe : Cfg ℚ := { mill with mtype := .lathe, diameter2x := true }

/-- **C132 is violated on a lathe by feed per revolution**: with F1 and S6000 and a rapid feed of 600 a way of 10 takes a tenth of a second,
ten times as fast as the rapid feed, and nothing is refused. -/
theorem C132_violated_revolution :
    let q : Prog := [(1, [w c!"G" c!"95", w c!"G" c!"97", w c!"G" c!"1", w c!"Z" c!"20", w c!"F" c!"1", w c!"S" c!"6000"])]
    let r := Sml.run qf paceLathe false q (initial paceLathe, [])
    r.2 = .ok () ∧ r.1.1.path.total = some 10 ∧ r.1.1.time.total = some (1 / 10) ∧ paceLathe.maxFast = 600 := by
  and_intros <;> decide +kernel

end
end NC.Props
