import Verif.SimRates
import Verif.SimDemo
import Verif.Props.Similar
import Verif.Props.SimMono

/-!
# C120, C121: feeds and speeds, times of the machine
-/

namespace NC.Props
open NC NC.Path NC.Ver NC.AttrPath NC.Spec.Sim NC.Rts
open NC.Spec.Rates (NotLonger Like AsHigh Any Higher)

/-- The machine with another rapid feed and other times of tool exchange, pallet exchange and measurement. -/
abbrev paced {K : Type} (n : Pace K) (c : Cfg K) : Cfg K :=
  { c with maxFast := n.maxFast, exchangeTime := n.exchange, palletTime := n.pallet, measureTime := n.measure }

/-- All but the feed, the speed and the times is the same. -/
def SamePath {K : Type} (s s' : St K) : Prop := s' = { s with f := s'.f, s := s'.s, time := s'.time, tTime := s'.tTime }

section
variable {K : Type} [Field K] [LinearOrder K]

/-- Feed and speed are both above zero, or the same. -/
structure Rated (R : K → K → Prop) (s s' : St K) : Prop where
  path : SamePath s s'
  feed : R s.f s'.f
  speed : R s.s s'.s

theorem same_iff {R : K → K → Prop} (s s' : St K) : Rts.Same R s s' ↔ Rated R s s' := by
  constructor
  · rintro ⟨u, rfl, h1, h2⟩
    exact ⟨rfl, h1, h2⟩
  · rintro ⟨h0, h1, h2⟩
    exact ⟨clock s', h0, h1, h2⟩

theorem telling_like : Telling (Like (K := K)) := by
  constructor
  · intro x y h
    rcases h with h | h
    · rw [h]
    · exact ⟨fun g => absurd h.2 (not_lt.mpr (le_of_lt g)), fun g => absurd h.1 (not_lt.mpr (le_of_lt g))⟩
  · intro x y h
    rcases h with h | h
    · rw [h]
    · exact ⟨fun _ => h.1, fun _ => h.2⟩

end

section
variable {K : Type} [Field K] [LinearOrder K] [IsStrictOrderedRing K] [FloorRing K]

/-- **C120, a block.** With other feeds and speeds, on a machine with another rapid feed and other times, a block is accepted or refused
alike, with the same message, sets the same variables and leads to the same state apart from the feed, the speed and the times. -/
theorem C120_block (F : Fns K) {c : Cfg K} (hc : AxesOk c) (n : Pace K) (hn : Like c.maxFast n.maxFast) (inch : Inch) (line : Int) {b b' : Block}
    (hb : List.Forall₂ (Spec.Rates.Word Any) b b') {s s' : St K} (hs : Rated Like s s') (m : MacroMap ℚ) :
    let r := evaluate F c inch line b (s, m)
    let r' := evaluate F (paced n c) inch line b' (s', m)
    Rated Like r.1.1 r'.1.1 ∧ r'.1.2 = r.1.2 ∧ r'.2 = r.2 := by
  have hP : ∀ q q' : ℚ, Any q q' → Like (q : K) (q' : K) := by
    intro q q' h
    exact Or.inr ⟨by exact_mod_cast h.1, by exact_mod_cast h.2⟩
  obtain ⟨h1, h2, h3⟩ := evaluate_same telling_like (fun x => Or.inl rfl) hP F hc n hn inch line hb ((same_iff s s').mpr hs) m
  exact ⟨(same_iff _ _).mp h1, h2, h3⟩

/-- **C120, a program.** -/
theorem C120_program (F : Fns K) {c : Cfg K} (hc : AxesOk c) (n : Pace K) (hn : Like c.maxFast n.maxFast) (inch : Inch) {q q' : Prog}
    (hq : Spec.Rates.Program Any q q') {s s' : St K} (hs : Rated Like s s') (m : MacroMap ℚ) :
    let r := Sml.run F c inch q (s, m)
    let r' := Sml.run F (paced n c) inch q' (s', m)
    Rated Like r.1.1 r'.1.1 ∧ r'.1.2 = r.1.2 ∧ r'.2 = r.2 := by
  induction hq generalizing s s' m with
  | nil => exact ⟨hs, rfl, rfl⟩
  | @cons x x' t t' h _ ih =>
    obtain ⟨h1, h2, h3⟩ := C120_block F hc n hn inch x.1 h.2 hs m
    dsimp only
    unfold Sml.run
    rw [h.1]
    rw [h3]
    cases ho : (evaluate F c inch x.1 x.2 (s, m)).2 with
    | throw e => exact ⟨h1, h2, rfl⟩
    | ub => exact ⟨h1, h2, rfl⟩
    | ok u =>
      have := ih h1 (evaluate F c inch x.1 x.2 (s, m)).1.2
      dsimp only at this ⊢
      have e : (evaluate F (paced n c) inch x.1 x'.2 (s', m)).1 =
          ((evaluate F (paced n c) inch x.1 x'.2 (s', m)).1.1, (evaluate F c inch x.1 x.2 (s, m)).1.2) := by
        rw [← h2]
      rw [e]
      exact this

/-- **C120, from the start.** In particular the lengths, the positions, the bounds, the tool and the modes are the same. -/
theorem C120_start (F : Fns K) {c : Cfg K} (hc : AxesOk c) (n : Pace K) (hn : Like c.maxFast n.maxFast) (inch : Inch) {q q' : Prog}
    (hq : Spec.Rates.Program Any q q') (m : MacroMap ℚ) :
    let r := Sml.run F c inch q (initial c, m)
    let r' := Sml.run F (paced n c) inch q' (initial (paced n c), m)
    r'.2 = r.2 ∧ r'.1.2 = r.1.2 ∧ r'.1.1.path = r.1.1.path ∧ r'.1.1.tPath = r.1.1.tPath ∧ r'.1.1.range = r.1.1.range ∧
      (∀ a, pos r'.1.1 a = pos r.1.1 a) ∧ r'.1.1.tool = r.1.1.tool ∧ SamePath r.1.1 r'.1.1 := by
  have h0 : Rated Like (initial c) (initial (paced n c)) := ⟨rfl, Or.inl rfl, Or.inl rfl⟩
  obtain ⟨h1, h2, h3⟩ := C120_program F hc n hn inch hq h0 m
  have h4 := h1.path
  have h5 := h4
  unfold SamePath at h5
  have e1 := congrArg St.path h5
  have e2 := congrArg St.tPath h5
  have e3 := congrArg St.range h5
  have e4 := congrArg St.tool h5
  refine ⟨h3, h2, e1, e2, e3, ?_, e4, h4⟩
  intro a
  unfold pos
  rw [e3]

end

section
variable {K : Type} [Field K] [LinearOrder K] [IsStrictOrderedRing K] [FloorRing K]

/-! ## Times -/

/-- No time of the second machine is longer, and its rapid feed is no lower. -/
structure NoSlower (c : Cfg K) (n : Pace K) : Prop where
  fast : AsHigh c.maxFast n.maxFast
  exchange : n.exchange ≤ c.exchangeTime
  pallet : n.pallet ≤ c.palletTime
  measure : n.measure ≤ c.measureTime

/-- No time in the second state is longer: of the whole program, of the tool in use, of the last motions, of each tool. -/
structure NoLater (s s' : St K) : Prop where
  total : NotLonger s.time.total s'.time.total
  tool : NotLonger s.time.toolTotal s'.time.toolTotal
  work : NotLonger s.time.work s'.time.work
  fast : NotLonger s.time.fast s'.time.fast
  tools : ∀ t, Option.Rel NotLonger (s.tTime.get t) (s'.tTime.get t)

/-- The lengths reported are not below zero. -/
def Onward (s : St K) : Prop := (∀ x, s.path.work = some x → 0 ≤ x) ∧ ∀ x, s.path.fast = some x → 0 ≤ x

/-- **C121, a block.** With feeds and speeds as high or higher, on a machine that is no slower, a block that is accepted takes no longer.
(`_partial`: if its reported lengths are not below zero; see `C121_violated_cycle`.) -/
theorem C121_block_partial {F : Fns K} (hF : 0 < F.pi) {c : Cfg K} (hc : AxesOk c) {n : Pace K} (hn : NoSlower c n) (inch : Inch) (line : Int)
    {b b' : Block} (hb : List.Forall₂ (Spec.Rates.Word Higher) b b') {s s' : St K} (hs : Rated AsHigh s s') (hl : NoLater s s') (m : MacroMap ℚ) :
    let r := evaluate F c inch line b (s, m)
    let r' := evaluate F (paced n c) inch line b' (s', m)
    Rated AsHigh r.1.1 r'.1.1 ∧ r'.1.2 = r.1.2 ∧ r'.2 = r.2 ∧ (r.2 = .ok () → Onward r.1.1 → NoLater r.1.1 r'.1.1) := by
  have hP : ∀ q q' : ℚ, Higher q q' → AsHigh (q : K) (q' : K) := by
    intro q q' h
    exact Or.inr ⟨by exact_mod_cast h.1, by exact_mod_cast h.2⟩
  have hs' := (same_iff s s').mpr hs
  obtain ⟨h1, h2, h3⟩ := evaluate_same telling_high (fun x => Or.inl rfl) hP F hc n hn.fast inch line hb hs' m
  refine ⟨(same_iff _ _).mp h1, h2, h3, ?_⟩
  intro hok ho
  obtain ⟨k1, k2, k3, k4, k5⟩ := evaluate_later hF hc (n := n) ⟨hn.fast, hn.exchange, hn.pallet, hn.measure⟩ inch line hb hs' m
    ⟨hl.total, hl.tool, hl.work, hl.fast, hl.tools⟩ hok ho.1 ho.2
  exact ⟨k1, k2, k3, k4, k5⟩

/-- Every block of the run that is accepted reports lengths that are not below zero. -/
def Forward (F : Fns K) (c : Cfg K) (inch : Inch) : Prog → St K × MacroMap ℚ → Prop
  | [], _ => True
  | x :: t, p => (evaluate F c inch x.1 x.2 p).2 = .ok () →
      Onward (evaluate F c inch x.1 x.2 p).1.1 ∧ Forward F c inch t (evaluate F c inch x.1 x.2 p).1

/-- **C121, a program.** (`_partial`: no reported length is below zero.) -/
theorem C121_program_partial {F : Fns K} (hF : 0 < F.pi) {c : Cfg K} (hc : AxesOk c) {n : Pace K} (hn : NoSlower c n) (inch : Inch) {q q' : Prog}
    (hq : Spec.Rates.Program Higher q q') {s s' : St K} (hs : Rated AsHigh s s') (hl : NoLater s s') (m : MacroMap ℚ)
    (hf : Forward F c inch q (s, m)) (hok : (Sml.run F c inch q (s, m)).2 = .ok ()) :
    (Sml.run F (paced n c) inch q' (s', m)).2 = .ok () ∧
      NoLater (Sml.run F c inch q (s, m)).1.1 (Sml.run F (paced n c) inch q' (s', m)).1.1 := by
  induction hq generalizing s s' m with
  | nil => exact ⟨rfl, hl⟩
  | @cons x x' t t' h _ ih =>
    obtain ⟨h1, h2, h3, h4⟩ := C121_block_partial hF hc hn inch x.1 h.2 hs hl m
    unfold Sml.run at hok ⊢
    rw [h.1, h3]
    cases ho : (evaluate F c inch x.1 x.2 (s, m)).2 with
    | throw e => rw [ho] at hok; cases hok
    | ub => rw [ho] at hok; cases hok
    | ok u =>
      rw [ho] at hok
      obtain ⟨f1, f2⟩ := hf ho
      have e : (evaluate F (paced n c) inch x.1 x'.2 (s', m)).1 =
          ((evaluate F (paced n c) inch x.1 x'.2 (s', m)).1.1, (evaluate F c inch x.1 x.2 (s, m)).1.2) := by
        rw [← h2]
      dsimp only at hok ⊢
      rw [e]
      exact ih h1 (h4 ho f1) (evaluate F c inch x.1 x.2 (s, m)).1.2 f2 hok

end

/-! ## Without drilling cycles no length is below zero -/

section

theorem onward_of {c : Cfg ℝ} (hc : AxesOk c) (inch : Inch) (line : Int) (b : Block) (p : St ℝ × MacroMap ℚ)
    (hg : (isDrill p.1.g || isDrillQ p.1.g) = false) (hb : ∀ d ∈ words b, ¬ Drills d)
    (h : (evaluate realFns c inch line b p).2 = .ok ()) :
    Onward (evaluate realFns c inch line b p).1.1 ∧
      (isDrill (evaluate realFns c inch line b p).1.1.g || isDrillQ (evaluate realFns c inch line b p).1.1.g) = false := by
  have hE := evaluate_eval realFns c inch line b p
  rw [h] at hE
  generalize (evaluate realFns c inch line b p).1.1 = s' at hE
  generalize ho : (Out.ok () : Out Exc Unit) = o at hE
  have zero : ∀ t : St ℝ, t.path.work = some 0 → t.path.fast = some 0 → Onward t := by
    intro t h1 h2
    refine ⟨fun x hx => ?_, fun x hx => ?_⟩
    · rw [h1] at hx; cases hx; exact le_refl _
    · rw [h2] at hx; cases hx; exact le_refl _
  cases hE with
  | empty hb => exact ⟨zero _ rfl rfl, hg⟩
  | unread e _ => cases ho
  | unreadUb _ => cases ho
  | alone v t hv ht ha hw =>
    obtain ⟨y, hy⟩ := fetchTool_fields c (storeTool c (begun c v p.1))
    obtain ⟨x, hx⟩ := begun_addTime c v p.1
    unfold copySt
    dsimp only
    rw [hy, hx]
    exact ⟨zero _ rfl rfl, hg⟩
  | aloneErr v t n hv ht ha hw => cases ho
  | badTool v t e hv ht ha hq => cases ho
  | badToolUb v t hv ht ha hq => cases ho
  | before v hv ht ha hb hr hg hvg =>
    obtain ⟨x, hx⟩ := begun_addTime c v p.1
    obtain ⟨y, hy⟩ := dwell_fields v (begun c v p.1)
    rw [hy, hx]
    refine ⟨zero _ rfl rfl, ?_⟩
    assumption
  | halt v S M o hb' hv ht hS hn hm ho' =>
    have hD := ready_noDrill (c := c) (v := v) (s := p.1) hg (visitAll_noDrill hc hb hv)
    have hN := ready_nonNeg c v p.1
    rw [← hS] at hN hD
    have hMN := motion_nonNeg c v (current v S) hN hD
    have hM := motion_only realFns c v (current v S) S
    have hr := ready_fields c v p.1
    rw [← hS] at hr
    dsimp only at hr
    rw [hm] at hMN hM
    refine ⟨hMN, ?_⟩
    obtain ⟨w, f, cy, h1, x, rfl⟩ := hM
    show (isDrill S.g || isDrillQ S.g) = false
    rcases hr.2.1 with e | e
    · rw [e]; exact hg
    · rw [e]; rfl
  | done v S M s' o hb' hv ht hS hn hm ha =>
    have hD := ready_noDrill (c := c) (v := v) (s := p.1) hg (visitAll_noDrill hc hb hv)
    have hN := ready_nonNeg c v p.1
    rw [← hS] at hN hD
    have hMN := motion_nonNeg c v (current v S) hN hD
    rw [hm] at hMN
    have hl := account_lengths realFns c inch v (current v S) M
    have hgg : (account realFns c inch v (current v S) M).1.g = gAfter c (current v S).g := by
      unfold account savePositions
      dsimp only
      split
      · dsimp only
        split_ifs <;> rfl
      · rfl
      · rfl
    rw [ha] at hl hgg
    dsimp only at hl hgg
    refine ⟨⟨?_, ?_⟩, ?_⟩
    · rw [hl.1]; exact hMN.1
    · rw [hl.2]; exact hMN.2
    · rw [hgg]
      unfold gAfter
      split
      · rfl
      · exact hD

/-- **C121, programs without drilling cycles.** Whatever else such a program contains, with feeds and speeds as high or higher and on a
machine that is no slower it takes no longer, in all and for each tool.  (`_partial`: no drilling cycles, exact real numbers.) -/
theorem C121_start_partial {c : Cfg ℝ} (hc : AxesOk c) {n : Pace ℝ} (hn : NoSlower c n) (inch : Inch) {q q' : Prog}
    (hq : Spec.Rates.Program Higher q q') (m : MacroMap ℚ) (hg : (isDrill c.motion || isDrillQ c.motion) = false)
    (hd : ∀ x ∈ q, ∀ d ∈ words x.2, ¬ Drills d) (hok : (Sml.run realFns c inch q (initial c, m)).2 = .ok ()) :
    (Sml.run realFns (paced n c) inch q' (initial (paced n c), m)).2 = .ok () ∧
      NoLater (Sml.run realFns c inch q (initial c, m)).1.1 (Sml.run realFns (paced n c) inch q' (initial (paced n c), m)).1.1 := by
  have hf : ∀ (q : Prog) (p : St ℝ × MacroMap ℚ), (isDrill p.1.g || isDrillQ p.1.g) = false → (∀ x ∈ q, ∀ d ∈ words x.2, ¬ Drills d) →
      Forward realFns c inch q p := by
    intro q
    induction q with
    | nil => intro p _ _; trivial
    | cons x t ih =>
      intro p h1 h2 h3
      obtain ⟨k1, k2⟩ := onward_of hc inch x.1 x.2 p h1 (h2 x List.mem_cons_self) h3
      exact ⟨k1, ih _ k2 fun y hy => h2 y (List.mem_cons_of_mem _ hy)⟩
  have h0 : Rated AsHigh (initial c) (initial (paced n c)) := ⟨rfl, Or.inl rfl, Or.inl rfl⟩
  have hl : NoLater (initial c) (initial (paced n c)) :=
    ⟨le_refl (0 : ℝ), le_refl (0 : ℝ), le_refl (0 : ℝ), le_refl (0 : ℝ), fun t => .none⟩
  exact C121_program_partial Real.pi_pos hc hn inch hq h0 hl m (hf q _ hg hd) hok

end

section
open NC.SimDemo

/-- A path with a corner and a tool exchange. -/
def steady : Prog :=
  [(1, [w c!"G" c!"1", w c!"X" c!"10", w c!"F" c!"100", w c!"S" c!"500"]),
   (2, [w c!"Y" c!"10"]),
   (3, [w c!"T" c!"2", w c!"M" c!"6"]),
   (4, [w c!"G" c!"1", w c!"X" c!"20", w c!"F" c!"50"])]

/-- The same with higher feeds. -/
def hurried : Prog :=
  [(1, [w c!"G" c!"1", w c!"X" c!"10", w c!"F" c!"200", w c!"S" c!"500"]),
   (2, [w c!"Y" c!"10"]),
   (3, [w c!"T" c!"2", w c!"M" c!"6"]),
   (4, [w c!"G" c!"1", w c!"X" c!"20", w c!"F" c!"80"])]

theorem steady_hurried : Spec.Rates.Program Higher steady hurried := by
  refine .cons ⟨rfl, ?_⟩ (.cons ⟨rfl, ?_⟩ (.cons ⟨rfl, ?_⟩ (.cons ⟨rfl, ?_⟩ .nil)))
  · exact .cons (.same _) (.cons (.same _) (.cons (.rate _ _ 100 200 (by decide) rfl (by decide +kernel) (by decide +kernel)
      ⟨by norm_num, by norm_num⟩) (.cons (.same _) .nil)))
  · exact .cons (.same _) .nil
  · exact .cons (.same _) (.cons (.same _) .nil)
  · exact .cons (.same _) (.cons (.same _) (.cons (.rate _ _ 50 80 (by decide) rfl (by decide +kernel) (by decide +kernel)
      ⟨by norm_num, by norm_num⟩) .nil))

/-- A machine twice as fast. -/
def swift : Pace ℚ := ⟨1200, 2, 7, 3⟩

example : NoSlower mill swift := ⟨Or.inr ⟨by decide +kernel, by decide +kernel⟩, by decide +kernel, by decide +kernel, by decide +kernel⟩

/-- The program is accepted and no length is below zero. -/
example : (Sml.run qf mill false steady (initial mill, [])).2 = .ok () ∧ Forward qf mill false steady (initial mill, []) := by
  have dec : ∀ s : St ℚ, (s.path.work.all fun x => decide (0 ≤ x)) = true → (s.path.fast.all fun x => decide (0 ≤ x)) = true → Onward s := by
    intro s h1 h2
    refine ⟨fun x hx => ?_, fun x hx => ?_⟩
    · rw [hx] at h1; simpa using h1
    · rw [hx] at h2; simpa using h2
  refine ⟨by decide +kernel, fun _ => ⟨dec _ (by decide +kernel) (by decide +kernel), fun _ => ⟨dec _ (by decide +kernel) (by decide +kernel),
    fun _ => ⟨dec _ (by decide +kernel) (by decide +kernel), fun _ => ⟨dec _ (by decide +kernel) (by decide +kernel), trivial⟩⟩⟩⟩⟩

/-- And the times differ: the claim is not empty. -/
example : (Sml.run qf mill false steady (initial mill, [])).1.1.time.total ≠
    (Sml.run qf (paced swift mill) false hurried (initial (paced swift mill), [])).1.1.time.total := by
  decide +kernel

/-- **C121 is violated by a cycle whose R lies below its depth.** The length of the hole is negative, and the time grows with the feed
(AttributesPathCalculator.cpp:1194-1228). -/
theorem C121_violated_cycle :
    let q (f : Str) : Prog := [(1, [w c!"G" c!"81", w c!"G" c!"99", w c!"X" c!"3", w c!"Y" c!"4", wn c!"Z" c!"1", wn c!"R" c!"90", w c!"F" f])]
    (Sml.run qf mill false (q c!"100") (initial mill, [])).2 = .ok () ∧
      (match (Sml.run qf mill false (q c!"100") (initial mill, [])).1.1.time.total,
        (Sml.run qf mill false (q c!"200") (initial mill, [])).1.1.time.total with
      | some x, some y => decide (x < y)
      | _, _ => false) = true := by
  decide +kernel

end
end NC.Props
