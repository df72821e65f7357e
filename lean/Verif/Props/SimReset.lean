import Verif.Props.SimTotals
import Verif.SimDemo

/-!
# Properties of the simulation of blocks: reset and skipped words
-/

namespace NC.Props
open NC NC.Path NC.Ver NC.AttrPath NC.Spec.Sim

section
variable {K : Type} [Field K] [LinearOrder K] [FloorRing K]

/-! ## C27 -/

/-- What a program shows: after each block the state and how the block ended. -/
def outcomes (F : Fns K) (c : Cfg K) (inch : Inch) : Prog → St K × MacroMap ℚ → List ((St K × MacroMap ℚ) × Out Exc Unit)
  | [], _ => []
  | x :: t, p => evaluate F c inch x.1 x.2 p :: outcomes F c inch t (evaluate F c inch x.1 x.2 p).1

omit [FloorRing K] in
theorem reset_eq (c : Cfg K) (s : St K) : reset c s = { initial c with autoRapid := s.autoRapid } := rfl

theorem eval_autoRapid {F : Fns K} {c : Cfg K} (hc : c.autoRapid = false) {inch : Inch} {b : Block} {s s' : St K}
    {o : Out Exc Unit} (hs : s.autoRapid = false) (h : Eval F c inch b s o s') : s'.autoRapid = false := by
  have hbeg : ∀ v, (begun c v s).autoRapid = false := by
    intro v
    obtain ⟨x, hx⟩ := begun_addTime c v s
    rw [hx]; exact hs
  have hst : ∀ t : St K, t.autoRapid = false → (storeTool c t).autoRapid = false := by
    intro t ht
    show (c.autoRapid || t.autoRapid) = false
    rw [hc, ht]; rfl
  have hfe : ∀ t : St K, t.autoRapid = false → (fetchTool c t).autoRapid = false := by
    intro t ht
    obtain ⟨y, hy⟩ := fetchTool_fields c t
    rw [hy]; exact ht
  have hready : ∀ v, (started c v (dwell v (exchanged c v (begun c v s)))).autoRapid = false := by
    intro v
    have he : (exchanged c v (begun c v s)).autoRapid = false := by
      unfold exchanged
      split
      · exact hbeg v
      · exact hfe _ (hst _ (hbeg v))
    have hd : (dwell v (exchanged c v (begun c v s))).autoRapid = false := by
      obtain ⟨y, hy⟩ := dwell_fields v (exchanged c v (begun c v s))
      rw [hy]; exact he
    unfold started
    split
    · rfl
    · split
      · exact hd
      · exact hd
  cases h with
  | empty hb => exact hs
  | unread e _ => exact hs
  | unreadUb _ => exact hs
  | alone v t hv ht ha hw => exact hfe _ (hst _ (hbeg v))
  | aloneErr v t n hv ht ha hw => exact hfe _ (hst _ (hbeg v))
  | badTool v t e hv ht ha hq => exact hst _ (hbeg v)
  | badToolUb v t hv ht ha hq => exact hst _ (hbeg v)
  | before v hv ht ha hb hr hg hvg =>
    obtain ⟨y, hy⟩ := dwell_fields v (begun c v s)
    rw [hy]; exact hbeg v
  | halt v S M o hb hv ht hS hn hm ho' =>
    have hM := motion_only F c v (current v S) S
    rw [hm] at hM
    obtain ⟨w, f, cy, h1, x, rfl⟩ := hM
    have := hready v
    rw [← hS] at this
    exact this
  | done v S M s' o hb hv ht hS hn hm ha =>
    have hM := motion_only F c v (current v S) S
    rw [hm] at hM
    obtain ⟨w, f, cy, h1, x, rfl⟩ := hM
    have := hready v
    rw [← hS] at this
    rw [account_eq] at ha
    split at ha
    · cases ha
      unfold savePositions
      split
      · exact this
      · split <;> exact this
    · cases ha; exact this
    · cases ha; exact this

theorem final_autoRapid (F : Fns K) {c : Cfg K} (hc : c.autoRapid = false) (inch : Inch) (prog : Prog)
    (p : St K × MacroMap ℚ) (hp : p.1.autoRapid = false) : (final F c inch prog p).1.autoRapid = false := by
  induction prog generalizing p with
  | nil => exact hp
  | cons x t ih => exact ih _ (eval_autoRapid hc hp (evaluate_eval F c inch x.1 x.2 p))

/-- **C27.** After a reset every program gives what it gives on a fresh calculator, whatever ran before,
if the machine does not position rapidly after a tool exchange by itself. -/
theorem C27_reset_partial (F : Fns K) (c : Cfg K) (hc : c.autoRapid = false) (inch : Inch) (before after : Prog)
    (m m' : MacroMap ℚ) :
    outcomes F c inch after (reset c (final F c inch before (initial c, m)).1, m') =
      outcomes F c inch after (initial c, m') := by
  have h := final_autoRapid F hc inch before (initial c, m) rfl
  rw [reset_eq, h]
  rfl

/-- **C27.** In general, exactly the pending rapid positioning survives a reset. -/
theorem C27_reset_iff (F : Fns K) (c : Cfg K) (inch : Inch) (before : Prog) (m : MacroMap ℚ) :
    reset c (final F c inch before (initial c, m)).1 = initial c ↔
      (final F c inch before (initial c, m)).1.autoRapid = false := by
  rw [reset_eq]
  constructor
  · intro h
    have := congrArg St.autoRapid h
    exact this
  · intro h
    rw [h]; rfl

/-! ## C28 -/

omit [LinearOrder K] [FloorRing K] in
theorem visitAll_append (c : Cfg K) (r : Vis K) (a b : Block) :
    visitAll c r (a ++ b) =
      match visitAll c r a with
      | .ok r' => visitAll c r' b
      | .throw e => .throw e
      | .ub => .ub := by
  induction a generalizing r with
  | nil => rfl
  | cons x t ih =>
    have hc : ∀ l : Block, visitAll c r (x :: l) =
        match visit c r x with
        | .ok r' => visitAll c r' l
        | .throw e => .throw e
        | .ub => .ub := fun l => rfl
    rw [List.cons_append, hc, hc]
    cases visit c r x with
    | ok r' => exact ih r'
    | throw e => rfl
    | ub => rfl

/-- No attribute without number. -/
def NoStr (b : Block) : Prop := ∀ w v, .str w v ∉ b

omit [LinearOrder K] [FloorRing K] in
theorem visitAll_skipped {c : Cfg K} {r : Vis K} (hs : r.skip = true) {b : Block} (hb : NoStr b) :
    visitAll c r b = .ok r := by
  induction b generalizing r with
  | nil => rfl
  | cons a t ih =>
    have ht : NoStr t := fun w v h => hb w v (List.mem_cons_of_mem _ h)
    unfold visitAll
    cases a with
    | dec d =>
      have hv : visit c r (.dec d) = .ok r := by
        unfold visit
        dsimp only
        rw [if_pos hs]
        split
        · rw [← hs]
        · rfl
      rw [hv]
      exact ih hs ht
    | str w v => exact absurd List.mem_cons_self (hb w v)
    | chr w v => exact ih hs ht

omit [LinearOrder K] [FloorRing K] in
theorem visitAll_slash (c : Cfg K) (pre : Block) {d : Dec} (hd : d.word = c!"/") {post : Block} (hp : NoStr post) :
    visitAll c {} (pre ++ .dec d :: post) = visitAll c {} (pre ++ [.dec d]) := by
  rw [visitAll_append, visitAll_append]
  cases visitAll c {} pre with
  | throw e => rfl
  | ub => rfl
  | ok r =>
    dsimp only
    have hv : visit c r (.dec d) = .ok { r with skip := true } := by
      unfold visit
      dsimp only
      rw [if_pos hd]
    unfold visitAll
    rw [hv]
    dsimp only
    rw [visitAll_skipped (r := { r with skip := true }) rfl hp]
    rfl

/-- **C28.** The words behind a `/` make no difference to anything. -/
theorem C28_suffix_partial (F : Fns K) (c : Cfg K) (inch : Inch) (line : Int) (pre : Block) {d : Dec}
    (hd : d.word = c!"/") {post post' : Block} (h : NoStr post) (h' : NoStr post') (p : St K × MacroMap ℚ) :
    evaluate F c inch line (pre ++ .dec d :: post) p = evaluate F c inch line (pre ++ .dec d :: post') p := by
  unfold evaluate
  rw [if_neg (by simp), if_neg (by simp), visitAll_slash c pre hd h, visitAll_slash c pre hd h']

/-- What a block without effect may leave different: the reported motion of the block, which is zero, and
the state of the drilling cycle. -/
structure Idle (s s' : St K) : Prop where
  path : s'.path.total = s.path.total
  toolPath : s'.path.toolTotal = s.path.toolTotal
  motion : s'.path.work = some 0 ∧ s'.path.fast = some 0
  time : s'.time.total = s.time.total
  toolTime : s'.time.toolTotal = s.time.toolTotal
  timeMotion : s'.time.work = some 0 ∧ s'.time.fast = some 0
  positions : s'.range = s.range ∧ s'.prev = s.prev
  tools : s'.tPath = s.tPath ∧ s'.tTime = s.tTime ∧ s'.tool = s.tool
  modal : s'.f = s.f ∧ s'.s = s.s ∧ s'.plane = s.plane ∧ s'.ret = s.ret ∧ s'.incr = s.incr ∧ s'.css = s.css ∧
    s'.perRev = s.perRev
  motionCode : s'.g = s.g ∨ (s.g = 80 ∧ s'.g = 0)
  pending : s'.autoRapid = s.autoRapid ∧ s'.helix = s.helix

omit [LinearOrder K] [FloorRing K] in
theorem visitAll_skippedBlock {c : Cfg K} {d : Dec} (hd : d.word = c!"/") {post : Block} (hp : NoStr post) :
    visitAll c {} (.dec d :: post) = .ok { skip := true } := by
  have := visitAll_slash c [] hd hp
  rw [List.nil_append, List.nil_append] at this
  rw [this]
  have hv : visit c ({} : Vis K) (.dec d) = .ok { skip := true } := by
    unfold visit
    dsimp only
    rw [if_pos hd]
  unfold visitAll
  rw [hv]
  rfl

omit [LinearOrder K] [FloorRing K] in
theorem skip_begun (c : Cfg K) (s : St K) :
    exchanged c ({ skip := true } : Vis K) (begun c { skip := true } s) = clearMotions s := by
  unfold exchanged begun mTimes toolOf
  simp

omit [LinearOrder K] [FloorRing K] in
theorem skip_ready (c : Cfg K) (s : St K) :
    started c ({ skip := true } : Vis K) (dwell { skip := true } (exchanged c { skip := true } (begun c { skip := true } s)))
      = clearMotions s := by
  rw [skip_begun]
  unfold started dwell atTool atBase toolOf
  simp

theorem linear_idle {F : Fns K} (h0 : F.sqrt 0 = 0) (c : Cfg K) (s : St K) (S M : St K) (hS : S = clearMotions s)
    (cur : Cur K) (hc : cur = current ({ skip := true } : Vis K) S)
    (hm : linear F c { skip := true } cur S = (M, .ok true)) :
    ∃ cy h, M = { S with path := { S.path with cycle := cy, holes := h } } := by
  have hX : ∃ cy h, cancelBy c cur.g S = { S with path := { S.path with cycle := cy, holes := h } } := by
    unfold cancelBy
    split
    · exact ⟨_, _, rfl⟩
    · exact ⟨_, _, rfl⟩
  obtain ⟨cy, h, hX⟩ := hX
  refine ⟨cy, h, ?_⟩
  have hz : ∀ t : St K, t.path.work = some 0 → t.path.fast = some 0 → setMotion cur.g (some 0) t = t := by
    intro t h1 h2
    unfold setMotion
    split
    · rw [← h2]
    · rw [← h1]
  have hw : S.path.work = some 0 ∧ S.path.fast = some 0 := by rw [hS]; exact ⟨rfl, rfl⟩
  unfold linear at hm
  rw [hX] at hm
  have h3 : len3 F 0 0 0 = 0 := by
    unfold len3
    rw [zero_pow two_ne_zero, add_zero, add_zero, h0]
  have hat : atTool c ({ skip := true } : Vis K) = false := by
    unfold atTool toolOf; simp
  have hab : atBase ({ skip := true } : Vis K) = false := by
    unfold atBase; simp
  split at hm
  · unfold linearAbs at hm
    split at hm
    · cases hm
    · cases hm
    · cases hm
    · have ht : ∀ a (x : K), target c ({ skip := true } : Vis K) a x = .ok x := by
        intro a x
        unfold target
        rw [hat, hab]
        rfl
      simp only [ht] at hm
      unfold dist3 at hm
      rw [sub_self, sub_self, sub_self, h3, hz { S with path := { S.path with cycle := cy, holes := h } } hw.1 hw.2] at hm
      cases hm
      rfl
  · unfold linearIncr at hm
    split at hm
    · cases hm
    · split at hm
      · cases hm
      · split at hm
        · cases hm
        · have hg : ∀ a, (({ skip := true } : Vis K).vals.get a).getD 0 = 0 := fun a => rfl
          have hh : halve c cur.plane (0 : K) = 0 := by
            unfold halve; split
            · exact zero_div _
            · rfl
          rw [hg, hg, hg, hh, h3, hz { S with path := { S.path with cycle := cy, holes := h } } hw.1 hw.2] at hm
          cases hm
          rfl

/-- **C28.** A block skipped as a whole does not move, takes no time and changes no modal value. -/
theorem C28_skipped (F : Fns K) (h0 : F.sqrt 0 = 0) (c : Cfg K) (inch : Inch) (line : Int) {d : Dec}
    (hd : d.word = c!"/") {post : Block} (hn : NoStr post) (p : St K × MacroMap ℚ)
    (hp : Inv p.1) (h : (evaluate F c inch line (.dec d :: post) p).2 = .ok ()) :
    Idle p.1 (evaluate F c inch line (.dec d :: post) p).1.1 := by
  have hE := evaluate_eval F c inch line (.dec d :: post) p
  have hV := visitAll_skippedBlock (c := c) hd hn
  rw [h] at hE
  generalize (evaluate F c inch line (.dec d :: post) p).1.1 = s' at hE
  generalize ho : (Out.ok () : Out Exc Unit) = o at hE
  cases hE with
  | empty hb => cases hb
  | unread e _ => cases ho
  | unreadUb _ => cases ho
  | alone v t hv ht ha hw =>
    rw [hV] at hv
    cases hv
    unfold toolOf at ht
    cases ht
  | aloneErr v t n hv ht ha hw => cases ho
  | badTool v t e hv ht ha hq => cases ho
  | badToolUb v t hv ht ha hq => cases ho
  | before v hv ht ha hb hr hg hvg =>
    rw [hV] at hv
    cases hv
    have h1 := skip_begun c p.1
    have h2 : exchanged c ({ skip := true } : Vis K) (begun c { skip := true } p.1) = begun c { skip := true } p.1 := rfl
    rw [← h2, h1]
    unfold dwell
    rw [if_neg (by simp)]
    exact ⟨rfl, rfl, ⟨rfl, rfl⟩, rfl, rfl, ⟨rfl, rfl⟩, ⟨rfl, rfl⟩, ⟨rfl, rfl, rfl⟩, ⟨rfl, rfl, rfl, rfl, rfl, rfl, rfl⟩,
      Or.inl rfl, ⟨rfl, rfl⟩⟩
  | halt v S M o hb hv ht hS hn' hm ho' =>
    rw [hV] at hv
    cases hv
    have hg := good_ready (c := c) (v := ({ skip := true } : Vis K)) (s := p.1) hp.good
    rw [← hS] at hg
    have hg := hg hn' (visitAll_good (by intro g hg; cases hg) hV)
    rcases finish_ok ho.symm with h | h
    · exact absurd h ho'
    · subst h
      obtain ⟨h1, _⟩ := motion_false hg hm
      rw [skip_ready] at hS
      rw [h1, hS]
      exact ⟨rfl, rfl, ⟨rfl, rfl⟩, rfl, rfl, ⟨rfl, rfl⟩, ⟨rfl, rfl⟩, ⟨rfl, rfl, rfl⟩,
        ⟨rfl, rfl, rfl, rfl, rfl, rfl, rfl⟩, Or.inl rfl, ⟨rfl, rfl⟩⟩
  | done v S M s' o hb' hv ht hS hn' hm ha =>
    rw [hV] at hv
    cases hv
    rw [skip_ready] at hS
    have hM : ∃ cy h, M = { S with path := { S.path with cycle := cy, holes := h } } := by
      unfold motion at hm
      split at hm
      · exact linear_idle h0 c p.1 S M hS _ rfl hm
      · split at hm
        · unfold circular at hm
          rw [if_pos ⟨rfl, rfl⟩] at hm
          cases hm
        · split at hm
          · cases hm; exact ⟨_, _, rfl⟩
          · split at hm
            · unfold drilling at hm
              rw [if_pos ⟨rfl, rfl⟩] at hm
              cases hm
            · cases hm
    obtain ⟨cy, hh, hM⟩ := hM
    have hwt : workTime F c inch (current ({ skip := true } : Vis K) S) (some 0) = some 0 := by
      have hn0 : ¬ ((0 : K) ≠ 0 ∧ 0 < (current ({ skip := true } : Vis K) S).f) := fun h => h.1 rfl
      unfold workTime
      dsimp only
      rw [if_neg hn0]
    have hft : fastTime c (some (0 : K)) = some 0 := by
      have hn0 : ¬ ((0 : K) ≠ 0 ∧ 0 < c.maxFast) := fun h => h.1 rfl
      unfold fastTime
      dsimp only
      rw [if_neg hn0]
    have hM1 : M.path.work = some 0 ∧ M.path.fast = some 0 := by rw [hM, hS]; exact ⟨rfl, rfl⟩
    have hcnt : Idle p.1 (counted F c inch (current ({ skip := true } : Vis K) S) M) := by
      have e1 : (counted F c inch (current ({ skip := true } : Vis K) S) M).path.total = addF M.path.total (addF M.path.work M.path.fast) := rfl
      have e2 : (counted F c inch (current ({ skip := true } : Vis K) S) M).path.toolTotal = addF M.path.toolTotal (addF M.path.work M.path.fast) := rfl
      have e3 : (counted F c inch (current ({ skip := true } : Vis K) S) M).time.work = workTime F c inch (current ({ skip := true } : Vis K) S) M.path.work := rfl
      have e4 : (counted F c inch (current ({ skip := true } : Vis K) S) M).time.fast = fastTime c M.path.fast := rfl
      have e5 : (counted F c inch (current ({ skip := true } : Vis K) S) M).time.total = addF M.time.total
        (addF (workTime F c inch (current ({ skip := true } : Vis K) S) M.path.work) (fastTime c M.path.fast)) := rfl
      have e6 : (counted F c inch (current ({ skip := true } : Vis K) S) M).time.toolTotal = addF M.time.toolTotal
        (addF (workTime F c inch (current ({ skip := true } : Vis K) S) M.path.work) (fastTime c M.path.fast)) := rfl
      rw [hM1.1, hM1.2, addF_zeros, addF_zero] at e1 e2
      rw [hM1.1, hwt] at e3
      rw [hM1.2, hft] at e4
      rw [hM1.1, hM1.2, hwt, hft, addF_zeros, addF_zero] at e5 e6
      refine ⟨?_, ?_, ?_, ?_, ?_, ⟨e3, e4⟩, ?_, ?_, ?_, ?_, ?_⟩
      · rw [e1, hM, hS]; rfl
      · rw [e2, hM, hS]; rfl
      · exact hM1
      · rw [e5, hM, hS]; rfl
      · rw [e6, hM, hS]; rfl
      · rw [hM, hS]; exact ⟨rfl, rfl⟩
      · rw [hM, hS]; exact ⟨rfl, rfl, rfl⟩
      · rw [hM, hS]; exact ⟨rfl, rfl, rfl, rfl, rfl, rfl, rfl⟩
      · show gAfter c (current ({ skip := true } : Vis K) S).g = p.1.g ∨ (p.1.g = 80 ∧ gAfter c (current ({ skip := true } : Vis K) S).g = 0)
        have : (current ({ skip := true } : Vis K) S).g = p.1.g := by rw [hS]; rfl
        rw [this]
        unfold gAfter
        split
        · rename_i h8; exact Or.inr ⟨h8.1, rfl⟩
        · exact Or.inl rfl
      · rw [hM, hS]; exact ⟨rfl, rfl⟩
    rw [account_eq] at ha
    split at ha
    · cases ha
      have hsp : ∀ t : St K, savePositions c ({ skip := true } : Vis K) t = t := by
        intro t
        unfold savePositions atTool atBase toolOf
        simp
        rfl
      rw [hsp]
      exact hcnt
    · cases ha; exact hcnt
    · cases ha; exact hcnt

end

/-! ## Examples and violations -/

section
open SimDemo

/-- A machine that positions rapidly after each tool exchange. -/
def rapidMill : Cfg ℚ := { mill with autoRapid := true }

/-- **C27, violated.** After T1 M6 and a reset, `G1 X3 Y4 F100` without a motion code of its own counts as rapid
motion; on a fresh calculator in the same program it does not. -/
theorem C27_violated_pending :
    let b : Block := [w c!"X" c!"3", w c!"Y" c!"4", w c!"F" c!"100"]
    let g1 : Block := [w c!"G" c!"1"]
    let s := (run rapidMill [[w c!"T" c!"1", w c!"M" c!"6"]] (start rapidMill)).1
    (run rapidMill [g1, b] (start rapidMill)).1.path.work = some 5 ∧
    (run rapidMill [g1, b] (reset rapidMill s, [])).1.path.work = some 0 ∧
    (run rapidMill [g1, b] (reset rapidMill s, [])).1.path.fast = some 5 := by decide +kernel

/-- **C28, violated.** A code of the machine written as a word without number takes its time although it
stands behind a `/`. -/
theorem C28_violated_string :
    (evaluate qf { mill with palletWord := c!"PALLET", palletValue := c!"A" } false 1
      [w0 c!"/", .str c!"PALLET" c!"A"] (start mill)).1.1.time.total = some 7 := by decide +kernel

/-- **C28, violated.** A skipped block is refused when a position is not known yet. -/
theorem C28_violated_refused :
    (evaluate qf { mill with base := [] } false 1 [w0 c!"/", w c!"X" c!"1"] (start { mill with base := [] })).2 =
      .throw (err .MissingPreviousValue [c!"X"]) := by decide +kernel

/-- The hypotheses of `C28_skipped` and `C28_suffix_partial` are met. -/
example : (evaluate qf mill false 1 [w0 c!"/", w c!"X" c!"1"] (start mill)).2 = .ok () ∧ qf.sqrt 0 = 0 := by
  decide +kernel

/-- Words before the `/` are executed. -/
example : (evaluate qf mill false 1 [w c!"X" c!"3", w c!"Y" c!"4", w0 c!"/", w c!"X" c!"100"] (start mill)).1.1.path.fast =
    some 5 := by decide +kernel

/-- The hypothesis of `C27_reset_partial` is met, and the calculator does change. -/
example : mill.autoRapid = false ∧
    (run mill [[w c!"G" c!"1", w c!"X" c!"3", w c!"Y" c!"4", w c!"F" c!"100"]] (start mill)).1.path.total = some 5 := by
  decide +kernel

end
end NC.Props
