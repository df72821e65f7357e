import Verif.Props.Sim

/-!
# Properties of the simulation of blocks: totals
-/

namespace NC.Props
open NC NC.Path NC.Ver NC.AttrPath NC.Spec.Sim

section
variable {K : Type} [Field K] [LinearOrder K] [FloorRing K]

/-- The length of the block's motion. -/
def pathOf (s : St K) : Fl K := addF s.path.work s.path.fast

/-- The time of the block's motion. -/
def timeOf (s : St K) : Fl K := addF s.time.work s.time.fast

omit [LinearOrder K] [FloorRing K] in
theorem addF_zeros : addF (some (0 : K)) (some 0) = some 0 := addF_zero _

/-! ## The ways through `evaluate` and the totals -/

omit [LinearOrder K] [FloorRing K] in
theorem begun_path (c : Cfg K) (v : Vis K) (s : St K) :
    (begun c v s).path = (clearMotions s).path := by
  obtain ⟨x, hx⟩ := begun_addTime c v s
  rw [hx]; rfl

/-- Path totals after a block that succeeded. -/
theorem eval_path {F : Fns K} {c : Cfg K} {inch : Inch} {b : Block} {s s' : St K} {o : Out Exc Unit}
    (hs : s.g = -1 ∨ Good s.g) (h : Eval F c inch b s o s') (ho : o = .ok ()) :
    s'.path.total = addF s.path.total (pathOf s') := by
  unfold pathOf
  cases h with
  | empty hb =>
    show s.path.total = addF s.path.total (addF (some 0) (some 0))
    rw [addF_zeros, addF_zero]
  | unread e _ => cases ho
  | unreadUb _ => cases ho
  | alone v t hv ht ha hw =>
    obtain ⟨y, hy⟩ := fetchTool_fields c (storeTool c (begun c v s))
    obtain ⟨x, hx⟩ := begun_addTime c v s
    unfold copySt
    dsimp only
    rw [hy, hx]
    show s.path.total = addF s.path.total (addF (some 0) (some 0))
    rw [addF_zeros, addF_zero]
  | aloneErr v t n hv ht ha hw => cases ho
  | badTool v t e hv ht ha hq => cases ho
  | badToolUb v t hv ht ha hq => cases ho
  | before v hv ht ha hb hr hg hvg =>
    obtain ⟨x, hx⟩ := begun_addTime c v s
    obtain ⟨y, hy⟩ := dwell_fields v (begun c v s)
    rw [hy, hx]
    show s.path.total = addF s.path.total (addF (some 0) (some 0))
    rw [addF_zeros, addF_zero]
  | halt v S M o hb hv ht hS hn hm ho' =>
    have hr := ready_fields c v s
    rw [← hS] at hr
    dsimp only at hr
    have hg := good_ready (c := c) (v := v) hs
    rw [← hS] at hg
    have hg := hg hn (visitAll_good (by intro g hg; cases hg) hv)
    rcases finish_ok ho with h | h
    · exact absurd h ho'
    · subst h
      obtain ⟨h1, _⟩ := motion_false hg hm
      rw [h1, hr.2.2.2.2.2.2.2.2.2.2.1, hr.2.2.2.2.2.2.2.2.2.2.2.1, hr.2.2.2.2.2.2.2.2.2.2.2.2.1, addF_zeros, addF_zero]
  | done v S M s' o hb hv ht hS hn hm ha =>
    have hr := ready_fields c v s
    rw [← hS] at hr
    dsimp only at hr
    have hM := motion_only F c v (current v S) S
    rw [hm] at hM
    obtain ⟨w, f, cy, h1, x, rfl⟩ := hM
    have key : (counted F c inch (current v S) { S with path := { S.path with work := w, fast := f, cycle := cy, holes := h1 }, helix := x }).path.total
        = addF s.path.total (addF w f) := by
      show addF S.path.total (addF w f) = _
      rw [hr.2.2.2.2.2.2.2.2.2.2.1]
    rw [account_eq] at ha
    cases hc : checks c (current v S) (counted F c inch (current v S) { S with path := { S.path with work := w, fast := f, cycle := cy, holes := h1 }, helix := x }) with
    | throw e => rw [hc] at ha; cases ha; cases ho
    | ub => rw [hc] at ha; cases ha; cases ho
    | ok u =>
      rw [hc] at ha; cases ha
      have : ∀ t : St K, (savePositions c v t).path = t.path := by
        intro t
        unfold savePositions
        split
        · rfl
        · split <;> rfl
      rw [this, key]
      rfl

/-- **C26.** A block that succeeds adds the length of its work and rapid motion to the total path. -/
theorem C26_path (F : Fns K) (c : Cfg K) (inch : Inch) (line : Int) (b : Block) (p : St K × MacroMap ℚ)
    (hp : Inv p.1) (h : (evaluate F c inch line b p).2 = .ok ()) :
    (evaluate F c inch line b p).1.1.path.total =
      addF p.1.path.total (addF (evaluate F c inch line b p).1.1.path.work (evaluate F c inch line b p).1.1.path.fast) :=
  eval_path hp.good (evaluate_eval F c inch line b p) h

/-- The check that fails after the totals have been changed. -/
def Unset (e : Exc) : Prop := ∃ a, e = err .ValueNotSet [a]

omit [FloorRing K] in
theorem checks_throw {c : Cfg K} {cur : Cur K} {s : St K} {e : Exc} (h : checks c cur s = .throw e) : Unset e := by
  unfold checks at h
  split_ifs at h <;> cases h <;> exact ⟨_, rfl⟩

/-- Totals after a block that failed. -/
theorem eval_failed {F : Fns K} {c : Cfg K} {inch : Inch} {b : Block} {s s' : St K} {e : Exc}
    (h : Eval F c inch b s (.throw e) s') (he : ¬ Unset e) :
    s'.path.total = s.path.total := by
  generalize ho : (Out.throw e : Out Exc Unit) = o at h
  cases h with
  | empty hb => cases ho
  | unread e _ => rfl
  | unreadUb _ => cases ho
  | alone v t hv ht ha hw => cases ho
  | aloneErr v t n hv ht ha hw =>
    obtain ⟨y, hy⟩ := fetchTool_fields c (storeTool c (begun c v s))
    obtain ⟨x, hx⟩ := begun_addTime c v s
    rw [hy, hx]; rfl
  | badTool v t e hv ht ha hq =>
    obtain ⟨x, hx⟩ := begun_addTime c v s
    rw [hx]; rfl
  | badToolUb v t hv ht ha hq => cases ho
  | before v hv ht ha hb hr hg hvg => cases ho
  | halt v S M o hb hv ht hS hn hm ho' =>
    have hr := ready_fields c v s
    rw [← hS] at hr
    dsimp only at hr
    have hM := motion_only F c v (current v S) S
    rw [hm] at hM
    obtain ⟨w, f, cy, h1, x, rfl⟩ := hM
    exact hr.2.2.2.2.2.2.2.2.2.2.1
  | done v S M s' o hb hv ht hS hn hm ha =>
    exfalso
    rw [account_eq] at ha
    cases hc : checks c (current v S) (counted F c inch (current v S) M) with
    | throw e' => rw [hc] at ha; cases ha; cases ho; exact he (checks_throw hc)
    | ub => rw [hc] at ha; cases ha; cases ho
    | ok u => rw [hc] at ha; cases ha; cases ho

/-- **C26.** A block that fails adds nothing to the total path, unless it fails for want of a value of F, S
or the rapid feed. -/
theorem C26_failed_partial (F : Fns K) (c : Cfg K) (inch : Inch) (line : Int) (b : Block) (p : St K × MacroMap ℚ)
    (e : Exc) (he : ¬ Unset e) (h : (evaluate F c inch line b p).2 = .throw e) :
    (evaluate F c inch line b p).1.1.path.total = p.1.path.total := by
  have hE := evaluate_eval F c inch line b p
  rw [h] at hE
  exact eval_failed hE he

/-! ### Programs -/

/-- The reported motions of the blocks of a program. -/
def motions (F : Fns K) (c : Cfg K) (inch : Inch) : Prog → St K × MacroMap ℚ → List (Fl K)
  | [], _ => []
  | x :: t, p => pathOf (evaluate F c inch x.1 x.2 p).1.1 :: motions F c inch t (evaluate F c inch x.1 x.2 p).1

/-- All blocks succeed. -/
def AllOk (F : Fns K) (c : Cfg K) (inch : Inch) : Prog → St K × MacroMap ℚ → Prop
  | [], _ => True
  | x :: t, p => (evaluate F c inch x.1 x.2 p).2 = .ok () ∧ AllOk F c inch t (evaluate F c inch x.1 x.2 p).1

theorem total_sum (F : Fns K) {c : Cfg K} (hc : WF c) (inch : Inch) (prog : Prog) (p : St K × MacroMap ℚ)
    (hp : Inv p.1) (h : AllOk F c inch prog p) :
    (final F c inch prog p).1.path.total = (motions F c inch prog p).foldl addF p.1.path.total := by
  induction prog generalizing p with
  | nil => rfl
  | cons x t ih =>
    show (final F c inch t _).1.path.total = (motions F c inch t _).foldl addF _
    rw [ih _ (evaluate_inv F hc inch x.1 x.2 p hp) h.2, C26_path F c inch x.1 x.2 p hp h.1]
    rfl

/-- **C26.** The total path of a program whose blocks succeed is the sum of the reported motions of its
blocks. -/
theorem C26_program (F : Fns K) {c : Cfg K} (hc : WF c) (inch : Inch) (prog : Prog) (m : MacroMap ℚ)
    (h : AllOk F c inch prog (initial c, m)) :
    (final F c inch prog (initial c, m)).1.path.total =
      (motions F c inch prog (initial c, m)).foldl addF (some 0) :=
  total_sum F hc inch prog (initial c, m) (initial_inv hc) h

/-! ### Time -/

/-- The times of the configuration. -/
def timesOf (c : Cfg K) : Times K :=
  { exchange := c.exchangeTime, measure := c.measureTime, pallet := c.palletTime, auto := c.autoMeasure,
    byTool := c.toolExchanges, measureCode := (c.measureWord, c.measureValue),
    palletCode := (c.palletWord, c.palletValue) }

/-! Which codes a block contains. -/

omit [LinearOrder K] [FloorRing K] in
theorem readWord_tool {c : Cfg K} (hc : AxesOk c) {d : Dec} {x : Act K} (h : readWord c d = .ok x) :
    toolOfAct x ≠ [] ↔ isTool d = true := by
  unfold isTool
  by_cases ht : d.word = c!"T"
  · have hr : readWord c d = readTool c d := by
      unfold readWord
      rw [if_neg (by rw [ht]; exact code_ne_param hc (by decide)), if_pos ht]
    rw [hr] at h
    unfold readTool at h
    rw [decide_eq_true ht]
    cases hq : d.value with
    | none => rw [hq] at h; cases h; simp [toolOfAct]
    | some v =>
      rw [hq] at h
      dsimp only at h
      split at h
      · rename_i h1
        cases h
        rcases h1 with h1 | h1
        · cases hd : d.dot with
          | none => rw [hd] at h1; cases h1
          | some y => simp [toolOfAct]
        · cases hd : d.value2 with
          | none => rw [hd] at h1; cases h1
          | some y => simp [toolOfAct]
      · rename_i h1
        cases h
        rw [not_or, Option.not_isSome_iff_eq_none, Option.not_isSome_iff_eq_none] at h1
        rw [h1.1, h1.2]
        simp [toolOfAct]
  · rw [readWord_notTool ht h, decide_eq_false ht]
    simp

omit [LinearOrder K] [FloorRing K] in
theorem visitAll_tools {c : Cfg K} (hc : AxesOk c) {v : Vis K} {b : Block} (h : visitAll c {} b = .ok v) :
    v.tools ≠ [] ↔ (words b).any isTool = true := by
  have := visitAll_words (P := fun ds r => r.tools ≠ [] ↔ ds.any isTool = true) (by rfl) h [] (by simp) ?_ ?_ ?_
  · exact this
  · intro ds r d x _ hp hr
    rw [on_tools, List.any_append, Bool.or_eq_true, ← hp]
    have : List.any [d] isTool = isTool d := by simp
    rw [this, ← readWord_tool hc hr]
    constructor
    · intro e
      by_contra h'
      rw [not_or, not_not, not_not] at h'
      exact e (by rw [h'.1, h'.2]; rfl)
    · rintro (e | e) h'
      · exact e (List.append_eq_nil_iff.mp h').1
      · exact e (List.append_eq_nil_iff.mp h').2
  · intro ds r p m hp; exact hp
  · intro ds r hp; exact hp

omit [LinearOrder K] [FloorRing K] in
theorem visitAll_isM6 {c : Cfg K} (hc : AxesOk c) {v : Vis K} {b : Block} (h : visitAll c {} b = .ok v) :
    v.m6 = (words b).any isM6 := by
  rw [Bool.eq_iff_iff, visitAll_m6 hc h, List.any_eq_true]
  unfold Exchange isM6
  simp only [Bool.and_eq_true, decide_eq_true_eq, and_assoc]

omit [Field K] [LinearOrder K] [FloorRing K] in
theorem toolOf_isSome (v : Vis K) : (toolOf v).isSome = true ↔ v.tools ≠ [] := by
  unfold toolOf
  split
  · cases v.tools <;> simp
  · cases h : v.tools with
    | nil => simp
    | cons a t => simp

omit [LinearOrder K] [FloorRing K] in
theorem visitAll_exchanges {c : Cfg K} (hc : AxesOk c) {v : Vis K} {b : Block} (h : visitAll c {} b = .ok v) :
    atTool c v = exchanges (timesOf c) b := by
  have ht : (toolOf v).isSome = (words b).any isTool := by
    rw [Bool.eq_iff_iff, toolOf_isSome, visitAll_tools hc h]
  unfold atTool exchanges timesOf
  rw [ht, visitAll_isM6 hc h]
  cases c.toolExchanges <;> simp

theorem stoi_nil : stoi [] = .throw .invalidArgument := rfl

omit [LinearOrder K] [FloorRing K] in
theorem readWord_dwell {c : Cfg K} (hc : AxesOk c) {d : Dec} {x : Act K} (h : readWord c d = .ok x) :
    (c!"04" ∈ otherOf x ∨ c!"4" ∈ otherOf x) ↔ isDwell d = true := by
  unfold isDwell
  by_cases hg : d.word = c!"G"
  · rw [readWord_code_of hc hg] at h
    rw [decide_eq_true hg, Bool.true_and]
    unfold readCode at h
    cases hv : d.value with
    | none =>
      rw [hv] at h
      cases h
      simp [otherOf]
    | some v =>
      rw [hv] at h
      dsimp only at h
      unfold stoiE at h
      cases hs : stoi v with
      | throw e => rw [hs] at h; cases h
      | ub => rw [hs] at h; cases h
      | ok n =>
        rw [hs] at h
        cases h
        have hne : v ≠ [] := by rintro rfl; rw [stoi_nil] at hs; cases hs
        by_cases hd : d.dot = none ∨ d.value2 = none
        · have ht : otherText v d = v := by
            unfold otherText
            rcases hd with hd | hd
            · rw [hd]
            · rw [hd]; cases d.dot <;> rfl
          rw [ht]
          have hd' : (decide (d.dot = none) || decide (d.value2 = none)) = true := by
            rw [Bool.or_eq_true, decide_eq_true_iff, decide_eq_true_iff]; exact hd
          rw [hd', Bool.and_true, Bool.or_eq_true, decide_eq_true_iff, decide_eq_true_iff]
          constructor
          · intro e
            have : ∀ t, t ∈ otherOf (Act.code (gKind n) v : Act K) → v = t := by
              intro t ht
              cases hk : gKind n with
              | other => rw [hk] at ht; exact (List.mem_singleton.mp ht).symm
              | _ => rw [hk] at ht; cases ht
            rcases e with e | e
            · exact Or.inr (by rw [this _ e])
            · exact Or.inl (by rw [this _ e])
          · rintro (e | e)
            · have e := Option.some.inj e
              subst e
              have : n = 4 := by
                have h4 : stoi c!"4" = .ok 4 := rfl
                rw [h4] at hs; cases hs; rfl
              subst this
              exact Or.inr (List.mem_singleton.mpr rfl)
            · have e := Option.some.inj e
              subst e
              have : n = 4 := by
                have h4 : stoi c!"04" = .ok 4 := rfl
                rw [h4] at hs; cases hs; rfl
              subst this
              exact Or.inl (List.mem_singleton.mpr rfl)
        · have hd0 := not_or.mp hd
          have hd' : (decide (d.dot = none) || decide (d.value2 = none)) = false := by
            rw [decide_eq_false hd0.1, decide_eq_false hd0.2]; rfl
          rw [hd', Bool.and_false]
          obtain ⟨p, hp⟩ := Option.ne_none_iff_exists'.mp hd0.1
          obtain ⟨w, hw⟩ := Option.ne_none_iff_exists'.mp hd0.2
          have ht : otherText v d = v ++ p :: w := by
            unfold otherText; rw [hp, hw]
          rw [ht]
          constructor
          · intro e
            exfalso
            have : ∀ t, t ∈ otherOf (Act.code (gKind n) (v ++ p :: w) : Act K) → gKind n = .other ∧ v ++ p :: w = t := by
              intro t ht
              cases hk : gKind n with
              | other => rw [hk] at ht; exact ⟨rfl, (List.mem_singleton.mp ht).symm⟩
              | _ => rw [hk] at ht; cases ht
            rcases e with e | e
            · obtain ⟨h1, h2⟩ := this _ e
              cases v with
              | nil => exact hne rfl
              | cons a v' =>
                cases v' with
                | nil =>
                  simp only [List.cons_append, List.nil_append] at h2
                  injection h2 with h3 _
                  subst h3
                  have h0 : stoi c!"0" = .ok 0 := rfl
                  rw [h0] at hs
                  cases hs
                  cases h1
                | cons a' v'' =>
                  have := congrArg List.length h2
                  simp at this
            · obtain ⟨h1, h2⟩ := this _ e
              cases v with
              | nil => exact hne rfl
              | cons a v' =>
                have := congrArg List.length h2
                simp at this
          · intro e; cases e
  · have h0 := readWord_not_code hg h
    rw [decide_eq_false hg, Bool.false_and, Bool.false_and]
    cases x with
    | code k t => exact absurd rfl (h0 k t)
    | _ => simp [otherOf]

omit [LinearOrder K] [FloorRing K] in
theorem visitAll_dwell {c : Cfg K} (hc : AxesOk c) {v : Vis K} {b : Block} (h : visitAll c {} b = .ok v) :
    (c!"04" ∈ v.otherG ∨ c!"4" ∈ v.otherG) ↔ (words b).any isDwell = true := by
  have := visitAll_words (P := fun ds r => (c!"04" ∈ r.otherG ∨ c!"4" ∈ r.otherG) ↔ ds.any isDwell = true)
    (by rfl) h [] (by simp) ?_ ?_ ?_
  · exact this
  · intro ds r d x _ hp hr
    rw [on_other, List.any_append, Bool.or_eq_true, ← hp]
    have : List.any [d] isDwell = isDwell d := by simp
    rw [this, ← readWord_dwell hc hr, List.mem_append, List.mem_append]
    tauto
  · intro ds r p m hp; exact hp
  · intro ds r hp; exact hp

/-- The code of a word, if it is an M word. -/
def auxOf (f : Str → Str → Bool) (d : Dec) : Bool :=
  decide (d.word = c!"M") && (match d.value with
    | some v => decide (d.dot = none) && decide (d.value2 = none) && f d.word v
    | none => false)

/-- The code as a word without number. -/
def strFlag (f : Str → Str → Bool) : Attr → Bool
  | .str w v => f w v
  | _ => false

/-- A flag is the disjunction over the block. -/
theorem flag_named (k : Str × Str) (b : Block) :
    ((words b).any (auxOf (fun w v => decide (w = k.1) && decide (v = k.2))) ||
      b.any (strFlag (fun w v => decide (w = k.1) && decide (v = k.2)))) = named b k := by
  unfold named
  congr 1
  · rw [Bool.eq_iff_iff]
    simp only [List.any_eq_true, Bool.and_eq_true, decide_eq_true_eq]
    unfold auxOf
    constructor
    · rintro ⟨d, hd, h⟩
      rw [Bool.and_eq_true, decide_eq_true_eq] at h
      cases hv : d.value with
      | none => rw [hv] at h; cases h.2
      | some v =>
        rw [hv] at h
        simp only [Bool.and_eq_true, decide_eq_true_eq] at h
        obtain ⟨h1, ⟨h2, h3⟩, h4, h5⟩ := h
        exact ⟨by rw [← h4, h1], d, hd, ⟨⟨h1, by rw [hv, h5]⟩, h2⟩, h3⟩
    · rintro ⟨h0, d, hd, ⟨⟨h1, h2⟩, h3⟩, h4⟩
      refine ⟨d, hd, ?_⟩
      rw [h1, h2, h3, h4, h0]
      simp
  · congr 1
    funext a
    cases a with
    | dec d => simp [strFlag]
    | chr w v => simp [strFlag]
    | str w v =>
      dsimp only [strFlag]
      rw [Bool.eq_iff_iff]
      simp only [Bool.and_eq_true, decide_eq_true_eq, Attr.str.injEq]

/-- The flags a word sets. -/
def auxFlags : Act K → Bool × Bool
  | .aux _ p m => (p, m)
  | _ => (false, false)

omit [Field K] [LinearOrder K] [FloorRing K] in
theorem on_flags (r : Vis K) (x : Act K) :
    (Act.on r x).pallet = (r.pallet || (auxFlags x).1) ∧ (Act.on r x).measure = (r.measure || (auxFlags x).2) := by
  cases x with
  | code k t => cases k <;> exact ⟨(Bool.or_false _).symm, (Bool.or_false _).symm⟩
  | aux a p m => exact ⟨rfl, rfl⟩
  | _ => exact ⟨(Bool.or_false _).symm, (Bool.or_false _).symm⟩

omit [LinearOrder K] [FloorRing K] in
theorem readWord_flags {c : Cfg K} (hc : AxesOk c) {d : Dec} {x : Act K} (h : readWord c d = .ok x) :
    (auxFlags x).1 = auxOf (isPallet c) d ∧ (auxFlags x).2 = auxOf (isMeasure c) d := by
  unfold auxOf
  by_cases hg : d.word = c!"M"
  · rw [readWord_aux_of hc hg] at h
    unfold readAux at h
    rw [decide_eq_true hg, Bool.true_and, Bool.true_and]
    cases hq : d.value with
    | none => rw [hq] at h; cases h; exact ⟨rfl, rfl⟩
    | some v =>
      rw [hq] at h
      dsimp only at h ⊢
      split at h
      · rename_i h1
        cases h
        have : (decide (d.dot = none) && decide (d.value2 = none)) = false := by
          rw [Bool.and_eq_false_iff, decide_eq_false_iff_not, decide_eq_false_iff_not]
          rcases h1 with h1 | h1
          · exact Or.inl (Option.isSome_iff_ne_none.mp h1)
          · exact Or.inr (Option.isSome_iff_ne_none.mp h1)
        rw [this]
        exact ⟨rfl, rfl⟩
      · rename_i h1
        rw [not_or, Option.not_isSome_iff_eq_none, Option.not_isSome_iff_eq_none] at h1
        rw [h1.1, h1.2]
        cases hs : stoiE v with
        | throw e => rw [hs] at h; cases h
        | ub => rw [hs] at h; cases h
        | ok n =>
          rw [hs] at h
          cases h
          exact ⟨by simp [auxFlags], by simp [auxFlags]⟩
  · rw [decide_eq_false hg, Bool.false_and, Bool.false_and]
    unfold readWord at h
    split_ifs at h
    · unfold readVal at h
      split at h
      · cases h; exact ⟨rfl, rfl⟩
      · cases hq : stodE (valText d) <;> rw [hq] at h <;> cases h; exact ⟨rfl, rfl⟩
    · unfold readTool at h
      cases hq : d.value <;> rw [hq] at h
      · cases h; exact ⟨rfl, rfl⟩
      · dsimp only at h; split at h <;> cases h <;> exact ⟨rfl, rfl⟩
    · unfold readFeed at h
      split at h
      · cases h; exact ⟨rfl, rfl⟩
      · cases hq : stodE (feedText d) <;> rw [hq] at h <;> cases h; exact ⟨rfl, rfl⟩
    · unfold readFeed at h
      split at h
      · cases h; exact ⟨rfl, rfl⟩
      · cases hq : stodE (feedText d) <;> rw [hq] at h <;> cases h; exact ⟨rfl, rfl⟩
    · unfold readCode at h
      cases hq : d.value <;> rw [hq] at h
      · cases h; exact ⟨rfl, rfl⟩
      · dsimp only at h
        split at h <;> cases h; exact ⟨rfl, rfl⟩
    · cases h; exact ⟨rfl, rfl⟩

omit [LinearOrder K] [FloorRing K] in
theorem visitAll_flags {c : Cfg K} (hc : AxesOk c) {r v : Vis K} {b : Block} (h : visitAll c r b = .ok v) :
    v.pallet = (r.pallet || ((if r.skip then false else (words b).any (auxOf (isPallet c))) || b.any (strFlag (isPallet c)))) ∧
    v.measure = (r.measure || ((if r.skip then false else (words b).any (auxOf (isMeasure c))) || b.any (strFlag (isMeasure c)))) := by
  induction b generalizing r with
  | nil => cases h; simp [words]
  | cons a t ih =>
    unfold visitAll at h
    cases a with
    | dec d =>
      unfold visit at h
      dsimp only at h
      unfold words
      by_cases hd : d.word = c!"/"
      · rw [if_pos hd] at h
        have := ih (r := { r with skip := true }) h
        rw [if_pos hd]
        simpa [strFlag] using this
      · rw [if_neg hd] at h
        rw [if_neg hd]
        cases hs : r.skip with
        | true =>
          rw [hs, if_pos rfl] at h
          have := ih (r := r) h
          rw [hs] at this
          simpa [strFlag] using this
        | false =>
          rw [hs, if_neg (by simp)] at h
          cases hr : readWord c d with
          | throw e => rw [hr] at h; cases h
          | ub => rw [hr] at h; cases h
          | ok x =>
            rw [hr] at h
            dsimp only at h
            have hs' : (Act.on r x).skip = false := by
              cases x with
              | code k t => cases k <;> exact hs
              | _ => exact hs
            have := ih h
            rw [hs', (on_flags r x).1, (on_flags r x).2, (readWord_flags hc hr).1, (readWord_flags hc hr).2] at this
            simpa [strFlag, Bool.or_assoc] using this
    | str w x =>
      have := ih (r := Act.on r (.aux false (isPallet c w x) (isMeasure c w x))) h
      rw [(on_flags _ _).1, (on_flags _ _).2] at this
      have hs' : (Act.on r (.aux false (isPallet c w x) (isMeasure c w x))).skip = r.skip := rfl
      rw [hs'] at this
      have hw : words (.str w x :: t) = words t := rfl
      rw [hw, this.1, this.2]
      simp only [auxFlags, List.any_cons, strFlag]
      generalize (if r.skip then false else (words t).any (auxOf (isPallet c))) = u1
      generalize (if r.skip then false else (words t).any (auxOf (isMeasure c))) = u2
      constructor
      · cases r.pallet <;> cases isPallet c w x <;> cases u1 <;> rfl
      · cases r.measure <;> cases isMeasure c w x <;> cases u2 <;> rfl
    | chr w x =>
      have := ih (r := r) h
      have hw : words (.chr w x :: t) = words t := rfl
      rw [hw]
      simpa [strFlag] using this

omit [LinearOrder K] [FloorRing K] in
theorem visitAll_pallet {c : Cfg K} (hc : AxesOk c) {v : Vis K} {b : Block} (h : visitAll c {} b = .ok v) :
    v.pallet = named b (c.palletWord, c.palletValue) ∧
    v.measure = (!c.autoMeasure && named b (c.measureWord, c.measureValue)) := by
  obtain ⟨h1, h2⟩ := visitAll_flags hc h
  rw [h1, h2, ← flag_named, ← flag_named]
  constructor
  · rfl
  · show (false || ((words b).any (auxOf (isMeasure c)) || b.any (strFlag (isMeasure c)))) = _
    rw [Bool.false_or]
    cases ha : c.autoMeasure with
    | true =>
      have hm : isMeasure c = fun _ _ => false := by funext w v; unfold isMeasure; rw [ha]; rfl
      rw [hm]
      rw [Bool.not_true, Bool.false_and]
      have e1 : (words b).any (auxOf fun _ _ => false) = false := by
        rw [List.any_eq_false]
        intro d _
        unfold auxOf
        cases d.value <;> simp
      have e2 : b.any (strFlag fun _ _ => false) = false := by
        rw [List.any_eq_false]
        intro d _
        cases d <;> simp [strFlag]
      rw [e1, e2]; rfl
    | false =>
      have hm : isMeasure c = fun w v => decide (w = c.measureWord) && decide (v = c.measureValue) := by
        funext w v; unfold isMeasure; rw [ha]; rfl
      rw [hm]
      rfl

/-! The times before the motion. -/

omit [LinearOrder K] [FloorRing K] in
theorem addTime_if (b : Prop) [Decidable b] (x : K) (s : St K) :
    (if b then addTime x s else s) = addTime (if b then x else 0) s := by
  split
  · rfl
  · exact (addTime_zero s).symm

omit [LinearOrder K] [FloorRing K] in
theorem exchangeTimes_eq (c : Cfg K) (s : St K) :
    exchangeTimes c s = addTime (c.exchangeTime + (if c.autoMeasure then c.measureTime else 0)) s := by
  unfold exchangeTimes
  dsimp only
  rw [addTime_if, addTime_addTime]

omit [LinearOrder K] [FloorRing K] in
theorem mTimes_eq (c : Cfg K) (v : Vis K) (s : St K) :
    mTimes c v s = addTime ((if ¬ c.toolExchanges ∧ v.m6 then
        c.exchangeTime + (if c.autoMeasure then c.measureTime else 0) else 0) +
      (if ¬ c.autoMeasure ∧ v.measure then c.measureTime else 0) + (if v.pallet then c.palletTime else 0)) s := by
  unfold mTimes
  dsimp only
  rw [exchangeTimes_eq, addTime_if, addTime_if, addTime_if, addTime_addTime, addTime_addTime, add_assoc]

omit [LinearOrder K] [FloorRing K] in
theorem fetchTool_time (c : Cfg K) (s : St K) :
    (fetchTool c s).time.total = bump s.time.total (if c.toolExchanges then
        c.exchangeTime + (if c.autoMeasure then c.measureTime else 0) else 0) := by
  unfold fetchTool
  dsimp only
  rw [exchangeTimes_eq, addTime_if]
  rfl

omit [LinearOrder K] [FloorRing K] in
theorem dwell_eq (v : Vis K) (s : St K) :
    dwell v s = addTime (if c!"04" ∈ v.otherG ∨ c!"4" ∈ v.otherG then
      (v.vals.get c!"X").getD 0 + (v.vals.get c!"U").getD 0 + (v.vals.get c!"P").getD 0 else 0) s := by
  have hw : ∀ w (t : St K), dwellWord v w t = addTime ((v.vals.get w).getD 0) t := by
    intro w t
    unfold dwellWord
    cases v.vals.get w with
    | none => exact (addTime_zero t).symm
    | some x => rfl
  unfold dwell
  rw [hw, hw, hw, addTime_addTime, addTime_addTime, addTime_if, add_assoc]

omit [LinearOrder K] [FloorRing K] in
theorem bump_bump (t : Fl K) (x y : K) : bump (bump t x) y = bump t (x + y) := by
  unfold bump
  rw [addF_assoc]; rfl

/-- The time of the machine, of a block as read. -/
def readTime (c : Cfg K) (v : Vis K) : K :=
  (if atTool c v then c.exchangeTime + (if c.autoMeasure then c.measureTime else 0) else 0) +
    (if !c.autoMeasure && v.measure then c.measureTime else 0) + (if v.pallet then c.palletTime else 0)

omit [LinearOrder K] [FloorRing K] in
theorem readTime_eq {c : Cfg K} (hc : AxesOk c) {v : Vis K} {b : Block} (h : visitAll c {} b = .ok v) :
    readTime c v = machineTime (timesOf c) b := by
  unfold readTime machineTime
  rw [visitAll_exchanges hc h, (visitAll_pallet hc h).1, (visitAll_pallet hc h).2]
  unfold timesOf
  dsimp only
  cases c.autoMeasure <;> simp

omit [LinearOrder K] [FloorRing K] in
theorem exchanged_time (c : Cfg K) (v : Vis K) (s : St K) :
    (exchanged c v (begun c v s)).time.total = bump s.time.total (readTime c v) := by
  have hb : (begun c v s).time.total = bump s.time.total ((if ¬ c.toolExchanges ∧ v.m6 then
        c.exchangeTime + (if c.autoMeasure then c.measureTime else 0) else 0) +
      (if ¬ c.autoMeasure ∧ v.measure then c.measureTime else 0) + (if v.pallet then c.palletTime else 0)) := by
    unfold begun; rw [mTimes_eq]; rfl
  unfold exchanged readTime
  have key : ∀ u : K, bump (bump s.time.total ((if ¬ c.toolExchanges ∧ v.m6 then u else 0) +
        (if ¬ c.autoMeasure ∧ v.measure then c.measureTime else 0) + (if v.pallet then c.palletTime else 0)))
        (if (c.toolExchanges = true ∧ (toolOf v).isSome) then u else 0) =
      bump s.time.total ((if atTool c v then u else 0) + (if !c.autoMeasure && v.measure then c.measureTime else 0) +
        (if v.pallet then c.palletTime else 0)) := by
    intro u
    rw [bump_bump]
    congr 1
    unfold atTool
    cases c.toolExchanges <;> cases v.m6 <;> cases (toolOf v) <;> cases c.autoMeasure <;> simp <;> ring
  rw [← key]
  cases ht : toolOf v with
  | none =>
    dsimp only
    rw [hb, if_neg (c := c.toolExchanges = true ∧ _) (by simp)]
    rw [show ∀ t : Fl K, bump t 0 = t from fun t => addF_zero t]
  | some t =>
    dsimp only
    rw [fetchTool_time]
    show bump (begun c v s).time.total _ = _
    rw [hb]
    simp

/-- The dwell of a block as read. -/
def readDwell (v : Vis K) : K :=
  if c!"04" ∈ v.otherG ∨ c!"4" ∈ v.otherG then
      (v.vals.get c!"X").getD 0 + (v.vals.get c!"U").getD 0 + (v.vals.get c!"P").getD 0 else 0

omit [LinearOrder K] [FloorRing K] in
theorem readDwell_eq {c : Cfg K} (hc : AxesOk c) {v : Vis K} {b : Block} (h : visitAll c {} b = .ok v) :
    readDwell v = dwellTime b := by
  unfold readDwell dwellTime
  have hm : ∀ w ∈ ([c!"X", c!"U", c!"P"] : List Str), w ∈ gcodeParams c := by
    intro w hw
    unfold gcodeParams
    apply List.mem_append_left
    simp only [List.mem_cons, List.not_mem_nil, or_false] at hw
    rcases hw with rfl | rfl | rfl <;> decide
  rw [visitAll_vals h (hm _ (by simp)), visitAll_vals h (hm c!"U" (by simp)), visitAll_vals h (hm c!"P" (by simp))]
  by_cases hd : (words b).any isDwell = true
  · rw [if_pos hd, if_pos ((visitAll_dwell hc h).mpr hd)]
  · rw [if_neg hd, if_neg (fun e => hd ((visitAll_dwell hc h).mp e))]

omit [LinearOrder K] [FloorRing K] in
theorem started_time (c : Cfg K) (v : Vis K) (s : St K) : (started c v s).time = s.time := by
  unfold started
  split
  · rfl
  · split <;> rfl

omit [LinearOrder K] [FloorRing K] in
theorem ready_time (c : Cfg K) (v : Vis K) (s : St K) :
    (started c v (dwell v (exchanged c v (begun c v s)))).time.total =
      bump s.time.total (readTime c v + readDwell v) := by
  rw [started_time, dwell_eq]
  show bump (exchanged c v (begun c v s)).time.total (readDwell v) = _
  rw [exchanged_time, bump_bump]

theorem eval_time {F : Fns K} {c : Cfg K} {inch : Inch} {b : Block} {s s' : St K} {o : Out Exc Unit}
    (hs : s.g = -1 ∨ Good s.g) (h : Eval F c inch b s o s') (ho : o = .ok ()) :
    (b = [] ∧ s'.time.total = s.time.total ∧ timeOf s' = some 0) ∨
    ∃ v, visitAll c {} b = .ok v ∧
      ((toolOf v).isSome = true → atTool c v = false → s'.time.total = bump s.time.total (readTime c v) ∧
        timeOf s' = some 0) ∧
      (((toolOf v).isSome = true → atTool c v = true) →
        s'.time.total = addF (bump s.time.total (readTime c v + readDwell v)) (timeOf s')) := by
  unfold timeOf
  cases h with
  | empty hb => exact Or.inl ⟨hb, rfl, addF_zeros⟩
  | unread e _ => cases ho
  | unreadUb _ => cases ho
  | alone v t hv ht ha hw =>
    right
    refine ⟨v, hv, ?_, ?_⟩
    · intro _ _
      obtain ⟨y, hy⟩ := fetchTool_fields c (storeTool c (begun c v s))
      obtain ⟨x, hx⟩ := begun_addTime c v s
      constructor
      · have he := exchanged_time c v s
        unfold exchanged at he
        rw [ht] at he
        dsimp only at he
        rw [← he, fetchTool_time]
        show (fetchTool c (storeTool c (begun c v s))).time.total = _
        rw [fetchTool_time]
      · unfold copySt
        dsimp only
        rw [hy, hx]
        exact addF_zeros
    · intro h
      rw [h (by rw [ht]; rfl)] at ha
      cases ha
  | aloneErr v t n hv ht ha hw => cases ho
  | badTool v t e hv ht ha hq => cases ho
  | badToolUb v t hv ht ha hq => cases ho
  | before v hv ht ha hb hr hg hvg =>
    right
    refine ⟨v, hv, ?_, ?_⟩
    · intro h; rw [ht] at h; cases h
    · intro _
      have he := exchanged_time c v s
      have hx : exchanged c v (begun c v s) = begun c v s := by unfold exchanged; rw [ht]
      rw [hx] at he
      have hd : (beforeMotion v (dwell v (begun c v s))).time = (dwell v (begun c v s)).time := rfl
      have h0 : (dwell v (begun c v s)).time.work = some 0 ∧ (dwell v (begun c v s)).time.fast = some 0 := by
        obtain ⟨x, hx⟩ := begun_addTime c v s
        rw [dwell_eq, hx]
        exact ⟨rfl, rfl⟩
      rw [hd, h0.1, h0.2, addF_zeros, addF_zero, dwell_eq]
      show bump (begun c v s).time.total (readDwell v) = _
      rw [he, bump_bump]
  | halt v S M o hb hv ht hS hn hm ho' =>
    right
    refine ⟨v, hv, ?_, ?_⟩
    · intro h1 h2
      obtain ⟨t, h3⟩ := Option.isSome_iff_exists.mp h1
      rw [(ht t h3).1] at h2; cases h2
    · intro _
      have hr := ready_fields c v s
      rw [← hS] at hr
      dsimp only at hr
      have hT := ready_time c v s
      rw [← hS] at hT
      have hg := good_ready (c := c) (v := v) hs
      rw [← hS] at hg
      have hg := hg hn (visitAll_good (by intro g hg; cases hg) hv)
      rcases finish_ok ho with h | h
      · exact absurd h ho'
      · subst h
        obtain ⟨h1, _⟩ := motion_false hg hm
        rw [h1, hT, hr.2.2.2.2.2.2.2.2.2.2.2.2.2.2.2.1, hr.2.2.2.2.2.2.2.2.2.2.2.2.2.2.2.2, addF_zeros, addF_zero]
  | done v S M s' o hb hv ht hS hn hm ha =>
    right
    refine ⟨v, hv, ?_, ?_⟩
    · intro h1 h2
      obtain ⟨t, h3⟩ := Option.isSome_iff_exists.mp h1
      rw [(ht t h3).1] at h2; cases h2
    · intro _
      have hT := ready_time c v s
      rw [← hS] at hT
      have hM := motion_only F c v (current v S) S
      rw [hm] at hM
      obtain ⟨w, f, cy, h1, x, rfl⟩ := hM
      rw [account_eq] at ha
      cases hc : checks c (current v S) (counted F c inch (current v S) { S with path := { S.path with work := w, fast := f, cycle := cy, holes := h1 }, helix := x }) with
      | throw e => rw [hc] at ha; cases ha; cases ho
      | ub => rw [hc] at ha; cases ha; cases ho
      | ok u =>
        rw [hc] at ha; cases ha
        have : ∀ t : St K, (savePositions c v t).time = t.time := by
          intro t
          unfold savePositions
          split
          · rfl
          · split <;> rfl
        rw [this, ← hT]
        rfl

/-- **C26.** A block that succeeds adds to the total time: the time of tool exchange, measuring and pallet
exchange, the time of a dwell, and the time of its motion.  A T word that does not exchange the tool must
not be together with a dwell. -/
theorem C26_time_partial (F : Fns K) {c : Cfg K} (hx : AxesOk c) (inch : Inch) (line : Int) (b : Block)
    (p : St K × MacroMap ℚ) (hp : Inv p.1) (h : (evaluate F c inch line b p).2 = .ok ())
    (ht : (words b).any isTool = true → exchanges (timesOf c) b = true ∨ dwellTime (K := K) b = 0) :
    (evaluate F c inch line b p).1.1.time.total =
      addF (addF p.1.time.total (some (machineTime (timesOf c) b + dwellTime b)))
        (addF (evaluate F c inch line b p).1.1.time.work (evaluate F c inch line b p).1.1.time.fast) := by
  rcases eval_time hp.good (evaluate_eval F c inch line b p) h with ⟨h1, h2, h3⟩ | ⟨v, hv, h1, h2⟩
  · unfold timeOf at h3
    rw [h2, h3]
    subst h1
    have e1 : machineTime (timesOf c) [] = 0 := by
      unfold machineTime exchanges named; simp [words]
    have e2 : dwellTime (K := K) [] = 0 := by unfold dwellTime; simp [words]
    rw [e1, e2, add_zero, addF_zero, addF_zero]
  · have hto : (toolOf v).isSome = true ↔ (words b).any isTool = true :=
      (toolOf_isSome v).trans (visitAll_tools hx hv)
    rw [← readTime_eq hx hv, ← readDwell_eq hx hv]
    cases hat : atTool c v with
    | true => exact h2 (fun _ => hat)
    | false =>
      cases hts : (toolOf v).isSome with
      | false => exact h2 (fun e => by rw [hts] at e; cases e)
      | true =>
        obtain ⟨h3, h4⟩ := h1 hts hat
        rcases ht (hto.mp hts) with h5 | h5
        · rw [← visitAll_exchanges hx hv, hat] at h5; cases h5
        · unfold timeOf at h4
          rw [readDwell_eq hx hv, h5, h3, h4, add_zero, addF_zero]
          rfl

end
end NC.Props
