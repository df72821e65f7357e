import Verif.Survive

/-! # What the refusal of a line without macros says -/

namespace NC.Pipe
open NC NC.Message NC.Gram NC.Ver NC.AttrPath NC.Path NC.Spec.Survive

/-- A message that is thrown is mild. -/
def Tells {α : Type} (x : Out Exc α) : Prop := ∀ k n a, x = .throw (.msg k n a) → Mild n a

theorem tells_ok {α : Type} (a : α) : Tells (.ok a) := nofun
theorem tells_ub {α : Type} : Tells (.ub : Out Exc α) := nofun
theorem tells_num {α : Type} (e : NumExc) : Tells (.throw (.num e) : Out Exc α) := nofun
theorem tells_msg {α : Type} {k : Kind} {n : Name} {a : List Str} (h : Mild n a) : Tells (.throw (.msg k n a) : Out Exc α) := by
  intro k' n' a' he
  injection he with he
  injection he with _ h1 h2
  subst h1 h2
  exact h
theorem Tells.cast {α β : Type} {e : Exc} (h : Tells (.throw e : Out Exc α)) : Tells (.throw e : Out Exc β) := by
  intro k n a he
  injection he with he
  subst he
  exact h _ _ _ rfl
theorem tells_bind {α β : Type} {x : Out Exc α} {f : α → Out Exc β} (hx : Tells x) (hf : ∀ a, Tells (f a)) : Tells (x >>= f) := by
  cases x with
  | ok a => exact hf a
  | throw e => exact hx.cast
  | ub => exact tells_ub
theorem Msgs.tells {α : Type} {x : Out Exc α} (h : Msgs x) : Tells x := by
  intro k n a he
  obtain ⟨k', n', a', h1, h2⟩ := h _ he
  injection h1 with _ h3 h4
  subst h3 h4
  exact h2

theorem stoiE_tells (s : Str) : Tells (stoiE s) := by
  unfold stoiE
  split
  · exact tells_ok _
  · exact tells_num _
  · exact tells_ub

theorem stodE_tells (s : Str) : Tells (stodE s) := by
  unfold stodE
  split
  · exact tells_ok _
  · exact tells_num _
  · exact tells_ub

/-! ## Texts -/

theorem soft_natStr (n : Nat) : soft (natStr n) = true := soft_digits (natStr_isDig n)

theorem soft_intStr (z : Int) : soft (intStr z) = true := by
  unfold intStr
  split
  · exact soft_append (a := ['-']) (by decide) (soft_natStr _)
  · exact soft_natStr _

theorem soft_dblText (q : ℚ) : soft (dblText q) = true := by
  unfold dblText
  rw [fixedStr_eq, if_neg (by decide)]
  refine soft_append ?_ (soft_append (soft_natStr _) (soft_append (a := ['.']) (by decide) (soft_digits (padZeros_allDig _ _))))
  unfold minus
  split <;> decide

theorem soft_codeText {letter : Str} (h : soft letter = true) (c : Code) : soft (codeText letter c) = true := by
  unfold codeText
  refine soft_append (soft_append h (soft_natStr _)) ?_
  split
  · exact soft_append (a := ['.']) (by decide) (soft_natStr _)
  · rfl

/-! ## The checks -/

theorem uniqueRun_tells {g : WordMap} (hg : ∀ e ∈ g, e.2.unique = true → soft e.1 = true) : ∀ (b : Block) (seen : List Str), Tells (uniqueRun g seen b) := by
  intro b
  induction b with
  | nil => intro _; exact tells_ok _
  | cons a b ih =>
    intro seen
    cases a with
    | dec d =>
      unfold uniqueRun
      cases hf : g.find d.word with
      | none => exact ih _
      | some wg =>
        dsimp only
        split_ifs with q
        · exact ih _
        · refine tells_msg (told_of (by decide) ?_)
          unfold WordMap.find at hf
          rw [Option.map_eq_some_iff] at hf
          obtain ⟨e, he, rfl⟩ := hf
          have h1 := List.find?_some he
          have h2 := hg e (List.mem_of_find?_eq_some he) (by simpa using q)
          simp only [beq_iff_eq] at h1
          rw [h1] at h2
          simpa using h2
        · exact ih _
    | str _ _ => exact ih _
    | chr _ _ => exact ih _

theorem sameWordRun_tells {w : Str} (hw : soft w = true) : ∀ (b : Block) (was : Bool), Tells (sameWordRun w was b) := by
  intro b
  induction b with
  | nil => intro _; exact tells_ok _
  | cons a b ih =>
    intro was
    cases a with
    | dec d =>
      unfold sameWordRun
      split_ifs
      · exact tells_msg (told_of (by decide) (by simpa using hw))
      · exact ih _
      · exact ih _
    | str _ _ => exact ih _
    | chr _ _ => exact ih _

theorem codeOfText_tells (s : Str) : Tells (codeOfText s) := by
  unfold codeOfText
  dsimp only
  split
  · exact tells_bind (stoiE_tells _) (fun _ => tells_ok _)
  · exact tells_bind (stoiE_tells _) (fun _ => tells_bind (stoiE_tells _) (fun _ => tells_ok _))

theorem codeOf_tells (m : MacroMap ℚ) (line : Int) (d : Dec) {v : Str} (hv : ∀ c ∈ v, isDig c = true) : Tells (codeOf m line d v) := by
  unfold codeOf
  refine tells_bind (stoiE_tells _) (fun n => ?_)
  split
  · split
    · refine tells_msg (told_of (by decide) ?_)
      simpa using soft_append (a := ['#']) (by decide) (soft_digits hv)
    · exact codeOfText_tells _
  · split
    · exact tells_ok _
    · exact tells_bind (stoiE_tells _) (fun _ => tells_ok _)

theorem groupsLoop_tells {letter : Str} (hl : letter = c!"G" ∨ letter = c!"M") (c : Code) : ∀ (gs : List Str) (occ : Occ),
    (∀ g ∈ gs, soft g = true) → Tells (groupsLoop letter c occ gs) := by
  have hs : soft letter = true := by rcases hl with rfl | rfl <;> decide
  have hh : ∀ c, (codeText letter c).head? = some 'G' ∨ (codeText letter c).head? = some 'M' := by
    intro c
    rcases hl with rfl | rfl
    · exact .inl rfl
    · exact .inr rfl
  intro gs
  induction gs with
  | nil => intro occ _; exact tells_ok _
  | cons g gs ih =>
    intro occ h
    unfold groupsLoop
    split
    · refine tells_msg ⟨?_, .inr ⟨rfl, _, _, rfl, hh _⟩⟩
      simp [soft_codeText hs, h g]
    · exact ih _ (fun x hx => h x (by simp [hx]))

theorem groupsRun_tells {letter : Str} (hl : letter = c!"G" ∨ letter = c!"M") {gm : Groups} (hg : ∀ e ∈ gm, ∀ g ∈ e.2, soft g = true)
    (m : MacroMap ℚ) (line : Int) : ∀ (b : Block) (occ : Occ), (∀ d, Attr.dec d ∈ b → Shape d) → Tells (groupsRun letter gm m line false occ b) := by
  intro b
  induction b with
  | nil => intro _ _; exact tells_ok _
  | cons a b ih =>
    intro occ h
    have ht : ∀ d, Attr.dec d ∈ b → Shape d := fun d hd => h d (by simp [hd])
    cases a with
    | dec d =>
      unfold groupsRun
      split_ifs
      · exact ih _ ht
      · cases hv : d.value with
        | none => exact ih _ ht
        | some v =>
          dsimp only
          have h1 := codeOf_tells m line d ((h d (by simp)).value v hv).2
          cases hc : codeOf m line d v with
          | throw e => rw [hc] at h1; exact h1.cast
          | ub => exact tells_ub
          | ok c =>
            dsimp only
            have h2 : Tells (addCode letter gm false occ c) := by
              unfold addCode
              cases hf : gm.find c with
              | none => exact tells_ok _
              | some gs =>
                refine groupsLoop_tells hl c gs occ ?_
                unfold Groups.find at hf
                rw [Option.map_eq_some_iff] at hf
                obtain ⟨e, he, rfl⟩ := hf
                exact hg e (List.mem_of_find?_eq_some he)
            cases ha : addCode letter gm false occ c with
            | ok occ' => exact ih _ ht
            | throw e => rw [ha] at h2; exact h2.cast
            | ub => exact tells_ub
    | str _ _ => exact ih _ ht
    | chr _ _ => exact ih _ ht

theorem codeGroups_tells {gg mg : Groups} (hg : ∀ e ∈ gg, ∀ g ∈ e.2, soft g = true) (hm : ∀ e ∈ mg, ∀ g ∈ e.2, soft g = true)
    (m : MacroMap ℚ) (line : Int) (b : Block) (h : ∀ d, Attr.dec d ∈ b → Shape d) : Tells (codeGroups m gg mg line b false) := by
  unfold codeGroups
  have h1 := groupsRun_tells (.inl rfl) hg m line b [] h
  cases hx : groupsRun c!"G" gg m line false [] b with
  | ok u => exact groupsRun_tells (.inr rfl) hm m line b [] h
  | throw e => rw [hx] at h1; exact h1
  | ub => exact tells_ub

theorem limitRun_tells (lathe : Bool) (k : Limits) : ∀ b : Block, (∀ d, Attr.dec d ∈ b → Shape d) → Tells (limitRun lathe k b) := by
  intro b
  induction b with
  | nil => intro _; exact tells_ok _
  | cons a b ih =>
    intro h
    have ht : ∀ d, Attr.dec d ∈ b → Shape d := fun d hd => h d (by simp [hd])
    cases a with
    | dec d =>
      unfold limitRun
      have h1 : Tells (limitWord lathe k d) := by
        unfold limitWord
        cases hv : d.value with
        | none => exact tells_ok _
        | some v =>
          have hd := soft_digits ((h d (by simp)).value v hv).2
          have ht : soft (toolDigits lathe v) = true := by
            unfold toolDigits
            split
            · exact soft_digits (take_digits ((h d (by simp)).value v hv).2)
            · exact hd
          dsimp only
          split_ifs
          · refine tells_bind (stoiE_tells _) (fun n => ?_)
            split_ifs
            · exact tells_msg (told_of (by decide) (by simp [hd, soft_intStr, show soft c!"S" = true by decide]))
            · exact tells_ok _
          · refine tells_bind (stoiE_tells _) (fun n => ?_)
            split_ifs
            · exact tells_msg (told_of (by decide) (by simp [ht, soft_intStr, show soft c!"T" = true by decide]))
            · exact tells_ok _
          · refine tells_bind (stoiE_tells _) (fun n => ?_)
            split_ifs
            · exact tells_msg (told_of (by decide) (by simp [hd, soft_dblText, show soft c!"F" = true by decide]))
            · exact tells_ok _
          · exact tells_ok _
      cases hx : limitWord lathe k d with
      | ok u => exact ih ht
      | throw e => rw [hx] at h1; exact h1
      | ub => exact tells_ub
    | str _ _ => exact ih ht
    | chr _ _ => exact ih ht

theorem travelRun_tells {k : Limits} (hk : ∀ e ∈ k.axes, soft e.1 = true) (z : Zero) : ∀ r : WordRange, Tells (travelRun k z r) := by
  intro r
  induction r with
  | nil => exact tells_ok _
  | cons e r ih =>
    unfold travelRun
    cases hf : k.axis e.1 with
    | none => exact ih
    | some x =>
      dsimp only
      split_ifs
      · refine tells_msg (told_of (by decide) ?_)
        unfold Limits.axis at hf
        rw [Option.map_eq_some_iff] at hf
        obtain ⟨y, hy, _⟩ := hf
        have h1 := List.find?_some hy
        have h2 := hk y (List.mem_of_find?_eq_some hy)
        simp only [beq_iff_eq] at h1
        rw [h1] at h2
        simp [h2, soft_dblText]
      · exact ih

theorem rotation_tells (op : Bool) (st : Rot) (b : Block) : Tells (ofOption (rotation op st b).2) := by
  have hw : ∀ st d, Tells (ofOption (rotWord op st d).2) := by
    intro st d
    unfold rotWord
    split_ifs <;> (try split) <;> (try split_ifs) <;>
      first | exact tells_ok _ | exact tells_num _ | exact tells_msg (told_of (by decide) (by decide))
  have hr : ∀ (b : Block) (st : Rot), Tells (ofOption (rotRun op st b).2) := by
    intro b
    induction b with
    | nil => intro _; exact tells_ok _
    | cons a b ih =>
      intro st
      cases a with
      | dec d =>
        unfold rotRun
        have := hw st d
        rcases hx : rotWord op st d with ⟨st', _ | e⟩
        · exact ih _
        · rw [hx] at this; exact this
      | str _ _ => exact ih _
      | chr _ _ => exact ih _
  unfold rotation
  have := hr b st
  rcases hx : rotRun op st b with ⟨st', _ | e⟩
  · dsimp only
    unfold rotCheck
    split_ifs
    · exact tells_msg (told_of (by decide) (by decide))
    · exact tells_msg (told_of (by decide) (by decide))
    · exact tells_msg (told_of (by decide) (by decide))
    · exact tells_ok _
    · exact tells_ok _
  · rw [hx] at this; exact this

theorem selectRun_tells : ∀ (b : Block) (u : Units), Tells (selectRun u b).2 := by
  intro b
  induction b with
  | nil => intro _; exact tells_ok _
  | cons a b ih =>
    intro u
    cases a with
    | dec d =>
      unfold selectRun
      split_ifs
      · exact ih _
      · cases hv : d.value with
        | none => exact ih _
        | some v =>
          dsimp only
          cases stoi v with
          | ok n => exact ih _
          | throw e => exact tells_num _
          | ub => exact tells_ub
    | str _ _ => exact ih _
    | chr _ _ => exact ih _

theorem readWord_tells (c : Cfg ℚ) (d : Dec) : Tells (readWord c d) := by
  have hf : ∀ f : ℚ → Act ℚ, Tells (readFeed f d) := by
    intro f
    unfold readFeed
    split_ifs
    · exact tells_ok _
    · have := stodE_tells (feedText d)
      cases hx : stodE (feedText d) with
      | ok q => exact tells_ok _
      | throw e => rw [hx] at this; exact this.cast
      | ub => exact tells_ub
  unfold readWord
  split_ifs
  · unfold readVal
    split_ifs
    · exact tells_ok _
    · have := stodE_tells (valText d)
      cases hx : stodE (valText d) with
      | ok q => exact tells_ok _
      | throw e => rw [hx] at this; exact this.cast
      | ub => exact tells_ub
  · unfold readTool
    split
    · exact tells_ok _
    · split <;> exact tells_ok _
  · exact hf _
  · exact hf _
  · unfold readAux
    split
    · exact tells_ok _
    · rename_i v _
      split
      · exact tells_ok _
      · have := stoiE_tells v
        cases hx : stoiE v with
        | ok q => exact tells_ok _
        | throw e => rw [hx] at this; exact this.cast
        | ub => exact tells_ub
  · unfold readCode
    split
    · exact tells_ok _
    · rename_i v _
      have := stoiE_tells v
      cases hx : stoiE v with
      | ok q => exact tells_ok _
      | throw e => rw [hx] at this; exact this.cast
      | ub => exact tells_ub
  · exact tells_ok _

theorem visitAll_tells (c : Cfg ℚ) : ∀ (b : Block) (r : Vis ℚ), Tells (visitAll c r b) := by
  intro b
  induction b with
  | nil => intro _; exact tells_ok _
  | cons a b ih =>
    intro r
    have h1 : Tells (visit c r a) := by
      cases a with
      | dec d =>
        unfold visit
        dsimp only
        split_ifs
        · exact tells_ok _
        · exact tells_ok _
        · have := readWord_tells c d
          cases hx : readWord c d with
          | ok q => exact tells_ok _
          | throw e => rw [hx] at this; exact this.cast
          | ub => exact tells_ub
      | str _ _ => exact tells_ok _
      | chr _ _ => exact tells_ok _
    unfold visitAll
    cases hx : visit c r a with
    | ok r' => exact ih _
    | throw e => rw [hx] at h1; exact h1
    | ub => exact tells_ub

theorem evaluate_tells (F : Fns ℚ) (c : Cfg ℚ) (inch : Inch) (line : Int) (b : Block) (p : St ℚ × MacroMap ℚ) :
    Tells (AttrPath.evaluate F c inch line b p).2 := by
  have he := evaluate_eval F c inch line b p
  generalize (AttrPath.evaluate F c inch line b p).2 = o at he ⊢
  generalize (AttrPath.evaluate F c inch line b p).1.1 = s' at he
  have hfin : ∀ o, Msgs o → Tells (finish o) := by
    intro o ho
    cases o with
    | ok b => exact tells_ok _
    | throw e => exact ho.tells.cast
    | ub => exact tells_ub
  cases he with
  | empty => exact tells_ok _
  | unread e he => have := visitAll_tells c b {}; rw [he] at this; exact this.cast
  | unreadUb _ => exact tells_ub
  | alone => exact tells_ok _
  | aloneErr v t n => exact tells_msg (told_of (by decide) (by simp [soft_intStr]))
  | badTool v t e h1 h2 h3 h4 => have := stodE_tells t; rw [h4] at this; exact this.cast
  | badToolUb v t => exact tells_ub
  | before => exact tells_ok _
  | halt v S M o h1 h2 h3 h4 h5 h6 h7 =>
    apply hfin
    have := motion_msgs F c v (current v S) S
    rw [h6] at this
    exact this
  | done v S M s' o h1 h2 h3 h4 h5 h6 h7 =>
    apply hfin
    have := account_msgs F c inch v (current v S) M
    rw [h7] at this
    exact this

/-! ## The stages -/

/-- The names in the configuration are soft. -/
structure SoftNames (S : Setup) : Prop where
  words : ∀ u, ∀ e ∈ tableOf S.tables u, e.2.unique = true → soft e.1 = true
  axes : ∀ e ∈ S.limits.axes, soft e.1 = true
  gcodes : ∀ e ∈ S.gcodes, ∀ g ∈ e.2, soft g = true
  mcodes : ∀ e ∈ S.mcodes, ∀ g ∈ e.2, soft g = true

/-- A refusal says a mild message. -/
def Refuses (l : Enums.ELanguage) (r : Out NumExc Answer) : Prop :=
  ∀ t, r = .ok (false, some t) → t = c!"stoi" ∨ ∃ n a, Mild n a ∧ t = excText (.known l) n a

theorem tell_refuses (l : Enums.ELanguage) {α : Type} {e : Exc} (h : Tells (.throw e : Out Exc α)) : Refuses l (tell (.known l) e) := by
  intro t ht
  cases e with
  | num e =>
    cases e with
    | outOfRange => simp only [tell, Out.ok.injEq, Prod.mk.injEq, Option.some.injEq, true_and] at ht; exact .inl ht.symm
    | invalidArgument => simp [tell] at ht
  | msg k n a =>
    simp only [tell, Out.ok.injEq, Prod.mk.injEq, Option.some.injEq, true_and] at ht
    exact .inr ⟨n, a, h _ _ _ rfl, ht.symm⟩

theorem andThen_refuses {l : Enums.ELanguage} {x : Out Exc Unit} {p : Parser} {k : Parser × Out NumExc Answer} (hx : Tells x)
    (hk : Refuses l k.2) : Refuses l (andThen (.known l) x p k).2 := by
  unfold andThen
  cases x with
  | ok u => exact hk
  | throw e => exact tell_refuses l hx
  | ub => exact nofun

section
variable {S : Setup} {l : Enums.ELanguage} {o : Options} {line : Int} {ok : Bool} {b : Block}

theorem lastStage_refuses (hl : S.lang = .known l) (p : Parser) : Refuses l (lastStage S ok b p).2 := by
  unfold lastStage
  rw [hl]
  exact andThen_refuses (selectRun_tells _ _) (fun t ht => by simp at ht)

theorem systemStage_refuses (hl : S.lang = .known l) (hn : SoftNames S) (hs : ∀ d, Attr.dec d ∈ b → Shape d) (p : Parser) :
    Refuses l (systemStage S o line ok b p).2 := by
  have path : ∀ p, Refuses l (pathStage S o line ok b p).2 := by
    intro p
    unfold pathStage
    split
    · dsimp only
      rw [hl]
      refine andThen_refuses (evaluate_tells _ _ _ _ _ _) (andThen_refuses ?_ (lastStage_refuses hl _))
      split
      · exact travelRun_tells hn.axes _ _
      · exact tells_ok _
    · exact lastStage_refuses hl _
  have group : ∀ p, Refuses l (groupStage S o line ok b p).2 := by
    intro p
    unfold groupStage
    rw [hl]
    refine andThen_refuses ?_ (andThen_refuses ?_ (path _))
    · split
      · exact codeGroups_tells hn.gcodes hn.mcodes _ _ _ hs
      · exact tells_ok _
    · split
      · exact sameWordRun_tells (by decide) _ _
      · exact tells_ok _
  have analysis : ∀ p, Refuses l (analysisStage S o line ok b p).2 := by
    intro p
    unfold analysisStage
    split
    · dsimp only
      rw [hl]
      exact andThen_refuses (limitRun_tells _ _ _ hs) (andThen_refuses (rotation_tells _ _ _) (group _))
    · exact group _
  unfold systemStage
  cases Macro.sysRun line p.macros b with
  | ok m => exact analysis _
  | throw e => dsimp only; rw [hl]; exact tell_refuses l (α := Unit) (tells_num e)
  | ub => exact nofun

/-- A line that is read as words without macros is refused with a mild message. -/
theorem parse_refuses (hl : S.lang = .known l) (hn : SoftNames S) (ho : o.evalMacro = true) {s : Str} (h0 : '#' ∉ s) {p : Parser} {g : PS}
    (hr : phrase (gramOf S) { p.gram with msg := [] } s = (g, .accept b)) : Refuses l (parse S o line s p).2 := by
  have hsh : ∀ d, Attr.dec d ∈ b → Shape d := fun d hd =>
    (phrase_shape (gramOf S) s { p.gram with msg := [] }).1 b (by rw [hr]) _ hd d rfl
  obtain ⟨_, hW⟩ := (phrase_accept (gramOf_chars S)).mp hr
  have hpl := words_noHash hW h0
  unfold parse
  rw [hr]
  dsimp only
  unfold wordStage
  rw [if_pos ho, macroStage_plain hpl, hl]
  exact andThen_refuses (uniqueRun_tells (hn.words _) _ _) (systemStage_refuses hl hn hsh _)

theorem refused_calm {t : Str} {r : Out NumExc Answer} (h : Refuses l r) (ht : r = .ok (false, some t)) (data : Str) :
    Spec.Lines.Calm data t ∧ t.head? ≠ some '1' ∧ ∃ c ∈ t, isSp c = false := by
  rcases h t ht with rfl | ⟨n, a, h1, rfl⟩
  · refine ⟨?_, by decide, ⟨'s', by decide, by decide⟩⟩
    exact .plain (by decide) (by decide) ⟨'s', by decide, by decide⟩ (noLi_infix (by decide))
  · exact told_calm l h1 data

end

end NC.Pipe
