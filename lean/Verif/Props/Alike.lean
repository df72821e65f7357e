import Verif.Spec.Alike
import Verif.Props.Written

/-! # C92: comments and block numbers have no influence -/

namespace NC.Props
open NC NC.Message NC.Gram NC.Ver NC.AttrPath NC.Pipe NC.Spec NC.Spec.Verify NC.Spec.Survive NC.Spec.Check NC.Spec.Units NC.Spec.Alike

theorem alike_symm {nums : List Str} {b b' : Block} (h : Alike nums b b') : Alike nums b' b := by
  induction h with
  | nil => exact .nil
  | same a _ ih => exact .same a ih
  | left h _ ih => exact .right h ih
  | right h _ ih => exact .left h ih

theorem alike_refl {nums : List Str} (b : Block) : Alike nums b b := by
  induction b with
  | nil => exact .nil
  | cons a b ih => exact .same a ih

/-- Words with an address that means something are the same. -/
theorem alike_decs {nums : List Str} {b b' : Block} (h : Alike nums b b') (f : Dec → Bool) (hf : ∀ d, d.word ∈ nums → f d = false) :
    (decs b).filter f = (decs b').filter f := by
  induction h with
  | nil => rfl
  | same a _ ih =>
    cases a with
    | dec d => simp only [decs, List.filter_cons]; split <;> simp [ih]
    | str _ _ => exact ih
    | chr _ _ => exact ih
  | left h _ ih =>
    cases h with
    | comment => exact ih
    | number h _ => rw [decs, List.filter_cons, hf _ h]; exact ih
  | right h _ ih =>
    cases h with
    | comment => exact ih
    | number h _ => rw [decs, List.filter_cons, hf _ h]; exact ih

theorem alike_mem {nums : List Str} {b b' : Block} (h : Alike nums b b') (d : Dec) (hd : d.word ∉ nums) : d ∈ decs b ↔ d ∈ decs b' := by
  have := alike_decs h (fun x => decide (x.word ∉ nums)) (fun x hx => by simpa using hx)
  have h1 : d ∈ (decs b).filter (fun x => decide (x.word ∉ nums)) ↔ d ∈ decs b := by simp [List.mem_filter, hd]
  have h2 : d ∈ (decs b').filter (fun x => decide (x.word ∉ nums)) ↔ d ∈ decs b' := by simp [List.mem_filter, hd]
  rw [← h1, ← h2, this]

theorem alike_all {nums : List Str} {b b' : Block} (h : Alike nums b b') (P : Dec → Prop) (hP : ∀ d, d.word ∈ nums → d.value ≠ none → P d)
    (hb : ∀ d ∈ decs b, P d) : ∀ d ∈ decs b', P d := by
  induction h with
  | nil => exact hb
  | same a _ ih =>
    cases a with
    | dec d =>
      simp only [decs, List.mem_cons] at hb ⊢
      rintro x (rfl | hx)
      · exact hb _ (.inl rfl)
      · exact ih (fun y hy => hb y (.inr hy)) x hx
    | str _ _ => exact ih hb
    | chr _ _ => exact ih hb
  | left h _ ih =>
    cases h with
    | comment => exact ih hb
    | number _ _ => exact ih (fun y hy => hb y (by simp [decs, hy]))
  | right h _ ih =>
    cases h with
    | comment => exact ih hb
    | number h1 h2 =>
      simp only [decs, List.mem_cons]
      rintro x (rfl | hx)
      · exact hP _ h1 h2
      · exact ih hb x hx

section
variable {nums : List Str} {S : Setup} (hn : Free S.cfg.axes nums) (hp : S.cfg.palletWord ≠ c!"(") (hm : S.cfg.measureWord ≠ c!"(")
include hn

omit hn in
theorem meaning_mem (w : Str) (hw : w ∈ meaningful S.cfg.axes) (hn : Free S.cfg.axes nums) : w ∉ nums := fun h => hn w h hw

include hp hm in
theorem visit_silent {a : Attr} (ha : Silent nums a) (r : Vis ℚ) : visit S.cfg r a = .ok r := by
  cases ha with
  | comment v =>
    show Out.ok (Act.on r (.aux false (isPallet S.cfg c!"(" v) (isMeasure S.cfg c!"(" v))) = _
    have h1 : isPallet S.cfg c!"(" v = false := by unfold isPallet; simp [Ne.symm hp]
    have h2 : isMeasure S.cfg c!"(" v = false := by unfold isMeasure; simp [Ne.symm hm]
    rw [h1, h2]
    simp [Act.on]
  | @number d h1 h2 =>
    have h3 := hn _ h1
    unfold meaningful located at h3
    simp only [List.mem_append, List.mem_cons, List.not_mem_nil, or_false, not_or] at h3
    unfold visit
    dsimp only
    rw [if_neg (by tauto)]
    split
    · rfl
    · unfold readWord gcodeParams
      rw [if_neg (by simp only [List.mem_append, List.mem_cons, List.not_mem_nil, or_false, not_or]; tauto), if_neg (by tauto), if_neg (by tauto),
        if_neg (by tauto), if_neg (by tauto), if_neg (by tauto)]
      rfl

include hp hm in
theorem visitAll_alike {b b' : Block} (h : Alike nums b b') : ∀ r : Vis ℚ, visitAll S.cfg r b = visitAll S.cfg r b' := by
  induction h with
  | nil => intro r; rfl
  | same a _ ih =>
    intro r
    unfold visitAll
    cases visit S.cfg r a with
    | ok r' => exact ih r'
    | throw e => rfl
    | ub => rfl
  | left h _ ih => intro r; rw [visitAll, visit_silent hn hp hm h]; exact ih r
  | right h _ ih =>
    intro r
    rw [ih r]
    conv_rhs => rw [visitAll, visit_silent hn hp hm h]

include hp hm in
theorem moved_alike {b b' : Block} (h : Alike nums b b') (hb : b ≠ []) (hb' : b' ≠ []) (u : Units) (s : St ℚ) : moved S u s b = moved S u s b' := by
  unfold moved evaluate
  dsimp only
  rw [if_neg hb, if_neg hb', visitAll_alike hn hp hm h]

theorem inForce_alike {b b' : Block} (h : Alike nums b b') (u : Units) : inForce u b = inForce u b' := by
  have key : b.filterMap unitOf = b'.filterMap unitOf := by
    have sil : ∀ a, Silent nums a → unitOf a = none := by
      intro a ha
      cases ha with
      | comment => rfl
      | @number d h1 _ =>
        have : d.word ≠ c!"G" := fun h => hn _ h1 (h ▸ by simp [meaningful])
        unfold unitOf
        split
        · next heq => cases heq; exact absurd rfl this
        · rfl
    induction h with
    | nil => rfl
    | same a _ ih => rw [List.filterMap_cons, List.filterMap_cons, ih]
    | left h _ ih => rw [List.filterMap_cons, sil _ h]; exact ih
    | right h _ ih => rw [List.filterMap_cons, sil _ h]; exact ih
  unfold inForce lastSwitch
  rw [key]

theorem feeds_alike {b b' : Block} (h : Alike nums b b') : Feeds b ↔ Feeds b' := by
  have := meaning_mem (S := S) c!"G" (by simp [meaningful]) hn
  constructor
  · rintro ⟨d, hd, hw, x⟩; exact ⟨d, (alike_mem h d (hw ▸ this)).mp hd, hw, x⟩
  · rintro ⟨d, hd, hw, x⟩; exact ⟨d, (alike_mem h d (hw ▸ this)).mpr hd, hw, x⟩

theorem starts_alike {b b' : Block} (h : Alike nums b b') : Starts b ↔ Starts b' := by
  have := meaning_mem (S := S) c!"M" (by simp [meaningful]) hn
  constructor
  · rintro ⟨d, hd, hw, x⟩; exact ⟨d, (alike_mem h d (hw ▸ this)).mp hd, hw, x⟩
  · rintro ⟨d, hd, hw, x⟩; exact ⟨d, (alike_mem h d (hw ▸ this)).mpr hd, hw, x⟩

theorem speeds_alike {b b' : Block} (h : Alike nums b b') : Speeds b ↔ Speeds b' := by
  have := meaning_mem (S := S) c!"S" (by simp [meaningful]) hn
  constructor
  · rintro ⟨d, hd, hw⟩; exact ⟨d, (alike_mem h d (hw ▸ this)).mp hd, hw⟩
  · rintro ⟨d, hd, hw⟩; exact ⟨d, (alike_mem h d (hw ▸ this)).mpr hd, hw⟩

omit hn in
theorem occurs_alike {b b' : Block} (h : Alike nums b b') (w : Str) (hw : w ∉ nums) : occurs w b = occurs w b' := by
  unfold occurs
  rw [List.countP_eq_length_filter, List.countP_eq_length_filter, alike_decs h _ (fun d hd => by simp; rintro rfl; exact hw hd)]

theorem codes_alike {b b' : Block} (h : Alike nums b b') (w : Str) (hw : w ∈ meaningful S.cfg.axes) : codes w b = codes w b' := by
  unfold codes Verify.codeWords
  rw [alike_decs h _ (fun d hd => ?_)]
  have := meaning_mem (S := S) w hw hn
  simp only [Bool.and_eq_false_imp, decide_eq_true_eq]
  rintro rfl
  exact absurd hd this

/-- Block numbers of a block are used once where the table asks for it. -/
def Once (g : WordMap) (nums : List Str) (b : Block) : Prop := ∀ w ∈ nums, DeclaredUnique g w → occurs w b ≤ 1

theorem flawless_alike {u : Units} {w : Wanted} {done done' : List Block} {b b' : Block} {r : List (Str × ℚ)}
    (h : Alike nums b b') (hd : List.Forall₂ (Alike nums) done done') (ho : Once (Pipe.tableOf S.tables u) nums b')
    (hf : Flawless (machineOf S u) w done b r) : Flawless (machineOf S u) w done' b' r := by
  have mem : ∀ (P : Block → Prop), (∀ {x x'}, Alike nums x x' → (P x ↔ P x')) → ∀ {xs xs'}, List.Forall₂ (Alike nums) xs xs' →
      (∃ x ∈ xs, P x) → ∃ x ∈ xs', P x := by
    intro P hP xs xs' hx
    induction hx with
    | nil => exact id
    | cons h1 _ ih =>
      rintro ⟨x, hx, px⟩
      rcases List.mem_cons.mp hx with rfl | hx
      · exact ⟨_, List.mem_cons_self, (hP h1).mp px⟩
      · obtain ⟨y, hy, py⟩ := ih ⟨x, hx, px⟩
        exact ⟨y, List.mem_cons_of_mem _ hy, py⟩
  have hall : List.Forall₂ (Alike nums) (done ++ [b]) (done' ++ [b']) := List.rel_append hd (.cons h .nil)
  have hback : List.Forall₂ (Alike nums) done' done := hd.flip.imp (fun _ _ h => alike_symm h)
  refine ⟨?_, ?_, ?_, ?_, ?_, ?_, ?_, hf.travel⟩
  · intro a ha
    by_cases hx : a ∈ nums
    · exact ho a hx ha
    · rw [← occurs_alike h a hx]; exact hf.unique a ha
  · exact alike_all h (fun d => d.word ∈ kept → ¬ Bare d) (fun d _ hv _ hb => hv hb.1) hf.numbers
  · intro ha
    refine alike_all h (fun d => ¬ Exceeds _ _ d) (fun d hx _ => ?_) (hf.limits ha)
    rintro ⟨v, -, hz⟩
    apply hn _ hx
    rcases hz with hz | hz | hz <;> rw [hz.1] <;> simp [meaningful]
  · intro ha hop hfe hno
    obtain ⟨h1, h2⟩ := hf.spindle ha hop ((feeds_alike hn h).mpr hfe) (fun x hx hxf => by
      obtain ⟨y, hy, py⟩ := mem Feeds (feeds_alike hn) hd ⟨x, hx, hxf⟩
      exact hno y hy py)
    exact ⟨mem Speeds (speeds_alike hn) hall h1, mem Starts (starts_alike hn) hall h2⟩
  · intro ha hop
    obtain ⟨h1, h2⟩ := hf.operator ha hop
    exact ⟨fun h' => h1 ((speeds_alike hn h).mpr h'), fun h' => h2 ((starts_alike hn h).mpr h')⟩
  · intro hg
    rw [← codes_alike hn h c!"G" (by simp [meaningful]), ← codes_alike hn h c!"M" (by simp [meaningful])]
    exact hf.groups hg
  · intro hh
    rw [← occurs_alike h c!"M" (meaning_mem (S := S) _ (by simp [meaningful]) hn)]
    exact hf.single hh

include hp hm in
theorem passing_alike {o : Options} {u : Units} {s : St ℚ} {done done' : List Block} {b b' : Block}
    (h : Alike nums b b') (hb : b ≠ []) (hb' : b' ≠ []) (hd : List.Forall₂ (Alike nums) done done') (ho : Once (Pipe.tableOf S.tables u) nums b')
    (hf : Passing S o u s done b) : Passing S o u s done' b' := by
  unfold Passing at hf ⊢
  rw [← moved_alike hn hp hm h hb hb']
  exact ⟨hf.1, flawless_alike hn h hd ho hf.2⟩

include hp hm in
theorem all_alike {o : Options} {bs bs' : List Block} (h : List.Forall₂ (Alike nums) bs bs') : ∀ (u : Units) (s : St ℚ) (done done' : List Block),
    List.Forall₂ (Alike nums) done done' → (∀ b ∈ bs, b ≠ []) → (∀ b ∈ bs', b ≠ []) →
    (∀ u, ∀ b ∈ bs, Once (Pipe.tableOf S.tables u) nums b) → (∀ u, ∀ b ∈ bs', Once (Pipe.tableOf S.tables u) nums b) →
    (AllPassing S o u s done bs ↔ AllPassing S o u s done' bs') ∧ simulatedAll S o u s bs = simulatedAll S o u s bs' := by
  induction h with
  | nil => intros; exact ⟨Iff.rfl, rfl⟩
  | @cons b b' bs bs' h _ ih =>
    intro u s done done' hd n1 n2 o1 o2
    have e1 := moved_alike hn hp hm h (n1 _ (by simp)) (n2 _ (by simp)) u s
    have e2 : simulated S o u s b = simulated S o u s b' := by unfold simulated; rw [e1]
    have e3 := inForce_alike hn h u
    have hd' : List.Forall₂ (Alike nums) (done ++ [b]) (done' ++ [b']) := List.rel_append hd (.cons h .nil)
    obtain ⟨i1, i2⟩ := ih (inForce u b) (simulated S o u s b) _ _ hd' (fun x hx => n1 x (by simp [hx])) (fun x hx => n2 x (by simp [hx]))
      (fun u x hx => o1 u x (by simp [hx])) (fun u x hx => o2 u x (by simp [hx]))
    unfold AllPassing simulatedAll
    rw [← e2, ← e3]
    refine ⟨and_congr ⟨?_, ?_⟩ i1, i2⟩
    · exact passing_alike hn hp hm h (n1 _ (by simp)) (n2 _ (by simp)) hd (o2 u _ (by simp))
    · exact passing_alike hn hp hm (alike_symm h) (n2 _ (by simp)) (n1 _ (by simp)) (hd.flip.imp (fun _ _ h => alike_symm h)) (o1 u _ (by simp))

end

theorem readAs_ne {S : Setup} {g : PS} {ls : List (Int × Str)} {bs : List Block} (h : ReadAs S g ls bs) : ∀ b ∈ bs, b ≠ [] := by
  induction h with
  | nil => simp
  | cons h _ ih =>
    intro b hb
    rcases List.mem_cons.mp hb with rfl | hb
    · exact ((phrase_accept (gramOf_chars S)).mp h).1
    · exact ih b hb

/-- C92 (partial: lines without `#`, ordinary numbers): two programs that are read as the same words, but for
comments and block numbers, are both accepted or both not, and the simulations after them are the same. -/
theorem C92_program_partial (S : Setup) (l : Enums.ELanguage) (hl : S.lang = .known l) (o : Options) (ho : o.evalMacro = true)
    (hgg : SetOfGroups S.gcodes) (hmg : SetOfGroups S.mcodes) (nums : List Str) (hn : Free S.cfg.axes nums)
    (hp : S.cfg.palletWord ≠ c!"(") (hm : S.cfg.measureWord ≠ c!"(") (ls ls' : List (Int × Str)) (bs bs' : List Block)
    (hr : ReadAs S {} ls bs) (hr' : ReadAs S {} ls' bs') (ha : List.Forall₂ (Alike nums) bs bs')
    (hs : ∀ x ∈ ls, '#' ∉ x.2) (hs' : ∀ x ∈ ls', '#' ∉ x.2) (hb : ∀ b ∈ bs, Ordinary S.lathe S.limits b) (hb' : ∀ b ∈ bs', Ordinary S.lathe S.limits b)
    (h1 : ∀ u, ∀ b ∈ bs, Once (Pipe.tableOf S.tables u) nums b) (h1' : ∀ u, ∀ b ∈ bs', Once (Pipe.tableOf S.tables u) nums b) :
    ((program S o (fresh S) ls).2 = .ok (ls.map (fun _ => (true, none))) ↔ (program S o (fresh S) ls').2 = .ok (ls'.map (fun _ => (true, none)))) ∧
    ((program S o (fresh S) ls).2 = .ok (ls.map (fun _ => (true, none))) →
      (program S o (fresh S) ls).1.path = (program S o (fresh S) ls').1.path ∧ (program S o (fresh S) ls).1.units = (program S o (fresh S) ls').1.units) := by
  obtain ⟨a1, a2⟩ := C85_program_partial S l hl o ho hgg hmg ls bs hr hs hb
  obtain ⟨b1, b2⟩ := C85_program_partial S l hl o ho hgg hmg ls' bs' hr' hs' hb'
  obtain ⟨c1, c2⟩ := all_alike (o := o) hn hp hm ha S.units (AttrPath.initial S.cfg) [] [] .nil (readAs_ne hr) (readAs_ne hr') h1 h1'
  have key := a1.trans (c1.trans b1.symm)
  refine ⟨key, fun h => ?_⟩
  have u : ∀ {xs ys : List Block}, List.Forall₂ (Alike nums) xs ys → Alike nums xs.flatten ys.flatten := by
    intro xs ys h
    induction h with
    | nil => exact .nil
    | @cons x y xs ys h _ ih =>
      rw [List.flatten_cons, List.flatten_cons]
      induction h with
      | nil => exact ih
      | same a _ ih' => exact .same a ih'
      | left h _ ih' => exact .left h ih'
      | right h _ ih' => exact .right h ih'
  rw [(a2 h).1, (b2 (key.mp h)).1, (a2 h).2, (b2 (key.mp h)).2]
  exact ⟨c2, inForce_alike hn (u ha) _⟩

/-! ## Lines of nothing but comments and numbers -/

theorem addF_zero (x : Path.Fl ℚ) : Path.addF x (some 0) = x := by
  cases x with
  | none => rfl
  | some a => simp [Path.addF]

theorem visitAll_silent {nums : List Str} {S : Setup} (hn : Free S.cfg.axes nums) (hp : S.cfg.palletWord ≠ c!"(") (hm : S.cfg.measureWord ≠ c!"(")
    {b : Block} (hb : ∀ a ∈ b, Silent nums a) (r : Vis ℚ) : visitAll S.cfg r b = .ok r := by
  induction b with
  | nil => rfl
  | cons a b ih =>
    rw [visitAll, visit_silent hn hp hm (hb a (by simp))]
    exact ih (fun x hx => hb x (by simp [hx]))

/-- What the simulation of a program has come to: totals of path and time, for the tool too, positions, and modal values. -/
structure Unmoved (s s' : St ℚ) : Prop where
  path : s'.path.total = s.path.total ∧ s'.path.toolTotal = s.path.toolTotal
  time : s'.time.total = s.time.total ∧ s'.time.toolTotal = s.time.toolTotal
  tools : s'.tool = s.tool ∧ s'.tPath = s.tPath ∧ s'.tTime = s.tTime ∧ s'.autoRapid = s.autoRapid
  positions : s'.prev = s.prev ∧ s'.range = s.range
  values : s'.f = s.f ∧ s'.s = s.s
  motion : s'.g = s.g ∨ (s.g = 80 ∧ s'.g = 0)
  modes : s'.plane = s.plane ∧ s'.ret = s.ret ∧ s'.incr = s.incr ∧ s'.css = s.css ∧ s'.perRev = s.perRev

/-- C92 (partial: no block number or comment is an address of the machine): a line of nothing but comments and block numbers
that is simulated without complaint changes no total, no position and no modal value. -/
theorem C92_silent_line_partial (S : Setup) (nums : List Str) (hn : Free S.cfg.axes nums) (hp : S.cfg.palletWord ≠ c!"(")
    (hm : S.cfg.measureWord ≠ c!"(") (hF : S.F.sqrt 0 = 0) (u : Units) (s s' : St ℚ) (b : Block) (hb : ∀ a ∈ b, Silent nums a)
    (h : moved S u s b = (s', .ok ())) : Unmoved s s' := by
  unfold moved evaluate at h
  dsimp only at h
  by_cases hne : b = []
  · rw [if_pos hne] at h
    cases h
    constructor <;> simp [clearMotions]
  rw [if_neg hne, visitAll_silent hn hp hm hb] at h
  dsimp only at h
  have e1 : mTimes S.cfg {} (clearMotions s) = clearMotions s := by simp [mTimes]
  have e2 : ∀ m : MacroMap ℚ, toolPart S.cfg 0 {} (clearMotions s, m) = ((clearMotions s, m), .ok true) := by intro m; rfl
  unfold evalVis at h
  dsimp only at h
  rw [e1, e2] at h
  dsimp only at h
  unfold afterTool at h
  have e3 : dwell ({} : Vis ℚ) (clearMotions s) = clearMotions s := by simp [dwell]
  have t1 : atTool S.cfg ({} : Vis ℚ) = false := by simp [atTool, toolOf]
  have t2 : atBase ({} : Vis ℚ) = false := by simp [atBase]
  rw [e3] at h
  unfold startPart at h
  rw [t1, t2] at h
  simp only [Bool.or_self, Bool.false_eq_true, if_false, ne_eq, not_true_eq_false, and_false] at h
  have cs : ∀ (i : Bool) (og : List Str) (x : St ℚ), copySt i og [] x = x := fun _ _ _ => rfl
  have base : Unmoved s (clearMotions s) := by constructor <;> simp [clearMotions]
  generalize hc : clearMotions s = c at h base
  have hw : c.path.work = some 0 ∧ c.path.fast = some 0 := by rw [← hc]; exact ⟨rfl, rfl⟩
  by_cases hg : c.g = -1
  · rw [if_pos ⟨by simp, hg, trivial⟩] at h
    cases h
    exact base
  rw [if_neg (fun hx => hg hx.2.1)] at h
  simp only [Part.andThen] at h
  -- the accounting of a motion of no length
  have acc : ∀ x : St ℚ, Unmoved s x → x.path.work = some 0 → x.path.fast = some 0 → current {} c = current {} x →
      ∃ x', account S.F S.cfg (decide (u = .imperial)) {} (current {} c) x = (x', .ok true) ∧ Unmoved s x' := by
    intro x hx h1 h2 h3
    rw [h3]
    have w0 : workTime S.F S.cfg (decide (u = .imperial)) (current {} x) (some 0) = some 0 := by simp [workTime]
    have f0 : fastTime S.cfg (some 0) = some (0 : ℚ) := by simp [fastTime]
    unfold account checks
    simp only [addTimes, addPath, saveModal, h1, h2, w0, f0, ne_eq, not_true_eq_false, false_and, if_false, savePositions, t1, t2, Bool.false_eq_true, cs]
    refine ⟨_, rfl, ?_⟩
    have z : Path.addF (some (0 : ℚ)) (some 0) = some 0 := addF_zero _
    obtain ⟨p1, p2, p3, p4, p5, pg, p6⟩ := hx
    have hg' : gAfter S.cfg x.g = s.g ∨ (s.g = 80 ∧ gAfter S.cfg x.g = 0) := by
      unfold gAfter
      split
      · next hx => rcases pg with pg | pg
                   · exact .inr ⟨pg.symm.trans hx.1, rfl⟩
                   · exact absurd (pg.2.symm.trans hx.1) (by decide)
      · exact pg
    constructor <;> simp only [z, addF_zero, current, Option.getD_none] <;> assumption
  have mot : ∀ x : St ℚ, Unmoved s x → x.path.work = some 0 → x.path.fast = some 0 → current {} c = current {} x →
      Unmoved s (cancelCycle x) ∧ (cancelCycle x).path.work = some 0 ∧ (cancelCycle x).path.fast = some 0 ∧ current {} c = current {} (cancelCycle x) := by
    intro x hx h1 h2 h3
    obtain ⟨p1, p2, p3, p4, p5, pg, p6⟩ := hx
    exact ⟨⟨p1, p2, p3, p4, p5, pg, p6⟩, h1, h2, h3⟩
  have key : ∀ r : Part (St ℚ), (r.2 = .ok true → ∃ x : St ℚ, r.1 = x ∧ Unmoved s x ∧ x.path.work = some 0 ∧ x.path.fast = some 0 ∧ current {} c = current {} x) →
      (r.2 = .ok false → Unmoved s r.1) →
      ∀ y o, r.andThen (account S.F S.cfg (decide (u = .imperial)) {} (current {} c)) = (y, o) → finish o = .ok () → Unmoved s y := by
    rintro ⟨r, q⟩ h1 h2 y o h3 h4
    unfold Part.andThen at h3
    dsimp only at h3 h1 h2
    cases q with
    | ok v =>
      cases v with
      | true =>
        obtain ⟨x, rfl, k1, k2, k3, k4⟩ := h1 rfl
        obtain ⟨x', k5, k6⟩ := acc r k1 k2 k3 k4
        dsimp only at h3
        rw [k5] at h3
        cases h3
        exact k6
      | false => cases h3; exact h2 rfl
    | throw e => cases h3; cases h4
    | ub => cases h3; cases h4
  have lin : ∀ x : St ℚ, Unmoved s x → x.path.work = some 0 → x.path.fast = some 0 → current {} c = current {} x → ∀ g : Int,
      Unmoved s (setMotion g (some 0) x) ∧ (setMotion g (some 0) x).path.work = some 0 ∧ (setMotion g (some 0) x).path.fast = some 0 ∧
        current {} c = current {} (setMotion g (some 0) x) := by
    intro x hx h1 h2 h3 g
    obtain ⟨p1, p2, p3, p4, p5, pg, p6⟩ := hx
    unfold setMotion
    split
    · exact ⟨⟨p1, p2, p3, p4, p5, pg, p6⟩, h1, rfl, h3⟩
    · exact ⟨⟨p1, p2, p3, p4, p5, pg, p6⟩, rfl, h2, h3⟩
  have can : ∀ g : Int, Unmoved s (cancelBy S.cfg g c) ∧ (cancelBy S.cfg g c).path.work = some 0 ∧ (cancelBy S.cfg g c).path.fast = some 0 ∧
      current {} c = current {} (cancelBy S.cfg g c) := by
    intro g
    unfold cancelBy
    split
    · exact mot c base hw.1 hw.2 rfl
    · exact ⟨base, hw.1, hw.2, rfl⟩
  have tg : ∀ (a : Str) (x : ℚ), target S.cfg ({} : Vis ℚ) a x = .ok x := by
    intro a x
    unfold target
    rw [t1, t2]
    rfl
  have d0 : ∀ x y z : ℚ, Path.dist3 S.F x y z x y z = 0 := by intro x y z; simp [Path.dist3, Path.len3, hF]
  have l0 : ∀ p, Path.len3 S.F (halve S.cfg p 0) 0 0 = 0 := by intro p; simp [Path.len3, halve, hF]
  have linear_ok : (linear S.F S.cfg {} (current {} c) c).2 = .ok true ∧ (linear S.F S.cfg {} (current {} c) c).1 = setMotion c.g (some 0) (cancelBy S.cfg c.g c) ∨
      ∃ e, (linear S.F S.cfg {} (current {} c) c).2 = .throw e := by
    unfold linear linearAbs linearIncr
    rw [t1, t2]
    split
    · split
      · exact .inr ⟨_, rfl⟩
      · exact .inr ⟨_, rfl⟩
      · exact .inr ⟨_, rfl⟩
      · rw [tg, tg, tg]
        dsimp only
        rw [d0]
        exact .inl ⟨rfl, rfl⟩
    · split_ifs
      · exact .inr ⟨_, rfl⟩
      · exact .inr ⟨_, rfl⟩
      · exact .inr ⟨_, rfl⟩
      · left
        refine ⟨rfl, ?_⟩
        show setMotion _ (some (Path.len3 S.F (halve S.cfg _ 0) 0 0)) _ = _
        rw [l0]
        rfl
  have c0 : circular S.F S.cfg {} (current {} c) c = (c, .ok false) := by unfold circular; exact if_pos ⟨rfl, rfl⟩
  have d1 : drilling S.F S.cfg {} (current {} c) c = (c, .ok false) := by unfold drilling; exact if_pos ⟨rfl, rfl⟩
  have fin := key (motion S.F S.cfg {} (current {} c) c) ?_ ?_ _ _ rfl
  · have h6 : (moveBlock S.F S.cfg (decide (u = .imperial)) {} c).1 = s' := congrArg Prod.fst h
    have h7 : finish (moveBlock S.F S.cfg (decide (u = .imperial)) {} c).2 = .ok () := congrArg Prod.snd h
    rw [← h6]
    exact fin h7
  · unfold motion
    rw [c0, d1]
    split_ifs
    · intro hx
      rcases linear_ok with ⟨-, k2⟩ | ⟨e, k⟩
      · refine ⟨_, k2, ?_⟩
        obtain ⟨q1, q2, q3, q4⟩ := can c.g
        exact lin _ q1 q2 q3 q4 c.g
      · rw [k] at hx; cases hx
    · nofun
    · intro _; exact ⟨_, rfl, mot c base hw.1 hw.2 rfl⟩
    · nofun
    · nofun
  · unfold motion
    rw [c0, d1]
    split_ifs
    · intro hx
      rcases linear_ok with ⟨k, -⟩ | ⟨e, k⟩ <;> rw [k] at hx <;> cases hx
    · exact fun _ => base
    · nofun
    · exact fun _ => base
    · exact fun _ => base

/-- The same program with block numbers and comments. -/
def numberedWords : List Block :=
  [[.dec { word := c!"N", value := some c!"10" }, .dec { word := c!"S", value := some c!"500" }, .str c!"(" c!"G2", .dec { word := c!"M", value := some c!"3" }],
   [.dec { word := c!"G", value := some c!"1" }, .dec { word := c!"X", value := some c!"5" }, .dec { word := c!"F", value := some c!"100" }, .str c!"(" c!"cut"],
   [.dec { word := c!"N", value := some c!"20" }, .dec { word := c!"G", value := some c!"20" }]]

theorem numbered_alike : List.Forall₂ (Alike [c!"N"]) goodWords numberedWords := by
  have n : ∀ v, Silent [c!"N"] (.dec { word := c!"N", value := some v }) := fun v => .number (by simp) (by simp)
  exact .cons (.right (n _) (.same _ (.right (.comment _) (.same _ .nil))))
    (.cons (.same _ (.same _ (.same _ (.right (.comment _) .nil)))) (.cons (.right (n _) (.same _ .nil)) .nil))

theorem demo_free : Free demo.cfg.axes [c!"N"] := by unfold Free; decide

/-- A check of `Once` that computes. -/
theorem once_of {g : WordMap} {nums : List Str} {b : Block} (h : nums.all (fun w => decide (occurs w b ≤ 1)) = true) : Once g nums b :=
  fun w hw _ => of_decide_eq_true (List.all_eq_true.mp h w hw)

/-- The hypotheses of `C92_program_partial` are met by a program with and without block numbers and comments, and both
are accepted. -/
example : ReadAs demo {} (lines [c!"S500 M3", c!"G1 X5 F100", c!"G20"]) goodWords ∧
    ReadAs demo {} (lines [c!"N10 S500 (G2) M3", c!"G1 X5 F100 (cut)", c!"N20 G20"]) numberedWords ∧
    List.Forall₂ (Alike [c!"N"]) goodWords numberedWords ∧ Free demo.cfg.axes [c!"N"] ∧
    (∀ b ∈ goodWords, Ordinary demo.lathe demo.limits b) ∧ (∀ b ∈ numberedWords, Ordinary demo.lathe demo.limits b) ∧
    (∀ u, ∀ b ∈ goodWords, Once (Pipe.tableOf demo.tables u) [c!"N"] b) ∧ (∀ u, ∀ b ∈ numberedWords, Once (Pipe.tableOf demo.tables u) [c!"N"] b) ∧
    demo.cfg.palletWord ≠ c!"(" ∧ demo.cfg.measureWord ≠ c!"(" ∧ SetOfGroups demo.gcodes ∧ SetOfGroups demo.mcodes ∧
    (program demo serverOptions (fresh demo) (lines [c!"N10 S500 (G2) M3", c!"G1 X5 F100 (cut)", c!"N20 G20"])).2 = .ok [(true, none), (true, none), (true, none)] := by
  refine ⟨.cons (Prod.ext rfl (by decide +kernel)) (.cons (Prod.ext rfl (by decide +kernel)) (.cons (Prod.ext rfl (by decide +kernel)) (.nil _))),
    .cons (Prod.ext rfl (by decide +kernel)) (.cons (Prod.ext rfl (by decide +kernel)) (.cons (Prod.ext rfl (by decide +kernel)) (.nil _))),
    numbered_alike, demo_free, ?_, ?_, ?_, ?_, by decide, by decide, by unfold SetOfGroups; decide, by unfold SetOfGroups; decide, by decide +kernel⟩
  · intro b hb; refine ordinary_of ?_; revert b; decide
  · intro b hb; refine ordinary_of ?_; revert b; decide
  · intro u b hb; refine once_of ?_; revert b; decide
  · intro u b hb; refine once_of ?_; revert b; decide

/-- The hypotheses of `C92_silent_line_partial` are met by a numbered comment after a motion. -/
example : Free demo.cfg.axes [c!"N"] ∧ demo.F.sqrt 0 = 0 ∧
    (∀ a ∈ ([.dec { word := c!"N", value := some c!"10" }, .str c!"(" c!"cut"] : Block), Silent [c!"N"] a) ∧
    (moved demo .metric { AttrPath.initial demo.cfg with g := 1 } [.dec { word := c!"N", value := some c!"10" }, .str c!"(" c!"cut"]).2 = .ok () := by
  refine ⟨demo_free, by decide +kernel, ?_, by decide +kernel⟩
  intro a ha
  rcases List.mem_cons.mp ha with rfl | ha
  · exact .number (by simp) (by simp)
  · cases List.mem_singleton.mp ha; exact .comment _

end NC.Props
