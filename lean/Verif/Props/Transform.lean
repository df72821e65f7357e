import Verif.Transform
import Verif.Spec.Rewrite
import Verif.Props.Alike
import Verif.Props.Lost
import Verif.Props.Renumber
import Verif.Props.Removal

/-! # C93: rewritten programs are read as the words they were given, and mean the same -/

namespace NC.Props
open NC NC.Message NC.Gram NC.Pipe NC.Xform NC.Spec NC.Spec.Tables NC.Spec.Check NC.Spec.Alike NC.Spec.Verify NC.Spec.Rewrite NC.Spec.Lost NC.Spec.Renumber

/-- The words a job makes of the blocks of a program. -/
inductive Makes (g : FanucGrammar) (j : Job) : Renumber.St → List Block → List Block → Prop
  | nil (st) : Makes g j st [] []
  | cons {st st' b b' bs bs'} : j.work g st b = (st', .ok b') → Makes g j st' bs bs' → Makes g j st (b :: bs) (b' :: bs')

theorem calls_read {S : Setup} {j : Job} {ls : List (Int × Str)} {bs : List Block} {ps : PS} (hr : ReadAs S ps ls bs) :
    ∀ {st : Renumber.St} {bs' : List Block}, Makes S.tables j st bs bs' →
      (calls (gramOf S) S.tables j ⟨ps, st⟩ (ls.map Prod.snd)).2 = bs'.map (fun b => Call.ret b true none) := by
  induction hr with
  | nil => intro st bs' hm; cases hm; rfl
  | @cons g g' x l b t bs hp _ ih =>
    intro st bs' hm
    cases hm with
    | @cons _ st' _ b' _ bs' hw hm =>
      have hc : call (gramOf S) S.tables j ⟨g, st⟩ l = (⟨g', st'⟩, .ret b' true none) := by
        unfold call
        rw [simpleParse_accept hp]
        dsimp only
        rw [if_neg (by simp), hw]
      simp only [List.map_cons, calls, hc]
      rw [ih hm]

/-- The lines of the file that is written from what the calls return. -/
def texts (cs : List Call) : List Str := cs.map (fun c => match c with | .ret b _ _ => Wrap.blockText b | .uncaught _ => [])

theorem texts_ret (bs : List Block) : texts (bs.map (fun b => Call.ret b true none)) = bs.map Source.line := by
  simp [texts, Function.comp_def, blockText_eq]

theorem readAs_texts (S : Setup) (hR : RegularTables (Pipe.tableOf S.tables S.units) S.tables.metric S.ops) (bs : List Block)
    (h : ∀ b ∈ bs, Declared (Pipe.tableOf S.tables S.units) S.tables.metric S.ops b) :
    ∀ (ls : List (Int × Str)), ls.map Prod.snd = bs.map Source.line → ∀ g, ReadAs S g ls bs := by
  induction bs with
  | nil => intro ls hl g; simp only [List.map_nil, List.map_eq_nil_iff] at hl; subst hl; exact .nil g
  | cons b bs ih =>
    intro ls hl g
    rcases ls with _ | ⟨⟨n, t⟩, ls⟩
    · simp at hl
    simp only [List.map_cons, List.cons.injEq] at hl
    obtain ⟨rfl, hl⟩ := hl
    obtain ⟨ps, hp⟩ := written_words (lang := S.lang) hR (h b (by simp)) { g with msg := [] } [] (by simp)
    rw [List.append_nil] at hp
    exact .cons hp (ih (fun x hx => h x (by simp [hx])) ls hl ps)

theorem line_sub {words : WordMap} {ds as : List Str} {b b' : Block} (h : b'.Sublist b) (hne : b' ≠ []) (hl : Spec.Proper.Line words ds as b) :
    Spec.Proper.Line words ds as b' := by
  induction hl generalizing b' with
  | @one a h1 =>
    rcases List.sublist_cons_iff.mp h with h' | ⟨r, rfl, h'⟩
    · exact absurd (List.sublist_nil.mp h') hne
    · cases List.sublist_nil.mp h'; exact .one h1
  | percent =>
    rcases List.sublist_cons_iff.mp h with h' | ⟨r, rfl, h'⟩
    · exact absurd (List.sublist_nil.mp h') hne
    · cases List.sublist_nil.mp h'; exact .percent
  | @more a b h1 _ ih =>
    rcases List.sublist_cons_iff.mp h with h' | ⟨r, rfl, h'⟩
    · exact ih h' hne
    · cases r with
      | nil => exact .one h1
      | cons x r => exact .more h1 (ih h' (by simp))

theorem mem_line {b : Block} {c : Char} (h : c ∈ Source.line b) : c = ' ' ∨ ∃ a ∈ b, c ∈ Source.word a := by
  induction b with
  | nil => cases h
  | cons a t ih =>
    cases t with
    | nil => exact .inr ⟨a, by simp, h⟩
    | cons x t =>
      rw [Source.line.eq_3 a (x :: t) (by simp)] at h
      rcases List.mem_append.mp h with h | h
      · exact .inr ⟨a, by simp, h⟩
      rcases List.mem_cons.mp h with h | h
      · exact .inl h
      rcases ih h with h | ⟨y, hy, h⟩
      · exact .inl h
      · exact .inr ⟨y, by simp [hy], h⟩

theorem consists_mem {b : Block} {t : Str} (h : Consists b t) {a : Attr} (ha : a ∈ b) {c : Char} (hc : c ∈ Source.word a) (hb : c ≠ ' ' ∧ c ≠ '\t') : c ∈ t := by
  have hs : c ∈ solid (Source.word a) := List.mem_filter.mpr ⟨hc, by simp [hb.1, hb.2]⟩
  induction h with
  | none => cases ha
  | word _ ih =>
    rcases List.mem_cons.mp ha with rfl | ha
    · exact List.mem_append.mpr (.inl hs)
    · exact List.mem_append.mpr (.inr (ih ha))
  | named _ _ ih =>
    rcases List.mem_cons.mp ha with rfl | ha
    · exact List.mem_append.mpr (.inl hs)
    · exact List.mem_append.mpr (.inr (List.mem_append.mpr (.inr (ih ha))))

theorem readAs_no_hash {S : Setup} {g : PS} {ls : List (Int × Str)} {bs : List Block} (hr : ReadAs S g ls bs) (hs : ∀ x ∈ ls, '#' ∉ x.2) :
    ∀ b ∈ bs, ∀ a ∈ b, '#' ∉ Source.word a := by
  induction hr with
  | nil => nofun
  | cons hp _ ih =>
    intro b hb a ha hh
    rcases List.mem_cons.mp hb with rfl | hb
    · obtain ⟨_, hW⟩ := (phrase_accept (gramOf_chars S)).mp hp
      have := consists_mem (words_solid hW) ha hh (by decide)
      exact hs _ List.mem_cons_self (List.mem_filter.mp this).1
    · exact ih (fun x hx => hs x (by simp [hx])) b hb a ha hh

theorem no_hash_line {b : Block} (h : ∀ a ∈ b, '#' ∉ Source.word a) : '#' ∉ Source.line b := by
  intro hh
  rcases mem_line hh with e | ⟨a, ha, h'⟩
  · exact absurd e (by decide)
  · exact h a ha h'

theorem mem_decs (x : Block) (d : Dec) : d ∈ decs x ↔ Attr.dec d ∈ x := by
  induction x with
  | nil => simp [decs]
  | cons a x ih => cases a <;> simp [decs, ih]

theorem ordinary_sub {b b' : Block} (h : b'.Sublist b) (ho : Ordinary lathe k b) : Ordinary lathe k b' := by
  have : ∀ d ∈ decs b', d ∈ decs b := by
    intro d hd
    rw [mem_decs] at hd ⊢
    exact h.subset hd
  exact ⟨fun d hd => ho.small d (this d hd), fun d hd => ho.clear d (this d hd)⟩

/-- The two programs are both accepted or both not; if they are, the simulations and the units after them are the same. -/
def SameRun (S : Setup) (o : Options) (ls ls' : List (Int × Str)) : Prop :=
  ((program S o (fresh S) ls).2 = .ok (ls.map (fun _ => (true, none))) ↔ (program S o (fresh S) ls').2 = .ok (ls'.map (fun _ => (true, none)))) ∧
  ((program S o (fresh S) ls).2 = .ok (ls.map (fun _ => (true, none))) →
    (program S o (fresh S) ls).1.path = (program S o (fresh S) ls').1.path ∧ (program S o (fresh S) ls).1.units = (program S o (fresh S) ls').1.units)

/-- What the theorems ask of the parser's settings. -/
structure Usual (S : Setup) (o : Options) : Prop where
  lang : ∃ l, S.lang = .known l
  macros : o.evalMacro = true
  gs : SetOfGroups S.gcodes
  ms : SetOfGroups S.mcodes
  regular : RegularTables (Pipe.tableOf S.tables S.units) S.tables.metric S.ops
  free : Free S.cfg.axes (numbering S.tables)
  pallet : S.cfg.palletWord ≠ c!"("
  measure : S.cfg.measureWord ≠ c!"("

theorem forall₂_right {α β : Type} {R : α → β → Prop} {xs : List α} {ys : List β} (h : List.Forall₂ R xs ys) : ∀ y ∈ ys, ∃ x ∈ xs, R x y := by
  induction h with
  | nil => nofun
  | @cons a b l₁ l₂ h _ ih =>
    intro y hy
    rcases List.mem_cons.mp hy with rfl | hy
    · exact ⟨a, by simp, h⟩
    · obtain ⟨x, hx, h'⟩ := ih y hy
      exact ⟨x, by simp [hx], h'⟩

/-! ## Removal of comments -/

theorem removeComment_eq (b : Block) : Removal.removeComment b = uncommented b := by
  have : ∀ (b kept : Block), Removal.commentLoop kept b = kept ++ uncommented b := by
    intro b
    induction b with
    | nil => intro kept; simp [Removal.commentLoop, uncommented]
    | cons a b ih =>
      intro kept
      cases a with
      | str w v =>
        by_cases hw : w = c!"("
        · simp [Removal.commentLoop, uncommented, comment, hw, ih]
        · simp [Removal.commentLoop, uncommented, comment, hw, ih]
      | dec d => simp [Removal.commentLoop, uncommented, comment, ih]
      | chr w v => simp [Removal.commentLoop, uncommented, comment, ih]
  rw [Removal.removeComment, this]
  simp

theorem makes_uncomment (g : FanucGrammar) (bs : List Block) : ∀ st, Makes g .uncomment st bs (bs.map uncommented) := by
  induction bs with
  | nil => intro st; exact .nil st
  | cons b bs ih => intro st; exact .cons (st' := st) (by simp [Job.work, removeComment_eq]) (ih st)

theorem uncommented_alike (nums : List Str) (b : Block) : Alike nums b (uncommented b) := by
  induction b with
  | nil => exact .nil
  | cons a b ih =>
    unfold uncommented at ih ⊢
    by_cases ha : comment a = true
    · rw [List.filter_cons_of_neg (by simp [ha])]
      cases a with
      | str w v => simp only [comment, decide_eq_true_eq] at ha; subst ha; exact .left (.comment v) ih
      | dec d => cases ha
      | chr w v => cases ha
    · rw [List.filter_cons_of_pos (by simp [ha])]
      exact .same a ih

theorem declared_uncommented {words table : WordMap} {ops : List Str} {b : Block} (hne : uncommented b ≠ [])
    (hb : Spec.Proper.Line words (decNames table ops) (assignNames table ops) b) (ha : b.Pairwise (Apart (assignNames table ops))) :
    Declared words table ops (uncommented b) :=
  ⟨line_sub List.filter_sublist hne hb, (ha.sublist List.filter_sublist).isChain⟩

/-- A line that can lose its comments: more than comments on it, and any two words can be written one after the other. -/
structure Loose (words table : WordMap) (ops : List Str) (b : Block) : Prop where
  line : Spec.Proper.Line words (decNames table ops) (assignNames table ops) b
  apart : b.Pairwise (Apart (assignNames table ops))
  more : uncommented b ≠ []

/-- C93 for the removal of comments: every call returns the words without comments; what is written of them is read
as these words, whatever was read before. -/
theorem C93_uncomment (S : Setup) (hR : RegularTables (Pipe.tableOf S.tables S.units) S.tables.metric S.ops) (o : Obj) (ls : List (Int × Str))
    (bs : List Block) (hr : ReadAs S o.gram ls bs) (hb : ∀ b ∈ bs, Loose (Pipe.tableOf S.tables S.units) S.tables.metric S.ops b) :
    (calls (gramOf S) S.tables .uncomment o (ls.map Prod.snd)).2 = bs.map (fun b => Call.ret (uncommented b) true none) ∧
    ∀ b ∈ bs, ∀ hist, verdict (gramOf S) hist (Wrap.blockText (uncommented b)) = .ret (uncommented b) true none := by
  refine ⟨?_, fun b hm hist => ?_⟩
  · have := calls_read hr (makes_uncomment S.tables bs o.num)
    rwa [List.map_map] at this
  · have := C86_line _ _ _ S.lang hR _ (declared_uncommented (hb b hm).more (hb b hm).line (hb b hm).apart) hist [] (by simp)
    rwa [List.append_nil, ← blockText_eq] at this

theorem same_run {S : Setup} {o : Options} (hU : Usual S o) {ls ls' : List (Int × Str)} {bs bs' : List Block} (hr : ReadAs S {} ls bs)
    (hl : ls'.map Prod.snd = bs'.map Source.line) (hd : ∀ b ∈ bs', Declared (Pipe.tableOf S.tables S.units) S.tables.metric S.ops b)
    (ha : List.Forall₂ (Alike (numbering S.tables)) bs bs') (hs : ∀ x ∈ ls, '#' ∉ x.2) (hs' : ∀ b ∈ bs', ∀ a ∈ b, '#' ∉ Source.word a)
    (hb : ∀ b ∈ bs, Ordinary S.lathe S.limits b) (hb' : ∀ b ∈ bs', Ordinary S.lathe S.limits b) (h1 : ∀ u, ∀ b ∈ bs, Once (Pipe.tableOf S.tables u) (numbering S.tables) b)
    (h1' : ∀ u, ∀ b ∈ bs', Once (Pipe.tableOf S.tables u) (numbering S.tables) b) : SameRun S o ls ls' := by
  obtain ⟨l, hlang⟩ := hU.lang
  refine C92_program_partial S l hlang o hU.macros hU.gs hU.ms _ hU.free hU.pallet hU.measure ls ls' bs bs' hr (readAs_texts S hU.regular bs' hd ls' hl {}) ha hs ?_ hb hb' h1 h1'
  intro x hx
  have : x.2 ∈ ls'.map Prod.snd := List.mem_map_of_mem hx
  rw [hl] at this
  obtain ⟨b, hm, e⟩ := List.mem_map.mp this
  rw [← e]
  exact no_hash_line (hs' b hm)

theorem once_sub {g : WordMap} {nums : List Str} {b b' : Block} (h : b'.Sublist b) (ho : Once g nums b) : Once g nums b' := by
  intro w hw hd
  refine le_trans ?_ (ho w hw hd)
  have : (decs b').Sublist (decs b) := by
    clear ho
    induction h with
    | slnil => exact .slnil
    | @cons l₁ l₂ a _ ih =>
      cases a with
      | dec d => exact .cons _ ih
      | str w v => exact ih
      | chr w v => exact ih
    | @cons_cons l₁ l₂ a _ ih =>
      cases a with
      | dec d => exact .cons_cons _ ih
      | str w v => exact ih
      | chr w v => exact ih
  exact this.countP_le

/-- C93 for the removal of comments (partial: no `#`, ordinary numbers): the program written from what the calls
return runs like the program itself. -/
theorem C93_uncomment_run_partial (S : Setup) (o : Options) (hU : Usual S o) (num : Renumber.St) (ls ls' : List (Int × Str)) (bs : List Block)
    (hr : ReadAs S {} ls bs) (hb : ∀ b ∈ bs, Loose (Pipe.tableOf S.tables S.units) S.tables.metric S.ops b ∧ Ordinary S.lathe S.limits b)
    (h1 : ∀ u, ∀ b ∈ bs, Once (Pipe.tableOf S.tables u) (numbering S.tables) b) (hs : ∀ x ∈ ls, '#' ∉ x.2)
    (hl : ls'.map Prod.snd = texts (calls (gramOf S) S.tables .uncomment ⟨{}, num⟩ (ls.map Prod.snd)).2) : SameRun S o ls ls' := by
  rw [calls_read hr (makes_uncomment S.tables bs num), texts_ret] at hl
  have sub : ∀ b : Block, (uncommented b).Sublist b := fun b => List.filter_sublist
  refine same_run hU hr hl ?_ ?_ hs ?_ (fun b hm => (hb b hm).2) ?_ h1 ?_
  · intro b' hm
    obtain ⟨b, hm', rfl⟩ := List.mem_map.mp hm
    obtain ⟨h, _⟩ := hb b hm'
    exact declared_uncommented h.more h.line h.apart
  · rw [List.forall₂_map_right_iff]
    exact List.forall₂_same.mpr (fun b _ => uncommented_alike _ b)
  · intro b' hm a ha
    obtain ⟨b, hm', rfl⟩ := List.mem_map.mp hm
    exact readAs_no_hash hr hs b hm' a ((sub b).subset ha)
  · intro b' hm
    obtain ⟨b, hm', rfl⟩ := List.mem_map.mp hm
    exact ordinary_sub (sub b) (hb b hm').2
  · intro u b' hm
    obtain ⟨b, hm', rfl⟩ := List.mem_map.mp hm
    exact once_sub (sub b) (h1 u b hm')

/-! ## Removal of block numbers -/

theorem isNumWord_iff (g : FanucGrammar) (w : Str) : Renumber.isNumWord g w = decide (w ∈ numbering g) := by
  unfold Renumber.isNumWord Renumber.numWords numbering
  rw [Bool.eq_iff_iff]
  simp only [List.any_eq_true, beq_iff_eq, decide_eq_true_eq, List.mem_map]

theorem isNumWord_eq (g : FanucGrammar) : Renumber.isNumWord g = fun w => decide (w ∈ numbering g) := funext (isNumWord_iff g)

theorem remove_eq (g : FanucGrammar) (b : Block) : Renumber.remove g b = unnumbered (numbering g) b := by
  unfold unnumbered
  rw [← isNumWord_eq]
  rcases b with _ | ⟨d | _ | _, t⟩ <;> rfl

theorem makes_unnumber (g : FanucGrammar) (bs : List Block) : ∀ st, Makes g .unnumber st bs (bs.map (unnumbered (numbering g))) := by
  induction bs with
  | nil => intro st; exact .nil st
  | cons b bs ih => intro st; exact .cons (st' := st) (by simp [Job.work, remove_eq]) (ih st)

theorem unnumbered_cases (nums : List Str) (b : Block) :
    (unnumbered nums b = b ∧ ∀ d t, b = .dec d :: t → d.word ∉ nums) ∨ ∃ d t, b = .dec d :: t ∧ d.word ∈ nums ∧ unnumbered nums b = t := by
  rcases b with _ | ⟨d | ⟨w, v⟩ | ⟨w, v⟩, t⟩
  · exact .inl ⟨rfl, by simp⟩
  · by_cases h : d.word ∈ nums
    · exact .inr ⟨d, t, rfl, h, by simp [unnumbered, body, h]⟩
    · refine .inl ⟨by simp [unnumbered, body, h], ?_⟩
      rintro d' t' e
      cases e
      exact h
  · exact .inl ⟨rfl, by simp⟩
  · exact .inl ⟨rfl, by simp⟩

theorem unnumbered_suffix (nums : List Str) (b : Block) : unnumbered nums b <:+ b := by
  rcases unnumbered_cases nums b with ⟨h, _⟩ | ⟨d, t, rfl, _, h⟩
  · rw [h]
  · rw [h]; exact List.suffix_cons _ _

theorem unnumbered_sub (nums : List Str) (b : Block) : (unnumbered nums b).Sublist b := (unnumbered_suffix nums b).sublist

theorem declared_unnumbered {words table : WordMap} {ops : List Str} {nums : List Str} {b : Block} (hne : unnumbered nums b ≠ []) (hb : Declared words table ops b) :
    Declared words table ops (unnumbered nums b) :=
  ⟨line_sub (unnumbered_sub nums b) hne hb.1, hb.2.suffix (unnumbered_suffix nums b)⟩

theorem unnumbered_alike {nums : List Str} {b : Block} (h : Headed nums b) : Alike nums b (unnumbered nums b) := by
  rcases unnumbered_cases nums b with ⟨e, _⟩ | ⟨d, t, rfl, hd, e⟩
  · rw [e]; exact alike_refl b
  · rw [e]
    obtain ⟨v, hv⟩ := h.plain d t rfl hd
    exact .left (.number hd (by rw [hv]; simp)) (alike_refl t)

/-- C93 for the removal of block numbers: every call returns the words without the leading number; what is written of
them is read as these words, whatever was read before. -/
theorem C93_unnumber (S : Setup) (hR : RegularTables (Pipe.tableOf S.tables S.units) S.tables.metric S.ops) (o : Obj) (ls : List (Int × Str))
    (bs : List Block) (hr : ReadAs S o.gram ls bs) (hb : ∀ b ∈ bs, Declared (Pipe.tableOf S.tables S.units) S.tables.metric S.ops b)
    (hne : ∀ b ∈ bs, unnumbered (numbering S.tables) b ≠ []) :
    (calls (gramOf S) S.tables .unnumber o (ls.map Prod.snd)).2 = bs.map (fun b => Call.ret (unnumbered (numbering S.tables) b) true none) ∧
    ∀ b ∈ bs, ∀ hist, verdict (gramOf S) hist (Wrap.blockText (unnumbered (numbering S.tables) b)) = .ret (unnumbered (numbering S.tables) b) true none := by
  refine ⟨?_, fun b hm hist => ?_⟩
  · have := calls_read hr (makes_unnumber S.tables bs o.num)
    rwa [List.map_map] at this
  · have := C86_line _ _ _ S.lang hR _ (declared_unnumbered (hne b hm) (hb b hm)) hist [] (by simp)
    rwa [List.append_nil, ← blockText_eq] at this

theorem once_first {g : WordMap} {nums : List Str} {b : Block} (h : ∀ d, Attr.dec d ∈ b.tail → d.word ∉ nums) : Once g nums b := by
  intro w hw _
  have zero : ∀ t : Block, (∀ d, Attr.dec d ∈ t → d.word ∉ nums) → occurs w t = 0 := by
    intro t ht
    unfold occurs
    rw [List.countP_eq_zero]
    intro d hd
    have : Attr.dec d ∈ t := (mem_decs t d).mp hd
    simp only [decide_eq_true_eq]
    rintro rfl
    exact ht d this hw
  rcases b with _ | ⟨a, t⟩
  · simp [occurs, decs]
  · have := zero t h
    cases a with
    | dec d =>
      unfold occurs at this ⊢
      simp only [decs, List.countP_cons, this]
      split <;> simp
    | str => exact le_of_eq_of_le this (by simp)
    | chr => exact le_of_eq_of_le this (by simp)

/-- C93 for the removal of block numbers (partial: no `#`, ordinary numbers): the program written from what the calls
return runs like the program itself. -/
theorem C93_unnumber_run_partial (S : Setup) (o : Options) (hU : Usual S o) (num : Renumber.St) (ls ls' : List (Int × Str)) (bs : List Block)
    (hr : ReadAs S {} ls bs) (hb : ∀ b ∈ bs, Declared (Pipe.tableOf S.tables S.units) S.tables.metric S.ops b ∧ Headed (numbering S.tables) b ∧ Ordinary S.lathe S.limits b)
    (hs : ∀ x ∈ ls, '#' ∉ x.2)
    (hl : ls'.map Prod.snd = texts (calls (gramOf S) S.tables .unnumber ⟨{}, num⟩ (ls.map Prod.snd)).2) : SameRun S o ls ls' := by
  rw [calls_read hr (makes_unnumber S.tables bs num), texts_ret] at hl
  have h1 : ∀ u, ∀ b ∈ bs, Once (Pipe.tableOf S.tables u) (numbering S.tables) b := fun u b hm => once_first (hb b hm).2.1.first
  refine same_run hU hr hl ?_ ?_ hs ?_ (fun b hm => (hb b hm).2.2) ?_ h1 ?_
  · intro b' hm
    obtain ⟨b, hm', rfl⟩ := List.mem_map.mp hm
    exact declared_unnumbered (hb b hm').2.1.rest (hb b hm').1
  · rw [List.forall₂_map_right_iff]
    exact List.forall₂_same.mpr (fun b hm => unnumbered_alike (hb b hm).2.1)
  · intro b' hm a ha
    obtain ⟨b, hm', rfl⟩ := List.mem_map.mp hm
    exact readAs_no_hash hr hs b hm' a ((unnumbered_sub _ b).subset ha)
  · intro b' hm
    obtain ⟨b, hm', rfl⟩ := List.mem_map.mp hm
    exact ordinary_sub (unnumbered_sub _ b) (hb b hm').2.2
  · intro u b' hm
    obtain ⟨b, hm', rfl⟩ := List.mem_map.mp hm
    exact once_sub (unnumbered_sub _ b) (h1 u b hm')

/-! ## Renumbering -/

/-- The settings number with an address declared for block numbers, within its range. -/
structure Fit (S : Setup) (s : Renumber.Settings) (start : Nat) : Prop where
  sane : Renumber.Sane S.tables s start
  address : s.word ∈ numbering S.tables ∧ s.word ∈ decNames S.tables.metric S.ops ∧ s.word ∉ Spec.Words.operators
  name : s.word ≠ [] ∧ s.word.head? ≠ some ']' ∧ s.word ≠ c!"O" ∧ '#' ∉ s.word
  apart : ∀ v, (∀ c ∈ v, isDig c = true) → s.word ++ v ∉ assignNames S.tables.metric S.ops
  range : ∀ wg, (Pipe.tableOf S.tables S.units).find s.word = some wg →
    wg.rangeFrom ≤ start ∧ wg.rangeFrom ≤ Renumber.restart S.tables s ∧ (s.maxNumber : Int) ≤ wg.rangeTo
  small : s.maxNumber ≤ 2147483647

/-- The counter is a number the address may have. -/
structure Counts (S : Setup) (s : Renumber.Settings) (n : Nat) : Prop where
  high : n ≤ s.maxNumber
  low : ∀ wg, (Pipe.tableOf S.tables S.units).find s.word = some wg → wg.rangeFrom ≤ n

theorem counts_bump {S : Setup} {s : Renumber.Settings} {start n : Nat} (hf : Fit S s start) (h : Counts S s n) : Counts S s (Renumber.bump S.tables s n) := by
  have h1 : n + s.step < 2 ^ 32 := lt_of_le_of_lt (Nat.add_le_add_right h.high _) hf.sane.room
  unfold Renumber.bump
  dsimp only
  rw [Nat.mod_eq_of_lt h1]
  split
  · exact ⟨hf.sane.low, fun wg hw => (hf.range wg hw).2.1⟩
  · next h2 => exact ⟨by omega, fun wg hw => le_trans (h.low wg hw) (by omega)⟩

/-- What renumbering makes of a line: nothing, the line without its number, or the line with a new number. -/
inductive Renumbered (S : Setup) (s : Renumber.Settings) (b : Block) : Block → Prop
  | kept : Renumbered S s b b
  | bare : Renumbered S s b (unnumbered (numbering S.tables) b)
  | new {t n} : (∀ c ∈ t, isDig c = true) → t ≠ [] → readNat t = n → Counts S s n →
      Renumbered S s b (.dec { word := s.word, value := some t } :: unnumbered (numbering S.tables) b)

theorem counterText_ne (g : FanucGrammar) (s : Renumber.Settings) (n : Nat) : Renumber.counterText g s n ≠ [] := by
  intro h
  have := Renumber.counterText_length g s n
  rw [h] at this
  unfold Renumber.counterText at h
  split at h
  · simp only [padZeros] at h
    have := congrArg List.length h
    simp only [List.length_append, List.length_nil] at this
    have h2 : (natStr n).length = 0 := by omega
    exact absurd (List.eq_nil_of_length_eq_zero h2) (natStr_ne_nil n)
  · exact natStr_ne_nil n h

theorem renumber_step {S : Setup} {s : Renumber.Settings} {start : Nat} (hf : Fit S s start) {st : Renumber.St} (hc : Counts S s st.counter) {b : Block}
    (hp : ∀ d t, b = .dec d :: t → d.word ∈ numbering S.tables → ∃ v, d = { word := d.word, value := some v }) :
    Renumbered S s b (Renumber.renumber S.tables s st b).2 ∧ Counts S s (Renumber.renumber S.tables s st b).1.counter := by
  obtain ⟨ht, hn⟩ := Renumber.counterText_digits S.tables s st.counter
  have hne := counterText_ne S.tables s st.counter
  have ins : ∀ b : Block, unnumbered (numbering S.tables) b = b → Renumbered S s b (Renumber.insertNumber S.tables s st b).2 ∧
      Counts S s (Renumber.insertNumber S.tables s st b).1.counter := by
    intro b e
    unfold Renumber.insertNumber
    split
    · refine ⟨?_, counts_bump hf hc⟩
      have := Renumbered.new (S := S) (s := s) (b := b) ht hne hn hc
      rwa [e] at this
    · exact ⟨.kept, hc⟩
  rcases b with _ | ⟨d | ⟨w, v⟩ | ⟨w, v⟩, t⟩
  · exact ⟨.kept, hc⟩
  · simp only [Renumber.renumber]
    split
    · exact ⟨.kept, hc⟩
    split
    · next hw =>
      rw [isNumWord_iff, decide_eq_true_eq] at hw
      obtain ⟨v, hv⟩ := hp d t rfl hw
      have e : unnumbered (numbering S.tables) (.dec d :: t) = t := by simp [unnumbered, body, hw]
      unfold Renumber.replaceNumber
      split
      · refine ⟨?_, counts_bump hf hc⟩
        have := Renumbered.new (S := S) (s := s) (b := .dec d :: t) ht hne hn hc
        rw [e] at this
        rw [hv] at this ⊢
        exact this
      · refine ⟨?_, hc⟩
        have := Renumbered.bare (S := S) (s := s) (b := .dec d :: t)
        rw [e] at this
        exact this
    next hw =>
    rw [isNumWord_iff, decide_eq_true_eq] at hw
    split
    · exact ⟨.kept, hc⟩
    · exact ins _ (by simp [unnumbered, body, hw])
  · simp only [Renumber.renumber]
    split
    · exact ⟨.kept, hc⟩
    split
    · exact ⟨.kept, hc⟩
    · exact ins _ rfl
  · simp only [Renumber.renumber]
    split
    · exact ⟨.kept, hc⟩
    split
    · exact ⟨.kept, hc⟩
    · exact ins _ rfl

theorem makes_renumber (g : FanucGrammar) (s : Renumber.Settings) (bs : List Block) :
    ∀ st, Makes g (.renumber s) st bs (Renumber.renumberAll g s st bs).2 := by
  induction bs with
  | nil => intro st; exact .nil st
  | cons b bs ih => intro st; exact .cons rfl (ih _)

theorem renumbered_all {S : Setup} {s : Renumber.Settings} {start : Nat} (hf : Fit S s start) (bs : List Block) (hb : ∀ b ∈ bs, Headed (numbering S.tables) b) :
    ∀ st : Renumber.St, Counts S s st.counter → List.Forall₂ (Renumbered S s) bs (Renumber.renumberAll S.tables s st bs).2 := by
  induction bs with
  | nil => intro st _; exact .nil
  | cons b bs ih =>
    intro st hc
    obtain ⟨h1, h2⟩ := renumber_step hf hc (hb b (by simp)).plain
    exact .cons h1 (ih (fun x hx => hb x (by simp [hx])) _ h2)

theorem counts_start {S : Setup} {s : Renumber.Settings} {start : Nat} (hf : Fit S s start) : Counts S s start :=
  ⟨hf.sane.start, fun wg hw => (hf.range wg hw).1⟩

theorem declared_renumbered {S : Setup} {s : Renumber.Settings} {start : Nat} (hf : Fit S s start) {b b' : Block} (h : Renumbered S s b b')
    (hh : Headed (numbering S.tables) b) (hb : Declared (Pipe.tableOf S.tables S.units) S.tables.metric S.ops b) :
    Declared (Pipe.tableOf S.tables S.units) S.tables.metric S.ops b' := by
  have hu := declared_unnumbered hh.rest hb
  cases h with
  | kept => exact hb
  | bare => exact hu
  | @new t n ht hne hn hc =>
    have hs : readNat t ≤ 2147483647 := by rw [hn]; exact le_trans hc.high hf.small
    refine ⟨.more (.address hf.address.2.1 rfl ⟨.inl rfl, rfl, rfl, hf.address.2.2, ⟨hf.name.1, hf.name.2.1⟩, ?_⟩) hu.1, ?_⟩
    · refine .whole rfl rfl ⟨⟨hne, ht⟩, hs⟩ rfl rfl ?_
      intro wg hw
      have e : Spec.Words.number { word := s.word, value := some t } t = n := by simp [Spec.Words.number, hn]
      refine ⟨⟨hne, ht⟩, ?_, ?_, fun _ => ⟨rfl, rfl⟩, by nofun⟩
      · rw [e]; exact hc.low wg hw
      · rw [e]; exact le_trans (by exact_mod_cast hc.high) (hf.range wg hw).2.2
    · have hap : ∀ y, Apart (assignNames S.tables.metric S.ops) (.dec { word := s.word, value := some t }) y := by
        intro y
        refine ⟨fun h => absurd h hf.name.2.2.1, fun h => absurd h ?_⟩
        have e : Source.word (.dec { word := s.word, value := some t }) = s.word ++ t := by
          simp [Source.word, Source.value, Source.pieces, Attr.word]
        rw [e]
        exact hf.apart t ht
      have h2 := hu.2
      rcases he : unnumbered (numbering S.tables) b with _ | ⟨y, u⟩
      · exact .singleton _
      · rw [he] at h2
        exact .cons_cons (hap y) h2

theorem renumbered_alike {S : Setup} {s : Renumber.Settings} {start : Nat} (hf : Fit S s start) {b b' : Block} (h : Renumbered S s b b')
    (hh : Headed (numbering S.tables) b) : Alike (numbering S.tables) b b' := by
  cases h with
  | kept => exact alike_refl b
  | bare => exact unnumbered_alike hh
  | new => exact .right (.number hf.address.1 (by simp)) (unnumbered_alike hh)

theorem unnumbered_free {nums : List Str} {b : Block} (h : Headed nums b) : ∀ d, Attr.dec d ∈ unnumbered nums b → d.word ∉ nums := by
  intro d hd
  rcases unnumbered_cases nums b with ⟨e, h1⟩ | ⟨d', t, rfl, _, e⟩
  · rw [e] at hd
    rcases b with _ | ⟨a, t⟩
    · cases hd
    · rcases List.mem_cons.mp hd with rfl | hd
      · exact h1 d t rfl
      · exact h.first d hd
  · rw [e] at hd
    exact h.first d hd

/-- C93 for renumbering: every call returns the line as it is, without its number, or with a new number in front within
the range of its address; what is written of the words is read as these words, whatever was read before. -/
theorem C93_renumber (S : Setup) (hR : RegularTables (Pipe.tableOf S.tables S.units) S.tables.metric S.ops) (s : Renumber.Settings) (start : Nat)
    (hf : Fit S s start) (ps : PS) (ls : List (Int × Str)) (bs : List Block) (hr : ReadAs S ps ls bs)
    (hb : ∀ b ∈ bs, Declared (Pipe.tableOf S.tables S.units) S.tables.metric S.ops b ∧ Headed (numbering S.tables) b) :
    ∃ bs', (calls (gramOf S) S.tables (.renumber s) ⟨ps, ⟨start, 0⟩⟩ (ls.map Prod.snd)).2 = bs'.map (fun b => Call.ret b true none) ∧
      List.Forall₂ (Renumbered S s) bs bs' ∧
      ∀ b ∈ bs', ∀ hist, verdict (gramOf S) hist (Wrap.blockText b) = .ret b true none := by
  have hall := renumbered_all hf bs (fun b hm => (hb b hm).2) ⟨start, 0⟩ (counts_start hf)
  refine ⟨_, calls_read hr (makes_renumber S.tables s bs ⟨start, 0⟩), hall, fun b' hm hist => ?_⟩
  obtain ⟨b, hm1, h1⟩ := forall₂_right hall b' hm
  have := C86_line _ _ _ S.lang hR _ (declared_renumbered hf h1 (hb b hm1).2 (hb b hm1).1) hist [] (by simp)
  rwa [List.append_nil, ← blockText_eq] at this

theorem renumbered_run {S : Setup} {o : Options} (hU : Usual S o) {s : Renumber.Settings} {start : Nat} (hf : Fit S s start)
    {ls ls' : List (Int × Str)} {bs bs' : List Block} (hr : ReadAs S {} ls bs)
    (hb : ∀ b ∈ bs, Declared (Pipe.tableOf S.tables S.units) S.tables.metric S.ops b ∧ Headed (numbering S.tables) b ∧ Ordinary S.lathe S.limits b)
    (hs : ∀ x ∈ ls, '#' ∉ x.2) (hall : List.Forall₂ (Renumbered S s) bs bs') (hl : ls'.map Prod.snd = bs'.map Source.line) : SameRun S o ls ls' := by
  refine same_run hU hr hl ?_ ?_ hs ?_ (fun b hm => (hb b hm).2.2) ?_ (fun u b hm => once_first (hb b hm).2.1.first) ?_
  · intro b' hm
    obtain ⟨b, hm1, h1⟩ := forall₂_right hall b' hm
    exact declared_renumbered hf h1 (hb b hm1).2.1 (hb b hm1).1
  · have : ∀ {xs ys : List Block}, List.Forall₂ (Renumbered S s) xs ys → (∀ b ∈ xs, Headed (numbering S.tables) b) →
        List.Forall₂ (Alike (numbering S.tables)) xs ys := by
      intro xs ys h hh
      induction h with
      | nil => exact .nil
      | cons h _ ih => exact .cons (renumbered_alike hf h (hh _ (by simp))) (ih (fun b hm => hh b (by simp [hm])))
    exact this hall (fun b hm => (hb b hm).2.1)
  · intro b' hm a ha
    obtain ⟨b, hm1, h1⟩ := forall₂_right hall b' hm
    have old : ∀ a ∈ b, '#' ∉ Source.word a := readAs_no_hash hr hs b hm1
    cases h1 with
    | kept => exact old a ha
    | bare => exact old a ((unnumbered_sub _ b).subset ha)
    | @new t n ht _ _ _ =>
      rcases List.mem_cons.mp ha with rfl | ha
      · have e : Source.word (.dec { word := s.word, value := some t }) = s.word ++ t := by
          simp [Source.word, Source.value, Source.pieces, Attr.word]
        rw [e]
        intro hh
        rcases List.mem_append.mp hh with hh | hh
        · exact hf.name.2.2.2 hh
        · exact absurd (ht _ hh) (by decide)
      · exact old a ((unnumbered_sub _ b).subset ha)
  · intro b' hm
    obtain ⟨b, hm1, h1⟩ := forall₂_right hall b' hm
    have old := (hb b hm1).2.2
    have bare := ordinary_sub (unnumbered_sub (numbering S.tables) b) old
    cases h1 with
    | kept => exact old
    | bare => exact bare
    | @new t n ht _ hn hc =>
      constructor
      · intro d hd v hv
        simp only [decs, List.mem_cons] at hd
        rcases hd with rfl | hd
        · rcases hv with hv | hv
          · cases hv; rw [hn]; exact le_trans hc.high hf.small
          · cases hv
        · exact bare.small d hd v hv
      · intro d hd
        simp only [decs, List.mem_cons] at hd
        rcases hd with rfl | hd
        · exact Ver.clear_whole (by simp) rfl
        · exact bare.clear d hd
  · intro u b' hm
    obtain ⟨b, hm1, h1⟩ := forall₂_right hall b' hm
    have hh := (hb b hm1).2.1
    cases h1 with
    | kept => exact once_first hh.first
    | bare => exact once_sub (unnumbered_sub _ b) (once_first hh.first)
    | new => exact once_first (unnumbered_free hh)

/-- C93 for renumbering (partial: no `#`, ordinary numbers): the program written from what the calls return runs like
the program itself. -/
theorem C93_renumber_run_partial (S : Setup) (o : Options) (hU : Usual S o) (s : Renumber.Settings) (start : Nat) (hf : Fit S s start)
    (ls ls' : List (Int × Str)) (bs : List Block) (hr : ReadAs S {} ls bs)
    (hb : ∀ b ∈ bs, Declared (Pipe.tableOf S.tables S.units) S.tables.metric S.ops b ∧ Headed (numbering S.tables) b ∧ Ordinary S.lathe S.limits b)
    (hs : ∀ x ∈ ls, '#' ∉ x.2)
    (hl : ls'.map Prod.snd = texts (calls (gramOf S) S.tables (.renumber s) ⟨{}, ⟨start, 0⟩⟩ (ls.map Prod.snd)).2) : SameRun S o ls ls' := by
  have hall := renumbered_all hf bs (fun b hm => (hb b hm).2.1) ⟨start, 0⟩ (counts_start hf)
  rw [calls_read hr (makes_renumber S.tables s bs ⟨start, 0⟩), texts_ret] at hl
  exact renumbered_run hU hf hr hb hs hall hl

/-! ## Rotation -/

/-- The tables treat the coordinates of a point alike, and those of a centre: declared, with the same range, which is
symmetric; no address that is written with `=` begins like a coordinate or a code; the planes and arcs are codes. -/
structure Turnable (words table : WordMap) (ops : List Str) : Prop where
  declared : ∀ w ∈ Rotator.coordWords, w ∈ decNames table ops
  symmetric : ∀ w ∈ Rotator.coordWords, ∀ wg, words.find w = some wg → wg.rangeFrom = -wg.rangeTo
  points : ∀ w ∈ [c!"X", c!"Y", c!"Z"], ∀ w' ∈ [c!"X", c!"Y", c!"Z"], ∀ wg, words.find w = some wg →
    ∃ wg', words.find w' = some wg' ∧ wg'.rangeTo = wg.rangeTo ∧ wg'.decFrom = wg.decFrom ∧ wg'.decTo = wg.decTo
  centres : ∀ w ∈ [c!"I", c!"J", c!"K"], ∀ w' ∈ [c!"I", c!"J", c!"K"], ∀ wg, words.find w = some wg →
    ∃ wg', words.find w' = some wg' ∧ wg'.rangeTo = wg.rangeTo ∧ wg'.decFrom = wg.decFrom ∧ wg'.decTo = wg.decTo
  codes : ∀ wg, words.find c!"G" = some wg → 0 ≤ wg.rangeFrom ∧ wg.rangeFrom ≤ 2 ∧ 19 ≤ wg.rangeTo
  free : ∀ w ∈ c!"G" :: Rotator.coordWords, ∀ v, w ++ v ∉ assignNames table ops

/-- A coordinate becomes another of its kind, with the same or the opposite sign. -/
theorem visit_coord (o : Rotator.Opt) (d : Dec) (h : d.word ∈ Rotator.coordWords) :
    ∃ w s, Rotator.visitDec (Rotator.table o) d = { d with word := w, sign := s } ∧ (s = d.sign ∨ s = Rotator.flipSign d.sign) ∧
      ((d.word ∈ [c!"X", c!"Y", c!"Z"] ∧ w ∈ [c!"X", c!"Y", c!"Z"]) ∨ (d.word ∈ [c!"I", c!"J", c!"K"] ∧ w ∈ [c!"I", c!"J", c!"K"])) := by
  have key : ∀ o : Rotator.Opt, ∀ w ∈ Rotator.coordWords, ∃ e, (Rotator.table o).find? (fun e => e.1.1 == w) = some e ∧
      ((w ∈ [c!"X", c!"Y", c!"Z"] ∧ e.2.1 ∈ [c!"X", c!"Y", c!"Z"]) ∨ (w ∈ [c!"I", c!"J", c!"K"] ∧ e.2.1 ∈ [c!"I", c!"J", c!"K"])) := by
    intro o w hw
    have : ((Rotator.table o).find? (fun e => e.1.1 == w)).any (fun e => decide ((w ∈ [c!"X", c!"Y", c!"Z"] ∧ e.2.1 ∈ [c!"X", c!"Y", c!"Z"]) ∨ (w ∈ [c!"I", c!"J", c!"K"] ∧ e.2.1 ∈ [c!"I", c!"J", c!"K"]))) = true := by
      revert w
      cases o <;> decide
    rcases he : (Rotator.table o).find? (fun e => e.1.1 == w) with _ | e
    · rw [he] at this; cases this
    · rw [he] at this
      exact ⟨e, he, of_decide_eq_true this⟩
  obtain ⟨e, h1, h2⟩ := key o d.word h
  unfold Rotator.visitDec
  rw [if_pos h, h1]
  refine ⟨_, _, rfl, ?_, h2⟩
  split
  · exact .inr rfl
  · exact .inl rfl

/-- A code becomes one of the codes for planes and arcs, or stays. -/
theorem visit_code (o : Rotator.Opt) (d : Dec) (h : d.word = c!"G") :
    Rotator.visitDec (Rotator.table o) d = d ∨
      ∃ v v', d.value = some v ∧ v ∈ [c!"17", c!"18", c!"19", c!"2", c!"3"] ∧ v' ∈ [c!"17", c!"18", c!"19", c!"2", c!"3"] ∧
        Rotator.visitDec (Rotator.table o) d = { d with value := some v' } := by
  have key : ∀ o : Rotator.Opt, ∀ v ∈ [c!"17", c!"18", c!"19", c!"2", c!"3"],
      ((Rotator.table o).find? (fun e => e.1 == (c!"G", v))).all (fun e => decide (intStr e.2.2 ∈ [c!"17", c!"18", c!"19", c!"2", c!"3"])) = true := by
    intro o
    cases o <;> decide +kernel
  unfold Rotator.visitDec
  rw [if_neg (by rw [h]; decide), if_pos h]
  rcases hv : d.value with _ | v
  · exact .inl rfl
  dsimp only
  by_cases hm : v ∈ [c!"17", c!"18", c!"19", c!"2", c!"3"]
  · rw [if_pos hm]
    have := key o v hm
    rcases he : (Rotator.table o).find? (fun e => e.1 == (c!"G", v)) with _ | e
    · rw [he]; exact .inl rfl
    · rw [he] at this
      rw [he]
      exact .inr ⟨v, _, rfl, hm, of_decide_eq_true this, rfl⟩
  · rw [if_neg hm]
    exact .inl rfl

theorem visit_other (o : Rotator.Opt) (d : Dec) (h : d.word ∉ Rotator.coordWords) (hg : d.word ≠ c!"G") : Rotator.visitDec (Rotator.table o) d = d := by
  unfold Rotator.visitDec
  rw [if_neg h, if_neg hg]

theorem signed_flip {d : Dec} {s : Option Char} (h : Spec.Proper.Signed d) (hs : s = d.sign ∨ s = Rotator.flipSign d.sign) :
    (s = none ∨ s = some '+' ∨ s = some '-') ∧ ∀ (w : Str) (v : Str), Spec.Words.number { d with word := w, sign := s } v = Spec.Words.number d v ∨
      Spec.Words.number { d with word := w, sign := s } v = -Spec.Words.number d v := by
  rcases hs with rfl | rfl
  · exact ⟨h, fun _ _ => .inl rfl⟩
  · unfold Rotator.flipSign Spec.Words.number
    rcases h with h | h | h <;> simp [h]

theorem value_rotated {words table : WordMap} {ops : List Str} (hT : Turnable words table ops) (o : Rotator.Opt) {d : Dec}
    (hm : d.word = c!"G" → d.mac = none) (h : Spec.Proper.Value words d) : Spec.Proper.Value words (Rotator.visitDec (Rotator.table o) d) := by
  by_cases hc : d.word ∈ Rotator.coordWords
  · obtain ⟨w, s, e, hs, hk⟩ := visit_coord o d hc
    obtain ⟨hsg, hnum⟩ := signed_flip h.sign hs
    have hw : w ∈ Rotator.coordWords := by
      have : ∀ w, w ∈ [c!"X", c!"Y", c!"Z"] ∨ w ∈ [c!"I", c!"J", c!"K"] → w ∈ Rotator.coordWords := by
        intro w hw; simp only [Rotator.coordWords, List.mem_cons, List.not_mem_nil, or_false] at hw ⊢; tauto
      rcases hk with hk | hk
      · exact this w (.inl hk.2)
      · exact this w (.inr hk.2)
    have back : ∀ wg', words.find w = some wg' → ∃ wg, words.find d.word = some wg ∧ wg.rangeTo = wg'.rangeTo ∧ wg.decFrom = wg'.decFrom ∧ wg.decTo = wg'.decTo ∧
        wg'.rangeFrom = -wg'.rangeTo ∧ wg.rangeFrom = -wg.rangeTo := by
      intro wg' hf
      rcases hk with hk | hk
      · obtain ⟨wg, h1, h2, h3, h4⟩ := hT.points w hk.2 d.word hk.1 wg' hf
        exact ⟨wg, h1, h2, h3, h4, hT.symmetric w hw wg' hf, hT.symmetric _ hc wg h1⟩
      · obtain ⟨wg, h1, h2, h3, h4⟩ := hT.centres w hk.2 d.word hk.1 wg' hf
        exact ⟨wg, h1, h2, h3, h4, hT.symmetric w hw wg' hf, hT.symmetric _ hc wg h1⟩
    have within : ∀ v, (∀ wg, words.find d.word = some wg → Spec.Words.Within wg d v) →
        ∀ wg', words.find w = some wg' → Spec.Words.Within wg' { d with word := w, sign := s } v := by
      intro v hv wg' hf
      obtain ⟨wg, h1, h2, h3, h4, h5, h6⟩ := back wg' hf
      have k := hv wg h1
      refine ⟨k.digits, ?_, ?_, fun hz => k.whole (h4.trans hz), fun f hf => ?_⟩
      · rcases hnum w v with e | e <;> rw [e] <;> have := k.low <;> have := k.high <;> omega
      · rcases hnum w v with e | e <;> rw [e] <;> have := k.low <;> have := k.high <;> omega
      · obtain ⟨f1, f2, f3, f4⟩ := k.fraction f hf
        exact ⟨f1, f2, by rw [← h3]; exact f3, by rw [← h4]; exact f4⟩
    rw [e]
    have hop : ∀ w ∈ Rotator.coordWords, w ∉ Spec.Words.operators ∧ w ≠ [] ∧ w.head? ≠ some ']' := by decide
    replace hop := hop w hw
    refine ⟨hsg, h.openB, h.closeB, hop.1, hop.2, ?_⟩
    cases h.number with
    | whole h1 h2 h3 h4 h5 h6 => exact .whole h1 h2 h3 h4 h5 (within _ h6)
    | point h1 h2 h3 h4 h5 h6 => exact .point h1 h2 h3 h4 h5 (within _ h6)
    | fraction h1 h2 h3 h4 h5 h6 =>
      refine .fraction h1 h2 h3 h4 h5 ?_
      intro wg' hf
      obtain ⟨wg, k1, k2, k3, k4, _, _⟩ := back wg' hf
      obtain ⟨k7, f1, f2, f3, f4⟩ := h6 wg k1
      exact ⟨by rw [← k4]; exact k7, f1, f2, by rw [← k3]; exact f3, by rw [← k4]; exact f4⟩
    | macro_ h1 h2 h3 h4 h5 h6 => exact .macro_ h1 h2 h3 h4 h5 h6
  by_cases hg : d.word = c!"G"
  · rcases visit_code o d hg with e | ⟨v, v', hv, hmem, hmem', e⟩
    · rw [e]; exact h
    rw [e]
    have dig : Spec.Proper.Short v' ∧ 2 ≤ readNat v' ∧ readNat v' ≤ 19 := by
      have : ∀ v' ∈ [c!"17", c!"18", c!"19", c!"2", c!"3"], (v' ≠ [] ∧ ∀ c ∈ v', isDig c = true) ∧ readNat v' ≤ 2147483647 ∧ 2 ≤ readNat v' ∧ readNat v' ≤ 19 := by decide
      obtain ⟨k1, k2, k3, k4⟩ := this v' hmem'
      exact ⟨⟨k1, k2⟩, k3, k4⟩
    have pos : 2 ≤ readNat v := by
      have : ∀ v ∈ [c!"17", c!"18", c!"19", c!"2", c!"3"], 2 ≤ readNat v := by decide
      exact this v hmem
    have within : (∀ wg, words.find d.word = some wg → Spec.Words.Within wg d v) → ∀ wg, words.find d.word = some wg → Spec.Words.Within wg { d with value := some v' } v' := by
      intro hw wg hf
      have k := hw wg hf
      obtain ⟨g1, g2, g3⟩ := hT.codes wg (hg ▸ hf)
      have kl := k.low
      have sg : d.sign ≠ some '-' := by
        intro hs
        simp only [Spec.Words.number, hs, if_true] at kl
        omega
      have e : Spec.Words.number { d with value := some v' } v' = readNat v' := by simp [Spec.Words.number, sg]
      refine ⟨dig.1.1, ?_, ?_, k.whole, k.fraction⟩
      · rw [e]; omega
      · rw [e]; omega
    refine ⟨h.sign, h.openB, h.closeB, h.op, h.name, ?_⟩
    cases h.number with
    | whole h1 h2 h3 h4 h5 h6 =>
      rw [hv] at h2
      cases h2
      exact .whole h1 rfl dig.1 h4 h5 (within h6)
    | point h1 h2 h3 h4 h5 h6 =>
      rw [hv] at h2
      cases h2
      exact .point h1 rfl dig.1 h4 h5 (within h6)
    | fraction h1 h2 h3 h4 h5 h6 => rw [hv] at h2; cases h2
    | macro_ h1 => rw [hm hg] at h1; cases h1
  · rw [visit_other o d hc hg]; exact h

theorem visit_word_first {words table : WordMap} {ops : List Str} (hT : Turnable words table ops) (o : Rotator.Opt) (d : Dec) :
    Rotator.visitDec (Rotator.table o) d = d ∨
      ((∃ c t, Source.word (.dec (Rotator.visitDec (Rotator.table o) d)) = c :: t ∧ Tables.letter c = true ∧ c ≠ '=') ∧
        (∃ c t, Source.word (.dec d) = c :: t ∧ Tables.letter c = true) ∧
        (Rotator.visitDec (Rotator.table o) d).word ≠ c!"O" ∧ Source.word (.dec (Rotator.visitDec (Rotator.table o) d)) ∉ assignNames table ops) := by
  have first : ∀ w ∈ c!"G" :: Rotator.coordWords, ∃ c t, w = c :: t ∧ Tables.letter c = true ∧ c ≠ '=' ∧ w ≠ c!"O" := by
    intro w hw
    have key : ∀ w ∈ c!"G" :: Rotator.coordWords, w.head?.any (fun c => Tables.letter c && decide (c ≠ '=')) = true ∧ w ≠ c!"O" := by decide
    obtain ⟨h1, h2⟩ := key w hw
    rcases w with _ | ⟨c, t⟩
    · cases h1
    · simp only [List.head?_cons, Option.any_some, Bool.and_eq_true, decide_eq_true_eq] at h1
      exact ⟨c, t, rfl, h1.1, h1.2, h2⟩
  have src : ∀ x : Dec, Source.word (.dec x) = x.word ++ Source.value (.dec x) := fun _ => rfl
  have fin : ∀ x : Dec, x.word ∈ c!"G" :: Rotator.coordWords → d.word ∈ c!"G" :: Rotator.coordWords →
      (∃ c t, Source.word (.dec x) = c :: t ∧ Tables.letter c = true ∧ c ≠ '=') ∧ (∃ c t, Source.word (.dec d) = c :: t ∧ Tables.letter c = true) ∧
        x.word ≠ c!"O" ∧ Source.word (.dec x) ∉ assignNames table ops := by
    intro x hx hd
    obtain ⟨c, t, e, h1, h2, h3⟩ := first _ hx
    obtain ⟨c', t', e', h1', _, _⟩ := first _ hd
    refine ⟨⟨c, t ++ Source.value (.dec x), by rw [src, e]; rfl, h1, h2⟩, ⟨c', t' ++ Source.value (.dec d), by rw [src, e']; rfl, h1'⟩, h3, ?_⟩
    rw [src]
    exact hT.free _ hx _
  by_cases hc : d.word ∈ Rotator.coordWords
  · obtain ⟨w, s, e, _, hk⟩ := visit_coord o d hc
    right
    refine fin _ ?_ (List.mem_cons_of_mem _ hc)
    rw [e]
    simp only [Rotator.coordWords, List.mem_cons, List.not_mem_nil, or_false] at hk ⊢
    tauto
  by_cases hg : d.word = c!"G"
  · rcases visit_code o d hg with e | ⟨v, v', _, _, _, e⟩
    · exact .inl e
    · right
      refine fin _ ?_ (by rw [hg]; exact List.mem_cons_self)
      rw [e]
      show d.word ∈ _
      rw [hg]
      exact List.mem_cons_self
  · exact .inl (visit_other o d hc hg)

theorem apart_rotated {words table : WordMap} {ops : List Str} (hT : Turnable words table ops) (o : Rotator.Opt) {a b : Attr}
    (h : Apart (assignNames table ops) a b) : Apart (assignNames table ops) (Rotator.visit (Rotator.table o) a) (Rotator.visit (Rotator.table o) b) := by
  -- the second word
  have hb : ∀ a, Apart (assignNames table ops) a b → Apart (assignNames table ops) a (Rotator.visit (Rotator.table o) b) := by
    intro a h
    cases b with
    | str => exact h
    | chr => exact h
    | dec d =>
      show Apart _ a (.dec (Rotator.visitDec (Rotator.table o) d))
      rcases visit_word_first hT o d with e | ⟨⟨c, t, e, h1, h2⟩, ⟨c', t', e', h1'⟩, _, _⟩
      · rw [e]; exact h
      · refine ⟨fun ho => ?_, fun _ => ?_⟩
        · have := h.1 ho
          rw [e'] at this
          simp [h1'] at this
        · rw [e]; simpa using h2
  refine hb _ ?_
  cases a with
  | str => exact h
  | chr => exact h
  | dec d =>
    show Apart _ (.dec (Rotator.visitDec (Rotator.table o) d)) b
    rcases visit_word_first hT o d with e | ⟨_, _, h1, h2⟩
    · rw [e]; exact h
    · exact ⟨fun ho => absurd ho h1, fun ho => absurd ho h2⟩

theorem declared_rotated {words table : WordMap} {ops : List Str} (hT : Turnable words table ops) (o : Rotator.Opt) {b : Block}
    (hb : Declared words table ops b) (hm : ∀ d, Attr.dec d ∈ b → d.word = c!"G" ∨ d.word ∈ Rotator.coordWords → d.assign = none)
    (hg : ∀ d, Attr.dec d ∈ b → d.word = c!"G" → d.mac = none) :
    Declared words table ops (Rotator.rotate o b) := by
  have word : ∀ {a : Attr}, (∀ d, a = .dec d → d.word = c!"G" → d.mac = none) →
      (∀ d, a = .dec d → d.word = c!"G" ∨ d.word ∈ Rotator.coordWords → d.assign = none) →
      Spec.Proper.Word words (decNames table ops) (assignNames table ops) a →
      Spec.Proper.Word words (decNames table ops) (assignNames table ops) (Rotator.visit (Rotator.table o) a) := by
    intro a h1 h2 ha
    cases ha with
    | @address d hd has hv =>
      have hv' := value_rotated hT o (h1 d rfl) hv
      show Spec.Proper.Word _ _ _ (.dec (Rotator.visitDec (Rotator.table o) d))
      by_cases hc : d.word ∈ Rotator.coordWords
      · obtain ⟨w, s, e, _, hk⟩ := visit_coord o d hc
        rw [e] at hv' ⊢
        refine .address ?_ has hv'
        refine hT.declared w ?_
        simp only [Rotator.coordWords, List.mem_cons, List.not_mem_nil, or_false] at hk ⊢
        tauto
      by_cases hg : d.word = c!"G"
      · rcases visit_code o d hg with e | ⟨_, _, _, _, _, e⟩
        · rw [e]; exact .address hd has hv
        · rw [e] at hv' ⊢; exact .address hd has hv'
      · rw [visit_other o d hc hg]; exact .address hd has hv
    | @assignment d hd has hv =>
      show Spec.Proper.Word _ _ _ (.dec (Rotator.visitDec (Rotator.table o) d))
      have hn : ¬ (d.word = c!"G" ∨ d.word ∈ Rotator.coordWords) := fun h => by have := h2 d rfl h; rw [has] at this; cases this
      rw [visit_other o d (fun h => hn (.inr h)) (fun h => hn (.inl h))]
      exact .assignment hd has hv
    | comment h => exact .comment h
    | program k1 k2 k3 => exact .program k1 k2 k3
  obtain ⟨hl, hch⟩ := hb
  refine ⟨?_, ?_⟩
  · clear hch
    unfold Rotator.rotate
    induction hl with
    | one h => exact .one (word (fun d e => hg d (by simp [e])) (fun d e => hm d (by simp [e])) h)
    | percent => exact .percent
    | more h _ ih =>
      exact .more (word (fun d e => hg d (by simp [e])) (fun d e => hm d (by simp [e])) h) (ih (fun d hd => hm d (by simp [hd])) (fun d hd => hg d (by simp [hd])))
  · unfold Rotator.rotate
    rw [List.isChain_map]
    exact hch.imp (fun _ _ h => apart_rotated hT o h)

theorem makes_rotate (g : FanucGrammar) (o : Rotator.Opt) (bs : List Block) : ∀ st, Makes g (.rotate o) st bs (bs.map (Rotator.rotate o)) := by
  induction bs with
  | nil => intro st; exact .nil st
  | cons b bs ih => intro st; exact .cons rfl (ih st)

/-- C93 for rotations: every call returns the rotated words (C18, C19); what is written of them is read as these
words, whatever was read before. -/
theorem C93_rotate (S : Setup) (hR : RegularTables (Pipe.tableOf S.tables S.units) S.tables.metric S.ops)
    (hT : Turnable (Pipe.tableOf S.tables S.units) S.tables.metric S.ops) (opt : Rotator.Opt) (o : Obj) (ls : List (Int × Str))
    (bs : List Block) (hr : ReadAs S o.gram ls bs) (hb : ∀ b ∈ bs, Declared (Pipe.tableOf S.tables S.units) S.tables.metric S.ops b)
    (hg : ∀ b ∈ bs, ∀ d, Attr.dec d ∈ b → d.word = c!"G" → d.mac = none)
    (hm : ∀ b ∈ bs, ∀ d, Attr.dec d ∈ b → d.word = c!"G" ∨ d.word ∈ Rotator.coordWords → d.assign = none) :
    (calls (gramOf S) S.tables (.rotate opt) o (ls.map Prod.snd)).2 = bs.map (fun b => Call.ret (Rotator.rotate opt b) true none) ∧
    ∀ b ∈ bs, ∀ hist, verdict (gramOf S) hist (Wrap.blockText (Rotator.rotate opt b)) = .ret (Rotator.rotate opt b) true none := by
  refine ⟨?_, fun b h hist => ?_⟩
  · have := calls_read hr (makes_rotate S.tables opt bs o.num)
    rwa [List.map_map] at this
  · have := C86_line _ _ _ S.lang hR _ (declared_rotated hT opt (hb b h) (hm b h) (hg b h)) hist [] (by simp)
    rwa [List.append_nil, ← blockText_eq] at this

/-! ## Where it fails -/

/-- The words returned by a call for an accepted line, as they are written. -/
def rewritten (c : Call) : Option Str :=
  match c with
  | .ret b true _ => some (Wrap.blockText b)
  | _ => none

/-- C93 is violated without the condition on neighbours: after a program name, what follows the comment is lost;
`A2 (c) =5` becomes an assignment, one word where there were two. -/
theorem C93_violated_uncomment :
    rewritten (call (gramOf demo) demo.tables .uncomment {} c!"O1 (c) X1").2 = some c!"O1 X1" ∧ rewritten (verdict (gramOf demo) [] c!"O1 X1") = none ∧
    rewritten (call (gramOf demo) demo.tables .uncomment {} c!"A2 (c) = 5").2 = some c!"A2 =5" ∧ accepted mill c!"A2 =5" = some [.dec { word := c!"A2", assign := some '=', value := some c!"5" }] := by
  refine ⟨?_, ?_, ?_, ?_⟩ <;> decide +kernel

/-- C93 is violated when a number stands elsewhere: the line gets a second one, which no one removes. -/
theorem C93_violated_second_number :
    rewritten (call (gramOf demo) demo.tables (.renumber ⟨c!"N", 10, 0, 9999, false, false⟩) {} c!"X1 N5").2 = some c!"N1 X1 N5" := by
  decide +kernel

/-- C93 is violated by codes given by variables: a rotation changes the variable `#17` as if it were the plane; and it
does not know an arc with a leading zero. -/
theorem C93_violated_rotate :
    rewritten (call (gramOf demo) demo.tables (.rotate .x90) {} c!"G#17 X1").2 = some c!"G#18 X1" ∧
    rewritten (call (gramOf demo) demo.tables (.rotate .x180) {} c!"G2 X1 Y2").2 = some c!"G3 X1 Y-2" ∧
    rewritten (call (gramOf demo) demo.tables (.rotate .x180) {} c!"G02 X1 Y2").2 = some c!"G02 X1 Y-2" := by
  refine ⟨?_, ?_, ?_⟩ <;> decide +kernel

/-- C93 is violated by conversions: an accepted length can become one that the tables of the new units reject. -/
theorem C93_violated_convert :
    rewritten (call (gramOf { demo with units := .imperial }) demo.tables (.convert .imperialToMetric) {} c!"X9999").2 = some c!"X253974.6" ∧
    rewritten (verdict (gramOf demo) [] c!"X253974.6") = none := by
  constructor <;> decide +kernel

/-! ## Examples -/

theorem demo_usual : Usual demo serverOptions where
  lang := ⟨.English, rfl⟩
  macros := rfl
  gs := by unfold SetOfGroups; decide
  ms := by unfold SetOfGroups; decide
  regular := mill_regular.1
  free := by
    have : ∀ w ∈ numbering demo.tables, w ∉ meaningful demo.cfg.axes := by decide +kernel
    exact this
  pallet := by decide
  measure := by decide

theorem assigns_mill : assignNames demo.tables.metric demo.ops = [c!"A2", c!"B2", c!"C2", c!"S1", c!"S2", c!"S3"] := by decide +kernel

theorem demo_fit : Fit demo ⟨c!"N", 10, 0, 9999, false, false⟩ 10 where
  sane := ⟨by decide, by decide, by decide +kernel, by decide, by decide⟩
  address := by decide +kernel
  name := by decide
  apart := by
    intro v _
    rw [assigns_mill]
    simp
  range := by
    intro wg h
    have e : (Pipe.tableOf demo.tables demo.units).find c!"N" = some ⟨c!"N", 1, 99999, 0, 0, false, .numbering⟩ := by decide +kernel
    rw [show (⟨c!"N", 10, 0, 9999, false, false⟩ : Renumber.Settings).word = c!"N" from rfl, e] at h
    cases h
    decide +kernel
  small := by decide

theorem demo_turnable : Turnable (Pipe.tableOf demo.tables demo.units) demo.tables.metric demo.ops where
  declared := by decide +kernel
  symmetric := by
    have : ∀ w ∈ Rotator.coordWords, ((Pipe.tableOf demo.tables demo.units).find w).all (fun wg => decide (wg.rangeFrom = -wg.rangeTo)) = true := by decide +kernel
    intro w hw wg h
    have := this w hw
    rw [h] at this
    exact of_decide_eq_true this
  points := by
    have : ∀ w ∈ [c!"X", c!"Y", c!"Z"], (Pipe.tableOf demo.tables demo.units).find w = some ⟨w, -99999, 99999, 0, 9999, true, .length⟩ := by decide +kernel
    intro w hw w' hw' wg h
    rw [this w hw] at h
    cases h
    exact ⟨_, this w' hw', rfl, rfl, rfl⟩
  centres := by
    have : ∀ w ∈ [c!"I", c!"J", c!"K"], (Pipe.tableOf demo.tables demo.units).find w = some ⟨w, -99999, 99999, 0, 99999999, true, .length⟩ := by decide +kernel
    intro w hw w' hw' wg h
    rw [this w hw] at h
    cases h
    exact ⟨_, this w' hw', rfl, rfl, rfl⟩
  codes := by
    have : (Pipe.tableOf demo.tables demo.units).find c!"G" = some ⟨c!"G", 0, 999, 0, 9, false, .code⟩ := by decide +kernel
    intro wg h
    rw [this] at h
    cases h
    decide
  free := by
    intro w hw v
    rw [assigns_mill]
    simp only [Rotator.coordWords, List.mem_cons, List.not_mem_nil, or_false] at hw
    rcases hw with rfl | rfl | rfl | rfl | rfl | rfl | rfl <;> simp

/-- The words of a numbered line. -/
theorem numbered_declared : ∀ b ∈ numberedWords, Declared (Pipe.tableOf demo.tables demo.units) demo.tables.metric demo.ops b ∧
    b.Pairwise (Apart (assignNames demo.tables.metric demo.ops)) := by
  have key : ∀ (w v : Str), Spec.Proper.Numbered (Pipe.tableOf demo.tables demo.units) { word := w, value := some v } → w ≠ [] ∧ w.head? ≠ some ']' ∧
      w ∉ Spec.Words.operators ∧ w ∈ decNames demo.tables.metric demo.ops →
      Spec.Proper.Word (Pipe.tableOf demo.tables demo.units) (decNames demo.tables.metric demo.ops) (assignNames demo.tables.metric demo.ops)
        (.dec { word := w, value := some v }) :=
    fun w v h1 ⟨h2, h3, h4, h5⟩ => .address h5 rfl ⟨.inl rfl, rfl, rfl, h4, ⟨h2, h3⟩, h1⟩
  have num : ∀ (w v : Str), _ → Spec.Proper.Numbered (Pipe.tableOf demo.tables demo.units) { word := w, value := some v } := fun w v h => whole_of v h
  have ap : ∀ b : Block, (∀ a ∈ b, a.word ≠ c!"O" ∧ Source.word a ∉ [c!"A2", c!"B2", c!"C2", c!"S1", c!"S2", c!"S3"]) →
      b.Pairwise (Apart (assignNames demo.tables.metric demo.ops)) := by
    intro b h
    rw [assigns_mill]
    induction b with
    | nil => exact .nil
    | cons x b ih =>
      exact .cons (fun y _ => ⟨fun e => absurd e (h x (by simp)).1, fun e => absurd e (h x (by simp)).2⟩) (ih (fun a ha => h a (by simp [ha])))
  have fin : ∀ b ∈ numberedWords, b.Pairwise (Apart (assignNames demo.tables.metric demo.ops)) := by
    intro b hb
    refine ap b ?_
    revert b
    decide
  intro b hb
  refine ⟨⟨?_, (fin b hb).isChain⟩, fin b hb⟩
  clear fin ap
  simp only [numberedWords, List.mem_cons, List.not_mem_nil, or_false] at hb
  rcases hb with rfl | rfl | rfl
  · exact .more (key _ _ (num _ _ (by decide +kernel)) (by decide +kernel)) (.more (key _ _ (num _ _ (by decide +kernel)) (by decide +kernel))
      (.more (.comment (by decide)) (.one (key _ _ (num _ _ (by decide +kernel)) (by decide +kernel)))))
  · exact .more (key _ _ (num _ _ (by decide +kernel)) (by decide +kernel)) (.more (key _ _ (num _ _ (by decide +kernel)) (by decide +kernel))
      (.more (key _ _ (num _ _ (by decide +kernel)) (by decide +kernel)) (.one (.comment (by decide)))))
  · exact .more (key _ _ (num _ _ (by decide +kernel)) (by decide +kernel)) (.one (key _ _ (num _ _ (by decide +kernel)) (by decide +kernel)))

theorem demo_headed : ∀ b ∈ numberedWords, Headed (numbering demo.tables) b := by
  have e : numbering demo.tables = [c!":", c!"N"] := by decide +kernel
  rw [e]
  intro b hb
  simp only [numberedWords, List.mem_cons, List.not_mem_nil, or_false] at hb
  rcases hb with rfl | rfl | rfl
  · refine ⟨?_, ?_, by decide⟩
    · intro d hd; simp only [List.tail_cons, List.mem_cons, Attr.dec.injEq, List.not_mem_nil, or_false] at hd
      rcases hd with rfl | hd | rfl
      · decide
      · cases hd
      · decide
    · intro d t h _; cases h; exact ⟨_, rfl⟩
  · refine ⟨?_, ?_, by decide⟩
    · intro d hd; simp only [List.tail_cons, List.mem_cons, Attr.dec.injEq, List.not_mem_nil, or_false] at hd
      rcases hd with rfl | rfl | hd
      · decide
      · decide
      · cases hd
    · intro d t h _; cases h; exact ⟨_, rfl⟩
  · refine ⟨?_, ?_, by decide⟩
    · intro d hd; simp only [List.tail_cons, List.mem_cons, Attr.dec.injEq, List.not_mem_nil, or_false] at hd
      subst hd
      decide
    · intro d t h _; cases h; exact ⟨_, rfl⟩

/-- The hypotheses of the theorems about removal, renumbering and rotation are met by a program with numbers and
comments, which runs; so do the programs written from what the calls return. -/
example : Usual demo serverOptions ∧ Fit demo ⟨c!"N", 10, 0, 9999, false, false⟩ 10 ∧
    Turnable (Pipe.tableOf demo.tables demo.units) demo.tables.metric demo.ops ∧
    ReadAs demo {} (lines [c!"N10 S500 (G2) M3", c!"G1 X5 F100 (cut)", c!"N20 G20"]) numberedWords ∧
    (∀ b ∈ numberedWords, Loose (Pipe.tableOf demo.tables demo.units) demo.tables.metric demo.ops b ∧
      Declared (Pipe.tableOf demo.tables demo.units) demo.tables.metric demo.ops b ∧ Headed (numbering demo.tables) b ∧ Ordinary demo.lathe demo.limits b) ∧
    texts (calls (gramOf demo) demo.tables .uncomment {} [c!"N10 S500 (G2) M3", c!"G1 X5 F100 (cut)", c!"N20 G20"]).2 =
      [c!"N10 S500 M3", c!"G1 X5 F100", c!"N20 G20"] ∧
    texts (calls (gramOf demo) demo.tables .unnumber {} [c!"N10 S500 (G2) M3", c!"G1 X5 F100 (cut)", c!"N20 G20"]).2 =
      [c!"S500 (G2) M3", c!"G1 X5 F100 (cut)", c!"G20"] ∧
    texts (calls (gramOf demo) demo.tables (.renumber ⟨c!"N", 10, 0, 9999, false, false⟩) ⟨{}, ⟨10, 0⟩⟩ [c!"N10 S500 (G2) M3", c!"G1 X5 F100 (cut)", c!"N20 G20"]).2 =
      [c!"N10 S500 (G2) M3", c!"N20 G1 X5 F100 (cut)", c!"N30 G20"] ∧
    texts (calls (gramOf demo) demo.tables (.rotate .z90) {} [c!"G1 X5 Y-2 Z.5"]).2 = [c!"G1 Y-5 X-2 Z.5"] := by
  refine ⟨demo_usual, demo_fit, demo_turnable,
    .cons (Prod.ext rfl (by decide +kernel)) (.cons (Prod.ext rfl (by decide +kernel)) (.cons (Prod.ext rfl (by decide +kernel)) (.nil _))), ?_,
    by decide +kernel, by decide +kernel, by decide +kernel, by decide +kernel⟩
  intro b hb
  refine ⟨⟨(numbered_declared b hb).1.1, (numbered_declared b hb).2, ?_⟩, (numbered_declared b hb).1, demo_headed b hb, ?_⟩
  · revert b; decide
  · refine ordinary_of ?_; revert b; decide

end NC.Props
