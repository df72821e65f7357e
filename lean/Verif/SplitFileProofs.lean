import Verif.SplitFile
import Verif.Spec.SplitFile
import Verif.Props.Transform
import Verif.Props.Splitter

/-! # Reading, measuring and numbering the lines of a file that is split -/

namespace NC.SplitFile
open NC NC.Message NC.Gram NC.Pipe NC.Props NC.Spec.Rewrite NC.Spec.SplitFile NC.Spec.Split

theorem blank_iff {l : Str} : blank l = true ↔ Blank l := by
  simp [blank, white, Blank]

theorem put_done {α : Type} {a : α} {s : Step (List α)} {as : List α} {m : Option Str} (h : s.put a = .done as m) :
    ∃ t, as = a :: t ∧ s = .done t m := by
  cases s with
  | done t m' => simp only [Step.put, Step.done.injEq] at h; exact ⟨t, h.1.symm, by rw [h.2]⟩
  | refused m' => cases h
  | thrown e => cases h
  | ub => cases h

/-- How the lines of a file are read one after the other. -/
inductive Reading (S : Setup) : PS → List Str → List Block → PS → Prop
  | nil (g) : Reading S g [] [] g
  | blank {g l t bs g'} : Blank l → Reading S g t bs g' → Reading S g (l :: t) ([] :: bs) g'
  | line {g g' g'' l b t bs} : ¬ Blank l → phrase (gramOf S) { g with msg := [] } l = (g', .accept b) → Reading S g' t bs g'' →
      Reading S g (l :: t) (b :: bs) g''

theorem simple_true {G : Gram} {ps q : PS} {l : Str} {b : Block} {m : Option Str} (h : simpleParse G ps l = (q, .ret b true m)) :
    phrase G { ps with msg := [] } l = (q, .accept b) ∧ m = none := by
  unfold simpleParse at h
  split at h
  · next hp => simp only [Prod.mk.injEq, Call.ret.injEq] at h; obtain ⟨rfl, rfl, _, rfl⟩ := h; exact ⟨hp, rfl⟩
  all_goals simp at h

theorem readLines_iff {S : Setup} {data : List Str} : ∀ {ps q : PS} {bs : List Block} {m m' : Option Str},
    readLines (gramOf S) ps m data = (q, .done bs m') ↔ Reading S ps data bs q ∧ m' = m := by
  induction data with
  | nil =>
    intro ps q bs m m'
    simp only [readLines, Prod.mk.injEq, Step.done.injEq]
    constructor
    · rintro ⟨rfl, rfl, rfl⟩; exact ⟨.nil _, rfl⟩
    · rintro ⟨h, rfl⟩; cases h; exact ⟨rfl, rfl, rfl⟩
  | cons l t ih =>
    intro ps q bs m m'
    unfold readLines
    by_cases hb : blank l = true
    · rw [if_pos hb]
      constructor
      · intro h
        simp only [Prod.mk.injEq] at h
        obtain ⟨bs', rfl, h2⟩ := put_done h.2
        obtain ⟨h3, h4⟩ := ih.mp (Prod.ext h.1 h2)
        exact ⟨.blank (blank_iff.mp hb) h3, h4⟩
      · rintro ⟨h, rfl⟩
        cases h with
        | blank _ h => rw [(ih (m := m')).mpr ⟨h, rfl⟩]; rfl
        | line h => exact absurd (blank_iff.mp hb) h
    · rw [if_neg hb]
      have hb' : ¬ Blank l := fun h => hb (blank_iff.mpr h)
      constructor
      · intro h
        split at h
        · simp at h
        · next q' b m1 hs =>
          obtain ⟨hp, rfl⟩ := simple_true hs
          simp only [Prod.mk.injEq] at h
          obtain ⟨bs', rfl, h2⟩ := put_done h.2
          obtain ⟨h3, h4⟩ := ih.mp (Prod.ext h.1 h2)
          exact ⟨.line hb' hp h3, h4⟩
        · simp at h
      · rintro ⟨h, rfl⟩
        cases h with
        | blank h => exact absurd h hb'
        | line _ hp h =>
          rw [simpleParse_accept hp]
          dsimp only [said]
          rw [(ih (m := m')).mpr ⟨h, rfl⟩]
          rfl

theorem reading_readAs {S : Setup} {g g' : PS} {data : List Str} {bs : List Block} (h : Reading S g data bs g') (hn : ∀ l ∈ data, ¬ Blank l) :
    ∀ x, ReadAs S g (counted x data) bs := by
  induction h with
  | nil => intro x; exact .nil _
  | blank hb => exact absurd hb (hn _ (by simp))
  | line _ hp _ ih => intro x; exact .cons hp (ih (fun l hl => hn l (by simp [hl])) _)

theorem readAs_reading {S : Setup} {data : List Str} : ∀ {g : PS} {bs : List Block} {x : Int}, ReadAs S g (counted x data) bs → (∀ l ∈ data, ¬ Blank l) →
    ∃ g', Reading S g data bs g' := by
  induction data with
  | nil => intro g bs x h _; cases h; exact ⟨_, .nil _⟩
  | cons l t ih =>
    intro g bs x h hn
    cases h with
    | cons hp h =>
      obtain ⟨g', h'⟩ := ih h (fun l hl => hn l (by simp [hl]))
      exact ⟨g', .line (hn l (by simp)) hp h'⟩

theorem readAs_unique {S : Setup} {ls : List (Int × Str)} {g : PS} {bs bs' : List Block} (h : ReadAs S g ls bs) (h' : ReadAs S g ls bs') : bs = bs' := by
  induction h generalizing bs' with
  | nil => cases h'; rfl
  | cons hp _ ih =>
    cases h' with
    | cons hp' h' =>
      rw [hp] at hp'
      simp only [Prod.mk.injEq, PRes.accept.injEq] at hp'
      obtain ⟨rfl, rfl⟩ := hp'
      rw [ih h']

/-! ## Measuring -/

theorem parse_read {S : Setup} {l : Enums.ELanguage} (hl : S.lang = .known l) {o : Options} (ho : o.evalMacro = true) {x : Int} {s : Str} {p q : Parser} {m : Option Str}
    (h : parse S o x s p = (q, .ok (true, m))) : ∃ g b, phrase (gramOf S) { p.gram with msg := [] } s = (g, .accept b) := by
  unfold parse at h
  split at h
  · next g b hp => exact ⟨g, b, hp⟩
  · exfalso
    unfold wordStage at h
    rw [hl] at h
    rcases andThen_cases h with ⟨_, h⟩ | ⟨_, h⟩
    · rw [if_pos ho, macroStage_plain (by simp)] at h
      rcases systemStage_ends hl _ h with h | h
      · cases h.1
      · cases h.1.1
    · cases h.1
  · simp at h
  · rw [hl] at h
    simp only [Prod.mk.injEq] at h
    cases (tell_told h.2).1

theorem wordsRead_eq {S : Setup} {p : Parser} {s : Str} {g : PS} {b : Block} (h : phrase (gramOf S) { p.gram with msg := [] } s = (g, .accept b)) :
    wordsRead S p s = b := by
  unfold wordsRead; rw [h]

/-- The parser after the first lines. -/
def upTo (S : Setup) (p : Parser) (x : Int) (data : List Str) (i : Nat) : Parser := (program S options p (counted x (data.take i))).1

theorem upTo_succ {S : Setup} {p q : Parser} {x : Int} {l : Str} {t : List Str} {a : Answer} (h : parse S options x l p = (q, .ok a)) (i : Nat) :
    upTo S p x (l :: t) (i + 1) = upTo S q (x + 1) t i := by
  unfold upTo
  simp only [List.take_succ_cons, counted, program, h]
  rcases program S options q (counted (x + 1) (t.take i)) with ⟨q', r | r | _⟩ <;> rfl

theorem measure_done {S : Setup} {l : Enums.ELanguage} (hl : S.lang = .known l) {k : Kind} {data : List Str} :
    ∀ {p p' : Parser} {m m' : Option Str} {x : Int} {ms : List (Block × Path.Fl ℚ)}, (∀ l ∈ data, ¬ Blank l) →
    measure S k p m x data = (p', .done ms m') →
    (∃ as, program S options p (counted x data) = (p', .ok as) ∧ as.length = data.length ∧ ∀ a ∈ as, a.1 = true) ∧
    ms.length = data.length ∧
    ∀ i s, data[i]? = some s → ∃ g b, phrase (gramOf S) { (upTo S p x data i).gram with msg := [] } s = (g, .accept b) ∧
      ms[i]? = some (b, motion k (upTo S p x data (i + 1))) := by
  induction data with
  | nil =>
    intro p p' m m' x ms _ h
    simp only [measure, Prod.mk.injEq, Step.done.injEq] at h
    obtain ⟨rfl, rfl, _⟩ := h
    exact ⟨⟨[], rfl, rfl, nofun⟩, rfl, fun i s h => by simp at h⟩
  | cons s t ih =>
    intro p p' m m' x ms hn h
    unfold measure at h
    rw [if_neg (fun hb => hn s (by simp) (blank_iff.mp hb))] at h
    split at h
    · next q m1 hq =>
      simp only [Prod.mk.injEq] at h
      obtain ⟨ms', rfl, h2⟩ := put_done h.2
      obtain ⟨⟨as, ha, hlen, htrue⟩, hlen', hall⟩ := ih (fun l hl => hn l (by simp [hl])) (Prod.ext h.1 h2)
      obtain ⟨g, b, hp⟩ := parse_read hl rfl hq
      refine ⟨⟨(true, m1) :: as, ?_, by simp [hlen], ?_⟩, by simp [hlen'], ?_⟩
      · simp only [counted, program, hq, ha]
      · intro a h'
        rcases List.mem_cons.mp h' with rfl | h'
        · rfl
        · exact htrue a h'
      · intro i s' hs'
        cases i with
        | zero =>
          simp only [List.getElem?_cons_zero, Option.some.injEq] at hs'
          subst hs'
          refine ⟨g, b, hp, ?_⟩
          rw [wordsRead_eq hp, upTo_succ hq]
          simp [upTo, counted, program]
        | succ i =>
          simp only [List.getElem?_cons_succ] at hs'
          obtain ⟨g', b', h5, h6⟩ := hall i s' hs'
          refine ⟨g', b', ?_, ?_⟩
          · rw [upTo_succ hq]; exact h5
          · rw [upTo_succ hq]; simpa using h6
    · simp at h
    · simp at h
    · simp at h

/-- A line and the words it is read as: none if it is blank. -/
def LineRead (S : Setup) (l : Str) (b : Block) : Prop :=
  (Blank l ∧ b = []) ∨ (¬ Blank l ∧ ∃ (g : PS) (g' : PS), phrase (gramOf S) { g with msg := [] } l = (g', .accept b))

theorem reading_lines {S : Setup} {g g' : PS} {data : List Str} {bs : List Block} (h : Reading S g data bs g') : List.Forall₂ (LineRead S) data bs := by
  induction h with
  | nil => exact .nil
  | blank hb _ ih => exact .cons (.inl ⟨hb, rfl⟩) ih
  | line hb hp _ ih => exact .cons (.inr ⟨hb, _, _, hp⟩) ih

theorem measure_lines {S : Setup} {l : Enums.ELanguage} (hl : S.lang = .known l) {k : Kind} {data : List Str} :
    ∀ {p p' : Parser} {m m' : Option Str} {x : Int} {ms : List (Block × Path.Fl ℚ)},
    measure S k p m x data = (p', .done ms m') → List.Forall₂ (LineRead S) data (ms.map Prod.fst) := by
  induction data with
  | nil =>
    intro p p' m m' x ms h
    simp only [measure, Prod.mk.injEq, Step.done.injEq] at h
    rw [← h.2.1]
    exact .nil
  | cons s t ih =>
    intro p p' m m' x ms h
    unfold measure at h
    split at h
    · next hb =>
      simp only [Prod.mk.injEq] at h
      obtain ⟨ms', rfl, h2⟩ := put_done h.2
      exact .cons (.inl ⟨blank_iff.mp hb, rfl⟩) (ih (Prod.ext h.1 h2))
    · next hb =>
      split at h
      · next q m1 hq =>
        simp only [Prod.mk.injEq] at h
        obtain ⟨ms', rfl, h2⟩ := put_done h.2
        obtain ⟨g, b, hp⟩ := parse_read hl rfl hq
        refine .cons (.inr ⟨fun h => hb (blank_iff.mpr h), { p.gram with msg := [] }, g, ?_⟩) (ih (Prod.ext h.1 h2))
        dsimp only
        rw [wordsRead_eq hp]
        exact hp
      · simp at h
      · simp at h
      · simp at h

/-- If every line is accepted, the file is measured. -/
theorem measure_accepted {S : Setup} {k : Kind} {data : List Str} : ∀ {p p' : Parser} {x : Int} {as : List Answer} (m : Option Str), (∀ l ∈ data, ¬ Blank l) →
    program S options p (counted x data) = (p', .ok as) → (∀ a ∈ as, a.1 = true) → ∃ ms m', measure S k p m x data = (p', .done ms m') := by
  induction data with
  | nil =>
    intro p p' x as m _ h _
    simp only [counted, program, Prod.mk.injEq] at h
    exact ⟨[], m, by simp [measure, h.1]⟩
  | cons s t ih =>
    intro p p' x as m hn h ha
    unfold measure
    rw [if_neg (fun hb => hn s (by simp) (blank_iff.mp hb))]
    simp only [counted, program] at h
    rcases hq : parse S options x s p with ⟨q, (a | e | _)⟩
    · rw [hq] at h
      dsimp only at h
      rcases hz : program S options q (counted (x + 1) t) with ⟨q', (as' | e | _)⟩
      · rw [hz] at h
        dsimp only at h
        simp only [Prod.mk.injEq, Out.ok.injEq] at h
        obtain ⟨rfl, rfl⟩ := h
        obtain ⟨a1, m1⟩ := a
        have : a1 = true := ha (a1, m1) (by simp)
        subst this
        obtain ⟨ms, m', h'⟩ := ih (said m m1) (fun l hl => hn l (by simp [hl])) hz (fun a h => ha a (by simp [h]))
        dsimp only
        rw [h']
        exact ⟨_, _, rfl⟩
      · rw [hz] at h; simp at h
      · rw [hz] at h; simp at h
    · rw [hq] at h; simp at h
    · rw [hq] at h; simp at h

theorem measure_words {S : Setup} {l : Enums.ELanguage} (hl : S.lang = .known l) (hgg : Spec.Verify.SetOfGroups S.gcodes) (hmg : Spec.Verify.SetOfGroups S.mcodes)
    {k : Kind} {data : List Str} : ∀ {p p' : Parser} {m m' : Option Str} {x : Int} {ms : List (Block × Path.Fl ℚ)} {bs : List Block}, (∀ l ∈ data, ¬ Blank l) →
    ReadAs S p.gram (counted x data) bs → (∀ s ∈ data, '#' ∉ s) → (∀ b ∈ bs, Spec.Check.Ordinary S.lathe S.limits b) →
    measure S k p m x data = (p', .done ms m') → ms.map Prod.fst = bs := by
  induction data with
  | nil =>
    intro p p' m m' x ms bs _ hr _ _ h
    cases hr
    simp only [measure, Prod.mk.injEq, Step.done.injEq] at h
    rw [← h.2.1]
    rfl
  | cons s t ih =>
    intro p p' m m' x ms bs hn hr hs ho h
    unfold measure at h
    rw [if_neg (fun hb => hn s (by simp) (blank_iff.mp hb))] at h
    cases hr with
    | cons hp hr =>
      split at h
      · next q m1 hq =>
        simp only [Prod.mk.injEq] at h
        obtain ⟨ms', rfl, h2⟩ := put_done h.2
        have e := C38_success_partial S l hl options x s p q m1 rfl (hs s (by simp)) hq
        subst e
        obtain ⟨_, k2⟩ := C85_line_partial S l hl options x rfl hgg hmg s (hs s (by simp)) p _ _ hp (ho _ (by simp)) [] (by intro h; cases h)
        rw [hq] at k2
        have hg := (k2 rfl).2.2.1
        rw [← hg] at hr
        rw [List.map_cons, wordsRead_eq hp, ih (fun l hl => hn l (by simp [hl])) hr (fun l hl => hs l (by simp [hl])) (fun b hb => ho b (by simp [hb])) (Prod.ext h.1 h2)]
      · simp at h
      · simp at h
      · simp at h

theorem amounts_some {α : Type} {ms : List (α × Path.Fl ℚ)} : ∀ {ws : List ℚ}, amounts ms = some ws → ms.map Prod.snd = ws.map some := by
  induction ms with
  | nil => intro ws h; simp only [amounts, Option.some.injEq] at h; subst h; rfl
  | cons e t ih =>
    intro ws h
    rcases e with ⟨a, _ | w⟩
    · simp [amounts] at h
    · simp only [amounts, Option.map_eq_some_iff] at h
      obtain ⟨ws', h1, rfl⟩ := h
      simp [ih h1]

/-! ## Numbering -/

theorem renumberParts_flat (g : FanucGrammar) (s : Renumber.Settings) (ps : List (List Block)) : ∀ st,
    (renumberParts g s st ps).2.flatten = (Renumber.renumberAll g s st ps.flatten).2 ∧ (renumberParts g s st ps).2.map List.length = ps.map List.length := by
  have app : ∀ (xs ys : List Block) st, (Renumber.renumberAll g s st (xs ++ ys)).2 =
      (Renumber.renumberAll g s st xs).2 ++ (Renumber.renumberAll g s (Renumber.renumberAll g s st xs).1 ys).2 := by
    intro xs
    induction xs with
    | nil => intro ys st; rfl
    | cons b xs ih => intro ys st; simp only [List.cons_append, Renumber.renumberAll, ih]
  have len : ∀ (xs : List Block) st, (Renumber.renumberAll g s st xs).2.length = xs.length := by
    intro xs
    induction xs with
    | nil => intro st; rfl
    | cons b xs ih => intro st; simp [Renumber.renumberAll, ih]
  induction ps with
  | nil => intro st; exact ⟨rfl, rfl⟩
  | cons p ps ih =>
    intro st
    obtain ⟨h1, h2⟩ := ih (Renumber.renumberAll g s st p).1
    simp only [renumberParts, List.flatten_cons, List.map_cons, app, h1, h2, len, and_self]

theorem renumber_only (g : FanucGrammar) (s : Renumber.Settings) (hs : s.frequency < 2) (hw : s.word = c!"N") (st : Renumber.St) (b : Block) :
    OnlyNumber g b (Renumber.renumber g s st b).2 := by
  have hem : Renumber.emits s st = true := by simp [Renumber.emits, hs]
  have key : ∀ w, Renumber.isNumWord g w = decide (w ∈ numbering g) := fun w => isNumWord_iff g w
  have ins : ∀ b : Block, unnumbered (numbering g) b = b → OnlyNumber g b (Renumber.insertNumber g s st b).2 := by
    intro b e
    unfold Renumber.insertNumber
    rw [if_pos hem]
    exact .inr ⟨_, hw, by rw [e]⟩
  rcases b with _ | ⟨d | ⟨w, v⟩ | ⟨w, v⟩, t⟩
  · exact .inl rfl
  · simp only [Renumber.renumber]
    split
    · exact .inl rfl
    split
    · next h =>
      rw [key, decide_eq_true_eq] at h
      unfold Renumber.replaceNumber
      rw [if_pos hem]
      refine .inr ⟨{ d with word := s.word, value := some (Renumber.counterText g s st.counter) }, hw, ?_⟩
      simp [unnumbered, Spec.Renumber.body, h]
    · next h =>
      rw [key, decide_eq_true_eq] at h
      split
      · exact .inl rfl
      · exact ins _ (by simp [unnumbered, Spec.Renumber.body, h])
  · simp only [Renumber.renumber]
    split
    · exact .inl rfl
    split
    · exact .inl rfl
    · exact ins _ rfl
  · simp only [Renumber.renumber]
    split
    · exact .inl rfl
    split
    · exact .inl rfl
    · exact ins _ rfl

theorem renumberParts_only (g : FanucGrammar) (s : Renumber.Settings) (hs : s.frequency < 2) (hw : s.word = c!"N") (ps : List (List Block)) :
    ∀ st, List.Forall₂ (List.Forall₂ (OnlyNumber g)) ps (renumberParts g s st ps).2 := by
  have one : ∀ (p : List Block) st, List.Forall₂ (OnlyNumber g) p (Renumber.renumberAll g s st p).2 := by
    intro p
    induction p with
    | nil => intro st; exact .nil
    | cons b p ih => intro st; exact .cons (renumber_only g s hs hw st b) (ih _)
  induction ps with
  | nil => intro st; exact .nil
  | cons p ps ih => intro st; exact .cons (one p st) (ih _)

/-! ## The calls -/

/-- How the retraction plane is read. -/
def PlaneRead (S : Setup) (g : PS) (plane : Str) (rp : Option Block) : Prop :=
  (plane = [] ∧ rp = none) ∨ (plane ≠ [] ∧ ∃ g' b, phrase (gramOf S) { g with msg := [] } plane = (g', .accept b) ∧ rp = some b)

theorem readPlane_done {S : Setup} {ps q : PS} {m m' : Option Str} {plane : Str} {rp : Option Block}
    (h : readPlane (gramOf S) ps m plane = (q, .done rp m')) : PlaneRead S ps plane rp ∧ m' = m := by
  unfold readPlane at h
  split at h
  · next hp => simp only [Prod.mk.injEq, Step.done.injEq] at h; exact ⟨.inl ⟨hp, h.2.1.symm⟩, h.2.2.symm⟩
  · next hp =>
    split at h
    · simp at h
    · next q' b m1 hs =>
      obtain ⟨h1, rfl⟩ := simple_true hs
      simp only [Prod.mk.injEq, Step.done.injEq] at h
      exact ⟨.inr ⟨hp, q', b, h1, h.2.1.symm⟩, h.2.2.symm⟩
    · simp at h

theorem finish_parts {S : Setup} {o o' : Obj} {m m' : Option Str} {x : Out Splitter.Err (List (List Block))} {parts : List (List Block)}
    (h : finish S o m x = (o', .parts parts m')) : ∃ raw, x = .ok raw ∧ parts = (renumberParts S.tables numbers o.num raw).2 ∧ m' = m := by
  unfold finish at h
  split at h
  · next raw => simp only [Prod.mk.injEq, Outcome.parts.injEq] at h; exact ⟨raw, rfl, h.2.1.symm, h.2.2.symm⟩
  · next e =>
    rcases e with (_ | _) | _ <;> simp [caught] at h
  · simp at h

theorem caught_parts {e : Splitter.Err} {v : List (List Block)} {m : Option Str} : caught e ≠ .parts v m := by
  rcases e with (_ | _) | _ <;> simp [caught]

theorem splitRead_parts {S : Setup} {r : Request} {o o' : Obj} {data : List Str} {parts : List (List Block)} {m : Option Str}
    (h : splitRead S r o data = (o', .parts parts m)) :
    ∃ bs g rp raw, Reading S o.p.gram data bs g ∧ PlaneRead S g r.plane rp ∧
      (if r.kind = .blocks then Splitter.byCount (cutting S) r.step r.rapidOnly rp bs else Splitter.byTool (cutting S) rp bs) = .ok raw ∧
      parts = (renumberParts S.tables numbers o.num raw).2 ∧ m = none := by
  unfold splitRead at h
  split at h
  · next ps bs m1 h1 =>
    obtain ⟨hr, rfl⟩ := readLines_iff.mp h1
    split at h
    · next ps' rp m2 h2 =>
      obtain ⟨hp, rfl⟩ := readPlane_done h2
      obtain ⟨raw, h3, h4, h5⟩ := finish_parts h
      exact ⟨bs, ps, rp, raw, hr, hp, h3, h4, h5⟩
    · simp at h
    · simp only [Prod.mk.injEq] at h; exact absurd h.2 caught_parts
    · simp at h
  · simp at h
  · simp only [Prod.mk.injEq] at h; exact absurd h.2 caught_parts
  · simp at h

theorem splitMeasured_parts {S : Setup} {r : Request} {o o' : Obj} {data : List Str} {parts : List (List Block)} {m : Option Str}
    (h : splitMeasured S r o data = (o', .parts parts m)) :
    ∃ p ms m1 rp ws raw, measure S r.kind o.p none 0 data = (p, .done ms m1) ∧ PlaneRead S p.gram r.plane rp ∧ amounts ms = some ws ∧
      Splitter.byWork (cutting S) (if r.kind = .path then r.path else r.time) r.rapidOnly ws rp (ms.map Prod.fst) = .ok raw ∧
      parts = (renumberParts S.tables numbers o.num raw).2 := by
  unfold splitMeasured at h
  split at h
  · next p ms m1 h1 =>
    split at h
    · next ps' rp m2 h2 =>
      obtain ⟨hp, rfl⟩ := readPlane_done h2
      split at h
      · simp at h
      · next ws hw =>
        obtain ⟨raw, h3, h4, h5⟩ := finish_parts h
        exact ⟨p, ms, m2, rp, ws, raw, h1, hp, hw, h3, h4⟩
    · simp at h
    · simp only [Prod.mk.injEq] at h; exact absurd h.2 caught_parts
    · simp at h
  · simp at h
  · simp only [Prod.mk.injEq] at h; exact absurd h.2 caught_parts
  · simp at h

end NC.SplitFile
