import Verif.FillProofs
import Verif.Props.Assign

/-! # C99: a line with variables is the line with their values -/

namespace NC.Props
open NC NC.Message NC.Gram NC.Pipe NC.Calc NC.Spec NC.Spec.Tables NC.Spec.Verify NC.Spec.Survive NC.Spec.Assign NC.Spec.Filled NC.Spec.Units
open NC.Spec (Source.line)
open NC.Ver (RotInv)

/-- Parsers that differ in what they remember of the texts read, at most. -/
def Agree (p p' : Parser) : Prop := p.macros = p'.macros ∧ p.path = p'.path ∧ p.units = p'.units ∧ p.rot = p'.rot

theorem agree_refl (p : Parser) : Agree p p := ⟨rfl, rfl, rfl, rfl⟩

theorem agree_gram {p p' : Parser} (h : Agree p p') : ∃ g, p' = { p with gram := g } := by
  obtain ⟨g, m, u, s, r⟩ := p
  obtain ⟨g', m', u', s', r'⟩ := p'
  obtain ⟨rfl, rfl, rfl, rfl⟩ := h
  exact ⟨g', rfl⟩

theorem agree_swap (p : Parser) (g g' : PS) : Agree { p with gram := g } { p with gram := g' } := ⟨rfl, rfl, rfl, rfl⟩

/-- The addresses after which variables are left alone. -/
def untouched (S : Setup) : List Str := [c!"#", c!"=", c!"+", c!"-", c!"*", c!"/", c!":", c!"N", c!"GOTO"] ++ S.ops

/-- The words begin with letters. -/
def Spelled (b : Block) : Prop := ∀ d ∈ decs b, ∃ c u, d.word = c :: u ∧ letter c = true

theorem evaluate_unassigned {tr : Str → ℚ → Option ℚ} {m : MacroMap ℚ} {line : Int} {b : Block} (h : ∀ d ∈ decs b, d.word ≠ c!"#") :
    Macro.evaluate tr m line b = .ok m := by
  have : Macro.macRun {} b = .ok {} := by
    induction b with
    | nil => rfl
    | cons a b ih =>
      cases a with
      | str x y => exact ih h
      | chr x y => exact ih h
      | dec d =>
        have h1 : Macro.macStep {} (.dec d) = .ok {} := by
          unfold Macro.macStep
          dsimp only
          rw [if_pos rfl, if_neg (h d (by simp [decs])), if_neg (by decide)]
        rw [Macro.macRun, h1, Out.bind_ok]
        exact ih (fun d hd => h d (by simp [decs, hd]))
  unfold Macro.evaluate
  rw [this]
  rfl

theorem filled_decs {look : Nat → Option ℚ} {free : List Str} {b b' : Block} (h : Filled look free b b') :
    List.Forall₂ (fun d d' : Dec => d'.word = d.word ∧ d'.assign = none ∧ d'.mac = none) (decs b) (decs b') := by
  induction h with
  | nil => exact .nil
  | cons h _ ih =>
    cases h with
    | comment v => exact ih
    | same hm ha => exact .cons ⟨rfl, ha, hm⟩ ih
    | value _ _ _ _ _ _ _ _ _ _ _ hw hm ha => exact .cons ⟨hw, ha, hm⟩ ih

theorem filled_spoken {look : Nat → Option ℚ} {free : List Str} {b b' : Block} (h : Filled look free b b') : Spoken b' := by
  induction h with
  | nil => intro a ha; cases ha
  | cons h _ ih =>
    intro a ha
    rcases List.mem_cons.mp ha with rfl | ha
    · cases h with
      | comment v => exact .inr ⟨v, rfl⟩
      | same => exact .inl ⟨_, rfl⟩
      | value => exact .inl ⟨_, rfl⟩
    · exact ih a ha

theorem filled_same {look : Nat → Option ℚ} {free : List Str} {b b' : Block} (h : Filled look free b b') (hv : varied b = false) : b = b' := by
  induction h with
  | nil => rfl
  | @cons _ _ l _ h _ ih =>
    cases h with
    | comment v => rw [ih hv]
    | @same d hm ha =>
      have : varied l = false := by
        unfold varied at hv ⊢
        simp only [decs, List.any_cons, Bool.or_eq_false_iff] at hv
        exact hv.2
      rw [ih this]
    | value _ hm =>
      unfold varied at hv
      simp [decs, hm] at hv

theorem declared_word {words table : WordMap} {ops : List Str} {b : Block} (h : Declared words table ops b) {d : Dec} (hd : d ∈ decs b) :
    Spec.Proper.Value words d ∧ (d.assign = none → d.word ∈ decNames table ops) := by
  have hl := h.1
  clear h
  have hw : ∀ {a}, Spec.Proper.Word words (decNames table ops) (assignNames table ops) a → ∀ d, a = .dec d → Spec.Proper.Value words d ∧ (d.assign = none → d.word ∈ decNames table ops) := by
    intro a ha d e
    cases ha with
    | address h1 _ h3 => cases e; exact ⟨h3, fun _ => h1⟩
    | assignment _ h2 h3 => cases e; exact ⟨h3, fun h => by rw [h] at h2; cases h2⟩
    | comment => cases e
    | program => cases e
  replace hd : Attr.dec d ∈ b := mem_decs.mp hd
  induction hl with
  | one h => exact hw h d (List.mem_singleton.mp hd).symm
  | percent => cases List.mem_singleton.mp hd
  | more h _ ih =>
    rcases List.mem_cons.mp hd with e | hd
    · exact hw h d e.symm
    · exact ih hd

/-- The words of a declared line select units without an error. -/
theorem declared_select {words table : WordMap} {ops : List Str} {b : Block} (h : Declared words table ops b) (u : Ver.Units) :
    Ver.selectRun u b = (inForce u b, .ok ()) := by
  have key : ∀ (b : Block), (∀ d ∈ decs b, ∀ v, d.value = some v → ∃ n, stoi v = .ok n) → ∀ u, (Ver.selectRun u b).2 = .ok () := by
    intro b
    induction b with
    | nil => intro _ u; rfl
    | cons a t ih =>
      intro h u
      cases a with
      | str _ _ => exact ih h u
      | chr _ _ => exact ih h u
      | dec d =>
        have ht := ih (fun d hd => h d (by simp [decs, hd]))
        unfold Ver.selectRun
        split
        · exact ht u
        · cases hv : d.value with
          | none => exact ht u
          | some v =>
            obtain ⟨n, hn⟩ := h d (by simp [decs]) v hv
            dsimp only
            rw [hn]
            exact ht _
  have hok : (Ver.selectRun u b).2 = .ok () := by
    apply key
    intro d hd v hv
    obtain ⟨hval, -⟩ := declared_word h hd
    have : Spec.Proper.Short v := by
      cases hval.number with
      | whole _ h2 h3 => rw [hv] at h2; cases h2; exact h3
      | point _ h2 h3 => rw [hv] at h2; cases h2; exact h3
      | fraction _ h2 => rw [hv] at h2; cases h2
      | macro_ _ h2 h3 => rw [hv] at h2; cases h2; exact h3
    exact ⟨_, NC.stoi_digits this.1.2 this.1.1 this.2⟩
  exact Prod.ext (selectRun_ok hok) hok

section
variable {S : Setup} (hR : RegularTables (rangesOf S) S.tables.metric S.ops) (hpal : S.cfg.palletWord ≠ c!"(") (hmea : S.cfg.measureWord ≠ c!"(")
  (o : Options) (ho : o.evalMacro = true)
include hR ho

omit hR in
/-- A line without variables and assignments, once read. -/
theorem word_plain (line : Int) (b : Block) (hb : ∀ d ∈ decs b, d.mac = none ∧ d.word ≠ c!"#") (p : Parser) :
    wordStage S o line true b p = andThen S.lang (Ver.uniqueCode (Pipe.tableOf S.tables p.units) b) p (systemStage S o line true b p) := by
  have hpl : ∀ a ∈ b, Plainly a := fun a ha d e => hb d (mem_decs.mpr (e ▸ ha))
  unfold wordStage
  rw [if_pos ho]
  unfold macroStage
  rw [evaluate_plain hpl]
  dsimp only
  obtain ⟨st, h1, h2⟩ := subRun_plain (ops := S.ops) (m := p.macros) (line := line) hpl {} rfl
  unfold substituteStage Macro.substitute
  rw [h1]
  simp only [Out.bind_ok, h2]
  rfl

include hpal hmea in
/-- Both readings of a line with variables. -/
theorem parse_filled (line : Int) (p p' : Parser) (hpp : Agree p p') {b b' : Block}
    (hd : Declared (rangesOf S) S.tables.metric S.ops b) (hd' : Declared (rangesOf S) S.tables.metric S.ops b')
    (hf : Filled (fun i => p.macros.valueAt i line) (untouched S) b b') (hsp : Spelled b') (hu : inForce p.units b' = p.units) :
    (parse S o line (Source.line b) p).2 = (parse S o line (Source.line b') p').2 ∧
    Agree (parse S o line (Source.line b) p).1 (parse S o line (Source.line b') p').1 ∧
    (0 ≤ bal p.gram.st → 0 ≤ bal (parse S o line (Source.line b) p).1.gram.st) ∧
    (0 ≤ bal p'.gram.st → 0 ≤ bal (parse S o line (Source.line b') p').1.gram.st) := by
  have hG := regularG hR S.lang
  obtain ⟨g0, rfl⟩ := agree_gram hpp
  clear hpp
  -- the two texts are read
  obtain ⟨g1, hg1⟩ := written_words (lang := S.lang) hR hd { p.gram with msg := [] } [] (by simp)
  obtain ⟨g2, hg2⟩ := written_words (lang := S.lang) hR hd' { g0 with msg := [] } [] (by simp)
  rw [List.append_nil] at hg1 hg2
  have hg1 : phrase (gramOf S) { p.gram with msg := [] } (Source.line b) = (g1, .accept b) := hg1
  have hg2 : phrase (gramOf S) { g0 with msg := [] } (Source.line b') = (g2, .accept b') := hg2
  have hb1 : bal p.gram.st ≤ bal g1.st := by
    have := words_bal (G := gramOf S) hG ((phrase_accept (gramOf_chars S)).mp hg1).2 (declared_net hd)
    exact this
  have hb2 : bal g0.st ≤ bal g2.st := by
    have := words_bal (G := gramOf S) hG ((phrase_accept (gramOf_chars S)).mp hg2).2 (declared_net hd')
    exact this
  have hfd := filled_decs hf
  have hhash' : ∀ d ∈ decs b', d.word ≠ c!"#" := by
    intro d hd e
    obtain ⟨c, u, h1, h2⟩ := hsp d hd
    rw [e] at h1
    cases h1
    exact absurd h2 (by decide)
  have hmac' : ∀ d ∈ decs b', d.mac = none ∧ d.assign = none := by
    generalize decs b = l at hfd
    generalize decs b' = l' at hfd
    clear * - hfd
    induction hfd with
    | nil => intro d hd; cases hd
    | cons h _ ih =>
      intro d hd
      rcases List.mem_cons.mp hd with rfl | hd
      · exact ⟨h.2.2, h.2.1⟩
      · exact ih d hd
  have hhash : ∀ d ∈ decs b, d.word ≠ c!"#" := by
    generalize decs b = l at hfd ⊢
    generalize decs b' = l' at hfd hhash'
    clear * - hfd hhash'
    induction hfd with
    | nil => intro d hd; cases hd
    | cons h _ ih =>
      intro d hd
      rcases List.mem_cons.mp hd with rfl | hd
      · rw [← h.1]; exact hhash' _ (by simp)
      · exact ih (fun d hd => hhash' d (by simp [hd])) d hd
  have e2 : parse S o line (Source.line b') { p with gram := g0 } =
      andThen S.lang (Ver.uniqueCode (Pipe.tableOf S.tables p.units) b') { p with gram := g2 } (systemStage S o line true b' { p with gram := g2 }) := by
    unfold parse
    rw [hg2]
    exact word_plain o ho line b' (fun d hd => ⟨(hmac' d hd).1, hhash' d hd⟩) { p with gram := g2 }
  have e1 : ∃ g, bal p.gram.st ≤ bal g.st ∧ parse S o line (Source.line b) p =
      andThen S.lang (Ver.uniqueCode (Pipe.tableOf S.tables p.units) b') { p with gram := g1 } (systemStage S o line true b' { p with gram := g }) := by
    unfold parse
    rw [hg1]
    show ∃ g, _ ∧ wordStage S o line true b { p with gram := g1 } = _
    cases hv : varied b with
    | false =>
      have := filled_same hf hv
      subst this
      exact ⟨g1, hb1, word_plain o ho line b (fun d hd => ⟨(hmac' d hd).1, hhash' d hd⟩) { p with gram := g1 }⟩
    | true =>
      have hne : decs b' ≠ [] := by
        intro e
        rw [e] at hfd
        have : decs b = [] := by cases hb : decs b with
          | nil => rfl
          | cons d t => rw [hb] at hfd; cases hfd
        unfold varied at hv
        rw [this] at hv
        cases hv
      have htx : txts (decs b') ≠ [] := by
        intro e
        cases hb : decs b' with
        | nil => exact hne hb
        | cons d t =>
          obtain ⟨c, u, h1, -⟩ := hsp d (by rw [hb]; simp)
          rw [hb] at e
          simp [txts, txt, h1] at e
      have hskip : Gram.skip (txts (decs b')) = txts (decs b') := by
        cases hb : decs b' with
        | nil => exact absurd hb hne
        | cons d t =>
          obtain ⟨c, u, h1, h2⟩ := hsp d (by rw [hb]; simp)
          have : txts (d :: t) = c :: (u ++ otxt d ++ txts t) := by simp [txts, txt, h1]
          rw [this]
          refine skip_of_not ?_
          cases hbl : isBlank c with
          | false => rfl
          | true =>
            exfalso
            simp only [isBlank, Bool.or_eq_true, decide_eq_true_eq] at hbl
            rcases hbl with rfl | rfl <;> revert h2 <;> decide
      obtain ⟨g, hw⟩ := tight_direct (G := gramOf S) hG (l := decs b')
        (fun d hd => ⟨(declared_word hd' hd).2 (hmac' d hd).2, (hmac' d hd).2, (declared_word hd' hd).1, hsp d hd⟩) (txts (decs b')) hskip g1
      have hb3 : bal g1.st ≤ bal g.st := by
        refine words_bal hG hw ?_
        intro a ha
        obtain ⟨d, hd, rfl⟩ := List.mem_map.mp ha
        exact declared_net hd' _ (mem_decs.mp hd)
      have hph : phrase (gramOf S) g1 (txts (decs b')) = (g, .accept ((decs b').map .dec)) :=
        (phrase_accept (gramOf_chars S)).mpr ⟨by simpa using hne, hw⟩
      refine ⟨g, le_trans hb1 hb3, ?_⟩
      unfold wordStage
      rw [unique_words hf, if_pos ho]
      congr 1
      unfold macroStage
      rw [evaluate_unassigned hhash]
      dsimp only
      unfold substituteStage
      have hs : Macro.substitute S.ops p.macros line b = .ok (txts (decs b')) := by
        have := substitute_filled (ops := S.ops) hf
        rw [hv] at this
        exact this
      dsimp only
      rw [hs]
      dsimp only
      unfold codeStage
      rw [if_neg htx]
      dsimp only
      rw [hph]
      dsimp only
      have hspo := filled_spoken hf
      have hsel : Ver.selectRun p.units ((decs b').map .dec) = (p.units, .ok ()) := by
        rw [strip_select hspo, declared_select hd', hu]
      unfold Pipe.codeWords selected
      dsimp only
      rw [hsel]
      exact strip_stage hspo hpal hmea hne o line true { p with gram := g }
  obtain ⟨g, hb3, e1⟩ := e1
  rw [e1, e2, systemStage_swap S o line true b' p g, systemStage_swap S o line true b' p g2]
  rcases Ver.uniqueCode (Pipe.tableOf S.tables p.units) b' with ⟨⟩ | e | _
  · exact ⟨rfl, agree_swap _ _ _, fun h => le_trans h hb3, fun h => le_trans h hb2⟩
  · exact ⟨rfl, agree_swap _ _ _, fun h => le_trans h hb1, fun h => le_trans h hb2⟩
  · exact ⟨rfl, agree_swap _ _ _, fun h => le_trans h hb1, fun h => le_trans h hb2⟩

include hpal hmea in
/-- C99: a line of addresses, some of them with variables in the place of numbers, is answered exactly as the line with the values of
these variables, with the same message if it is refused, and has the same effect; the line may have comments.  The line with the
values is one the tables declare, and does not change the units (`C99_violated_units`). -/
theorem C99_line_partial (line : Int) (p : Parser) {b b' : Block}
    (hd : Declared (rangesOf S) S.tables.metric S.ops b) (hd' : Declared (rangesOf S) S.tables.metric S.ops b')
    (hf : Filled (fun i => p.macros.valueAt i line) (untouched S) b b') (hsp : Spelled b') (hu : inForce p.units b' = p.units) :
    (parse S o line (Source.line b) p).2 = (parse S o line (Source.line b') p).2 ∧
    Agree (parse S o line (Source.line b) p).1 (parse S o line (Source.line b') p).1 :=
  let h := parse_filled hR hpal hmea o ho line p p (agree_refl p) hd hd' hf hsp hu
  ⟨h.1, h.2.1⟩

end

/-! ## Programs -/

/-- The variables in the place of numbers. -/
def reads (b : Block) : List Nat := (decs b).filterMap (fun d => if d.mac.isSome then d.value.map readNat else none)

theorem filled_congr {look look' : Nat → Option ℚ} {free : List Str} {b b' : Block} (h : Filled look free b b') (he : ∀ i ∈ reads b, look i = look' i) :
    Filled look' free b b' := by
  induction h with
  | nil => exact .nil
  | cons h _ ih =>
    cases h with
    | comment v => exact .cons (.comment v) (ih he)
    | same hm ha => exact .cons (.same hm ha) (ih (fun i hi => he i (by simpa [reads, decs, hm] using hi)))
    | value h1 h2 h3 h4 h5 h6 h7 h8 h9 h10 h11 h12 h13 h14 h15 h16 h17 h18 =>
      refine .cons (.value h1 h2 h3 h4 h5 h6 h7 h8 h9 h10 ?_ h12 h13 h14 h15 h16 h17 h18) (ih (fun i hi => he i ?_))
      · rw [← he _ (by simp [reads, decs, h2, h3])]; exact h11
      · simp [reads, decs, h2, h3]; exact .inr (by simpa [reads] using hi)

/-- A program, and the program with numbers in the place of the variables in its words; `env` are the values of the variables. -/
inductive Resolved (S : Setup) : (Nat → Option ℚ) → List (Int × Item) → List (Int × Item) → Prop
  | nil (env) : Resolved S env [] []
  | assign {env n ip e v t t'} : e.val (spTr S.tr) env = some v → Resolved S (fun i => if i = worthOf ip then some v else env i) t t' →
      Resolved S env ((n, .assign ip e) :: t) ((n, .assign ip e) :: t')
  | plain {env n b t t'} : Resolved S env t t' → Resolved S env ((n, .words b) :: t) ((n, .words b) :: t')
  | filled {env n b b' t t'} : Declared (rangesOf S) S.tables.metric S.ops b → Filled env (untouched S) b b' → Spelled b' →
      (∀ i ∈ reads b, ¬ Kept i) → lastSwitch b' = none → Resolved S env t t' →
      Resolved S env ((n, .words b) :: t) ((n, .words b') :: t')

section
variable {S : Setup} (hS : Ready S) {lg : Enums.ELanguage} (hl : S.lang = .known lg) (o : Options) (ho : o.evalMacro = true)
include hS hl ho

/-- The variables after an accepted line. -/
theorem item_after {n : Int} {it : Item} (hf : Fits S it) (hn : n ≤ 2147483647) {p : Parser} (hsort : p.macros.Sorted)
    (hnew : ∀ i l, n ≤ l → p.macros.get ⟨i, l⟩ = none) (hbal : 0 ≤ bal p.gram.st) {env e1 : Nat → Option ℚ}
    (henv : ∀ i, ¬ Kept i → p.macros.valueMax i = env i) (hc : computed (spTr S.tr) env [it] = some e1)
    (hacc : (parse S o n (lineOf it) p).2 = .ok (true, none)) :
    (parse S o n (lineOf it) p).1.macros.Sorted ∧ (∀ i l, n < l → (parse S o n (lineOf it) p).1.macros.get ⟨i, l⟩ = none) ∧
      ∀ i, ¬ Kept i → (parse S o n (lineOf it) p).1.macros.valueMax i = e1 i := by
  cases it with
  | assign ip e =>
    obtain ⟨f1, f2, f3⟩ := hf
    have hval : e.val (spTr S.tr) p.macros.valueMax = e.val (spTr S.tr) env :=
      val_readsE _ e f2 (fun i hi => henv i (f3 i hi))
    obtain ⟨v, w1, w2, w3, w4, w5, w6⟩ := C98_effect hS hl o ho n p hbal f1 f2 [] (by simp) (parse S o n (lineOf (.assign ip e)) p).1
      (by rw [List.append_nil]; exact Prod.ext rfl hacc)
    obtain ⟨w7, w8, w9⟩ := w2 hsort
    have w8 := w8 (hnew _ _ le_rfl)
    refine ⟨w7, ?_, ?_⟩
    · intro i l hl
      rw [w9 _ (by intro e; simp only [MKey.mk.injEq] at e; omega)]
      exact hnew i l hl.le
    · intro i hi
      rw [hval] at w1
      unfold computed at hc
      rw [w1] at hc
      dsimp only [computed] at hc
      cases hc
      rw [valueMax_set hsort w7 hn hnew w8 w9, henv i hi]
  | words b =>
    obtain ⟨f1, f2, f3⟩ := hf
    obtain ⟨g, hg⟩ := written_words (lang := S.lang) hS.regular f1 { p.gram with msg := [] } [] (by simp)
    rw [List.append_nil] at hg
    have hg : phrase (gramOf S) { p.gram with msg := [] } (Source.line b) = (g, .accept b) := hg
    obtain ⟨_, hW⟩ := (phrase_accept (gramOf_chars S)).mp hg
    obtain ⟨g', b', m1, r1, r2, r3⟩ := parse_recorded (line := n) hl ho (p := p) (q := (parse S o n (Source.line b) p).1) (m := none) (Prod.ext rfl hacc) hsort
    rw [hg] at r1
    cases r1
    rw [evaluate_plain (words_noHash hW f2)] at r2
    cases r2
    have late : ∀ id l, n < l → (parse S o n (Source.line b) p).1.macros.get ⟨id, l⟩ = none := by
      intro id l hl
      rw [r3.others _ (by rintro ⟨-, h⟩; dsimp only at h; omega)]
      exact hnew id l hl.le
    refine ⟨r3.sorted, late, ?_⟩
    cases hc
    intro i hi
    rw [← henv i hi]
    show (parse S o n (Source.line b) p).1.macros.valueMax i = _
    rw [MacroMap.valueMax_eq r3.sorted hn late, MacroMap.valueMax_eq hsort hn (fun id l hl => hnew id l hl.le)]
    refine MacroMap.valueAt_congr r3.sorted hsort (fun l _ => r3.others _ ?_)
    rintro ⟨h, -⟩
    apply hi
    rcases h with ⟨w, h⟩ | h
    · exact .inl ⟨w, by rw [← idsOf_eq]; exact h⟩
    · exact .inr h

omit hl in
/-- A line read by parsers that differ in what they remember of the texts read. -/
theorem item_agree {n : Int} {it : Item} (hf : Fits S it) {p p' : Parser} (hpp : Agree p p') (hb : 0 ≤ bal p.gram.st) (hb' : 0 ≤ bal p'.gram.st) :
    (parse S o n (lineOf it) p).2 = (parse S o n (lineOf it) p').2 ∧ Agree (parse S o n (lineOf it) p).1 (parse S o n (lineOf it) p').1 ∧
    0 ≤ bal (parse S o n (lineOf it) p).1.gram.st ∧ 0 ≤ bal (parse S o n (lineOf it) p').1.gram.st := by
  obtain ⟨g0, rfl⟩ := agree_gram hpp
  clear hpp
  cases it with
  | assign ip e =>
    obtain ⟨f1, f2, f3⟩ := hf
    obtain ⟨g1, k1, m1, e1⟩ := parse_assign hS o ho n p hb f1 f2 [] (by simp)
    obtain ⟨g2, k2, m2, e2⟩ := parse_assign hS o ho n { p with gram := g0 } hb' f1 f2 [] (by simp)
    rw [List.append_nil] at e1 e2
    show (parse S o n (Assign.text ip e) p).2 = (parse S o n (Assign.text ip e) _).2 ∧ Agree (parse S o n (Assign.text ip e) p).1 (parse S o n (Assign.text ip e) _).1 ∧
      0 ≤ bal (parse S o n (Assign.text ip e) p).1.gram.st ∧ 0 ≤ bal (parse S o n (Assign.text ip e) _).1.gram.st
    rw [e1, e2]
    dsimp only
    have b1 := le_trans hb k1
    have b2 := le_trans hb' k2
    cases evalText S.tr p.macros e.pr with
    | ok v =>
      dsimp only
      rw [systemStage_swap S o n true _ { p with macros := p.macros.emplace ⟨worthOf ip, n⟩ v } g1,
        systemStage_swap S o n true _ { p with macros := p.macros.emplace ⟨worthOf ip, n⟩ v } g2]
      exact ⟨rfl, agree_swap _ _ _, b1, b2⟩
    | throw f => dsimp only; rw [m1, m2]; exact ⟨rfl, agree_swap _ _ _, b1, b2⟩
    | ub => exact ⟨rfl, agree_swap _ _ _, b1, b2⟩
  | words b =>
    obtain ⟨f1, f2, f3⟩ := hf
    have one : ∀ g : PS, ∃ g', bal g.st ≤ bal g'.st ∧ parse S o n (Source.line b) { p with gram := g } =
        andThen S.lang (Ver.uniqueCode (Pipe.tableOf S.tables p.units) b) { p with gram := g' } (systemStage S o n true b { p with gram := g' }) := by
      intro g
      obtain ⟨g', hg⟩ := written_words (lang := S.lang) hS.regular f1 { g with msg := [] } [] (by simp)
      rw [List.append_nil] at hg
      have hg : phrase (gramOf S) { g with msg := [] } (Source.line b) = (g', .accept b) := hg
      obtain ⟨_, hW⟩ := (phrase_accept (gramOf_chars S)).mp hg
      have hbal := words_bal (G := gramOf S) (regularG hS.regular S.lang) hW (declared_net f1)
      refine ⟨g', hbal, ?_⟩
      unfold parse
      rw [hg]
      exact word_plain o ho n b (fun d hd => words_noHash hW f2 _ (mem_decs.mp hd) d rfl) { p with gram := g' }
    obtain ⟨g1, k1, e1⟩ := one p.gram
    obtain ⟨g2, k2, e2⟩ := one g0
    have e1 : parse S o n (lineOf (.words b)) p = _ := e1
    have e2 : parse S o n (lineOf (.words b)) { p with gram := g0 } = _ := e2
    rw [e1, e2, systemStage_swap S o n true b p g1, systemStage_swap S o n true b p g2]
    have b1 := le_trans hb k1
    have b2 := le_trans hb' k2
    rcases Ver.uniqueCode (Pipe.tableOf S.tables p.units) b with ⟨⟩ | e | _ <;> exact ⟨rfl, agree_swap _ _ _, b1, b2⟩

/-- The two programs run in step. -/
theorem resolved_run {env : Nat → Option ℚ} {xs ys : List (Int × Item)} (h : Resolved S env xs ys) : ∀ (p p' : Parser), Agree p p' →
    0 ≤ bal p.gram.st → 0 ≤ bal p'.gram.st → (∀ y ∈ ys, Fits S y.2) → ys.Pairwise (fun x y => x.1 < y.1) → (∀ y ∈ ys, y.1 ≤ 2147483647) →
    p'.macros.Sorted → (∀ y ∈ ys, ∀ i l, y.1 ≤ l → p'.macros.get ⟨i, l⟩ = none) → (∀ i, ¬ Kept i → p'.macros.valueMax i = env i) →
    ((program S o p (xs.map (fun x => (x.1, lineOf x.2)))).2 = .ok (xs.map (fun _ => (true, none))) ↔
      (program S o p' (ys.map (fun x => (x.1, lineOf x.2)))).2 = .ok (ys.map (fun _ => (true, none)))) ∧
    ((program S o p (xs.map (fun x => (x.1, lineOf x.2)))).2 = .ok (xs.map (fun _ => (true, none))) →
      Agree (program S o p (xs.map (fun x => (x.1, lineOf x.2)))).1 (program S o p' (ys.map (fun x => (x.1, lineOf x.2)))).1 ∧
      0 ≤ bal (program S o p (xs.map (fun x => (x.1, lineOf x.2)))).1.gram.st) := by
  have step : ∀ {n : Int} {it it' : Item} {t t' : List (Int × Item)} {p p' : Parser} {env e1 : Nat → Option ℚ},
      ((parse S o n (lineOf it) p).2 = (parse S o n (lineOf it') p').2 ∧ Agree (parse S o n (lineOf it) p).1 (parse S o n (lineOf it') p').1 ∧
        0 ≤ bal (parse S o n (lineOf it) p).1.gram.st ∧ 0 ≤ bal (parse S o n (lineOf it') p').1.gram.st) →
      computed (spTr S.tr) env [it'] = some e1 → 0 ≤ bal p'.gram.st →
      (∀ y ∈ (n, it') :: t', Fits S y.2) → ((n, it') :: t').Pairwise (fun x y => x.1 < y.1) → (∀ y ∈ (n, it') :: t', y.1 ≤ 2147483647) →
      p'.macros.Sorted → (∀ y ∈ (n, it') :: t', ∀ i l, y.1 ≤ l → p'.macros.get ⟨i, l⟩ = none) → (∀ i, ¬ Kept i → p'.macros.valueMax i = env i) →
      (∀ (p p' : Parser), Agree p p' → 0 ≤ bal p.gram.st → 0 ≤ bal p'.gram.st → (∀ y ∈ t', Fits S y.2) → t'.Pairwise (fun x y => x.1 < y.1) → (∀ y ∈ t', y.1 ≤ 2147483647) →
        p'.macros.Sorted → (∀ y ∈ t', ∀ i l, y.1 ≤ l → p'.macros.get ⟨i, l⟩ = none) → (∀ i, ¬ Kept i → p'.macros.valueMax i = e1 i) →
        ((program S o p (t.map (fun x => (x.1, lineOf x.2)))).2 = .ok (t.map (fun _ => (true, none))) ↔
          (program S o p' (t'.map (fun x => (x.1, lineOf x.2)))).2 = .ok (t'.map (fun _ => (true, none)))) ∧
        ((program S o p (t.map (fun x => (x.1, lineOf x.2)))).2 = .ok (t.map (fun _ => (true, none))) →
          Agree (program S o p (t.map (fun x => (x.1, lineOf x.2)))).1 (program S o p' (t'.map (fun x => (x.1, lineOf x.2)))).1 ∧
          0 ≤ bal (program S o p (t.map (fun x => (x.1, lineOf x.2)))).1.gram.st)) →
      ((program S o p (((n, it) :: t).map (fun x => (x.1, lineOf x.2)))).2 = .ok (((n, it) :: t).map (fun _ => (true, none))) ↔
        (program S o p' (((n, it') :: t').map (fun x => (x.1, lineOf x.2)))).2 = .ok (((n, it') :: t').map (fun _ => (true, none)))) ∧
      ((program S o p (((n, it) :: t).map (fun x => (x.1, lineOf x.2)))).2 = .ok (((n, it) :: t).map (fun _ => (true, none))) →
        Agree (program S o p (((n, it) :: t).map (fun x => (x.1, lineOf x.2)))).1 (program S o p' (((n, it') :: t').map (fun x => (x.1, lineOf x.2)))).1 ∧
        0 ≤ bal (program S o p (((n, it) :: t).map (fun x => (x.1, lineOf x.2)))).1.gram.st) := by
    intro n it it' t t' p p' env e1 ⟨ha, hag, hb1, hb2⟩ hc hbal hf hlt hmax hsort hnew henv ih
    obtain ⟨c1, c2⟩ := program_cons S o p n (lineOf it) (t.map (fun x => (x.1, lineOf x.2)))
    obtain ⟨d1, d2⟩ := program_cons S o p' n (lineOf it') (t'.map (fun x => (x.1, lineOf x.2)))
    have em : ∀ (it : Item) (t : List (Int × Item)), ((n, lineOf it) :: t.map (fun x => (x.1, lineOf x.2))).map (fun _ => ((true, none) : Answer)) = ((n, it) :: t).map (fun _ => (true, none)) := by
      intro it t
      rw [List.map_cons, List.map_cons, List.map_map]; rfl
    have em2 : ∀ t : List (Int × Item), (t.map (fun x => (x.1, lineOf x.2))).map (fun _ => ((true, none) : Answer)) = t.map (fun _ => (true, none)) := by
      intro t
      rw [List.map_map]; rfl
    rw [em, em2] at c1 d1
    have hlt' := List.pairwise_cons.mp hlt
    have next : (parse S o n (lineOf it') p').2 = .ok (true, none) → _ := fun hacc => by
      obtain ⟨u1, u2, u3⟩ := item_after hS hl o ho (hf (n, it') (by simp)) (hmax (n, it') (by simp)) hsort (hnew (n, it') (by simp)) hbal henv hc hacc
      exact ih (parse S o n (lineOf it) p).1 (parse S o n (lineOf it') p').1 hag hb1 hb2 (fun y hy => hf y (by simp [hy])) hlt'.2 (fun y hy => hmax y (by simp [hy])) u1
        (fun y hy i l hl => u2 i l (lt_of_lt_of_le (hlt'.1 y hy) hl)) u3
    simp only [List.map_cons] at c1 d1 ⊢
    refine ⟨⟨fun h => ?_, fun h => ?_⟩, fun h => ?_⟩
    · obtain ⟨h1, h2⟩ := c1.mp h
      rw [ha] at h1
      exact d1.mpr ⟨h1, (next h1).1.mp h2⟩
    · obtain ⟨h1, h2⟩ := d1.mp h
      exact c1.mpr ⟨ha ▸ h1, (next h1).1.mpr h2⟩
    · obtain ⟨h1, h2⟩ := c1.mp h
      have h1' := h1
      rw [ha] at h1'
      rw [c2 h1, d2 h1']
      exact (next h1').2 h2
  induction h with
  | nil => intro p p' ha hb _ _ _ _ _ _ _; exact ⟨⟨fun _ => rfl, fun _ => rfl⟩, fun _ => ⟨ha, hb⟩⟩
  | @assign env n ip e v t t' hv _ ih =>
    intro p p' ha hb hb' hf hlt hmax hsort hnew henv
    have hc : computed (spTr S.tr) env [.assign ip e] = some (fun i => if i = worthOf ip then some v else env i) := by
      unfold computed
      rw [hv]
      rfl
    exact step (item_agree hS o ho (hf (n, .assign ip e) (by simp)) ha hb hb') hc hb' hf hlt hmax hsort hnew henv ih
  | @plain env n b t t' _ ih =>
    intro p p' ha hb hb' hf hlt hmax hsort hnew henv
    exact step (item_agree hS o ho (hf (n, .words b) (by simp)) ha hb hb') (e1 := env) rfl hb' hf hlt hmax hsort hnew henv ih
  | @filled env n b b' t t' hd hfi hsp hk hsw _ ih =>
    intro p p' ha hb hb' hf hlt hmax hsort hnew henv
    have hn := hmax (n, .words b') (by simp)
    have hn0 := hnew (n, .words b') (by simp)
    refine step ?_ (e1 := env) rfl hb' hf hlt hmax hsort hnew henv ih
    have hf' : Filled (fun i => p.macros.valueAt i n) (untouched S) b b' := by
      refine filled_congr hfi (fun i hi => ?_)
      rw [← henv i (hk i hi), ha.1]
      exact MacroMap.valueMax_eq hsort hn (fun id l hl => hn0 id l hl.le) i
    have hd' := (hf (n, .words b') (by simp)).1
    obtain ⟨r1, r2, r3, r4⟩ := parse_filled hS.regular hS.pallet hS.measure o ho n p p' ha hd hd' hf' hsp (by unfold inForce; rw [hsw]; rfl)
    exact ⟨r1, r2, r3 hb, r4 hb'⟩

omit hl ho in
theorem resolved_computed {env : Nat → Option ℚ} {xs ys : List (Int × Item)} (h : Resolved S env xs ys) :
    ∃ env', computed (spTr S.tr) env (ys.map Prod.snd) = some env' := by
  induction h with
  | nil env => exact ⟨env, rfl⟩
  | @assign env n ip e v t t' hv _ ih =>
    obtain ⟨env', h⟩ := ih
    refine ⟨env', ?_⟩
    rw [List.map_cons, computed, hv]
    exact h
  | plain _ ih => exact ih
  | filled _ _ _ _ _ _ ih => exact ih

/-- C99 for programs (partial: as for `C99_line_partial`, and no line reads a variable in which the controller keeps words): a program
of assignments and words with variables is accepted exactly when nothing is wrong with the program in which the computed values
take the place of the variables; then the simulation is that of this program, and the variables have the computed values. -/
theorem C99_program_partial (hgg : SetOfGroups S.gcodes) (hmg : SetOfGroups S.mcodes) {xs ys : List (Int × Item)} (h : Resolved S (constants S) xs ys)
    (hf : ∀ y ∈ ys, Fits S y.2) (hlt : ys.Pairwise (fun x y => x.1 < y.1)) (hr : ∀ y ∈ ys, 0 ≤ y.1 ∧ y.1 ≤ 2147483647) :
    ((program S o (fresh S) (xs.map (fun x => (x.1, lineOf x.2)))).2 = .ok (xs.map (fun _ => (true, none))) ↔
      AllPassing S o S.units (AttrPath.initial S.cfg) [] (ys.map (fun x => blockOf x.2))) ∧
    ((program S o (fresh S) (xs.map (fun x => (x.1, lineOf x.2)))).2 = .ok (xs.map (fun _ => (true, none))) →
      (program S o (fresh S) (xs.map (fun x => (x.1, lineOf x.2)))).1.path =
        simulatedAll S o S.units (AttrPath.initial S.cfg) (ys.map (fun x => blockOf x.2)) ∧
      ∀ env, computed (spTr S.tr) (constants S) (ys.map Prod.snd) = some env → ∀ i, ¬ Kept i →
        (program S o (fresh S) (xs.map (fun x => (x.1, lineOf x.2)))).1.macros.valueMax i = env i) := by
  obtain ⟨f1, f2⟩ := fresh_values S
  obtain ⟨r1, r2⟩ := resolved_run hS hl o ho h (fresh S) (fresh S) (agree_refl _) (show (0 : Int) ≤ bal {} by decide) (show (0 : Int) ≤ bal {} by decide)
    hf hlt (fun y hy => (hr y hy).2) (fresh_sorted S)
    (fun y hy i l hl => by
      have := (hr y hy).1
      show (initMacros S).get ⟨i, l⟩ = none
      rw [f1, if_neg (by omega)])
    (fun i _ => f2 i)
  obtain ⟨q1, q2⟩ := C98_program_partial hS hl o ho hgg hmg ys hf hlt hr
  refine ⟨r1.trans (q1.trans ⟨fun h => h.2, fun h' => ⟨resolved_computed hS h, h'⟩⟩), fun hx => ?_⟩
  obtain ⟨⟨a1, a2, a3, a4⟩, -⟩ := r2 hx
  rw [a1, a2]
  exact q2 (r1.mp hx)

end

/-! ## Variables without a value -/

/-- The words of a declared line: either every variable in the place of a number has a value, or the first without is reported. -/
theorem sub_missing {ops : List Str} {m : MacroMap ℚ} {line : Int} (l : List Dec)
    (hd : ∀ d ∈ l, d.mac.isSome = true → ∃ v, d.value = some v ∧ Spec.Proper.Short v) : ∀ st : Macro.SubSt,
    (∃ st', Macro.subRun ops m line st (l.map .dec) = .ok st' ∧
      ∀ d ∈ l, d.word ∉ Macro.plainWords ++ ops → d.mac.isSome = true → ∀ v, d.value = some v → m.valueAt (readNat v) line ≠ none) ∨
    ∃ d ∈ l, ∃ v, d.mac.isSome = true ∧ d.value = some v ∧ m.valueAt (readNat v) line = none ∧ Macro.subRun ops m line st (l.map .dec) = .throw (.missing v) := by
  induction l with
  | nil => intro st; exact .inl ⟨st, rfl, by simp⟩
  | cons d l ih =>
    intro st
    have run : ∀ st, Macro.subRun ops m line st ((d :: l).map .dec) = (Macro.subStep ops m line st (.dec d) >>= fun s => Macro.subRun ops m line s (l.map .dec)) := fun _ => rfl
    have one : (∃ st1, Macro.subStep ops m line st (.dec d) = .ok st1 ∧
        (d.word ∉ Macro.plainWords ++ ops → d.mac.isSome = true → ∀ v, d.value = some v → m.valueAt (readNat v) line ≠ none)) ∨
        ∃ v, d.mac.isSome = true ∧ d.value = some v ∧ m.valueAt (readNat v) line = none ∧ Macro.subStep ops m line st (.dec d) = .throw (.missing v) := by
      by_cases hc : ((st.interesting || (!Macro.plainWords.contains d.word && !ops.contains d.word)) && d.mac.isSome) = true
      · obtain ⟨hi, hm⟩ := Bool.and_eq_true_iff.mp hc
        obtain ⟨v, hv, hs⟩ := hd d (by simp) hm
        cases hl : m.valueAt (readNat v) line with
        | none =>
          right
          refine ⟨v, hm, hv, hl, ?_⟩
          unfold Macro.subStep
          dsimp only
          rw [if_pos hc, hv]
          dsimp only
          rw [NC.stoi_digits hs.1.2 hs.1.1 hs.2]
          dsimp only
          rw [Int.toNat_natCast, hl]
        | some q =>
          left
          have : ∃ st1, Macro.subStep ops m line st (.dec d) = .ok st1 := by
            unfold Macro.subStep
            dsimp only
            rw [if_pos hc, hv]
            dsimp only
            rw [NC.stoi_digits hs.1.2 hs.1.1 hs.2]
            dsimp only
            rw [Int.toNat_natCast, hl]
            exact ⟨_, rfl⟩
          obtain ⟨st1, e⟩ := this
          exact ⟨st1, e, fun _ _ v' hv' => by rw [hv] at hv'; cases hv'; rw [hl]; simp⟩
      · left
        have : ∃ st1, Macro.subStep ops m line st (.dec d) = .ok st1 := by
          unfold Macro.subStep
          dsimp only
          rw [if_neg hc]
          exact ⟨_, rfl⟩
        obtain ⟨st1, e⟩ := this
        refine ⟨st1, e, fun hw hm => ?_⟩
        exfalso
        apply hc
        have h1 : Macro.plainWords.contains d.word = false := by
          rw [Bool.eq_false_iff]; simp only [ne_eq, List.contains_iff_mem]; exact fun h => hw (by simp [h])
        have h2 : ops.contains d.word = false := by
          rw [Bool.eq_false_iff]; simp only [ne_eq, List.contains_iff_mem]; exact fun h => hw (by simp [h])
        rw [h1, h2, hm]
        simp
    rcases one with ⟨st1, e, hval⟩ | ⟨v, hm, hv, hl, e⟩
    · rcases ih (fun d hd' => hd d (by simp [hd'])) st1 with ⟨st', h1, h2⟩ | ⟨d', h1, v, h2, h3, h4, h5⟩
      · left
        refine ⟨st', by rw [run, e]; exact h1, ?_⟩
        intro x hx
        rcases List.mem_cons.mp hx with rfl | hx
        · exact hval
        · exact h2 x hx
      · exact .inr ⟨d', by simp [h1], v, h2, h3, h4, by rw [run, e]; exact h5⟩
    · exact .inr ⟨d, by simp, v, hm, hv, hl, by rw [run, e]; rfl⟩

theorem sub_decs (ops : List Str) (m : MacroMap ℚ) (line : Int) (b : Block) (st : Macro.SubSt) :
    Macro.subRun ops m line st b = Macro.subRun ops m line st ((decs b).map .dec) := by
  induction b generalizing st with
  | nil => rfl
  | cons a t ih =>
    cases a with
    | str x y => exact ih st
    | chr x y => exact ih st
    | dec d =>
      show (Macro.subStep ops m line st (.dec d) >>= fun s => Macro.subRun ops m line s t) = (Macro.subStep ops m line st (.dec d) >>= fun s => Macro.subRun ops m line s ((decs t).map .dec))
      exact congrArg _ (funext fun s => ih s)

/-- C99: if a variable in the place of a number has no value, the line is refused and nothing changes; unless a word that may stand
once stands twice, the message names a variable of the line without a value. -/
theorem C99_missing {S : Setup} (hR : RegularTables (rangesOf S) S.tables.metric S.ops) (o : Options) (ho : o.evalMacro = true) (line : Int) (p : Parser) {b : Block}
    (hd : Declared (rangesOf S) S.tables.metric S.ops b) (hsp : Spelled b) {d : Dec} (hdb : d ∈ decs b) (hw : d.word ∉ untouched S) (hm : d.mac.isSome = true) {v : Str}
    (hv : d.value = some v) (hl : p.macros.valueAt (readNat v) line = none) :
    ∃ msg, (parse S o line (Source.line b) p).2 = .ok (false, some msg) ∧ Agree p (parse S o line (Source.line b) p).1 ∧
      ((∀ w, DeclaredUnique (Pipe.tableOf S.tables p.units) w → occurs w b ≤ 1) →
        ∃ d' ∈ decs b, ∃ v', d'.mac.isSome = true ∧ d'.value = some v' ∧ p.macros.valueAt (readNat v') line = none ∧
          msg = outText (makeMessage .MissingValue S.lang ['#' :: v'])) := by
  obtain ⟨g, hg⟩ := written_words (lang := S.lang) hR hd { p.gram with msg := [] } [] (by simp)
  rw [List.append_nil] at hg
  have hg : phrase (gramOf S) { p.gram with msg := [] } (Source.line b) = (g, .accept b) := hg
  unfold parse
  rw [hg]
  show ∃ msg, (wordStage S o line true b { p with gram := g }).2 = _ ∧ Agree p (wordStage S o line true b { p with gram := g }).1 ∧ _
  have hhash : ∀ d ∈ decs b, d.word ≠ c!"#" := by
    intro d hd e
    obtain ⟨c, u, h1, h2⟩ := hsp d hd
    rw [e] at h1
    cases h1
    exact absurd h2 (by decide)
  unfold wordStage
  rw [if_pos ho]
  unfold macroStage
  rw [evaluate_unassigned hhash]
  dsimp only
  unfold substituteStage Macro.substitute
  dsimp only
  rw [sub_decs]
  have hshort : ∀ d ∈ decs b, d.mac.isSome = true → ∃ v, d.value = some v ∧ Spec.Proper.Short v := by
    intro d hdm hmm
    obtain ⟨hval, -⟩ := declared_word hd hdm
    cases hval.number with
    | whole h1 => rw [h1] at hmm; cases hmm
    | point h1 => rw [h1] at hmm; cases hmm
    | fraction h1 => rw [h1] at hmm; cases hmm
    | macro_ _ h2 h3 => exact ⟨_, h2, h3⟩
  rcases sub_missing (ops := S.ops) (m := p.macros) (line := line) (decs b) hshort {} with ⟨st', -, h⟩ | ⟨d', h1, v', h2, h3, h4, h5⟩
  · exact absurd hl (h d hdb hw hm v hv)
  · rw [h5]
    by_cases hu : ∀ w, DeclaredUnique (Pipe.tableOf S.tables p.units) w → occurs w b ≤ 1
    · rw [(C30_unique _ _).mpr hu]
      exact ⟨_, rfl, ⟨rfl, rfl, rfl, rfl⟩, fun _ => ⟨d', h1, v', h2, h3, h4, rfl⟩⟩
    · obtain ⟨a, -, -, h⟩ := C30_rejection (Pipe.tableOf S.tables p.units) b (fun h => hu ((C30_unique _ _).mp h))
      rw [h]
      exact ⟨_, rfl, ⟨rfl, rfl, rfl, rfl⟩, fun h' => absurd h' hu⟩

/-! ## Examples -/

/-- `0-1/4`. -/
def quarter : E := .bin (.one (.one (.num [0] [] (by simp)))) .sub (.bin (.one (.num [1] [] (by simp))) .div (.num [4] [] (by simp)))

/-- `G1 X#1 Y#2 F100 (c)`, and with the values 11 and -1/4. -/
def openWords : Block := [.dec { word := c!"G", value := some c!"1" }, .dec { word := c!"X", mac := some c!"#", value := some c!"1" },
  .dec { word := c!"Y", mac := some c!"#", value := some c!"2" }, .dec { word := c!"F", value := some c!"100" }, .str c!"(" c!"c"]
def closedWords : Block := [.dec { word := c!"G", value := some c!"1" }, .dec { word := c!"X", value := some c!"11" },
  .dec { word := c!"Y", sign := some '-', value := some c!"0", dot := some '.', value2 := some c!"25" }, .dec { word := c!"F", value := some c!"100" }, .str c!"(" c!"c"]

example : Source.line openWords = c!"G1 X#1 Y#2 F100 (c)" ∧ Source.line closedWords = c!"G1 X11 Y-0.25 F100 (c)" := by decide +kernel

/-- The lines `#1=ABS[ABS[5]+[2*3]]`, `#2=0-1/4`, `S500 M3`, and the line above. -/
def withVariables : List (Int × Item) := [(1, .assign [1] second), (2, .assign [2] quarter), (3, .words goodWords[0]), (4, .words openWords)]
def withValues : List (Int × Item) := [(1, .assign [1] second), (2, .assign [2] quarter), (3, .words goodWords[0]), (4, .words closedWords)]

theorem open_declared : Declared (rangesOf demo) demo.tables.metric demo.ops openWords ∧ Declared (rangesOf demo) demo.tables.metric demo.ops closedWords := by
  have key : ∀ d : Dec, d.word ∈ decNames demo.tables.metric demo.ops ∧ d.assign = none ∧ Spec.Proper.Signed d ∧ d.openB = none ∧ d.closeB = none ∧
      d.word ∉ Spec.Words.operators ∧ d.word ≠ [] ∧ d.word.head? ≠ some ']' → Spec.Proper.Numbered (rangesOf demo) d →
      Spec.Proper.Word (rangesOf demo) (decNames demo.tables.metric demo.ops) (assignNames demo.tables.metric demo.ops) (.dec d) :=
    fun d ⟨h1, h2, h3, h4, h5, h6, h7⟩ h => .address h1 h2 ⟨h3, h4, h5, h6, h7, h⟩
  have mac : ∀ (w v : Str), Spec.Proper.Short v ∧ readNat v ≤ 1000 → Spec.Proper.Numbered (rangesOf demo) { word := w, mac := some c!"#", value := some v } := by
    intro w v h
    refine .macro_ rfl rfl h.1 rfl rfl ?_
    have k : ∀ wg ∈ (WordMap.find (rangesOf demo) c!"#").toList, wg.rangeFrom ≤ 0 ∧ 1000 ≤ wg.rangeTo := by decide +kernel
    intro wg hwg
    have := k wg (by simp [hwg])
    have := h.2
    omega
  have ap : ∀ (x y : Dec), x.word ≠ c!"O" → Source.word (.dec x) ∉ assignNames demo.tables.metric demo.ops →
      Apart (assignNames demo.tables.metric demo.ops) (.dec x) (.dec y) := fun x y h1 h2 => ⟨fun h => absurd h h1, fun h => absurd h h2⟩
  have sg : ∀ d : Dec, d.sign = none ∨ d.sign = some '-' → Spec.Proper.Signed d := fun d h => h.imp id .inr
  refine ⟨⟨.more (key _ ⟨by decide +kernel, rfl, sg _ (by decide), rfl, rfl, by decide, by decide, by decide⟩ (whole_of c!"1" (by decide +kernel)))
      (.more (key _ ⟨by decide +kernel, rfl, sg _ (by decide), rfl, rfl, by decide, by decide, by decide⟩ (mac _ _ ⟨⟨⟨by decide, by decide⟩, by decide⟩, by decide⟩))
      (.more (key _ ⟨by decide +kernel, rfl, sg _ (by decide), rfl, rfl, by decide, by decide, by decide⟩ (mac _ _ ⟨⟨⟨by decide, by decide⟩, by decide⟩, by decide⟩))
      (.more (key _ ⟨by decide +kernel, rfl, sg _ (by decide), rfl, rfl, by decide, by decide, by decide⟩ (whole_of c!"100" (by decide +kernel)))
      (.one (.comment (by decide)))))), ?_⟩,
    ⟨.more (key _ ⟨by decide +kernel, rfl, sg _ (by decide), rfl, rfl, by decide, by decide, by decide⟩ (whole_of c!"1" (by decide +kernel)))
      (.more (key _ ⟨by decide +kernel, rfl, sg _ (by decide), rfl, rfl, by decide, by decide, by decide⟩ (whole_of c!"11" (by decide +kernel)))
      (.more (key _ ⟨by decide +kernel, rfl, sg _ (by decide), rfl, rfl, by decide, by decide, by decide⟩ ?_)
      (.more (key _ ⟨by decide +kernel, rfl, sg _ (by decide), rfl, rfl, by decide, by decide, by decide⟩ (whole_of c!"100" (by decide +kernel)))
      (.one (.comment (by decide)))))), ?_⟩⟩
  · simp only [openWords, List.isChain_cons_cons, List.isChain_singleton, Apart]
    and_intros <;> first | trivial | decide +kernel
  · refine .point rfl rfl ⟨⟨by decide, by decide⟩, by decide⟩ rfl (by rintro f ⟨⟩; exact ⟨⟨by decide, by decide⟩, by decide⟩) ?_
    intro wg h
    have e : millMetric.find c!"Y" = some wg := h
    have : wg = ((millMetric.find c!"Y").get (by decide +kernel)) := by simp [e]
    subst this
    refine ⟨⟨by decide, by decide⟩, by decide +kernel, by decide +kernel, by decide +kernel, ?_⟩
    rintro f ⟨⟩
    refine ⟨⟨by decide, by decide⟩, ?_, ?_, ?_⟩ <;> decide +kernel
  · simp only [closedWords, List.isChain_cons_cons, List.isChain_singleton, Apart]
    and_intros <;> first | trivial | decide +kernel

theorem open_filled {look : Nat → Option ℚ} (h1 : look 1 = some 11) (h2 : look 2 = some (-1 / 4)) : Filled look (untouched demo) openWords closedWords := by
  refine .cons (.same rfl rfl) (.cons (.value (v := c!"1") (q := 11) (by decide +kernel) rfl rfl ⟨by decide, by decide⟩ (by decide) rfl rfl rfl rfl rfl h1 rfl rfl rfl rfl rfl
    (.whole (v := c!"11") rfl ⟨⟨by decide, by decide⟩, by decide⟩ rfl rfl ?_) (.inl ⟨by norm_num, rfl⟩))
    (.cons (.value (v := c!"2") (q := -1 / 4) (by decide +kernel) rfl rfl ⟨by decide, by decide⟩ (by decide) rfl rfl rfl rfl rfl h2 rfl rfl rfl rfl rfl
    (.point (v := c!"0") (f := c!"25") rfl ⟨⟨by decide, by decide⟩, by decide⟩ rfl rfl ⟨by decide, by decide⟩ (by decide) (by decide) ?_) (.inr ⟨by norm_num, rfl, rfl⟩))
    (.cons (.same rfl rfl) (.cons (.comment _) .nil))))
  · have : readNat c!"11" = 11 := by decide
    rw [this]
    norm_num
  · have e1 : readNat c!"0" = 0 := by decide
    have e2 : readNat c!"25" = 25 := by decide
    have e3 : (c!"25" : Str).length = 2 := rfl
    rw [e1, e2, e3]
    norm_num [abs_of_neg]

theorem open_spelled : Spelled openWords ∧ Spelled closedWords := by
  constructor <;>
  · intro d hd
    simp only [openWords, closedWords, decs, List.mem_cons, List.not_mem_nil, or_false] at hd
    rcases hd with rfl | rfl | rfl | rfl <;> exact ⟨_, _, rfl, by decide⟩

theorem withValues_fits {S : Setup} (h1 : rangesOf S = rangesOf demo) (h2 : S.tables.metric = demo.tables.metric) (h3 : S.ops = demo.ops)
    (h4 : namesOf S = namesOf demo) : ∀ y ∈ withValues, Fits S y.2 := by
  have low : ∀ e : E, (∀ i ∈ readsE e, i < 4102) → ∀ i ∈ readsE e, ¬ Kept i := fun e h i hi hk => by
    have := h i hi
    have := kept_from hk
    omega
  intro y hy
  simp only [withValues, List.mem_cons, List.not_mem_nil, or_false] at hy
  rcases hy with rfl | rfl | rfl | rfl
  · show Numeral (rangesOf S) _ ∧ FitE (rangesOf S) (namesOf S) _ ∧ _
    rw [h1, h4]
    exact ⟨numeral_of _ (by decide), examples_fit.2.1, low _ (by decide)⟩
  · show Numeral (rangesOf S) _ ∧ FitE (rangesOf S) (namesOf S) _ ∧ _
    rw [h1, h4]
    refine ⟨numeral_of _ (by decide), ?_, low _ (by decide)⟩
    unfold quarter
    simp only [FitE, FitT, FitF, LowOk, HighOk]
    and_intros <;> first | trivial | exact modest_of _ _ (by decide)
  · have := good_declared.2 goodWords[0] (by decide)
    exact ⟨by rw [h1, h2, h3]; exact this.1, by decide +kernel, ordinary_of (by decide)⟩
  · exact ⟨by rw [h1, h2, h3]; exact open_declared.2, by decide +kernel, ordinary_of (by decide)⟩

/-- The hypotheses of `C99_program_partial` are met by this program, which is accepted. -/
example : Resolved demo (constants demo) withVariables withValues ∧ (∀ y ∈ withValues, Fits demo y.2) ∧ withValues.Pairwise (fun x y => x.1 < y.1) ∧
    (∀ y ∈ withValues, 0 ≤ y.1 ∧ y.1 ≤ 2147483647) ∧ AllPassing demo serverOptions demo.units (AttrPath.initial demo.cfg) [] (withValues.map (fun x => blockOf x.2)) := by
  have h0 : Resolved demo (constants demo) withVariables withValues := by
    refine .assign (v := 11) (by decide +kernel) (.assign (v := -1 / 4) (by decide +kernel) (.plain (.filled open_declared.1 (open_filled ?_ ?_) open_spelled.2 ?_ (by decide) (.nil _))))
    · decide +kernel
    · decide +kernel
    · intro i hi hk
      have := kept_from hk
      have : i = 1 ∨ i = 2 := by
        have e : reads openWords = [1, 2] := by decide
        rw [e] at hi
        simpa using hi
      omega
  have h1 : withValues.Pairwise (fun x y => x.1 < y.1) := by simp [withValues]
  have h2 : ∀ y ∈ withValues, 0 ≤ y.1 ∧ y.1 ≤ 2147483647 := by simp [withValues]
  exact ⟨h0, withValues_fits rfl rfl rfl rfl, h1, h2, (C99_program_partial demo_ready (lg := .English) rfl serverOptions rfl (by unfold SetOfGroups; decide) (by unfold SetOfGroups; decide) h0
    (withValues_fits rfl rfl rfl rfl) h1 h2).1.mp (by decide +kernel)⟩

/-- The state of `demo` after some lines. -/
def stateAfter (ls : List Str) : Parser := (program demo serverOptions (fresh demo) (lines ls)).1

/-- The hypotheses of `C99_line_partial` are met by the line above after the two assignments, the accepted spindle speed included. -/
example : let p := stateAfter [c!"#1=11", c!"#2=0-1/4", c!"S500 M3"]
    Declared (rangesOf demo) demo.tables.metric demo.ops openWords ∧ Declared (rangesOf demo) demo.tables.metric demo.ops closedWords ∧
    Filled (fun i => p.macros.valueAt i 4) (untouched demo) openWords closedWords ∧ Spelled closedWords ∧ inForce p.units closedWords = p.units ∧
    (parse demo serverOptions 4 (Source.line openWords) p).2 = .ok (true, none) :=
  ⟨open_declared.1, open_declared.2, open_filled (by decide +kernel) (by decide +kernel), open_spelled.2, by decide +kernel, by decide +kernel⟩

/-- The hypotheses of `C99_missing` are met by the line above at the beginning of a program. -/
example : Declared (rangesOf demo) demo.tables.metric demo.ops openWords ∧ Spelled openWords ∧
    ({ word := c!"Y", mac := some c!"#", value := some c!"2" } : Dec) ∈ decs openWords ∧ (c!"Y" : Str) ∉ untouched demo ∧
    (fresh demo).macros.valueAt (readNat c!"2") 1 = none ∧
    (parse demo serverOptions 1 (Source.line openWords) (fresh demo)).2 = .ok (false, some (outText (makeMessage .MissingValue demo.lang [c!"#1"]))) :=
  ⟨open_declared.1, open_spelled.1, by decide, by decide +kernel, by decide +kernel, by decide +kernel⟩

/-! ## Violations -/

/-- C99 violated: a variable with a negative value behind a sign. The line is answered with success and a message, and is not
simulated; the line with the value of the word is. -/
theorem C99_violated_sign :
    (parse demo serverOptions 2 ['G', '0', ' ', 'X', '-', '#', '1'] (stateAfter [c!"#1=0-5"])).2 = .ok (true, some c!"1:3: X--5 <- Value missing for address [X]") ∧
    (parse demo serverOptions 2 ['G', '0', ' ', 'X', '-', '#', '1'] (stateAfter [c!"#1=0-5"])).1.path = (stateAfter [c!"#1=0-5"]).path ∧
    (parse demo serverOptions 2 c!"G0 X5" (stateAfter [c!"#1=0-5"])).2 = .ok (true, none) ∧
    (parse demo serverOptions 2 c!"G0 X5" (stateAfter [c!"#1=0-5"])).1.path ≠ (stateAfter [c!"#1=0-5"]).path := by
  and_intros <;> decide +kernel

/-- C99 violated: a value that is not a multiple of 1/10000. The line is answered with success and a message, and is not simulated;
the same number in the text is refused. -/
theorem C99_violated_decimals :
    (parse demo serverOptions 2 c!"G0 X#1" (stateAfter [c!"#1=1/3"])).2 =
      .ok (true, some c!"1:3: X0.333333 <- Value after dot [333333] not in range [0, 9999] for address [X]") ∧
    (parse demo serverOptions 2 c!"G0 X#1" (stateAfter [c!"#1=1/3"])).1.path = (stateAfter [c!"#1=1/3"]).path ∧
    (parse demo serverOptions 2 c!"G0 X0.333333" (stateAfter [c!"#1=1/3"])).2 =
      .ok (false, some c!"1:4: X0.333333 <- Value after dot [333333] not in range [0, 9999] for address [X]") := by
  and_intros <;> decide +kernel

/-- C99 violated: a line that switches the units. With a variable in the line the new units already hold for the motion of the line,
with a number the old ones do: on a lathe with constant surface speed the time of the motion is another one. -/
theorem C99_violated_units : let lathe : Setup := { demo with cfg := { demo.cfg with mtype := .lathe } }
    let p := (program lathe serverOptions (fresh lathe) (lines [c!"#1=1", c!"S500 M3", c!"G95", c!"G96"])).1
    (parse lathe serverOptions 5 c!"G20 G1 X50 F1" p).2 = .ok (true, none) ∧ (parse lathe serverOptions 5 c!"G20 G1 X50 F#1" p).2 = .ok (true, none) ∧
    (parse lathe serverOptions 5 c!"G20 G1 X50 F1" p).1.units = .imperial ∧ (parse lathe serverOptions 5 c!"G20 G1 X50 F#1" p).1.units = .imperial ∧
    (parse lathe serverOptions 5 c!"G20 G1 X50 F1" p).1.path.time ≠ (parse lathe serverOptions 5 c!"G20 G1 X50 F#1" p).1.path.time := by
  and_intros <;> decide +kernel

/-- C99 violated: an assignment to a word in a line with a variable loses its `=`: `S1=5 X#1` is read as `S15 X1`. -/
theorem C99_violated_equals : Macro.substitute demo.ops (stateAfter [c!"#1=1"]).macros 2
    [.dec { word := c!"S1", assign := some '=', value := some c!"5" }, .dec { word := c!"X", mac := some c!"#", value := some c!"1" }] = .ok c!"S15X1" := by
  decide +kernel

end NC.Props
