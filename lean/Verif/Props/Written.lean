import Verif.GrammarAccept
import Verif.Props.Check

/-! # C86: words as the table declares them are accepted -/

namespace NC.Props
open NC NC.Message NC.Gram NC.Pipe NC.Spec.Tables NC.Spec.Check NC.Spec.Verify NC.Spec.Units
open NC.Spec (Source.line Source.word)

/-- The block consists of words as the tables declare them, and neighbours can be written one after
the other. -/
def Declared (words table : WordMap) (ops : List Str) (b : Block) : Prop :=
  Spec.Proper.Line words (decNames table ops) (assignNames table ops) b ∧ List.IsChain (Apart (assignNames table ops)) b

theorem written_words {words table : WordMap} {ops : List Str} {lang : Lang} (hR : RegularTables words table ops) {b : Block}
    (h : Declared words table ops b) (ps : PS) (blanks : Str) (hbl : ∀ c ∈ blanks, c = ' ' ∨ c = '\t') :
    ∃ ps', phrase (built words table ops lang) ps (Source.line b ++ blanks) = (ps', .accept b) := by
  have hs : skip blanks = [] := by
    induction blanks with
    | nil => rfl
    | cons c t ih =>
      have hc : isBlank c = true := by rcases hbl c (by simp) with rfl | rfl <;> decide
      rw [skip_of_blank hc]
      exact ih (fun c hc => hbl c (by simp [hc]))
  obtain ⟨ps', hw⟩ := line_direct (regularG hR lang) h.1 h.2 hs _ rfl ps
  obtain ⟨_, _, _, _, rfl, _⟩ := line_first (regularG hR lang) h.1
  exact ⟨ps', (phrase_accept (built_chars words table ops lang)).mpr ⟨by simp, hw⟩⟩

/-- C86: a line of words as the tables declare them is accepted as these words, whatever the parser has
read before, also with blanks at the end. -/
theorem C86_line (words table : WordMap) (ops : List Str) (lang : Lang) (hR : RegularTables words table ops) (b : Block)
    (h : Declared words table ops b) (hist : List Str) (blanks : Str) (hbl : ∀ c ∈ blanks, c = ' ' ∨ c = '\t') :
    verdict (built words table ops lang) hist (Source.line b ++ blanks) = .ret b true none := by
  unfold verdict
  obtain ⟨ps', hp⟩ := written_words (lang := lang) hR h { (after (built words table ops lang) {} hist) with msg := [] } blanks hbl
  rw [simpleParse_accept hp]

theorem readAs_written (S : Setup) (hR : RegularTables (Pipe.tableOf S.tables S.units) S.tables.metric S.ops) (bs : List (Int × Block))
    (h : ∀ x ∈ bs, Declared (Pipe.tableOf S.tables S.units) S.tables.metric S.ops x.2) :
    ∀ g, ReadAs S g (bs.map (fun x => (x.1, Source.line x.2))) (bs.map Prod.snd) := by
  induction bs with
  | nil => intro g; exact .nil g
  | cons x t ih =>
    intro g
    obtain ⟨g', hp⟩ := written_words (lang := S.lang) hR (h x (by simp)) { g with msg := [] } [] (by simp)
    rw [List.append_nil] at hp
    exact .cons hp (ih (fun y hy => h y (by simp [hy])) g')

/-- C86 for whole programs (partial: as for C85, no `#`, numbers after G and M whole): a program written
from words as the tables declare them is accepted line by line exactly when nothing is wrong with any
block; then the simulation is that of the words. -/
theorem C86_program_partial (S : Setup) (l : Enums.ELanguage) (hl : S.lang = .known l) (o : Options) (ho : o.evalMacro = true)
    (hgg : SetOfGroups S.gcodes) (hmg : SetOfGroups S.mcodes)
    (hR : RegularTables (Pipe.tableOf S.tables S.units) S.tables.metric S.ops) (bs : List (Int × Block))
    (hd : ∀ x ∈ bs, Declared (Pipe.tableOf S.tables S.units) S.tables.metric S.ops x.2)
    (hs : ∀ x ∈ bs, '#' ∉ Source.line x.2) (hb : ∀ x ∈ bs, Ordinary S.lathe S.limits x.2) :
    ((program S o (fresh S) (bs.map (fun x => (x.1, Source.line x.2)))).2 = .ok (bs.map (fun _ => (true, none))) ↔
      AllPassing S o S.units (AttrPath.initial S.cfg) [] (bs.map Prod.snd)) ∧
    ((program S o (fresh S) (bs.map (fun x => (x.1, Source.line x.2)))).2 = .ok (bs.map (fun _ => (true, none))) →
      (program S o (fresh S) (bs.map (fun x => (x.1, Source.line x.2)))).1.path =
        simulatedAll S o S.units (AttrPath.initial S.cfg) (bs.map Prod.snd)) := by
  have := C85_program_partial S l hl o ho hgg hmg _ _ (readAs_written S hR bs hd {})
    (by intro x hx; obtain ⟨y, hy, rfl⟩ := List.mem_map.mp hx; exact hs y hy)
    (by intro b hb'; obtain ⟨y, hy, rfl⟩ := List.mem_map.mp hb'; exact hb y hy)
  rw [List.map_map] at this
  exact ⟨this.1, fun h => (this.2 h).1⟩

/-- A check that computes for whole numbers. -/
theorem whole_of {words : WordMap} {d : Dec} (v : Str) (h : d.mac = none ∧ d.value = some v ∧ d.dot = none ∧ d.value2 = none ∧ v ≠ [] ∧
    (∀ c ∈ v, isDig c = true) ∧ readNat v ≤ 2147483647 ∧
    (words.find d.word).all (fun wg => decide (wg.rangeFrom ≤ Spec.Words.number d v) && decide (Spec.Words.number d v ≤ wg.rangeTo)) = true) :
    Spec.Proper.Numbered words d := by
  obtain ⟨h1, h2, h3, h4, h5, h6, h7, h8⟩ := h
  refine .whole h1 h2 ⟨⟨h5, h6⟩, h7⟩ h3 h4 ?_
  intro wg hw
  rw [hw] at h8
  simp only [Option.all_some, Bool.and_eq_true, decide_eq_true_eq] at h8
  exact ⟨⟨h5, h6⟩, h8.1, h8.2, fun _ => ⟨h3, h4⟩, by rw [h4]; nofun⟩

/-- A line with every kind of word: a program name with an underscore, an address with a sign and a
fraction, one with a fraction alone, one with a variable, an assignment, a comment and `%`. -/
def everyKind : Block :=
  [.str c!"O" c!"1_a", .str c!"(" c!"ok [", .dec { word := c!"X", sign := some '-', value := some c!"1", dot := some '.', value2 := some c!"5" },
    .dec { word := c!"F", dot := some '.', value2 := some c!"5" }, .dec { word := c!"Y", mac := some c!"#", value := some c!"3" },
    .dec { word := c!"S1", assign := some '=', value := some c!"5" }, .chr c!"%" '\x00']

/-- The hypotheses of `C86_line` are met by the shipped tables and this line. -/
example : Declared millMetric millMetric millOps everyKind ∧ Source.line everyKind = c!"O1_a (ok [) X-1.5 F.5 Y#3 S1=5 %" := by
  refine ⟨⟨?_, ?_⟩, by decide +kernel⟩
  · unfold everyKind
    refine .more (.program (by decide) (by decide) (by decide +kernel)) (.more (.comment (by decide)) (.more (.address (by decide +kernel) rfl
      ⟨.inr (.inr rfl), rfl, rfl, by decide, by decide, ?_⟩) (.more (.address (by decide +kernel) rfl
      ⟨.inl rfl, rfl, rfl, by decide, by decide, ?_⟩) (.more (.address (by decide +kernel) rfl
      ⟨.inl rfl, rfl, rfl, by decide, by decide, ?_⟩) (.more (.assignment (by decide +kernel) rfl
      ⟨.inl rfl, rfl, rfl, by decide, by decide, ?_⟩) .percent)))))
    · refine .point rfl rfl ⟨⟨by decide, by decide⟩, by decide⟩ rfl (by rintro f ⟨⟩; exact ⟨⟨by decide, by decide⟩, by decide⟩) ?_
      intro wg h
      have e : millMetric.find c!"X" = some wg := h
      have : wg = ((millMetric.find c!"X").get (by decide +kernel)) := by simp [e]
      subst this
      refine ⟨⟨by decide, by decide⟩, by decide +kernel, by decide +kernel, by decide +kernel, ?_⟩
      rintro f ⟨⟩
      refine ⟨⟨by decide, by decide⟩, ?_, ?_, ?_⟩ <;> decide +kernel
    · refine .fraction rfl rfl rfl rfl ⟨⟨by decide, by decide⟩, by decide⟩ ?_
      intro wg h
      have e : millMetric.find c!"F" = some wg := h
      have : wg = ((millMetric.find c!"F").get (by decide +kernel)) := by simp [e]
      subst this
      refine ⟨by decide +kernel, ⟨by decide, by decide⟩, ?_, ?_, ?_⟩ <;> decide +kernel
    · refine .macro_ rfl rfl ⟨⟨by decide, by decide⟩, by decide⟩ rfl rfl ?_
      intro wg e
      have : wg = ((millMetric.find c!"#").get (by decide +kernel)) := by simp [e]
      subst this
      decide +kernel
    · exact whole_of c!"5" (by decide +kernel)
  · simp only [everyKind, List.isChain_cons_cons, List.isChain_singleton, Apart]
    and_intros <;> first | trivial | decide +kernel

/-- The hypotheses of `C86_program_partial` are met by a program that passes. -/
theorem good_declared : RegularTables (Pipe.tableOf demo.tables demo.units) demo.tables.metric demo.ops ∧
    ∀ b ∈ goodWords, Declared (Pipe.tableOf demo.tables demo.units) demo.tables.metric demo.ops b ∧ '#' ∉ Source.line b ∧ Ordinary demo.lathe demo.limits b := by
  refine ⟨mill_regular.1, ?_⟩
  have key : ∀ (w v : Str), Spec.Proper.Numbered (Pipe.tableOf demo.tables demo.units) { word := w, value := some v } → w ≠ [] → w.head? ≠ some ']' →
      w ∉ Spec.Words.operators → w ∈ decNames demo.tables.metric demo.ops →
      Spec.Proper.Word (Pipe.tableOf demo.tables demo.units) (decNames demo.tables.metric demo.ops) (assignNames demo.tables.metric demo.ops)
        (.dec { word := w, value := some v }) :=
    fun w v h1 h2 h3 h4 h5 => .address h5 rfl ⟨.inl rfl, rfl, rfl, h4, ⟨h2, h3⟩, h1⟩
  have num : ∀ (w v : Str), _ → Spec.Proper.Numbered (Pipe.tableOf demo.tables demo.units) { word := w, value := some v } := fun w v h => whole_of v h
  have ap : ∀ (x y : Dec), x.word ≠ c!"O" → Source.word (.dec x) ∉ assignNames demo.tables.metric demo.ops →
      Apart (assignNames demo.tables.metric demo.ops) (.dec x) (.dec y) := fun x y h1 h2 => ⟨fun h => absurd h h1, fun h => absurd h h2⟩
  intro b hb
  simp only [goodWords, List.mem_cons, List.not_mem_nil, or_false] at hb
  rcases hb with rfl | rfl | rfl
  · refine ⟨⟨.more (key _ _ (num _ _ (by decide +kernel)) (by decide) (by decide) (by decide) (by decide +kernel))
      (.one (key _ _ (num _ _ (by decide +kernel)) (by decide) (by decide) (by decide) (by decide +kernel))), ?_⟩, by decide +kernel, ordinary_of (by decide)⟩
    exact .cons_cons (ap _ _ (by decide) (by decide +kernel)) (.singleton _)
  · refine ⟨⟨.more (key _ _ (num _ _ (by decide +kernel)) (by decide) (by decide) (by decide) (by decide +kernel))
      (.more (key _ _ (num _ _ (by decide +kernel)) (by decide) (by decide) (by decide) (by decide +kernel))
      (.one (key _ _ (num _ _ (by decide +kernel)) (by decide) (by decide) (by decide) (by decide +kernel)))), ?_⟩, by decide +kernel, ordinary_of (by decide)⟩
    exact .cons_cons (ap _ _ (by decide) (by decide +kernel)) (.cons_cons (ap _ _ (by decide) (by decide +kernel)) (.singleton _))
  · exact ⟨⟨.one (key _ _ (num _ _ (by decide +kernel)) (by decide) (by decide) (by decide) (by decide +kernel)), .singleton _⟩, by decide +kernel, ordinary_of (by decide)⟩

end NC.Props
