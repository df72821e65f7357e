import Verif.GrammarRound
import Verif.Props.Verdict
import Verif.Props.Wrapper

/-!
# C37: what is written of the words is read as the same words

Also C35 for lines of ordinary words.
-/

namespace NC.Props
open NC NC.Message NC.Gram NC.Spec.Words NC.Spec.Tables
open NC.Spec (Source.line Source.word)

/-- The names of the parser made for the tables. -/
def decNames (table : WordMap) (ops : List Str) : List Str := (buildSymbols table ops).decs
def assignNames (table : WordMap) (ops : List Str) : List Str := (buildSymbols table ops).assigns

/-- The tables are regular, with the addresses of `words` having ranges. -/
def RegularTables (words table : WordMap) (ops : List Str) : Prop :=
  Regular (decNames table ops) (assignNames table ops) (fun w => (words.find w).isSome)

theorem regularG {words table : WordMap} {ops : List Str} (h : RegularTables words table ops) (lang : Lang) :
    RegularG (built words table ops lang) := ⟨rfl, h⟩

/-- C37 (partial: regular word tables; no lone commas, nothing dropped after a
program name, no word followed by `=` that reads as an assignable address): the
words of an accepted line, written with blanks between them as the conversions
do, are accepted again by a parser in the same state, as the same words and with
the same final state; also with a blank at the end, as the server writes it. -/
theorem C37_round_trip_partial (words table : WordMap) (ops : List Str) (lang : Lang) (hR : RegularTables words table ops)
    (ps ps' : PS) (s : Str) (b : Block) (m : Option Str)
    (h : simpleParse (built words table ops lang) ps s = (ps', .ret b true m)) (hb : Writable (assignNames table ops) b)
    (blanks : Str) (hbl : ∀ c ∈ blanks, c = ' ' ∨ c = '\t') :
    simpleParse (built words table ops lang) ps (Source.line b ++ blanks) = (ps', .ret b true none) := by
  obtain ⟨hp, _⟩ := simpleParse_true h
  obtain ⟨hne, hw⟩ := (phrase_accept (built_chars words table ops lang)).mp hp
  have hs : skip blanks = [] := by
    clear h
    induction blanks with
    | nil => rfl
    | cons c t ih =>
      have hc : isBlank c = true := by rcases hbl c (by simp) with rfl | rfl <;> decide
      rw [skip_of_blank hc]
      exact ih (fun c hc => hbl c (by simp [hc]))
  obtain ⟨_, h2⟩ := words_back (regularG hR lang) hw hb hs
  exact simpleParse_accept ((phrase_accept (built_chars words table ops lang)).mpr ⟨hne, h2 _ rfl⟩)

/-- The shipped tables are regular, both for metric and for imperial default units. -/
theorem mill_regular : RegularTables millMetric millMetric millOps ∧ RegularTables millImperial millMetric millOps := by
  constructor <;> (constructor <;> decide +kernel)

/-- C37 for the shipped tables and the text handed to clients. -/
theorem C37_mill_partial (ps ps' : PS) (s : Str) (b : Block) (m : Option Str)
    (h : simpleParse mill ps s = (ps', .ret b true m)) (hb : Writable [c!"A2", c!"B2", c!"C2", c!"S1", c!"S2", c!"S3"] b) :
    simpleParse mill ps (Wrap.blockText b) = (ps', .ret b true none) := by
  have e : assignNames millMetric millOps = [c!"A2", c!"B2", c!"C2", c!"S1", c!"S2", c!"S3"] := by decide +kernel
  have := C37_round_trip_partial millMetric millMetric millOps (.known .English) mill_regular.1 ps ps' s b m h
    (by rw [e]; exact hb) [] (by simp)
  rw [blockText_eq, ← List.append_nil (Source.line b)]
  exact this

/-- The words of a line. -/
def demoWords : Block :=
  [.str c!"O" c!"12", .str c!"(" c!"ok", .dec { word := c!"N", value := some c!"10" },
    .dec { word := c!"G", value := some c!"01" },
    .dec { word := c!"X", sign := some '-', value := some c!"1", dot := some '.', value2 := some c!"5" },
    .dec { word := c!"Y", openB := some c!"[", mac := some c!"#", value := some c!"3" },
    .dec { word := c!"+", value := some c!"2", closeB := some c!"]" },
    .dec { word := c!"S1", assign := some '=', value := some c!"5" }]

/-- C37 is violated: letters after a program name are dropped, and then the
following word is swallowed; a lone comma at the end is not accepted without a
blank after it; a comma after a bracket is not accepted with a blank in front of
it; and `A 2=5` becomes an assignment to `A2`. -/
theorem C37_violated :
    (accepted mill c!"O12 AB N5").map (fun b => (Source.line b, accepted mill (Source.line b))) = some (c!"O12 N5", none) ∧
    (accepted mill c!"G1 , ").map (fun b => (Source.line b, accepted mill (Source.line b))) = some (c!"G1 ,", none) ∧
    (accepted mill c!"X[5], Y1").map (fun b => (Source.line b, accepted mill (Source.line b))) =
      some (c!"X[5] , Y1", none) ∧
    accepted mill c!"A 2=5" = some [.dec { word := c!"A", value := some c!"2" },
      .dec { word := c!"=", value := some c!"5" }] ∧
    Source.line [.dec { word := c!"A", value := some c!"2" }, .dec { word := c!"=", value := some c!"5" }] = c!"A2 =5" ∧
    accepted mill c!"A2 =5" = some [.dec { word := c!"A2", assign := some '=', value := some c!"5" }] := by
  refine ⟨?_, ?_, ?_, ?_, ?_, ?_⟩ <;> decide +kernel

/-- An ordinary line meets the hypotheses of `C37_mill_partial`, and its words are
written differently from the line. -/
example : accepted mill c!"O12(ok)N10G01X-1.5  Y[#3+ 2]S1 = 5" = some demoWords ∧
    Writable [c!"A2", c!"B2", c!"C2", c!"S1", c!"S2", c!"S3"] demoWords ∧
    Source.line demoWords = c!"O12 (ok) N10 G01 X-1.5 Y[#3 +2] S1=5" := by
  refine ⟨by decide +kernel, ⟨by decide +kernel, ?_⟩, by decide +kernel⟩
  simp only [demoWords, List.isChain_cons_cons, List.isChain_singleton, Apart]
  and_intros <;> first | trivial | decide +kernel

/-! ## Ordinary words -/

theorem verify_plain (g : WordMap) (l : Lang) (d : Dec) (hp : Plain (.dec d)) (s s' : Status) :
    (verify g l d s).2 = (verify g l d s').2 := by
  obtain ⟨hv, ho, hc, hop⟩ := hp
  have hop' : isOp d.word = false := by rw [← Bool.not_eq_true]; rw [isOp_iff]; exact hop
  have hsl : d.word ≠ c!"/" := by rintro e; rw [e] at hop; exact hop (by decide)
  obtain ⟨v, hv⟩ := Option.ne_none_iff_exists'.mp hv
  have key : ∀ (wg : WordGrammar) (s : Status), (judge g l wg s d).2 =
      match d.mac with
      | some m => judgeMacro g l m d.value
      | none => (judgeValue l wg {} d v).2 := by
    intro wg s
    unfold judge
    rw [hc, if_neg (by simp)]
    cases hm : d.mac with
    | some m => rfl
    | none =>
      dsimp only
      unfold judgePlain
      rw [if_neg (by simp [hsl]), hv]
      dsimp only
      unfold judgeValue
      cases stoi v with
      | throw e => rfl
      | ub => rfl
      | ok n =>
        dsimp only
        by_cases hr : signed d n < wg.rangeFrom ∨ signed d n > wg.rangeTo
        · rw [if_pos hr, if_pos hr]
        · rw [if_neg hr, if_neg hr]
          simp [hop']
  unfold verify
  cases g.find d.word with
  | none => rfl
  | some wg => dsimp only; rw [key, key]

theorem checked_plain {G : Gram} {ps ps' : PS} {p : Dec × Str} (hp : Plain (.dec p.1)) {a : Attr} {r : Str}
    (h : checked G ps p = (ps', .match_ a r)) (qs : PS) : ∃ qs', checked G qs p = (qs', .match_ a r) := by
  obtain ⟨rfl, rfl, h3, _⟩ := checked_match h
  have : (verify G.words G.lang p.1 qs.st).2 = .pass := by
    rw [verify_plain G.words G.lang p.1 hp qs.st ps.st, h3]
  refine ⟨{ qs with st := (verify G.words G.lang p.1 qs.st).1 }, ?_⟩
  unfold checked
  dsimp only
  rw [this]

theorem line_plain {G : Gram} (R : RegularG G) {ps ps' : PS} {s r : Str} {a : Attr} (hp : Plain a)
    (h : lineAttribute G ps s = (ps', .match_ a r)) (qs : PS) : ∃ qs', lineAttribute G qs s = (qs', .match_ a r) := by
  replace h := lineAttribute_made h
  cases h with
  | comma w r c h hb hp =>
    refine ⟨qs, ?_⟩
    have : charRule G s = .match_ (.chr w '\x00') (skip r) := by unfold charRule; rw [h]; dsimp only; rw [if_pos hb]
    unfold lineAttribute
    rw [this]
    rfl
  | decimal w r hc ha h hk =>
    obtain ⟨qs', e⟩ := checked_plain hp hk qs
    refine ⟨qs', line_decimal hc ?_⟩
    unfold decimalRule
    rw [ha, if_neg (by simp), h]
    exact e
  | division r h0 hc h hn hk => exact absurd (show c!"/" ∈ operators by decide) hp.2.2.2
  | assign w r z h0 hc h1 h he' hk =>
    obtain ⟨h5, h6⟩ := symbol_some h
    obtain ⟨h3, h4, _⟩ := longest_some h5
    have a0 : assignAhead G s = true := by unfold assignAhead; rw [h]; dsimp only; rw [he']; rfl
    have e0 : ∀ ps, decimalRule G ps s = (ps, .fail) := by intro ps; unfold decimalRule; rw [a0, if_pos rfl]
    have hsl : hd s ≠ some '/' := by
      cases w with
      | nil => exact absurd rfl h4
      | cons c w =>
        rw [head_of_hd h6]
        intro hcc
        have : c = '/' := by simpa using hcc
        subst this
        exact absurd (assign_not R h3 rfl) (by decide)
    obtain ⟨qs', e⟩ := checked_plain hp hk qs
    refine ⟨qs', line_assign hc (e0 qs) (division_other hsl qs) ?_⟩
    have : assignRule G qs s = checked G qs (operand w (some '=') z) := by
      unfold assignRule
      rw [h]
      dsimp only
      rw [he']
      rfl
    rw [this]
    exact e
  | optional r h0 hc h1 h2 h hn hk => exact absurd (show c!"/" ∈ operators by decide) hp.2.2.2
  | comment r0 t0 c h0 hc h1 h2 h3 h ht0 =>
    refine ⟨qs, ?_⟩
    rw [line_other hc (rules_reserved R h (by decide) (by decide) qs), comment_eq h ht0]
    rfl
  | start r0 h0 hc h1 h2 h3 h hr0 =>
    refine ⟨qs, ?_⟩
    rw [line_other hc (rules_reserved R h (by decide) (by decide) qs),
      comment_other (by rw [head_of_hd h]; decide), start_eq h hr0]
    rfl
  | name r0 t0 n h0 hc h1 h2 h3 h hn =>
    refine ⟨qs, ?_⟩
    rw [line_other hc (rules_name R h (name_symbol R h h0) qs),
      comment_other (by rw [head_of_hd h]; decide), start_other (by rw [head_of_hd h]; decide), name_eq h hn]
    rfl

theorem words_plain {G : Gram} (R : RegularG G) {ps ps' : PS} {s : Str} {b : Block} (h : Words G ps s ps' b)
    (hp : ∀ a ∈ b, Plain a) (qs : PS) : ∃ qs', Words G qs s qs' b := by
  induction h generalizing qs with
  | done _ _ h => exact ⟨qs, .done _ _ h⟩
  | word h _ ih =>
    obtain ⟨q1, e⟩ := line_plain R (hp _ (by simp)) h qs
    obtain ⟨q2, t⟩ := ih (fun a ha => hp a (by simp [ha])) q1
    exact ⟨q2, .word e t⟩

/-- C35 for ordinary lines (partial: regular tables; lines of words with numbers
or macro numbers and without brackets, operators and optional blocks): if the
line is accepted after some history, it is accepted as the same words after any
other history, whatever that history contains. -/
theorem C35_ordinary_partial (words table : WordMap) (ops : List Str) (lang : Lang)
    (hR : RegularTables words table ops) (hist hist' : List Str) (l : Str) (b : Block) (m : Option Str)
    (h : verdict (built words table ops lang) hist l = .ret b true m) (hp : ∀ a ∈ b, Plain a) :
    verdict (built words table ops lang) hist' l = .ret b true m := by
  set G := built words table ops lang with hG
  unfold verdict at h ⊢
  obtain ⟨h1, rfl⟩ := simpleParse_true (G := G) (ps := after G {} hist) (s := l) (ps' := (simpleParse G (after G {} hist) l).1)
    (Prod.ext rfl h)
  obtain ⟨hne, hw⟩ := (phrase_accept (built_chars words table ops lang)).mp h1
  obtain ⟨qs', hw'⟩ := words_plain (regularG hR lang) hw hp { (after G {} hist') with msg := [] }
  show (simpleParse G (after G {} hist') l).2 = _
  rw [simpleParse_accept ((phrase_accept (built_chars words table ops lang)).mpr ⟨hne, hw'⟩)]

/-- An ordinary line and histories which change the state of the parser. -/
example : verdict mill [] c!"N10 G1 X#3 F.5 (x)" = .ret [.dec { word := c!"N", value := some c!"10" },
      .dec { word := c!"G", value := some c!"1" }, .dec { word := c!"X", mac := some c!"#", value := some c!"3" },
      .dec { word := c!"F", dot := some '.', value2 := some c!"5" }, .str c!"(" c!"x"] true none ∧
    (after mill {} [c!"#1=[2"]).st ≠ (after mill {} []).st := by
  constructor <;> decide +kernel

end NC.Props

