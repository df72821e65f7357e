import Verif.Props.Grammar

/-!
# C35: what the verdict on a line depends on
-/

namespace NC.Props
open NC NC.Message NC.Gram NC.Spec.Words

/-- The grammar object after checking lines one after the other. -/
def after (G : Gram) : PS → List Str → PS
  | ps, [] => ps
  | ps, l :: t => after G (simpleParse G ps l).1 t

/-- The verdict on a line (words, success, message) after a history of lines, by
a parser that was new at the beginning. -/
def verdict (G : Gram) (hist : List Str) (l : Str) : Call := (simpleParse G (after G {} hist) l).2

/-- No macro sign and no square bracket. -/
def NoMarks (s : Str) : Prop := ∀ c ∈ s, c ≠ '#' ∧ c ≠ '[' ∧ c ≠ ']'

theorem NoMarks.suffix {s t : Str} (h : NoMarks s) (ht : t <:+ s) : NoMarks t := fun c hc => h c (ht.subset hc)

theorem value_noMarks (w : Str) (a g : Option Char) {s : Str} (h : NoMarks s) :
    (value w a g none s).1.closeB = none := by
  cases hc : (value w a g none s).1.closeB with
  | none => rfl
  | some b =>
    exfalso
    have hc' : (optRun isClose (skip (optRun isDig (optDot (optRun isDig (skip (optHash s).2)).2).2).2)).1 = some b := hc
    obtain ⟨h1, h2, h3, _⟩ := optRun_some hc'
    cases b with
    | nil => exact h1 rfl
    | cons c b =>
      have hm : c ∈ s := by
        have hs : skip (optRun isDig (optDot (optRun isDig (skip (optHash s).2)).2).2).2 <:+ s :=
          (skip_suffix _).trans ((optRun_suffix _ _).trans ((optDot_suffix _).trans
            ((optRun_suffix _ _).trans ((skip_suffix _).trans (optHash_suffix _)))))
        apply hs.subset
        rw [h3]; simp
      have := h2 c (by simp)
      exact (h c hm).2.2 (by simpa [isClose] using this)

theorem operand_noMarks (w : Str) (a : Option Char) {s : Str} (h : NoMarks s) :
    (operand w a s).1.openB = none ∧ (operand w a s).1.closeB = none := by
  have ho : (optRun isOpen (skip (optSign s).2)).1 = none := by
    cases hc : (optRun isOpen (skip (optSign s).2)).1 with
    | none => rfl
    | some b =>
      exfalso
      obtain ⟨h1, h2, h3, _⟩ := optRun_some hc
      cases b with
      | nil => exact h1 rfl
      | cons c b =>
        have hm : c ∈ s := by
          have hs : skip (optSign s).2 <:+ s := (skip_suffix _).trans (optSign_suffix _)
          apply hs.subset
          rw [h3]; simp
        have := h2 c (by simp)
        exact (h c hm).2.1 (by simpa [isOpen] using this)
  refine ⟨ho, ?_⟩
  unfold operand
  dsimp only
  rw [ho]
  exact value_noMarks _ _ _ (h.suffix ((optRun_suffix _ _).trans ((skip_suffix _).trans (optSign_suffix _))))

theorem operandClosed_noMarks (w : Str) {s : Str} (h : NoMarks s) :
    (operandClosed w s).1.openB = none ∧ (operandClosed w s).1.closeB = none := by
  refine ⟨rfl, ?_⟩
  unfold operandClosed
  dsimp only
  exact value_noMarks _ _ _ (h.suffix (optSign_suffix _))

theorem takeOff_none {d : Dec} (h : d.closeB = none) (s : Status) : takeOff d s = s := by unfold takeOff; rw [h]

theorem judge_status {g : WordMap} {l : Lang} {wg : WordGrammar} {s : Status} {d : Dec} (h : d.closeB = none) :
    (judge g l wg s d).1 = s := by
  unfold judge
  split
  · rfl
  · split
    · rfl
    · unfold judgePlain
      split
      · rfl
      · split
        · unfold judgeValue
          split
          · rfl
          · rfl
          · split
            · rfl
            · split
              · exact takeOff_none h s
              · split <;> rfl
        · rfl

/-- Without `#` and brackets the status stays as it was at first. -/
theorem verify_clean {g : WordMap} {l : Lang} {d : Dec} (ho : d.openB = none) (hc : d.closeB = none)
    (hw : d.word ≠ c!"#") : (verify g l d {}).1 = {} := by
  have h1 : addOpen d {} = {} := by unfold addOpen; rw [ho]
  have h2 : noteMacro d {} = {} := by unfold noteMacro; rw [if_neg hw]; rfl
  have h3 : addClose d {} = {} := by unfold addClose; rw [hc]
  unfold verify
  split
  · exact h1
  · rw [h1, h2, h3]; exact judge_status hc

theorem checked_status (G : Gram) (ps : PS) (p : Dec × Str) :
    (checked G ps p).1.st = (verify G.words G.lang p.1 ps.st).1 := by
  unfold checked; dsimp only; split <;> rfl

theorem symbol_word_ne {syms : List Str} {s w r : Str} (hs : NoMarks s) (h : symbol syms s = some (w, r)) :
    w ≠ c!"#" := by
  rintro rfl
  have := (symbol_some h).2
  exact (hs '#' (by rw [this]; simp)).1 rfl

theorem decimalRule_clean {G : Gram} {ps : PS} {s : Str} (hs : NoMarks s) (hp : ps.st = {}) :
    (decimalRule G ps s).1.st = {} := by
  unfold decimalRule
  split
  · exact hp
  · split
    · rename_i w r h
      have hr : NoMarks r := hs.suffix ((symbol_suffix h).1.trans (skip_suffix s))
      rw [checked_status, hp]
      obtain ⟨h1, h2⟩ := operand_noMarks w none hr
      exact verify_clean h1 h2 (symbol_word_ne (hs.suffix (skip_suffix s)) h)
    · exact hp

theorem divisionRule_clean {G : Gram} {ps : PS} {s : Str} (hs : NoMarks s) (hp : ps.st = {}) :
    (divisionRule G ps s).1.st = {} := by
  unfold divisionRule
  split
  · rename_i r h
    split
    · exact hp
    · rw [checked_status, hp]
      obtain ⟨h1, h2⟩ := operand_noMarks c!"/" none (hs.suffix (tail_suffix h))
      exact verify_clean h1 h2 (by show c!"/" ≠ c!"#"; decide)
  · exact hp

theorem assignRule_clean {G : Gram} {ps : PS} {s : Str} (hs : NoMarks s) (hp : ps.st = {}) :
    (assignRule G ps s).1.st = {} := by
  unfold assignRule
  split
  · rename_i w r h
    have hr : NoMarks r := hs.suffix ((symbol_suffix h).1.trans (skip_suffix s))
    split
    · rename_i t ht
      rw [checked_status, hp]
      obtain ⟨h1, h2⟩ := operand_noMarks w (some '=') (hr.suffix (tail_suffix ht))
      exact verify_clean h1 h2 (symbol_word_ne (hs.suffix (skip_suffix s)) h)
    · exact hp
  · exact hp

theorem optionalRule_clean {G : Gram} {ps : PS} {s : Str} (hs : NoMarks s) (hp : ps.st = {}) :
    (optionalRule G ps s).1.st = {} := by
  unfold optionalRule
  split
  · rename_i r h
    split
    · exact hp
    · rw [checked_status, hp]
      obtain ⟨h1, h2⟩ := operandClosed_noMarks c!"/" (hs.suffix (tail_suffix h))
      exact verify_clean h1 h2 (by show c!"/" ≠ c!"#"; decide)
  · exact hp

theorem orElse_clean {x : PS × Res} {f : PS → PS × Res} (hx : x.1.st = {}) (hf : ∀ q : PS, q.st = {} → (f q).1.st = {}) :
    (orElse x f).1.st = {} := by
  unfold orElse
  split
  · exact hf _ hx
  · exact hx

theorem lineAttribute_clean {G : Gram} {ps : PS} {s : Str} (hs : NoMarks s) (hp : ps.st = {}) :
    (lineAttribute G ps s).1.st = {} := by
  unfold lineAttribute
  refine orElse_clean hp fun q hq => ?_
  refine orElse_clean (decimalRule_clean hs hq) fun q hq => ?_
  refine orElse_clean (divisionRule_clean hs hq) fun q hq => ?_
  refine orElse_clean (assignRule_clean hs hq) fun q hq => ?_
  refine orElse_clean (optionalRule_clean hs hq) fun q hq => ?_
  refine orElse_clean hq fun q hq => ?_
  exact orElse_clean hq fun q hq => hq

theorem moreWords_clean {G : Gram} (n : Nat) {ps : PS} {b : Block} {s : Str} (hs : NoMarks s) (hp : ps.st = {}) :
    (moreWords G n ps b s).1.st = {} := by
  induction n generalizing ps b s with
  | zero => exact hp
  | succ n ih =>
    have hc := lineAttribute_clean (G := G) hs hp
    unfold moreWords
    split
    · rename_i h
      rw [h] at hc
      exact ih (hs.suffix (lineAttribute_suffix h)) hc
    · rename_i h; rw [h] at hc; exact hc
    · rename_i h; rw [h] at hc; exact hc
    · rename_i h; rw [h] at hc; exact hc

theorem phrase_clean {G : Gram} {ps : PS} {s : Str} (hs : NoMarks s) (hp : ps.st = {}) : (phrase G ps s).1.st = {} := by
  have hc := lineAttribute_clean (G := G) hs hp
  unfold phrase
  split
  · rename_i h
    rw [h] at hc
    exact moreWords_clean _ (hs.suffix (lineAttribute_suffix h)) hc
  · rename_i h; rw [h] at hc; exact hc
  · rename_i h; rw [h] at hc; exact hc
  · rename_i h; rw [h] at hc; exact hc

theorem simpleParse_clean {G : Gram} {ps : PS} {s : Str} (hs : NoMarks s) (hp : ps.st = {}) :
    (simpleParse G ps s).1.st = {} := by
  have hc := phrase_clean (G := G) (ps := { ps with msg := [] }) hs hp
  unfold simpleParse
  split <;> (rename_i h; rw [h] at hc; exact hc)

theorem after_clean {G : Gram} {ps : PS} {hist : List Str} (hs : ∀ l ∈ hist, NoMarks l) (hp : ps.st = {}) :
    (after G ps hist).st = {} := by
  induction hist generalizing ps with
  | nil => exact hp
  | cons l t ih => exact ih (fun x hx => hs x (by simp [hx])) (simpleParse_clean (hs l (by simp)) hp)

theorem simpleParse_status {G : Gram} {ps qs : PS} (s : Str) (h : ps.st = qs.st) : simpleParse G ps s = simpleParse G qs s := by
  unfold simpleParse
  have : ({ ps with msg := [] } : PS) = { qs with msg := [] } := by rw [h]
  rw [this]

/-- C35 (partial: histories without macro signs and square brackets): the verdict
on a line — words, success and message — is the same whatever lines were checked before. -/
theorem C35_history_partial (G : Gram) (hist : List Str) (hs : ∀ l ∈ hist, ∀ c ∈ l, c ≠ '#' ∧ c ≠ '[' ∧ c ≠ ']')
    (l : Str) : verdict G hist l = verdict G [] l := by
  unfold verdict
  exact congrArg Prod.snd (simpleParse_status (qs := {}) l (after_clean (ps := {}) hs rfl))

/-- C35 is violated: after `#1=2` the line `X5+3` is accepted, which a new parser rejects. -/
theorem C35_violated_accepts :
    verdict mill [] c!"X5+3" = .ret [.dec { word := c!"X", value := some c!"5" }] false (some c!"1:3: +3") ∧
    verdict mill [c!"#1=2"] c!"X5+3" = .ret [.dec { word := c!"X", value := some c!"5" },
      .dec { word := c!"+", value := some c!"3" }] true none := by
  constructor <;> decide +kernel

/-- C35 is violated: after a line with one bracket too many the closing bracket of
a correct line is refused, and after an assignment an optional block number beyond 9
is accepted. -/
theorem C35_violated_refuses :
    (verdict mill [] c!"#1=[2+3]" = .ret [.dec { word := c!"#", value := some c!"1" },
      .dec { word := c!"=", openB := some c!"[", value := some c!"2" },
      .dec { word := c!"+", value := some c!"3", closeB := some c!"]" }] true none) ∧
    (∃ b m, verdict mill [c!"X5]", c!"X5]"] c!"#1=[2+3]" = .ret b false (some m)) ∧
    (∃ b, verdict mill [] c!"/12 X5" = .ret b false none) ∧
    (∃ b, verdict mill [c!"#1=2"] c!"/12 X5" = .ret b true none) := by
  refine ⟨by decide +kernel, ⟨[.dec { word := c!"#", value := some c!"1" },
      .dec { word := c!"=", openB := some c!"[", value := some c!"2" }],
      c!"1:6: +3] <- Non matching close bracket", by decide +kernel⟩, ⟨[], by decide +kernel⟩,
    ⟨[.dec { word := c!"/", value := some c!"12" }, .dec { word := c!"X", value := some c!"5" }], by decide +kernel⟩⟩

/-! ## Optional blocks -/

theorem verify_optional {g : WordMap} {l : Lang} {d : Dec} {st' : Status} {wg : WordGrammar} (hs : Shape d)
    (hw : g.find d.word = some wg) (hsl : d.word = c!"/") (hm : d.mac = none) (ho : d.openB = none) (hc : d.closeB = none)
    (h : verify g l d {} = (st', .pass)) :
    d.sign = none ∧ d.dot = none ∧ d.value2 = none ∧ ∀ v, d.value = some v → 1 ≤ readNat v ∧ readNat v ≤ 9 := by
  have h1 : addOpen d {} = {} := by unfold addOpen; rw [ho]
  have h2 : noteMacro d {} = {} := by unfold noteMacro; rw [hsl]; rfl
  have h3 : addClose d {} = {} := by unfold addClose; rw [hc]
  unfold verify at h
  rw [hw] at h
  dsimp only at h
  rw [h1, h2, h3] at h
  unfold judge at h
  rw [if_neg (by simp [hc]), hm] at h
  dsimp only at h
  unfold judgePlain at h
  rw [if_pos ⟨hsl, rfl⟩] at h
  have hj := congrArg Prod.snd h
  dsimp only at hj
  have chars : judgeChars l d = .pass → d.sign = none ∧ d.dot = none ∧ d.value2 = none := by
    intro hx
    unfold judgeChars at hx
    split at hx
    · cases hx
    · rename_i hn
      simp at hn
      exact ⟨hn.1.1.1, hn.1.1.2, hn.2⟩
  unfold judgeOptional at hj
  cases hv : d.value with
  | none =>
    rw [hv] at hj
    obtain ⟨a, b, c⟩ := chars hj
    exact ⟨a, b, c, by simp⟩
  | some v =>
    rw [hv] at hj
    dsimp only at hj
    obtain ⟨v1, v2⟩ := hs.value v hv
    rw [stoi_digits_cases v2 v1] at hj
    by_cases hr : readNat v ≤ 2147483647
    · rw [if_pos hr] at hj
      dsimp only at hj
      split at hj
      · cases hj
      · rename_i hb
        obtain ⟨a, b, c⟩ := chars hj
        refine ⟨a, b, c, ?_⟩
        intro x hx
        cases hx
        omega
    · rw [if_neg hr] at hj; cases hj

theorem made_clean {G : Gram} {ps ps' : PS} {s r : Str} {d : Dec} (h : Made G ps ps' s (.dec d) r) (hs : NoMarks s)
    (hp : ps.st = {}) (hsl : d.word = c!"/") :
    d.openB = none ∧ d.closeB = none ∧ d.mac = none ∧ ∃ st', verify G.words G.lang d {} = (st', .pass) := by
  have inv : ∀ (w : Str) (a g : Option Char) (o : Option Str) (u : Str), NoMarks u → (value w a g o u).1.mac = none := by
    intro w a g o u hu
    show (optHash u).1 = none
    rcases optHash_cases u with ⟨r, h1, _⟩ | ⟨h1, _⟩
    · exfalso
      have : '#' ∈ skip u := by rw [h1]; simp
      exact (hu '#' ((skip_suffix u).subset this)).1 rfl
    · rw [h1]
  have opm : ∀ (w : Str) (a : Option Char) (u : Str), NoMarks u → (operand w a u).1.mac = none := by
    intro w a u hu
    exact inv _ _ _ _ _ (hu.suffix ((optRun_suffix _ _).trans ((skip_suffix _).trans (optSign_suffix _))))
  cases h with
  | decimal w r hc ha h hk =>
    have hr : NoMarks r := hs.suffix ((symbol_suffix h).1.trans (skip_suffix s))
    have hv := (checked_match hk).2.2.1
    rw [hp] at hv
    obtain ⟨o, c⟩ := operand_noMarks w none hr
    exact ⟨o, c, opm _ _ _ hr, _, hv⟩
  | division r h0 hc h hn hk =>
    have hr : NoMarks r := hs.suffix (tail_suffix h)
    have hq := decimalRule_clean (G := G) hs hp
    rw [h0] at hq
    have hv := (checked_match hk).2.2.1
    rw [hq] at hv
    obtain ⟨o, c⟩ := operand_noMarks c!"/" none hr
    exact ⟨o, c, opm _ _ _ hr, _, hv⟩
  | assign w r t h0 hc h1 h he hk =>
    have hr : NoMarks t := (hs.suffix ((symbol_suffix h).1.trans (skip_suffix s))).suffix (tail_suffix he)
    have hq := decimalRule_clean (G := G) hs hp
    rw [h0] at hq
    have hq1 := divisionRule_clean (G := G) hs hq
    rw [h1] at hq1
    have hv := (checked_match hk).2.2.1
    rw [hq1] at hv
    obtain ⟨o, c⟩ := operand_noMarks w (some '=') hr
    exact ⟨o, c, opm _ _ _ hr, _, hv⟩
  | optional r h0 hc h1 h2 h hn hk =>
    have hr : NoMarks r := hs.suffix (tail_suffix h)
    have hq := decimalRule_clean (G := G) hs hp
    rw [h0] at hq
    have hq1 := divisionRule_clean (G := G) hs hq
    rw [h1] at hq1
    have hq2 := assignRule_clean (G := G) hs hq1
    rw [h2] at hq2
    have hv := (checked_match hk).2.2.1
    rw [hq2] at hv
    obtain ⟨o, c⟩ := operandClosed_noMarks c!"/" hr
    exact ⟨o, c, inv _ _ _ _ _ (hr.suffix (optSign_suffix _)), _, hv⟩

/-- C36: in a line without macro signs and square brackets, checked after such
lines only, a `/` is followed by nothing but at most one of the numbers 1 to 9. -/
theorem C36_optional_blocks (words table : WordMap) (ops : List Str) (lang : Lang) (hist : List Str)
    (hh : ∀ l ∈ hist, ∀ c ∈ l, c ≠ '#' ∧ c ≠ '[' ∧ c ≠ ']') (l : Str) (hl : ∀ c ∈ l, c ≠ '#' ∧ c ≠ '[' ∧ c ≠ ']')
    (b : Block) (m : Option Str) (h : verdict (built words table ops lang) hist l = .ret b true m) (d : Dec)
    (hd : .dec d ∈ b) (hw : WordMap.find words c!"/" ≠ none) (hsl : d.word = c!"/") :
    d.sign = none ∧ d.mac = none ∧ d.dot = none ∧ d.value2 = none ∧ d.openB = none ∧ d.closeB = none ∧
      ∀ v, d.value = some v → 1 ≤ readNat v ∧ readNat v ≤ 9 := by
  unfold verdict at h
  cases hr : simpleParse (built words table ops lang) (after (built words table ops lang) {} hist) l with
  | mk ps' c =>
    rw [hr] at h
    dsimp only at h
    subst h
    have hW := ((phrase_accept (built_chars words table ops lang)).mp (simpleParse_true hr).1).2
    have h0 : ({ after (built words table ops lang) {} hist with msg := [] } : PS).st = {} := after_clean (ps := {}) hh rfl
    generalize ({ after (built words table ops lang) {} hist with msg := [] } : PS) = ps at hW h0
    clear hr
    induction hW with
    | done => cases hd
    | @word ps ps1 ps' s r a b hla t ih =>
      rcases List.mem_cons.mp hd with rfl | hd
      · have hm := lineAttribute_made hla
        obtain ⟨o, c, mm, st', hv⟩ := made_clean hm hl h0 hsl
        obtain ⟨hs, _⟩ := made_passed hm
        cases hf : WordMap.find words c!"/" with
        | none => exact absurd hf hw
        | some wg =>
          have hf' : WordMap.find (built words table ops lang).words d.word = some wg := by rw [hsl]; exact hf
          obtain ⟨x1, x2, x3, x4⟩ := verify_optional hs hf' hsl mm o c hv
          exact ⟨x1, mm, x2, x3, o, c, x4⟩
      · have hc := lineAttribute_clean (G := built words table ops lang) hl h0
        rw [hla] at hc
        exact ih (NoMarks.suffix hl (lineAttribute_suffix hla)) hd hc

/-- The hypotheses are met: an optional block after an ordinary line. -/
example : verdict mill [c!"G1 X5"] c!"/3 M6" = .ret [.dec { word := c!"/", value := some c!"3" },
      .dec { word := c!"M", value := some c!"6" }] true none ∧
    (∀ c ∈ c!"/3 M6", c ≠ '#' ∧ c ≠ '[' ∧ c ≠ ']') ∧ WordMap.find millMetric c!"/" ≠ none := by
  refine ⟨by decide +kernel, by decide, by decide +kernel⟩

end NC.Props
