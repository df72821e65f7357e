import Verif.GrammarProofs
import Verif.GrammarDemo
import Verif.Spec.Words

/-!
# C35 and C36: the verdict on a line and the ranges of accepted words
-/

namespace NC.Props
open NC NC.Message NC.Gram NC.Spec.Words

/-! ## Lemmas -/

theorem built_chars (words table : WordMap) (ops : List Str) (lang : Lang) : CharsOk (built words table ops lang) :=
  buildSymbols_chars table ops

/-- A successful call accepted the line, and left the message alone. -/
theorem simpleParse_true {G : Gram} {ps ps' : PS} {s : Str} {b : Block} {m : Option Str}
    (h : simpleParse G ps s = (ps', .ret b true m)) :
    phrase G { ps with msg := [] } s = (ps', .accept b) ∧ m = none := by
  unfold simpleParse at h
  split at h
  · rename_i hp; cases h; exact ⟨hp, rfl⟩
  · cases h
  · cases h
  · cases h
  · cases h

theorem simpleParse_accept {G : Gram} {ps ps' : PS} {s : Str} {b : Block}
    (h : phrase G { ps with msg := [] } s = (ps', .accept b)) : simpleParse G ps s = (ps', .ret b true none) := by
  unfold simpleParse; rw [h]

theorem made_passed {G : Gram} {ps ps' : PS} {s r : Str} {d : Dec} (h : Made G ps ps' s (.dec d) r) :
    Shape d ∧ ∃ st, verify G.words G.lang d st = (ps'.st, .pass) := by
  cases h with
  | decimal w r hc ha h hk => exact ⟨operand_shape _ _ _ (by simp), _, (checked_match hk).2.2.1⟩
  | division r h0 hc h hn hk => exact ⟨operand_shape _ _ _ (by simp), _, (checked_match hk).2.2.1⟩
  | assign w r t h0 hc h1 h he hk =>
    exact ⟨operand_shape _ _ _ (by intro c hc; cases hc; rfl), _, (checked_match hk).2.2.1⟩
  | optional r h0 hc h1 h2 h hn hk => exact ⟨operandClosed_shape _ _, _, (checked_match hk).2.2.1⟩

theorem words_passed {G : Gram} {ps ps' : PS} {s : Str} {b : Block} (h : Words G ps s ps' b) {d : Dec}
    (hd : .dec d ∈ b) : Shape d ∧ ∃ st st', verify G.words G.lang d st = (st', .pass) := by
  induction h with
  | done => cases hd
  | word h t ih =>
    rcases List.mem_cons.mp hd with rfl | hd
    · obtain ⟨h1, st, h2⟩ := made_passed (lineAttribute_made h)
      exact ⟨h1, st, _, h2⟩
    · exact ih hd

theorem isOp_iff (w : Str) : isOp w = true ↔ w ∈ operators := by
  simp [isOp, operators, or_assoc]

theorem decimals_pass {l : Lang} {wg : WordGrammar} {d : Dec} {v2 : Str} (hs : Digits v2)
    (h : judgeDecimals l wg d v2 = .pass) : FractionOk wg d v2 := by
  unfold judgeDecimals at h
  by_cases hd : d.dot ≠ some '.'
  · rw [if_pos hd] at h; cases h
  · rw [if_neg hd] at h
    rw [stoi_digits_cases hs.2 hs.1] at h
    by_cases hr : readNat v2 ≤ 2147483647
    · rw [if_pos hr] at h
      dsimp only at h
      split at h
      · cases h
      · rename_i hb
        push Not at hb hd
        exact ⟨hs, hd, by omega, by omega⟩
    · rw [if_neg hr] at h; cases h

/-- What passing means for a plain number. -/
theorem verify_number {g : WordMap} {l : Lang} {d : Dec} {st st' : Status} {wg : WordGrammar} {v : Str} (hs : Shape d)
    (hw : g.find d.word = some wg) (hop : d.word ∉ operators) (hm : d.mac = none) (hv : d.value = some v)
    (h : verify g l d st = (st', .pass)) : Within wg d v := by
  have hop' : isOp d.word = false := by rw [← Bool.not_eq_true]; rw [isOp_iff]; exact hop
  have hsl : d.word ≠ c!"/" := by rintro e; rw [e] at hop; exact hop (by decide)
  unfold verify at h
  rw [hw] at h
  dsimp only at h
  unfold judge at h
  split at h
  · cases h
  · rw [hm] at h
    dsimp only at h
    unfold judgePlain at h
    rw [if_neg (by simp [hsl]), hv] at h
    dsimp only at h
    unfold judgeValue at h
    obtain ⟨hv1, hv2⟩ := hs.value v hv
    rw [stoi_digits_cases hv2 hv1] at h
    by_cases hr : readNat v ≤ 2147483647
    · rw [if_pos hr] at h
      dsimp only at h
      rw [hop'] at h
      split at h
      · cases h
      · rename_i hb
        push Not at hb
        rw [if_neg (by simp), if_neg (by simp)] at h
        have hj : judgeFraction l wg d = .pass := congrArg Prod.snd h
        unfold judgeFraction at hj
        refine ⟨⟨hv1, hv2⟩, hb.1, hb.2, ?_, ?_⟩
        · intro h0
          rw [if_pos h0] at hj
          split at hj
          · cases hj
          · rename_i hd
            have hd' : d.dot = none := by simpa using hd
            refine ⟨hd', ?_⟩
            cases h2 : d.value2 with
            | none => rfl
            | some f => have := (hs.value2 f h2).2.2; rw [hd'] at this; cases this
        · intro f hf
          obtain ⟨f1, f2, f3⟩ := hs.value2 f hf
          by_cases h0 : wg.decTo = 0
          · rw [if_pos h0, f3] at hj; cases hj
          · rw [if_neg h0, hf] at hj
            exact decimals_pass ⟨f1, f2⟩ hj
    · rw [if_neg hr] at h; cases h

/-! ## C36 -/

/-- C36: every number at an address of an accepted line that is no operator is
within the ranges declared for the address. -/
theorem C36_ranges (words table : WordMap) (ops : List Str) (lang : Lang) (ps ps' : PS) (s : Str) (b : Block)
    (m : Option Str) (h : simpleParse (built words table ops lang) ps s = (ps', .ret b true m)) (d : Dec)
    (hd : .dec d ∈ b) (wg : WordGrammar) (hw : WordMap.find words d.word = some wg) (hop : d.word ∉ operators)
    (hm : d.mac = none) (v : Str) (hv : d.value = some v) : Within wg d v := by
  obtain ⟨_, hW⟩ := (phrase_accept (built_chars words table ops lang)).mp (simpleParse_true h).1
  obtain ⟨hs, st, st', hp⟩ := words_passed hW hd
  exact verify_number hs hw hop hm hv hp

/-- C36: the same for a fraction without digits in front of the dot, where the
address allows fractions. -/
theorem C36_fractions (words table : WordMap) (ops : List Str) (lang : Lang) (ps ps' : PS) (s : Str) (b : Block)
    (m : Option Str) (h : simpleParse (built words table ops lang) ps s = (ps', .ret b true m)) (d : Dec)
    (hd : .dec d ∈ b) (wg : WordGrammar) (hw : WordMap.find words d.word = some wg) (hop : d.word ∉ operators)
    (hm : d.mac = none) (hv : d.value = none) (hdec : 0 < wg.decTo) (f : Str) (hf : d.value2 = some f) :
    FractionOk wg d f := by
  obtain ⟨_, hW⟩ := (phrase_accept (built_chars words table ops lang)).mp (simpleParse_true h).1
  obtain ⟨hs, st, st', hp⟩ := words_passed hW hd
  have hsl : d.word ≠ c!"/" := by rintro e; rw [e] at hop; exact hop (by decide)
  have hw' : WordMap.find (built words table ops lang).words d.word = some wg := hw
  unfold verify at hp
  rw [hw'] at hp
  dsimp only at hp
  unfold judge at hp
  split at hp
  · cases hp
  · rw [hm] at hp
    dsimp only at hp
    unfold judgePlain at hp
    rw [if_neg (by simp [hsl]), hv] at hp
    dsimp only at hp
    have hj := congrArg Prod.snd hp
    dsimp only at hj
    unfold judgeNoValue at hj
    rw [if_neg (by omega), hf] at hj
    obtain ⟨f1, f2, _⟩ := hs.value2 f hf
    exact decimals_pass ⟨f1, f2⟩ hj

/-- C36: the number of a macro is within the range declared for `#`. -/
theorem C36_macros (words table : WordMap) (ops : List Str) (lang : Lang) (ps ps' : PS) (s : Str) (b : Block)
    (m : Option Str) (h : simpleParse (built words table ops lang) ps s = (ps', .ret b true m)) (d : Dec)
    (hd : .dec d ∈ b) (wg wh : WordGrammar) (hw : WordMap.find words d.word = some wg)
    (hm : d.mac ≠ none) (hh : WordMap.find words c!"#" = some wh) :
    ∃ v, d.value = some v ∧ Digits v ∧ wh.rangeFrom ≤ readNat v ∧ (readNat v : Int) ≤ wh.rangeTo := by
  obtain ⟨_, hW⟩ := (phrase_accept (built_chars words table ops lang)).mp (simpleParse_true h).1
  obtain ⟨hs, st, st', hp⟩ := words_passed hW hd
  have hw' : WordMap.find (built words table ops lang).words d.word = some wg := hw
  have hh' : WordMap.find (built words table ops lang).words c!"#" = some wh := hh
  unfold verify at hp
  rw [hw'] at hp
  dsimp only at hp
  unfold judge at hp
  split at hp
  · cases hp
  · cases hmm : d.mac with
    | none => exact absurd hmm hm
    | some x =>
      have := hs.mac x hmm
      subst this
      rw [hmm] at hp
      have hj := congrArg Prod.snd hp
      dsimp only at hj
      cases hv : d.value with
      | none => rw [hv] at hj; cases hj
      | some v =>
        rw [hv] at hj
        obtain ⟨v1, v2⟩ := hs.value v hv
        unfold judgeMacro at hj
        dsimp only at hj
        rw [stoi_digits_cases v2 v1] at hj
        by_cases hr : readNat v ≤ 2147483647
        · rw [if_pos hr] at hj
          dsimp only at hj
          unfold judgeInt at hj
          rw [hh'] at hj
          dsimp only at hj
          split at hj
          · cases hj
          · rename_i hb
            push Not at hb
            exact ⟨v, rfl, ⟨v1, v2⟩, hb.1, hb.2⟩
        · rw [if_neg hr] at hj; cases hj

/-- The line is accepted from a new parser, with these words. -/
def accepted (G : Gram) (s : Str) : Option Block :=
  match (simpleParse G {} s).2 with
  | .ret b true _ => some b
  | _ => none

/-- C36 is violated between brackets: `N` does not allow decimals, and `.5` is taken. -/
theorem C36_violated :
    accepted mill c!"#1=[N.5]" = some [.dec { word := c!"#", value := some c!"1" },
      .dec { word := c!"=", openB := some c!"[" },
      .dec { word := c!"N", dot := some '.', value2 := some c!"5", closeB := some c!"]" }] ∧
    (WordMap.find mill.words c!"N").map (·.decTo) = some 0 := by
  constructor <;> decide +kernel

/-- The words of an ordinary line meet the hypotheses. -/
example : accepted mill c!"N10 G1 X-12.5 Y#3 F.25" = some [.dec { word := c!"N", value := some c!"10" },
      .dec { word := c!"G", value := some c!"1" },
      .dec { word := c!"X", sign := some '-', value := some c!"12", dot := some '.', value2 := some c!"5" },
      .dec { word := c!"Y", mac := some c!"#", value := some c!"3" },
      .dec { word := c!"F", dot := some '.', value2 := some c!"25" }] ∧
    (WordMap.find mill.words c!"X").map (fun w => (w.rangeFrom, w.rangeTo, w.decTo)) = some (-99999, 99999, 9999) ∧
    (WordMap.find mill.words c!"F").map (·.decTo) = some 99999 ∧
    (WordMap.find mill.words c!"#").map (·.rangeTo) = some 99999 ∧ c!"X" ∉ operators := by
  refine ⟨?_, ?_, ?_, ?_, ?_⟩ <;> decide +kernel

end NC.Props
