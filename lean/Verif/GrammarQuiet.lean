import Verif.GrammarRound

/-! # Accepted lines leave no message, and what the words of a line are made of -/

namespace NC.Gram
open NC NC.Message NC.Spec NC.Spec.Tables

theorem judgeMissing_closed (l : Lang) (wg : WordGrammar) (t : Status) (k : Int) (d : Dec) :
    judgeMissing l wg { t with closed := k } d = judgeMissing l wg t d := rfl

theorem judgePlain_closed (l : Lang) (wg : WordGrammar) (t : Status) (k : Int) (d : Dec) :
    (judgePlain l wg { t with closed := k } d).2 = (judgePlain l wg t d).2 := by
  unfold judgePlain
  dsimp only
  by_cases h : d.word = c!"/" ∧ t.wasMacro = false
  · rw [if_pos h, if_pos h]
  · rw [if_neg h, if_neg h]
    cases d.value with
    | none => rfl
    | some v =>
      show (judgeValue l wg { t with closed := k } d v).2 = (judgeValue l wg t d v).2
      unfold judgeValue
      cases stoi v with
      | throw e => rfl
      | ub => rfl
      | ok n =>
        dsimp only
        by_cases h1 : signed d n < wg.rangeFrom ∨ signed d n > wg.rangeTo
        · rw [if_pos h1, if_pos h1]
        · rw [if_neg h1, if_neg h1]
          by_cases h2 : isOp d.word = true ∧ t.opened > 0
          · rw [if_pos h2, if_pos h2]
          · rw [if_neg h2, if_neg h2]
            by_cases h3 : isOp d.word = true ∧ ¬ (t.wasMacro = true ∧ t.wasEq = true)
            · rw [if_pos h3, if_pos h3]
            · rw [if_neg h3, if_neg h3]

/-- A refused word leaves the status as it was after counting brackets. -/
theorem judge_refuse {g : WordMap} {l : Lang} {wg : WordGrammar} {t s1 : Status} {d : Dec} {m : Str}
    (h : judge g l wg t d = (s1, .refuse m)) : s1 = t := by
  unfold judge at h
  split at h
  · simp only [Prod.mk.injEq] at h; exact h.1.symm
  · split at h
    · simp only [Prod.mk.injEq] at h; exact h.1.symm
    · unfold judgePlain at h
      split at h
      · simp only [Prod.mk.injEq] at h; exact h.1.symm
      · split at h
        · unfold judgeValue at h
          split at h
          · simp at h
          · simp at h
          · split at h
            · simp only [Prod.mk.injEq] at h; exact h.1.symm
            · split at h
              · simp at h
              · split at h
                · simp only [Prod.mk.injEq] at h; exact h.1.symm
                · simp only [Prod.mk.injEq] at h; exact h.1.symm
        · simp only [Prod.mk.injEq] at h; exact h.1.symm

/-- A word without opening bracket, once refused, is refused again at once. -/
theorem verify_again {g : WordMap} {l : Lang} {d : Dec} {s s1 : Status} {m : Str} (ho : d.openB = none)
    (hw : d.word = c!"/") (h : verify g l d s = (s1, .refuse m)) : ∃ m', (verify g l d s1).2 = .refuse m' := by
  have h1 : ∀ s, addOpen d s = s := by intro s; unfold addOpen; rw [ho]
  have h2 : ∀ s, noteMacro d s = s := by
    intro s; unfold noteMacro
    rw [hw, if_neg (by decide)]
    have : decide (c!"/" = c!"=") = false := by decide
    rw [this, Bool.and_false]; rfl
  unfold verify at h ⊢
  cases hg : g.find d.word with
  | none => rw [hg] at h; simp at h
  | some wg =>
    rw [hg] at h
    dsimp only at h ⊢
    rw [h1, h2] at h ⊢
    have hs := judge_refuse h
    subst hs
    obtain ⟨k, hk, hle⟩ : ∃ k, addClose d (addClose d s) = { addClose d s with closed := k } ∧ (addClose d s).closed ≤ k := by
      unfold addClose
      cases d.closeB with
      | none => exact ⟨s.closed, rfl, le_refl _⟩
      | some b => exact ⟨_, rfl, by dsimp only; omega⟩
    rw [hk]
    set t := addClose d s with ht
    unfold judge
    by_cases hb : d.closeB.isSome ∧ t.opened - k < 0
    · rw [if_pos hb]; exact ⟨_, rfl⟩
    · have hb' : ¬ (d.closeB.isSome ∧ t.opened - t.closed < 0) := by
        rintro ⟨x, y⟩; exact hb ⟨x, by omega⟩
      rw [if_neg hb]
      unfold judge at h
      rw [if_neg hb'] at h
      cases hm : d.mac with
      | some mm =>
        rw [hm] at h
        dsimp only at h ⊢
        exact ⟨m, congrArg Prod.snd h⟩
      | none =>
        rw [hm] at h
        dsimp only at h ⊢
        rw [judgePlain_closed]
        exact ⟨m, congrArg Prod.snd h⟩

theorem checked_fail_refuse {G : Gram} {ps p1 : PS} {p : Dec × Str} (h : checked G ps p = (p1, .fail)) :
    ∃ m, verify G.words G.lang p.1 ps.st = (p1.st, .refuse m) := by
  unfold checked at h
  dsimp only at h
  split at h
  · simp at h
  · rename_i m hm
    simp only [Prod.mk.injEq, and_true] at h
    refine ⟨m, Prod.ext ?_ hm⟩
    rw [← h]
  · simp at h

section
variable {G : Gram} (R : RegularG G)
include R

/-- No word begins with an opening bracket. -/
theorem bracket_fail {ps ps' : PS} {s : Str} {a : Attr} {r : Str} (hs : hd s = some '[') :
    lineAttribute G ps s ≠ (ps', .match_ a r) := by
  obtain ⟨u, hu⟩ : ∃ u, skip s = '[' :: u := by
    unfold hd at hs
    cases hx : skip s with
    | nil => rw [hx] at hs; simp at hs
    | cons c u => rw [hx] at hs; simp at hs; exact ⟨u, by rw [hs]⟩
  intro h
  rw [line_other (char_fail_head R hu (by decide)) (rules_reserved R hu (by decide) (by decide) ps),
    comment_other (by rw [hs]; decide), start_other (by rw [hs]; decide)] at h
  have : nameRule s = .fail := by unfold nameRule; rw [hu]; rfl
  rw [this] at h
  simp [orElse] at h

/-- A word is read without a message, unless an opening bracket follows. -/
theorem line_quiet {ps ps' : PS} {s r : Str} {a : Attr} (h : lineAttribute G ps s = (ps', .match_ a r)) :
    ps'.msg = ps.msg ∨ hd r = some '[' := by
  replace h := lineAttribute_made h
  cases h with
  | comma w r c h hb hp => left; rw [hp]
  | decimal w r hc ha h hk => left; exact (checked_match hk).2.2.2
  | division r h0 hc h hn hk =>
    left
    rw [decimal_reserved R h (by decide)] at h0
    simp only [Prod.mk.injEq, and_true] at h0
    rw [(checked_match hk).2.2.2, ← h0]
  | assign w r z h0 hc h1 h he' hk =>
    left
    obtain ⟨h5, h6⟩ := symbol_some h
    obtain ⟨h3, h4, _⟩ := longest_some h5
    have a0 : assignAhead G s = true := by unfold assignAhead; rw [h]; dsimp only; rw [he']; rfl
    have e0 : ∀ ps, decimalRule G ps s = (ps, .fail) := by intro ps; unfold decimalRule; rw [a0, if_pos rfl]
    have hsl : hd s ≠ some '/' := by
      cases w with
      | nil => exact absurd rfl h4
      | cons c w =>
        rw [head_of_hd h6]
        intro hcc
        have : c = '/' := by simpa using hcc
        subst this
        exact absurd (assign_not R h3 rfl) (by decide)
    rw [e0] at h0
    simp only [Prod.mk.injEq, and_true] at h0
    rw [division_other hsl] at h1
    simp only [Prod.mk.injEq, and_true] at h1
    rw [(checked_match hk).2.2.2, ← h1, ← h0]
  | optional r h0 hc h1 h2 h hn hk =>
    by_cases hb : hd (operandClosed c!"/" r).2 = some '['
    · exact .inr hb
    · exfalso
      rw [decimal_reserved R h (by decide)] at h0
      simp only [Prod.mk.injEq, and_true] at h0
      subst h0
      rw [assign_reserved R h (by decide)] at h2
      simp only [Prod.mk.injEq, and_true] at h2
      subst h2
      rw [division_eq h] at h1
      rw [hn, if_neg (by simp), ← closed_eq _ _ hb] at h1
      obtain ⟨m, hv⟩ := checked_fail_refuse h1
      obtain ⟨m', hv'⟩ := verify_again (by rfl) (by rfl) hv
      have := (checked_match hk).2.2.1
      rw [this] at hv'
      cases hv'
  | comment r0 t0 c h0 hc h1 h2 h3 h ht0 =>
    left
    obtain ⟨g0, g1, g2, g3⟩ := rules_reserved R h (by decide) (by decide) ps
    rw [g0] at h0; simp only [Prod.mk.injEq, and_true] at h0; subst h0
    rw [g1] at h1; simp only [Prod.mk.injEq, and_true] at h1; subst h1
    rw [g2] at h2; simp only [Prod.mk.injEq, and_true] at h2; subst h2
    rw [g3] at h3; simp only [Prod.mk.injEq, and_true] at h3; rw [h3]
  | start r0 h0 hc h1 h2 h3 h hr0 =>
    left
    obtain ⟨g0, g1, g2, g3⟩ := rules_reserved R h (by decide) (by decide) ps
    rw [g0] at h0; simp only [Prod.mk.injEq, and_true] at h0; subst h0
    rw [g1] at h1; simp only [Prod.mk.injEq, and_true] at h1; subst h1
    rw [g2] at h2; simp only [Prod.mk.injEq, and_true] at h2; subst h2
    rw [g3] at h3; simp only [Prod.mk.injEq, and_true] at h3; rw [h3]
  | name r0 t0 n h0 hc h1 h2 h3 h hn =>
    left
    obtain ⟨g0, g1, g2, g3⟩ := rules_name R h (name_symbol R h h0) ps
    rw [g0] at h0; simp only [Prod.mk.injEq, and_true] at h0; subst h0
    rw [g1] at h1; simp only [Prod.mk.injEq, and_true] at h1; subst h1
    rw [g2] at h2; simp only [Prod.mk.injEq, and_true] at h2; subst h2
    rw [g3] at h3; simp only [Prod.mk.injEq, and_true] at h3; rw [h3]

/-- An accepted line leaves the message as it was. -/
theorem words_quiet {ps ps' : PS} {s : Str} {b : Block} (h : Words G ps s ps' b) : ps'.msg = ps.msg := by
  induction h with
  | done _ _ _ => rfl
  | word h t ih =>
    rw [ih]
    rcases line_quiet R h with h' | h'
    · exact h'
    · exfalso
      cases t with
      | done _ _ hs => unfold hd at h'; rw [hs] at h'; simp at h'
      | word h2 _ => exact bracket_fail R h' h2

end

/-! ## Lines without macro signs -/

/-- No word of the block has to do with macros. -/
def Plainly (a : Attr) : Prop := ∀ d, a = .dec d → d.mac = none ∧ d.word ≠ c!"#"

theorem value_noHash (w : Str) (a g : Option Char) (o : Option Str) {s : Str} (h : '#' ∉ s) : (value w a g o s).1.mac = none := by
  show (optHash s).1 = none
  rcases optHash_cases s with ⟨r, h1, _⟩ | ⟨h1, _⟩
  · exact absurd ((skip_suffix s).subset (by rw [h1]; simp)) h
  · rw [h1]

theorem operand_noHash (w : Str) (a : Option Char) {s : Str} (h : '#' ∉ s) : (operand w a s).1.mac = none :=
  value_noHash _ _ _ _ (fun hc => h (((optRun_suffix _ _).trans ((skip_suffix _).trans (optSign_suffix _))).subset hc))

theorem operandClosed_noHash (w : Str) {s : Str} (h : '#' ∉ s) : (operandClosed w s).1.mac = none :=
  value_noHash _ _ _ _ (fun hc => h ((optSign_suffix _).subset hc))

theorem made_noHash {G : Gram} {ps ps' : PS} {s r : Str} {a : Attr} (h : Made G ps ps' s a r) (hs : '#' ∉ s) : Plainly a := by
  have hsk : '#' ∉ skip s := fun hc => hs ((skip_suffix s).subset hc)
  have key : ∀ (syms : List Str) (w r : Str), symbol syms (skip s) = some (w, r) → w ≠ c!"#" ∧ '#' ∉ r := by
    intro syms w r h
    obtain ⟨h1, h2⟩ := symbol_some h
    refine ⟨?_, fun hc => hsk ((symbol_suffix h).1.subset hc)⟩
    rintro rfl
    exact hsk (by rw [h2]; simp)
  have slash : ∀ c r, skip s = c :: r → '#' ∉ r := by
    intro c r h hc
    exact hsk (by rw [h]; simp [hc])
  intro d hd
  cases h with
  | comma w r c h hb hp => cases hd
  | decimal w r hc ha h hk =>
    cases hd
    obtain ⟨k1, k2⟩ := key _ _ _ h
    exact ⟨operand_noHash _ _ k2, by rw [(operand_word _ _ _).1]; exact k1⟩
  | division r h0 hc h hn hk =>
    cases hd
    exact ⟨operand_noHash _ _ (slash _ _ h), by rw [(operand_word _ _ _).1]; decide⟩
  | assign w r z h0 hc h1 h he' hk =>
    cases hd
    obtain ⟨k1, k2⟩ := key _ _ _ h
    refine ⟨operand_noHash _ _ ?_, by rw [(operand_word _ _ _).1]; exact k1⟩
    intro hz
    exact k2 ((skip_suffix r).subset (by rw [he']; simp [hz]))
  | optional r h0 hc h1 h2 h hn hk =>
    cases hd
    exact ⟨operandClosed_noHash _ (slash _ _ h), by rw [(operandClosed_word _ _).1]; decide⟩
  | comment r0 t0 c h0 hc h1 h2 h3 h ht0 => cases hd
  | start r0 h0 hc h1 h2 h3 h hr0 => cases hd
  | name r0 t0 n h0 hc h1 h2 h3 h hn => cases hd

theorem words_noHash {G : Gram} {ps ps' : PS} {s : Str} {b : Block} (h : Words G ps s ps' b) (hs : '#' ∉ s) :
    ∀ a ∈ b, Plainly a := by
  induction h with
  | done _ _ _ => simp
  | word h t ih =>
    intro a ha
    rcases List.mem_cons.mp ha with rfl | ha
    · exact made_noHash (lineAttribute_made h) hs
    · exact ih (fun hc => hs ((lineAttribute_suffix h).subset hc)) a ha

end NC.Gram
