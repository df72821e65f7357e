import Verif.GrammarRound
import Verif.Spec.Lost

/-! # The text of a line and that of its words -/

namespace NC.Gram
open NC NC.Message NC.Spec.Lost NC.Spec

theorem solid_append (s t : Str) : solid (s ++ t) = solid s ++ solid t := by unfold solid; rw [List.filter_append]

theorem solid_cons {c : Char} (h : isBlank c = false) (s : Str) : solid (c :: s) = c :: solid s := by
  have : (c = ' ') = False ∧ (c = '\t') = False := by
    constructor <;> (apply eq_false; rintro rfl; exact absurd h (by decide))
  unfold solid
  rw [List.filter_cons_of_pos (by simp [this])]

theorem solid_blank {c : Char} (h : isBlank c = true) (s : Str) : solid (c :: s) = solid s := by
  have : c = ' ' ∨ c = '\t' := by simpa [isBlank] using h
  unfold solid
  rw [List.filter_cons_of_neg (by simpa [or_iff_not_imp_left] using this)]

theorem solid_skip (s : Str) : solid (skip s) = solid s := by
  induction s with
  | nil => rfl
  | cons c s ih =>
    cases h : isBlank c with
    | true => rw [skip_of_blank h, ih, solid_blank h]
    | false => rw [skip_of_not h]

theorem solid_same {s : Str} (h : ∀ c ∈ s, isBlank c = false) : solid s = s := by
  induction s with
  | nil => rfl
  | cons c s ih => rw [solid_cons (h c (by simp)), ih (fun c hc => h c (by simp [hc]))]

theorem sign_solid (s : Str) : solid s = solid (optSign s).1.toList ++ solid (optSign s).2 := by
  rcases optSign_cases s with ⟨c, r, _, hr, e⟩ | ⟨e, _⟩
  · rw [e, ← solid_append, ← solid_skip s, hr]; rfl
  · rw [e]; simp [solid_skip]; rfl

theorem hash_solid (s : Str) : solid s = solid ((optHash s).1.getD []) ++ solid (optHash s).2 := by
  rcases optHash_cases s with ⟨r, hr, e⟩ | ⟨e, _⟩
  · rw [e, ← solid_append, ← solid_skip s, hr]; rfl
  · rw [e]; simp [solid_skip]; rfl

theorem dot_solid (s : Str) : solid s = solid (optDot s).1.toList ++ solid (optDot s).2 := by
  rcases optDot_cases s with ⟨r, hr, e⟩ | ⟨e, _⟩
  · rw [e, ← solid_append, hr]; rfl
  · rw [e]; rfl

theorem run_solid (p : Char → Bool) (s : Str) : solid s = solid ((optRun p s).1.getD []) ++ solid (optRun p s).2 := by
  cases h : (optRun p s).1 with
  | none => rw [(optRun_none h).1]; rfl
  | some v => rw [← solid_append]; exact congrArg solid (optRun_some h).2.2.1

theorem value_solid (w : Str) (a g : Option Char) (o : Option Str) (s : Str) :
    solid s = solid (vtxt (value w a g o s).1) ++ solid (value w a g o s).2 := by
  unfold vtxt value
  dsimp only
  simp only [solid_append]
  conv_lhs =>
    rw [hash_solid s, ← solid_skip (optHash s).2, run_solid isDig (skip (optHash s).2),
      dot_solid (optRun isDig (skip (optHash s).2)).2, run_solid isDig (optDot (optRun isDig (skip (optHash s).2)).2).2,
      ← solid_skip (optRun isDig (optDot (optRun isDig (skip (optHash s).2)).2).2).2, run_solid isClose (skip (optRun isDig (optDot (optRun isDig (skip (optHash s).2)).2).2).2)]
  simp only [List.append_assoc]

theorem value_parts (w : Str) (a g : Option Char) (o : Option Str) (s : Str) :
    (value w a g o s).1.sign = g ∧ (value w a g o s).1.openB = o ∧ (value w a g o s).1.assign = a := ⟨rfl, rfl, rfl⟩

theorem operand_solid (w : Str) (a : Option Char) (s : Str) :
    solid s = solid (otxt (operand w a s).1) ++ solid (operand w a s).2 := by
  unfold otxt
  simp only [solid_append]
  unfold operand
  dsimp only
  rw [(value_parts w a _ _ _).1, (value_parts w a _ _ _).2.1]
  conv_lhs =>
    rw [sign_solid s, ← solid_skip (optSign s).2, run_solid isOpen (skip (optSign s).2),
      value_solid w a (optSign s).1 (optRun isOpen (skip (optSign s).2)).1 (optRun isOpen (skip (optSign s).2)).2]
  simp only [List.append_assoc]

theorem operandClosed_solid (w : Str) (s : Str) :
    solid s = solid (otxt (operandClosed w s).1) ++ solid (operandClosed w s).2 := by
  unfold otxt
  simp only [solid_append]
  unfold operandClosed
  dsimp only
  rw [(value_parts w none _ _ _).1, (value_parts w none _ _ _).2.1]
  conv_lhs => rw [sign_solid s, value_solid w none (optSign s).1 none (optSign s).2]
  simp only [List.append_assoc]
  rfl

theorem word_solid {syms : List Str} {s w r : Str} (h : symbol syms (skip s) = some (w, r)) : solid s = solid w ++ solid r := by
  rw [← solid_append, ← (symbol_some h).2, solid_skip]

/-- A word takes its own text from the line, a program name also letters after it. -/
theorem made_solid {G : Gram} {ps ps' : PS} {s : Str} {a : Attr} {r : Str} (h : Made G ps ps' s a r) :
    solid s = solid (Source.word a) ++ solid r ∨
      ∃ n x, a = .str c!"O" n ∧ (∀ c ∈ x, letter c = true) ∧ solid s = solid (Source.word a) ++ (x ++ solid r) := by
  cases h with
  | comma w r c h hb hp =>
    left
    rw [(symbol_some h).2, solid_append, solid_blank hb, solid_skip]
    rfl
  | decimal w r hc ha h hk =>
    left
    rw [word_solid h, word_dec, operand_solid w none r, (operand_word w none r).1, (operand_word w none r).2]
    simp [solid_append]
  | division r h0 hc h hn hk =>
    left
    rw [← solid_skip s, h, word_dec, (operand_word _ none r).1, (operand_word _ none r).2]
    rw [solid_cons (by decide), operand_solid c!"/" none r]
    simp only [solid_append, List.append_assoc]
    rfl
  | assign w r t h0 hc h1 h he hk =>
    left
    rw [word_solid h, word_dec, (operand_word w _ t).1, (operand_word w _ t).2, ← solid_skip r, he, solid_cons (by decide),
      operand_solid w (some '=') t]
    simp only [solid_append, List.append_assoc]
    rfl
  | optional r h0 hc h1 h2 h hn hk =>
    left
    rw [← solid_skip s, h, word_dec, (operandClosed_word _ r).1, (operandClosed_word _ r).2.1]
    rw [solid_cons (by decide), operandClosed_solid c!"/" r]
    simp only [solid_append, List.append_assoc]
    rfl
  | comment q t c h0 hc h1 h2 h3 h ht =>
    left
    have hcl : c = ')' := by
      have := List.head?_dropWhile_not inComment q
      rw [ht] at this
      simpa [inComment] using this
    subst hcl
    have e : q = q.takeWhile inComment ++ ')' :: r := by rw [← ht, List.takeWhile_append_dropWhile]
    rw [← solid_skip s, h, solid_cons (by decide)]
    conv_lhs => rw [e, solid_append, solid_cons (by decide)]
    show _ = solid ('(' :: (q.takeWhile inComment ++ [')'])) ++ solid r
    rw [solid_cons (by decide), solid_append]
    simp [show solid [')'] = [')'] from rfl]
  | start r h0 hc h1 h2 h3 h hr =>
    left
    rw [← solid_skip s, h, solid_cons (by decide), ← solid_skip r, hr]
    rfl
  | name r t n h0 hc h1 h2 h3 h hn =>
    right
    obtain ⟨_, _, e, _⟩ := optRun_some (p := inName) (s := r) (v := n) (by rw [hn])
    rw [hn] at e
    dsimp only at e
    refine ⟨n, (skip t).takeWhile isAlpha, rfl, fun c hc => ?_, ?_⟩
    · exact takeWhile_sat c hc
    · rw [← solid_skip s, h, solid_cons (by decide), e, solid_append, ← solid_skip t]
      conv_lhs => rw [← List.takeWhile_append_dropWhile (p := isAlpha) (l := skip t), solid_append]
      have : solid ((skip t).takeWhile isAlpha) = (skip t).takeWhile isAlpha := by
        apply solid_same
        intro c hc
        have := takeWhile_sat c hc
        cases hb : isBlank c with
        | false => rfl
        | true =>
          have : c = ' ' ∨ c = '\t' := by simpa [isBlank] using hb
          rcases this with rfl | rfl <;> exact absurd this (by decide)
      rw [this]
      show _ = solid ('O' :: (n ++ [])) ++ _
      rw [solid_cons (by decide), List.append_nil]
      simp

theorem words_solid {G : Gram} {ps ps' : PS} {s : Str} {b : Block} (h : Words G ps s ps' b) : Consists b (solid s) := by
  induction h with
  | done ps s h => rw [← solid_skip, h]; exact .none
  | word h _ ih =>
    rcases made_solid (lineAttribute_made h) with e | ⟨n, x, rfl, hx, e⟩
    · rw [e]; exact .word ih
    · rw [e]; exact .named hx ih

end NC.Gram
