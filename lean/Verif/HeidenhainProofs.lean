import Verif.Spec.Heidenhain
import Verif.GrammarBack

/-!
# Heidenhain lines: what is accepted is made of words
-/

namespace NC.Hei
open NC NC.Gram NC.Spec.Hei

/-! ## Characters -/

theorem isBlank_iff {c : Char} : isBlank c = true ↔ c = ' ' ∨ c = '\t' := by simp [isBlank]

theorem isDig_iff {c : Char} : isDig c = true ↔ '0' ≤ c ∧ c ≤ '9' := by simp [isDig]

theorem isAlpha_iff {c : Char} : isAlpha c = true ↔ Letter c := by simp [isAlpha, Letter]

theorem inName_iff {c : Char} : inName c = true ↔ NameChar c := by
  simp [inName, NameChar, isAlpha_iff, isDig_iff, or_assoc]

theorem inWord_iff {c : Char} : inWord c = true ↔ WordChar c := by
  simp [inWord, WordChar, isAlpha_iff, or_assoc]

theorem inQuotes_iff {c : Char} : inQuotes c = true ↔ Letter c ∨ ('0' ≤ c ∧ c ≤ '9') := by
  simp [inQuotes, isAlpha_iff, isDig_iff]

theorem isSpace_iff {c : Char} :
    isSpace c = true ↔ c = ' ' ∨ c = '\t' ∨ c = '\n' ∨ c = '\r' ∨ c = '\x0b' ∨ c = '\x0c' := by
  simp [isSpace, or_assoc]

/-! ## Terminals -/

theorem skip_blanks (s : Str) : ∃ b, Blanks b ∧ s = b ++ skip s :=
  ⟨s.takeWhile isBlank, fun c hc => isBlank_iff.mp (takeWhile_sat c hc), (List.takeWhile_append_dropWhile).symm⟩

theorem skip_of_head {s : Str} (h : ∀ c r, s = c :: r → isBlank c = false) : skip s = s := by
  cases s with
  | nil => rfl
  | cons c r => exact skip_of_not (h c r rfl)

theorem skip_append_blanks {b r : Str} (hb : Blanks b) : skip (b ++ r) = skip r := by
  induction b with
  | nil => rfl
  | cons c b ih =>
    rw [List.cons_append, skip_of_blank (isBlank_iff.mpr (hb c (by simp)))]
    exact ih (fun x hx => hb x (by simp [hx]))

theorem blanks1_some {s r : Str} (h : blanks1 s = some r) : r = skip r ∧ ∃ b, Blanks b ∧ b ≠ [] ∧ s = b ++ r := by
  cases s with
  | nil => cases h
  | cons c t =>
    unfold blanks1 at h
    dsimp only at h
    by_cases hc : isBlank c = true
    · rw [if_pos hc] at h
      cases h
      obtain ⟨b, hb, e⟩ := skip_blanks t
      refine ⟨(skip_skip t).symm, c :: b, ?_, by simp, by rw [List.cons_append, ← e]⟩
      intro x hx
      rcases List.mem_cons.mp hx with rfl | hx
      · exact isBlank_iff.mp hc
      · exact hb x hx
    · rw [if_neg hc] at h; cases h

theorem lit_some {w s r : Str} (h : lit w s = some r) : s = w ++ r := by
  unfold lit at h
  split at h
  · rename_i hp
    cases h
    obtain ⟨t, rfl⟩ := List.isPrefixOf_iff_prefix.mp hp
    simp
  · cases h

theorem digits_some {s v : Str} (h : (optRun isDig s).1 = some v) : Digits v :=
  ⟨(optRun_some h).1, fun c hc => isDig_iff.mp ((optRun_some h).2.1 c hc)⟩

theorem optRun_text (p : Char → Bool) (s : Str) : s = (optRun p s).1.getD [] ++ (optRun p s).2 := by
  rcases h : (optRun p s).1 with _ | v
  · exact (optRun_none h).1.symm
  · exact (optRun_some h).2.2.1

theorem optRun_head (p : Char → Bool) (s : Str) : ∀ c r, (optRun p s).2 = c :: r → p c = false := by
  rcases h : (optRun p s).1 with _ | v
  · rw [(optRun_none h).1]; exact (optRun_none h).2
  · exact (optRun_some h).2.2.2

theorem optChar_text (c : Char) (s : Str) : s = (optChar c s).1.toList ++ (optChar c s).2 := by
  unfold optChar
  cases s with
  | nil => rfl
  | cons d r =>
    dsimp only
    split
    · rename_i h; rw [h]; rfl
    · rfl

theorem optChar_some {c x : Char} {s : Str} (h : (optChar c s).1 = some x) : x = c := by
  unfold optChar at h
  cases s with
  | nil => cases h
  | cons d r =>
    dsimp only at h
    split at h
    · cases h; rfl
    · cases h

theorem optChar_none {c : Char} {s : Str} (h : (optChar c s).1 = none) : (optChar c s).2 = s := by
  have := optChar_text c s
  rw [h] at this
  exact this.symm

theorem sign_text (s : Str) : s = (sign s).1.toList ++ (sign s).2 := by
  unfold sign; split <;> rfl

theorem sign_sign (s : Str) : Sign (sign s).1 := by
  unfold sign
  split <;> intro c hc <;> cases hc
  · exact .inr rfl
  · exact .inl rfl

/-- The number part of a word. -/
theorem number_sound (s : Str) :
    let v := optRun isDig s
    let d := optChar '.' v.2
    let v2 := optRun isDig d.2
    Number v.1 d.1 v2.1 ∧ s = numeral v.1 d.1 v2.1 ++ v2.2 := by
  dsimp only
  refine ⟨⟨fun x hx => digits_some hx, fun c hc => optChar_some hc, fun x hx => digits_some hx, fun h => ?_⟩, ?_⟩
  · rcases hd : (optChar '.' (optRun isDig s).2).1 with _ | c
    · exfalso
      rw [optChar_none hd] at h
      obtain ⟨x, hx⟩ := Option.isSome_iff_exists.mp h
      obtain ⟨h1, h2, h3, _⟩ := optRun_some hx
      cases x with
      | nil => exact h1 rfl
      | cons c x =>
        have := optRun_head isDig s c _ h3
        rw [h2 c (by simp)] at this
        cases this
    · rfl
  · have e1 := optRun_text isDig s
    have e2 := optChar_text '.' (optRun isDig s).2
    have e3 := optRun_text isDig (optChar '.' (optRun isDig s).2).2
    unfold numeral
    rw [List.append_assoc, List.append_assoc, ← e3, ← e2, ← e1]

theorem expect_got {α β : Type} {at_ : Str} {o : Option α} {k : α → Res β} {b : β} {r : Str}
    (h : expect at_ o k = .got b r) : ∃ a, o = some a ∧ k a = .got b r := by
  cases o with
  | none => cases h
  | some a => exact ⟨a, rfl, h⟩

theorem expect_stop {α β : Type} {at_ : Str} {o : Option α} {k : α → Res β} {x : Str}
    (h : expect at_ o k = .stop x) : x = at_ ∨ ∃ a, o = some a ∧ k a = .stop x := by
  cases o with
  | none => cases h; exact .inl rfl
  | some a => exact .inr ⟨a, rfl, h⟩

/-! ## Rules -/

theorem intDigits_some {top n : Nat} {s r : Str} (h : intDigits top s = some (n, r)) :
    ∃ d, Digits d ∧ readNat d = n ∧ n ≤ top ∧ s = d ++ r := by
  unfold intDigits at h
  split at h
  · rename_i d r' hd
    split at h
    · rename_i hn
      cases h
      have h1 : (optRun isDig s).1 = some d := by rw [hd]
      refine ⟨d, digits_some h1, rfl, hn, ?_⟩
      have := (optRun_some h1).2.2.1
      rw [hd] at this
      exact this
    · cases h
  · cases h

theorem int32_some {n : Nat} {s r : Str} (h : int32 s = some (n, r)) :
    ∃ i z, IntText i z ∧ -2 ^ 31 ≤ z ∧ z < 2 ^ 31 ∧ (n : Int) = z % 2 ^ 32 ∧ s = i ++ r := by
  unfold int32 at h
  split at h
  · rename_i t
    split at h
    · rename_i m r' hm
      cases h
      obtain ⟨d, h1, h2, h3, h4⟩ := intDigits_some hm
      refine ⟨'-' :: d, _, .minus h1, ?_, ?_, ?_, by rw [h4]; rfl⟩
      · rw [h2]; omega
      · rw [h2]; omega
      · rw [h2]; omega
    · cases h
  · rename_i t
    obtain ⟨d, h1, h2, h3, h4⟩ := intDigits_some h
    refine ⟨'+' :: d, _, .plus h1, ?_, ?_, ?_, by rw [h4]; rfl⟩ <;> rw [h2] <;> omega
  · obtain ⟨d, h1, h2, h3, h4⟩ := intDigits_some h
    refine ⟨d, _, .plain h1, ?_, ?_, ?_, h4⟩ <;> rw [h2] <;> omega

theorem cycleDef_got {s r : Str} {c : Cycle} (h : cycleDef s = .got c r) : ∃ t, Shows t (.cycle c) ∧ s = t ++ r := by
  unfold cycleDef at h
  split at h
  · cases h
  · rename_i r0 h0
    obtain ⟨r1, h1, h⟩ := expect_got h
    obtain ⟨w, hw, h⟩ := expect_got h
    dsimp only at h
    cases h
    obtain ⟨-, b, hb, hb', e1⟩ := blanks1_some h1
    obtain ⟨b2, hb2, e2⟩ := skip_blanks w.2
    obtain ⟨hn, e3⟩ := number_sound (skip w.2)
    have ew : (w.1 = c!"DEF" ∨ w.1 = c!"CALL") ∧ r1 = w.1 ++ w.2 := by
      unfold defCall at hw
      split at hw
      · rename_i x hx; cases hw; exact ⟨.inl rfl, lit_some hx⟩
      · split at hw
        · rename_i x hx; cases hw; exact ⟨.inr rfl, lit_some hx⟩
        · cases hw
    refine ⟨_, .cycle hb hb' ew.1 hb2 hn, ?_⟩
    rw [lit_some h0, e1, ew.2]
    conv_lhs => rw [e2, e3]
    simp only [List.append_assoc]

theorem cycleParam_got {s r : Str} {p : Param} (h : cycleParam s = .got p r) :
    ∃ t, Shows t (.param p) ∧ s = t ++ r := by
  unfold cycleParam at h
  split at h
  · rename_i r0
    obtain ⟨n, hn, h⟩ := expect_got h
    obtain ⟨r1, h1, h⟩ := expect_got h
    unfold paramValue at h
    dsimp only at h
    cases h
    obtain ⟨i, z, hi, hz, hz', hid, e0⟩ := int32_some hn
    obtain ⟨b1, hb1, e1⟩ := skip_blanks n.2
    obtain ⟨b2, hb2, e2⟩ := skip_blanks r1
    have e3 := sign_text (skip r1)
    obtain ⟨hN, e4⟩ := number_sound (sign (skip r1)).2
    refine ⟨_, .param hi hz hz' hid hb1 hb2 (sign_sign _) ?_ ⟨by simp, hN.dot, hN.part, hN.sep⟩, ?_⟩
    · rcases hv : (optRun isDig (sign (skip r1)).2).1 with _ | v
      · exact .inl rfl
      · exact .inr (digits_some hv)
    · rw [e0]
      conv_lhs => rw [e1, lit_some h1, e2, e3, e4]
      simp [numeral, List.append_assoc]
  · cases h

theorem comment_got {s r : Str} {c : Comment} (h : comment s = .got c r) :
    r = [] ∧ Shows s (.comment c) := by
  unfold comment at h
  split at h
  · rename_i t
    have hno : ∀ (x : Str), '~' ∉ x.takeWhile (fun c => c ≠ '~') := by
      intro x hx
      have := takeWhile_sat _ hx
      simp at this
    have e : t.takeWhile (fun c => c ≠ '~') ++ t.dropWhile (fun c => c ≠ '~') = t := List.takeWhile_append_dropWhile
    split at h
    · rename_i hd
      cases h
      refine ⟨rfl, ?_⟩
      rw [hd, List.append_nil] at e
      have := Shows.comment (x := t) (t := false) (by rw [← e]; exact hno t)
      simpa using this
    · rename_i hd
      cases h
      refine ⟨rfl, ?_⟩
      have := Shows.comment (x := t.takeWhile (fun c => c ≠ '~')) (t := true) (hno t)
      rw [hd] at e
      have e2 : ';' :: t = ';' :: t.takeWhile (fun c => c ≠ '~') ++ (if true = true then ['~'] else []) := by
        simp only [if_true, List.cons_append]
        rw [e]
      rw [e2]
      exact this
    · cases h
  · cases h

theorem beginEnd_some {s r : Str} {b : BeginEnd} (h : beginEnd s = some (b, r)) : s = beginEndWord b ++ r := by
  unfold beginEnd at h
  split at h
  · rename_i x hx; cases h; exact lit_some hx
  · split at h
    · rename_i x hx; cases h; exact lit_some hx
    · cases h

theorem measure_some {s : Str} {u : Measure × Str} (h : measure s = some u) : s = measureWord u.1 ++ u.2 := by
  unfold measure at h
  split at h
  · rename_i x hx; cases h; exact lit_some hx
  · split at h
    · rename_i x hx; cases h; exact lit_some hx
    · cases h

theorem spaces_some {s r : Str} (h : spaces s = some r) : ∃ e, Spaces e ∧ s = e ++ r := by
  cases s with
  | nil => cases h; exact ⟨[], by simp [Spaces], rfl⟩
  | cons c t =>
    unfold spaces at h
    dsimp only at h
    by_cases hc : isSpace c = true
    · rw [if_pos hc] at h
      cases h
      refine ⟨c :: t.takeWhile isSpace, ?_, by rw [List.cons_append, List.takeWhile_append_dropWhile]⟩
      intro x hx
      rcases List.mem_cons.mp hx with rfl | hx
      · exact isSpace_iff.mp hc
      · exact isSpace_iff.mp (takeWhile_sat x hx)
    · rw [if_neg hc] at h; cases h

theorem blanks1_head {s : Str} (h : skip s = s) : blanks1 s = none := by
  cases s with
  | nil => rfl
  | cons c t =>
    unfold blanks1
    dsimp only
    rw [if_neg]
    have := skip_head_not h
    simp [this]

theorem startProgram_got {s r : Str} {p : Program} (h : startProgram s = .got p r) :
    ∃ t, Shows t (.program p) ∧ s = t ++ r := by
  unfold startProgram at h
  split at h
  · cases h
  · rename_i b r0 h0
    unfold programRest at h
    obtain ⟨r1, h1, h⟩ := expect_got h
    obtain ⟨r2, h2, h⟩ := expect_got h
    obtain ⟨r3, h3, h⟩ := expect_got h
    obtain ⟨r5, h5, h⟩ := expect_got h
    obtain ⟨u, h6, h⟩ := expect_got h
    obtain ⟨r7, h7, h⟩ := expect_got h
    obtain ⟨_, _, h⟩ := expect_got h
    cases h
    obtain ⟨-, b1, hb1, hb1', e1⟩ := blanks1_some h1
    obtain ⟨hs3, b2, hb2, hb2', e3⟩ := blanks1_some h3
    obtain ⟨-, b3, hb3, hb3', e5⟩ := blanks1_some h5
    obtain ⟨e, he, e7⟩ := spaces_some h7
    have en : r3 = r3.takeWhile inName ++ r3.dropWhile inName := (List.takeWhile_append_dropWhile).symm
    have hne : r3.takeWhile inName ≠ [] := by
      intro h0
      rw [h0, List.nil_append] at en
      rw [← en, blanks1_head hs3.symm] at h5
      cases h5
    refine ⟨_, .program hb1 hb1' hb2 hb2' hb3 hb3' (fun c hc => inName_iff.mp (takeWhile_sat c hc)) hne he, ?_⟩
    rw [beginEnd_some h0, e1, lit_some h2, e3]
    conv_lhs => rw [en, e5, measure_some h6, e7]
    simp only [List.append_assoc]

theorem operations_iff {w : Str} : w ∈ operations ↔ Operation w := by
  unfold operations Operation
  constructor
  · intro h
    simp only [List.mem_cons, List.not_mem_nil, or_false] at h
    rcases h with rfl | rfl | rfl | rfl | rfl | rfl | rfl | rfl | rfl | rfl | rfl | rfl | rfl | rfl | rfl | rfl | rfl | rfl <;> simp
  · rintro (⟨n, hn, a, ha, rfl⟩ | ⟨n, hn, rfl⟩ | rfl | rfl)
    · simp only [List.mem_cons, List.not_mem_nil, or_false] at hn ha
      rcases hn with rfl | rfl | rfl <;> rcases ha with rfl | rfl | rfl <;> simp
    · simp only [List.mem_cons, List.not_mem_nil, or_false] at hn
      rcases hn with rfl | rfl | rfl | rfl | rfl | rfl | rfl <;> simp
    · simp
    · simp

theorem quoted_got {s w r : Str} (h : quoted s = .got w r) : Quoted w ∧ s = w ++ r := by
  unfold quoted at h
  split at h
  · rename_i t
    split at h
    · cases h
    · rename_i v r' hv
      cases h
      have h1 : (optRun inQuotes t).1 = some v := by rw [hv]
      obtain ⟨a1, a2, a3, -⟩ := optRun_some h1
      rw [hv] at a3
      refine ⟨⟨v, a1, fun c hc => inQuotes_iff.mp (a2 c hc), rfl⟩, ?_⟩
      rw [a3]; simp
    · cases h
  · cases h

theorem word_got {s w r : Str} (h : word s = .got w r) : IsWord w ∧ s = w ++ r := by
  unfold word at h
  split at h
  · rename_i w' r' hs
    cases h
    obtain ⟨h1, h2⟩ := symbol_some hs
    exact ⟨.inl (operations_iff.mp (longest_some h1).1), h2⟩
  · split at h
    · rename_i w' r' hs
      cases h
      have h1 : (optRun inWord s).1 = some w := by rw [hs]
      obtain ⟨a1, a2, a3, -⟩ := optRun_some h1
      rw [hs] at a3
      exact ⟨.inr (.inl ⟨a1, fun c hc => inWord_iff.mp (a2 c hc)⟩), a3⟩
    · split at h
      · cases h; exact ⟨.inr (.inr (.inl rfl)), rfl⟩
      · cases h; exact ⟨.inr (.inr (.inr (.inl rfl))), rfl⟩
      · obtain ⟨h1, h2⟩ := quoted_got h
        exact ⟨.inr (.inr (.inr (.inr h1))), h2⟩

theorem general_got {s r : Str} {g : General} (h : general s = .got g r) : ∃ t, Shows t (.general g) ∧ s = t ++ r := by
  unfold general at h
  split at h
  · rename_i w r0 hw
    cases h
    unfold generalRest
    dsimp only
    obtain ⟨hW, e0⟩ := word_got hw
    obtain ⟨b, hb, e1⟩ := skip_blanks r0
    have e2 := sign_text (skip r0)
    have e3 := optChar_text 'Q' (sign (skip r0)).2
    obtain ⟨hN, e4⟩ := number_sound (optChar 'Q' (sign (skip r0)).2).2
    have e5 := optChar_text '~' (optRun isDig (optChar '.' (optRun isDig (optChar 'Q' (sign (skip r0)).2).2).2).2).2
    refine ⟨_, .general hW hb (sign_sign _) (fun c hc => optChar_some hc) hN (fun c hc => optChar_some hc), ?_⟩
    rw [e0]
    conv_lhs => rw [e1, e2, e3, e4, e5]
    simp only [List.append_assoc]
  · cases h
  · cases h

theorem orElse_got {α : Type} {x : Res α} {f : α → Item} {y : Res Item} {a : Item} {r : Str}
    (h : orElse x f y = .got a r) : (∃ b, x = .got b r ∧ a = f b) ∨ (x = .fail ∧ y = .got a r) := by
  cases x with
  | got b t => cases h; exact .inl ⟨b, rfl, rfl⟩
  | fail => exact .inr ⟨rfl, h⟩
  | stop _ => cases h

/-- A word that is read is written there. -/
theorem item_got {s r : Str} {a : Item} (h : item s = .got a r) :
    ∃ b t, Blanks b ∧ Shows t a ∧ s = b ++ t ++ r := by
  obtain ⟨b, hb, e⟩ := skip_blanks s
  have : ∃ t, Shows t a ∧ skip s = t ++ r := by
    unfold item at h
    rcases orElse_got h with ⟨x, hx, rfl⟩ | ⟨-, h⟩
    · exact cycleDef_got hx
    rcases orElse_got h with ⟨x, hx, rfl⟩ | ⟨-, h⟩
    · exact cycleParam_got hx
    rcases orElse_got h with ⟨x, hx, rfl⟩ | ⟨-, h⟩
    · obtain ⟨h1, h2⟩ := comment_got hx
      exact ⟨_, h2, by rw [h1, List.append_nil]⟩
    rcases orElse_got h with ⟨x, hx, rfl⟩ | ⟨-, h⟩
    · exact startProgram_got hx
    rcases orElse_got h with ⟨x, hx, rfl⟩ | ⟨-, h⟩
    · exact general_got hx
    · cases h
  obtain ⟨t, ht, e'⟩ := this
  exact ⟨b, t, hb, ht, by rw [List.append_assoc, ← e', ← e]⟩

/-- Texts of words are not empty. -/
theorem shows_ne {t : Str} {w : Item} (h : Shows t w) : t ≠ [] := by
  cases h with
  | comment => simp
  | program => rename_i b _ _ _ _ _ _ _ _ _ _ _ _ _ _ _; cases b <;> simp [beginEndWord]
  | cycle => simp
  | param => simp
  | general hw =>
    intro h
    rename_i w _ _ _ _ _ _ _ _ _ _ _ _
    have : w = [] := by
      simp only [List.append_eq_nil_iff] at h
      exact h.1.1.1.1.1
    subst this
    rcases hw with h | h | h | h | ⟨t, _, _, h⟩
    · rcases h with ⟨_, _, _, _, h⟩ | ⟨_, _, h⟩ | h | h <;> cases h
    · exact h.1 rfl
    · cases h
    · cases h
    · cases h

theorem items_words : ∀ (n : Nat) (s : Str) (ws : List Item) (b : Bool) (r : Str), items n s = (ws, b, r) →
    ∃ a x, Words a ws ∧ s = a ++ x ∧ (b = false → x = r) ∧ (b = true → item x = .stop r) := by
  intro n
  induction n with
  | zero => intro s ws b r h; cases h; exact ⟨[], s, .nil (by simp [Blanks]), rfl, fun _ => rfl, fun h => by cases h⟩
  | succ n ih =>
    intro s ws b r h
    unfold items at h
    split at h
    · rename_i a r1 ha
      cases hi : items n r1 with
      | mk ws1 q =>
        obtain ⟨b1, r2⟩ := q
        rw [hi] at h
        cases h
        obtain ⟨c, x, h1, h2, h3, h4⟩ := ih r1 ws1 b r hi
        obtain ⟨bl, t, hb, ht, e⟩ := item_got ha
        exact ⟨bl ++ t ++ c, x, .cons hb ht h1, by rw [e, h2]; simp only [List.append_assoc], h3, h4⟩
    · cases h; exact ⟨[], s, .nil (by simp [Blanks]), rfl, fun _ => rfl, fun h => by cases h⟩
    · rename_i at_ ha
      cases h
      exact ⟨[], s, .nil (by simp [Blanks]), rfl, (fun h => by cases h), fun _ => ha⟩

theorem words_blanks {a b : Str} {ws : List Item} (h : Words a ws) (hb : Blanks b) : Words (a ++ b) ws := by
  induction h with
  | nil h => exact .nil (by intro c hc; rcases List.mem_append.mp hc with hc | hc; exact h c hc; exact hb c hc)
  | cons h1 h2 h3 ih => rw [List.append_assoc]; exact .cons h1 h2 ih

theorem blanks_of_skip {s : Str} (h : skip s = []) : Blanks s := by
  obtain ⟨b, hb, e⟩ := skip_blanks s
  rw [h, List.append_nil] at e
  rw [e]; exact hb

theorem words_pre {b a : Str} {ws : List Item} (hb : Blanks b) (h : Words a ws) : Words (b ++ a) ws := by
  have key : ∀ {x : Str}, Blanks x → Blanks (b ++ x) := by
    intro x hx c hc
    rcases List.mem_append.mp hc with hc | hc
    · exact hb c hc
    · exact hx c hc
  cases h with
  | nil h => exact .nil (key h)
  | cons h1 h2 h3 => rw [← List.append_assoc, ← List.append_assoc]; exact .cons (key h1) h2 h3

theorem rest_accept {pre ws : List Item} {s : Str} (h : rest pre s = .accept ws) :
    ∃ vs, ws = pre ++ vs ∧ vs ≠ [] ∧ Words s vs := by
  unfold rest at h
  split at h
  · cases h
  · cases h
  · rename_i vs r hne hi
    split at h
    · rename_i hs
      cases h
      obtain ⟨a, x, h1, h2, h3, -⟩ := items_words _ _ _ _ _ hi
      refine ⟨vs, rfl, fun e => hne e, ?_⟩
      · rw [h2, h3 rfl]; exact words_blanks h1 (blanks_of_skip hs)
    · cases h

theorem lineNumber_got {s r : Str} {n : Nat} (h : lineNumber (skip s) = .got n r) :
    ∃ a, Numbered a n ∧ s = a ++ r := by
  obtain ⟨b, hb, e⟩ := skip_blanks s
  unfold lineNumber at h
  split at h
  · cases h
  · rename_i m r' hu
    unfold uint at hu
    split at hu
    · rename_i d r1 hd
      split at hu
      · rename_i hn
        cases hu
        have h1 : (optRun isDig (skip s)).1 = some d := by rw [hd]
        have h2 := (optRun_some h1).2.2.1
        rw [hd] at h2
        split at h
        · rename_i c t
          split at h
          · rename_i hc
            cases h
            refine ⟨_, .mk hb (digits_some h1) hn (isBlank_iff.mp hc), ?_⟩
            rw [List.append_assoc, List.append_assoc]
            have : d ++ ([c] ++ r) = skip s := by rw [h2]; rfl
            rw [this, ← e]
          · cases h
        · cases h
      · cases hu
    · cases hu

/-- What is accepted is a line. -/
theorem phrase_line {s : Str} {ws : List Item} (h : phrase s = .accept ws) : Line s ws := by
  unfold phrase at h
  split at h
  · rename_i n r hn
    obtain ⟨a, ha, e⟩ := lineNumber_got hn
    obtain ⟨vs, rfl, h2, h3⟩ := rest_accept h
    rw [e]
    exact .numbered ha h2 h3
  · obtain ⟨vs, rfl, h2, h3⟩ := rest_accept h
    obtain ⟨b, hb, e⟩ := skip_blanks s
    refine .plain h2 ?_
    rw [e]
    exact words_pre hb h3
  · cases h

end NC.Hei
