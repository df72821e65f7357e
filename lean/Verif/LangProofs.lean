import Verif.CalcProofs
import Verif.Spec.Lang

/-! # What the expression parser consumes is an expression text -/

namespace NC.Calc

open NC NC.Spec

theorem mem_takeWhile_imp {p : Char → Bool} {s : Str} {c : Char} (h : c ∈ s.takeWhile p) : p c = true := by
  induction s with
  | nil => simp at h
  | cons a s ih =>
    rw [List.takeWhile_cons] at h
    split at h
    · rename_i ha
      simp only [List.mem_cons] at h
      rcases h with rfl | h
      · exact ha
      · exact ih h
    · simp at h

theorem skip_split (s : Str) : ∃ b, s = b ++ skip s ∧ Blank b := by
  refine ⟨s.takeWhile (fun c => c = ' ' || c = '\t'), ?_, ?_⟩
  · unfold skip; rw [List.takeWhile_append_dropWhile]
  · intro c hc
    have := mem_takeWhile_imp hc
    simpa using this

theorem takeWhile_dig (s : Str) : Digits (s.takeWhile isDig) := by
  intro c hc
  have := mem_takeWhile_imp hc
  simpa [isDig] using this

theorem split_dig (s : Str) : s = s.takeWhile isDig ++ s.dropWhile isDig :=
  (List.takeWhile_append_dropWhile).symm

theorem exponent_txt (s : Str) : ∃ pre, s = pre ++ (exponent s).2 ∧ ExpTxt pre := by
  unfold exponent
  split
  · rename_i c r
    split
    · rename_i hc
      split
      · rename_i r'
        split
        · exact ⟨[], by simp, .none⟩
        · rename_i hne
          refine ⟨c :: ['-'] ++ r'.takeWhile isDig, ?_, .exp hc (by simp) (takeWhile_dig _) hne⟩
          simp
      · rename_i r'
        split
        · exact ⟨[], by simp, .none⟩
        · rename_i hne
          refine ⟨c :: ['+'] ++ r'.takeWhile isDig, ?_, .exp hc (by simp) (takeWhile_dig _) hne⟩
          simp
      · split
        · exact ⟨[], by simp, .none⟩
        · rename_i hne
          refine ⟨c :: [] ++ r.takeWhile isDig, ?_, .exp hc (by simp) (takeWhile_dig _) hne⟩
          simp
    · exact ⟨[], by simp, .none⟩
  · exact ⟨[], by simp, .none⟩

theorem ureal_txt {s : Str} {q : ℚ} {r : Str} (h : ureal s = some (q, r)) :
    ∃ pre, s = pre ++ r ∧ NumTxt pre := by
  unfold ureal at h
  simp only at h
  split at h
  · simp at h
  · rename_i hne
    simp only [Option.some.injEq, Prod.mk.injEq] at h
    obtain ⟨ex, hex, hext⟩ := exponent_txt (fracPart (s.dropWhile isDig)).2
    have hs := split_dig s
    by_cases hd : ∃ f, s.dropWhile isDig = '.' :: f
    · obtain ⟨f, hf⟩ := hd
      have hfp : fracPart (s.dropWhile isDig) = (f.takeWhile isDig, f.dropWhile isDig) := by
        rw [hf]; rfl
      rw [hfp] at hex hne h
      simp only at hex hne h
      refine ⟨s.takeWhile isDig ++ '.' :: f.takeWhile isDig ++ ex, ?_,
        .frac (takeWhile_dig _) (takeWhile_dig _) (by tauto) hext⟩
      rw [h.2] at hex
      have : f = f.takeWhile isDig ++ (ex ++ r) := by rw [← hex]; exact split_dig f
      conv_lhs => rw [hs, hf, this]
      simp
    · have hfp : fracPart (s.dropWhile isDig) = ([], s.dropWhile isDig) := by
        unfold fracPart; split
        · rename_i f heq; exact absurd ⟨f, heq⟩ hd
        · rfl
      rw [hfp] at hex hne h
      simp only at hex hne h
      refine ⟨s.takeWhile isDig ++ ex, ?_, .int (takeWhile_dig _) (by tauto) hext⟩
      rw [h.2] at hex
      conv_lhs => rw [hs, hex]
      simp

theorem pDouble_txt {s : Str} {q : ℚ} {r : Str} (h : pDouble s = some (q, r)) :
    ∃ pre, s = pre ++ r ∧ IsFactor pre := by
  obtain ⟨b, hb, hbl⟩ := skip_split s
  unfold pDouble at h
  split at h
  · rename_i r' heq
    simp only [Option.map_eq_some_iff] at h
    obtain ⟨⟨q', r''⟩, h1, h2⟩ := h
    simp at h2
    obtain ⟨pre, hp, hn⟩ := ureal_txt h1
    refine ⟨b ++ ['-'] ++ pre, ?_, .num hbl (by simp) hn⟩
    rw [hb, heq, hp, h2.2]; simp
  · rename_i r' heq
    obtain ⟨pre, hp, hn⟩ := ureal_txt h
    refine ⟨b ++ ['+'] ++ pre, ?_, .num hbl (by simp) hn⟩
    rw [hb, heq, hp]; simp
  · obtain ⟨pre, hp, hn⟩ := ureal_txt h
    refine ⟨b ++ [] ++ pre, ?_, .num hbl (by simp) hn⟩
    conv_lhs => rw [hb, hp]
    simp

theorem lowOp_split {s op r : Str} (h : lowOp s = some (op, r)) :
    ∃ b, s = b ++ op ++ r ∧ Blank b ∧ op ∈ [['+'], ['-'], ['O', 'R'], ['X', 'O', 'R']] := by
  obtain ⟨b, hb, hbl⟩ := skip_split s
  refine ⟨b, ?_, hbl, ?_⟩
  · unfold lowOp at h
    split at h <;> simp at h <;> (rename_i heq; rw [hb, heq, ← h.1, ← h.2]; simp)
  · unfold lowOp at h
    split at h <;> simp at h <;> simp [← h.1]

theorem highOp_split {s op r : Str} (h : highOp s = some (op, r)) :
    ∃ b, s = b ++ op ++ r ∧ Blank b ∧ op ∈ [['*'], ['/'], ['A', 'N', 'D'], ['M', 'O', 'D']] := by
  obtain ⟨b, hb, hbl⟩ := skip_split s
  refine ⟨b, ?_, hbl, ?_⟩
  · unfold highOp at h
    split at h <;> simp at h <;> (rename_i heq; rw [hb, heq, ← h.1, ← h.2]; simp)
  · unfold highOp at h
    split at h <;> simp at h <;> simp [← h.1]

theorem symTable_names : symTable.map (·.1) =
    ["ABS", "ACOS", "ASIN", "ATAN", "FUP", "COS", "COSH", "EXP", "FIX", "LOG10", "LOG", "SIN",
        "SINH", "SQRT", "TAN", "TANH", "ROUND", "BCD", "BIN"].map String.toList := by decide

theorem must_ok {p : PR Opd} {pos : Str} {a : Opd} {r : Str} (h : must pos p = .ok a r) : p = .ok a r := by
  cases p <;> simp [must] at h ⊢; exact h

theorem closeAfter_ok {p : PR Opd} {k : Opd → Opd} {a : Opd} {r : Str} (h : closeAfter p k = .ok a r) :
    ∃ a' r' b c, p = .ok a' r' ∧ r' = b ++ c :: r ∧ Blank b ∧ (c = ')' ∨ c = ']') := by
  cases p with
  | ok a' r' =>
    obtain ⟨b, hb, hbl⟩ := skip_split r'
    simp only [closeAfter] at h
    split at h
    · rename_i c r'' heq
      split at h
      · rename_i hc
        simp at h
        refine ⟨a', r', b, c, rfl, ?_, hbl, by simpa [isClose] using hc⟩
        rw [heq, h.2] at hb; exact hb
      · simp at h
    · simp at h
  | _ => simp [closeAfter] at h

theorem map_ok {α β : Type} {p : PR α} {f : α → β} {b : β} {r : Str} (h : p.map f = .ok b r) :
    ∃ a, p = .ok a r := by
  cases p <;> simp [PR.map] at h ⊢; exact h.2

theorem parse_txt (n : Nat) :
    (∀ s a r, pE n s = .ok a r → ∃ pre, s = pre ++ r ∧ IsExpr pre) ∧
    (∀ s a r, pEl n s = .ok a r → ∃ pre, s = pre ++ r ∧ ∀ e, IsExpr e → IsExpr (e ++ pre)) ∧
    (∀ s a r, pT n s = .ok a r → ∃ pre, s = pre ++ r ∧ IsTerm pre) ∧
    (∀ s a r, pTl n s = .ok a r → ∃ pre, s = pre ++ r ∧ ∀ e, IsTerm e → IsTerm (e ++ pre)) ∧
    (∀ s a r, pF n s = .ok a r → ∃ pre, s = pre ++ r ∧ IsFactor pre) := by
  induction n with
  | zero => simp [pE, pEl, pT, pTl, pF]
  | succ n ih =>
    obtain ⟨iE, iEl, iT, iTl, iF⟩ := ih
    refine ⟨?_, ?_, ?_, ?_, ?_⟩
    · intro s a r h
      unfold pE at h
      cases hp : pT n s with
      | ok t r' =>
        rw [hp] at h
        obtain ⟨os, ho⟩ := map_ok h
        obtain ⟨p1, h1, l1⟩ := iT s t r' hp
        obtain ⟨p2, h2, l2⟩ := iEl r' os r ho
        exact ⟨p1 ++ p2, by rw [h1, h2]; simp, l2 p1 (.one l1)⟩
      | _ => rw [hp] at h; simp at h
    · intro s a r h
      unfold pEl at h
      cases ho : lowOp s with
      | none =>
        rw [ho] at h; simp at h
        exact ⟨[], by simp [h.2], fun e he => by simpa using he⟩
      | some p =>
        obtain ⟨op, r1⟩ := p
        rw [ho] at h
        simp only at h
        cases hp : must r1 (pT n r1) with
        | ok t r' =>
          rw [hp] at h
          obtain ⟨os, hos⟩ := map_ok h
          obtain ⟨b, hb, hbl, hop⟩ := lowOp_split ho
          obtain ⟨p1, h1, l1⟩ := iT r1 t r' (must_ok hp)
          obtain ⟨p2, h2, l2⟩ := iEl r' os r hos
          refine ⟨b ++ op ++ p1 ++ p2, by rw [hb, h1, h2]; simp, fun e he => ?_⟩
          have := l2 _ (IsExpr.bin he hbl hop l1)
          simpa using this
        | _ => rw [hp] at h; simp at h
    · intro s a r h
      unfold pT at h
      cases hp : pF n s with
      | ok t r' =>
        rw [hp] at h
        obtain ⟨os, ho⟩ := map_ok h
        obtain ⟨p1, h1, l1⟩ := iF s t r' hp
        obtain ⟨p2, h2, l2⟩ := iTl r' os r ho
        exact ⟨p1 ++ p2, by rw [h1, h2]; simp, l2 p1 (.one l1)⟩
      | _ => rw [hp] at h; simp at h
    · intro s a r h
      unfold pTl at h
      cases ho : highOp s with
      | none =>
        rw [ho] at h; simp at h
        exact ⟨[], by simp [h.2], fun e he => by simpa using he⟩
      | some p =>
        obtain ⟨op, r1⟩ := p
        rw [ho] at h
        simp only at h
        cases hp : must r1 (pF n r1) with
        | ok t r' =>
          rw [hp] at h
          obtain ⟨os, hos⟩ := map_ok h
          obtain ⟨b, hb, hbl, hop⟩ := highOp_split ho
          obtain ⟨p1, h1, l1⟩ := iF r1 t r' (must_ok hp)
          obtain ⟨p2, h2, l2⟩ := iTl r' os r hos
          refine ⟨b ++ op ++ p1 ++ p2, by rw [hb, h1, h2]; simp, fun e he => ?_⟩
          have := l2 _ (IsTerm.bin he hbl hop l1)
          simpa using this
        | _ => rw [hp] at h; simp at h
    · intro s a r h
      unfold pF at h
      cases hd : pDouble s with
      | some p =>
        obtain ⟨q, r'⟩ := p
        rw [hd] at h
        simp at h
        obtain ⟨pre, h1, h2⟩ := pDouble_txt hd
        exact ⟨pre, by rw [h1, h.2], h2⟩
      | none =>
        rw [hd] at h
        simp only at h
        obtain ⟨b, hb, hbl⟩ := skip_split s
        split at h
        · simp at h
        · rename_i c r1 heq
          rw [heq] at hb
          split at h
          · rename_i hopen
            obtain ⟨a', r', b2, c2, h1, h2, h3, h4⟩ := closeAfter_ok h
            obtain ⟨pre, h5, h6⟩ := iE _ _ _ (must_ok h1)
            refine ⟨b ++ c :: pre ++ b2 ++ [c2], by rw [hb, h5, h2]; simp,
              .br hbl (by simpa [isOpen] using hopen) h6 h3 h4⟩
          · split at h
            · rename_i hc
              obtain ⟨a', h1⟩ := map_ok h
              obtain ⟨pre, h5, h6⟩ := iF _ _ _ (must_ok h1)
              exact ⟨b ++ c :: pre, by rw [hb, h5]; simp, .sgn hbl hc h6⟩
            · split at h
              · simp at h
              · rename_i name r2 hsym
                unfold pSym at hsym
                simp only [Option.map_eq_some_iff] at hsym
                obtain ⟨⟨nm, nm2⟩, hs1, hs2⟩ := hsym
                simp only [Prod.mk.injEq] at hs2
                have ⟨hm, hp⟩ := symBest_mem hs1
                obtain ⟨rr, hrr⟩ := List.isPrefixOf_iff_prefix.mp hp
                simp only at hrr
                have hr2 : skip s = nm ++ r2 := by
                  rw [← hs2.2, ← hrr]; simp
                have hb' : s = b ++ (nm ++ r2) := by rw [← hr2, heq]; exact hb
                obtain ⟨b1, hb1, hbl1⟩ := skip_split r2
                split at h
                · simp at h
                · rename_i o r3 heq3
                  rw [heq3] at hb1
                  split at h
                  · rename_i hopen
                    obtain ⟨a', r', b2, c2, h1, h2, h3, h4⟩ := closeAfter_ok h
                    obtain ⟨pre, h5, h6⟩ := iE _ _ _ (must_ok h1)
                    refine ⟨b ++ nm ++ b1 ++ o :: pre ++ b2 ++ [c2], ?_,
                      .fn hbl ?_ hbl1 (by simpa [isOpen] using hopen) h6 h3 h4⟩
                    · rw [hb', hb1, h5, h2]; simp
                    · rw [← symTable_names]
                      exact List.mem_map.mpr ⟨_, hm, rfl⟩
                  · simp at h

end NC.Calc
