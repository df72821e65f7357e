import Verif.Spec.Filled
import Verif.VerifierProofs
import Verif.JsonProofs

/-! # The text of a value -/

namespace NC
open NC.Ver NC.Spec.Words NC.Spec.Filled

theorem digits_low {v : Str} (h : AllDig v) (h0 : v.head? ≠ some '0') (hne : v ≠ []) : 10 ^ (v.length - 1) ≤ readNat v := by
  cases v with
  | nil => exact absurd rfl hne
  | cons c t =>
    rw [readNat_cons]
    have hc : 1 ≤ digVal c := by
      by_contra hlt
      have e : digVal c = digVal '0' := by
        have : digVal '0' = 0 := by decide
        omega
      have := digVal_inj (h c (by simp)) (by decide) e
      subst this
      exact h0 rfl
    have : 10 ^ t.length ≤ digVal c * 10 ^ t.length := Nat.le_mul_of_pos_left _ hc
    simp only [List.length_cons, Nat.add_sub_cancel]
    omega

theorem digits_unique {a b : Str} (ha : AllDig a) (hb : AllDig b) (hna : a ≠ []) (hnb : b ≠ []) (h0a : a.head? ≠ some '0') (h0b : b.head? ≠ some '0')
    (h : readNat a = readNat b) : a = b := by
  have key : ∀ {a b : Str}, AllDig a → AllDig b → a ≠ [] → b ≠ [] → b.head? ≠ some '0' → readNat a = readNat b → ¬ a.length < b.length := by
    intro a b ha hb hna hnb h0b h hlt
    have h1 := readNat_lt ha
    have h2 := digits_low hb h0b hnb
    have h3 : 10 ^ a.length ≤ 10 ^ (b.length - 1) := Nat.pow_le_pow_right (by norm_num) (by omega)
    omega
  have h1 := key ha hb hna hnb h0b h
  have h2 := key hb ha hnb hna h0a h.symm
  exact readNat_same_length ha hb (by omega) h

theorem natStr_readNat {v : Str} (h : Plain0 v) : natStr (readNat v) = v := by
  obtain ⟨⟨hne, hd⟩, h0⟩ := h
  by_cases hz : v.head? = some '0'
  · rw [h0 hz]; decide
  · have hpos : 0 < readNat v := lt_of_lt_of_le (by positivity) (digits_low hd hz hne)
    exact digits_unique (natStr_isDig _) hd (natStr_ne_nil _) hne (JsonP.natStr_head hpos) hz (readNat_natStr _)

theorem padZeros_readNat {f : Str} (h : Digits f) : padZeros f.length (readNat f) = f := by
  have hpos : 0 < f.length := List.length_pos_of_ne_nil h.1
  exact readNat_same_length (padZeros_allDig _ _) h.2 (padZeros_length (readNat_lt h.2) hpos) (readNat_padZeros _ _)

theorem rstrip_replicate (j : Nat) : rstrip0 (List.replicate j '0') = [] := by
  obtain ⟨m, hm⟩ := rstrip0_spec (List.replicate j '0')
  have hl := rstrip0_last (List.replicate j '0')
  rcases List.eq_nil_or_concat (rstrip0 (List.replicate j '0')) with h0 | ⟨a, c, h0⟩
  · exact h0
  · exfalso
    apply hl
    rw [h0]
    have : c ∈ List.replicate j '0' := by
      rw [hm, h0]; simp
    rw [List.eq_of_mem_replicate this]; simp

theorem scaled_of_near {q : ℚ} {N : Nat} (h : |(|q| * 10 ^ 6) - (N : ℚ)| < 1 / 2) : scaled 6 q = N := by
  have h1 := roundEven_near (|q| * 10 ^ 6)
  have h2 := scaled_cast 6 q
  have h3 : |((scaled 6 q : ℕ) : ℚ) - (N : ℚ)| < 1 := by
    rw [h2]
    calc |(roundEven (|q| * 10 ^ 6) : ℚ) - N| = |((roundEven (|q| * 10 ^ 6) : ℚ) - |q| * 10 ^ 6) + (|q| * 10 ^ 6 - N)| := by ring_nf
      _ ≤ |(roundEven (|q| * 10 ^ 6) : ℚ) - |q| * 10 ^ 6| + |(|q| * 10 ^ 6) - N| := abs_add_le _ _
      _ < 1 / 2 + 1 / 2 := add_lt_add_of_le_of_lt h1 h
      _ = 1 := by norm_num
  have h4 : |((scaled 6 q : ℕ) : ℤ) - (N : ℤ)| < 1 := by exact_mod_cast h3
  rw [abs_lt] at h4
  omega

theorem minus_dot (b : Bool) {v : Str} (hv : Digits v) : '.' ∉ minus b ++ v := by
  intro h
  rcases List.mem_append.mp h with h | h
  · cases b
    · cases h
    · exact absurd (List.mem_singleton.mp h) (by decide)
  · exact dot_not_digit hv.2 h

/-- The text of a value. -/
theorem trunc_writes {d : Dec} {q : ℚ} (h : Writes d |q|) :
    toStringTrunc q = minus (decide (q < 0)) ++ (d.value.getD [] ++ (d.dot.toList ++ d.value2.getD [])) := by
  unfold toStringTrunc
  rw [fixedStr_eq, if_neg (by norm_num), ← List.append_assoc]
  cases h with
  | @whole v h1 h2 h3 h4 h5 =>
    have hs : scaled 6 q = readNat v * 10 ^ 6 := scaled_of_near (by push_cast; exact h5)
    rw [hs, Nat.mul_div_cancel _ (by norm_num), Nat.mul_mod_left, natStr_readNat h2, truncZeros_frac (minus_dot _ h2.1), if_pos (by decide), h1, h3, h4]
    simp
  | @point v f h1 h2 h3 h4 h5 h6 h7 h8 =>
    have hs : scaled 6 q = readNat v * 10 ^ 6 + readNat f * 10 ^ (6 - f.length) := scaled_of_near (by push_cast; exact h8)
    have hpos : 0 < f.length := List.length_pos_of_ne_nil h5.1
    have hj : f.length + (6 - f.length) = 6 := by omega
    have hlt : readNat f * 10 ^ (6 - f.length) < 10 ^ 6 := by
      conv_rhs => rw [← hj]
      rw [pow_add]; exact Nat.mul_lt_mul_of_pos_right (readNat_lt h5.2) (by positivity)
    have hpad : padZeros 6 (readNat f * 10 ^ (6 - f.length)) = f ++ List.replicate (6 - f.length) '0' := by
      have := padZeros_mul (j := 6 - f.length) (readNat_lt h5.2) hpos
      rw [hj, padZeros_readNat h5] at this
      exact this
    have hst : rstrip0 (f ++ List.replicate (6 - f.length) '0') = f := by
      rcases List.eq_nil_or_concat f with h0 | ⟨a, c, h0⟩
      · exact absurd h0 h5.1
      · have hc : c ≠ '0' := by rintro rfl; rw [h0] at h7; simp at h7
        rw [List.concat_eq_append] at h0
        generalize 6 - f.length = j
        rw [h0, List.append_assoc]
        show rstrip0 (a ++ c :: List.replicate j '0') = _
        rw [rstrip0_append_nz a hc, rstrip_replicate]
    rw [hs, mul_comm (readNat v), Nat.mul_add_div (by norm_num), Nat.div_eq_of_lt hlt, Nat.add_zero, Nat.mul_add_mod, Nat.mod_eq_of_lt hlt,
      natStr_readNat h2, truncZeros_frac (minus_dot _ h2.1), hpad, hst, if_neg h5.1, h1, h3, h4]
    simp

end NC
