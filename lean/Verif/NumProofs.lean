import Verif.Num

/-! # Helper lemmas about number formatting -/

namespace NC

/-- All characters are decimal digits. -/
def AllDig (s : Str) : Prop := ∀ c ∈ s, isDig c = true

theorem AllDig.append {a b : Str} (ha : AllDig a) (hb : AllDig b) : AllDig (a ++ b) := by
  intro c hc
  rcases List.mem_append.mp hc with h | h
  · exact ha c h
  · exact hb c h

theorem takeDrop_digits {ip : Str} (h : AllDig ip) {rest : Str}
    (hr : ∀ c r, rest = c :: r → isDig c = false) :
    (ip ++ rest).takeWhile isDig = ip ∧ (ip ++ rest).dropWhile isDig = rest := by
  induction ip with
  | nil =>
    cases rest with
    | nil => simp
    | cons c r => simp [hr c r rfl]
  | cons d ds ih =>
    have hd : isDig d = true := h d (by simp)
    have := ih (fun c hc => h c (by simp [hc]))
    simp [hd, this.1, this.2]

/-- The optional minus sign. -/
def minus (neg : Bool) : Str := if neg then ['-'] else []

/-- Sign a number. -/
def signed (neg : Bool) (x : ℚ) : ℚ := if neg then -x else x

theorem stod_sign (neg : Bool) {s : Str} (h : ∀ c r, s = c :: r → isDig c = true ∨ c = '.') :
    splitSign ((minus neg ++ s).dropWhile isSp) = (neg, s) := by
  cases neg with
  | true => simp [minus, isSp, splitSign]
  | false =>
    simp only [minus, Bool.false_eq_true, if_false, List.nil_append]
    cases s with
    | nil => rfl
    | cons c r =>
      have hc := h c r rfl
      have hsp : isSp c = false := by
        rcases hc with hc | rfl
        · exact isDig_not_sp hc
        · decide
      rw [show (c :: r).dropWhile isSp = c :: r by simp [hsp]]
      apply splitSign_other
      intro c' r' heq
      simp at heq
      rw [← heq.1]
      rcases hc with hc | rfl
      · constructor <;> (rintro rfl; revert hc; decide)
      · decide

/-- `stod` of sign, digits, dot, digits. -/
theorem stod_frac (neg : Bool) {ip fp : Str} (hi : AllDig ip) (hf : AllDig fp) (hne : ip ≠ [] ∨ fp ≠ []) :
    stod (minus neg ++ (ip ++ '.' :: fp)) =
      .ok (signed neg ((readNat ip : ℚ) + (readNat fp : ℚ) / 10 ^ fp.length)) := by
  have hh : ∀ c r, (ip ++ '.' :: fp) = c :: r → isDig c = true ∨ c = '.' := by
    intro c r h
    cases ip with
    | nil => simp at h; right; exact h.1.symm
    | cons d ds => simp at h; left; rw [← h.1]; exact hi d (by simp)
  have h1 := takeDrop_digits hi (rest := '.' :: fp) (by intro c r h; simp at h; rw [← h.1]; decide)
  have h2 := takeDrop_digits hf (rest := []) (by simp)
  rw [List.append_nil] at h2
  unfold stod
  rw [stod_sign neg hh]
  simp only [h1.1, h1.2, fracDigits, h2.1, signed]
  rw [if_neg (by tauto)]

/-- `stod` of sign and digits. -/
theorem stod_int (neg : Bool) {ip : Str} (hi : AllDig ip) (hne : ip ≠ []) :
    stod (minus neg ++ ip) = .ok (signed neg (readNat ip : ℚ)) := by
  have hh : ∀ c r, ip = c :: r → isDig c = true ∨ c = '.' := by
    rintro c r rfl; left; exact hi c (by simp)
  have h1 := takeDrop_digits hi (rest := []) (by simp)
  rw [List.append_nil] at h1
  unfold stod
  rw [stod_sign neg hh]
  simp only [h1.1, h1.2, fracDigits, signed]
  rw [if_neg (by tauto)]
  have : readNat [] = 0 := rfl
  simp [this]

/-! ## Padding -/

theorem readNat_zeros (k : Nat) : readNat (List.replicate k '0') = 0 := by
  induction k with
  | zero => rfl
  | succ k ih => rw [List.replicate_succ, readNat_cons, ih]; simp [digVal]

theorem natStr_length_le {n p : Nat} (h : n < 10 ^ p) (hp : 0 < p) : (natStr n).length ≤ p := by
  unfold natStr
  split
  · simp; omega
  · rw [List.length_map, List.length_reverse, Nat.digits_length_le_iff (by norm_num)]
    exact h

theorem padZeros_allDig (p n : Nat) : AllDig (padZeros p n) := by
  unfold padZeros
  apply AllDig.append
  · intro c hc
    rw [List.eq_of_mem_replicate hc]; decide
  · exact natStr_isDig n

theorem readNat_padZeros (p n : Nat) : readNat (padZeros p n) = n := by
  unfold padZeros
  rw [readNat_append, readNat_zeros, readNat_natStr]; simp

theorem padZeros_length {n p : Nat} (h : n < 10 ^ p) (hp : 0 < p) : (padZeros p n).length = p := by
  have := natStr_length_le h hp
  unfold padZeros
  simp; omega

theorem padZeros_ne_nil (p n : Nat) : padZeros p n ≠ [] := by
  unfold padZeros; simp [natStr_ne_nil]

/-! ## Fixed notation -/

/-- The integer printed by `fixedStr p q` (without the dot). -/
def scaled (p : Nat) (q : ℚ) : Nat := (roundEven (|q| * 10 ^ p)).toNat

theorem fixedStr_eq (p : Nat) (q : ℚ) : fixedStr p q =
    if p = 0 then minus (decide (q < 0)) ++ natStr (scaled p q)
    else minus (decide (q < 0)) ++ (natStr (scaled p q / 10 ^ p) ++ '.' :: padZeros p (scaled p q % 10 ^ p)) := by
  unfold fixedStr minus scaled
  by_cases h : q < 0 <;> by_cases hp : p = 0 <;> simp [h, hp]

theorem roundEven_near (x : ℚ) : |(roundEven x : ℚ) - x| ≤ 1 / 2 := by
  unfold roundEven
  have h1 := Int.floor_le x
  have h2 := Int.lt_floor_add_one x
  simp only
  rw [abs_le]
  split
  · rename_i h; constructor <;> linarith
  · split
    · rename_i h h'; push_cast; constructor <;> linarith
    · split <;> (push_cast; constructor <;> linarith)

theorem roundEven_nonneg {x : ℚ} (h : 0 ≤ x) : 0 ≤ roundEven x := by
  have h1 : 0 ≤ ⌊x⌋ := Int.floor_nonneg.mpr h
  unfold roundEven
  simp only
  split
  · exact h1
  · split
    · omega
    · split <;> omega

theorem roundEven_int (z : ℤ) : roundEven (z : ℚ) = z := by
  unfold roundEven
  simp

theorem scaled_cast (p : Nat) (q : ℚ) : ((scaled p q : ℕ) : ℚ) = (roundEven (|q| * 10 ^ p) : ℚ) := by
  unfold scaled
  have := roundEven_nonneg (x := |q| * 10 ^ p) (by positivity)
  have h2 : (((roundEven (|q| * 10 ^ p)).toNat : ℤ) : ℚ) = (roundEven (|q| * 10 ^ p) : ℚ) := by
    rw [Int.toNat_of_nonneg this]
  rw [← h2]; rfl

/-- Value of the fixed notation. -/
theorem stod_fixedStr (p : Nat) (q : ℚ) :
    stod (fixedStr p q) = .ok (signed (decide (q < 0)) ((scaled p q : ℚ) / 10 ^ p)) := by
  rw [fixedStr_eq]
  by_cases hp : p = 0
  · subst hp
    rw [if_pos rfl, stod_int _ (natStr_isDig _) (natStr_ne_nil _), readNat_natStr]
    simp
  · rw [if_neg hp, stod_frac _ (natStr_isDig _) (padZeros_allDig _ _) (Or.inl (natStr_ne_nil _)),
      readNat_natStr, readNat_padZeros, padZeros_length (Nat.mod_lt _ (by positivity)) (by omega)]
    congr 2
    have hpos : (10 : ℚ) ^ p ≠ 0 := by positivity
    have := Nat.div_add_mod (scaled p q) (10 ^ p)
    have h2 : (scaled p q : ℚ) = (10 : ℚ) ^ p * ((scaled p q / 10 ^ p : ℕ) : ℚ) + ((scaled p q % 10 ^ p : ℕ) : ℚ) := by
      exact_mod_cast this.symm
    field_simp
    linarith

/-- The fixed notation is within half a unit of the last printed decimal. -/
theorem fixed_near (p : Nat) (q : ℚ) :
    |signed (decide (q < 0)) ((scaled p q : ℚ) / 10 ^ p) - q| ≤ 1 / 2 / 10 ^ p := by
  have hpos : (0 : ℚ) < 10 ^ p := by positivity
  have h := roundEven_near (|q| * 10 ^ p)
  rw [← scaled_cast] at h
  have hs : signed (decide (q < 0)) ((scaled p q : ℚ) / 10 ^ p) - q =
      signed (decide (q < 0)) (((scaled p q : ℚ) - |q| * 10 ^ p) / 10 ^ p) := by
    unfold signed
    by_cases hq : q < 0
    · simp only [hq, decide_true, if_true, abs_of_neg hq]; field_simp; ring
    · simp only [hq, decide_false, Bool.false_eq_true, if_false, abs_of_nonneg (not_lt.mp hq)]; field_simp
  rw [hs]
  have : |signed (decide (q < 0)) (((scaled p q : ℚ) - |q| * 10 ^ p) / 10 ^ p)| =
      |(scaled p q : ℚ) - |q| * 10 ^ p| / 10 ^ p := by
    unfold signed
    split
    · rw [abs_neg, abs_div, abs_of_pos hpos]
    · rw [abs_div, abs_of_pos hpos]
  rw [this]
  exact div_le_div_of_nonneg_right h hpos.le

/-! ## Trailing zeros -/

theorem dropWhile_nil_all {p : Char → Bool} {l : Str} (h : l.dropWhile p = []) : ∀ x ∈ l, p x = true := by
  induction l with
  | nil => simp
  | cons a l ih =>
    rw [List.dropWhile_cons] at h
    split at h
    · rename_i ha
      intro x hx
      simp only [List.mem_cons] at hx
      rcases hx with rfl | hx
      · exact ha
      · exact ih h x hx
    · simp at h

theorem rstrip0_append_nz (a : Str) {c : Char} (hc : c ≠ '0') (b : Str) :
    rstrip0 (a ++ c :: b) = a ++ c :: rstrip0 b := by
  unfold rstrip0
  rw [List.reverse_append, List.reverse_cons]
  by_cases h : b.reverse.dropWhile (· = '0') = []
  · have hall : ∀ x ∈ b.reverse, (decide (x = '0')) = true := dropWhile_nil_all h
    rw [h]
    rw [List.append_assoc, List.dropWhile_append_of_pos hall]
    simp [hc]
  · rw [List.append_assoc, List.dropWhile_append]
    simp [h]

theorem rstrip0_spec (s : Str) : ∃ k, s = rstrip0 s ++ List.replicate k '0' := by
  unfold rstrip0
  refine ⟨(s.reverse.takeWhile (· = '0')).length, ?_⟩
  have h1 : s.reverse = s.reverse.takeWhile (· = '0') ++ s.reverse.dropWhile (· = '0') :=
    (List.takeWhile_append_dropWhile).symm
  have h2 : s = (s.reverse.dropWhile (· = '0')).reverse ++ (s.reverse.takeWhile (· = '0')).reverse := by
    rw [← List.reverse_append, ← h1, List.reverse_reverse]
  have h3 : (s.reverse.takeWhile (· = '0')).reverse = List.replicate (s.reverse.takeWhile (· = '0')).length '0' := by
    rw [List.eq_replicate_iff]
    refine ⟨by simp, fun b hb => ?_⟩
    rw [List.mem_reverse] at hb
    have hall : ∀ (l : Str) b, b ∈ l.takeWhile (· = '0') → b = '0' := by
      intro l
      induction l with
      | nil => intro b hb; simp at hb
      | cons a l ih =>
        intro b hb
        rw [List.takeWhile_cons] at hb
        split at hb
        · rename_i ha
          simp only [List.mem_cons] at hb
          rcases hb with rfl | hb
          · simpa using ha
          · exact ih b hb
        · simp at hb
    exact hall _ _ hb
  conv_lhs => rw [h2, h3]

theorem rstrip0_last (s : Str) : (rstrip0 s).getLast? ≠ some '0' := by
  unfold rstrip0
  rw [List.getLast?_reverse]
  intro h
  have := List.head?_dropWhile_not (fun c : Char => decide (c = '0')) s.reverse
  rw [h] at this
  simp at this

/-- Trailing zeros of a fraction do not matter. -/
theorem frac_rstrip (f : Str) :
    (readNat (rstrip0 f) : ℚ) / 10 ^ (rstrip0 f).length = (readNat f : ℚ) / 10 ^ f.length := by
  obtain ⟨k, hk⟩ := rstrip0_spec f
  have h1 : readNat f = readNat (rstrip0 f) * 10 ^ k := by
    conv_lhs => rw [hk]
    rw [readNat_append, readNat_zeros]; simp
  have h2 : f.length = (rstrip0 f).length + k := by
    conv_lhs => rw [hk]
    simp
  rw [h1, h2, pow_add]; push_cast
  field_simp

theorem allDig_rstrip {f : Str} (h : AllDig f) : AllDig (rstrip0 f) := by
  obtain ⟨k, hk⟩ := rstrip0_spec f
  intro c hc
  apply h
  rw [hk]; simp [hc]

/-- `to_string_trunc` on a text with one dot. -/
theorem truncZeros_frac {a f : Str} (ha : '.' ∉ a) :
    truncZeros (a ++ '.' :: f) = if rstrip0 f = [] then a else a ++ '.' :: rstrip0 f := by
  unfold truncZeros
  rw [rstrip0_append_nz a (by decide) f]
  have hidx : (a ++ '.' :: f).idxOf '.' = a.length := by
    rw [List.idxOf_append_of_notMem ha]; simp
  simp only [hidx, List.length_append, List.length_cons]
  by_cases h : rstrip0 f = []
  · simp [h]
  · have : 0 < (rstrip0 f).length := List.length_pos_iff.mpr h
    rw [if_neg (by omega), if_neg h]

theorem stod_truncZeros (neg : Bool) {ip fp : Str} (hi : AllDig ip) (hf : AllDig fp) (hne : ip ≠ []) :
    stod (truncZeros (minus neg ++ (ip ++ '.' :: fp))) = stod (minus neg ++ (ip ++ '.' :: fp)) := by
  have hdot : '.' ∉ minus neg ++ ip := by
    intro h
    rcases List.mem_append.mp h with h | h
    · unfold minus at h; split at h <;> simp at h
    · have := hi _ h; revert this; decide
  rw [stod_frac neg hi hf (Or.inl hne), ← List.append_assoc, truncZeros_frac hdot]
  have hfr := frac_rstrip fp
  split
  · rename_i h0
    rw [stod_int neg hi hne, ← hfr, h0]
    have : readNat [] = 0 := rfl
    simp [this]
  · rw [List.append_assoc, stod_frac neg hi (allDig_rstrip hf) (Or.inl hne), hfr]

end NC
