import Verif.CalcProofs
import Verif.Spec.Expr

/-!
# The expression parser and evaluator meet the expression specification
-/

namespace NC.Calc

open NC NC.Spec

/-! ## Characters -/

theorem dig_eq (d : Fin 10) : dig d = digChr d.val := rfl

theorem isDig_dig (d : Fin 10) : isDig (dig d) = true := isDig_digChr d.isLt

/-- The text ends a number: not a digit, dot or exponent letter. -/
def numEnd : Str → Prop
  | [] => True
  | c :: _ => isDig c = false ∧ c ≠ '.' ∧ c ≠ 'e' ∧ c ≠ 'E'

theorem takeWhile_digs (ds : List (Fin 10)) (rest : Str)
    (h : ∀ c r, rest = c :: r → isDig c = false) :
    (ds.map dig ++ rest).takeWhile isDig = ds.map dig ∧
    (ds.map dig ++ rest).dropWhile isDig = rest := by
  induction ds with
  | nil =>
    cases rest with
    | nil => simp
    | cons c r => simp [h c r rfl]
  | cons d ds ih => simp [isDig_dig, ih.1, ih.2]

theorem exponent_numEnd {rest : Str} (h : numEnd rest) : exponent rest = (0, rest) := by
  cases rest with
  | nil => rfl
  | cons c r => simp [exponent, h.2.2.1, h.2.2.2]

theorem readNat_digs (ds : List (Fin 10)) :
    readNat (ds.map dig) = Nat.ofDigits 10 (ds.reverse.map Fin.val) := by
  have := readNat_digits (ds.reverse.map Fin.val) (by
    intro x hx
    simp only [List.mem_map] at hx
    obtain ⟨d, _, rfl⟩ := hx
    exact d.isLt)
  rw [← this]
  simp only [← List.map_reverse, List.reverse_reverse, List.map_map]
  rfl

theorem ureal_num (ip fp : List (Fin 10)) (h : ip ≠ [] ∨ fp ≠ []) {rest : Str} (hr : numEnd rest) :
    ureal (prNum ip fp ++ rest) = some (numVal ip fp, rest) := by
  have hrest : ∀ c r, rest = c :: r → isDig c = false := by
    rintro c r rfl; exact hr.1
  unfold prNum
  by_cases hf : fp = []
  · subst hf
    rw [if_pos rfl]
    obtain ⟨h1, h2⟩ := takeWhile_digs ip rest hrest
    have hfr : fracPart rest = ([], rest) := by
      unfold fracPart
      split
      · exact absurd rfl hr.2.1
      · rfl
    have hip : ip ≠ [] := by simpa using h
    unfold ureal
    simp only [h1, h2, hfr, exponent_numEnd hr]
    have h0 : readNat [] = 0 := rfl
    simp [hip, readNat_digs, numVal, h0]
  · rw [if_neg hf]
    have hdot : ∀ c r, ('.' :: (fp.map dig ++ rest) : Str) = c :: r → isDig c = false := by
      intro c r h; simp at h; rw [← h.1]; decide
    obtain ⟨h1, h2⟩ := takeWhile_digs ip _ hdot
    obtain ⟨h3, h4⟩ := takeWhile_digs fp rest hrest
    have heq : (ip.map dig ++ '.' :: fp.map dig) ++ rest = ip.map dig ++ '.' :: (fp.map dig ++ rest) := by
      simp
    rw [heq]
    unfold ureal
    simp only [h1, h2, fracPart, h3, h4, exponent_numEnd hr]
    simp [hf, readNat_digs, numVal]

/-- First character of a written number. -/
theorem prNum_head (ip fp : List (Fin 10)) (h : ip ≠ [] ∨ fp ≠ []) (rest : Str) :
    ∃ c r, prNum ip fp ++ rest = c :: r ∧ (isDig c = true ∨ c = '.') := by
  unfold prNum
  cases ip with
  | nil =>
    have hf : fp ≠ [] := by simpa using h
    exact ⟨'.', fp.map dig ++ rest, by simp [hf], Or.inr rfl⟩
  | cons d ip =>
    by_cases hf : fp = []
    · exact ⟨dig d, ip.map dig ++ rest, by simp [hf], Or.inl (isDig_dig d)⟩
    · exact ⟨dig d, ip.map dig ++ ('.' :: fp.map dig) ++ rest, by simp [hf], Or.inl (isDig_dig d)⟩

theorem isDig_char {c : Char} (h : isDig c = true) (d : Char) (hd : isDig d = false) : c ≠ d := by
  rintro rfl; rw [h] at hd; exact absurd hd (by decide)

theorem skip_cons {c : Char} {r : Str} (h1 : c ≠ ' ') (h2 : c ≠ '\t') : skip (c :: r) = c :: r := by
  simp [skip, List.dropWhile, h1, h2]

theorem pDouble_num (ip fp : List (Fin 10)) (h : ip ≠ [] ∨ fp ≠ []) {rest : Str} (hr : numEnd rest) :
    pDouble (prNum ip fp ++ rest) = some (numVal ip fp, rest) := by
  obtain ⟨c, r, hcr, hc⟩ := prNum_head ip fp h rest
  have hn := ureal_num ip fp h hr
  rw [hcr] at hn ⊢
  have hc1 : c ≠ ' ' ∧ c ≠ '\t' ∧ c ≠ '-' ∧ c ≠ '+' := by
    rcases hc with hc | rfl
    · exact ⟨isDig_char hc _ (by decide), isDig_char hc _ (by decide), isDig_char hc _ (by decide),
        isDig_char hc _ (by decide)⟩
    · decide
  unfold pDouble
  rw [skip_cons hc1.1 hc1.2.1]
  split
  · rename_i heq; simp at heq; exact absurd heq.1 hc1.2.2.1
  · rename_i heq; simp at heq; exact absurd heq.1 hc1.2.2.2
  · exact hn

theorem ureal_none {c : Char} {r : Str} (h1 : isDig c = false) (h2 : c ≠ '.') : ureal (c :: r) = none := by
  unfold ureal
  have : fracPart (c :: r) = ([], c :: r) := by
    unfold fracPart; split
    · rename_i heq; simp at heq; exact absurd heq.1 h2
    · rfl
  simp [List.takeWhile, List.dropWhile, h1, this]

theorem pDouble_none {c : Char} {r : Str} (h0 : c ≠ ' ') (h0' : c ≠ '\t') (h1 : isDig c = false)
    (h2 : c ≠ '.') (h3 : c ≠ '-') (h4 : c ≠ '+') : pDouble (c :: r) = none := by
  unfold pDouble
  rw [skip_cons h0 h0']
  split
  · rename_i heq; simp at heq; exact absurd heq.1 h3
  · rename_i heq; simp at heq; exact absurd heq.1 h4
  · exact ureal_none h1 h2

/-! ## Operators and function names -/

/-- Name used by the code for a function. -/
def fnName : Fun → Str
  | .ABS => c!"abs" | .ACOS => c!"acos" | .ASIN => c!"asin" | .ATAN => c!"atan"
  | .FUP => c!"ceil" | .COS => c!"cos" | .COSH => c!"cosh" | .EXP => c!"exp"
  | .FIX => c!"floor" | .LOG10 => c!"log10" | .LOG => c!"log" | .SIN => c!"sin"
  | .SQRT => c!"sqrt" | .TAN => c!"tan" | .TANH => c!"tanh" | .ROUND => c!"round"
  | .BCD => c!"bcd" | .BIN => c!"bin"

theorem pSym_fn (g : Fun) (r : Str) : pSym (g.txt ++ '[' :: r) = some (fnName g, '[' :: r) := by
  cases g <;> rfl

theorem fn_head (g : Fun) : ∃ c r, g.txt = c :: r ∧ c ≠ ' ' ∧ c ≠ '\t' ∧ isDig c = false ∧ c ≠ '.' ∧
    c ≠ '-' ∧ c ≠ '+' ∧ c ≠ '#' ∧ isOpen c = false := by
  cases g <;> exact ⟨_, _, rfl, by decide⟩

theorem lowOp_txt (op : LowO) (r : Str) : lowOp (op.txt ++ r) = some (op.txt, r) := by
  cases op <;> rfl
theorem highOp_txt (op : HighO) (r : Str) : highOp (op.txt ++ r) = some (op.txt, r) := by
  cases op <;> rfl
theorem highOp_low (op : LowO) (r : Str) : highOp (op.txt ++ r) = none := by
  cases op <;> rfl
theorem numEnd_low (op : LowO) (r : Str) : numEnd (op.txt ++ r) := by
  cases op <;> exact ⟨by decide, by decide, by decide, by decide⟩
theorem numEnd_high (op : HighO) (r : Str) : numEnd (op.txt ++ r) := by
  cases op <;> exact ⟨by decide, by decide, by decide, by decide⟩

/-! ## Evaluation of single operations -/

/-- The model's outcome agrees with the specified value (both directions). -/
def Agrees {ε : Type} (x : Out ε ℚ) (y : Option ℚ) : Prop := ∀ v, x = .ok v ↔ y = some v

theorem agrees_ok {ε : Type} (v : ℚ) : Agrees (.ok v : Out ε ℚ) (some v) := by intro w; simp

theorem truncQ_eq (q : ℚ) : truncQ q = ipart q := by
  unfold truncQ ipart
  have hfl : ⌊q⌋ = q.num / q.den := Rat.floor_def'
  have hce : ⌈q⌉ = -(-q.num / q.den) := by
    rw [← neg_neg q, Int.ceil_neg, Rat.floor_def']; simp
  rw [hfl, hce]
  have hd : (0 : ℤ) < q.den := by exact_mod_cast q.den_pos
  split
  · rename_i h
    exact Int.tdiv_eq_ediv_of_nonneg (Rat.num_nonneg.mpr h)
  · rename_i h
    have hn : q.num < 0 := by
      by_contra hc; exact h (Rat.num_nonneg.mp (not_lt.mp hc))
    have := Int.neg_tdiv (a := q.num) (b := q.den)
    have h2 := Int.tdiv_eq_ediv_of_nonneg (a := -q.num) (b := q.den) (by omega)
    omega

theorem castTo_eq (lo hi : ℤ) (q : ℚ) : castTo lo hi q =
    match ipartIn lo hi q with
    | some z => .ok z
    | none => .ub := by
  unfold castTo ipartIn
  rw [truncQ_eq]
  split <;> rfl

theorem tmod_eq (x y : ℤ) (hy : y ≠ 0) : Int.tmod x y = x - y * ipart ((x : ℚ) / y) := by
  have h1 : Int.tmod x y = x - y * Int.tdiv x y := Int.tmod_def x y
  rw [h1]
  congr 2
  unfold ipart
  have hyq : (y : ℚ) ≠ 0 := by exact_mod_cast hy
  have key : ∀ (a b : ℤ), 0 ≤ a → 0 < b → ⌊(a : ℚ) / b⌋ = a / b := by
    intro a b _ hb
    have hb' : (0 : ℚ) < b := by exact_mod_cast hb
    rw [Int.floor_eq_iff]
    constructor
    · rw [le_div_iff₀ hb']; exact_mod_cast Int.ediv_mul_le a (by omega)
    · rw [div_lt_iff₀ hb']; exact_mod_cast Int.lt_ediv_add_one_mul_self a hb
  rcases lt_or_gt_of_ne hy with hy' | hy' <;> rcases le_or_gt 0 x with hx | hx
  · -- y < 0, x ≥ 0
    have e : (x : ℚ) / y = -((x : ℚ) / ((-y : ℤ) : ℚ)) := by push_cast; rw [div_neg, neg_neg]
    have hk := key x (-y) hx (by omega)
    have ht : Int.tdiv x y = -(x / -y) := by
      rw [← Int.tdiv_eq_ediv_of_nonneg hx, Int.tdiv_neg, neg_neg]
    rw [ht, e]
    split
    · rename_i h0
      have hnn : (0 : ℚ) ≤ (x : ℚ) / ((-y : ℤ) : ℚ) := by
        apply div_nonneg <;> [exact_mod_cast hx; exact_mod_cast (by omega : (0:ℤ) ≤ -y)]
      have hz : (x : ℚ) / ((-y : ℤ) : ℚ) = 0 := le_antisymm (by linarith) hnn
      rw [hz] at hk ⊢
      simp at hk ⊢; omega
    · rw [Int.ceil_neg, hk]
  · -- both negative
    have e : (x : ℚ) / y = ((-x : ℤ) : ℚ) / ((-y : ℤ) : ℚ) := by push_cast; rw [neg_div_neg_eq]
    have hk := key (-x) (-y) (by omega) (by omega)
    have ht : Int.tdiv x y = (-x) / (-y) := by
      rw [← Int.tdiv_eq_ediv_of_nonneg (by omega), Int.tdiv_neg, Int.neg_tdiv, neg_neg]
    rw [ht, e, if_pos, hk]
    apply div_nonneg <;> [exact_mod_cast (by omega : (0:ℤ) ≤ -x); exact_mod_cast (by omega : (0:ℤ) ≤ -y)]
  · rw [Int.tdiv_eq_ediv_of_nonneg hx, if_pos, key x y hx hy']
    apply div_nonneg <;> [exact_mod_cast hx; exact_mod_cast hy'.le]
  · have e : (x : ℚ) / y = -(((-x : ℤ) : ℚ) / y) := by push_cast; rw [neg_div, neg_neg]
    have hk := key (-x) y (by omega) hy'
    have ht : Int.tdiv x y = -((-x) / y) := by
      rw [← Int.tdiv_eq_ediv_of_nonneg (by omega), Int.neg_tdiv, neg_neg]
    rw [ht, e]
    rw [if_neg, Int.ceil_neg, hk]
    have hpos : (0 : ℚ) < ((-x : ℤ) : ℚ) / y := by
      apply div_pos <;> [exact_mod_cast (by omega : (0:ℤ) < -x); exact_mod_cast hy']
    linarith

theorem evalOp_low (op : LowO) (a b : ℚ) : Agrees (evalOp op.txt a b) (op.val a b) := by
  intro v
  cases op with
  | add => simp [evalOp, LowO.txt, LowO.val]
  | sub => simp [evalOp, LowO.txt, LowO.val]
  | or =>
    simp only [evalOp, LowO.txt, LowO.val, toI32, castTo_eq, i32]
    cases ipartIn (-2147483648) 2147483647 a <;> cases ipartIn (-2147483648) 2147483647 b <;> simp
  | xor =>
    simp only [evalOp, LowO.txt, LowO.val, toI32, castTo_eq, i32]
    cases ipartIn (-2147483648) 2147483647 a <;> cases ipartIn (-2147483648) 2147483647 b <;> simp

theorem evalOp_high (op : HighO) (a b : ℚ) : Agrees (evalOp op.txt a b) (op.val a b) := by
  intro v
  cases op with
  | mul => simp [evalOp, HighO.txt, HighO.val]
  | div => simp only [evalOp, HighO.txt, HighO.val]; by_cases h : b = 0 <;> simp [h]
  | and =>
    simp only [evalOp, HighO.txt, HighO.val, toI32, castTo_eq, i32]
    cases ipartIn (-2147483648) 2147483647 a <;> cases ipartIn (-2147483648) 2147483647 b <;> simp
  | mod =>
    simp only [evalOp, HighO.txt, HighO.val, toI32, castTo_eq, i32]
    cases ipartIn (-2147483648) 2147483647 a with
    | none => simp
    | some x =>
      cases ipartIn (-2147483648) 2147483647 b with
      | none => simp
      | some y =>
        by_cases hy : y = 0 ∨ (x = -2147483648 ∧ y = -1)
        · simp [hy]
        · have hy0 : y ≠ 0 := by tauto
          simp only [Out.bind_ok, hy, if_false]
          simp [hy, tmod_eq x y hy0]

/-! ## BIN / BCD -/

theorem bcdLoop_eq (n : ℕ) : ∀ (k result : ℕ), k + (Nat.digits 10 n).length ≤ 16 → result < 16 ^ k →
    n ≠ 0 → 1 ≤ k →
    bcdLoop n (16 ^ k) result = result + 16 ^ k * Nat.ofDigits 16 (Nat.digits 10 (n / 10)) := by
  induction n using Nat.strong_induction_on with
  | _ n ih =>
    intro k result hk hr hn hk1
    rw [bcdLoop]
    by_cases h : n / 10 = 0
    · simp [h]
    · rw [dif_neg h]
      have hlen : (Nat.digits 10 n).length = (Nat.digits 10 (n / 10)).length + 1 := by
        rw [Nat.digits_def' (by norm_num) (by omega)]; simp
      have hlen2 : 1 ≤ (Nat.digits 10 (n / 10)).length :=
        List.length_pos_iff.mpr (Nat.digits_ne_nil_iff_ne_zero.mpr h)
      have hpk : (16 : ℕ) ^ (k + 1) ≤ 16 ^ 16 := Nat.pow_le_pow_right (by norm_num) (by omega)
      have h16 : (16 : ℕ) ^ 16 = 2 ^ 64 := by norm_num
      have hd : n / 10 % 10 < 10 := Nat.mod_lt _ (by norm_num)
      have hres : result + n / 10 % 10 * 16 ^ k < 16 ^ (k + 1) := by
        rw [pow_succ]; nlinarith
      rw [Nat.mod_eq_of_lt (a := result + _) (by omega)]
      have hof : Nat.ofDigits 16 (Nat.digits 10 (n / 10)) =
          n / 10 % 10 + 16 * Nat.ofDigits 16 (Nat.digits 10 (n / 10 / 10)) := by
        conv_lhs => rw [Nat.digits_def' (by norm_num) (by omega : 0 < n / 10)]
        rw [Nat.ofDigits_cons]
      by_cases hnext : n / 10 / 10 = 0
      · rw [bcdLoop, dif_pos hnext, hof, hnext]; simp; ring
      · have hlen3 : (Nat.digits 10 (n / 10)).length = (Nat.digits 10 (n / 10 / 10)).length + 1 := by
          rw [Nat.digits_def' (by norm_num) (by omega : 0 < n / 10)]; simp
        have hlen4 : 1 ≤ (Nat.digits 10 (n / 10 / 10)).length :=
          List.length_pos_iff.mpr (Nat.digits_ne_nil_iff_ne_zero.mpr hnext)
        have hlt : (16 : ℕ) ^ (k + 1) < 16 ^ 16 := Nat.pow_lt_pow_right (by norm_num) (by omega)
        rw [← pow_succ, Nat.mod_eq_of_lt (by omega)]
        rw [ih (n / 10) (by omega) (k + 1) _ (by omega) hres h (by omega), hof, pow_succ]
        ring

theorem digits_len_u32 {n : ℕ} (h : n < 2 ^ 32) : (Nat.digits 10 n).length ≤ 10 := by
  by_cases hn : n = 0
  · subst hn; simp
  · rw [Nat.digits_length_le_iff (by norm_num)]
    calc n < 2 ^ 32 := h
      _ ≤ 10 ^ 10 := by norm_num

theorem toBcd_eq {n : ℕ} (h : n < 2 ^ 32) : toBcd n = Nat.ofDigits 16 (Nat.digits 10 n) := by
  unfold toBcd
  by_cases hn : n = 0
  · subst hn; rw [bcdLoop]; simp
  · have := bcdLoop_eq n 1 (n % 10) (by have := digits_len_u32 h; omega) (by omega) hn le_rfl
    rw [pow_one] at this
    rw [this]
    conv_rhs => rw [Nat.digits_def' (by norm_num) (by omega : 0 < n), Nat.ofDigits_cons]

theorem ui32Loop_eq (n : ℕ) : ∀ (pwr i : ℕ),
    ui32Loop n pwr i ≡ i + pwr * (10 * Nat.ofDigits 10 (Nat.digits 16 (n / 16))) [MOD 2 ^ 64] := by
  induction n using Nat.strong_induction_on with
  | _ n ih =>
    intro pwr i
    rw [ui32Loop]
    by_cases h : n / 16 = 0
    · rw [dif_pos h]; simp [h]; exact Nat.ModEq.refl _
    · rw [dif_neg h]
      have hof : Nat.ofDigits 10 (Nat.digits 16 (n / 16)) =
          n / 16 % 16 + 10 * Nat.ofDigits 10 (Nat.digits 16 (n / 16 / 16)) := by
        conv_lhs => rw [Nat.digits_def' (by norm_num) (by omega : 0 < n / 16)]
        rw [Nat.ofDigits_cons]
      refine (ih (n / 16) (by omega) _ _).trans ?_
      have h1 : pwr * 10 % 2 ^ 64 ≡ pwr * 10 [MOD 2 ^ 64] := Nat.mod_modEq _ _
      have h2 : (i + n / 16 % 16 * (pwr * 10 % 2 ^ 64)) % 2 ^ 64 ≡ i + n / 16 % 16 * (pwr * 10) [MOD 2 ^ 64] :=
        (Nat.mod_modEq _ _).trans ((Nat.ModEq.refl i).add ((Nat.ModEq.refl _).mul h1))
      have h3 := h2.add (h1.mul (Nat.ModEq.refl (10 * Nat.ofDigits 10 (Nat.digits 16 (n / 16 / 16)))))
      refine h3.trans ?_
      rw [hof]
      have : i + n / 16 % 16 * (pwr * 10) + pwr * 10 * (10 * Nat.ofDigits 10 (Nat.digits 16 (n / 16 / 16))) =
        i + pwr * (10 * (n / 16 % 16 + 10 * Nat.ofDigits 10 (Nat.digits 16 (n / 16 / 16)))) := by ring
      rw [this]

theorem fromBcd_eq (n : ℕ) : fromBcd n = Nat.ofDigits 10 (Nat.digits 16 n) % 2 ^ 32 := by
  unfold fromBcd
  have h := ui32Loop_eq n 1 (n % 16)
  have h32 : ui32Loop n 1 (n % 16) ≡ n % 16 + 1 * (10 * Nat.ofDigits 10 (Nat.digits 16 (n / 16))) [MOD 2 ^ 32] :=
    h.of_dvd (by norm_num)
  rw [h32]
  by_cases hn : n = 0
  · subst hn; simp
  · conv_rhs => rw [Nat.digits_def' (by norm_num) (by omega : 0 < n), Nat.ofDigits_cons]
    rw [one_mul]

theorem roundQ_eq (x : ℚ) : roundQ x = if 0 ≤ x then ((⌊x + 1/2⌋ : ℤ) : ℚ) else ((⌈x - 1/2⌉ : ℤ) : ℚ) := by
  unfold roundQ
  split
  · rfl
  · have : -x + 1/2 = -(x - 1/2) := by ring
    rw [this, Int.floor_neg]; push_cast; ring

theorem ipartIn_some {lo hi : ℤ} {x : ℚ} {z : ℤ} (h : ipartIn lo hi x = some z) : lo ≤ z ∧ z ≤ hi := by
  unfold ipartIn at h
  split at h
  · simp at h; omega
  · simp at h

theorem evalFn_agrees (tr : Str → ℚ → Option ℚ) (g : Fun) (x : ℚ) :
    Agrees (evalFn tr (fnName g) x) (g.val (fun g => tr (fnName g)) x) := by
  intro v
  cases g with
  | ROUND => simp only [evalFn, fnName, Fun.val, roundQ_eq]; simp
  | ABS => simp [evalFn, fnName, Fun.val]
  | FUP => simp [evalFn, fnName, Fun.val]
  | FIX => simp [evalFn, fnName, Fun.val]
  | BIN =>
    simp only [evalFn, fnName, Fun.val, toU32, castTo_eq, u32]
    cases h : ipartIn 0 4294967295 x with
    | none => simp
    | some z =>
      have := ipartIn_some h
      have hb := toBcd_eq (n := z.toNat) (by omega)
      simp [hb]
  | BCD =>
    simp only [evalFn, fnName, Fun.val, toU64, castTo_eq, u64]
    cases h : ipartIn 0 18446744073709551615 x with
    | none => simp
    | some z => simp [fromBcd_eq]
  | _ =>
    simp only [evalFn, fnName, Fun.val]
    simp only [List.cons.injEq, reduceCtorEq, and_false, false_and, if_false, Char.reduceEq, oracleNames]
    cases tr _ x <;> simp

theorem evalSgn_mac (m : MacroMap ℚ) (x : ℚ) :
    Agrees (evalSgn m '#' x) (do let n ← u32 x; m.valueMax n.toNat) := by
  intro v
  simp only [evalSgn, toU32, castTo_eq, u32]
  cases h : ipartIn 0 4294967295 x with
  | none => simp
  | some z => simp; cases m.valueMax z.toNat <;> simp

theorem agrees_bind {ε : Type} {x : Out ε ℚ} {y : Option ℚ} {f : ℚ → Out ε ℚ} {g : ℚ → Option ℚ}
    (h : Agrees x y) (hf : ∀ a, Agrees (f a) (g a)) : Agrees (x >>= f) (y >>= g) := by
  intro v
  cases x with
  | ok a => have := (h a).mp rfl; subst this; exact hf a v
  | throw e =>
    cases y with
    | none => simp
    | some b => have := (h b).mpr rfl; simp at this
  | ub =>
    cases y with
    | none => simp
    | some b => have := (h b).mpr rfl; simp at this

/-! ## Parsing of printed expressions -/

variable (tr : Str → ℚ → Option ℚ) (m : MacroMap ℚ)

/-- Specification's transcendental oracle. -/
abbrev spTr : Fun → ℚ → Option ℚ := fun g => tr (fnName g)

theorem map_map {α β γ : Type} (p : PR α) (f : α → β) (g : β → γ) :
    (p.map f).map g = p.map (fun a => g (f a)) := by cases p <;> rfl

/-- Signed factor: either read as a signed number or as sign and factor. -/
theorem sgn_case (c : Char) (hc : c = '-' ∨ c = '+' ∨ c = '#') (s : Str)
    (hd : pDouble (c :: s) = none) {o : Opd} {rest : Str} (ho : qF s = .ok o rest) :
    qF (c :: s) = .ok (.sgn c o) rest := by
  rw [qF_eqn, hd]
  have hsp : skip (c :: s) = c :: s := by
    rcases hc with rfl | rfl | rfl <;> exact skip_cons (by decide) (by decide)
  have hop : isOpen c = false := by rcases hc with rfl | rfl | rfl <;> decide
  simp only [hsp, hop, hc, if_true, ho, must, PR.map]
  simp

theorem pDouble_sign (c : Char) (hc : c = '-' ∨ c = '+') (s : Str) :
    pDouble (c :: s) = (ureal s).map (fun p => (if c = '-' then (-p.1, p.2) else p)) := by
  unfold pDouble
  rcases hc with rfl | rfl
  · rw [skip_cons (by decide) (by decide)]; rfl
  · rw [skip_cons (by decide) (by decide)]; simp

/-- First character of a factor that is not a number. -/
theorem F_head (f : F) (rest : Str) (h : ∀ ip fp hh, f ≠ .num ip fp hh) :
    ∃ c r, f.pr ++ rest = c :: r ∧ isDig c = false ∧ c ≠ '.' := by
  cases f with
  | num ip fp hh => exact absurd rfl (h ip fp hh)
  | br e => exact ⟨'[', _, by simp [F.pr]; rfl, by decide, by decide⟩
  | mac f => exact ⟨'#', _, by simp [F.pr]; rfl, by decide, by decide⟩
  | neg f => exact ⟨'-', _, by simp [F.pr]; rfl, by decide, by decide⟩
  | pos f => exact ⟨'+', _, by simp [F.pr]; rfl, by decide, by decide⟩
  | fn g e =>
    obtain ⟨c, r, hg, _, _, h1, h2, _⟩ := fn_head g
    exact ⟨c, _, by simp [F.pr, hg]; rfl, h1, h2⟩

theorem sign_F (c : Char) (hc : c = '-' ∨ c = '+') (f : F) (rest : Str) (hr : numEnd rest)
    (ih : ∃ o, qF (f.pr ++ rest) = .ok o rest ∧ Agrees (eval tr m o) (f.val (spTr tr) (m.valueMax))) :
    ∃ o, qF (c :: (f.pr ++ rest)) = .ok o rest ∧
      Agrees (eval tr m o) (do let x ← f.val (spTr tr) (m.valueMax); some (if c = '-' then -x else x)) := by
  obtain ⟨o, ho, hv⟩ := ih
  by_cases hn : ∃ ip fp hh, f = .num ip fp hh
  · obtain ⟨ip, fp, hh, rfl⟩ := hn
    have hu : ureal (prNum ip fp ++ rest) = some (numVal ip fp, rest) := ureal_num ip fp hh hr
    refine ⟨.num (if c = '-' then -numVal ip fp else numVal ip fp), ?_, ?_⟩
    · rw [qF_eqn, pDouble_sign c hc]
      simp only [F.pr, hu]
      rcases hc with rfl | rfl <;> simp
    · intro v; simp [eval, F.val]
  · have hn' : ∀ ip fp hh, f ≠ .num ip fp hh := by
      intro ip fp hh h; exact hn ⟨ip, fp, hh, h⟩
    obtain ⟨a, r, har, h1, h2⟩ := F_head f rest hn'
    have hd : pDouble (c :: (f.pr ++ rest)) = none := by
      rw [pDouble_sign c hc, har, ureal_none h1 h2]; rfl
    refine ⟨.sgn c o, sgn_case c (by tauto) _ hd ho, ?_⟩
    rw [eval]
    refine agrees_bind hv (fun x => ?_)
    intro v
    rcases hc with rfl | rfl <;> simp [evalSgn]

/-- An expression's end: no operator follows. -/
def exprEnd (rest : Str) : Prop := lowOp rest = none ∧ highOp rest = none ∧ numEnd rest

theorem exprEnd_nil : exprEnd [] := ⟨rfl, rfl, trivial⟩
theorem exprEnd_close (r : Str) : exprEnd (']' :: r) := ⟨rfl, rfl, ⟨by decide, by decide, by decide, by decide⟩⟩

mutual
theorem parse_E : ∀ (e : E) (rest : Str), numEnd rest → highOp rest = none →
    ∃ (first : Opd) (k : Ops → Ops) (X : Out CalcErr ℚ), qE (e.pr ++ rest) = (qEl rest).map (fun os => Opd.prog first (k os)) ∧
      (∀ os, eval tr m (.prog first (k os)) = X >>= fun v => evalOps tr m v os) ∧
      Agrees X (e.val (spTr tr) (m.valueMax))
  | .one t, rest, hr, hh => by
    obtain ⟨first, k, X, h1, h2, h3⟩ := parse_T t rest hr
    have hl : qTl rest = .ok .nil rest := by rw [qTl_eqn, hh]
    rw [hl] at h1
    refine ⟨.prog first (k .nil), id, X, ?_, ?_, ?_⟩
    · rw [qE_eqn, E.pr, h1]; rfl
    · intro os
      rw [eval, h2]
      cases X <;> simp [evalOps]
    · rw [E.val]; exact h3
  | .bin e op t, rest, hr, hh => by
    obtain ⟨first, k, X, h1, h2, h3⟩ := parse_E e (op.txt ++ (t.pr ++ rest)) (numEnd_low op _) (highOp_low op _)
    obtain ⟨first', k', X', h1', h2', h3'⟩ := parse_T t rest hr
    have hl : qTl rest = .ok .nil rest := by rw [qTl_eqn, hh]
    rw [hl] at h1'
    refine ⟨first, fun os => k (.cons op.txt (.prog first' (k' .nil)) os),
      X >>= fun v => X' >>= fun r => evalOp op.txt v r, ?_, ?_, ?_⟩
    · have : (E.bin e op t).pr ++ rest = e.pr ++ (op.txt ++ (t.pr ++ rest)) := by simp [E.pr]
      rw [this, h1, qEl_eqn, lowOp_txt]
      simp only [h1', PR.map, must]
      cases qEl rest <;> rfl
    · intro os
      rw [h2]
      cases X with
      | ok v =>
        simp only [Out.bind_ok]
        rw [evalOps, h2']
        cases X' <;> simp [evalOps]
      | throw e => rfl
      | ub => rfl
    · rw [E.val]
      exact agrees_bind h3 (fun a => agrees_bind h3' (fun b => evalOp_low op a b))
theorem parse_T : ∀ (t : T) (rest : Str), numEnd rest →
    ∃ (first : Opd) (k : Ops → Ops) (X : Out CalcErr ℚ), qT (t.pr ++ rest) = (qTl rest).map (fun os => Opd.prog first (k os)) ∧
      (∀ os, eval tr m (.prog first (k os)) = X >>= fun v => evalOps tr m v os) ∧
      Agrees X (t.val (spTr tr) (m.valueMax))
  | .one f, rest, hr => by
    obtain ⟨o, h1, h2⟩ := parse_F f rest hr
    refine ⟨o, id, eval tr m o, ?_, ?_, ?_⟩
    · rw [qT_eqn, T.pr, h1]; rfl
    · intro os; rw [eval]; rfl
    · rw [T.val]; exact h2
  | .bin t op f, rest, hr => by
    obtain ⟨first, k, X, h1, h2, h3⟩ := parse_T t (op.txt ++ (f.pr ++ rest)) (numEnd_high op _)
    obtain ⟨o, h1', h3'⟩ := parse_F f rest hr
    refine ⟨first, fun os => k (.cons op.txt o os),
      X >>= fun v => eval tr m o >>= fun r => evalOp op.txt v r, ?_, ?_, ?_⟩
    · have : (T.bin t op f).pr ++ rest = t.pr ++ (op.txt ++ (f.pr ++ rest)) := by simp [T.pr]
      rw [this, h1, qTl_eqn, highOp_txt]
      simp only [h1', must]
      cases qTl rest <;> rfl
    · intro os
      rw [h2]
      cases X with
      | ok v =>
        simp only [Out.bind_ok]
        rw [evalOps]
        cases eval tr m o <;> simp
      | throw e => rfl
      | ub => rfl
    · rw [T.val]
      exact agrees_bind h3 (fun a => agrees_bind h3' (fun b => evalOp_high op a b))
theorem parse_F : ∀ (f : F) (rest : Str), numEnd rest →
    ∃ o, qF (f.pr ++ rest) = .ok o rest ∧ Agrees (eval tr m o) (f.val (spTr tr) (m.valueMax))
  | .num ip fp h, rest, hr => by
    refine ⟨.num (numVal ip fp), ?_, ?_⟩
    · rw [qF_eqn, F.pr, pDouble_num ip fp h hr]
    · rw [eval, F.val]; exact agrees_ok _
  | .neg f, rest, hr => by
    obtain ⟨o, h1, h2⟩ := sign_F tr m '-' (Or.inl rfl) f rest hr (parse_F f rest hr)
    refine ⟨o, by simpa [F.pr] using h1, ?_⟩
    rw [F.val]; simpa using h2
  | .pos f, rest, hr => by
    obtain ⟨o, h1, h2⟩ := sign_F tr m '+' (Or.inr rfl) f rest hr (parse_F f rest hr)
    refine ⟨o, by simpa [F.pr] using h1, ?_⟩
    rw [F.val]
    intro v
    rw [h2 v]
    cases f.val (spTr tr) (m.valueMax) <;> simp
  | .mac f, rest, hr => by
    obtain ⟨o, h1, h2⟩ := parse_F f rest hr
    refine ⟨.sgn '#' o, ?_, ?_⟩
    · have := sgn_case '#' (by tauto) (f.pr ++ rest)
        (pDouble_none (by decide) (by decide) (by decide) (by decide) (by decide) (by decide)) h1
      simpa [F.pr] using this
    · rw [eval, F.val]
      exact agrees_bind h2 (fun x => evalSgn_mac m x)
  | .br e, rest, hr => by
    obtain ⟨first, k, X, h1, h2, h3⟩ := parse_E e (']' :: rest) ⟨by decide, by decide, by decide, by decide⟩ rfl
    have hl : qEl (']' :: rest) = .ok .nil (']' :: rest) := by rw [qEl_eqn]; rfl
    rw [hl] at h1
    refine ⟨.prog first (k .nil), ?_, ?_⟩
    · have : (F.br e).pr ++ rest = '[' :: (e.pr ++ ']' :: rest) := by simp [F.pr]
      rw [this, qF_eqn, pDouble_none (by decide) (by decide) (by decide) (by decide) (by decide) (by decide)]
      simp only [skip_cons (show '[' ≠ ' ' by decide) (show '[' ≠ '\t' by decide), h1, PR.map, must, closeAfter]
      rw [skip_cons (by decide) (by decide)]
      simp [isOpen, isClose]
    · rw [h2, F.val]
      have : (X >>= fun v => evalOps tr m v .nil) = X := by cases X <;> simp [evalOps]
      rw [this]; exact h3
  | .fn g e, rest, hr => by
    obtain ⟨first, k, X, h1, h2, h3⟩ := parse_E e (']' :: rest) ⟨by decide, by decide, by decide, by decide⟩ rfl
    have hl : qEl (']' :: rest) = .ok .nil (']' :: rest) := by rw [qEl_eqn]; rfl
    rw [hl] at h1
    obtain ⟨c, r, hg, hc1, hc2, hc3, hc4, hc5, hc6, hc7, hc8⟩ := fn_head g
    refine ⟨.fn (fnName g) (.prog first (k .nil)), ?_, ?_⟩
    · have hpr : (F.fn g e).pr ++ rest = g.txt ++ '[' :: (e.pr ++ ']' :: rest) := by simp [F.pr]
      have hsym := pSym_fn g (e.pr ++ ']' :: rest)
      rw [hpr, qF_eqn]
      have hd : pDouble (g.txt ++ '[' :: (e.pr ++ ']' :: rest)) = none := by
        rw [hg]; exact pDouble_none hc1 hc2 hc3 hc4 hc5 hc6
      have hsk : skip (g.txt ++ '[' :: (e.pr ++ ']' :: rest)) = c :: (r ++ '[' :: (e.pr ++ ']' :: rest)) := by
        rw [hg]; exact skip_cons hc1 hc2
      have hnot : ¬ (c = '-' ∨ c = '+' ∨ c = '#') := by tauto
      simp only [hd, hsk, hc8, hnot, hsym, if_false, Bool.false_eq_true]
      rw [skip_cons (show '[' ≠ ' ' by decide) (by decide)]
      simp only [h1, PR.map, must, closeAfter]
      rw [skip_cons (by decide) (by decide)]
      simp [isOpen, isClose]
    · rw [eval, h2, F.val]
      have : (X >>= fun v => evalOps tr m v .nil) = X := by cases X <;> simp [evalOps]
      rw [this]
      exact agrees_bind h3 (fun x => evalFn_agrees tr g x)
end

/-- A printed expression followed by anything that does not continue it. -/
theorem evalText_pr (e : E) (rest : Str) (hr : exprEnd rest) :
    Agrees (evalText tr m (e.pr ++ rest)) (e.val (spTr tr) (m.valueMax)) := by
  obtain ⟨first, k, X, h1, h2, h3⟩ := parse_E tr m e rest hr.2.2 hr.2.1
  have hl : qEl rest = .ok .nil rest := by rw [qEl_eqn, hr.1]
  rw [evalText_eq, h1, hl]
  simp only [PR.map]
  have : eval tr m (.prog first (k .nil)) = X := by
    rw [h2]; cases X <;> simp [evalOps]
  rw [this]
  intro v
  rw [← h3 v]
  cases X <;> simp

end NC.Calc
