import Verif.Spec.Form
import Verif.Spec.Settings
import Verif.SettingsProofs
import Mathlib.Tactic.Linarith
import Mathlib.Tactic.Positivity
import Mathlib.Tactic.FieldSimp
import Mathlib.Data.Nat.Prime.Basic

/-! # Numbers and lists of the settings form -/

namespace NC.Form
open NC NC.Enums NC.Conf NC.Spec.Form

/-! ## Digits -/

theorem lastDigits_length : ∀ (k n : Nat), (lastDigits k n).length = k
  | 0, _ => rfl
  | k + 1, n => by simp [lastDigits, lastDigits_length k]

theorem lastDigits_dig : ∀ (k n : Nat), ∀ c ∈ lastDigits k n, isDig c = true
  | 0, _ => by simp [lastDigits]
  | k + 1, n => by
    intro c hc
    simp only [lastDigits, List.mem_append, List.mem_singleton] at hc
    rcases hc with hc | rfl
    · exact lastDigits_dig k _ c hc
    · exact isDig_digChr (Nat.mod_lt _ (by norm_num))

theorem lastDigits_read : ∀ (k n : Nat), readNat (lastDigits k n) = n % 10 ^ k
  | 0, n => by simp [lastDigits, readNat, Nat.mod_one]
  | k + 1, n => by
    rw [lastDigits, readNat_append, lastDigits_read k]
    have h1 : readNat [digChr (n % 10)] = n % 10 := by
      simp [readNat, digVal_digChr (Nat.mod_lt n (by norm_num : 0 < 10))]
    rw [h1, List.length_singleton, pow_one, pow_succ, mul_comm (10 ^ k) 10, Nat.mod_mul]
    ring

theorem dvd_pow_self_of {n m k : Nat} (hn : 0 < n) (h : n ∣ m ^ k) : n ∣ m ^ n := by
  induction n using Nat.strong_induction_on with
  | _ n ih =>
    rcases Nat.lt_or_ge 1 n with h1 | h1
    · obtain ⟨p, hp, hd⟩ := Nat.exists_prime_and_dvd (n := n) (show n ≠ 1 by omega)
      obtain ⟨l, rfl⟩ := hd
      have hl : 0 < l := Nat.pos_of_mul_pos_left hn |> fun h => by
        rcases Nat.eq_zero_or_pos l with h0 | h0
        · subst h0; simp at hn
        · exact h0
      have hlt : l < p * l := by nlinarith [hp.two_le]
      have hpm : p ∣ m := hp.dvd_of_dvd_pow ((Dvd.intro l rfl).trans h)
      have := ih l hlt hl ((Dvd.intro_left p rfl).trans h)
      have h2 : p * l ∣ m ^ (l + 1) := by rw [pow_succ, mul_comm (m ^ l)]; exact Nat.mul_dvd_mul hpm this
      exact h2.trans (pow_dvd_pow m (by omega))
    · have : n = 1 := by omega
      subst this; simp

theorem finite_den {q : ℚ} (h : Finite q) : ∃ k, q.den ∣ 10 ^ k := by
  obtain ⟨m, k, rfl⟩ := h
  refine ⟨k, ?_⟩
  have h2 := Rat.den_dvd m (10 ^ k : Int)
  have h3 : ((m : ℚ) / ((10 ^ k : Int) : ℚ)) = (m : ℚ) / 10 ^ k := by push_cast; rfl
  rw [← Rat.intCast_div_eq_divInt] at h2
  rw [h3] at h2
  exact_mod_cast h2

theorem decimals_spec {q : ℚ} (h : Finite q) : q.den ∣ 10 ^ decimals q := by
  obtain ⟨k, hk⟩ := finite_den h
  have h1 := dvd_pow_self_of q.den_pos hk
  unfold decimals
  cases hf : (List.range (q.den + 1)).find? (fun k => decide (10 ^ k % q.den = 0)) with
  | none =>
    rw [List.find?_eq_none] at hf
    have := hf q.den (by simp)
    exact absurd (Nat.mod_eq_zero_of_dvd h1) (by simpa using this)
  | some j =>
    have := List.find?_some hf
    exact Nat.dvd_of_mod_eq_zero (by simpa using this)

theorem decimals_least {q : ℚ} {k : Nat} (h : q.den ∣ 10 ^ k) : decimals q ≤ k := by
  have h1 := dvd_pow_self_of q.den_pos h
  unfold decimals
  cases hf : (List.range (q.den + 1)).find? (fun k => decide (10 ^ k % q.den = 0)) with
  | none => simp
  | some j =>
    show j ≤ k
    by_contra hlt
    have hlt : k < j := by omega
    obtain ⟨_, pre, post, hl, hpre⟩ := List.find?_eq_some_iff_append.mp hf
    have hj : pre = List.range j := by
      have hlen : pre.length = j := by
        have := congrArg (fun l => l[pre.length]?) hl
        simp only [List.getElem?_append_right (le_refl _), Nat.sub_self, List.getElem?_cons_zero] at this
        rw [List.getElem?_eq_some_iff] at this
        obtain ⟨_, h3⟩ := this
        rw [List.getElem_range] at h3
        exact h3
      have := congrArg (List.take pre.length) hl
      rw [List.take_left' rfl, List.take_range, hlen] at this
      rw [← this]
      congr 1
      have : j ∈ List.range (q.den + 1) := by rw [hl]; simp
      rw [List.mem_range] at this
      omega
    have := hpre k (by rw [hj]; simpa using hlt)
    have h2 := Nat.mod_eq_zero_of_dvd h
    simp [h2] at this

theorem decimals_zero {q : ℚ} (h : Finite q) : decimals q = 0 ↔ q.den = 1 := by
  constructor
  · intro h0
    have := decimals_spec h
    rw [h0, pow_zero] at this
    exact Nat.dvd_one.mp this
  · intro h1
    have := decimals_least (q := q) (k := 0) (by rw [h1]; simp)
    omega

/-- The digits of a number without the point. -/
def digitsOf (q : ℚ) : Nat := q.num.natAbs * (10 ^ decimals q / q.den)

theorem digitsOf_val {q : ℚ} (h : Finite q) : (digitsOf q : ℚ) / 10 ^ decimals q = |q| := by
  obtain ⟨l, hl⟩ := decimals_spec h
  have hd : (q.den : ℚ) ≠ 0 := by exact_mod_cast q.den_nz
  have hp : (10 : ℚ) ^ decimals q = q.den * l := by exact_mod_cast hl
  have hl0 : (l : ℚ) ≠ 0 := by
    intro h0
    rw [h0, mul_zero] at hp
    exact absurd hp (by positivity)
  have : 10 ^ decimals q / q.den = l := by rw [hl]; exact Nat.mul_div_cancel_left l q.den_pos
  unfold digitsOf
  rw [this, hp]
  push_cast
  rw [mul_div_mul_right _ _ hl0]
  conv_rhs => rw [← Rat.num_div_den q, abs_div]
  rw [Nat.abs_cast, Nat.cast_natAbs, Int.cast_abs]

/-! ## Texts of numbers -/

/-- The sign of a number. -/
def signText (neg : Bool) : Str := if neg then ['-'] else []

theorem numText_eq (sep : Char) (q : ℚ) : numText sep q =
    signText (decide (q < 0)) ++ (natStr (digitsOf q / 10 ^ decimals q) ++
      (if decimals q = 0 then [] else sep :: lastDigits (decimals q) (digitsOf q))) := by
  unfold numText signText digitsOf
  simp only [List.append_assoc, decide_eq_true_eq]

theorem text_val {q : ℚ} (h : Finite q) :
    (if decide (q < 0) = true then -((readNat (natStr (digitsOf q / 10 ^ decimals q)) : ℚ) +
        (readNat (lastDigits (decimals q) (digitsOf q)) : ℚ) / 10 ^ (lastDigits (decimals q) (digitsOf q)).length)
      else (readNat (natStr (digitsOf q / 10 ^ decimals q)) : ℚ) +
        (readNat (lastDigits (decimals q) (digitsOf q)) : ℚ) / 10 ^ (lastDigits (decimals q) (digitsOf q)).length) = q := by
  rw [readNat_natStr, lastDigits_read, lastDigits_length]
  have hp : (10 : ℚ) ^ decimals q ≠ 0 := by positivity
  have h1 : ((digitsOf q / 10 ^ decimals q : Nat) : ℚ) + ((digitsOf q % 10 ^ decimals q : Nat) : ℚ) / 10 ^ decimals q = |q| := by
    rw [← digitsOf_val h, eq_div_iff hp, add_mul, div_mul_cancel₀ _ hp]
    have := Nat.div_add_mod (digitsOf q) (10 ^ decimals q)
    have h2 : ((10 ^ decimals q * (digitsOf q / 10 ^ decimals q) + digitsOf q % 10 ^ decimals q : Nat) : ℚ) = digitsOf q := by rw [this]
    push_cast at h2
    rw [← h2]
    push_cast
    ring
  rw [h1]
  by_cases hq : q < 0
  · simp only [hq, decide_true, if_true]; rw [abs_of_neg hq]; ring
  · simp only [hq, decide_false]
    simp only [Bool.false_eq_true, if_false]
    exact abs_of_nonneg (not_lt.mp hq)

/-! ## Reading numbers -/

theorem digit_ne {c d : Char} (hc : isDig c = true) (hd : isDig d = false) : c ≠ d := by
  rintro rfl; rw [hc] at hd; cases hd

theorem splitMinus_text (neg : Bool) {w : Str} (hw : ∀ c ∈ w, isDig c = true) (hne : w ≠ []) (t : Str) :
    splitMinus (signText neg ++ (w ++ t)) = (neg, w ++ t) := by
  cases neg with
  | true => rfl
  | false =>
    obtain ⟨c, w, rfl⟩ := List.exists_cons_of_ne_nil hne
    have hc := hw c (by simp)
    have h1 : c ≠ '-' := digit_ne hc (by decide)
    have h2 : c ≠ '+' := digit_ne hc (by decide)
    show splitMinus (c :: (w ++ t)) = _
    unfold splitMinus
    split
    · rename_i h; cases h; exact absurd rfl h1
    · rename_i h; cases h; exact absurd rfl h2
    · rfl

theorem takeWhile_stop {p : Char → Bool} {w : Str} (hw : ∀ c ∈ w, p c = true) {t : Str} (ht : ∀ c s, t = c :: s → p c = false) :
    (w ++ t).takeWhile p = w ∧ (w ++ t).dropWhile p = t := by
  induction w with
  | nil =>
    cases t with
    | nil => exact ⟨rfl, rfl⟩
    | cons c s => simp [List.takeWhile, List.dropWhile, ht c s rfl]
  | cons c w ih =>
    obtain ⟨h1, h2⟩ := ih (fun x hx => hw x (by simp [hx]))
    simp [List.takeWhile, List.dropWhile, hw c (by simp), h1, h2]

theorem filter_digits {w : Str} (hw : ∀ c ∈ w, isDig c = true) : w.filter isDig = w := List.filter_eq_self.mpr hw

/-- A number with the right separator. -/
theorem netNum_text {dec grp : Char} (hd : isDig dec = false) (hdg : dec ≠ grp) (neg : Bool) {w : Str} (hw : ∀ c ∈ w, isDig c = true)
    (hne : w ≠ []) {t f : Str} (ht : (t = [] ∧ f = []) ∨ t = dec :: f) (hf : ∀ c ∈ f, isDig c = true) :
    netNum dec grp (signText neg ++ (w ++ t)) =
      some (if neg = true then -((readNat w : ℚ) + (readNat f : ℚ) / 10 ^ f.length) else (readNat w : ℚ) + (readNat f : ℚ) / 10 ^ f.length) := by
  have hwp : wholePart grp (w ++ t) = (w, t) := by
    obtain ⟨c, w', rfl⟩ := List.exists_cons_of_ne_nil hne
    obtain ⟨h1, h2⟩ := takeWhile_stop (p := fun x => isDig x || x == grp) (w := c :: w') (t := t)
      (fun x hx => by simp [hw x hx]) (fun x s hs => by
        rcases ht with ⟨ht, _⟩ | ht
        · rw [ht] at hs; cases hs
        · rw [ht] at hs; cases hs; simp [hd, hdg])
    show wholePart grp (c :: (w' ++ t)) = _
    unfold wholePart
    dsimp only
    rw [if_pos (hw c (by simp))]
    exact Prod.ext h1 h2
  have hall : f.all isDig = true := by rw [List.all_eq_true]; exact hf
  unfold netNum
  rw [splitMinus_text neg hw hne]
  dsimp only
  rw [hwp]
  dsimp only
  rw [filter_digits hw]
  rcases ht with ⟨rfl, rfl⟩ | rfl
  · simp [hne]
  · simp [hall, hne]

/-- A decimal separator that is the group separator of the reader is skipped. -/
theorem netNum_grouped {dec grp : Char} (neg : Bool) {w : Str} (hw : ∀ c ∈ w, isDig c = true)
    (hne : w ≠ []) (hg : isDig grp = false) {f : Str} (hf : ∀ c ∈ f, isDig c = true) :
    netNum dec grp (signText neg ++ (w ++ grp :: f)) = some (if neg = true then -(readNat (w ++ f) : ℚ) else (readNat (w ++ f) : ℚ)) := by
  have hwp : wholePart grp (w ++ grp :: f) = (w ++ grp :: f, []) := by
    obtain ⟨c, w', rfl⟩ := List.exists_cons_of_ne_nil hne
    obtain ⟨h1, h2⟩ := takeWhile_stop (p := fun x => isDig x || x == grp) (w := c :: w' ++ grp :: f) (t := [])
      (fun x hx => by
        simp only [List.mem_append, List.mem_cons] at hx
        rcases hx with (rfl | hx) | rfl | hx
        · simp [hw x (by simp)]
        · simp [hw x (by simp [hx])]
        · simp
        · simp [hf x hx]) (fun x s hs => by cases hs)
    rw [List.append_nil] at h1 h2
    show wholePart grp (c :: (w' ++ grp :: f)) = _
    unfold wholePart
    dsimp only
    rw [if_pos (hw c (by simp))]
    exact Prod.ext h1 h2
  unfold netNum
  rw [splitMinus_text neg hw hne]
  dsimp only
  rw [hwp]
  dsimp only
  have hfil : (w ++ grp :: f).filter isDig = w ++ f := by
    rw [List.filter_append, filter_digits hw, List.filter_cons_of_neg (by simp [hg]), filter_digits hf]
  rw [hfil]
  simp [hne, readNat]

theorem natStr_digits (n : Nat) : ∀ c ∈ natStr n, isDig c = true := natStr_isDig n

theorem tail_cases (sep : Char) (q : ℚ) :
    ((if decimals q = 0 then [] else sep :: lastDigits (decimals q) (digitsOf q)) = [] ∧ lastDigits (decimals q) (digitsOf q) = []) ∨
    (if decimals q = 0 then [] else sep :: lastDigits (decimals q) (digitsOf q)) = sep :: lastDigits (decimals q) (digitsOf q) := by
  by_cases h : decimals q = 0
  · left; rw [if_pos h, h]; exact ⟨rfl, rfl⟩
  · right; rw [if_neg h]

/-- A number that was shown is read as that number by the same culture. -/
theorem number_shown {dec grp : Char} (hd : isDig dec = false) (hdg : dec ≠ grp) {q : ℚ} (h : Finite q) :
    netNum dec grp (numText dec q) = some q := by
  rw [numText_eq, netNum_text hd hdg _ (natStr_digits _) (natStr_ne_nil _) (tail_cases dec q) (lastDigits_dig _ _), text_val h]

theorem culture_shown (c : Culture) {q : ℚ} (h : Finite q) : c.number (numText c.dec q) = some q := by
  cases c with
  | english => exact number_shown (by decide) (by decide) h
  | polish => exact number_shown (by decide) (by decide) h

/-! ## The check of the points -/

theorem validate_append : ∀ (a acc b : Str), validateFrom acc (a ++ b) = validateFrom (validateFrom acc a) b
  | [], _, _ => rfl
  | c :: a, acc, b => by
    rw [List.cons_append, validateFrom, validateFrom]
    split
    · exact validate_append a _ b
    · split
      · exact validate_append a _ b
      · exact validate_append a _ b

theorem validate_keep {acc : Str} {c : Char} (h : (invariant (acc ++ [c])).isSome = true) (hc : c ≠ '-') (r : Str) :
    validateFrom acc (c :: r) = validateFrom (acc ++ [c]) r := by
  rw [validateFrom, if_neg (by rintro ⟨_, rfl⟩; exact hc rfl), if_pos h]

/-- Digits are kept wherever they make a number. -/
theorem validate_digits (pre : Str) : ∀ (f acc : Str), (∀ c ∈ f, isDig c = true) →
    (∀ g, (∀ c ∈ g, isDig c = true) → g ≠ [] → (invariant (pre ++ (acc ++ g))).isSome = true) →
    validateFrom (pre ++ acc) f = pre ++ (acc ++ f)
  | [], acc, _, _ => by simp [validateFrom]
  | c :: f, acc, hf, h => by
    have hc := hf c (by simp)
    rw [validate_keep (by rw [List.append_assoc]; exact h [c] (by simpa using hc) (by simp)) (digit_ne hc (by decide)),
      List.append_assoc, validate_digits pre f (acc ++ [c]) (fun x hx => hf x (by simp [hx]))
        (fun g hg _ => by
          rw [List.append_assoc]
          exact h ([c] ++ g) (by simpa [hc] using hg) (by simp))]
    simp

/-- A text of a number with a dot or a comma is kept. -/
theorem validate_text {sep : Char} (hs : sep = '.' ∨ sep = ',') (neg : Bool) {w : Str} (hw : ∀ c ∈ w, isDig c = true) (hne : w ≠ [])
    {t f : Str} (ht : (t = [] ∧ f = []) ∨ t = sep :: f) (hf : ∀ c ∈ f, isDig c = true) :
    validateFrom [] (signText neg ++ (w ++ t)) = signText neg ++ (w ++ t) := by
  have hsep : isDig sep = false := by rcases hs with rfl | rfl <;> decide
  have hsm : sep ≠ '-' := by rcases hs with rfl | rfl <;> decide
  have hi : ∀ g f' : Str, (∀ c ∈ g, isDig c = true) → g ≠ [] → (∀ c ∈ f', isDig c = true) →
      (invariant (signText neg ++ (g ++ sep :: f'))).isSome = true := by
    intro g f' hg hgn hf'
    rcases hs with rfl | rfl
    · unfold invariant; rw [netNum_text (by decide) (by decide) neg hg hgn (Or.inr rfl) hf']; rfl
    · unfold invariant; rw [netNum_grouped neg hg hgn (by decide) hf']; rfl
  have h0 : validateFrom [] (signText neg) = signText neg := by cases neg <;> rfl
  have h1 : validateFrom (signText neg) w = signText neg ++ w := by
    have := validate_digits (signText neg) w [] hw (fun g hg hgn => by
      rw [List.nil_append, ← List.append_nil g]
      unfold invariant
      rw [netNum_text (by decide) (by decide) neg hg hgn (Or.inl ⟨rfl, rfl⟩) (f := []) (by simp)]; rfl)
    simpa using this
  rw [validate_append, h0, validate_append, h1]
  rcases ht with ⟨rfl, rfl⟩ | rfl
  · simp [validateFrom]
  · rw [validate_keep (by have := hi w [] hw hne (by simp); simpa using this) hsm]
    have := validate_digits (signText neg) f (w ++ [sep]) hf (fun g hg _ => by
      have := hi w g hw hne hg
      simpa using this)
    simpa using this

/-- In English a coordinate comes back as it is. -/
theorem point_english {q : ℚ} (h : Finite q) : readCoord (pointText .english q) = q := by
  unfold readCoord pointText
  rw [show Culture.english.dec = '.' from rfl, numText_eq, validate_text (Or.inl rfl) _ (natStr_digits _) (natStr_ne_nil _) (tail_cases '.' q) (lastDigits_dig _ _), ← numText_eq]
  unfold invariant
  rw [number_shown (by decide) (by decide) h]
  rfl

/-- In Polish a coordinate comes back without its comma. -/
theorem point_polish {q : ℚ} (h : Finite q) : readCoord (pointText .polish q) = q * 10 ^ decimals q := by
  unfold readCoord pointText
  rw [show Culture.polish.dec = ',' from rfl, numText_eq, validate_text (Or.inr rfl) _ (natStr_digits _) (natStr_ne_nil _) (tail_cases ',' q) (lastDigits_dig _ _)]
  unfold invariant
  have hv := text_val h
  by_cases h0 : decimals q = 0
  · rw [if_pos h0, netNum_text (by decide) (by decide) _ (natStr_digits _) (natStr_ne_nil _)
      (Or.inl ⟨rfl, rfl⟩) (f := []) (by simp)]
    rw [h0] at hv ⊢
    simpa [lastDigits] using hv
  · rw [if_neg h0, netNum_grouped _ (natStr_digits _) (natStr_ne_nil _) (by decide) (lastDigits_dig _ _), Option.getD_some,
      readNat_append]
    have hp : (10 : ℚ) ^ decimals q ≠ 0 := by positivity
    have this : ∀ a b : ℚ, (a + b / 10 ^ decimals q) * 10 ^ decimals q = a * 10 ^ decimals q + b := by
      intro a b; rw [add_mul, div_mul_cancel₀ _ hp]
    refine Eq.trans ?_ (congrArg (fun x => x * 10 ^ decimals q) hv)
    split
    · rw [neg_mul, lastDigits_length, this]; push_cast; rfl
    · rw [lastDigits_length, this]; push_cast; rfl

/-! ## Whole numbers -/

theorem netInt_text (neg : Bool) {w : Str} (hw : ∀ c ∈ w, isDig c = true) (hne : w ≠ []) {z : Int}
    (hz : z = if neg = true then -(readNat w : Int) else (readNat w : Int)) (hs : Small z) : netInt (signText neg ++ w) = some z := by
  unfold netInt
  have := splitMinus_text neg hw hne []
  rw [List.append_nil] at this
  rw [this]
  dsimp only
  rw [← hz, if_pos ⟨hne, by rw [List.all_eq_true]; exact hw, hs.1, hs.2⟩]

theorem netInt_intText {z : Int} (h : Small z) : netInt (intText z) = some z := by
  have : intText z = signText (decide (z < 0)) ++ natStr z.natAbs := by
    unfold intText intStr signText
    by_cases hz : z < 0 <;> simp [hz]
  rw [this]
  refine netInt_text _ (natStr_digits _) (natStr_ne_nil _) ?_ h
  rw [readNat_natStr]
  by_cases hz : z < 0
  · simp only [hz, decide_true, if_true]; omega
  · simp only [hz, decide_false, Bool.false_eq_true, if_false]; omega

/-- A feed that is a whole number of 32 bits comes back. -/
theorem feed_whole (sep : Char) {q : ℚ} {z : Int} (hq : q = z) (h : Small z) : netInt (numText sep q) = some z := by
  have hden : q.den = 1 := by rw [hq]; rfl
  have hf : Finite q := ⟨z, 0, by rw [hq]; simp⟩
  have h0 : decimals q = 0 := (decimals_zero hf).mpr hden
  have : numText sep q = intText z := by
    rw [numText_eq, h0, if_pos rfl, List.append_nil, pow_zero, Nat.div_one]
    have hd : digitsOf q = z.natAbs := by
      unfold digitsOf; rw [h0, hden, hq]; simp
    rw [hd]
    unfold intText intStr signText
    have : q < 0 ↔ z < 0 := by rw [hq]; exact_mod_cast Iff.rfl
    by_cases hz : z < 0
    · simp [this, hz]
    · simp [this, hz]
  rw [this]
  exact netInt_intText h

/-- A feed with decimals is not read. -/
theorem feed_fraction {sep : Char} (hs : isDig sep = false) {q : ℚ} (h : Finite q) (hd : q.den ≠ 1) : netInt (numText sep q) = none := by
  have h0 : decimals q ≠ 0 := fun e => hd ((decimals_zero h).mp e)
  rw [numText_eq, if_neg h0]
  unfold netInt
  rw [splitMinus_text _ (natStr_digits _) (natStr_ne_nil _)]
  dsimp only
  rw [if_neg]
  rintro ⟨_, ha, _⟩
  rw [List.all_eq_true] at ha
  have := ha sep (by simp)
  rw [hs] at this
  cases this

theorem netInt_small {s : Str} {z : Int} (h : netInt s = some z) : Small z := by
  unfold netInt at h
  dsimp only at h
  by_cases hc : (splitMinus s).2 ≠ [] ∧ (splitMinus s).2.all isDig = true ∧
      -2147483648 ≤ (if (splitMinus s).1 = true then -(readNat (splitMinus s).2 : Int) else readNat (splitMinus s).2) ∧
      (if (splitMinus s).1 = true then -(readNat (splitMinus s).2 : Int) else readNat (splitMinus s).2) ≤ 2147483647
  · rw [if_pos hc] at h
    injection h with h
    rw [← h]
    exact ⟨hc.2.2.1, hc.2.2.2⟩
  · rw [if_neg hc] at h
    cases h

theorem netNum_finite {dec grp : Char} {s : Str} {q : ℚ} (h : netNum dec grp s = some q) : Finite q := by
  have key : ∀ (neg : Bool) (n : Nat) (f : Str), Spec.Form.Finite (if neg = true then -((n : ℚ) + (readNat f : ℚ) / 10 ^ f.length)
      else (n : ℚ) + (readNat f : ℚ) / 10 ^ f.length) := by
    intro neg n f
    have hp : (10 : ℚ) ^ f.length ≠ 0 := by positivity
    cases neg
    · exact ⟨n * 10 ^ f.length + readNat f, f.length, by
        rw [if_neg (by simp)]; push_cast; field_simp⟩
    · exact ⟨-(n * 10 ^ f.length + readNat f), f.length, by
        rw [if_pos rfl]; push_cast; field_simp⟩
  unfold netNum at h
  dsimp only at h
  split at h
  · split at h
    · injection h with h; rw [← h]; exact key _ _ []
    · cases h
  · split at h
    · split at h
      · injection h with h; rw [← h]; exact key _ _ _
      · cases h
    · cases h

/-! ## Single precision -/

theorem nearest_best (x : ℚ) (k : Int) : |(nearest x : ℚ) - x| ≤ |(k : ℚ) - x| := by
  have h1 := Int.floor_le x
  have h2 := Int.lt_floor_add_one x
  have hk : (k : ℚ) ≤ ⌊x⌋ ∨ (⌊x⌋ : ℚ) + 1 ≤ k := by
    rcases le_or_gt k ⌊x⌋ with h | h
    · left; exact_mod_cast h
    · right; exact_mod_cast h
  have hb : x - ⌊x⌋ ≤ |(k : ℚ) - x| ∨ (⌊x⌋ : ℚ) + 1 - x ≤ |(k : ℚ) - x| := by
    rcases hk with hk | hk
    · left; rw [abs_sub_comm]; exact le_trans (by linarith) (le_abs_self _)
    · right; exact le_trans (by linarith) (le_abs_self _)
  unfold nearest
  dsimp only
  have hlo : |((⌊x⌋ : Int) : ℚ) - x| = x - ⌊x⌋ := by rw [abs_sub_comm]; exact abs_of_nonneg (by linarith)
  have hhi : |((⌊x⌋ + 1 : Int) : ℚ) - x| = ⌊x⌋ + 1 - x := by push_cast; exact abs_of_nonneg (by linarith)
  split
  · rename_i h; rw [hlo]; rcases hb with hb | hb <;> linarith
  · rename_i h
    split
    · rw [hhi]; rcases hb with hb | hb <;> linarith
    · rename_i h'
      split
      · rw [hlo]; rcases hb with hb | hb <;> linarith
      · rw [hhi]; rcases hb with hb | hb <;> linarith

theorem nearest_lower {x : ℚ} {k : Int} (h : (k : ℚ) ≤ x) : k ≤ nearest x := by
  have := Int.le_floor.mpr h
  unfold nearest
  dsimp only
  split
  · exact this
  · split
    · omega
    · split <;> omega

theorem nearest_upper {x : ℚ} {k : Int} (h : x ≤ (k : ℚ)) : nearest x ≤ k := by
  have h1 : ⌊x⌋ ≤ k := by exact_mod_cast (Int.floor_le x).trans h
  have h2 : 1 / 2 ≤ x - ⌊x⌋ → ⌊x⌋ + 1 ≤ k := by
    intro h3
    have : (⌊x⌋ : ℚ) < k := by linarith
    exact_mod_cast this
  unfold nearest
  dsimp only
  split
  · exact h1
  · rename_i h3
    have := h2 (not_lt.mp h3)
    split
    · exact this
    · split <;> omega

theorem nearest_int (k : Int) : nearest (k : ℚ) = k := le_antisymm (nearest_upper le_rfl) (nearest_lower le_rfl)

theorem cast_pow2 (n : Nat) : ((2 ^ n : Int) : ℚ) = 2 ^ (n : Int) := by push_cast; rw [zpow_natCast]

theorem abs_cast_lt {m : Int} {n : Nat} (h : |m| < 2 ^ n) : |(m : ℚ)| < 2 ^ (n : Int) := by
  have : ((|m| : Int) : ℚ) < ((2 ^ n : Int) : ℚ) := Int.cast_lt.mpr h
  rwa [cast_pow2, Int.cast_abs] at this

theorem abs_cast_le {m : Int} {n : Nat} (h : |m| ≤ 2 ^ n) : |(m : ℚ)| ≤ 2 ^ (n : Int) := by
  have : ((|m| : Int) : ℚ) ≤ ((2 ^ n : Int) : ℚ) := Int.cast_le.mpr h
  rwa [cast_pow2, Int.cast_abs] at this

theorem le_abs_cast {m : Int} {n : Nat} (h : 2 ^ n ≤ |m|) : 2 ^ (n : Int) ≤ |(m : ℚ)| := by
  have : ((2 ^ n : Int) : ℚ) ≤ ((|m| : Int) : ℚ) := Int.cast_le.mpr h
  rwa [cast_pow2, Int.cast_abs] at this

/-- The exponent of the conversion. -/
def expoOf (q : ℚ) : Int := max (Int.log 2 |q| - 23) (-149)

theorem single_eq {q : ℚ} (hq : q ≠ 0) : single q =
    if 2 ^ 128 ≤ |(nearest (q / 2 ^ expoOf q) : ℚ) * 2 ^ expoOf q| then none
    else some ((nearest (q / 2 ^ expoOf q) : ℚ) * 2 ^ expoOf q) := by
  unfold single
  rw [if_neg hq]
  rfl

theorem pow2_pos (e : Int) : (0 : ℚ) < 2 ^ e := zpow_pos (by norm_num) e

theorem log_bounds {q : ℚ} (hq : q ≠ 0) : (2 : ℚ) ^ Int.log 2 |q| ≤ |q| ∧ |q| < (2 : ℚ) ^ (Int.log 2 |q| + 1) := by
  have h1 := Int.zpow_log_le_self (b := 2) (r := |q|) (by norm_num) (abs_pos.mpr hq)
  have h2 := Int.lt_zpow_succ_log_self (b := 2) (by norm_num) |q|
  exact ⟨by exact_mod_cast h1, by exact_mod_cast h2⟩

/-- Every multiple of the unit of a number is at least as far away as what it is rounded to. -/
theorem round_best (q : ℚ) (k : Int) :
    |(nearest (q / 2 ^ expoOf q) : ℚ) * 2 ^ expoOf q - q| ≤ |(k : ℚ) * 2 ^ expoOf q - q| := by
  have hp := pow2_pos (expoOf q)
  have h := nearest_best (q / 2 ^ expoOf q) k
  have e1 : ∀ a : ℚ, |a * 2 ^ expoOf q - q| = |a - q / 2 ^ expoOf q| * 2 ^ expoOf q := by
    intro a
    conv_rhs => rw [← abs_of_pos hp, ← abs_mul]
    rw [abs_of_pos hp, sub_mul, div_mul_cancel₀ _ hp.ne']
  rw [e1, e1]
  exact mul_le_mul_of_nonneg_right h hp.le

theorem pow_split (a b : Int) : (2 : ℚ) ^ (a + b) = 2 ^ a * 2 ^ b := zpow_add₀ (by norm_num) a b

theorem pow_int {a : Int} (h : 0 ≤ a) : ∃ k : Int, (k : ℚ) = 2 ^ a ∧ 0 < k := by
  obtain ⟨n, rfl⟩ := Int.eq_ofNat_of_zero_le h
  exact ⟨2 ^ n, by push_cast; rw [zpow_natCast], pow_pos (by norm_num) n⟩

theorem expo_le {q : ℚ} (hq : q ≠ 0) {e : Int} (he : -149 ≤ e) (h : |q| < 2 ^ (24 + e)) : expoOf q ≤ e := by
  have h1 := (log_bounds hq).1
  have h2 : (2 : ℚ) ^ Int.log 2 |q| < 2 ^ (24 + e) := lt_of_le_of_lt h1 h
  have h3 : Int.log 2 |q| < 24 + e := (zpow_lt_zpow_iff_right₀ (by norm_num)).mp h2
  unfold expoOf
  exact max_le (by omega) he

/-- A number of single precision stays as it is. -/
theorem single_keep {q : ℚ} (h : Single q) : single q = some q := by
  by_cases hq : q = 0
  · unfold single; rw [if_pos hq, hq]
  · obtain ⟨m, e, h1, h2, h3, h4⟩ := h
    have hm : |(m : ℚ)| < 2 ^ (24 : Int) := abs_cast_lt h2
    have hlt : |q| < 2 ^ (24 + e) := by
      rw [h1, abs_mul, abs_of_pos (pow2_pos e), pow_split]
      exact mul_lt_mul_of_pos_right hm (pow2_pos e)
    have he := expo_le hq h3 hlt
    obtain ⟨k, hk, -⟩ := pow_int (show 0 ≤ e - expoOf q by omega)
    have hr : (nearest (q / 2 ^ expoOf q) : ℚ) * 2 ^ expoOf q = q := by
      have : q / 2 ^ expoOf q = ((m * k : Int) : ℚ) := by
        rw [div_eq_iff (pow2_pos _).ne']
        push_cast
        rw [hk, mul_assoc, ← pow_split, h1]
        congr 2
        omega
      rw [this, nearest_int, ← this, div_mul_cancel₀ _ (pow2_pos _).ne']
    rw [single_eq hq, hr, if_neg]
    rw [not_le]
    refine lt_of_lt_of_le hlt ?_
    have : (2 : ℚ) ^ (24 + e) ≤ 2 ^ (128 : Int) := zpow_le_zpow_right₀ (by norm_num) (by omega)
    exact_mod_cast this

/-- The result has single precision and nothing of single precision is nearer. -/
theorem single_nearest {q r : ℚ} (h : single q = some r) : Single r ∧ ∀ s, Single s → |r - q| ≤ |s - q| := by
  by_cases hq : q = 0
  · unfold single at h
    rw [if_pos hq] at h
    injection h with h
    subst h
    refine ⟨⟨0, 0, by simp, by norm_num, by norm_num, by norm_num⟩, fun s _ => ?_⟩
    rw [hq]; simp
  · obtain ⟨hlo, hhi⟩ := log_bounds hq
    rw [single_eq hq] at h
    split at h
    · cases h
    · rename_i hsmall
      injection h with h
      rw [not_le, abs_mul, abs_of_pos (pow2_pos _)] at hsmall
      have hsmall : |(nearest (q / 2 ^ expoOf q) : ℚ)| * 2 ^ expoOf q < 2 ^ (128 : Int) := by exact_mod_cast hsmall
      have hm0 := pow2_pos (expoOf q)
      have hx : |q / 2 ^ expoOf q| = |q| / 2 ^ expoOf q := by rw [abs_div, abs_of_pos hm0]
      have hx24 : |q / 2 ^ expoOf q| ≤ ((2 ^ 24 : Int) : ℚ) := by
        rw [hx, div_le_iff₀ hm0]
        refine hhi.le.trans ?_
        have : ((2 ^ 24 : Int) : ℚ) = 2 ^ (24 : Int) := by norm_num
        rw [this, ← pow_split]
        exact zpow_le_zpow_right₀ (by norm_num) (by unfold expoOf; omega)
      have hn24 : |nearest (q / 2 ^ expoOf q)| ≤ 2 ^ 24 := by
        rw [abs_le] at hx24 ⊢
        exact ⟨nearest_lower (by push_cast; push_cast at hx24; exact hx24.1), nearest_upper hx24.2⟩
      have hE : -149 ≤ expoOf q := le_max_right _ _
      constructor
      · rcases lt_or_eq_of_le hn24 with hn | hn
        · refine ⟨_, expoOf q, h.symm, hn, hE, ?_⟩
          by_contra hE2
          have hE3 : expoOf q = Int.log 2 |q| - 23 := by unfold expoOf at hE2 ⊢; omega
          have hx23 : ((2 ^ 23 : Int) : ℚ) ≤ |q / 2 ^ expoOf q| := by
            rw [hx, le_div_iff₀ hm0]
            refine le_trans ?_ hlo
            have : ((2 ^ 23 : Int) : ℚ) = 2 ^ (23 : Int) := by norm_num
            rw [this, ← pow_split, hE3]
            exact zpow_le_zpow_right₀ (by norm_num) (by omega)
          have hn23 : (2 ^ 23 : Int) ≤ |nearest (q / 2 ^ expoOf q)| := by
            rcases le_abs.mp hx23 with h5 | h5
            · exact (nearest_lower h5).trans (le_abs_self _)
            · have : nearest (q / 2 ^ expoOf q) ≤ -(2 ^ 23 : Int) := nearest_upper (by push_cast at h5 ⊢; linarith)
              exact le_trans (by omega) (neg_le_abs _)
          have h6 : (2 : ℚ) ^ (23 : Int) ≤ |(nearest (q / 2 ^ expoOf q) : ℚ)| := le_abs_cast hn23
          have h7 : (2 : ℚ) ^ (23 : Int) * 2 ^ expoOf q < 2 ^ (128 : Int) :=
            lt_of_le_of_lt (mul_le_mul_of_nonneg_right h6 hm0.le) hsmall
          rw [← pow_split] at h7
          have := (zpow_lt_zpow_iff_right₀ (by norm_num : (1 : ℚ) < 2)).mp h7
          omega
        · have habs : |(nearest (q / 2 ^ expoOf q) : ℚ)| = 2 ^ (24 : Int) := le_antisymm (abs_cast_le hn.le) (le_abs_cast hn.ge)
          rw [habs, ← pow_split] at hsmall
          have h8 := (zpow_lt_zpow_iff_right₀ (by norm_num : (1 : ℚ) < 2)).mp hsmall
          have h9 : nearest (q / 2 ^ expoOf q) = 2 ^ 24 ∨ nearest (q / 2 ^ expoOf q) = -2 ^ 24 := by
            rcases abs_eq (by norm_num : (0 : Int) ≤ 2 ^ 24) |>.mp hn with h5 | h5
            · exact Or.inl h5
            · exact Or.inr h5
          have h10 : (2 : ℚ) ^ (expoOf q + 1) = 2 ^ expoOf q * 2 := by rw [pow_split]; norm_num
          rcases h9 with h9 | h9
          · refine ⟨2 ^ 23, expoOf q + 1, ?_, by norm_num, by omega, by omega⟩
            rw [← h, h9, h10]; push_cast; ring
          · refine ⟨-2 ^ 23, expoOf q + 1, ?_, by norm_num, by omega, by omega⟩
            rw [← h, h9, h10]; push_cast; ring
      · rintro s ⟨m, e, rfl, hm, he, -⟩
        rw [← h]
        rcases le_or_gt (expoOf q) e with hle | hgt
        · obtain ⟨k, hk, -⟩ := pow_int (show 0 ≤ e - expoOf q by omega)
          have : (m : ℚ) * 2 ^ e = ((m * k : Int) : ℚ) * 2 ^ expoOf q := by
            push_cast
            rw [hk, mul_assoc, ← pow_split]
            congr 2
            omega
          rw [this]
          exact round_best q _
        · have hE3 : expoOf q = Int.log 2 |q| - 23 := by unfold expoOf at hgt ⊢; omega
          have hs : |(m : ℚ) * 2 ^ e| ≤ 2 ^ Int.log 2 |q| := by
            rw [abs_mul, abs_of_pos (pow2_pos e)]
            have hmq : |(m : ℚ)| ≤ 2 ^ (24 : Int) := abs_cast_le hm.le
            refine (mul_le_mul_of_nonneg_right hmq (pow2_pos e).le).trans ?_
            rw [← pow_split]
            exact zpow_le_zpow_right₀ (by norm_num) (by omega)
          have hsq : |q| - 2 ^ Int.log 2 |q| ≤ |(m : ℚ) * 2 ^ e - q| := by
            have := abs_sub_abs_le_abs_sub q ((m : ℚ) * 2 ^ e)
            rw [abs_sub_comm] at this
            linarith
          have hpw : (2 : ℚ) ^ Int.log 2 |q| = 2 ^ (23 : Int) * 2 ^ expoOf q := by
            rw [← pow_split, hE3]; congr 1; omega
          refine le_trans ?_ hsq
          rcases le_or_gt 0 q with hq0 | hq0
          · refine (round_best q (2 ^ 23)).trans ?_
            rw [abs_of_nonneg hq0] at hlo ⊢
            rw [abs_of_nonneg hq0] at hpw
            have : ((2 ^ 23 : Int) : ℚ) * 2 ^ expoOf q = 2 ^ Int.log 2 q := by rw [hpw]; push_cast; norm_num
            rw [this, abs_sub_comm, abs_of_nonneg (by linarith)]
          · refine (round_best q (-2 ^ 23)).trans ?_
            rw [abs_of_neg hq0] at hlo ⊢
            rw [abs_of_neg hq0] at hpw
            have : ((-2 ^ 23 : Int) : ℚ) * 2 ^ expoOf q = -2 ^ Int.log 2 (-q) := by rw [hpw]; push_cast; norm_num
            rw [this, abs_of_nonneg (by linarith)]
            linarith

theorem single_some {q : ℚ} (h : |q| ≤ 2 ^ 127) : ∃ r, single q = some r := by
  by_cases hq : q = 0
  · exact ⟨0, by unfold single; rw [if_pos hq]⟩
  · obtain ⟨hlo, -⟩ := log_bounds hq
    have h127 : |q| ≤ 2 ^ (127 : Int) := by exact_mod_cast h
    have h1 := (zpow_le_zpow_iff_right₀ (by norm_num : (1 : ℚ) < 2)).mp (hlo.trans h127)
    have hE : expoOf q ≤ 104 := by unfold expoOf; omega
    obtain ⟨k, hk, hk0⟩ := pow_int (show 0 ≤ 127 - expoOf q by omega)
    have hx : |q / 2 ^ expoOf q| ≤ (k : ℚ) := by
      rw [abs_div, abs_of_pos (pow2_pos _), div_le_iff₀ (pow2_pos _), hk, ← pow_split, sub_add_cancel]
      exact h127
    have hn : |(nearest (q / 2 ^ expoOf q) : ℚ)| ≤ k := by
      rw [abs_le] at hx ⊢
      have h2 : -k ≤ nearest (q / 2 ^ expoOf q) := nearest_lower (by push_cast; exact hx.1)
      have h3 : nearest (q / 2 ^ expoOf q) ≤ k := nearest_upper hx.2
      exact ⟨by exact_mod_cast h2, by exact_mod_cast h3⟩
    rw [single_eq hq, if_neg]
    · exact ⟨_, rfl⟩
    · rw [not_le, abs_mul, abs_of_pos (pow2_pos _)]
      refine lt_of_le_of_lt (mul_le_mul_of_nonneg_right hn (pow2_pos _).le) ?_
      rw [hk, ← pow_split]
      have : (2 : ℚ) ^ (127 - expoOf q + expoOf q) < 2 ^ (128 : Int) := zpow_lt_zpow_right₀ (by norm_num) (by omega)
      exact_mod_cast this

theorem single_finite {q : ℚ} (h : Single q) : Finite q := by
  obtain ⟨m, e, rfl, -⟩ := h
  rcases le_or_gt 0 e with he | he
  · obtain ⟨k, hk, -⟩ := pow_int he
    exact ⟨m * k, 0, by push_cast; rw [hk]; simp⟩
  · obtain ⟨n, hn⟩ := Int.eq_ofNat_of_zero_le (show 0 ≤ -e by omega)
    have : e = -(n : Int) := by omega
    subst this
    refine ⟨m * 5 ^ n, n, ?_⟩
    push_cast
    rw [zpow_neg, zpow_natCast, mul_div_assoc]
    congr 1
    rw [show (10 : ℚ) = 5 * 2 by norm_num, mul_pow, div_mul_eq_div_div, div_self (by positivity), one_div]

/-! ## Dictionaries and lists of items -/

theorem look_cons {α : Type} (e : Str × α) (d : Dict α) (k : Str) : look (e :: d) k = if e.1 = k then some e.2 else look d k := by
  unfold look
  by_cases h : e.1 = k
  · rw [if_pos h, List.find?_cons_of_pos (by simp [h])]; rfl
  · rw [if_neg h, List.find?_cons_of_neg (by simp [h])]

theorem look_iff {α : Type} (d : Dict α) (k : Str) (v : α) : look d k = some v ↔ First d k v := by
  constructor
  · intro h
    induction d with
    | nil => cases h
    | cons e d ih =>
      rw [look_cons] at h
      split at h
      · rename_i hk
        injection h with h
        obtain ⟨a, b⟩ := e
        subst hk; subst h
        exact .here _ _ _
      · rename_i hk
        exact .there _ _ _ _ hk (ih h)
  · intro h
    induction h with
    | here k v d => rw [look_cons, if_pos rfl]
    | there k v e d hk _ ih => rw [look_cons, if_neg hk, ih]

theorem first_det {α : Type} {d : Dict α} {k : Str} {v w : α} (h1 : First d k v) (h2 : First d k w) : v = w := by
  rw [← look_iff] at h1 h2
  rw [h1] at h2
  injection h2

theorem first_mem {α : Type} {d : Dict α} {k : Str} {v : α} (h : First d k v) : (k, v) ∈ d := by
  induction h with
  | here => simp
  | there k v e d _ _ ih => simp [ih]

theorem look_put {α : Type} (d : Dict α) (k : Str) (v : α) (a : Str) : look (put d k v) a = if k = a then some v else look d a := by
  induction d with
  | nil => rw [put, look_cons]
  | cons e d ih =>
    rw [put]
    split
    · rename_i h
      rw [look_cons, look_cons]
      by_cases hk : k = a
      · rw [if_pos hk, if_pos hk]
      · rw [if_neg hk, if_neg hk, if_neg (by rw [h]; exact hk)]
    · rename_i h
      rw [look_cons, look_cons, ih]
      by_cases hk : k = a
      · subst hk; simp [h]
      · simp [hk]

theorem select_of {α : Type} {items : List (Str × α)} {n : Str} {v : α} (h : (n, v) ∈ items)
    (hi : ∀ i ∈ items, sameName i.1 n = true → i.2 = v) : select items n = some v := by
  unfold select
  cases hf : items.find? (fun i => sameName i.1 n) with
  | none =>
    rw [List.find?_eq_none] at hf
    exact absurd (hf _ h) (by simp [sameName])
  | some i =>
    have h1 := List.find?_some hf
    have h2 := List.mem_of_find?_eq_some hf
    rw [Option.map_some, hi i h2 (by simpa using h1)]

theorem select_mem {α : Type} {items : List (Str × α)} {n : Str} {v : α} (h : select items n = some v) : ∃ m, (m, v) ∈ items := by
  unfold select at h
  rw [Option.map_eq_some_iff] at h
  obtain ⟨i, hi, rfl⟩ := h
  exact ⟨i.1, List.mem_of_find?_eq_some hi⟩

/-- The items of a list whose names are known. -/
theorem items_some {α β : Type} (g : α → Option Str) (k : α → β) : ∀ (l : List α), (∀ x ∈ l, ∃ n, g x = some n) →
    ∃ r, l.mapM (fun x => (g x).map (fun n => (n, k x))) = some r ∧ (∀ x ∈ l, ∀ n, g x = some n → (n, k x) ∈ r) ∧
      ∀ i ∈ r, ∃ x ∈ l, g x = some i.1 ∧ i.2 = k x
  | [], _ => ⟨[], rfl, by simp, by simp⟩
  | x :: l, h => by
    obtain ⟨r, h1, h2, h3⟩ := items_some g k l (fun y hy => h y (by simp [hy]))
    obtain ⟨n, hn⟩ := h x (by simp)
    refine ⟨(n, k x) :: r, ?_, ?_, ?_⟩
    · rw [List.mapM_cons, hn, h1]; rfl
    · intro y hy m hm
      rcases List.mem_cons.mp hy with rfl | hy
      · rw [hn] at hm; injection hm with hm; subst hm; simp
      · exact List.mem_cons_of_mem _ (h2 y hy m hm)
    · intro i hi
      rcases List.mem_cons.mp hi with rfl | hi
      · exact ⟨x, by simp, hn, rfl⟩
      · obtain ⟨y, hy, h4⟩ := h3 i hi
        exact ⟨y, by simp [hy], h4⟩

theorem same_iff (a b : Str) : sameName a b = true ↔ ¬ Apart a b := by
  unfold sameName Apart
  rw [beq_iff_eq, not_not]

theorem kinItem_of {d : Defs} {list value : Str} (h : Choice d list value) : kinItem d list value = some (some value) := by
  obtain ⟨l, h1, h2, h3⟩ := h
  unfold kinItem
  rw [(look_iff _ _ _).mpr h1, Option.map_some]
  congr 1
  refine select_of (List.mem_map.mpr ⟨value, h2, rfl⟩) ?_
  intro i hi hs
  obtain ⟨x, hx, rfl⟩ := List.mem_map.mp hi
  by_contra hne
  exact (same_iff _ _).mp hs (h3 x hx hne)

theorem cncItem_of {d : Defs} {list value : Str} (h : Offered d list value) : cncItem d list value = some (some value) := by
  obtain ⟨l, ns, h1, h2, h3, h4, h5⟩ := h
  obtain ⟨r, g1, g2, g3⟩ := items_some (fun i => look ns i) (fun i => i) l
    (fun i hi => (h4 i hi).imp (fun n hn => (look_iff _ _ _).mpr hn))
  obtain ⟨n, hn⟩ := h4 value h3
  have hn' := (look_iff _ _ _).mpr hn
  unfold cncItem
  rw [(look_iff _ _ _).mpr h1, (look_iff _ _ _).mpr h2]
  show (l.mapM (fun i => (look ns i).map (fun n => (n, i)))).bind _ = _
  rw [g1]
  show (look ns value).bind _ = _
  rw [hn']
  show some (select r n) = _
  rw [select_of (g2 value h3 n hn')]
  intro i hi hs
  obtain ⟨x, hx, hx1, hx2⟩ := g3 i hi
  rw [hx2]
  by_contra hne
  exact (same_iff _ _).mp hs (h5 x hx _ _ hne ((look_iff _ _ _).mp hx1) hn)

theorem nearest_self {q r : ℚ} (hq : Single q) (h : Nearest q r) : r = q := by
  have := h.2 q hq
  rw [sub_self, abs_zero] at this
  have := abs_nonpos_iff.mp this
  linarith

theorem float_shown (c : Culture) {q : ℚ} (h : Finite q) (hb : |q| ≤ 2 ^ 127) : ∃ r, c.float (numText c.dec q) = some r ∧ Nearest q r := by
  obtain ⟨r, hr⟩ := single_some hb
  refine ⟨r, ?_, single_nearest hr⟩
  unfold Culture.float
  rw [culture_shown c h]
  exact hr

theorem ranges_shown (c : Culture) : ∀ (l acc : Dict (ℚ × ℚ)), (l.map (·.1)).Nodup → (∀ e ∈ l, look acc e.1 = none) →
    (∀ e ∈ l, Finite e.2.1 ∧ |e.2.1| ≤ 2 ^ 127 ∧ Finite e.2.2 ∧ |e.2.2| ≤ 2 ^ 127) →
    ∃ r, readRanges c (l.map (fun a => (a.1, numText c.dec a.2.1, numText c.dec a.2.2))) acc = some (acc ++ r) ∧
      List.Forall₂ (fun a b : Str × ℚ × ℚ => b.1 = a.1 ∧ Nearest a.2.1 b.2.1 ∧ Nearest a.2.2 b.2.2) l r
  | [], acc, _, _, _ => ⟨[], by simp [readRanges], .nil⟩
  | e :: l, acc, hn, ha, hf => by
    obtain ⟨h1, h2, h3, h4⟩ := hf e (by simp)
    obtain ⟨lo, hlo, nlo⟩ := float_shown c h1 h2
    obtain ⟨hi, hhi, nhi⟩ := float_shown c h3 h4
    rw [List.map_cons, List.nodup_cons] at hn
    have hnone : ∀ x ∈ l, look (acc ++ [(e.1, (lo, hi))]) x.1 = none := by
      intro x hx
      have h5 := ha x (by simp [hx])
      have h6 : e.1 ≠ x.1 := fun h => hn.1 (by rw [h]; exact List.mem_map.mpr ⟨x, hx, rfl⟩)
      unfold look at h5 ⊢
      rw [Option.map_eq_none_iff] at h5
      rw [List.find?_append, h5]
      simp [h6]
    obtain ⟨r, hr, hfa⟩ := ranges_shown c l (acc ++ [(e.1, (lo, hi))]) hn.2 hnone (fun x hx => hf x (by simp [hx]))
    refine ⟨(e.1, (lo, hi)) :: r, ?_, .cons ⟨rfl, nlo, nhi⟩ hfa⟩
    rw [List.map_cons, readRanges, hlo, hhi]
    show (if (look acc e.1).isSome = true then none else _) = _
    rw [ha e (by simp), if_neg (by simp), hr]
    simp

/-! ## Decimals -/

theorem whole_iff_den (q : ℚ) (k : Nat) : (∃ z : Int, q * 10 ^ k = z) ↔ q.den ∣ 10 ^ k := by
  constructor
  · rintro ⟨z, hz⟩
    have hp : (10 : ℚ) ^ k ≠ 0 := by positivity
    have : q = (z : ℚ) / ((10 ^ k : Int) : ℚ) := by push_cast; rw [eq_div_iff hp, hz]
    have h2 := Rat.den_dvd z (10 ^ k : Int)
    rw [← Rat.intCast_div_eq_divInt, ← this] at h2
    exact_mod_cast h2
  · rintro ⟨l, hl⟩
    refine ⟨q.num * l, ?_⟩
    have h1 : ((10 : ℚ) ^ k) = q.den * l := by exact_mod_cast hl
    rw [h1, ← mul_assoc, Rat.mul_den_eq_num]
    push_cast
    rfl

theorem decimals_is {q : ℚ} (h : Finite q) : Decimals q (decimals q) :=
  ⟨(whole_iff_den q _).mpr (decimals_spec h), fun j hj => decimals_least ((whole_iff_den q j).mp hj)⟩

theorem coord_shown (c : Culture) {q : ℚ} (h : Finite q) : Coord c q (readCoord (pointText c q)) := by
  cases c with
  | english => exact point_english h
  | polish => exact ⟨decimals q, decimals_is h, point_polish h⟩

end NC.Form
