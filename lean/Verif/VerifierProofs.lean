import Verif.Spec.Verify
import Verif.NumProofs

/-! Lemmas about the verifiers. -/

namespace NC.Ver
open NC NC.Spec.Verify

theorem stoi_number {v : Str} {n : Nat} (h : Number v n) : stoi v = .ok (n : Int) := by
  rw [stoi_digits h.digits h.nonempty (by rw [h.reads]; exact h.small), h.reads]

theorem stoiE_number {v : Str} {n : Nat} (h : Number v n) : stoiE v = .ok (n : Int) := by
  unfold stoiE; rw [stoi_number h]

theorem number_unique {v : Str} {n m : Nat} (h : Number v n) (h' : Number v m) : n = m :=
  h.reads.symm.trans h'.reads

theorem toU32_nat {n : Nat} (h : n ≤ 2147483647) : toU32 (n : Int) = n := by
  unfold toU32; omega

/-! ## Unique addresses -/

theorem uniqueRun_spec (g : WordMap) (b : Block) : ∀ seen : List Str,
    (uniqueRun g seen b = .ok () ↔
      ∀ w, DeclaredUnique g w → occurs w b + (if w ∈ seen then 1 else 0) ≤ 1) ∧
    (uniqueRun g seen b = .ok () ∨ ∃ w, DeclaredUnique g w ∧
      2 ≤ occurs w b + (if w ∈ seen then 1 else 0) ∧
      uniqueRun g seen b = .throw (.msg .unique .CodeNotUnique [w])) := by
  induction b with
  | nil =>
    intro seen
    refine ⟨⟨fun _ w _ => ?_, fun _ => rfl⟩, Or.inl rfl⟩
    have h0 : occurs w [] = 0 := rfl
    rw [h0]; split <;> omega
  | cons a t ih =>
    intro seen
    cases a with
    | str w v => exact ih seen
    | chr w v => exact ih seen
    | dec d =>
      have hocc : ∀ w, occurs w (.dec d :: t) = occurs w t + (if d.word = w then 1 else 0) := by
        intro w; unfold occurs; simp only [decs, List.countP_cons, decide_eq_true_eq]
      cases hf : g.find d.word with
      | none =>
        have hr : uniqueRun g seen (.dec d :: t) = uniqueRun g seen t := by simp only [uniqueRun, hf]
        have hne : ∀ w, DeclaredUnique g w → occurs w (.dec d :: t) = occurs w t := by
          rintro w ⟨wg, h, _⟩
          rw [hocc, if_neg (fun h' => by rw [h', h] at hf; cases hf)]; rfl
        rw [hr]
        obtain ⟨h1, h2⟩ := ih seen
        refine ⟨h1.trans ⟨fun h w hw => by rw [hne w hw]; exact h w hw,
          fun h w hw => by rw [← hne w hw]; exact h w hw⟩, ?_⟩
        rcases h2 with h2 | ⟨w, hw, hc, he⟩
        · exact Or.inl h2
        · exact Or.inr ⟨w, hw, by rw [hne w hw]; exact hc, he⟩
      | some wg =>
        by_cases hu : wg.unique = false
        · have hr : uniqueRun g seen (.dec d :: t) = uniqueRun g seen t := by
            simp only [uniqueRun, hf, hu, if_true]
          have hne : ∀ w, DeclaredUnique g w → occurs w (.dec d :: t) = occurs w t := by
            rintro w ⟨wg', h, hu'⟩
            rw [hocc, if_neg (fun h' => by rw [h', h] at hf; cases hf; rw [hu] at hu'; cases hu')]; rfl
          rw [hr]
          obtain ⟨h1, h2⟩ := ih seen
          refine ⟨h1.trans ⟨fun h w hw => by rw [hne w hw]; exact h w hw,
            fun h w hw => by rw [← hne w hw]; exact h w hw⟩, ?_⟩
          rcases h2 with h2 | ⟨w, hw, hc, he⟩
          · exact Or.inl h2
          · exact Or.inr ⟨w, hw, by rw [hne w hw]; exact hc, he⟩
        · have hu' : wg.unique = true := by simpa using hu
          have hd : DeclaredUnique g d.word := ⟨wg, hf, hu'⟩
          by_cases hs : d.word ∈ seen
          · have hr : uniqueRun g seen (.dec d :: t) = .throw (.msg .unique .CodeNotUnique [d.word]) := by
              simp only [uniqueRun, hf]; rw [if_neg hu, if_pos hs]
            rw [hr]
            have hc : 2 ≤ occurs d.word (.dec d :: t) + (if d.word ∈ seen then 1 else 0) := by
              rw [hocc, if_pos rfl, if_pos hs]; omega
            refine ⟨⟨fun h => (by cases h), fun h => ?_⟩, Or.inr ⟨d.word, hd, hc, rfl⟩⟩
            have := h d.word hd; omega
          · have hr : uniqueRun g seen (.dec d :: t) = uniqueRun g (d.word :: seen) t := by
              simp only [uniqueRun, hf]; rw [if_neg hu, if_neg hs]
            rw [hr]
            have hsum : ∀ w, occurs w (.dec d :: t) + (if w ∈ seen then 1 else 0) =
                occurs w t + (if w ∈ d.word :: seen then 1 else 0) := by
              intro w
              rw [hocc]
              by_cases hw : d.word = w
              · subst hw; rw [if_pos rfl, if_neg hs, if_pos List.mem_cons_self]
              · have : (w ∈ d.word :: seen) ↔ w ∈ seen := by
                  rw [List.mem_cons]
                  exact ⟨fun h => h.resolve_left (fun h' => hw h'.symm), Or.inr⟩
                rw [if_neg hw]; simp only [this]; omega
            simp only [hsum]
            exact ih (d.word :: seen)

theorem sameWordRun_spec (w : Str) (b : Block) : ∀ was : Bool,
    (sameWordRun w was b = .ok () ∧ occurs w b + (if was then 1 else 0) ≤ 1) ∨
    (sameWordRun w was b = .throw (.msg .sameWord .DuplicateAddress [w]) ∧
      2 ≤ occurs w b + (if was then 1 else 0)) := by
  induction b with
  | nil => intro was; left; exact ⟨rfl, by have : occurs w [] = 0 := rfl; rw [this]; split <;> omega⟩
  | cons a t ih =>
    intro was
    cases a with
    | str w' v => exact ih was
    | chr w' v => exact ih was
    | dec d =>
      have hocc : occurs w (.dec d :: t) = occurs w t + (if d.word = w then 1 else 0) := by
        unfold occurs; simp only [decs, List.countP_cons, decide_eq_true_eq]
      by_cases hw : d.word = w
      · cases was with
        | true =>
          right
          refine ⟨by simp only [sameWordRun, hw, if_true], ?_⟩
          rw [hocc, if_pos hw, if_pos rfl]; omega
        | false =>
          have hr : sameWordRun w false (.dec d :: t) = sameWordRun w true t := by
            simp [sameWordRun, hw]
          rw [hr, hocc, if_pos hw]
          rcases ih true with ⟨h1, h2⟩ | ⟨h1, h2⟩
          · exact Or.inl ⟨h1, by simpa using h2⟩
          · exact Or.inr ⟨h1, by simpa using h2⟩
      · have hr : sameWordRun w was (.dec d :: t) = sameWordRun w was t := by
          simp only [sameWordRun, hw, if_false]
        rw [hr, hocc, if_neg hw]
        exact ih was

/-! ## Codes -/

theorem takeWhile_dot {a b : Str} (h : '.' ∉ a) :
    (a ++ '.' :: b).takeWhile (· ≠ '.') = a ∧ (a ++ '.' :: b).dropWhile (· ≠ '.') = '.' :: b := by
  induction a with
  | nil => simp
  | cons x t ih =>
    have hx : x ≠ '.' := fun h' => h (h' ▸ List.mem_cons_self)
    obtain ⟨h1, h2⟩ := ih (fun h' => h (List.mem_cons_of_mem _ h'))
    constructor
    · simp only [List.cons_append, List.takeWhile_cons, hx, ne_eq, not_false_eq_true, decide_true, if_true]
      exact congrArg _ (by simpa using h1)
    · simp only [List.cons_append, List.dropWhile_cons, hx, ne_eq, not_false_eq_true, decide_true, if_true]
      simpa using h2

theorem dropWhile_nodot {a : Str} (h : '.' ∉ a) : a.dropWhile (· ≠ '.') = [] := by
  induction a with
  | nil => rfl
  | cons x t ih =>
    have hx : x ≠ '.' := fun h' => h (h' ▸ List.mem_cons_self)
    rw [List.dropWhile_cons, if_pos (by simpa using hx)]
    exact ih (fun h' => h (List.mem_cons_of_mem _ h'))

theorem dot_not_digit {s : Str} (h : AllDig s) : '.' ∉ s := by
  intro h'; have := h _ h'; revert this; decide

theorem codeOfText_int {n : Nat} (h : n ≤ 2147483647) : codeOfText (natStr n) = .ok (n, 0) := by
  unfold codeOfText
  rw [dropWhile_nodot (dot_not_digit (natStr_isDig n))]
  have : stoiE (natStr n) = .ok (n : Int) := by unfold stoiE; rw [stoi_natStr h]
  simp only [this, Out.bind_ok, Out.pure_eq, toU32_nat h]

theorem codeOfText_dot {a b : Str} {n r : Nat} (ha : Number a n) (hb : Number b r) :
    codeOfText (a ++ '.' :: b) = .ok (n, r) := by
  unfold codeOfText
  obtain ⟨h1, h2⟩ := takeWhile_dot (b := b) (dot_not_digit ha.digits)
  simp only [h1, h2, stoiE_number ha, stoiE_number hb, Out.bind_ok, Out.pure_eq, toU32_nat ha.small,
    toU32_nat hb.small]

theorem toStringTrunc_nat (n : Nat) : toStringTrunc (n : ℚ) = natStr n := by
  unfold toStringTrunc
  rw [fixedStr_eq, if_neg (by norm_num)]
  have hneg : ¬ ((n : ℚ) < 0) := not_lt.mpr (Nat.cast_nonneg n)
  have hs : scaled 6 (n : ℚ) = n * 10 ^ 6 := by
    unfold scaled
    rw [abs_of_nonneg (Nat.cast_nonneg n)]
    have : ((n : ℚ) * 10 ^ 6) = (((n * 10 ^ 6 : ℕ) : ℤ) : ℚ) := by push_cast; ring
    rw [this, roundEven_int]; rfl
  rw [hs, decide_eq_false hneg, Nat.mul_div_cancel _ (by norm_num), Nat.mul_mod_left]
  show truncZeros (natStr n ++ '.' :: padZeros 6 0) = _
  rw [truncZeros_frac (dot_not_digit (natStr_isDig n))]
  rw [if_pos (by decide)]

theorem digVal_inj {a b : Char} (ha : isDig a = true) (hb : isDig b = true) (h : digVal a = digVal b) : a = b := by
  unfold isDig at ha hb
  unfold digVal at h
  simp only [Bool.and_eq_true, decide_eq_true_eq] at ha hb
  have h1 : '0'.toNat ≤ a.toNat := ha.1
  have h2 : '0'.toNat ≤ b.toNat := hb.1
  have : a.toNat = b.toNat := by omega
  exact Char.toNat_inj.mp this

theorem readNat_same_length : ∀ {a b : Str}, AllDig a → AllDig b → a.length = b.length →
    readNat a = readNat b → a = b := by
  intro a
  induction a with
  | nil => intro b _ _ hl _; exact (List.length_eq_zero_iff.mp hl.symm).symm
  | cons x t ih =>
    intro b ha hb hl hr
    cases b with
    | nil => simp at hl
    | cons y u =>
      have hl' : t.length = u.length := by simpa using hl
      rw [readNat_cons, readNat_cons, ← hl'] at hr
      have hx := ha x List.mem_cons_self
      have hy := hb y List.mem_cons_self
      have ht : AllDig t := fun c hc => ha c (List.mem_cons_of_mem _ hc)
      have hu : AllDig u := fun c hc => hb c (List.mem_cons_of_mem _ hc)
      have h1 := readNat_lt ht
      have h2 := readNat_lt hu
      rw [← hl'] at h2
      have hd : digVal x = digVal y := by
        have hp : 0 < 10 ^ t.length := by positivity
        have e1 : (digVal x * 10 ^ t.length + readNat t) / 10 ^ t.length = digVal x := by
          rw [mul_comm, Nat.mul_add_div hp, Nat.div_eq_of_lt h1, Nat.add_zero]
        have e2 : (digVal y * 10 ^ t.length + readNat u) / 10 ^ t.length = digVal y := by
          rw [mul_comm, Nat.mul_add_div hp, Nat.div_eq_of_lt h2, Nat.add_zero]
        rw [← e1, ← e2, hr]
      have hxy := digVal_inj hx hy hd
      subst hxy
      rw [ih ht hu hl' (by omega)]

theorem padZeros_mul {k r j : Nat} (hr : r < 10 ^ k) (hk : 0 < k) :
    padZeros (k + j) (r * 10 ^ j) = padZeros k r ++ List.replicate j '0' := by
  have hz : AllDig (List.replicate j '0') := fun c hc => by
    rw [List.eq_of_mem_replicate hc]; decide
  refine readNat_same_length (padZeros_allDig _ _) ((padZeros_allDig _ _).append hz) ?_ ?_
  · rw [padZeros_length (by rw [pow_add]; exact Nat.mul_lt_mul_of_pos_right hr (by positivity)) (by omega),
      List.length_append, padZeros_length hr hk, List.length_replicate]
  · rw [readNat_padZeros, readNat_append, readNat_padZeros, readNat_zeros, List.length_replicate]; rfl

theorem padZeros_last {k r : Nat} (h : r % 10 ≠ 0) : ∃ a c, padZeros k r = a ++ [c] ∧ c ≠ '0' := by
  rcases List.eq_nil_or_concat (padZeros k r) with h0 | ⟨a, c, h0⟩
  · exact absurd h0 (padZeros_ne_nil k r)
  · refine ⟨a, c, by simpa using h0, ?_⟩
    rintro rfl
    have := readNat_padZeros k r
    rw [h0, List.concat_eq_append, readNat_append] at this
    have h1 : readNat ['0'] = 0 := rfl
    rw [h1] at this
    simp only [List.length_singleton, pow_one, add_zero] at this
    omega

theorem toStringTrunc_frac {n k r : Nat} (hk : k ≤ 6) (hr : r < 10 ^ k) (h10 : r % 10 ≠ 0) :
    toStringTrunc ((n : ℚ) + r / 10 ^ k) = natStr n ++ '.' :: padZeros k r := by
  have hk0 : 0 < k := by
    rcases Nat.eq_zero_or_pos k with rfl | h
    · simp at hr; omega
    · exact h
  obtain ⟨j, hj⟩ := Nat.exists_eq_add_of_le hk
  have hnn : (0 : ℚ) ≤ (n : ℚ) + r / 10 ^ k := by positivity
  unfold toStringTrunc
  rw [fixedStr_eq, if_neg (by norm_num)]
  have hs : scaled 6 ((n : ℚ) + r / 10 ^ k) = n * 10 ^ 6 + r * 10 ^ j := by
    unfold scaled
    rw [abs_of_nonneg hnn]
    have hp : (10 : ℚ) ^ 6 = 10 ^ k * 10 ^ j := by rw [← pow_add, ← hj]
    have : (((n : ℚ) + r / 10 ^ k) * 10 ^ 6) = (((n * 10 ^ 6 + r * 10 ^ j : ℕ) : ℤ) : ℚ) := by
      have h10k : (10 : ℚ) ^ k ≠ 0 := by positivity
      have e : (r : ℚ) / 10 ^ k * (10 ^ k * 10 ^ j) = r * 10 ^ j := by field_simp
      rw [add_mul]
      nth_rewrite 2 [hp]
      rw [e]
      push_cast; ring
    rw [this, roundEven_int]; rfl
  have hlt : r * 10 ^ j < 10 ^ 6 := by
    rw [hj, pow_add]; exact Nat.mul_lt_mul_of_pos_right hr (by positivity)
  rw [hs, decide_eq_false (not_lt.mpr hnn), mul_comm n, Nat.mul_add_div (by norm_num),
    Nat.div_eq_of_lt hlt, Nat.add_zero, Nat.mul_add_mod, Nat.mod_eq_of_lt hlt]
  have hpad : padZeros 6 (r * 10 ^ j) = padZeros k r ++ List.replicate j '0' := by
    rw [← padZeros_mul hr hk0, ← hj]
  obtain ⟨a, c, hac, hc⟩ := padZeros_last (k := k) h10
  have hz : rstrip0 (List.replicate j '0') = [] := by
    obtain ⟨m, hm⟩ := rstrip0_spec (List.replicate j '0')
    have hl := rstrip0_last (List.replicate j '0')
    rcases List.eq_nil_or_concat (rstrip0 (List.replicate j '0')) with h0 | ⟨a, c, h0⟩
    · exact h0
    · exfalso
      apply hl
      rw [h0]
      have : c ∈ List.replicate j '0' := by
        rw [hm, h0]; simp
      rw [List.eq_of_mem_replicate this]; simp
  have hst : rstrip0 (padZeros k r ++ List.replicate j '0') = padZeros k r := by
    rw [hac, List.append_assoc]
    show rstrip0 (a ++ c :: List.replicate j '0') = _
    rw [rstrip0_append_nz a hc, hz]
  show truncZeros (natStr n ++ '.' :: padZeros 6 (r * 10 ^ j)) = _
  rw [truncZeros_frac (dot_not_digit (natStr_isDig n)), hpad, hst, if_neg (padZeros_ne_nil k r)]

theorem number_natStr {n : Nat} (h : n ≤ 2147483647) : Number (natStr n) n :=
  ⟨natStr_isDig n, natStr_ne_nil n, h, readNat_natStr n⟩

/-- The visitor reads the code the word means. -/
theorem codeOf_means {m : MacroMap ℚ} {line : Int} {d : Dec} {c : Code} (h : Means m line d c) :
    ∃ v, d.value = some v ∧ codeOf m line d v = .ok c := by
  cases h with
  | @plain v n h1 h2 h3 h4 =>
    exact ⟨v, h2, by
      unfold codeOf
      simp only [stoiE_number h4, Out.bind_ok, h1, h3, Option.isSome_none, Bool.false_eq_true, if_false,
        Out.pure_eq, toU32_nat h4.small]⟩
  | @dotted v v2 n r h1 h2 h3 h4 h5 =>
    exact ⟨v, h2, by
      unfold codeOf
      simp only [stoiE_number h4, stoiE_number h5, Out.bind_ok, h1, h3, Option.isSome_none, Bool.false_eq_true,
        if_false, Out.pure_eq, toU32_nat h4.small, toU32_nat h5.small]⟩
  | @variableInt v i n h1 h2 h3 h4 h5 =>
    exact ⟨v, h2, by
      unfold codeOf
      simp only [stoiE_number h3, Out.bind_ok, h1, if_true, toU32_nat h3.small, h4]
      rw [toStringTrunc_nat, codeOfText_int h5]⟩
  | @variableFrac v i n k r h1 h2 h3 h4 h5 h6 h7 h8 =>
    exact ⟨v, h2, by
      unfold codeOf
      simp only [stoiE_number h3, Out.bind_ok, h1, if_true, toU32_nat h3.small, h4]
      rw [toStringTrunc_frac h6 h7 h8]
      refine codeOfText_dot (number_natStr h5) ⟨padZeros_allDig k r, padZeros_ne_nil k r, ?_, readNat_padZeros k r⟩
      have : 10 ^ k ≤ 10 ^ 6 := Nat.pow_le_pow_right (by norm_num) h6
      have : (10 : ℕ) ^ 6 = 1000000 := by norm_num
      omega⟩

/-! ## Code groups -/

theorem occ_find_cons (o : Occ) (g g' : Str) (c : Code) :
    Occ.find ((g, c) :: o) g' = if g = g' then some c else Occ.find o g' := by
  unfold Occ.find
  by_cases h : g = g' <;> simp [h]

theorem groupsLoop_spec (letter : Str) (c : Code) (gs : List Str) : ∀ occ : Occ, gs.Nodup →
    (∃ occ', groupsLoop letter c occ gs = .ok occ' ∧ (∀ g ∈ gs, occ.find g = none) ∧
      ∀ g, occ'.find g = if g ∈ gs then some c else occ.find g) ∨
    (∃ g c2, groupsLoop letter c occ gs =
        .throw (.msg .groups .InSameCodeGroup [codeText letter c, codeText letter c2, g]) ∧
      g ∈ gs ∧ occ.find g = some c2) := by
  induction gs with
  | nil => intro occ _; left; exact ⟨occ, rfl, by simp, by simp⟩
  | cons g gs ih =>
    intro occ hnd
    obtain ⟨hn, hnd'⟩ := List.nodup_cons.mp hnd
    cases hf : occ.find g with
    | some c2 => right; exact ⟨g, c2, by simp only [groupsLoop, hf], List.mem_cons_self, hf⟩
    | none =>
      have hr : groupsLoop letter c occ (g :: gs) = groupsLoop letter c ((g, c) :: occ) gs := by
        simp only [groupsLoop, hf]
      rw [hr]
      rcases ih ((g, c) :: occ) hnd' with ⟨occ', h1, h2, h3⟩ | ⟨g', c2, h1, h2, h3⟩
      · left
        refine ⟨occ', h1, ?_, ?_⟩
        · intro x hx
          rcases List.mem_cons.mp hx with rfl | hx
          · exact hf
          · have := h2 x hx
            rw [occ_find_cons] at this
            split at this
            · cases this
            · exact this
        · intro x
          rw [h3 x, occ_find_cons]
          by_cases hx : x ∈ gs
          · rw [if_pos hx, if_pos (List.mem_cons_of_mem _ hx)]
          · rw [if_neg hx]
            by_cases hgx : g = x
            · subst hgx; rw [if_pos rfl, if_pos List.mem_cons_self]
            · rw [if_neg hgx, if_neg]
              rw [List.mem_cons]; rintro (rfl | h)
              · exact hgx rfl
              · exact hx h
      · right
        refine ⟨g', c2, h1, List.mem_cons_of_mem _ h2, ?_⟩
        rw [occ_find_cons, if_neg] at h3
        · exact h3
        · rintro rfl; exact hn h2

/-- The occurrences are those of the codes met so far. -/
def OccInv (gm : Groups) (done : List Code) (occ : Occ) : Prop :=
  (∀ g c, occ.find g = some c → c ∈ done ∧ ∃ gs, gm.find c = some gs ∧ g ∈ gs) ∧
  (∀ c ∈ done, ∀ gs, gm.find c = some gs → ∀ g ∈ gs, (occ.find g).isSome)

theorem groups_nodup {gm : Groups} (h : SetOfGroups gm) {c : Code} {gs : List Str} (hf : gm.find c = some gs) :
    gs.Nodup := by
  unfold Groups.find at hf
  rw [Option.map_eq_some_iff] at hf
  obtain ⟨e, he, rfl⟩ := hf
  exact h e (List.mem_of_find?_eq_some he)

/-- Nothing to report about `cs` after `done`. -/
def Fine (gm : Groups) (missing : Bool) (done cs : List Code) : Prop :=
  NoClash gm cs ∧ (∀ a ∈ done, ∀ b ∈ cs, ¬ Clash gm a b) ∧ (missing = true → ∀ c ∈ cs, Listed gm c)

/-- What may be reported about `cs` after `done`. -/
def Reported (letter : Str) (gm : Groups) (missing : Bool) (done cs : List Code) (e : Exc) : Prop :=
  (∃ a b g ga gb, e = .msg .groups .InSameCodeGroup [codeText letter b, codeText letter a, g] ∧
    List.Sublist [a, b] (done ++ cs) ∧ b ∈ cs ∧ gm.find a = some ga ∧ gm.find b = some gb ∧ g ∈ ga ∧ g ∈ gb) ∨
  (∃ c ∈ cs, e = .msg .groups .MissingInCodeGroups [codeText letter c] ∧ missing = true ∧ ¬ Listed gm c)

theorem fine_cons {gm : Groups} {missing : Bool} {done cs : List Code} {c : Code} :
    Fine gm missing done (c :: cs) ↔
      (∀ a ∈ done, ¬ Clash gm a c) ∧ (missing = true → Listed gm c) ∧ Fine gm missing (done ++ [c]) cs := by
  unfold Fine NoClash
  rw [List.pairwise_cons]
  constructor
  · rintro ⟨⟨h1, h2⟩, h3, h4⟩
    refine ⟨fun a ha => h3 a ha c List.mem_cons_self, fun h => h4 h c List.mem_cons_self, h2, ?_, 
      fun h x hx => h4 h x (List.mem_cons_of_mem _ hx)⟩
    intro a ha b hb
    rcases List.mem_append.mp ha with ha | ha
    · exact h3 a ha b (List.mem_cons_of_mem _ hb)
    · rw [List.mem_singleton.mp ha]; exact h1 b hb
  · rintro ⟨h1, h2, h3, h4, h5⟩
    refine ⟨⟨fun b hb => h4 c (by simp) b hb, h3⟩, ?_, ?_⟩
    · intro a ha b hb
      rcases List.mem_cons.mp hb with rfl | hb
      · exact h1 a ha
      · exact h4 a (by simp [ha]) b hb
    · intro h x hx
      rcases List.mem_cons.mp hx with rfl | hx
      · exact h2 h
      · exact h5 h x hx

theorem groupsRun_spec (letter : Str) (gm : Groups) (hg : SetOfGroups gm) (m : MacroMap ℚ) (line : Int)
    (missing : Bool) (b : Block) : ∀ (done cs : List Code) (occ : Occ), OccInv gm done occ →
    List.Forall₂ (Means m line) (codeWords letter b) cs →
    (groupsRun letter gm m line missing occ b = .ok () ∧ Fine gm missing done cs) ∨
    (∃ e, groupsRun letter gm m line missing occ b = .throw e ∧ Reported letter gm missing done cs e ∧
      ¬ Fine gm missing done cs) := by
  induction b with
  | nil =>
    intro done cs occ _ hm
    cases hm
    exact Or.inl ⟨rfl, List.Pairwise.nil, by simp, by simp⟩
  | cons a t ih =>
    intro done cs occ hi hm
    cases a with
    | str w v => exact ih done cs occ hi hm
    | chr w v => exact ih done cs occ hi hm
    | dec d =>
      by_cases hw : d.word = letter
      · cases hv : d.value with
        | none =>
          have hr : groupsRun letter gm m line missing occ (.dec d :: t) =
              groupsRun letter gm m line missing occ t := by
            simp only [groupsRun, hw, hv, ne_eq, not_true_eq_false, if_false]
          have hc : codeWords letter (.dec d :: t) = codeWords letter t := by
            unfold codeWords; simp [decs, hv]
          rw [hr]; rw [hc] at hm
          exact ih done cs occ hi hm
        | some v =>
          have hc : codeWords letter (.dec d :: t) = d :: codeWords letter t := by
            unfold codeWords; simp [decs, hv, hw]
          rw [hc] at hm
          cases hm with
          | @cons _ c _ cs' hcm hm' =>
            obtain ⟨v', hv', hcode⟩ := codeOf_means hcm
            rw [hv] at hv'; cases hv'
            have hr : groupsRun letter gm m line missing occ (.dec d :: t) =
                match addCode letter gm missing occ c with
                | .ok occ' => groupsRun letter gm m line missing occ' t
                | .throw e => .throw e
                | .ub => .ub := by
              simp only [groupsRun, hw, hv, ne_eq, not_true_eq_false, if_false, hcode]
              rfl
            rw [hr]
            cases hf : gm.find c with
            | none =>
              have hnl : ¬ Listed gm c := by rintro ⟨gs, h⟩; rw [hf] at h; cases h
              cases missing with
              | true =>
                have ha : addCode letter gm true occ c =
                    .throw (.msg .groups .MissingInCodeGroups [codeText letter c]) := by
                  simp only [addCode, hf, if_true]
                right
                rw [ha]
                exact ⟨_, rfl, Or.inr ⟨c, List.mem_cons_self, rfl, rfl, hnl⟩,
                  fun h => hnl ((fine_cons.mp h).2.1 rfl)⟩
              | false =>
                have ha : addCode letter gm false occ c = .ok occ := by
                  simp [addCode, hf]
                rw [ha]
                have hi' : OccInv gm (done ++ [c]) occ := by
                  refine ⟨fun g c' h => ?_, fun c' hc' gs hgs => ?_⟩
                  · obtain ⟨h1, h2⟩ := hi.1 g c' h
                    exact ⟨by simp [h1], h2⟩
                  · rcases List.mem_append.mp hc' with h | h
                    · exact hi.2 c' h gs hgs
                    · rw [List.mem_singleton.mp h, hf] at hgs; cases hgs
                have hncl : ∀ a ∈ done, ¬ Clash gm a c := by
                  rintro a _ ⟨_, gb, _, _, h, _⟩; rw [hf] at h; cases h
                rcases ih (done ++ [c]) cs' occ hi' hm' with ⟨h1, h2⟩ | ⟨e, h1, h2, h3⟩
                · exact Or.inl ⟨h1, fine_cons.mpr ⟨hncl, by simp, h2⟩⟩
                · refine Or.inr ⟨e, h1, ?_, fun h => h3 (fine_cons.mp h).2.2⟩
                  rcases h2 with ⟨a, b, g, ga, gb, h4, h5, h6, h7⟩ | ⟨c', h4, _, h5, _⟩
                  · exact Or.inl ⟨a, b, g, ga, gb, h4, by simpa using h5, List.mem_cons_of_mem _ h6, h7⟩
                  · cases h5
            | some gs =>
              have ha : addCode letter gm missing occ c = groupsLoop letter c occ gs := by
                simp only [addCode, hf]
              rw [ha]
              rcases groupsLoop_spec letter c gs occ (groups_nodup hg hf) with
                ⟨occ', h1, h2, h3⟩ | ⟨g, c2, h1, h2, h3⟩
              · rw [h1]
                have hi' : OccInv gm (done ++ [c]) occ' := by
                  refine ⟨fun g c' h => ?_, fun c' hc' gs' hgs' g hg' => ?_⟩
                  · rw [h3 g] at h
                    split at h
                    · rename_i hmem
                      cases h
                      exact ⟨by simp, gs, hf, hmem⟩
                    · obtain ⟨h4, h5⟩ := hi.1 g c' h
                      exact ⟨by simp [h4], h5⟩
                  · rw [h3 g]
                    split
                    · rfl
                    · rename_i hnm
                      rcases List.mem_append.mp hc' with h | h
                      · exact hi.2 c' h gs' hgs' g hg'
                      · rw [List.mem_singleton.mp h, hf] at hgs'; cases hgs'; exact absurd hg' hnm
                have hncl : ∀ a ∈ done, ¬ Clash gm a c := by
                  rintro a hin ⟨ga, gb, g, h4, h5, h6, h7⟩
                  rw [hf] at h5; cases h5
                  have := hi.2 a hin ga h4 g h6
                  rw [h2 g h7] at this; cases this
                show (groupsRun letter gm m line missing occ' t = .ok () ∧ _) ∨
                  (∃ e, groupsRun letter gm m line missing occ' t = .throw e ∧ _)
                rcases ih (done ++ [c]) cs' occ' hi' hm' with ⟨h4, h5⟩ | ⟨e, h4, h5, h6⟩
                · exact Or.inl ⟨h4, fine_cons.mpr ⟨hncl, fun _ => ⟨gs, hf⟩, h5⟩⟩
                · refine Or.inr ⟨e, h4, ?_, fun h => h6 (fine_cons.mp h).2.2⟩
                  rcases h5 with ⟨a, b, g, ga, gb, h7, h8, h9, h10⟩ | ⟨c', h7, h8⟩
                  · exact Or.inl ⟨a, b, g, ga, gb, h7, by simpa using h8, List.mem_cons_of_mem _ h9, h10⟩
                  · exact Or.inr ⟨c', List.mem_cons_of_mem _ h7, h8⟩
              · rw [h1]
                obtain ⟨h4, gs2, h5, h6⟩ := hi.1 g c2 h3
                right
                refine ⟨_, rfl, Or.inl ⟨c2, c, g, gs2, gs, rfl, ?_, List.mem_cons_self, h5, hf, h6, h2⟩, ?_⟩
                · exact List.Sublist.append (List.singleton_sublist.mpr h4)
                    (List.singleton_sublist.mpr List.mem_cons_self)
                · intro h
                  exact (fine_cons.mp h).1 c2 h4 ⟨gs2, gs, g, h5, hf, h6, h2⟩
      · have hr : groupsRun letter gm m line missing occ (.dec d :: t) =
            groupsRun letter gm m line missing occ t := by
          simp only [groupsRun, hw, ne_eq, not_false_eq_true, if_true]
        have hc : codeWords letter (.dec d :: t) = codeWords letter t := by
          unfold codeWords; simp [decs, hw]
        rw [hr]; rw [hc] at hm
        exact ih done cs occ hi hm

theorem occInv_nil (gm : Groups) : OccInv gm [] [] :=
  ⟨fun g c h => (by cases h), fun c h => (by cases h)⟩

/-! ## Rotation -/

theorem feeds_cons (d : Dec) (t : Block) : Feeds (.dec d :: t) ↔
    (d.word = c!"G" ∧ ∃ v n, d.value = some v ∧ Number v n ∧ (n = 1 ∨ (81 ≤ n ∧ n ≤ 89))) ∨ Feeds t := by
  unfold Feeds; simp only [decs, List.mem_cons, or_and_right, exists_or, exists_eq_left]

theorem speeds_cons (d : Dec) (t : Block) : Speeds (.dec d :: t) ↔ d.word = c!"S" ∨ Speeds t := by
  unfold Speeds; simp only [decs, List.mem_cons, or_and_right, exists_or, exists_eq_left]

theorem starts_cons (d : Dec) (t : Block) : Starts (.dec d :: t) ↔
    (d.word = c!"M" ∧ ∃ v n, d.value = some v ∧ Number v n ∧ (n = 3 ∨ n = 4)) ∨ Starts t := by
  unfold Starts; simp only [decs, List.mem_cons, or_and_right, exists_or, exists_eq_left]

theorem readable_cons {d : Dec} {t : Block} (h : Readable (.dec d :: t)) :
    (d.word = c!"G" ∨ d.word = c!"M" → ∀ v, d.value = some v → ∃ n, Number v n) ∧ Readable t := by
  unfold Readable at h
  simp only [decs, List.mem_cons, forall_eq_or_imp] at h
  exact h

/-- One word with operator rotation off. -/
theorem rotWord_off (st : Rot) (d : Dec)
    (h : d.word = c!"G" ∨ d.word = c!"M" → ∀ v, d.value = some v → ∃ n, Number v n) :
    ∃ st', rotWord false st d = (st', none) ∧ st'.reported = st.reported ∧
      (st'.G = true ↔ st.G = true ∨
        (d.word = c!"G" ∧ ∃ v n, d.value = some v ∧ Number v n ∧ (n = 1 ∨ (81 ≤ n ∧ n ≤ 89)))) ∧
      (st'.S = true ↔ st.S = true ∨ d.word = c!"S") ∧
      (st'.M = true ↔ st.M = true ∨
        (d.word = c!"M" ∧ ∃ v n, d.value = some v ∧ Number v n ∧ (n = 3 ∨ n = 4))) := by
  by_cases hS : d.word = c!"S"
  · refine ⟨{ st with S := true }, by unfold rotWord; rw [if_pos hS]; rfl, rfl, ?_, ?_, ?_⟩
    · rw [hS]; exact ⟨Or.inl, fun h => h.elim id (fun h => absurd h.1 (by decide))⟩
    · rw [hS]; simp
    · rw [hS]; exact ⟨Or.inl, fun h => h.elim id (fun h => absurd h.1 (by decide))⟩
  by_cases hM : d.word = c!"M"
  · cases hv : d.value with
    | none =>
      refine ⟨st, by unfold rotWord; rw [hM, hv]; rfl, rfl, ?_, ?_, ?_⟩
      · simp
      · simp [hS]
      · simp
    | some v =>
      obtain ⟨n, hn⟩ := h (Or.inr hM) v hv
      have hr : rotWord false st d = if (n : Int) = 3 ∨ (n : Int) = 4 then ({ st with M := true }, none) else (st, none) := by
        unfold rotWord
        rw [hM, hv]
        simp only [Option.isSome_some, Option.getD_some, stoi_number hn]
        rfl
      by_cases h34 : n = 3 ∨ n = 4
      · refine ⟨{ st with M := true }, by rw [hr, if_pos (by omega)], rfl, ?_, ?_, ?_⟩
        · rw [hM]; exact ⟨Or.inl, fun h => h.elim id (fun h => absurd h.1 (by decide))⟩
        · simp [hS]
        · exact ⟨fun _ => Or.inr ⟨hM, v, n, rfl, hn, h34⟩, fun _ => rfl⟩
      · refine ⟨st, by rw [hr, if_neg (by omega)], rfl, ?_, ?_, ?_⟩
        · rw [hM]; exact ⟨Or.inl, fun h => h.elim id (fun h => absurd h.1 (by decide))⟩
        · simp [hS]
        · refine ⟨Or.inl, fun h => h.elim id ?_⟩
          rintro ⟨_, v', n', hv', hn', h'⟩
          cases hv'
          rw [number_unique hn' hn] at h'
          exact absurd h' h34
  by_cases hG : d.word = c!"G"
  · cases hv : d.value with
    | none =>
      refine ⟨st, by unfold rotWord; rw [hG, hv]; rfl, rfl, ?_, ?_, ?_⟩
      · simp
      · simp [hS]
      · simp
    | some v =>
      obtain ⟨n, hn⟩ := h (Or.inl hG) v hv
      have hr : rotWord false st d =
          if (n : Int) = 1 ∨ (81 ≤ (n : Int) ∧ (n : Int) ≤ 89) then ({ st with G := true }, none) else (st, none) := by
        unfold rotWord
        rw [hG, hv]
        simp only [Option.isSome_some, Option.getD_some, stoi_number hn]
        rfl
      by_cases h34 : n = 1 ∨ (81 ≤ n ∧ n ≤ 89)
      · refine ⟨{ st with G := true }, by rw [hr, if_pos (by omega)], rfl, ?_, ?_, ?_⟩
        · exact ⟨fun _ => Or.inr ⟨hG, v, n, rfl, hn, h34⟩, fun _ => rfl⟩
        · simp [hS]
        · rw [hG]; exact ⟨Or.inl, fun h => h.elim id (fun h => absurd h.1 (by decide))⟩
      · refine ⟨st, by rw [hr, if_neg (by omega)], rfl, ?_, ?_, ?_⟩
        · refine ⟨Or.inl, fun h => h.elim id ?_⟩
          rintro ⟨_, v', n', hv', hn', h'⟩
          cases hv'
          rw [number_unique hn' hn] at h'
          exact absurd h' h34
        · simp [hS]
        · rw [hG]; exact ⟨Or.inl, fun h => h.elim id (fun h => absurd h.1 (by decide))⟩
  · refine ⟨st, ?_, rfl, by simp [hG], by simp [hS], by simp [hM]⟩
    unfold rotWord
    rw [if_neg hS, if_neg (fun h => hM h.1), if_neg (fun h => hG h.2.1)]

theorem rotRun_off (b : Block) : ∀ st : Rot, Readable b →
    ∃ st', rotRun false st b = (st', none) ∧ st'.reported = st.reported ∧
      (st'.G = true ↔ st.G = true ∨ Feeds b) ∧ (st'.S = true ↔ st.S = true ∨ Speeds b) ∧
      (st'.M = true ↔ st.M = true ∨ Starts b) := by
  induction b with
  | nil =>
    intro st _
    exact ⟨st, rfl, rfl, by simp [Feeds, decs], by simp [Speeds, decs], by simp [Starts, decs]⟩
  | cons a t ih =>
    intro st hr
    cases a with
    | str w v => exact ih st hr
    | chr w v => exact ih st hr
    | dec d =>
      obtain ⟨h1, h2⟩ := readable_cons hr
      obtain ⟨st1, e1, r1, g1, s1, m1⟩ := rotWord_off st d h1
      obtain ⟨st2, e2, r2, g2, s2, m2⟩ := ih st1 h2
      refine ⟨st2, by simp only [rotRun, e1, e2], r2.trans r1, ?_, ?_, ?_⟩
      · rw [g2, g1, feeds_cons, or_assoc]
      · rw [s2, s1, speeds_cons, or_assoc]
      · rw [m2, m1, starts_cons, or_assoc]

/-- What the flags record about the blocks so far. -/
structure RotInv (done : List Block) (st : Rot) : Prop where
  g : st.G = true ↔ ∃ b ∈ done, Feeds b
  s : st.S = true ↔ ∃ b ∈ done, Speeds b
  m : st.M = true ↔ ∃ b ∈ done, Starts b
  settled : st.G = true → st.reported = true ∨ (st.S = true ∧ st.M = true)
  started : st.reported = true → st.G = true

/-- The verdict on a block after the blocks `done`. -/
def Verdict (done : List Block) (b : Block) (o : Option Exc) : Prop :=
  ∀ e, o = some e ↔ (Feeds b ∧ (∀ x ∈ done, ¬ Feeds x) ∧
    (((∀ x ∈ done ++ [b], ¬ Speeds x) ∧ e = .msg .rotation .ValueNotSet [c!"S"]) ∨
     ((∃ x ∈ done ++ [b], Speeds x) ∧ (∀ x ∈ done ++ [b], ¬ Starts x) ∧
        e = .msg .rotation .ValueNotSet [c!"M3/M4"])))

theorem exists_append_one {done : List Block} {b : Block} {P : Block → Prop} :
    (∃ x ∈ done ++ [b], P x) ↔ (∃ x ∈ done, P x) ∨ P b := by
  simp only [List.mem_append, List.mem_singleton, or_and_right, exists_or, exists_eq_left]

theorem rotCheck_quiet {st : Rot} (h : st.reported = true ∨ ¬ st.G = true ∨ (st.S = true ∧ st.M = true)) :
    rotCheck false st = (st, none) := by
  obtain ⟨G, M, S, R⟩ := st
  cases G <;> cases M <;> cases S <;> cases R <;> simp_all [rotCheck]

theorem rotCheck_S {st : Rot} (h1 : ¬ st.reported = true) (h2 : st.G = true) (h3 : ¬ st.S = true) :
    rotCheck false st = ({ st with reported := true }, some (.msg .rotation .ValueNotSet [c!"S"])) := by
  obtain ⟨G, M, S, R⟩ := st
  cases G <;> cases M <;> cases S <;> cases R <;> simp_all [rotCheck]

theorem rotCheck_M {st : Rot} (h1 : ¬ st.reported = true) (h2 : st.G = true) (h3 : st.S = true)
    (h4 : ¬ st.M = true) :
    rotCheck false st = ({ st with reported := true }, some (.msg .rotation .ValueNotSet [c!"M3/M4"])) := by
  obtain ⟨G, M, S, R⟩ := st
  cases G <;> cases M <;> cases S <;> cases R <;> simp_all [rotCheck]

theorem rotation_off (done : List Block) (b : Block) (st : Rot) (hi : RotInv done st) (hr : Readable b) :
    RotInv (done ++ [b]) (rotation false st b).1 ∧ Verdict done b (rotation false st b).2 := by
  obtain ⟨st', e, r, g, s, m⟩ := rotRun_off b st hr
  have hrot : rotation false st b = rotCheck false st' := by unfold rotation; rw [e]
  rw [hi.g, ← exists_append_one] at g
  rw [hi.s, ← exists_append_one] at s
  rw [hi.m, ← exists_append_one] at m
  rw [hrot]
  have hfeed : (∃ x ∈ done ++ [b], Feeds x) ↔ (∃ x ∈ done, Feeds x) ∨ Feeds b := exists_append_one
  have nots : (∀ x ∈ done ++ [b], ¬ Speeds x) ↔ ¬ st'.S = true := by rw [s]; push Not; rfl
  have notm : (∀ x ∈ done ++ [b], ¬ Starts x) ↔ ¬ st'.M = true := by rw [m]; push Not; rfl
  have notg : (∀ x ∈ done, ¬ Feeds x) ↔ ¬ st.G = true := by rw [hi.g]; push Not; rfl
  have g' : st'.G = true ↔ st.G = true ∨ Feeds b := by rw [g, hfeed, hi.g]
  unfold Verdict
  rw [notg]
  simp only [nots, notm, ← s]
  have hS : st'.S = true ↔ st.S = true ∨ Speeds b := by rw [s, exists_append_one, hi.s]
  have hM : st'.M = true ↔ st.M = true ∨ Starts b := by rw [m, exists_append_one, hi.m]
  have hset := hi.settled
  have hsta := hi.started
  by_cases hrep : st'.reported = true
  · have hrep' : st.reported = true := by rw [← r]; exact hrep
    have hG := hsta hrep'
    rw [rotCheck_quiet (Or.inl hrep)]
    refine ⟨⟨g, s, m, fun _ => Or.inl hrep, fun _ => g'.mpr (Or.inl hG)⟩, fun e => ?_⟩
    exact ⟨fun h => (by cases h), fun h => absurd hG h.2.1⟩
  · have hnr : ¬ st.reported = true := by rw [← r]; exact hrep
    by_cases hg : st'.G = true
    · by_cases hs : st'.S = true
      · by_cases hm : st'.M = true
        · rw [rotCheck_quiet (Or.inr (Or.inr ⟨hs, hm⟩))]
          refine ⟨⟨g, s, m, fun _ => Or.inr ⟨hs, hm⟩, fun h => absurd h hrep⟩, fun e => ?_⟩
          exact ⟨fun h => (by cases h), fun h => h.2.2.elim (fun h => absurd hs h.1) (fun h => absurd hm h.2.1)⟩
        · rw [rotCheck_M hrep hg hs hm]
          have hG0 : ¬ st.G = true := fun h => (hset h).elim hnr (fun h => hm (hM.mpr (Or.inl h.2)))
          have hF : Feeds b := (g'.mp hg).resolve_left hG0
          refine ⟨⟨g, s, m, fun _ => Or.inl rfl, fun _ => hg⟩, fun e => ?_⟩
          constructor
          · intro h; cases h; exact ⟨hF, hG0, Or.inr ⟨hs, hm, rfl⟩⟩
          · rintro ⟨_, _, h | h⟩
            · exact absurd hs h.1
            · rw [h.2.2]
      · rw [rotCheck_S hrep hg hs]
        have hG0 : ¬ st.G = true := fun h => (hset h).elim hnr (fun h => hs (hS.mpr (Or.inl h.1)))
        have hF : Feeds b := (g'.mp hg).resolve_left hG0
        refine ⟨⟨g, s, m, fun _ => Or.inl rfl, fun _ => hg⟩, fun e => ?_⟩
        constructor
        · intro h; cases h; exact ⟨hF, hG0, Or.inl ⟨hs, rfl⟩⟩
        · rintro ⟨_, _, h | h⟩
          · rw [h.2]
          · exact absurd h.1 hs
    · rw [rotCheck_quiet (Or.inr (Or.inl hg))]
      refine ⟨⟨g, s, m, fun h => absurd h hg, fun h => absurd h hrep⟩, fun e => ?_⟩
      exact ⟨fun h => (by cases h), fun h => absurd (g'.mpr (Or.inr h.1)) hg⟩

theorem rotProgram_off (prog : List Block) : ∀ (done : List Block) (st : Rot), RotInv done st →
    (∀ b ∈ prog, Readable b) → ∀ (k : Nat) (b : Block), prog[k]? = some b →
    ∃ o, (rotProgram false st prog)[k]? = some o ∧ Verdict (done ++ prog.take k) b o := by
  induction prog with
  | nil => intro done st _ _ k b h; simp at h
  | cons x t ih =>
    intro done st hi hr k b hk
    obtain ⟨h1, h2⟩ := rotation_off done x st hi (hr x List.mem_cons_self)
    cases k with
    | zero =>
      have : x = b := by simpa using hk
      subst this
      exact ⟨_, rfl, by simpa using h2⟩
    | succ k =>
      obtain ⟨o, h3, h4⟩ := ih (done ++ [x]) _ h1 (fun b hb => hr b (List.mem_cons_of_mem _ hb)) k b (by simpa using hk)
      exact ⟨o, by simpa [rotProgram] using h3, by simpa using h4⟩

theorem rotInv_nil : RotInv [] {} :=
  ⟨by simp, by simp, by simp, by simp, by simp⟩

/-- The verdict on a block with operator rotation on. -/
def OnVerdict (b : Block) (o : Option Exc) : Prop :=
  (o = none ∧ ¬ Speeds b ∧ ¬ Starts b) ∨
  (o = some (.msg .rotation .SNotAllowedWhenOperatorTurnsRotation []) ∧ Speeds b) ∨
  (o = some (.msg .rotation .M3M4NotAllowedWhenOperatorTurnsRotation []) ∧ Starts b)

theorem rotRun_on (b : Block) : ∀ st : Rot,
    (∀ d ∈ decs b, d.word = c!"M" → ∀ v, d.value = some v → ∃ n, Number v n) →
    OnVerdict b (rotRun true st b).2 := by
  induction b with
  | nil => intro st _; left; exact ⟨rfl, by simp [Speeds, decs], by simp [Starts, decs]⟩
  | cons a t ih =>
    intro st hr
    cases a with
    | str w v => exact ih st hr
    | chr w v => exact ih st hr
    | dec d =>
      have hr' : ∀ d' ∈ decs t, d'.word = c!"M" → ∀ v, d'.value = some v → ∃ n, Number v n :=
        fun d' h => hr d' (by simp [decs, h])
      have skip : rotWord true st d = (st, none) → ¬ d.word = c!"S" →
          ¬ (d.word = c!"M" ∧ ∃ v n, d.value = some v ∧ Number v n ∧ (n = 3 ∨ n = 4)) →
          OnVerdict (.dec d :: t) (rotRun true st (.dec d :: t)).2 := by
        intro h1 h2 h3
        have := ih st hr'
        unfold OnVerdict at this ⊢
        rw [show rotRun true st (.dec d :: t) = rotRun true st t by simp only [rotRun, h1], speeds_cons,
          starts_cons]
        rcases this with ⟨h4, h5, h6⟩ | ⟨h4, h5⟩ | ⟨h4, h5⟩
        · exact Or.inl ⟨h4, fun h => h.elim h2 h5, fun h => h.elim h3 h6⟩
        · exact Or.inr (Or.inl ⟨h4, Or.inr h5⟩)
        · exact Or.inr (Or.inr ⟨h4, Or.inr h5⟩)
      by_cases hS : d.word = c!"S"
      · right; left
        refine ⟨?_, (speeds_cons d t).mpr (Or.inl hS)⟩
        have : rotWord true st d = ({ st with S := true }, some (.msg .rotation .SNotAllowedWhenOperatorTurnsRotation [])) := by
          unfold rotWord; rw [if_pos hS]; rfl
        simp only [rotRun, this]
      by_cases hM : d.word = c!"M"
      · cases hv : d.value with
        | none =>
          refine skip ?_ hS ?_
          · unfold rotWord; rw [hM, hv]; rfl
          · rintro ⟨_, v, n, h, _⟩; rw [hv] at h; cases h
        | some v =>
          obtain ⟨n, hn⟩ := hr d (by simp [decs]) hM v hv
          by_cases h34 : n = 3 ∨ n = 4
          · right; right
            refine ⟨?_, (starts_cons d t).mpr (Or.inl ⟨hM, v, n, hv, hn, h34⟩)⟩
            have : rotWord true st d =
                ({ st with M := true }, some (.msg .rotation .M3M4NotAllowedWhenOperatorTurnsRotation [])) := by
              unfold rotWord
              rw [hM, hv]
              simp only [Option.isSome_some, Option.getD_some, stoi_number hn]
              rw [if_neg (by decide), if_pos ⟨trivial, trivial⟩, if_pos (by omega)]
              rfl
            simp only [rotRun, this]
          · refine skip ?_ hS ?_
            · unfold rotWord
              rw [hM, hv]
              simp only [Option.isSome_some, Option.getD_some, stoi_number hn]
              rw [if_neg (by decide), if_pos ⟨trivial, trivial⟩, if_neg (by omega)]
            · rintro ⟨_, v', n', h, hn', h'⟩
              rw [hv] at h; cases h
              rw [number_unique hn' hn] at h'
              exact h34 h'
      · refine skip ?_ hS (fun h => hM h.1)
        unfold rotWord
        rw [if_neg hS, if_neg (fun h => hM h.1), if_neg (fun h => by cases h.1)]

/-! ## Limits -/

theorem travelRun_spec (k : Limits) (zp : Zero) (wr : WordRange) :
    (travelRun k zp wr = .ok () ∧ ∀ e ∈ wr, Inside k zp e.1 e.2.2.1) ∨
    (∃ e ∈ wr, ¬ Inside k zp e.1 e.2.2.1 ∧ ∃ lo hi, k.axis e.1 = some (lo, hi) ∧
      travelRun k zp wr = .throw (.msg .range .ValueOutOfRange
        [e.1, dblText e.2.2.1, dblText (lo - offset zp e.1), dblText (hi - offset zp e.1)])) := by
  have hsh : ∀ a r, shift zp a r = (r.1 - offset zp a, r.2 - offset zp a) := by
    intro a r; unfold shift offset; split_ifs <;> simp
  induction wr with
  | nil => left; exact ⟨rfl, by simp⟩
  | cons e t ih =>
    cases ha : k.axis e.1 with
    | none =>
      have hr : travelRun k zp (e :: t) = travelRun k zp t := by simp only [travelRun, ha]
      rw [hr]
      rcases ih with ⟨h1, h2⟩ | ⟨e', h1, h2⟩
      · refine Or.inl ⟨h1, fun x hx => ?_⟩
        rcases List.mem_cons.mp hx with rfl | hx
        · intro lo hi h; rw [ha] at h; cases h
        · exact h2 x hx
      · exact Or.inr ⟨e', List.mem_cons_of_mem _ h1, h2⟩
    | some r =>
      obtain ⟨lo, hi⟩ := r
      by_cases hc : e.2.2.1 > (shift zp e.1 (lo, hi)).2 ∨ e.2.2.1 < (shift zp e.1 (lo, hi)).1
      · right
        refine ⟨e, List.mem_cons_self, ?_, lo, hi, ha, ?_⟩
        · intro h
          obtain ⟨h1, h2⟩ := h lo hi ha
          rw [hsh] at hc
          simp only at hc
          rcases hc with hc | hc <;> linarith
        · simp only [travelRun, ha]
          rw [if_pos hc, hsh]
      · have hr : travelRun k zp (e :: t) = travelRun k zp t := by
          simp only [travelRun, ha]; rw [if_neg hc]
        rw [hr]
        rcases ih with ⟨h1, h2⟩ | ⟨e', h1, h2⟩
        · refine Or.inl ⟨h1, fun x hx => ?_⟩
          rcases List.mem_cons.mp hx with rfl | hx
          · intro lo' hi' h; rw [ha] at h; cases h
            rw [hsh] at hc
            simp only at hc
            push Not at hc
            constructor <;> linarith [hc.1, hc.2]
          · exact h2 x hx
        · exact Or.inr ⟨e', List.mem_cons_of_mem _ h1, h2⟩

theorem toolOf_iff (lathe : Bool) (v t : Str) : ToolOf lathe v t ↔ t = toolDigits lathe v := by
  unfold ToolOf toolDigits
  by_cases h : lathe = true ∧ 2 < v.length
  · rw [if_pos h, if_pos h]
    constructor
    · rintro ⟨o, rfl, ho⟩
      have : (t ++ o).length / 2 = t.length := by rw [List.length_append]; omega
      rw [this, List.take_left]
    · rintro rfl
      refine ⟨v.drop (v.length / 2), (List.take_append_drop _ _).symm, ?_⟩
      rw [List.length_take, List.length_drop]; omega
  · rw [if_neg h, if_neg h]

theorem toolDigits_number (lathe : Bool) {v : Str} {n : Nat} (h : Number v n) :
    ∃ m, Number (toolDigits lathe v) m := by
  unfold toolDigits
  split
  · rename_i hl
    refine ⟨readNat (v.take (v.length / 2)), fun c hc => h.digits c (List.mem_of_mem_take hc), ?_, ?_, rfl⟩
    · intro h0
      have := congrArg List.length h0
      rw [List.length_take, List.length_nil] at this
      omega
    · have hs := h.small
      rw [← h.reads, ← List.take_append_drop (v.length / 2) v, readNat_append] at hs
      have h1 : 1 ≤ 10 ^ (v.drop (v.length / 2)).length := Nat.one_le_pow _ _ (by norm_num)
      have := Nat.mul_le_mul_left (readNat (v.take (v.length / 2))) h1
      omega
  · exact ⟨n, h⟩

/-- The digits of the limited words decide whether they are above their maximum. -/
def Sharp (lathe : Bool) (k : Limits) (b : Block) : Prop :=
  ∀ d ∈ decs b, Clear lathe k d ∧ ∀ v, d.value = some v → ∃ n, Number v n

theorem decided_iff {neg : Bool} {v f : Str} {n : Nat} {limit : ℚ} (h : Number v n) (hd : Decided neg v f limit) :
    amount neg v f > limit ↔ (n : ℚ) > limit := by
  have hf : (0 : ℚ) ≤ (readNat f : ℚ) / 10 ^ f.length := by positivity
  have hn : (0 : ℚ) ≤ n := by positivity
  unfold Decided at hd
  unfold amount at hd ⊢
  rw [h.reads] at hd ⊢
  cases neg with
  | true =>
    rw [if_pos rfl] at hd ⊢
    constructor <;> intro h' <;> linarith
  | false =>
    simp only [Bool.false_eq_true, if_false] at hd ⊢
    constructor
    · intro h'
      rcases hd with hd | hd
      · exact hd
      · linarith
    · intro h'; linarith

theorem decided_of {neg : Bool} {v f : Str} {n : Nat} {limit : ℚ} (h : Number v n) (h0 : 0 ≤ limit)
    (hd : (n : ℚ) > limit ↔ amount neg v f > limit) : Decided neg v f limit := by
  have hf : (0 : ℚ) ≤ (readNat f : ℚ) / 10 ^ f.length := by positivity
  have hn : (0 : ℚ) ≤ n := by positivity
  unfold Decided
  unfold amount at hd ⊢
  rw [h.reads] at hd ⊢
  cases neg with
  | true =>
    rw [if_pos rfl] at hd ⊢
    by_contra hc
    have := hd.mp (not_le.mp hc)
    linarith
  | false =>
    simp only [Bool.false_eq_true, if_false] at hd ⊢
    rcases lt_or_ge limit (n : ℚ) with h' | h'
    · exact .inl h'
    · exact .inr (not_lt.mp (fun hc => absurd (hd.mpr hc) (not_lt.mpr h')))

/-- Whole numbers without minus sign. -/
theorem decided_whole {s : Option Char} {v f : Str} {limit : ℚ} (hs : s ≠ some '-') (hf : readNat f = 0) :
    Decided (s == some '-') v f limit := by
  have : (s == some '-') = false := by
    cases hb : (s == some '-')
    · rfl
    · exact absurd (by simpa using hb) hs
  unfold Decided amount
  rw [this, hf]
  simp only [Bool.false_eq_true, if_false]
  rcases lt_or_ge limit (readNat v : ℚ) with h | h
  · exact .inl h
  · right; simpa using h

theorem clear_whole {lathe : Bool} {k : Limits} {d : Dec} (hs : d.sign ≠ some '-') (hf : readNat (d.value2.getD []) = 0) :
    Clear lathe k d :=
  fun _ _ => ⟨fun _ => decided_whole hs hf, fun _ _ _ => decided_whole hs hf, fun _ => decided_whole hs hf⟩

theorem clear_other {lathe : Bool} {k : Limits} {d : Dec} (h : ¬ (d.word = c!"S" ∨ d.word = c!"T" ∨ d.word = c!"F")) :
    Clear lathe k d :=
  fun _ _ => ⟨fun hw => absurd (.inl hw) h, fun hw => absurd (.inr (.inl hw)) h, fun hw => absurd (.inr (.inr hw)) h⟩

/-- A limit exception. -/
def IsLimit (e : Exc) : Prop := ∃ args, e = .msg .range .ValueHigherThanAllowed args

theorem limitWord_spec (lathe : Bool) (k : Limits) (d : Dec)
    (h : Clear lathe k d) (hn : ∀ v, d.value = some v → ∃ n, Number v n) :
    (limitWord lathe k d = .ok () ∧ ¬ Exceeds lathe k d) ∨
    (∃ e, limitWord lathe k d = .throw e ∧ IsLimit e ∧ Exceeds lathe k d) := by
  cases hv : d.value with
  | none =>
    left
    refine ⟨by simp only [limitWord, hv], ?_⟩
    rintro ⟨v, hv', _⟩; rw [hv] at hv'; cases hv'
  | some v =>
    by_cases hS : d.word = c!"S"
    · have hc := (h v hv).1 hS
      obtain ⟨n, hn⟩ := hn v hv
      have hr : limitWord lathe k d = if (n : Int) > k.maxSpindle then
          .throw (.msg .range .ValueHigherThanAllowed [c!"S", v, intStr k.maxSpindle]) else .ok () := by
        simp only [limitWord, hv]; rw [if_pos hS, stoiE_number hn]; rfl
      have hx : Exceeds lathe k d ↔ (n : Int) > k.maxSpindle := by
        constructor
        · rintro ⟨v', hv', h | h | h⟩
          · rw [hv] at hv'; cases hv'
            have := (decided_iff hn hc).mp h.2; exact_mod_cast this
          · rw [hS] at h; exact absurd h.1 (by decide)
          · rw [hS] at h; exact absurd h.1 (by decide)
        · intro h'
          exact ⟨v, hv, Or.inl ⟨hS, (decided_iff hn hc).mpr (by exact_mod_cast h')⟩⟩
      rw [hr, hx]
      by_cases hc : (n : Int) > k.maxSpindle
      · right; rw [if_pos hc]; exact ⟨_, rfl, ⟨_, rfl⟩, hc⟩
      · left; rw [if_neg hc]; exact ⟨rfl, hc⟩
    by_cases hT : d.word = c!"T"
    · have hc := (h v hv).2.1 hT
      obtain ⟨n0, hn0⟩ := hn v hv
      obtain ⟨n, hn⟩ := toolDigits_number lathe hn0
      have hr : limitWord lathe k d = if (n : Int) > k.warehouse then
          .throw (.msg .range .ValueHigherThanAllowed [c!"T", toolDigits lathe v, intStr k.warehouse]) else .ok () := by
        simp only [limitWord, hv]; rw [if_neg hS, if_pos hT, stoiE_number hn]; rfl
      have hx : Exceeds lathe k d ↔ (n : Int) > k.warehouse := by
        constructor
        · rintro ⟨v', hv', h | ⟨_, t, ht, h⟩ | h⟩
          · rw [hT] at h; exact absurd h.1 (by decide)
          · rw [hv] at hv'; cases hv'
            rw [toolOf_iff] at ht; subst ht
            have := (decided_iff hn (hc _ ((toolOf_iff lathe v _).mpr rfl))).mp h; exact_mod_cast this
          · rw [hT] at h; exact absurd h.1 (by decide)
        · intro h'
          refine ⟨v, hv, Or.inr (Or.inl ⟨hT, _, (toolOf_iff lathe v _).mpr rfl, ?_⟩)⟩
          exact (decided_iff hn (hc _ ((toolOf_iff lathe v _).mpr rfl))).mpr (by exact_mod_cast h')
      rw [hr, hx]
      by_cases hc : (n : Int) > k.warehouse
      · right; rw [if_pos hc]; exact ⟨_, rfl, ⟨_, rfl⟩, hc⟩
      · left; rw [if_neg hc]; exact ⟨rfl, hc⟩
    by_cases hF : d.word = c!"F"
    · have hc := (h v hv).2.2 hF
      obtain ⟨n, hn⟩ := hn v hv
      have hr : limitWord lathe k d = if ((n : Int) : ℚ) > k.maxFeed then
          .throw (.msg .range .ValueHigherThanAllowed [c!"F", v, dblText k.maxFeed]) else .ok () := by
        simp only [limitWord, hv]; rw [if_neg hS, if_neg hT, if_pos hF, stoiE_number hn]; rfl
      have hx : Exceeds lathe k d ↔ ((n : Int) : ℚ) > k.maxFeed := by
        constructor
        · rintro ⟨v', hv', h | h | h⟩
          · rw [hF] at h; exact absurd h.1 (by decide)
          · rw [hF] at h; exact absurd h.1 (by decide)
          · rw [hv] at hv'; cases hv'
            have := (decided_iff hn hc).mp h.2; simpa using this
        · intro h'
          exact ⟨v, hv, Or.inr (Or.inr ⟨hF, (decided_iff hn hc).mpr (by simpa using h')⟩)⟩
      rw [hr, hx]
      by_cases hc : ((n : Int) : ℚ) > k.maxFeed
      · right; rw [if_pos hc]; exact ⟨_, rfl, ⟨_, rfl⟩, hc⟩
      · left; rw [if_neg hc]; exact ⟨rfl, hc⟩
    · left
      refine ⟨by simp only [limitWord, hv]; rw [if_neg hS, if_neg hT, if_neg hF], ?_⟩
      rintro ⟨_, _, h | h | h⟩
      · exact hS h.1
      · exact hT h.1
      · exact hF h.1

theorem limitRun_spec (lathe : Bool) (k : Limits) (b : Block) : Sharp lathe k b →
    (limitRun lathe k b = .ok () ∧ ∀ d ∈ decs b, ¬ Exceeds lathe k d) ∨
    (∃ e, limitRun lathe k b = .throw e ∧ IsLimit e ∧ ∃ d ∈ decs b, Exceeds lathe k d) := by
  induction b with
  | nil => intro _; left; exact ⟨rfl, by simp [decs]⟩
  | cons a t ih =>
    intro hw
    cases a with
    | str w v => exact ih hw
    | chr w v => exact ih hw
    | dec d =>
      have hw' : Sharp lathe k t := fun d' h => hw d' (by simp [decs, h])
      rcases limitWord_spec lathe k d (hw d (by simp [decs])).1 (hw d (by simp [decs])).2 with ⟨h1, h2⟩ | ⟨e, h1, h2, h3⟩
      · have hr : limitRun lathe k (.dec d :: t) = limitRun lathe k t := by simp only [limitRun, h1]
        rw [hr]
        rcases ih hw' with ⟨h3, h4⟩ | ⟨e, h3, h4, d', h5, h6⟩
        · refine Or.inl ⟨h3, fun d' hd' => ?_⟩
          rcases List.mem_cons.mp (by simpa [decs] using hd') with rfl | hd'
          · exact h2
          · exact h4 d' hd'
        · exact Or.inr ⟨e, h3, h4, d', by simp [decs, h5], h6⟩
      · exact Or.inr ⟨e, by simp only [limitRun, h1], h2, d, by simp [decs], h3⟩

end NC.Ver
