import Verif.Renumber
import Verif.Spec.Renumber
import Verif.NumProofs

/-! # Helper lemmas about renumbering -/

namespace NC.Renumber
open NC Spec.Renumber

theorem div_bounds {a s : Nat} (hs : 0 < s) : a / s * s ≤ a ∧ a < (a / s + 1) * s :=
  ⟨Nat.div_mul_le_self a s, by rw [Nat.add_mul, one_mul]; exact Nat.lt_div_mul_add hs⟩

theorem number_zero (start step max lo : Nat) : number start step max lo 0 = start := by
  simp [number]

theorem number_le {start step max lo : Nat} (hs : 0 < step) (h1 : start ≤ max) (h2 : lo ≤ max) (i : Nat) :
    number start step max lo i ≤ max := by
  unfold number
  simp only
  split
  · rename_i h
    have := (div_bounds (a := max - start) hs).1
    have h3 : i * step ≤ (max - start) / step * step := Nat.mul_le_mul_right _ (by omega)
    omega
  · have := (div_bounds (a := max - lo) hs).1
    have hlt : (i - ((max - start) / step + 1)) % ((max - lo) / step + 1) < (max - lo) / step + 1 :=
      Nat.mod_lt _ (Nat.succ_pos _)
    have h3 : (i - ((max - start) / step + 1)) % ((max - lo) / step + 1) * step ≤ (max - lo) / step * step :=
      Nat.mul_le_mul_right _ (by omega)
    omega

theorem number_succ {start step max lo : Nat} (hs : 0 < step) (h1 : start ≤ max) (h2 : lo ≤ max) (i : Nat) :
    number start step max lo (i + 1) =
      if max < number start step max lo i + step then lo else number start step max lo i + step := by
  unfold number
  simp only
  have hb := div_bounds (a := max - start) hs
  have hc := div_bounds (a := max - lo) hs
  generalize hM : (max - start) / step = M at *
  generalize hP : (max - lo) / step = P at *
  by_cases c1 : i + 1 < M + 1
  · rw [if_pos c1, if_pos (show i < M + 1 by omega)]
    have h3 : (i + 1) * step ≤ M * step := Nat.mul_le_mul_right _ (by omega)
    have h4 : (i + 1) * step = i * step + step := by ring
    have h5 : ¬ max < start + i * step + step := by omega
    rw [if_neg h5]
    omega
  · rw [if_neg c1]
    by_cases c2 : i < M + 1
    · have hi : i = M := by omega
      subst hi
      rw [if_pos c2]
      have h4 : (i + 1) * step = i * step + step := by ring
      have h5 : max < start + i * step + step := by omega
      rw [if_pos h5]
      simp
    · rw [if_neg c2]
      have hj : i + 1 - (M + 1) = (i - (M + 1)) + 1 := by omega
      rw [hj]
      generalize i - (M + 1) = j
      have hlt : j % (P + 1) < P + 1 := Nat.mod_lt _ (by omega)
      by_cases c3 : j % (P + 1) = P
      · have h5 : (j + 1) % (P + 1) = 0 := by
          rw [Nat.add_mod, c3]
          by_cases hP0 : P = 0
          · subst hP0; simp [Nat.mod_one]
          · rw [Nat.mod_eq_of_lt (show 1 < P + 1 by omega)]; simp
        rw [h5, c3]
        have h4 : (P + 1) * step = P * step + step := by ring
        rw [if_pos (by omega)]
        simp
      · have h5 : (j + 1) % (P + 1) = j % (P + 1) + 1 := by
          rw [Nat.add_mod, Nat.mod_eq_of_lt (show 1 < P + 1 by omega)]
          exact Nat.mod_eq_of_lt (by omega)
        rw [h5]
        have h4 : (j % (P + 1) + 1) * step = j % (P + 1) * step + step := by ring
        have h3 : (j % (P + 1) + 1) * step ≤ P * step := Nat.mul_le_mul_right _ (by omega)
        rw [if_neg (by omega), h4]
        omega

/-- How many numbers have been emitted after `k` considered blocks. -/
def emitted (p k : Nat) : Nat := (k + (p - 1)) / p

theorem emitted_zero {p : Nat} (hp : 0 < p) : emitted p 0 = 0 := by
  unfold emitted; rw [Nat.div_eq_of_lt]; omega

theorem emitted_hit {p k : Nat} (hp : 0 < p) (h : k % p = 0) :
    emitted p k = k / p ∧ emitted p (k + 1) = emitted p k + 1 := by
  unfold emitted
  obtain ⟨m, rfl⟩ := Nat.dvd_of_mod_eq_zero h
  have e1 : (p * m + (p - 1)) / p = m := by
    rw [Nat.mul_add_div hp, Nat.div_eq_of_lt (by omega)]; rfl
  have e2 : (p * m + 1 + (p - 1)) / p = m + 1 := by
    rw [show p * m + 1 + (p - 1) = p * m + p by omega, Nat.mul_add_div hp, Nat.div_self hp]
  rw [e1, e2, Nat.mul_div_cancel_left _ hp]
  exact ⟨rfl, rfl⟩

theorem emitted_miss {p k : Nat} (hp : 0 < p) (h : k % p ≠ 0) : emitted p (k + 1) = emitted p k := by
  unfold emitted
  have hk := Nat.div_add_mod k p
  have hlt := Nat.mod_lt k hp
  generalize k % p = r at *
  generalize k / p = m at *
  subst hk
  have e1 : (p * m + r + (p - 1)) / p = m + 1 := by
    rw [show p * m + r + (p - 1) = p * m + (p + (r - 1)) by omega, Nat.mul_add_div hp,
      Nat.add_div_left _ hp, Nat.div_eq_of_lt (by omega)]
  have e2 : (p * m + r + 1 + (p - 1)) / p = m + 1 := by
    rw [show p * m + r + 1 + (p - 1) = p * m + (p + r) by omega, Nat.mul_add_div hp,
      Nat.add_div_left _ hp, Nat.div_eq_of_lt (by omega)]
  rw [e1, e2]

/-- The period of numbering: every block, or every `frequency`-th. -/
def period (s : Settings) : Nat := max 1 s.frequency

theorem period_pos (s : Settings) : 0 < period s := by unfold period; omega

/-- Side conditions under which the counter arithmetic cannot wrap. -/
structure Sane (g : FanucGrammar) (s : Settings) (start : Nat) : Prop where
  step : 0 < s.step
  start : start ≤ s.maxNumber
  low : restart g s ≤ s.maxNumber
  room : s.maxNumber + s.step < 2 ^ 32
  freq : s.frequency < 2 ^ 32

/-- The renumberer's state after `k` considered blocks. -/
def stateAt (g : FanucGrammar) (s : Settings) (start k : Nat) : St :=
  ⟨number start s.step s.maxNumber (restart g s) (emitted (period s) k), k % period s⟩

theorem stateAt_zero (g : FanucGrammar) (s : Settings) (start : Nat) : stateAt g s start 0 = ⟨start, 0⟩ := by
  unfold stateAt
  rw [emitted_zero (period_pos s), number_zero]; simp

theorem emits_stateAt (g : FanucGrammar) (s : Settings) (start k : Nat) :
    emits s (stateAt g s start k) = decide (k % period s = 0) := by
  unfold emits stateAt period
  by_cases h : s.frequency < 2
  · have : max 1 s.frequency = 1 := by omega
    simp [h, this, Nat.mod_one]
  · simp [h, show 1 < s.frequency by omega]

theorem tick_stateAt {g : FanucGrammar} {s : Settings} {start : Nat} (h : Sane g s start) (k : Nat) :
    tick s (stateAt g s start k).curFreq = (k + 1) % period s := by
  unfold tick stateAt
  by_cases hf : 1 < s.frequency
  · have hp : period s = s.frequency := by unfold period; omega
    have hlt := Nat.mod_lt k (period_pos s)
    have hfr := h.freq
    simp only [hf, if_true]
    rw [hp] at *
    rw [Nat.mod_eq_of_lt (show k % s.frequency + 1 < 2 ^ 32 by omega)]
    have e : (k + 1) % s.frequency = (k % s.frequency + 1) % s.frequency := by
      rw [Nat.add_mod k 1, Nat.mod_eq_of_lt hf]
    rw [e]
    split
    · rename_i h'; rw [h']; simp
    · rename_i h'; exact (Nat.mod_eq_of_lt (by omega)).symm
  · have hp : period s = 1 := by unfold period; omega
    simp [hf, hp, Nat.mod_one]

theorem bump_number {g : FanucGrammar} {s : Settings} {start : Nat} (h : Sane g s start) (i : Nat) :
    bump g s (number start s.step s.maxNumber (restart g s) i) =
      number start s.step s.maxNumber (restart g s) (i + 1) := by
  have hle := number_le h.step h.start h.low i
  have hr := h.room
  unfold bump
  simp only
  rw [Nat.mod_eq_of_lt (by omega), number_succ h.step h.start h.low]

theorem next_hit {g : FanucGrammar} {s : Settings} {start : Nat} (h : Sane g s start) {k : Nat}
    (hk : k % period s = 0) :
    (⟨bump g s (stateAt g s start k).counter, tick s (stateAt g s start k).curFreq⟩ : St) =
      stateAt g s start (k + 1) := by
  rw [tick_stateAt h]
  unfold stateAt
  simp only
  rw [bump_number h, (emitted_hit (period_pos s) hk).2]

theorem next_miss {g : FanucGrammar} {s : Settings} {start : Nat} (h : Sane g s start) {k : Nat}
    (hk : k % period s ≠ 0) :
    (⟨(stateAt g s start k).counter, tick s (stateAt g s start k).curFreq⟩ : St) =
      stateAt g s start (k + 1) := by
  rw [tick_stateAt h]
  unfold stateAt
  simp only
  rw [emitted_miss (period_pos s) hk]

theorem counterText_digits (g : FanucGrammar) (s : Settings) (n : Nat) :
    AllDig (counterText g s n) ∧ readNat (counterText g s n) = n := by
  unfold counterText
  split
  · exact ⟨padZeros_allDig _ _, readNat_padZeros _ _⟩
  · exact ⟨natStr_isDig n, readNat_natStr n⟩

theorem counterText_length (g : FanucGrammar) (s : Settings) (n : Nat) :
    (counterText g s n).length = max (columns s.leadingZeroes (highest g s.word)) (natStr n).length := by
  have hf : ((numWords g).find s.word).map (·.rangeTo) = highest g s.word := by
    unfold numWords WordMap.find highest
    rw [List.find?_filter, Option.map_map]
    congr 2
    funext p
    rw [Bool.eq_iff_iff]
    simp [and_comm]
  have hp : ∀ w, (padZeros w n).length = max w (natStr n).length := by
    intro w
    unfold padZeros
    rw [List.length_append, List.length_replicate]
    omega
  unfold counterText zeroesNum columns
  rw [← hf]
  cases s.leadingZeroes with
  | false => simp
  | true =>
    cases (numWords g).find s.word with
    | none => simp
    | some wg =>
      simp only [if_true, true_and, Option.map_some]
      split
      · rw [hp]
      · rename_i h
        have : (intStr wg.rangeTo).length = 0 := by omega
        rw [this]; omega

/-- What a numbered block looks like. -/
def numbered (isNum : Str → Bool) (w t : Str) : Block → Block
  | .dec d :: rest =>
    if isNum d.word then .dec { d with word := w, value := some t } :: rest
    else .dec { word := w, value := some t } :: .dec d :: rest
  | b => .dec { word := w, value := some t } :: b

/-- One call, described by the specification vocabulary. -/
theorem renumber_stateAt {g : FanucGrammar} {s : Settings} {start : Nat} (h : Sane g s start) (k : Nat) (b : Block) :
    renumber g s (stateAt g s start k) b =
      if considered (isNumWord g) s.existingOnly b then
        (stateAt g s start (k + 1),
          if k % period s = 0 then
            numbered (isNumWord g) s.word (counterText g s (stateAt g s start k).counter) b
          else body (isNumWord g) b)
      else (stateAt g s start k, b) := by
  by_cases hk : k % period s = 0
  · have hn := next_hit h hk
    have he : emits s (stateAt g s start k) = true := by rw [emits_stateAt]; simp [hk]
    rcases b with _ | ⟨a, rest⟩
    · simp [renumber, considered]
    rcases a with d | ⟨w, v⟩ | ⟨w, v⟩
    · by_cases h1 : d.word = ['/']
      · simp [renumber, considered, h1]
      · by_cases h2 : isNumWord g d.word = true
        · simp [renumber, considered, h1, h2, hk, replaceNumber, he, numbered, hn]
        · by_cases h3 : s.existingOnly = true
          · simp [renumber, considered, h1, h2, h3]
          · simp [renumber, considered, h1, h2, h3, hk, insertNumber, he, numbered, hn]
    · by_cases h3 : s.existingOnly = true
      · simp [renumber, considered, h3]
      · by_cases h4 : w = ['O'] ∨ w = ['(']
        · rcases h4 with h4 | h4 <;> simp [renumber, considered, h3, h4]
        · have h5 := not_or.mp h4
          simp [renumber, considered, h3, h5.1, h5.2, hk, insertNumber, he, numbered, hn]
    · by_cases h3 : s.existingOnly = true
      · simp [renumber, considered, h3]
      · by_cases h4 : w = ['%']
        · simp [renumber, considered, h3, h4]
        · simp [renumber, considered, h3, h4, hk, insertNumber, he, numbered, hn]
  · have hn := next_miss h hk
    have he : emits s (stateAt g s start k) = false := by rw [emits_stateAt]; simp [hk]
    rcases b with _ | ⟨a, rest⟩
    · simp [renumber, considered]
    rcases a with d | ⟨w, v⟩ | ⟨w, v⟩
    · by_cases h1 : d.word = ['/']
      · simp [renumber, considered, h1]
      · by_cases h2 : isNumWord g d.word = true
        · simp [renumber, considered, h1, h2, hk, replaceNumber, he, body, hn]
        · by_cases h3 : s.existingOnly = true
          · simp [renumber, considered, h1, h2, h3]
          · simp [renumber, considered, h1, h2, h3, hk, insertNumber, he, body, hn]
    · by_cases h3 : s.existingOnly = true
      · simp [renumber, considered, h3]
      · by_cases h4 : w = ['O'] ∨ w = ['(']
        · rcases h4 with h4 | h4 <;> simp [renumber, considered, h3, h4]
        · have h5 := not_or.mp h4
          simp [renumber, considered, h3, h5.1, h5.2, hk, insertNumber, he, body, hn]
    · by_cases h3 : s.existingOnly = true
      · simp [renumber, considered, h3]
      · by_cases h4 : w = ['%']
        · simp [renumber, considered, h3, h4]
        · simp [renumber, considered, h3, h4, hk, insertNumber, he, body, hn]

/-- Output of block `j` of a run. -/
theorem renumberAll_get {g : FanucGrammar} {s : Settings} {start : Nat} (h : Sane g s start) :
    ∀ (bs : List Block) (k j : Nat) (b : Block), bs[j]? = some b →
      (renumberAll g s (stateAt g s start k) bs).2[j]? =
        some (renumber g s (stateAt g s start
          (k + (bs.take j).countP (considered (isNumWord g) s.existingOnly))) b).2 := by
  intro bs
  induction bs with
  | nil => intro k j b hb; simp at hb
  | cons a bs ih =>
    intro k j b hb
    cases j with
    | zero =>
      simp at hb
      subst hb
      simp [renumberAll]
    | succ j =>
      simp only [List.getElem?_cons_succ] at hb
      simp only [renumberAll, List.getElem?_cons_succ, List.take_succ_cons, List.countP_cons]
      rw [renumber_stateAt h k a]
      by_cases hc : considered (isNumWord g) s.existingOnly a = true
      · simp only [hc, if_true]
        rw [ih _ _ _ hb]
        congr 4
        omega
      · simp only [hc, if_false, Bool.false_eq_true]
        rw [ih _ _ _ hb]
        rfl

theorem renumberAll_length (g : FanucGrammar) (s : Settings) (st : St) (bs : List Block) :
    (renumberAll g s st bs).2.length = bs.length := by
  induction bs generalizing st with
  | nil => rfl
  | cons b bs ih => simp [renumberAll, ih]

/-- Shape of one call in any state. -/
theorem renumber_shape (g : FanucGrammar) (s : Settings) (st : St) (b : Block) :
    (renumber g s st b).2 = b ∨ (renumber g s st b).2 = body (isNumWord g) b ∨
      ∃ t, (renumber g s st b).2 = numbered (isNumWord g) s.word t b := by
  rcases b with _ | ⟨a, rest⟩
  · left; rfl
  rcases a with d | ⟨w, v⟩ | ⟨w, v⟩
  · simp only [renumber]
    split
    · left; rfl
    · split
      · rename_i h2
        unfold replaceNumber
        split
        · right; right; exact ⟨counterText g s st.counter, by simp [numbered, h2]⟩
        · right; left; simp [body, h2]
      · split
        · left; rfl
        · rename_i h2 _
          unfold insertNumber
          split
          · right; right; exact ⟨counterText g s st.counter, by simp [numbered, h2]⟩
          · left; rfl
  · simp only [renumber]
    split
    · left; rfl
    · split
      · left; rfl
      · unfold insertNumber
        split
        · right; right; exact ⟨counterText g s st.counter, by simp [numbered]⟩
        · left; rfl
  · simp only [renumber]
    split
    · left; rfl
    · split
      · left; rfl
      · unfold insertNumber
        split
        · right; right; exact ⟨counterText g s st.counter, by simp [numbered]⟩
        · left; rfl

end NC.Renumber
