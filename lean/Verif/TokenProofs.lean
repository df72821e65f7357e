import Verif.Spec.Server
import Verif.LinesProofs

/-!
# Tokens under a position: the scanning loop finds exactly the longest tokens
-/

namespace NC.Srv
open NC NC.Spec.Server

/-- `m` gives the length of the longest text of a kind at the beginning. -/
def Longest (kind : Str → Prop) (m : Str → Option Nat) : Prop :=
  ∀ s, (∀ n, m s = some n → 0 < n ∧ n ≤ s.length ∧ kind (s.take n) ∧ ∀ n', n < n' → n' ≤ s.length → ¬ kind (s.take n')) ∧
    (m s = none → ∀ n, n ≤ s.length → ¬ kind (s.take n))

/-- No text of the kind begins inside another one. -/
def Apart (m : Str → Option Nat) : Prop :=
  ∀ s n i k, m s = some n → 0 < i → i < n → m (s.drop i) ≠ some k

theorem search_sound {m : Str → Option Nat} {ch : Int} : ∀ {s : Str} {pos k : Nat} {t : Token},
    (∀ s n, m s = some n → 0 < n) →
    search m ch pos k s = some t →
    ∃ i n, m (s.drop i) = some n ∧ t.start = pos + i ∧ t.stop = pos + i + n ∧ t.text = (s.drop i).take n ∧
      ((pos + i : Nat) : Int) ≤ ch ∧ ch < ((pos + i + n : Nat) : Int) := by
  intro s
  induction s with
  | nil => intro pos k t _ h; simp [search] at h
  | cons c s ih =>
    intro pos k t hpos h
    cases k with
    | succ k =>
      rw [search] at h
      obtain ⟨i, n, h1, h2, h3, h4, h5, h6⟩ := ih hpos h
      exact ⟨i + 1, n, h1, by omega, by omega, h4, by push_cast at h5 ⊢; omega, by push_cast at h6 ⊢; omega⟩
    | zero =>
      rw [search] at h
      cases hm : m (c :: s) with
      | none =>
        rw [hm] at h
        obtain ⟨i, n, h1, h2, h3, h4, h5, h6⟩ := ih hpos h
        exact ⟨i + 1, n, h1, by omega, by omega, h4, by push_cast at h5 ⊢; omega, by push_cast at h6 ⊢; omega⟩
      | some n =>
        rw [hm] at h
        simp only at h
        split at h
        · next hc =>
          cases h
          exact ⟨0, n, hm, rfl, rfl, rfl, by simpa using hc.1, by push_cast; simpa using hc.2⟩
        · obtain ⟨i, n, h1, h2, h3, h4, h5, h6⟩ := ih hpos h
          exact ⟨i + 1, n, h1, by omega, by omega, h4, by push_cast at h5 ⊢; omega, by push_cast at h6 ⊢; omega⟩

theorem search_complete {m : Str → Option Nat} {ch : Int} (ha : Apart m) : ∀ {s : Str} {pos k i n : Nat},
    m [] = none → m (s.drop i) = some n → k ≤ i → ((pos + i : Nat) : Int) ≤ ch → ch < ((pos + i + n : Nat) : Int) →
    search m ch pos k s = some ⟨pos + i, pos + i + n, (s.drop i).take n⟩ := by
  intro s
  induction s with
  | nil => intro pos k i n h0 h; rw [List.drop_nil, h0] at h; cases h
  | cons c s ih =>
    intro pos k i n h0 h hk h1 h2
    cases k with
    | succ k =>
      obtain ⟨i, rfl⟩ : ∃ j, i = j + 1 := ⟨i - 1, by omega⟩
      rw [search, ih h0 (by simpa using h) (by omega) (by push_cast at h1 ⊢; omega) (by push_cast at h2 ⊢; omega)]
      simp only [List.drop_succ_cons, Option.some.injEq, Token.mk.injEq, and_true]
      omega
    | zero =>
      rw [search]
      cases i with
      | zero =>
        rw [List.drop_zero] at h
        rw [h]
        simp only
        rw [if_pos ⟨by simpa using h1, by push_cast at h2; simpa using h2⟩]
        simp
      | succ i =>
        have h' : m (s.drop i) = some n := by simpa using h
        have again : ∀ k, k ≤ i → search m ch (pos + 1) k s = some ⟨pos + (i + 1), pos + (i + 1) + n, ((c :: s).drop (i + 1)).take n⟩ := by
          intro k hk
          rw [ih h0 h' hk (by push_cast at h1 ⊢; omega) (by push_cast at h2 ⊢; omega)]
          simp only [List.drop_succ_cons, Option.some.injEq, Token.mk.injEq, and_true]
          omega
        cases hm : m (c :: s) with
        | none => exact again 0 (by omega)
        | some n0 =>
          simp only
          have hi : n0 ≤ i + 1 := by
            by_contra hlt
            exact ha (c :: s) n0 (i + 1) n hm (by omega) (by omega) h
          rw [if_neg (by push_cast at h1; omega)]
          exact again (n0 - 1) (by omega)

theorem tokenAt_of {kind : Str → Prop} {m : Str → Option Nat} (hl : Longest kind m) {line : Str} {a n : Nat}
    (h : m (line.drop a) = some n) : TokenAt kind line a (a + n) := by
  obtain ⟨h1, h2, h3, h4⟩ := (hl (line.drop a)).1 n h
  rw [List.length_drop] at h2 h4
  refine ⟨by omega, by omega, ?_, ?_⟩
  · unfold slice; rw [Nat.add_sub_cancel_left]; exact h3
  · intro b' hb hb'
    exact h4 (b' - a) (by omega) (by omega)

theorem of_tokenAt {kind : Str → Prop} {m : Str → Option Nat} (hl : Longest kind m) {line : Str} {a b : Nat}
    (h : TokenAt kind line a b) : m (line.drop a) = some (b - a) := by
  obtain ⟨h1, h2, h3, h4⟩ := h
  obtain ⟨g1, g2⟩ := hl (line.drop a)
  cases hm : m (line.drop a) with
  | none => exact absurd h3 (g2 hm (b - a) (by rw [List.length_drop]; omega))
  | some n =>
    obtain ⟨k1, k2, k3, k4⟩ := g1 n hm
    rw [List.length_drop] at k2 k4
    rcases Nat.lt_trichotomy n (b - a) with q | q | q
    · exact absurd h3 (k4 (b - a) q (by omega))
    · rw [q]
    · exfalso
      refine h4 (a + n) (by omega) (by omega) ?_
      unfold slice; rw [Nat.add_sub_cancel_left]; exact k3

/-- The scanning loop finds the token under the position, and only that. -/
theorem search_iff {kind : Str → Prop} {m : Str → Option Nat} (hl : Longest kind m) (ha : Apart m) (line : Str)
    (ch : Int) (t : Token) :
    search m ch 0 0 line = some t ↔
      TokenAt kind line t.start t.stop ∧ (t.start : Int) ≤ ch ∧ ch < t.stop ∧ t.text = slice line t.start t.stop := by
  have h0 : m [] = none := by
    cases h : m [] with
    | none => rfl
    | some n => have := (hl []).1 n h; simp at this; omega
  constructor
  · intro h
    obtain ⟨i, n, h1, h2, h3, h4, h5, h6⟩ := search_sound (fun s n q => ((hl s).1 n q).1) h
    rw [Nat.zero_add] at h2 h3 h5 h6
    rw [h2, h3]
    refine ⟨tokenAt_of hl h1, h5, h6, ?_⟩
    unfold slice; rw [Nat.add_sub_cancel_left]; exact h4
  · rintro ⟨h1, h2, h3, h4⟩
    have := search_complete ha (s := line) (pos := 0) (k := 0) (ch := ch) h0 (of_tokenAt hl h1) (Nat.zero_le _)
      (by simpa using h2) (by have := h1.1; rw [show 0 + t.start + (t.stop - t.start) = t.stop by omega]; exact h3)
    rw [this]
    have h5 := h1.1
    obtain ⟨x, y, z⟩ := t
    simp only at h4 h5 ⊢
    subst h4
    simp only [slice, Option.some.injEq, Token.mk.injEq, and_true]
    omega

/-! ## The three patterns -/

theorem digits_prefix {r ds : Str} (hp : ds <+: r) (hd : ∀ d ∈ ds, isDig d = true) : ds.length ≤ (r.takeWhile isDig).length := by
  obtain ⟨q, rfl⟩ := hp
  rw [List.takeWhile_append_of_pos hd, List.length_append]
  omega

theorem takeWhile_digits (r : Str) : ∀ d ∈ r.takeWhile isDig, isDig d = true := by
  intro d hd
  exact mem_takeWhile hd

theorem dropWhile_head {r : Str} {c : Char} {R : Str} (h : r.dropWhile isDig = c :: R) : isDig c = false := by
  have := List.head?_dropWhile_not isDig r
  rw [h] at this
  simpa using this

theorem mem_codeLetters {c : Char} : c ∈ codeLetters ↔ isCodeLetter c = true := by
  simp [codeLetters, isCodeLetter, or_assoc]

theorem take_split (c : Char) (r : Str) (k : Nat) :
    (c :: r).take (1 + (r.takeWhile isDig).length + k) = c :: r.takeWhile isDig ++ (r.dropWhile isDig).take k := by
  have : (c :: r) = (c :: r.takeWhile isDig) ++ r.dropWhile isDig := by
    rw [List.cons_append, List.takeWhile_append_dropWhile]
  conv_lhs => rw [this]
  rw [List.take_append, List.take_of_length_le (by simp; omega)]
  congr 1
  rw [show 1 + (r.takeWhile isDig).length + k - (c :: r.takeWhile isDig).length = k by simp; omega]

theorem prefix_stop {r ds : Str} {x : Char} (hp : ds ++ [x] <+: r) (hd : ∀ d ∈ ds, isDig d = true) (hx : isDig x = false) :
    ds = r.takeWhile isDig ∧ ∃ R, r.dropWhile isDig = x :: R ∧ ∀ y, ds ++ [x, y] <+: r → R.head? = some y := by
  obtain ⟨q, rfl⟩ := hp
  rw [List.append_assoc, List.singleton_append]
  refine ⟨?_, q, ?_, ?_⟩
  · rw [List.takeWhile_append_of_pos hd, List.takeWhile_cons, hx]; simp
  · rw [List.dropWhile_append_of_pos hd, List.dropWhile_cons, hx]; simp
  · intro y hy
    rw [List.prefix_append_right_inj, List.cons_prefix_cons] at hy
    obtain ⟨-, w, hw⟩ := hy
    rw [← hw]; rfl

theorem matchCode_cons (c : Char) (r : Str) : matchCode (c :: r) =
    if isCodeLetter c = true ∧ r.takeWhile isDig ≠ [] then
      some (1 + (r.takeWhile isDig).length + fracLen (r.dropWhile isDig)) else none := rfl

theorem matchCodeHash_cons (c : Char) (r : Str) : matchCodeHash (c :: r) =
    if isCodeLetter c = true then (matchHash r).map (1 + ·) else none := rfl

theorem longest_code : Longest IsCode matchCode := by
  intro s
  have pre : ∀ n, n ≤ s.length → s.take n <+: s := fun n _ => List.take_prefix n s
  have core : ∀ t, IsCode t → t <+: s → ∃ n, matchCode s = some n ∧ t.length ≤ n := by
    intro t ht hp
    have hpt : isDig '.' = false := by decide
    cases ht with
    | whole hc hne hd =>
      rename_i c ds
      cases s with
      | nil => simp at hp
      | cons c' r =>
        rw [List.cons_prefix_cons] at hp
        obtain ⟨rfl, hp⟩ := hp
        have hlen := digits_prefix hp hd
        have hD : r.takeWhile isDig ≠ [] := by
          intro q; rw [q] at hlen; exact hne (List.length_eq_zero_iff.mp (by simpa using hlen))
        refine ⟨_, if_pos ⟨mem_codeLetters.mp hc, hD⟩, ?_⟩
        simp only [List.length_cons]; omega
    | point hc hne hd =>
      rename_i c ds
      cases s with
      | nil => simp at hp
      | cons c' r =>
        rw [List.cons_append, List.cons_prefix_cons] at hp
        obtain ⟨rfl, hp⟩ := hp
        obtain ⟨hD, R, hR, -⟩ := prefix_stop hp hd hpt
        refine ⟨_, if_pos ⟨mem_codeLetters.mp hc, hD ▸ hne⟩, ?_⟩
        rw [hR, ← hD]
        have : 1 ≤ fracLen ('.' :: R) := by
          cases R with
          | nil => decide
          | cons y R => simp only [fracLen]; split <;> omega
        simp only [List.cons_append, List.length_cons, List.length_append, List.length_nil]; omega
    | frac hc hne hd he =>
      rename_i c ds e
      cases s with
      | nil => simp at hp
      | cons c' r =>
        rw [List.cons_append, List.cons_prefix_cons] at hp
        obtain ⟨rfl, hp⟩ := hp
        have hp1 : ds ++ ['.'] <+: r := (List.prefix_append_right_inj ds |>.mpr (by simp)).trans hp
        obtain ⟨hD, R, hR, hy⟩ := prefix_stop hp1 hd hpt
        refine ⟨_, if_pos ⟨mem_codeLetters.mp hc, hD ▸ hne⟩, ?_⟩
        rw [hR, ← hD]
        have := hy e hp
        cases R with
        | nil => cases this
        | cons y R =>
          simp only [List.head?_cons, Option.some.injEq] at this
          subst this
          simp only [fracLen, he, if_true, List.cons_append, List.length_cons, List.length_append, List.length_nil]; omega
  refine ⟨?_, ?_⟩
  · intro n hn
    have hk : 0 < n ∧ n ≤ s.length ∧ IsCode (s.take n) := by
      cases s with
      | nil => cases hn
      | cons c r =>
        rw [matchCode_cons] at hn
        split at hn
        · next hc =>
          cases hn
          have hlen : (r.takeWhile isDig).length + (r.dropWhile isDig).length = r.length := by
            rw [← List.length_append, List.takeWhile_append_dropWhile]
          have hc1 := mem_codeLetters.mpr hc.1
          rw [take_split]
          have hd := takeWhile_digits r
          cases hR : r.dropWhile isDig with
          | nil =>
            refine ⟨by omega, by rw [hR] at hlen; simp only [List.length_nil] at hlen; simp only [fracLen, List.length_cons]; omega, ?_⟩
            simpa [fracLen] using IsCode.whole hc1 hc.2 hd
          | cons x R =>
            have hx := dropWhile_head hR
            rw [hR] at hlen
            simp only [List.length_cons] at hlen
            by_cases hp : x = '.'
            · subst hp
              cases R with
              | nil =>
                refine ⟨by omega, by simp only [fracLen, List.length_cons, List.length_nil] at *; omega, ?_⟩
                exact IsCode.point hc1 hc.2 hd
              | cons y R =>
                simp only [List.length_cons] at hlen
                by_cases hy : isDig y = true
                · refine ⟨by omega, by simp only [fracLen, hy, if_true, List.length_cons] at *; omega, ?_⟩
                  simp only [fracLen, hy, if_true]
                  exact IsCode.frac hc1 hc.2 hd hy
                · refine ⟨by omega, by simp only [fracLen, hy, List.length_cons, Bool.false_eq_true, if_false] at *; omega, ?_⟩
                  simp only [fracLen, hy]
                  exact IsCode.point hc1 hc.2 hd
            · have hf : fracLen (x :: R) = 0 := by
                unfold fracLen
                split
                · rename_i q; cases q; exact absurd rfl hp
                · rename_i q; cases q; exact absurd rfl hp
                · rename_i q; cases q; simp [hx]
                · rfl
              rw [hf]
              refine ⟨by omega, by simp only [List.length_cons]; omega, ?_⟩
              simpa using IsCode.whole hc1 hc.2 hd
        · cases hn
    refine ⟨hk.1, hk.2.1, hk.2.2, ?_⟩
    intro n' h1 h2 h3
    obtain ⟨n'', h4, h5⟩ := core _ h3 (pre n' h2)
    rw [hn] at h4
    cases h4
    rw [List.length_take] at h5
    omega
  · intro hn n h1 h2
    obtain ⟨n'', h4, h5⟩ := core _ h2 (pre n h1)
    rw [hn] at h4
    cases h4

theorem matchHash_eq (s : Str) : matchHash s = match s with
    | c :: r => if c = '#' ∧ r.takeWhile isDig ≠ [] then some (1 + (r.takeWhile isDig).length) else none
    | [] => none := by
  cases s with
  | nil => rfl
  | cons c r =>
    by_cases h : c = '#'
    · subst h; simp [matchHash]
    · unfold matchHash
      split
      · next q => cases q; exact absurd rfl h
      · simp [h]

theorem longest_hash : Longest IsMacro matchHash := by
  intro s
  have core : ∀ t, IsMacro t → t <+: s → ∃ n, matchHash s = some n ∧ t.length ≤ n := by
    rintro t ⟨ds, rfl, hne, hd⟩ hp
    cases s with
    | nil => simp at hp
    | cons c' r =>
      rw [List.cons_prefix_cons] at hp
      obtain ⟨rfl, hp⟩ := hp
      have hlen := digits_prefix hp hd
      have hD : r.takeWhile isDig ≠ [] := by
        intro q; rw [q] at hlen; exact hne (List.length_eq_zero_iff.mp (by simpa using hlen))
      rw [matchHash_eq]
      refine ⟨_, if_pos ⟨rfl, hD⟩, ?_⟩
      simp only [List.length_cons]; omega
  refine ⟨?_, ?_⟩
  · intro n hn
    have hk : 0 < n ∧ n ≤ s.length ∧ IsMacro (s.take n) := by
      rw [matchHash_eq] at hn
      cases s with
      | nil => cases hn
      | cons c r =>
        simp only at hn
        split at hn
        · next hc =>
          cases hn
          have hlen : (r.takeWhile isDig).length + (r.dropWhile isDig).length = r.length := by
            rw [← List.length_append, List.takeWhile_append_dropWhile]
          have := take_split c r 0
          rw [Nat.add_zero, List.take_zero, List.append_nil] at this
          rw [this]
          exact ⟨by omega, by simp only [List.length_cons]; omega, _, by rw [hc.1], hc.2, takeWhile_digits r⟩
        · cases hn
    refine ⟨hk.1, hk.2.1, hk.2.2, ?_⟩
    intro n' h1 h2 h3
    obtain ⟨n'', h4, h5⟩ := core _ h3 (List.take_prefix n' s)
    rw [hn] at h4
    cases h4
    rw [List.length_take] at h5
    omega
  · intro hn n h1 h2
    obtain ⟨n'', h4, h5⟩ := core _ h2 (List.take_prefix n s)
    rw [hn] at h4
    cases h4

theorem longest_codeHash : Longest IsCodeMacro matchCodeHash := by
  intro s
  cases s with
  | nil => 
    refine ⟨fun n h => ?_, fun _ n _ q => ?_⟩
    · cases h
    · obtain ⟨c, m, h, -⟩ := q; simp at h
  | cons c r =>
    obtain ⟨h1, h2⟩ := longest_hash r
    rw [matchCodeHash_cons]
    by_cases hc : isCodeLetter c = true
    · rw [if_pos hc]
      refine ⟨?_, ?_⟩
      · intro n hn
        rw [Option.map_eq_some_iff] at hn
        obtain ⟨k, hk, rfl⟩ := hn
        obtain ⟨k1, k2, k3, k4⟩ := h1 k hk
        refine ⟨by omega, by simp only [List.length_cons]; omega, ⟨c, r.take k, by rw [Nat.add_comm, List.take_succ_cons], mem_codeLetters.mpr hc, k3⟩, ?_⟩
        rintro n' hn1 hn2 ⟨c', m, he, -, hm⟩
        obtain ⟨j, rfl⟩ : ∃ j, n' = j + 1 := ⟨n' - 1, by omega⟩
        rw [List.take_succ_cons] at he
        cases he
        simp only [List.length_cons] at hn2
        exact k4 j (by omega) (by omega) hm
      · intro hn
        rw [Option.map_eq_none_iff] at hn
        rintro n hn1 ⟨c', m, he, -, hm⟩
        cases n with
        | zero => simp at he
        | succ n =>
          rw [List.take_succ_cons] at he
          cases he
          simp only [List.length_cons] at hn1
          exact h2 hn n (by omega) hm
    · rw [if_neg hc]
      refine ⟨fun n h => (by cases h), ?_⟩
      rintro - n - ⟨c', m, he, hc', -⟩
      cases n with
      | zero => simp at he
      | succ n => rw [List.take_succ_cons] at he; cases he; exact hc (mem_codeLetters.mp hc')

theorem letter_not_digit {c : Char} (h : isDig c = true) : isCodeLetter c = false ∧ c ≠ '#' := by
  constructor
  · unfold isCodeLetter
    by_contra q
    simp only [Bool.not_eq_false, Bool.or_eq_true, beq_iff_eq] at q
    rcases q with ((rfl | rfl) | rfl) | rfl <;> revert h <;> decide
  · rintro rfl; revert h; decide

theorem matchCode_head {s : Str} {n : Nat} (h : matchCode s = some n) : ∃ c r, s = c :: r ∧ isCodeLetter c = true := by
  cases s with
  | nil => cases h
  | cons c r =>
    rw [matchCode_cons] at h
    split at h
    · next hc => exact ⟨c, r, rfl, hc.1⟩
    · cases h

/-- Characters of a drop. -/
theorem drop_head {s : Str} {i : Nat} {c : Char} {r : Str} (h : s.drop i = c :: r) {n : Nat} (hi : i < n) :
    (s.take n)[i]? = some c := by
  rw [List.getElem?_take_of_lt hi]
  have : (s.drop i)[0]? = some c := by rw [h]; rfl
  simpa using this

theorem apart_code : Apart matchCode := by
  intro s n i k h hi hin hk
  obtain ⟨c, r, hs, hc⟩ := matchCode_head hk
  have hg := drop_head hs hin
  obtain ⟨-, -, hkind, -⟩ := (longest_code s).1 n h
  have key : ∀ (c0 : Char) (ds tl : Str), (∀ d ∈ ds, isDig d = true) → (∀ d ∈ tl, d = '.' ∨ isDig d = true) →
      (c0 :: ds ++ tl)[i]? = some c → False := by
    intro c0 ds tl hd ht hg
    obtain ⟨i, rfl⟩ : ∃ j, i = j + 1 := ⟨i - 1, by omega⟩
    rw [List.cons_append, List.getElem?_cons_succ] at hg
    have hmem := List.mem_of_getElem? hg
    rw [List.mem_append] at hmem
    have : c = '.' ∨ isDig c = true := by
      rcases hmem with q | q
      · exact .inr (hd c q)
      · exact ht c q
    rcases this with rfl | q
    · revert hc; decide
    · rw [(letter_not_digit q).1] at hc; cases hc
  generalize hT : s.take n = T at hkind hg
  cases hkind with
  | whole hc' hne hd => exact key _ _ [] hd (by simp) (by rw [List.append_nil]; exact hg)
  | point hc' hne hd => exact key _ _ _ hd (by simp) hg
  | frac hc' hne hd he => exact key _ _ _ hd (by simp [he]) hg

theorem apart_hash : Apart matchHash := by
  intro s n i k h hi hin hk
  have : ∃ r, s.drop i = '#' :: r := by
    rw [matchHash_eq] at hk
    cases hs : s.drop i with
    | nil => rw [hs] at hk; cases hk
    | cons c r =>
      rw [hs] at hk
      simp only at hk
      split at hk
      · next q => exact ⟨r, by rw [q.1]⟩
      · cases hk
  obtain ⟨r, hs⟩ := this
  have hg := drop_head hs hin
  obtain ⟨-, -, ⟨ds, hT, -, hd⟩, -⟩ := (longest_hash s).1 n h
  rw [hT] at hg
  obtain ⟨i, rfl⟩ : ∃ j, i = j + 1 := ⟨i - 1, by omega⟩
  rw [List.getElem?_cons_succ] at hg
  exact (letter_not_digit (hd _ (List.mem_of_getElem? hg))).2 rfl

theorem apart_codeHash : Apart matchCodeHash := by
  intro s n i k h hi hin hk
  have : ∃ c r, s.drop i = c :: r ∧ isCodeLetter c = true := by
    cases hs : s.drop i with
    | nil => rw [hs] at hk; cases hk
    | cons c r =>
      rw [hs] at hk
      rw [matchCodeHash_cons] at hk
      split at hk
      · next q => exact ⟨c, r, rfl, q⟩
      · cases hk
  obtain ⟨c, r, hs, hc⟩ := this
  have hg := drop_head hs hin
  obtain ⟨-, -, ⟨c0, m, hT, -, ds, rfl, -, hd⟩, -⟩ := (longest_codeHash s).1 n h
  rw [hT] at hg
  obtain ⟨i, rfl⟩ : ∃ j, i = j + 1 := ⟨i - 1, by omega⟩
  rw [List.getElem?_cons_succ] at hg
  have hmem := List.mem_of_getElem? hg
  rw [List.mem_cons] at hmem
  rcases hmem with rfl | q
  · revert hc; decide
  · rw [(letter_not_digit (hd c q)).1] at hc; cases hc

end NC.Srv
