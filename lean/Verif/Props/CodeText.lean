import Verif.CodeText
import Verif.Spec.CodeText

/-!
# C116: the text of a code names it
-/

namespace NC.Props
open NC NC.CodeText

theorem uintParse_digits {s : Str} (h0 : s ≠ []) (hd : ∀ c ∈ s, isDig c = true) (hn : readNat s < 4294967296) : uintParse s = some (readNat s) := by
  unfold uintParse
  cases s with
  | nil => exact absurd rfl h0
  | cons c r =>
    have hc := hd c (List.mem_cons_self ..)
    have hw : white c = false := by
      unfold white
      unfold isDig at hc
      simp only [Bool.and_eq_true, decide_eq_true_eq] at hc
      rw [Bool.or_eq_false_iff]
      constructor
      · rw [beq_eq_false_iff_ne]; rintro rfl; exact absurd hc.1 (by decide)
      · rw [Bool.and_eq_false_iff]; right
        rw [decide_eq_false_iff_not]
        intro h
        exact absurd (Char.le_trans hc.1 h) (by decide)
    have e1 : (c :: r).dropWhile white = c :: r := by rw [List.dropWhile_cons_of_neg (by simp [hw])]
    have e2 : CodeText.signed (c :: r) = (false, c :: r) := by
      unfold CodeText.signed
      dsimp only
      rw [if_neg (by rintro rfl; cases hc), if_neg (by rintro rfl; cases hc)]
    rw [e1, e2]
    have e3 : (c :: r).takeWhile isDig = c :: r := takeWhile_all hd
    have e4 : (c :: r).dropWhile isDig = [] := dropWhile_all hd
    dsimp only
    rw [e3, e4, if_pos]
    exact ⟨by simp, by rfl, hn, by simp⟩

theorem point_free {s : Str} (h : ∀ c ∈ s, isDig c = true) : '.' ∉ s := fun hm => absurd (h '.' hm) (by decide)

theorem read_point {a b : Str} (ha : ∀ c ∈ a, isDig c = true) :
    CodeText.read (a ++ '.' :: b) = (uintParse a).bind fun c => (uintParse b).bind fun r => some (c, r) := by
  unfold CodeText.read
  have h1 : (a ++ '.' :: b).takeWhile (· ≠ '.') = a ∧ (a ++ '.' :: b).dropWhile (· ≠ '.') = '.' :: b := by
    have hp := point_free ha
    clear ha
    induction a with
    | nil => simp
    | cons x a ih =>
      have hx : x ≠ '.' := fun e => hp (by simp [e])
      obtain ⟨h1, h2⟩ := ih (fun e => hp (List.mem_cons_of_mem _ e))
      rw [List.cons_append, List.takeWhile_cons, List.dropWhile_cons]
      simp only [ne_eq, hx, not_false_eq_true, decide_true, if_true]
      exact ⟨by rw [h1], h2⟩
  rw [if_pos (by simp), h1.1, h1.2]
  rfl

/-- C116: the text of a code is read as this code. -/
theorem C116_back (c : Ver.Code) (h1 : c.1 < 4294967296) (h2 : c.2 < 4294967296) : CodeText.read (text c) = some c := by
  obtain ⟨a, b⟩ := c
  dsimp only at h1 h2
  have ha := uintParse_digits (natStr_ne_nil a) (natStr_isDig a) (by rw [readNat_natStr]; exact h1)
  have hb := uintParse_digits (natStr_ne_nil b) (natStr_isDig b) (by rw [readNat_natStr]; exact h2)
  rw [readNat_natStr] at ha hb
  unfold text
  dsimp only
  split
  · rename_i h0
    unfold CodeText.read
    rw [if_neg (point_free (natStr_isDig a)), ha, h0]
    rfl
  · rw [read_point (natStr_isDig a), ha, hb]
    rfl

/-- C116: different codes have different texts. -/
theorem C116_distinct (c d : Ver.Code) (hc : c.1 < 4294967296 ∧ c.2 < 4294967296) (hd : d.1 < 4294967296 ∧ d.2 < 4294967296)
    (h : text c = text d) : c = d := by
  have := C116_back c hc.1 hc.2
  rw [h, C116_back d hd.1 hd.2] at this
  exact (Option.some.inj this).symm

example : text (54, 0) = c!"54" ∧ text (5, 1) = c!"5.1" ∧ CodeText.read c!"84.3" = some (84, 3) := by decide +kernel

theorem white_iff (c : Char) : white c = true ↔ Spec.CodeText.White c := by
  unfold white Spec.CodeText.White
  rw [Bool.or_eq_true, beq_iff_eq, Bool.and_eq_true, decide_eq_true_eq, decide_eq_true_eq]
  exact Iff.rfl

theorem white_not_digit {c : Char} (h : white c = true) : isDig c = false := by
  rw [white_iff] at h
  rw [Bool.eq_false_iff]
  intro hd
  unfold isDig at hd
  rw [Bool.and_eq_true, decide_eq_true_eq, decide_eq_true_eq] at hd
  have h1 : 48 ≤ c.toNat := hd.1
  rcases h with rfl | ⟨_, h⟩
  · exact absurd hd.1 (by decide)
  · omega

theorem while_split {p : Char → Bool} {a b : Str} (ha : ∀ c ∈ a, p c = true) (hb : ∀ c, b.head? = some c → p c = false) :
    (a ++ b).takeWhile p = a ∧ (a ++ b).dropWhile p = b := by
  induction a with
  | nil =>
    cases b with
    | nil => exact ⟨rfl, rfl⟩
    | cons c b =>
      have := hb c rfl
      rw [List.nil_append, List.takeWhile_cons, List.dropWhile_cons, if_neg (by rw [this]; decide), if_neg (by rw [this]; decide)]
      exact ⟨rfl, rfl⟩
  | cons x a ih =>
    obtain ⟨h1, h2⟩ := ih (fun c hc => ha c (List.mem_cons_of_mem _ hc))
    have hx := ha x (List.mem_cons_self ..)
    rw [List.cons_append, List.takeWhile_cons, List.dropWhile_cons, if_pos hx, if_pos hx, h1, h2]
    exact ⟨rfl, rfl⟩

theorem uintParse_iff (s : Str) (n : Nat) : uintParse s = some n ↔ Spec.CodeText.Whole s n := by
  have dig : ∀ c : Char, isDig c = true ↔ '0' ≤ c ∧ c ≤ '9' := by
    intro c
    unfold isDig
    rw [Bool.and_eq_true, decide_eq_true_eq, decide_eq_true_eq]
  have taken : ∀ (p : Char → Bool) (l : Str), ∀ c ∈ l.takeWhile p, p c = true := by
    intro p l
    induction l with
    | nil => intro c hc; cases hc
    | cons x l ih =>
      intro c hc
      rw [List.takeWhile_cons] at hc
      split at hc
      · rcases List.mem_cons.mp hc with rfl | h
        · assumption
        · exact ih c h
      · cases hc
  constructor
  · intro h
    unfold uintParse at h
    dsimp only at h
    split at h
    · rename_i hc
      obtain ⟨h1, h2, h3, h4⟩ := hc
      have hn : readNat ((CodeText.signed (s.dropWhile white)).2.takeWhile isDig) = n := Option.some.inj h
      have hsplit : ∃ sign, s.dropWhile white = sign ++ (CodeText.signed (s.dropWhile white)).2 ∧
          (sign = [] ∨ sign = ['+'] ∨ (sign = ['-'] ∧ (CodeText.signed (s.dropWhile white)).1 = true)) := by
        cases hs : s.dropWhile white with
        | nil => exact ⟨[], rfl, Or.inl rfl⟩
        | cons c r =>
          unfold CodeText.signed
          dsimp only
          split
          · rename_i hc; subst hc; exact ⟨['+'], rfl, Or.inr (Or.inl rfl)⟩
          · split
            · rename_i hc; subst hc; exact ⟨['-'], rfl, Or.inr (Or.inr ⟨rfl, rfl⟩)⟩
            · exact ⟨[], rfl, Or.inl rfl⟩
      obtain ⟨sign, e1, e2⟩ := hsplit
      refine ⟨s.takeWhile white, sign, (CodeText.signed (s.dropWhile white)).2.takeWhile isDig, (CodeText.signed (s.dropWhile white)).2.dropWhile isDig,
        ?_, ?_, ?_, h1, ?_, hn, hn ▸ h3⟩
      · rw [List.takeWhile_append_dropWhile, ← e1, List.takeWhile_append_dropWhile]
      · intro c hc
        rw [← white_iff]
        rcases List.mem_append.mp hc with h | h
        · exact taken _ _ c h
        · exact List.all_eq_true.mp h2 c h
      · rcases e2 with h | h | ⟨h, hm⟩
        · exact Or.inl h
        · exact Or.inr (Or.inl h)
        · exact Or.inr (Or.inr ⟨h, hn ▸ h4 hm⟩)
      · intro c hc
        exact (dig c).mp (taken _ _ c hc)
    · cases h
  · rintro ⟨w, sign, d, w', rfl, hw, hsign, hd0, hd, hn, hb⟩
    have hn' : readNat d = n := hn
    obtain ⟨x, xs, hdx⟩ : ∃ x xs, d = x :: xs := List.exists_cons_of_ne_nil hd0
    have hdx1 : isDig x = true := (dig x).mpr (hd x (by rw [hdx]; simp))
    have hxw : white x = false := by
      rw [Bool.eq_false_iff]
      intro h
      rw [white_not_digit h] at hdx1
      cases hdx1
    have e1 : (w ++ (sign ++ (d ++ w'))).dropWhile white = sign ++ (d ++ w') := by
      refine (while_split (fun c hc => (white_iff c).mpr (hw c (List.mem_append_left _ hc))) ?_).2
      intro c hc
      rcases hsign with rfl | rfl | ⟨rfl, _⟩
      · rw [hdx] at hc
        simp at hc
        rw [← hc]
        exact hxw
      · simp at hc; rw [← hc]; decide
      · simp at hc; rw [← hc]; decide
    have e2 : CodeText.signed (sign ++ (d ++ w')) = (decide (sign = ['-']), d ++ w') := by
      rcases hsign with rfl | rfl | ⟨rfl, _⟩
      · rw [List.nil_append, hdx]
        unfold CodeText.signed
        rw [List.cons_append]
        dsimp only
        rw [if_neg (by rintro rfl; cases hdx1), if_neg (by rintro rfl; cases hdx1)]
        rfl
      · rfl
      · rfl
    have e3 : (d ++ w').takeWhile isDig = d ∧ (d ++ w').dropWhile isDig = w' := by
      refine while_split (fun c hc => (dig c).mpr (hd c hc)) ?_
      intro c hc
      refine white_not_digit ((white_iff c).mpr (hw c (List.mem_append_right _ ?_)))
      exact List.mem_of_mem_head? hc
    unfold uintParse
    rw [e1, e2]
    dsimp only
    rw [e3.1, e3.2, if_pos, hn']
    refine ⟨hd0, ?_, hn' ▸ hb, ?_⟩
    · rw [List.all_eq_true]
      intro c hc
      exact (white_iff c).mpr (hw c (List.mem_append_right _ hc))
    · intro hm
      rw [decide_eq_true_eq] at hm
      rcases hsign with rfl | rfl | ⟨_, h0⟩
      · cases hm
      · cases hm
      · rw [hn', h0]

/-- C116: a text is read as a code exactly if it is a whole number or two of them with a point between, and as these numbers. -/
theorem C116_read (s : Str) (c : Ver.Code) : CodeText.read s = some c ↔ Spec.CodeText.Names s c := by
  obtain ⟨a, b⟩ := c
  unfold CodeText.read Spec.CodeText.Names
  dsimp only
  by_cases hp : '.' ∈ s
  · rw [if_pos hp]
    obtain ⟨x, y, hxy, hx⟩ : ∃ x y, s = x ++ '.' :: y ∧ '.' ∉ x := by
      clear a b
      induction s with
      | nil => cases hp
      | cons c s ih =>
        by_cases hc : c = '.'
        · exact ⟨[], s, by rw [hc]; rfl, by simp⟩
        · have : '.' ∈ s := by
            rcases List.mem_cons.mp hp with h | h
            · exact absurd h.symm hc
            · exact h
          obtain ⟨x, y, h1, h2⟩ := ih this
          refine ⟨c :: x, y, by rw [h1]; rfl, ?_⟩
          rintro h
          rcases List.mem_cons.mp h with h | h
          · exact hc h.symm
          · exact h2 h
    have e := while_split (p := fun c => decide (c ≠ '.')) (a := x) (b := '.' :: y)
      (fun c hc => by rw [decide_eq_true_eq]; rintro rfl; exact hx hc) (by intro c hc; simp at hc; simp [← hc])
    rw [hxy, e.1, e.2]
    constructor
    · intro h
      rw [Option.bind_eq_some_iff] at h
      obtain ⟨a', ha, h⟩ := h
      rw [Option.bind_eq_some_iff] at h
      obtain ⟨b', hb, h⟩ := h
      cases h
      exact Or.inr ⟨x, y, rfl, hx, (uintParse_iff _ _).mp ha, (uintParse_iff _ _).mp hb⟩
    · rintro (⟨h, _⟩ | ⟨x', y', h1, h2, h3, h4⟩)
      · exact absurd (by simp) h
      · have e' := while_split (p := fun c => decide (c ≠ '.')) (a := x') (b := '.' :: y')
          (fun c hc => by rw [decide_eq_true_eq]; rintro rfl; exact h2 hc) (by intro c hc; simp at hc; simp [← hc])
        rw [← h1] at e'
        have hx' : x = x' := e.1.symm.trans e'.1
        have hy' : '.' :: y = '.' :: y' := e.2.symm.trans e'.2
        cases hx'
        cases hy'
        rw [(uintParse_iff _ _).mpr h3]
        show ((uintParse y).bind _) = _
        rw [(uintParse_iff _ _).mpr h4]
        rfl
  · rw [if_neg hp]
    constructor
    · intro h
      rw [Option.bind_eq_some_iff] at h
      obtain ⟨a', ha, h⟩ := h
      cases h
      exact Or.inl ⟨hp, (uintParse_iff _ _).mp ha, rfl⟩
    · rintro (⟨_, h1, rfl⟩ | ⟨x, y, h, _⟩)
      · rw [(uintParse_iff _ _).mpr h1]; rfl
      · exact absurd (by rw [h]; simp) hp

example : Spec.CodeText.Names c!" +54.1" (54, 1) ∧ CodeText.read c!"-1" = none ∧ CodeText.read c!"5.1.2" = none := by
  refine ⟨(C116_read _ _).mp (by decide +kernel), by decide +kernel, by decide +kernel⟩

/-- C116, violated: zeroes behind the point are lost; a text is taken for the code with another text. -/
theorem C116_violated_zeroes (a b : Nat) (ha : a < 4294967296) (hb : b < 4294967296) (k : Nat) (hk : 0 < k) :
    CodeText.read (natStr a ++ '.' :: (List.replicate k '0' ++ natStr b)) = some (a, b) ∧
      text (a, b) ≠ natStr a ++ '.' :: (List.replicate k '0' ++ natStr b) := by
  have hz : readNat (List.replicate k '0' ++ natStr b) = b := by
    rw [readNat_append, readNat_zeros, readNat_natStr]; simp
  have hd : ∀ c ∈ List.replicate k '0' ++ natStr b, isDig c = true := by
    intro c hc
    rcases List.mem_append.mp hc with h | h
    · rw [(List.mem_replicate.mp h).2]; decide
    · exact natStr_isDig b c h
  have e1 := uintParse_digits (natStr_ne_nil a) (natStr_isDig a) (by rw [readNat_natStr]; exact ha)
  have e2 := uintParse_digits (s := List.replicate k '0' ++ natStr b) (by simp [natStr_ne_nil]) hd (by rw [hz]; exact hb)
  rw [readNat_natStr] at e1
  rw [hz] at e2
  constructor
  · rw [read_point (natStr_isDig a), e1, e2]; rfl
  · unfold text
    dsimp only
    split
    · intro h
      have := congrArg List.length h
      simp at this
    · intro h
      have := congrArg List.length (List.append_cancel_left h)
      simp at this
      omega

example : CodeText.read c!"54.01" = some (54, 1) ∧ text (54, 1) = c!"54.1" := by decide +kernel

end NC.Props
