import Verif.Spec.Json

/-!
# The writer's output can be read back
-/

namespace NC.JsonP
open NC NC.Json NC.Spec.Json

theorem hexVal_hexDigit {n : Nat} (h : n < 16) : hexVal (hexDigit n) = some n := by
  interval_cases n <;> decide

theorem readStr_plain (c : Char) (r : Str) (h1 : c ≠ '"') (h2 : c ≠ '\\') (h3 : ¬ c.toNat < 32) :
    readStr (c :: r) = cons1 c (readStr r) := by
  rw [readStr.eq_def]
  split
  · rename_i q; cases q
  · rename_i q; cases q; exact absurd rfl h1
  · rename_i q; cases q; exact absurd rfl h2
  · rename_i q; cases q; exact absurd rfl h2
  · rename_i q; cases q; rw [if_neg h3]

theorem readStr_escape (c : Char) (r : Str) : readStr (escape c ++ r) = cons1 c (readStr r) := by
  unfold escape
  by_cases h1 : c = '"'
  · subst h1; rfl
  rw [if_neg h1]
  by_cases h2 : c = '\\'
  · subst h2; rfl
  rw [if_neg h2]
  by_cases h3 : c.toNat = 8
  · have : c = Char.ofNat 8 := by rw [← h3, Char.ofNat_toNat]
    subst this; rfl
  rw [if_neg h3]
  by_cases h4 : c.toNat = 12
  · have : c = Char.ofNat 12 := by rw [← h4, Char.ofNat_toNat]
    subst this; rfl
  rw [if_neg h4]
  by_cases h5 : c = '\n'
  · subst h5; rfl
  rw [if_neg h5]
  by_cases h6 : c = '\r'
  · subst h6; rfl
  rw [if_neg h6]
  by_cases h7 : c = '\t'
  · subst h7; rfl
  rw [if_neg h7]
  by_cases h8 : c.toNat < 32
  · rw [if_pos h8]
    have e : c!"\\u00" ++ [hexDigit (c.toNat / 16), hexDigit (c.toNat % 16)] ++ r =
        '\\' :: 'u' :: '0' :: '0' :: hexDigit (c.toNat / 16) :: hexDigit (c.toNat % 16) :: r := rfl
    rw [e, readStr, hexVal_hexDigit (by omega), hexVal_hexDigit (by omega)]
    have z : hexVal '0' = some 0 := rfl
    rw [z]
    simp only
    rw [show 4096 * 0 + 256 * 0 + 16 * (c.toNat / 16) + c.toNat % 16 = c.toNat by omega, Char.ofNat_toNat]
  · rw [if_neg h8]
    exact readStr_plain c r h1 h2 h8

theorem readStr_quote (s r : Str) : readStr (s.flatMap escape ++ '"' :: r) = some (s, r) := by
  induction s with
  | nil => rfl
  | cons c s ih => rw [List.flatMap_cons, List.append_assoc, readStr_escape, ih]; rfl

/-- The next character does not continue a number. -/
def Stop (r : Str) : Prop := ∀ c t, r = c :: t → isDig c = false

theorem natStr_head {n : Nat} (hn : 0 < n) : (natStr n).head? ≠ some '0' := by
  have hne : n ≠ 0 := by omega
  have hd : Nat.digits 10 n ≠ [] := Nat.digits_ne_nil_iff_ne_zero.mpr hne
  unfold natStr
  rw [if_neg hne, List.head?_map, List.head?_reverse, List.getLast?_eq_some_getLast hd]
  intro q
  simp only [Option.map_some, Option.some.injEq] at q
  have hl := Nat.getLast_digit_ne_zero 10 hne
  have h10 : (Nat.digits 10 n).getLast hd < 10 := Nat.digits_lt_base (by norm_num) (List.getLast_mem hd)
  have := digVal_digChr h10
  rw [q] at this
  exact hl this.symm

theorem readDigits_natStr (n : Nat) {r : Str} (hr : Stop r) : readDigits (natStr n ++ r) = some (n, r) := by
  have htd : (natStr n ++ r).takeWhile isDig = natStr n ∧ (natStr n ++ r).dropWhile isDig = r := by
    have h := natStr_isDig n
    generalize natStr n = ds at *
    induction ds with
    | nil =>
      cases r with
      | nil => exact ⟨rfl, rfl⟩
      | cons c r => have := hr c r rfl; simp [this]
    | cons d ds ih =>
      have hd := h d (by simp)
      have := ih (fun c hc => h c (by simp [hc]))
      simp [hd, this]
  unfold readDigits
  simp only [htd.1, htd.2, readNat_natStr]
  rw [if_neg]
  rintro (q | ⟨q1, q2⟩)
  · exact natStr_ne_nil n q
  · rcases Nat.eq_zero_or_pos n with rfl | hn
    · exact q1 (by decide)
    · exact natStr_head hn q2

theorem readInt_natStr (n : Nat) {r : Str} (hr : Stop r) : readInt (natStr n ++ r) = some ((n : Int), r) := by
  unfold readInt
  split
  · next t e =>
    exfalso
    cases hs : natStr n with
    | nil => exact natStr_ne_nil n hs
    | cons c t' =>
      rw [hs] at e
      cases e
      have := natStr_isDig n '-' (by rw [hs]; simp)
      exact absurd this (by decide)
  · rw [readDigits_natStr n hr]

theorem readInt_neg (n : Nat) {r : Str} (hr : Stop r) : readInt ('-' :: (natStr n ++ r)) = some (-(n : Int), r) := by
  unfold readInt
  simp only [readDigits_natStr n hr]

theorem readInt_intStr (z : Int) {r : Str} (hr : Stop r) : readInt (intStr z ++ r) = some (z, r) := by
  unfold intStr
  split
  · next h =>
    rw [List.cons_append, readInt_neg _ hr]
    congr 2
    omega
  · next h =>
    rw [readInt_natStr _ hr]
    congr 2
    omega

/-- A number begins with a digit or a sign. -/
theorem intStr_head (z : Int) : ∃ c t, intStr z = c :: t ∧ (isDig c = true ∨ c = '-') := by
  unfold intStr
  split
  · exact ⟨_, _, rfl, .inr rfl⟩
  · cases hs : natStr z.natAbs with
    | nil => exact absurd hs (natStr_ne_nil _)
    | cons c t => exact ⟨c, t, rfl, .inl (natStr_isDig _ c (by rw [hs]; simp))⟩

theorem readVal_int (n : Nat) (z : Int) {r : Str} (hr : Stop r) : readVal (n + 1) (intStr z ++ r) = some (.int z, r) := by
  obtain ⟨c, t, e, hc⟩ := intStr_head z
  have hi := readInt_intStr z hr
  rw [e] at hi ⊢
  rw [List.cons_append] at hi ⊢
  have ne : ∀ x : Char, isDig x = false → x ≠ '-' → c ≠ x := by
    intro x hx hx' q
    subst q
    rcases hc with q | q
    · rw [hx] at q; cases q
    · exact hx' q
  have n1 := ne 'n' (by decide) (by decide)
  have n2 := ne 't' (by decide) (by decide)
  have n3 := ne 'f' (by decide) (by decide)
  have n4 := ne '"' (by decide) (by decide)
  have n5 := ne '[' (by decide) (by decide)
  have n6 := ne '{' (by decide) (by decide)
  rw [readVal.eq_def]
  simp only
  split <;> first | rw [hi] | (rename_i q; have q := (List.cons.inj q).1; first | exact absurd q n1 | exact absurd q n2 | exact absurd q n3 | exact absurd q n4 | exact absurd q n5 | exact absurd q n6)

mutual
/-- Nesting a reader has to allow for. -/
def need : Json → Nat
  | .arr l => needItems l + 1
  | .obj m => needMembers m + 1
  | _ => 1
def needItems : List Json → Nat
  | [] => 0
  | a :: l => max (need a) (needItems l) + 1
def needMembers : List (Str × Json) → Nat
  | [] => 0
  | (_, v) :: m => max (need v) (needMembers m) + 1
end

theorem render_head {j : Json} (h : Plain j) : ∃ c t, render j = c :: t ∧ c ≠ ']' := by
  cases h with
  | null => exact ⟨_, _, rfl, by decide⟩
  | bool b => cases b <;> exact ⟨_, _, rfl, by decide⟩
  | int z =>
    obtain ⟨c, t, e, hc⟩ := intStr_head z
    refine ⟨c, t, by rw [render, e], ?_⟩
    rintro rfl
    revert hc; decide
  | str s => exact ⟨'"', s.flatMap escape ++ c!"\"", by rw [render]; rfl, by decide⟩
  | arr l hl => exact ⟨'[', _, by rw [render], by decide⟩
  | obj l hl => exact ⟨'{', _, by rw [render], by decide⟩

theorem readVal_str (n : Nat) (s r : Str) : readVal (n + 1) (quote s ++ r) = some (.str s, r) := by
  have e : quote s ++ r = '"' :: (s.flatMap escape ++ '"' :: r) := by
    unfold quote
    rw [List.cons_append, List.append_assoc]
    rfl
  rw [e, readVal.eq_def]
  simp only [readStr_quote]

theorem readVal_arr (n : Nat) {c : Char} {t : Str} (h : c ≠ ']') :
    readVal (n + 1) ('[' :: c :: t) = match readItems n (c :: t) with
      | some (l, r) => some (.arr l, r)
      | none => none := by
  rw [readVal.eq_def]
  simp only
  split
  all_goals first | (rename_i q; exact absurd (List.cons.inj q).1 (by decide)) | skip
  · rename_i q
    exact absurd (List.cons.inj (List.cons.inj q).2).1 h
  · rename_i q
    cases q
    rfl
  · rename_i q1 q2 q3 q4 q5 q6
    exact absurd rfl (by first | exact q5 _ | exact q6 _ | exact q4 _)

theorem readVal_obj (n : Nat) (t : Str) :
    readVal (n + 1) ('{' :: '"' :: t) = match readMembers n ('"' :: t) with
      | some (l, r) => some (.obj l, r)
      | none => none := rfl

theorem renderItems_false (a : Json) (l : List Json) : renderItems false (a :: l) = ',' :: renderItems true (a :: l) := by
  rw [renderItems, renderItems]
  simp

theorem renderMembers_false (e : Str × Json) (l : List (Str × Json)) :
    renderMembers false (e :: l) = ',' :: renderMembers true (e :: l) := by
  obtain ⟨k, v⟩ := e
  rw [renderMembers, renderMembers]
  simp

theorem stop_of {c : Char} {t : Str} (h : isDig c = false) : Stop (c :: t) := by
  intro c' t' e
  cases e
  exact h

mutual
theorem read_val : ∀ (j : Json), Plain j → ∀ (n : Nat) (rest : Str), need j ≤ n → Stop rest →
    readVal n (render j ++ rest) = some (j, rest)
  | .null, _, n + 1, rest, _, _ => rfl
  | .bool true, _, n + 1, rest, _, _ => rfl
  | .bool false, _, n + 1, rest, _, _ => rfl
  | .int z, _, n + 1, rest, _, hr => by rw [render]; exact readVal_int n z hr
  | .str s, _, n + 1, rest, _, _ => by rw [render]; exact readVal_str n s rest
  | .other t, h, _, _, _, _ => nomatch h
  | .arr [], _, n + 1, rest, _, _ => rfl
  | .arr (a :: l), h, n + 1, rest, hn, hr => by
    have hp : ∀ x ∈ a :: l, Plain x := by cases h with | arr _ h => exact h
    have := read_items (a :: l) (by simp) hp n rest (by rw [need] at hn; omega)
    obtain ⟨c, t, e, hc⟩ := render_head (hp a (by simp))
    have e2 : renderItems true (a :: l) ++ ']' :: rest = c :: (t ++ renderItems false l ++ ']' :: rest) := by
      rw [renderItems, e]
      simp
    have e3 : render (.arr (a :: l)) ++ rest = '[' :: (renderItems true (a :: l) ++ ']' :: rest) := by
      rw [render]
      simp
    rw [e3, e2, readVal_arr n hc, ← e2, this]
  | .obj [], _, n + 1, rest, _, _ => rfl
  | .obj ((k, v) :: m), h, n + 1, rest, hn, hr => by
    have hp : ∀ e ∈ (k, v) :: m, Plain e.2 := by cases h with | obj _ h => exact h
    have := read_members ((k, v) :: m) (by simp) hp n rest (by rw [need] at hn; omega)
    have e2 : ∃ t, renderMembers true ((k, v) :: m) ++ '}' :: rest = '"' :: t := by
      rw [renderMembers]
      simp [quote]
    have e3 : render (.obj ((k, v) :: m)) ++ rest = '{' :: (renderMembers true ((k, v) :: m) ++ '}' :: rest) := by
      rw [render]
      simp
    rw [e3]
    obtain ⟨t, e2⟩ := e2
    rw [e2] at this ⊢
    rw [readVal_obj, this]
theorem read_items : ∀ (l : List Json), l ≠ [] → (∀ x ∈ l, Plain x) → ∀ (n : Nat) (rest : Str), needItems l ≤ n →
    readItems n (renderItems true l ++ ']' :: rest) = some (l, rest)
  | [], h, _, _, _, _ => absurd rfl h
  | a :: l, _, hp, n + 1, rest, hn => by
    rw [needItems] at hn
    cases l with
    | nil =>
      have := read_val a (hp a (by simp)) n (']' :: rest) (by omega) (stop_of (by decide))
      have e : renderItems true [a] ++ ']' :: rest = render a ++ ']' :: rest := by
        rw [renderItems, renderItems]; simp
      rw [e, readItems.eq_def]
      simp only [this]
    | cons b l =>
      have h1 := read_items (b :: l) (by simp) (fun x hx => hp x (by simp [List.mem_cons.mp hx])) n rest (by omega)
      have := read_val a (hp a (by simp)) n (',' :: (renderItems true (b :: l) ++ ']' :: rest)) (by omega) (stop_of (by decide))
      have e : renderItems true (a :: b :: l) ++ ']' :: rest = render a ++ ',' :: (renderItems true (b :: l) ++ ']' :: rest) := by
        rw [renderItems, renderItems_false]; simp
      rw [e, readItems.eq_def]
      simp only [this, h1]
theorem read_members : ∀ (m : List (Str × Json)), m ≠ [] → (∀ e ∈ m, Plain e.2) → ∀ (n : Nat) (rest : Str), needMembers m ≤ n →
    readMembers n (renderMembers true m ++ '}' :: rest) = some (m, rest)
  | [], h, _, _, _, _ => absurd rfl h
  | (k, v) :: m, _, hp, n + 1, rest, hn => by
    rw [needMembers] at hn
    cases m with
    | nil =>
      have := read_val v (hp (k, v) (by simp)) n ('}' :: rest) (by omega) (stop_of (by decide))
      have e : renderMembers true [(k, v)] ++ '}' :: rest = '"' :: (k.flatMap escape ++ '"' :: ':' :: (render v ++ '}' :: rest)) := by
        rw [renderMembers, renderMembers]; simp [quote]
      rw [e, readMembers.eq_def]
      simp only [readStr_quote, this]
    | cons b m =>
      have h1 := read_members (b :: m) (by simp) (fun x hx => hp x (by simp [List.mem_cons.mp hx])) n rest (by omega)
      have := read_val v (hp (k, v) (by simp)) n (',' :: (renderMembers true (b :: m) ++ '}' :: rest)) (by omega) (stop_of (by decide))
      have e : renderMembers true ((k, v) :: b :: m) ++ '}' :: rest =
          '"' :: (k.flatMap escape ++ '"' :: ':' :: (render v ++ ',' :: (renderMembers true (b :: m) ++ '}' :: rest))) := by
        rw [renderMembers, renderMembers_false]; simp [quote]
      rw [e, readMembers.eq_def]
      simp only [readStr_quote, this, h1]
end

/-- A written value means that value. -/
theorem means_render {j : Json} (h : Plain j) : Means (render j) j :=
  ⟨need j, fun n hn => by
    have := read_val j h n [] hn (fun _ _ q => nomatch q)
    rwa [List.append_nil] at this⟩

end NC.JsonP
