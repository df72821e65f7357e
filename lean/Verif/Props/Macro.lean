import Verif.MacroProofs
import Verif.LangProofs
import Verif.NumProofs

/-!
# Properties C10-C15, C44, C49, C50, C52: macro variables and expressions
-/

namespace NC.Props

open NC NC.Spec NC.Macro NC.Calc

/-! ## C10 Macro value in effect on a line -/

/-- What has been recorded, as a function: `keep` records only where nothing is
recorded yet, `set` always. -/
def recorded {V : Type} : List (Rec V) → Nat → Int → Option V :=
  fun h => h.foldl (fun f r => match r with
    | .keep id line v => fun i l => if i = id ∧ l = line ∧ f i l = none then some v else f i l
    | .set id line v => fun i l => if i = id ∧ l = line then some v else f i l) (fun _ _ => none)

theorem recorded_append {V : Type} (h : List (Rec V)) (r : Rec V) (i : Nat) (l : Int) :
    recorded (h ++ [r]) i l = match r with
      | .keep id line v => if i = id ∧ l = line ∧ recorded h i l = none then some v else recorded h i l
      | .set id line v => if i = id ∧ l = line then some v else recorded h i l := by
  unfold recorded
  rw [List.foldl_append]
  cases r <;> rfl

theorem get_run {V : Type} (h : List (Rec V)) (i : Nat) (l : Int) :
    (MacroMap.run [] h : MacroMap V).get ⟨i, l⟩ = recorded h i l := by
  induction h using List.reverseRecOn with
  | nil => rfl
  | append_singleton h r ih =>
    have hs : (MacroMap.run [] h : MacroMap V).Sorted := MacroMap.sorted_run MacroMap.sorted_nil h
    rw [recorded_append, MacroMap.run_append]
    cases r with
    | keep id line v =>
      simp only [MacroMap.get_emplace hs, ih, MKey.mk.injEq]
      by_cases hk : i = id ∧ l = line
      · obtain ⟨rfl, rfl⟩ := hk
        rw [ih]
        cases hx : recorded h i l <;> simp
      · rw [if_neg hk, if_neg (by tauto)]
    | set id line v => simp only [MacroMap.get_assign hs, ih, MKey.mk.injEq]

/-- The value found for `#id` on line `L` is the one recorded by the latest line not after `L`. -/
theorem C10_value_in_effect {V : Type} (h : List (Rec V)) (id : Nat) (L : Int) (v : V) :
    (MacroMap.run [] h : MacroMap V).valueAt id L = some v ↔
      ∃ l, l ≤ L ∧ recorded h id l = some v ∧ ∀ l', l < l' → l' ≤ L → recorded h id l' = none := by
  rw [MacroMap.valueAt_eq_some (MacroMap.sorted_run MacroMap.sorted_nil h)]
  simp only [get_run]

/-- The lookup fails exactly when no line up to `L` recorded `#id`. -/
theorem C10_missing_iff {V : Type} (h : List (Rec V)) (id : Nat) (L : Int) :
    (MacroMap.run [] h : MacroMap V).valueAt id L = none ↔ ∀ l, l ≤ L → recorded h id l = none := by
  rw [MacroMap.valueAt_eq_none (MacroMap.sorted_run MacroMap.sorted_nil h)]
  simp only [get_run]

/-- Recording another variable, or a later line, does not change what is found. -/
theorem C10_unaffected {V : Type} (h : List (Rec V)) (r : Rec V) (id : Nat) (L : Int)
    (hr : match r with
      | .keep i l _ => i ≠ id ∨ L < l
      | .set i l _ => i ≠ id ∨ L < l) :
    (MacroMap.run [] (h ++ [r]) : MacroMap V).valueAt id L = (MacroMap.run [] h : MacroMap V).valueAt id L := by
  apply MacroMap.valueAt_congr (MacroMap.sorted_run MacroMap.sorted_nil _)
    (MacroMap.sorted_run MacroMap.sorted_nil _)
  intro l hl
  rw [get_run, get_run, recorded_append]
  cases r with
  | keep i l' v => simp only at hr ⊢; rw [if_neg]; rintro ⟨rfl, rfl, _⟩; rcases hr with h | h <;> [exact h rfl; omega]
  | set i l' v => simp only at hr ⊢; rw [if_neg]; rintro ⟨rfl, rfl⟩; rcases hr with h | h <;> [exact h rfl; omega]

-- #1 recorded on lines 9, 3 and 5 (in that order), asked on line 6: line 5's value.
example : (MacroMap.run [] [.keep 1 9 'a', .keep 1 3 'b', .set 1 5 'c', .keep 2 6 'd'] : MacroMap Char).valueAt 1 6
    = some 'c' := by decide
example : (MacroMap.run [] [.keep 1 9 'a', .keep 2 6 'd'] : MacroMap Char).valueAt 1 6 = none := by decide

/-! ## C11 Expressions and code words see the same values -/

/-- Partial: when no line after `L` has recorded anything, an expression on line
`L` has the value it denotes with the variables in effect on `L`.
Missing: tables with later lines (see `C11_violated`). -/
theorem C11_expression_value_in_effect_partial (tr : Str → ℚ → Option ℚ) (h : List (Rec ℚ)) (L : Int)
    (hL : L ≤ 2147483647) (hlate : ∀ id l, L < l → recorded h id l = none) (e : E) (v : ℚ) :
    evalText tr (MacroMap.run [] h) e.pr = .ok v ↔
      e.val (spTr tr) (fun id => (MacroMap.run [] h : MacroMap ℚ).valueAt id L) = some v := by
  have hs : (MacroMap.run [] h : MacroMap ℚ).Sorted := MacroMap.sorted_run MacroMap.sorted_nil h
  have hm : (MacroMap.run [] h : MacroMap ℚ).valueMax = fun id => (MacroMap.run [] h : MacroMap ℚ).valueAt id L := by
    funext id
    exact MacroMap.valueMax_eq hs hL (fun id l hl => by rw [get_run]; exact hlate id l hl) id
  rw [← hm]
  have := evalText_pr tr (MacroMap.run [] h) e [] exprEnd_nil v
  rwa [List.append_nil] at this

/-- Violated in general: with `#1` recorded on lines 1 and 9, on line 1 the
expression `#1` evaluates to the value of line 9, while a code word on line 1
sees the value of line 1. -/
theorem C11_violated (tr : Str → ℚ → Option ℚ) :
    ∃ h : List (Rec ℚ), evalText tr (MacroMap.run [] h) c!"#1" = .ok 20 ∧
      (MacroMap.run [] h : MacroMap ℚ).valueAt 1 1 = some 10 := by
  refine ⟨[.keep 1 1 10, .keep 1 9 20], ?_, ?_⟩
  · have := evalText_pr tr (MacroMap.run [] [.keep 1 1 10, .keep 1 9 20])
      (.one (.one (.mac (.num [1] [] (by simp))))) [] exprEnd_nil 20
    rw [List.append_nil] at this
    rw [show (c!"#1") = (E.one (.one (.mac (.num [1] [] (by simp))))).pr from by
      simp [E.pr, T.pr, F.pr, prNum, dig]]
    rw [this]
    norm_num [E.val, T.val, F.val, numVal, u32, ipartIn, ipart, Nat.ofDigits]
    rfl
  · rfl

/-! ## C12 Re-evaluating a line -/

/-- The value of a word as it is written. -/
def written (d : Dec) : Str :=
  d.sign.toList ++ d.openB.getD [] ++ d.mac.getD [] ++ d.value.getD [] ++ d.dot.toList ++ d.value2.getD [] ++ d.closeB.getD []

/-- The right-hand side of an assignment as it is written: the value of the `=` and the words after it. -/
def assigned (d0 : Dec) (ds : List Dec) : Str := written d0 ++ ds.flatMap (fun d => d.word ++ written d)

theorem assigned_eq (d0 : Dec) (ds : List Dec) : assigned d0 ds = valText d0 ++ tailText ds := by
  have h : ∀ d, written d = valText d := by
    rintro ⟨w, a, s, o, m, v, t, v2, c⟩
    cases s <;> cases o <;> cases m <;> cases v <;> cases t <;> cases v2 <;> cases c <;> rfl
  unfold assigned tailText
  simp only [h]

/-- Partial: the first evaluation of `#n = e` on line `L` records the value of
`e` there and leaves every other entry alone.
Missing: a later evaluation of the same line (see `C12_violated`). -/
theorem C12_first_evaluation_records_partial (tr : Str → ℚ → Option ℚ) (m : MacroMap ℚ) (hs : m.Sorted) (L : Int)
    (a d0 : Dec) (ds : List Dec) (n : Nat) (e : E) (v : ℚ) (hn : n ≤ 2147483647)
    (hw : a.word = c!"#") (hv : a.value = some (natStr n)) (h0 : d0.word = c!"=")
    (ht : assigned d0 ds = e.pr)
    (he : e.val (spTr tr) m.valueMax = some v) (hfirst : m.get ⟨n, L⟩ = none) :
    ∃ m', evaluate tr m L (Attr.dec a :: Attr.dec d0 :: ds.map Attr.dec) = .ok m' ∧
      m'.valueAt n L = some v ∧ (∀ k, k ≠ ⟨n, L⟩ → m'.get k = m.get k) := by
  refine ⟨_, evaluate_assign tr m L a d0 ds n e v hn hw hv h0 ((assigned_eq d0 ds).symm.trans ht) he, ?_, ?_⟩
  · apply MacroMap.valueAt_of_get (MacroMap.sorted_emplace hs _ _)
    rw [MacroMap.get_emplace hs, hfirst]; simp
  · intro k hk
    rw [MacroMap.get_emplace hs, if_neg hk]

/-- Violated: once a line has recorded `#n`, evaluating any other assignment to
`#n` on that line succeeds but keeps the old value. -/
theorem C12_violated (tr : Str → ℚ → Option ℚ) (m : MacroMap ℚ) (hs : m.Sorted) (L : Int)
    (a d0 : Dec) (ds : List Dec) (n : Nat) (e : E) (v old : ℚ) (hn : n ≤ 2147483647)
    (hw : a.word = c!"#") (hv : a.value = some (natStr n)) (h0 : d0.word = c!"=")
    (ht : assigned d0 ds = e.pr)
    (he : e.val (spTr tr) m.valueMax = some v) (hold : m.get ⟨n, L⟩ = some old) :
    ∃ m', evaluate tr m L (Attr.dec a :: Attr.dec d0 :: ds.map Attr.dec) = .ok m' ∧
      m'.valueAt n L = some old := by
  refine ⟨_, evaluate_assign tr m L a d0 ds n e v hn hw hv h0 ((assigned_eq d0 ds).symm.trans ht) he, ?_⟩
  apply MacroMap.valueAt_of_get (MacroMap.sorted_emplace hs _ _)
  rw [MacroMap.get_emplace hs, hold]; simp

-- "#1=7" on line 4: first with an empty table, then with 5 already recorded.
example : evaluate (fun _ _ => none) [] 4
    [.dec {word := c!"#", value := some c!"1"}, .dec {word := c!"=", value := some c!"7"}] =
    .ok [(⟨1, 4⟩, 7)] := by
  have := evaluate_assign (fun _ _ => none) [] 4 {word := c!"#", value := some c!"1"}
    {word := c!"=", value := some c!"7"} [] 1 (.one (.one (.num [7] [] (by simp)))) 7 (by norm_num) rfl rfl rfl
    (by simp [valText, tailText, E.pr, T.pr, F.pr, prNum, dig, optC, optS])
    (by norm_num [E.val, T.val, F.val, numVal, Nat.ofDigits])
  exact this
example : evaluate (fun _ _ => none) [(⟨1, 4⟩, 5)] 4
    [.dec {word := c!"#", value := some c!"1"}, .dec {word := c!"=", value := some c!"7"}] =
    .ok [(⟨1, 4⟩, 5)] := by
  have := evaluate_assign (fun _ _ => none) [(⟨1, 4⟩, 5)] 4 {word := c!"#", value := some c!"1"}
    {word := c!"=", value := some c!"7"} [] 1 (.one (.one (.num [7] [] (by simp)))) 7 (by norm_num) rfl rfl rfl
    (by simp [valText, tailText, E.pr, T.pr, F.pr, prNum, dig, optC, optS])
    (by norm_num [E.val, T.val, F.val, numVal, Nat.ofDigits])
  exact this

/-! ## C13 Grammar and evaluation of expressions -/

/-- The text of any expression evaluates to the value of the expression, and is
rejected when the expression has no value. -/
theorem C13_expression_value (tr : Str → ℚ → Option ℚ) (m : MacroMap ℚ) (e : E) (v : ℚ) :
    evalText tr m e.pr = .ok v ↔ e.val (spTr tr) m.valueMax = some v := by
  have := evalText_pr tr m e [] exprEnd_nil v
  rwa [List.append_nil] at this

/-- Same, when a closing bracket and anything else follows. -/
theorem C13_expression_value_before_close (tr : Str → ℚ → Option ℚ) (m : MacroMap ℚ) (e : E) (r : Str) (v : ℚ) :
    evalText tr m (e.pr ++ ']' :: r) = .ok v ↔ e.val (spTr tr) m.valueMax = some v :=
  evalText_pr tr m e _ (exprEnd_close r) v

/-- `7-2-1` groups to the left, `1+2*3` multiplies first. -/
example (tr : Str → ℚ → Option ℚ) (m : MacroMap ℚ) : evalText tr m c!"7-2-1" = .ok 4 := by
  have := (C13_expression_value tr m (.bin (.bin (.one (.one (.num [7] [] (by simp)))) .sub
    (.one (.num [2] [] (by simp)))) .sub (.one (.num [1] [] (by simp)))) 4).mpr (by
      norm_num [E.val, T.val, F.val, numVal, LowO.val, Nat.ofDigits])
  simpa [E.pr, T.pr, F.pr, prNum, dig, LowO.txt] using this
example (tr : Str → ℚ → Option ℚ) (m : MacroMap ℚ) : evalText tr m c!"1+2*3" = .ok 7 := by
  have := (C13_expression_value tr m (.bin (.one (.one (.num [1] [] (by simp)))) .add
    (.bin (.one (.num [2] [] (by simp))) .mul (.num [3] [] (by simp)))) 7).mpr (by
      norm_num [E.val, T.val, F.val, numVal, LowO.val, HighO.val, Nat.ofDigits])
  simpa [E.pr, T.pr, F.pr, prNum, dig, LowO.txt, HighO.txt] using this

/-! ## C14 BIN and BCD -/

/-- Digits of a number as specification digits. -/
def digitsOf (n : ℕ) : List (Fin 10) :=
  if n = 0 then [0] else (Nat.digits 10 n).reverse.map (fun d => Fin.ofNat 10 d)

theorem digitsOf_ne (n : ℕ) : digitsOf n ≠ [] := by
  unfold digitsOf; split
  · simp
  · rename_i h; simp [Nat.digits_ne_nil_iff_ne_zero.mpr h]

theorem numVal_digitsOf (n : ℕ) : numVal (digitsOf n) [] = n := by
  unfold digitsOf numVal
  split
  · rename_i h; subst h; simp
  · rw [← List.map_reverse, List.reverse_reverse, List.map_map]
    have : (Nat.digits 10 n).map (Fin.val ∘ fun d => Fin.ofNat 10 d) = Nat.digits 10 n := by
      conv_rhs => rw [← List.map_id (Nat.digits 10 n)]
      apply List.map_congr_left
      intro d hd
      have := Nat.digits_lt_base (by norm_num) hd
      simp [Nat.mod_eq_of_lt this]
    rw [this, Nat.ofDigits_digits]; simp

theorem map_dig_digitsOf (n : ℕ) : (digitsOf n).map dig = natStr n := by
  unfold digitsOf natStr
  split
  · rfl
  · rw [List.map_map]
    apply List.map_congr_left
    intro d hd
    rw [List.mem_reverse] at hd
    have := Nat.digits_lt_base (by norm_num) hd
    simp [dig, digChr, Nat.mod_eq_of_lt this]

theorem ipart_nat (n : ℕ) : ipart (n : ℚ) = n := by
  unfold ipart
  rw [if_pos (by positivity)]; simp

/-- `BIN[n]` has the decimal digits of `n` as hexadecimal digits. -/
theorem C14_bin_digits (tr : Str → ℚ → Option ℚ) (m : MacroMap ℚ) (n : ℕ) (h : n < 2 ^ 32) :
    evalText tr m (c!"BIN[" ++ natStr n ++ c!"]") = .ok ((Nat.ofDigits 16 (Nat.digits 10 n) : ℕ) : ℚ) := by
  have := (C13_expression_value tr m
    (.one (.one (.fn .BIN (.one (.one (.num (digitsOf n) [] (Or.inl (digitsOf_ne n)))))))) 
    ((Nat.ofDigits 16 (Nat.digits 10 n) : ℕ) : ℚ)).mpr (by
      have h1 : u32 (numVal (digitsOf n) []) = some (n : ℤ) := by
        simp [numVal_digitsOf, u32, ipartIn, ipart_nat]; omega
      simp [E.val, T.val, F.val, Fun.val, h1])
  simpa [E.pr, T.pr, F.pr, prNum, map_dig_digitsOf, Fun.txt] using this

/-- `BCD` undoes `BIN` for every unsigned 32 bit number. -/
theorem C14_bcd_of_bin (tr : Str → ℚ → Option ℚ) (m : MacroMap ℚ) (n : ℕ) (h : n < 2 ^ 32) :
    evalText tr m (c!"BCD[BIN[" ++ natStr n ++ c!"]]") = .ok (n : ℚ) := by
  have hd : Nat.digits 16 (Nat.ofDigits 16 (Nat.digits 10 n)) = Nat.digits 10 n := by
    apply Nat.digits_ofDigits 16 (by norm_num)
    · intro d hd; have := Nat.digits_lt_base (b := 10) (by norm_num) hd; omega
    · intro hne; exact Nat.getLast_digit_ne_zero 10 (by intro h0; subst h0; simp at hne)
  have hlt : Nat.ofDigits 16 (Nat.digits 10 n) < 16 ^ 10 := by
    have h1 : Nat.ofDigits 16 (Nat.digits 10 n) < 16 ^ (Nat.digits 10 n).length :=
      Nat.ofDigits_lt_base_pow_length (by norm_num) (fun d hd => by
        have := Nat.digits_lt_base (b := 10) (by norm_num) hd; omega)
    exact lt_of_lt_of_le h1 (Nat.pow_le_pow_right (by norm_num) (digits_len_u32 h))
  have := (C13_expression_value tr m
    (.one (.one (.fn .BCD (.one (.one (.fn .BIN (.one (.one
      (.num (digitsOf n) [] (Or.inl (digitsOf_ne n))))))))))) (n : ℚ)).mpr (by
      have h1 : u32 (numVal (digitsOf n) []) = some (n : ℤ) := by
        simp [numVal_digitsOf, u32, ipartIn, ipart_nat]; omega
      have h2 : u64 ((Nat.ofDigits 16 (Nat.digits 10 n) : ℕ) : ℚ) = some ((Nat.ofDigits 16 (Nat.digits 10 n) : ℕ) : ℤ) := by
        unfold u64 ipartIn
        rw [ipart_nat, if_pos]
        constructor
        · positivity
        · have : (16:ℕ)^10 ≤ 18446744073709551615 := by norm_num
          exact_mod_cast (by omega : Nat.ofDigits 16 (Nat.digits 10 n) ≤ 18446744073709551615)
      simp only [E.val, T.val, F.val, Fun.val, h1, Option.bind_eq_bind, Option.bind_some, Int.toNat_natCast, h2, hd,
        Nat.ofDigits_digits]
      rw [Nat.mod_eq_of_lt h])
  simpa [E.pr, T.pr, F.pr, prNum, map_dig_digitsOf, Fun.txt] using this

example : Nat.ofDigits 16 (Nat.digits 10 1234) = 0x1234 := by norm_num [Nat.ofDigits]

/-! ## C15 Ill-formed expressions -/

/-- Partial: a text is only accepted when some prefix of it is an expression.
Missing: rejection of texts with something after that prefix (`C15_violated`). -/
theorem C15_accepted_has_expression_prefix_partial (tr : Str → ℚ → Option ℚ) (m : MacroMap ℚ) (s : Str) (v : ℚ)
    (h : evalText tr m s = .ok v) : ∃ pre rest, s = pre ++ rest ∧ IsExpr pre := by
  unfold evalText at h
  cases hp : pE (fuelFor s) s with
  | ok p r =>
    obtain ⟨pre, h1, h2⟩ := (parse_txt _).1 _ _ _ hp
    exact ⟨pre, r, h1, h2⟩
  | _ => rw [hp] at h; simp at h

/-- Partial: an assignment is only accepted when what is written after the equal sign begins with an expression;
so an empty right-hand side is rejected. -/
theorem C15_accepted_assignment_partial (tr : Str → ℚ → Option ℚ) (m m' : MacroMap ℚ) (L : Int)
    (a d0 : Dec) (ds : List Dec) (n : Nat) (hn : n ≤ 2147483647)
    (hw : a.word = c!"#") (hv : a.value = some (natStr n)) (h0 : d0.word = c!"=")
    (h : evaluate tr m L (Attr.dec a :: Attr.dec d0 :: ds.map Attr.dec) = .ok m') :
    assigned d0 ds ≠ [] ∧ ∃ pre rest, assigned d0 ds = pre ++ rest ∧ IsExpr pre := by
  unfold evaluate at h
  rw [macRun_assign a d0 ds n hn hw hv h0, ← assigned_eq] at h
  dsimp only at h
  rw [if_pos (by omega)] at h
  by_cases he : assigned d0 ds = []
  · rw [if_pos he] at h; cases h
  · rw [if_neg he] at h
    refine ⟨he, ?_⟩
    cases hv : evalText tr m (assigned d0 ds) with
    | ok v => exact C15_accepted_has_expression_prefix_partial tr m _ v hv
    | throw f => rw [hv] at h; cases h
    | ub => rw [hv] at h; cases h

/-- An assignment whose right-hand side is an expression is accepted exactly if the expression has a value (no
division by zero, no variable without value). -/
theorem C15_expression_needs_value_partial (tr : Str → ℚ → Option ℚ) (m : MacroMap ℚ) (L : Int)
    (a d0 : Dec) (ds : List Dec) (n : Nat) (e : E) (hn : n ≤ 2147483647)
    (hw : a.word = c!"#") (hv : a.value = some (natStr n)) (h0 : d0.word = c!"=") (ht : assigned d0 ds = e.pr) :
    (∃ m', evaluate tr m L (Attr.dec a :: Attr.dec d0 :: ds.map Attr.dec) = .ok m') ↔
      ∃ v, e.val (spTr tr) m.valueMax = some v := by
  constructor
  · rintro ⟨m', h⟩
    unfold evaluate at h
    rw [macRun_assign a d0 ds n hn hw hv h0, ← assigned_eq, ht] at h
    dsimp only at h
    rw [if_pos (by omega), if_neg (E_head e)] at h
    cases hv : evalText tr m e.pr with
    | ok v => exact ⟨v, (C13_expression_value tr m e v).mp hv⟩
    | throw f => rw [hv] at h; cases h
    | ub => rw [hv] at h; cases h
  · rintro ⟨v, h⟩
    exact ⟨_, evaluate_assign tr m L a d0 ds n e v hn hw hv h0 ((assigned_eq d0 ds).symm.trans ht) h⟩

/-- `#1=` and `#1=1/0` are rejected. -/
example (tr : Str → ℚ → Option ℚ) : (∀ m', evaluate tr [] 1
    [.dec {word := c!"#", value := some c!"1"}, .dec {word := c!"="}] ≠ .ok m') ∧
    (∀ m', evaluate tr [] 1 [.dec {word := c!"#", value := some c!"1"}, .dec {word := c!"=", value := some c!"1"},
      .dec {word := c!"/", value := some c!"0"}] ≠ .ok m') := by
  constructor
  · intro m' h
    exact (C15_accepted_assignment_partial tr [] m' 1 {word := c!"#", value := some c!"1"} {word := c!"="} [] 1
      (by norm_num) rfl rfl rfl h).1 rfl
  · intro m' h
    obtain ⟨v, hv⟩ := (C15_expression_needs_value_partial tr [] 1 {word := c!"#", value := some c!"1"}
      {word := c!"=", value := some c!"1"} [{word := c!"/", value := some c!"0"}] 1
      (.one (.bin (.one (.num [1] [] (by simp))) .div (.num [0] [] (by simp)))) (by norm_num) rfl rfl rfl
      (by rfl)).mp ⟨m', h⟩
    norm_num [E.val, T.val, F.val, numVal, Nat.ofDigits, HighO.val] at hv
    cases hv

/-- Violated: after any expression that has a value, a stray `]` and any text
whatsoever is accepted with the value of the expression. -/
theorem C15_violated (tr : Str → ℚ → Option ℚ) (m : MacroMap ℚ) (e : E) (v : ℚ)
    (h : e.val (spTr tr) m.valueMax = some v) (garbage : Str) :
    evalText tr m (e.pr ++ ']' :: garbage) = .ok v :=
  (C13_expression_value_before_close tr m e garbage v).mpr h

/-- The block of `#1=5X7` is accepted as an assignment of 5. -/
example (tr : Str → ℚ → Option ℚ) : evaluate tr [] 1
    [.dec {word := c!"#", value := some c!"1"}, .dec {word := c!"=", value := some c!"5"},
     .dec {word := c!"X", value := some c!"7"}] = .ok [(⟨1, 1⟩, 5)] := by
  have h := evalText_pr tr [] (.one (.one (.num [5] [] (by simp)))) c!"X7"
    ⟨rfl, rfl, ⟨by decide, by decide, by decide, by decide⟩⟩ 5
  have h1 := h.mpr (by norm_num [E.val, T.val, F.val, numVal, Nat.ofDigits])
  have h2 : evalText tr [] c!"5X7" = .ok 5 := by
    simpa [E.pr, T.pr, F.pr, prNum, dig] using h1
  have h3 : macRun {} [.dec {word := c!"#", value := some c!"1"}, .dec {word := c!"=", value := some c!"5"},
     .dec {word := c!"X", value := some c!"7"}] = .ok ⟨1, true, c!"5X7"⟩ := by decide
  unfold evaluate
  rw [h3]
  simp [h2, MacroMap.emplace]

/-! ## C52 Every function of the symbol table can be evaluated -/

/-- Partial: every function name except SINH reaches an evaluation rule: the
outcome is never "unsupported function". -/
theorem C52_functions_supported_partial (tr : Str → ℚ → Option ℚ) (g : Fun) (x : ℚ) (name : Str) :
    evalFn tr (fnName g) x ≠ .throw (.badFunction name) := by
  cases g <;> simp only [fnName, evalFn] <;>
    simp only [List.cons.injEq, reduceCtorEq, and_false, false_and, if_false, Char.reduceEq, oracleNames,
      and_self, if_true, ne_eq, not_false_eq_true]
  case BCD => unfold toU64 castTo; split <;> simp
  case BIN => unfold toU32 castTo; split <;> simp
  all_goals (simp only [List.mem_cons, List.cons.injEq, Char.reduceEq, false_and, and_false, and_self, true_or, or_true, if_true, false_or]; cases tr _ x <;> simp)

/-- Violated for SINH: it is in the symbol table but every call is rejected. -/
theorem C52_violated_sinh (tr : Str → ℚ → Option ℚ) (x : ℚ) :
    (∃ e ∈ symTable, e = (c!"SINH", c!"sinh")) ∧
    evalFn tr c!"sinh" x = .throw (.badFunction c!"sinh") := by
  refine ⟨⟨_, by decide, rfl⟩, ?_⟩
  simp [evalFn, oracleNames]

/-! ## C44 Number display -/

/-- The trimmed display denotes the same number as the six-decimal display. -/
theorem C44_same_number (q : ℚ) : stod (toStringTrunc q) = stod (fixedStr 6 q) := by
  unfold toStringTrunc
  rw [fixedStr_eq, if_neg (by norm_num)]
  exact stod_truncZeros _ (natStr_isDig _) (padZeros_allDig _ _) (natStr_ne_nil _)

/-- The displayed number is within half a millionth of the value. -/
theorem C44_accuracy (q : ℚ) : ∃ d, stod (toStringTrunc q) = .ok d ∧ |d - q| ≤ 1 / 2 / 10 ^ 6 := by
  rw [C44_same_number, stod_fixedStr]
  exact ⟨_, rfl, fixed_near 6 q⟩

/-- No trailing zero after the dot and no trailing dot remain. -/
theorem C44_no_trailing (q : ℚ) : '.' ∉ toStringTrunc q ∨
    ((toStringTrunc q).getLast? ≠ some '0' ∧ (toStringTrunc q).getLast? ≠ some '.') := by
  unfold toStringTrunc
  rw [fixedStr_eq, if_neg (by norm_num)]
  have hdot : '.' ∉ minus (decide (q < 0)) ++ natStr (scaled 6 q / 10 ^ 6) := by
    intro h
    rcases List.mem_append.mp h with h | h
    · unfold minus at h; split at h <;> simp at h
    · have := natStr_isDig _ _ h; revert this; decide
  rw [← List.append_assoc, truncZeros_frac hdot]
  split
  · left; exact hdot
  · rename_i hne
    right
    have hd := allDig_rstrip (padZeros_allDig 6 (scaled 6 q % 10 ^ 6))
    have hl := rstrip0_last (padZeros 6 (scaled 6 q % 10 ^ 6))
    generalize rstrip0 (padZeros 6 (scaled 6 q % 10 ^ 6)) = f at *
    have : ∀ (a : Str), (a ++ '.' :: f).getLast? = f.getLast? := by
      intro a
      cases f with
      | nil => exact absurd rfl hne
      | cons c f => simp [List.getLast?_append, List.getLast?_cons]
    rw [this]
    refine ⟨hl, fun h => ?_⟩
    have := hd '.' (List.mem_of_getLast? h)
    revert this; decide

example : toStringTrunc (5/2) = c!"2.5" := by
  have : scaled 6 (5/2) = 2500000 := by
    unfold scaled
    rw [show |(5/2 : ℚ)| * 10 ^ 6 = ((2500000 : ℤ) : ℚ) by norm_num [abs_of_pos], roundEven_int]; rfl
  unfold toStringTrunc
  rw [fixedStr_eq, this, show decide ((5/2 : ℚ) < 0) = false from by norm_num]
  norm_num [minus, natStr, padZeros]
  rfl

/-! ## C49 System variables -/

/-- The system variables of each address (Fanuc: current, 43xx, 45xx banks). -/
def sysOf : Str → List Nat
  | ['B'] => [4102, 4302, 4502] | ['D'] => [4107, 4307, 4507] | ['E'] => [4108, 4308, 4508]
  | ['F'] => [4109, 4309, 4509] | ['H'] => [4111, 4311, 4511] | ['M'] => [4113, 4313, 4513]
  | ['N'] => [4114, 4314, 4514] | ['O'] => [4115, 4315, 4515] | ['S'] => [4119, 4319, 4519]
  | _ => []

theorem idsOf_eq (w : Str) : idsOf w = sysOf w := by
  unfold idsOf sysVars
  have h1 : ∀ c d : Char, (([c] : Str) == [d]) = (c == d) := by intro c d; simp
  match w with
  | [] => rfl
  | [c] =>
    by_cases hB : c = 'B'; · subst hB; rfl
    by_cases hD : c = 'D'; · subst hD; rfl
    by_cases hE : c = 'E'; · subst hE; rfl
    by_cases hF : c = 'F'; · subst hF; rfl
    by_cases hH : c = 'H'; · subst hH; rfl
    by_cases hM : c = 'M'; · subst hM; rfl
    by_cases hN : c = 'N'; · subst hN; rfl
    by_cases hO : c = 'O'; · subst hO; rfl
    by_cases hS : c = 'S'; · subst hS; rfl
    have : ∀ d : Char, c ≠ d → (([d] : Str) == [c]) = false := by
      intro d h; simp; exact fun hh => h hh.symm
    simp only [List.find?_cons, this _ hB, this _ hD, this _ hE, this _ hF, this _ hH, this _ hM,
      this _ hN, this _ hO, this _ hS, List.find?_nil]
    simp [sysOf, hB, hD, hE, hF, hH, hM, hN, hO, hS]
  | c :: d :: r => simp [sysOf]

/-- The number programmed by a plain word: sign, digits, optional decimals. -/
def plainDec (w : Str) (neg : Bool) (ip fp : List (Fin 10)) : Dec :=
  { word := w, sign := if neg then some '-' else none, value := some (ip.map dig),
    dot := if fp = [] then none else some '.', value2 := if fp = [] then none else some (fp.map dig) }

theorem plainText_plainDec (w : Str) (neg : Bool) (ip fp : List (Fin 10)) :
    plainText (plainDec w neg ip fp) = (if neg then ['-'] else []) ++ prNum ip fp := by
  unfold plainText plainDec prNum
  by_cases h : fp = [] <;> cases neg <;> simp [h, optC, optS]

/-- After a line, the system variables of an address hold the value of the last
such word of the line. -/
theorem C49_last_word_value (L : Int) (m m' : MacroMap ℚ) (hs : m.Sorted) (pre post : Block)
    (w : Str) (neg : Bool) (ip fp : List (Fin 10)) (hne : ip ≠ [] ∨ fp ≠ [])
    (hlast : ∀ d, Attr.dec d ∈ post → d.word ≠ w)
    (h : sysRun L m (pre ++ Attr.dec (plainDec w neg ip fp) :: post) = .ok m')
    (id : Nat) (hid : id ∈ sysOf w) :
    m'.valueAt id L = some (if neg then - numVal ip fp else numVal ip fp) := by
  rw [sysRun_append, Out.bind_eq_ok] at h
  obtain ⟨m1, h1, h2⟩ := h
  rw [sysRun, Out.bind_eq_ok] at h2
  obtain ⟨m2, h3, h4⟩ := h2
  have hs1 := sysRun_sorted hs h1
  have hsp := sysStep_spec hs1 h3
  have hw : (plainDec w neg ip fp).word = w := rfl
  rw [hw, idsOf_eq] at hsp
  obtain ⟨v, hv, hg⟩ := (hsp.2 ⟨id, L⟩).1 ⟨rfl, hid⟩
  rw [plainText_plainDec, stod_num neg ip fp hne] at hv
  simp only [Out.ok.injEq] at hv
  apply MacroMap.valueAt_of_get (sysRun_sorted hsp.1 h4)
  rw [sysRun_frame hsp.1 h4 ⟨id, L⟩ (Or.inr ?_), hg, hv]
  intro d hd hmem
  apply hlast d hd
  exact idsOf_disjoint hmem (by rw [idsOf_eq]; exact hid)

/-- Variables of addresses that do not occur on the line, and values of other
lines, are unchanged. -/
theorem C49_others_unchanged (L : Int) (m m' : MacroMap ℚ) (hs : m.Sorted) (b : Block)
    (h : sysRun L m b = .ok m') (id : Nat) (l : Int)
    (hk : l ≠ L ∨ ∀ d, Attr.dec d ∈ b → id ∉ sysOf d.word) : m'.get ⟨id, l⟩ = m.get ⟨id, l⟩ := by
  apply sysRun_frame hs h
  rcases hk with hk | hk
  · exact Or.inl hk
  · right; intro d hd; rw [idsOf_eq]; exact hk d hd

/-- A line whose B D E F H M N O S words are all plain numbers is never rejected here. -/
theorem C49_accepts (L : Int) (b : Block) : ∀ (m : MacroMap ℚ),
    (∀ d, Attr.dec d ∈ b → sysOf d.word ≠ [] → ∃ neg ip fp, (ip ≠ [] ∨ fp ≠ []) ∧ d = plainDec d.word neg ip fp) →
    ∃ m', sysRun L m b = .ok m' := by
  induction b with
  | nil => intro m _; exact ⟨m, rfl⟩
  | cons a b ih =>
    intro m h
    have hb := fun d hd => h d (List.mem_cons_of_mem a hd)
    cases a with
    | dec d =>
      rw [sysRun, sysStep_dec, idsOf_eq]
      by_cases h0 : sysOf d.word = []
      · rw [if_pos h0]; exact ih m hb
      · obtain ⟨neg, ip, fp, hne, hd⟩ := h d (by simp) h0
        rw [if_neg h0, hd, plainText_plainDec, stod_num neg ip fp hne]
        exact ih _ hb
    | str w v => exact ih m hb
    | chr w v => exact ih m hb

/-- Not covered by `C49_accepts`: a word such as `M` without a value ends in an
uncaught exception. -/
theorem C49_missing_value_throws (L : Int) (m : MacroMap ℚ) :
    sysRun L m [.dec { word := c!"M" }] = .throw .invalidArgument := by
  rfl

example : sysRun 3 [] [.dec (plainDec c!"M" false [3] []), .dec (plainDec c!"S" false [1,0,0] []),
    .dec (plainDec c!"M" false [8] [])] ≠ .throw .invalidArgument := by
  obtain ⟨m', h⟩ := C49_accepts 3 [.dec (plainDec c!"M" false [3] []), .dec (plainDec c!"S" false [1,0,0] []),
    .dec (plainDec c!"M" false [8] [])] [] (by
      intro d hd _
      simp only [List.mem_cons, Attr.dec.injEq, List.not_mem_nil, or_false] at hd
      rcases hd with rfl | rfl | rfl
      · exact ⟨false, [3], [], by simp, rfl⟩
      · exact ⟨false, [1,0,0], [], by simp, rfl⟩
      · exact ⟨false, [8], [], by simp, rfl⟩)
  rw [h]; simp

/-! ## C50 Macro substitution -/

/-- A word as it is written, with the variable's value in place of `#n`. -/
def writtenWith (val : Str → Option Str) (d : Dec) : Option Str :=
  match d.mac, d.value with
  | some _, some v => (val v).map (fun t => d.word ++ optC d.sign ++ optS d.openB ++ t ++ optS d.closeB)
  | some _, none => none
  | none, _ => some (d.word ++ optC d.sign ++ optS d.openB ++ optS d.value ++ optC d.dot ++ optS d.value2 ++
      optS d.closeB)

/-- A line written word by word. -/
def lineWith (val : Str → Option Str) : List Dec → Option Str
  | [] => some []
  | d :: ds => do let a ← writtenWith val d; let b ← lineWith val ds; some (a ++ b)

/-- Text of the value in effect of the variable numbered by a digit string. -/
def effText (m : MacroMap ℚ) (L : Int) (v : Str) : Option Str :=
  (m.valueAt (readNat v) L).map toStringTrunc

theorem subRun_ok (ops : List Str) (m : MacroMap ℚ) (L : Int) (ds : List Dec) : ∀ (st : SubSt),
    (∀ d ∈ ds, d.mac.isSome → ∃ v, d.value = some v ∧ AllDig v ∧ v ≠ [] ∧ readNat v ≤ 2147483647) →
    st.interesting = true → ∀ t, lineWith (effText m L) ds = some t →
    subRun ops m L st (ds.map Attr.dec) = .ok ⟨st.modified || ds.any (·.mac.isSome), true, st.text ++ t⟩ := by
  induction ds with
  | nil =>
    intro st _ hi t ht
    simp [lineWith] at ht
    obtain ⟨a, b, c⟩ := st
    simp [subRun, ← ht] at hi ⊢; exact hi
  | cons d ds ih =>
    intro st hd hi t ht
    simp only [lineWith, Option.bind_eq_bind, Option.bind_eq_some_iff, Option.some.injEq] at ht
    obtain ⟨a, ha, b, hb, rfl⟩ := ht
    have hds := fun d' hd' => hd d' (List.mem_cons_of_mem d hd')
    rw [List.map_cons, subRun]
    cases hm : d.mac with
    | none =>
      have hst : subStep ops m L st (.dec d) = .ok ⟨st.modified, true, st.text ++ a⟩ := by
        simp only [writtenWith, hm] at ha
        simp only [subStep, hi, hm, Bool.true_or, Option.isSome_none, Bool.and_false]
        simp only [Option.some.injEq] at ha
        rw [← ha]; simp
      rw [hst, Out.bind_ok, ih _ hds rfl b hb]
      simp [hm]
    | some mc =>
      obtain ⟨v, hv, hdig, hne, hle⟩ := hd d (by simp) (by simp [hm])
      have hst : subStep ops m L st (.dec d) = .ok ⟨true, true, st.text ++ a⟩ := by
        simp only [writtenWith, hm, hv, effText, Option.map_map] at ha
        simp only [subStep, hi, hm, hv, Bool.true_or, Option.isSome_some, Bool.and_true, if_true,
          stoi_digits hdig hne hle, Int.toNat_natCast]
        cases hval : m.valueAt (readNat v) L with
        | none => simp [hval] at ha
        | some q =>
          simp only [hval, Option.map_some, Option.some.injEq, Function.comp] at ha
          rw [← ha]; simp
      rw [hst, Out.bind_ok, ih _ hds rfl b hb]
      simp [hm]

/-- Partial: on a line that starts with an ordinary word (not `#`, `=`, `N`,
`GOTO`, an operator ...), the evaluated code is the line with every macro
replaced by the value in effect; it is empty (meaning: unchanged) when there is
no macro on the line.
Missing: lines on which a macro precedes the first ordinary word (`C50_violated`). -/
theorem C50_substitution_partial (ops : List Str) (m : MacroMap ℚ) (L : Int) (d : Dec) (ds : List Dec) (t : Str)
    (hw : d.word ∉ [c!"#", c!"=", c!"+", c!"-", c!"*", c!"/", c!":", c!"N", c!"GOTO"] ∧ d.word ∉ ops)
    (hval : ∀ d' ∈ d :: ds, d'.mac.isSome → ∃ v, d'.value = some v ∧ AllDig v ∧ v ≠ [] ∧ readNat v ≤ 2147483647)
    (ht : lineWith (effText m L) (d :: ds) = some t) :
    substitute ops m L ((d :: ds).map Attr.dec) =
      .ok (if ∃ d' ∈ d :: ds, d'.mac.isSome then t else []) := by
  have hfirst : subRun ops m L {} ((d :: ds).map Attr.dec) =
      subRun ops m L { interesting := true } ((d :: ds).map Attr.dec) := by
    rw [List.map_cons, subRun, subRun]
    have h1 : plainWords.contains d.word = false := by
      rw [Bool.eq_false_iff]; simp only [ne_eq, List.contains_iff_mem]; exact hw.1
    have h2 : ops.contains d.word = false := by
      rw [Bool.eq_false_iff]; simp only [ne_eq, List.contains_iff_mem]; exact hw.2
    have : subStep ops m L {} (.dec d) = subStep ops m L { interesting := true } (.dec d) := by
      simp only [subStep, h1, h2]; simp
    rw [this]
  unfold substitute
  rw [hfirst, subRun_ok ops m L (d :: ds) _ hval rfl t ht]
  simp only [Out.bind_ok, Bool.false_or, List.nil_append, Out.ok.injEq]
  by_cases h : ∃ d' ∈ d :: ds, d'.mac.isSome
  · rw [if_pos h, if_pos]
    exact List.any_eq_true.mpr h
  · rw [if_neg h, if_neg]
    intro h'; exact h (List.any_eq_true.mp h')

/-- A missing variable is reported, not substituted. -/
theorem C50_missing_reported (ops : List Str) (m : MacroMap ℚ) (L : Int) (d : Dec) (ds : List Dec) (mc v : Str)
    (hw : d.word ∉ [c!"#", c!"=", c!"+", c!"-", c!"*", c!"/", c!":", c!"N", c!"GOTO"] ∧ d.word ∉ ops)
    (hm : d.mac = some mc) (hv : d.value = some v) (hdig : AllDig v) (hne : v ≠ [])
    (hle : readNat v ≤ 2147483647) (hmiss : m.valueAt (readNat v) L = none) :
    substitute ops m L ((d :: ds).map Attr.dec) = .throw (.missing v) := by
  have h1 : plainWords.contains d.word = false := by
    rw [Bool.eq_false_iff]; simp only [ne_eq, List.contains_iff_mem]; exact hw.1
  have h2 : ops.contains d.word = false := by
    rw [Bool.eq_false_iff]; simp only [ne_eq, List.contains_iff_mem]; exact hw.2
  have hst : subStep ops m L {} (.dec d) = .throw (.missing v) := by
    simp only [subStep, h1, h2, hm, hv, Bool.not_false, Bool.and_self, Bool.or_true, Option.isSome_some, if_true,
      stoi_digits hdig hne hle, Int.toNat_natCast, hmiss]
  simp [substitute, subRun, hst]

/-- Violated: in `N#5 X#6` with #5 = 70 and #6 = 1, the block number becomes 5, not 70. -/
theorem C50_violated : substitute [] [(⟨6, 1⟩, 1), (⟨5, 1⟩, 70)] 1
    [.dec { word := c!"N", mac := some c!"#", value := some c!"5" },
     .dec { word := c!"X", mac := some c!"#", value := some c!"6" }] = .ok c!"N5X1" := by
  have : toStringTrunc 1 = c!"1" := by
    have : scaled 6 1 = 1000000 := by
      unfold scaled
      rw [show |(1 : ℚ)| * 10 ^ 6 = ((1000000 : ℤ) : ℚ) by norm_num, roundEven_int]; rfl
    unfold toStringTrunc
    rw [fixedStr_eq, this, show decide ((1 : ℚ) < 0) = false from by norm_num]
    norm_num [minus, natStr, padZeros]
    rfl
  have h1 : MacroMap.valueAt ([(⟨6, 1⟩, 1), (⟨5, 1⟩, 70)] : MacroMap ℚ) 6 1 = some 1 := rfl
  have h5 : stoi c!"6" = .ok 6 := by decide
  simp [substitute, subRun, subStep, plainWords, h5, h1, this, optC, optS]

-- X#6 Y2. with #6 = 1
example : substitute [] [(⟨6, 1⟩, 1)] 1
    [.dec { word := c!"X", mac := some c!"#", value := some c!"6" },
     .dec { word := c!"Y", value := some c!"2", dot := some '.' }] =
    .ok (c!"X" ++ toStringTrunc 1 ++ c!"Y2.") := by
  have := C50_substitution_partial [] [(⟨6, 1⟩, 1)] 1 { word := c!"X", mac := some c!"#", value := some c!"6" }
    [{ word := c!"Y", value := some c!"2", dot := some '.' }] (c!"X" ++ toStringTrunc 1 ++ c!"Y2.")
    (by decide) (by
      intro d' hd' hm
      simp only [List.mem_cons, List.not_mem_nil, or_false] at hd'
      rcases hd' with rfl | rfl
      · exact ⟨c!"6", rfl, by intro c hc; simp at hc; subst hc; decide, by simp, by decide⟩
      · simp at hm)
    (by
      have : effText [(⟨6, 1⟩, 1)] 1 c!"6" = some (toStringTrunc 1) := rfl
      simp [lineWith, writtenWith, this, optC, optS])
  simpa using this

end NC.Props
