import Verif.LinesProofs
import Verif.Message

/-!
# Lines, diagnostics and times: C06, C07, C43
-/

namespace NC.Props
open NC NC.Srv NC.Spec.Lines

/-! ## C07 -/

/-- C07: the lines hover positions refer to are the lines of the document, for
every text. -/
theorem C07_document_lines (text : Str) (ls : List Str) : IsLines text ls ↔ contentLines text = ls := by
  rw [isLines_iff]; exact eq_comm

/-- C07: the lines the checker numbers are the same lines, in the same order,
each without its trailing white space. -/
theorem C07_checked_lines (text : Str) :
    List.Forall₂ TrimmedEnd (contentLines text) (splitLines text) := by
  rw [splitLines_eq]
  induction contentLines text with
  | nil => exact .nil
  | cons l ls ih => exact .cons (rtrim_trimmed l) ih

/-- C07: in particular line `i` of the checker is line `i` of the document. -/
theorem C07_same_line (text : Str) (i : Nat) (l : Str) :
    (contentLines text)[i]? = some l → ∃ t, (splitLines text)[i]? = some t ∧ TrimmedEnd l t := by
  intro h
  refine ⟨rtrim l, ?_, rtrim_trimmed l⟩
  rw [splitLines_eq, List.getElem?_map, h]; rfl

example : contentLines c!"G1 X1 \r\n\r\n Y2\n\nM30" = [c!"G1 X1 \r", c!"\r", c!" Y2", c!"", c!"M30"] ∧
    splitLines c!"G1 X1 \r\n\r\n Y2\n\nM30" = [c!"G1 X1", c!"", c!" Y2", c!"", c!"M30"] := by decide

/-! ## C06 -/

/-- C06: whatever the line parser answers, there is exactly one message per
rejected line, in line order, made from that line's number, text and message. -/
theorem C06_messages {ε σ : Type} (ck : σ → Nat → Str → Out ε (σ × Bool × Str)) (s : σ) (code : Str)
    (s' : σ) (ms : List Str) :
    check ck s code = .ok (s', ms) ↔
      ∃ rs, Rejects ck s 0 (splitLines code) s' rs ∧ ms = rs.map (fun r => reword (r.1 + 1) r.2.1 r.2.2) :=
  checkFrom_iff ck _ s 0 s' ms

theorem diags_calm {ε : Type} : ∀ (rs : List (Nat × Str × Str)),
    (∀ r ∈ rs, r.1 + 1 ≤ 2147483647 ∧ Calm r.2.1 r.2.2) →
    ∃ ds, diagsOf (ε := ε) (rs.map (fun r => reword (r.1 + 1) r.2.1 r.2.2)) = .ok ds ∧
      List.Forall₂ (fun r d => d.line = (r.1 : Int) ∧ Says r.2.1 r.2.2 d.character d.message) rs ds := by
  intro rs
  induction rs with
  | nil => intro _; exact ⟨[], rfl, .nil⟩
  | cons r rs ih =>
    intro h
    obtain ⟨ds, h1, h2⟩ := ih (fun x hx => h x (by simp [hx]))
    obtain ⟨hn, hc⟩ := h r (by simp)
    obtain ⟨d, h3, h4⟩ := diag_calm (ε := ε) hn hc
    refine ⟨d :: ds, ?_, .cons h4 h2⟩
    simp only [List.map_cons, diagsOf, h3, h1, Out.bind_ok]
    rfl

/-- C06 (part): if the messages of the rejected lines contain no further colon
and no text `line 1` (see `Calm`), the published diagnostics are one per
rejected line, in order, on that line, with the parser's column and text.
Missing: messages with a colon or with `line 1`, where the claim is false. -/
theorem C06_diagnostics_partial {ε σ : Type} (ck : σ → Nat → Str → Out ε (σ × Bool × Str)) (s : σ) (code : Str)
    (s' : σ) (ms : List Str) (hck : check ck s code = .ok (s', ms)) (rs : List (Nat × Str × Str))
    (hrs : Rejects ck s 0 (splitLines code) s' rs)
    (hcalm : ∀ r ∈ rs, r.1 + 1 ≤ 2147483647 ∧ Calm r.2.1 r.2.2) :
    ∃ ds, diagsOf (ε := ε) ms = .ok ds ∧
      List.Forall₂ (fun r d => d.line = (r.1 : Int) ∧ Says r.2.1 r.2.2 d.character d.message) rs ds := by
  have hd : ∀ {s n ls s' rs}, Rejects ck s n ls s' rs → ∀ {s'' rs'}, Rejects ck s n ls s'' rs' → rs = rs' := by
    intro s n ls s' rs h
    induction h with
    | done => intro s'' rs' h'; cases h'; rfl
    | blank _ ih =>
      intro s'' rs' h'
      cases h' with
      | blank h' => exact ih h'
      | accepted hn _ _ => exact absurd rfl hn
      | rejected hn _ _ => exact absurd rfl hn
    | accepted hn h1 _ ih =>
      intro s'' rs' h'
      cases h' with
      | blank _ => exact absurd rfl hn
      | accepted _ h2 h' => rw [h1] at h2; cases h2; exact ih h'
      | rejected _ h2 h' => rw [h1] at h2; cases h2
    | rejected hn h1 _ ih =>
      intro s'' rs' h'
      cases h' with
      | blank _ => exact absurd rfl hn
      | accepted _ h2 h' => rw [h1] at h2; cases h2
      | rejected _ h2 h' => rw [h1] at h2; cases h2; rw [ih h']
  obtain ⟨rs', h1, h2⟩ := (C06_messages ck s code s' ms).mp hck
  rw [← hd hrs h1] at h2
  rw [h2]
  exact diags_calm rs hcalm

/-- A line parser that rejects lines starting with `Q`. -/
def demoCheck (_ : Unit) (_ : Nat) (l : Str) : Out Empty (Unit × Bool × Str) :=
  .ok ((), l.head? ≠ some 'Q', if l = c!"Q" then [] else c!"1:2: no such word")

example : Rejects demoCheck () 0 (splitLines c!"G1\n\nQ 1\nX1\nQ") () [(2, c!"Q 1", c!"1:2: no such word"), (4, c!"Q", [])] ∧
    Calm c!"Q 1" c!"1:2: no such word" ∧ Calm c!"Q" [] := by
  refine ⟨?_, ?_, .silent (by decide)⟩
  · have : splitLines c!"G1\n\nQ 1\nX1\nQ" = [c!"G1", [], c!"Q 1", c!"X1", c!"Q"] := by decide
    rw [this]
    exact .accepted (by simp) rfl (.blank (.rejected (by simp) rfl (.accepted (by simp) rfl (.rejected (by simp) rfl (.done _ _)))))
  · exact .placed (ds := c!"2") (rest := c!" no such word") (by simp) (by decide) (by decide) (by decide) (by decide)
      ⟨'n', by decide, by decide⟩ (by decide)

/-- C06 fails for messages with a colon: of the message `Unsupported operation: `
followed by an operator, only the operator is shown, on every line. -/
theorem C06_violated_colon (n : Nat) (hn : n + 1 ≤ 2147483647) (op : Char) (ho : op ≠ ':') (hsp : isSp op = false)
    (l msg : Str) (hm : msg = c!"Unsupported operation: " ++ [op]) :
    diagOf (ε := Empty) (reword (n + 1) l msg) = .ok (some ⟨n, 0, [op]⟩) := by
  have hi : ¬ c!"line 1" <:+: msg := by
    rw [hm]
    intro q
    simp only [List.infix_cons_iff, List.cons_append, List.nil_append, List.cons_prefix_cons] at q
    simp at q
  have hr : reword (n + 1) l msg = natStr (n + 1) ++ ':' :: (c!" Unsupported operation" ++ ':' :: [' ', op]) := by
    unfold reword
    rw [cutAt_none (by simp) hi, hm]
    simp
  have hp : pieces ':' (reword (n + 1) l msg) = [natStr (n + 1), c!" Unsupported operation", [' ', op]] := by
    rw [hr, pieces, piecesFrom_delim _ _ _ _ (colon_not_dig (natStr_isDig _)), piecesFrom_delim _ _ _ _ (by decide),
      piecesFrom_last _ _ _ (by simp [ho.symm]) (by simp)]
    rfl
  have ht : trim [' ', op] = [op] := by
    rw [trim_space]; simp [trim, hsp]
  unfold diagOf
  rw [hp]
  simp only [List.map_cons, List.map_nil, trim_digits (natStr_isDig _), atoi_natStr hn, lower_succ, ht]
  rw [show lower (atoi (trim c!" Unsupported operation")) = 0 by decide]
  rw [if_pos (Or.inr (Or.inr (by simp)))]

/-- The message in question is what the parser says about an unknown operator. -/
example : Message.makeMessage .UnsupportedOperation (.known .English) [c!"^"] =
    .ok (c!"Unsupported operation: " ++ ['^']) := by decide

/-- C06 fails for messages with the text `line 1` (e.g. quoted from a comment of
the rejected line): the diagnostic is put on the first line of the document. -/
theorem C06_violated_line_one (n : Nat) (l : Str) :
    ∃ d, diagOf (ε := Empty) (reword (n + 1) l c!"1:3: (line 1)?") = .ok (some d) ∧ d.line = 0 := by
  have hr : reword (n + 1) l c!"1:3: (line 1)?" = c!"1" ++ ':' :: (c!"3" ++ ':' :: (c!" (line " ++ natStr (n + 1) ++ c!")?")) := by
    have hc : cutAt c!"line 1" c!"1:3: (line 1)?" = some (c!"1:3: (", c!")?") := by decide
    unfold reword
    rw [hc]
    simp
  have hcol : ':' ∉ c!" (line " ++ natStr (n + 1) ++ c!")?" := by
    have := colon_not_dig (natStr_isDig (n + 1))
    simp [this]
  have hp : pieces ':' (reword (n + 1) l c!"1:3: (line 1)?") = [c!"1", c!"3", c!" (line " ++ natStr (n + 1) ++ c!")?"] := by
    rw [hr, pieces, piecesFrom_delim _ _ _ _ (by decide), piecesFrom_delim _ _ _ _ (by decide),
      piecesFrom_last _ _ _ hcol (by simp)]
    rfl
  refine ⟨⟨0, 2, trim (c!" (line " ++ natStr (n + 1) ++ c!")?")⟩, ?_, rfl⟩
  unfold diagOf
  rw [hp]
  simp only [List.map_cons, List.map_nil]
  rw [show lower (atoi (trim c!"1")) = 0 by decide, show lower (atoi (trim c!"3")) = 2 by decide]
  rw [if_pos (Or.inr (Or.inl (by simp)))]

/-! ## C43 -/

/-- The nearest number of milliseconds. -/
theorem roundAway_near (q : ℚ) : |(roundAway q : ℚ) - q| ≤ 1 / 2 := by
  unfold roundAway
  split
  · have h1 := Int.floor_le (-q + 1 / 2)
    have h2 := Int.lt_floor_add_one (-q + 1 / 2)
    rw [abs_le]; push_cast; constructor <;> linarith
  · have h1 := Int.floor_le (q + 1 / 2)
    have h2 := Int.lt_floor_add_one (q + 1 / 2)
    rw [abs_le]; constructor <;> linarith

/-- C43: for every time whose milliseconds fit 63 bits the text is a proper
clock text (two-digit minutes and seconds below sixty, three decimals, nothing
cut off by the buffer) that denotes the nearest number of milliseconds, halves
away from zero. -/
theorem C43_time (x : ℚ) (hx : |x * 1000| ≤ 9223372036854775807 - 1) :
    ∃ k : Clock, k.Proper ∧ formatTime x = k.text ∧ (formatTime x).length ≤ 31 ∧
      |(k.value : ℚ) - x * 1000| ≤ 1 / 2 ∧
      (|(k.value : ℚ) - x * 1000| = 1 / 2 → |x * 1000| < |(k.value : ℚ)|) := by
  set ms := roundAway (x * 1000) with hms
  have hnear := roundAway_near (x * 1000)
  rw [← hms] at hnear
  have hbig : ms.natAbs ≤ 9223372036854775807 := by
    have h1 : |(ms : ℚ)| ≤ 9223372036854775807 := by
      have := abs_sub_abs_le_abs_sub (ms : ℚ) (x * 1000)
      linarith
    have h2 : |(ms : ℚ)| = ((ms.natAbs : ℕ) : ℚ) := by
      rw [Nat.cast_natAbs, Int.cast_abs]
    rw [h2] at h1
    exact_mod_cast h1
  have htie : |(ms : ℚ) - x * 1000| = 1 / 2 → |x * 1000| < |(ms : ℚ)| := by
    intro h
    rw [hms] at h ⊢
    unfold roundAway at h ⊢
    split at h
    · rename_i hneg
      rw [if_pos hneg]
      push_cast at h ⊢
      have h1 := Int.floor_le (-(x * 1000) + 1 / 2)
      have h2 := Int.lt_floor_add_one (-(x * 1000) + 1 / 2)
      have hle : (-(⌊-(x * 1000) + 1 / 2⌋ : ℚ)) - x * 1000 < 1 / 2 := by linarith
      rcases abs_eq (by norm_num : (0 : ℚ) ≤ 1 / 2) |>.mp h with h | h
      · linarith
      · rw [abs_of_neg hneg, abs_of_neg (by linarith)]; linarith
    · rename_i hpos
      rw [if_neg hpos]
      have h1 := Int.floor_le (x * 1000 + 1 / 2)
      have h2 := Int.lt_floor_add_one (x * 1000 + 1 / 2)
      rcases abs_eq (by norm_num : (0 : ℚ) ≤ 1 / 2) |>.mp h with h | h
      · rw [abs_of_nonneg (not_lt.mp hpos), abs_of_nonneg (by linarith)]; linarith
      · linarith
  set a := ms.natAbs with ha
  have hm60 : a / (1000 * 60) % 60 < 60 := Nat.mod_lt _ (by norm_num)
  have hs60 : a / 1000 % 60 < 60 := Nat.mod_lt _ (by norm_num)
  have hk : a % 1000 < 1000 := Nat.mod_lt _ (by norm_num)
  have lm : (padZeros 2 (a / (1000 * 60) % 60)).length = 2 := padZeros_length (by omega) (by omega)
  have ls : (padZeros 2 (a / 1000 % 60)).length = 2 := padZeros_length (by omega) (by omega)
  have lk : (padZeros 3 (a % 1000)).length = 3 := padZeros_length (by omega) (by omega)
  have dm := padZeros_allDig 2 (a / (1000 * 60) % 60)
  have ds := padZeros_allDig 2 (a / 1000 % 60)
  have dk := padZeros_allDig 3 (a % 1000)
  have rm := readNat_padZeros 2 (a / (1000 * 60) % 60)
  have rs := readNat_padZeros 2 (a / 1000 % 60)
  have rk := readNat_padZeros 3 (a % 1000)
  have hsign : ms = (if decide (ms < 0) = true then -1 else 1) * (a : Int) := by
    by_cases h : ms < 0
    · rw [if_pos (by simpa using h)]; omega
    · rw [if_neg (by simpa using h)]; omega
  by_cases hh : 0 < a / (1000 * 60 * 60)
  · let k : Clock := ⟨decide (ms < 0), some (natStr (a / (1000 * 60 * 60))), padZeros 2 (a / (1000 * 60) % 60),
      padZeros 2 (a / 1000 % 60), padZeros 3 (a % 1000)⟩
    have hval : k.value = ms := by
      show (if decide (ms < 0) = true then (-1 : Int) else 1) *
        ((((((some (natStr (a / (1000 * 60 * 60)))).map readNat).getD 0 * 60 + readNat (padZeros 2 (a / (1000 * 60) % 60))) * 60 +
          readNat (padZeros 2 (a / 1000 % 60))) * 1000 + readNat (padZeros 3 (a % 1000)) : Nat) : Int) = ms
      rw [rm, rs, rk, Option.map_some, Option.getD_some, readNat_natStr]
      rw [show (((a / (1000 * 60 * 60)) * 60 + a / (1000 * 60) % 60) * 60 + a / 1000 % 60) * 1000 + a % 1000 = a by omega]
      exact hsign.symm
    have hlen : (natStr (a / 3600000)).length ≤ 13 := natStr_length_le (by omega) (by omega)
    have htext : formatTime x = k.text.take 31 := by
      unfold formatTime
      simp only [← hms, ← ha]
      rw [if_pos hh]
      by_cases h : ms < 0 <;> simp [Clock.text, k, h]
    have hlt : k.text.length ≤ 31 := by
      by_cases h : ms < 0 <;> simp [Clock.text, k, h, lm, ls, lk] <;> omega
    rw [List.take_of_length_le hlt] at htext
    refine ⟨k, ⟨?_, ?_, ?_, ?_, lk, ?_⟩, htext, by rw [htext]; exact hlt, by rw [hval]; exact hnear,
      by rw [hval]; exact htie⟩
    · intro c hc
      simp only [k, Option.getD_some, List.mem_append] at hc
      rcases hc with ((hc | hc) | hc) | hc
      · exact natStr_isDig _ c hc
      · exact dm c hc
      · exact ds c hc
      · exact dk c hc
    · intro h hh'
      simp only [k, Option.some.injEq] at hh'
      rw [← hh', readNat_natStr]; exact hh
    · exact ⟨by show readNat (padZeros 2 _) < 60; rw [rm]; exact hm60, fun _ => lm, padZeros_ne_nil _ _⟩
    · exact ⟨by show readNat (padZeros 2 _) < 60; rw [rs]; exact hs60, ls⟩
    · intro hneg
      rw [hval]
      simp only [k, decide_eq_true_eq] at hneg
      omega
  · let k : Clock := ⟨decide (ms < 0), none, natStr (a / (1000 * 60) % 60),
      padZeros 2 (a / 1000 % 60), padZeros 3 (a % 1000)⟩
    have hval : k.value = ms := by
      show (if decide (ms < 0) = true then (-1 : Int) else 1) *
        ((((((none : Option Str).map readNat).getD 0 * 60 + readNat (natStr (a / (1000 * 60) % 60))) * 60 +
          readNat (padZeros 2 (a / 1000 % 60))) * 1000 + readNat (padZeros 3 (a % 1000)) : Nat) : Int) = ms
      rw [rs, rk, Option.map_none, Option.getD_none, readNat_natStr]
      rw [show ((0 * 60 + a / (1000 * 60) % 60) * 60 + a / 1000 % 60) * 1000 + a % 1000 = a by omega]
      exact hsign.symm
    have hlen : (natStr (a / 60000 % 60)).length ≤ 2 := natStr_length_le (by omega) (by omega)
    have htext : formatTime x = k.text.take 31 := by
      unfold formatTime
      simp only [← hms, ← ha]
      rw [if_neg hh]
      by_cases h : ms < 0 <;> simp [Clock.text, k, h]
    have hlt : k.text.length ≤ 31 := by
      by_cases h : ms < 0 <;> simp [Clock.text, k, h, ls, lk] <;> omega
    rw [List.take_of_length_le hlt] at htext
    refine ⟨k, ⟨?_, ?_, ?_, ?_, lk, ?_⟩, htext, by rw [htext]; exact hlt, by rw [hval]; exact hnear,
      by rw [hval]; exact htie⟩
    · intro c hc
      simp only [k, Option.getD_none, List.nil_append, List.mem_append] at hc
      rcases hc with (hc | hc) | hc
      · exact natStr_isDig _ c hc
      · exact ds c hc
      · exact dk c hc
    · intro h hh'
      simp [k] at hh'
    · refine ⟨by show readNat (natStr _) < 60; rw [readNat_natStr]; exact hm60, ?_, natStr_ne_nil _⟩
      intro h; simp [k] at h
    · exact ⟨by show readNat (padZeros 2 _) < 60; rw [rs]; exact hs60, ls⟩
    · intro hneg
      rw [hval]
      simp only [k, decide_eq_true_eq] at hneg
      omega

example : |((7384005 : ℚ) / 1000) * 1000| ≤ 9223372036854775807 - 1 := by norm_num
example : formatTime (7384005 / 1000) = c!"2:03:04.005" ∧ formatTime (-1 / 2) = c!"-0:00.500" ∧
    formatTime (1 / 2000) = c!"0:00.001" := by decide +kernel

end NC.Props
