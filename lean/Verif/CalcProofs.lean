import Verif.Calc

/-!
# Helper lemmas about the expression parser: the fuel is always sufficient,
and the fuel-free equations of the grammar.
-/

namespace NC.Calc

open NC

theorem len_takeDrop (p : Char → Bool) (s : Str) :
    (s.takeWhile p).length + (s.dropWhile p).length = s.length := by
  rw [← List.length_append, List.takeWhile_append_dropWhile]

theorem len_dropWhile (p : Char → Bool) (s : Str) : (s.dropWhile p).length ≤ s.length := by
  have := len_takeDrop p s; omega

theorem skip_len (s : Str) : (skip s).length ≤ s.length := len_dropWhile _ _

theorem exponent_len (s : Str) : (exponent s).2.length ≤ s.length := by
  have := @len_dropWhile isDig
  unfold exponent
  split
  · rename_i c r
    have h0 := this r
    split
    · split
      · rename_i r'
        have := this r'
        split <;> simp <;> omega
      · rename_i r'
        have := this r'
        split <;> simp <;> omega
      · split <;> simp <;> omega
    · simp
  · simp

theorem fracPart_len (s : Str) : (fracPart s).1.length + (fracPart s).2.length ≤ s.length := by
  unfold fracPart; split
  · rename_i f
    have := len_takeDrop isDig f
    simp; omega
  · simp

theorem ureal_len {s : Str} {q : ℚ} {r : Str} (h : ureal s = some (q, r)) : r.length < s.length := by
  unfold ureal at h
  have h1 := len_takeDrop isDig s
  have h2 := fracPart_len (s.dropWhile isDig)
  simp only at h
  split at h
  · simp at h
  · rename_i hne
    have h3 := exponent_len (fracPart (s.dropWhile isDig)).2
    simp only [Option.some.injEq, Prod.mk.injEq] at h
    rw [← h.2]
    have : 0 < (s.takeWhile isDig).length + (fracPart (s.dropWhile isDig)).1.length := by
      rcases not_and_or.mp hne with hh | hh
      · have := List.length_pos_iff.mpr hh; omega
      · have := List.length_pos_iff.mpr hh; omega
    omega

theorem pDouble_len {s : Str} {q : ℚ} {r : Str} (h : pDouble s = some (q, r)) : r.length < s.length := by
  unfold pDouble at h
  have hs := skip_len s
  split at h
  · rename_i r' heq
    rw [heq] at hs
    simp only [Option.map_eq_some_iff] at h
    obtain ⟨⟨q', r''⟩, h1, h2⟩ := h
    have := ureal_len h1
    simp at h2 hs; rw [← h2.2]; omega
  · rename_i r' heq
    rw [heq] at hs
    have := ureal_len h
    simp at hs; omega
  · have := ureal_len h; omega

theorem lowOp_len {s : Str} {o r : Str} (h : lowOp s = some (o, r)) : r.length < s.length := by
  unfold lowOp at h
  have hs := skip_len s
  split at h <;> simp_all <;> omega

theorem highOp_len {s : Str} {o r : Str} (h : highOp s = some (o, r)) : r.length < s.length := by
  unfold highOp at h
  have hs := skip_len s
  split at h <;> simp_all <;> omega

theorem symBest_mem {tbl : List (Str × Str)} {s : Str} {e : Str × Str}
    (h : symBest tbl s = some e) : e ∈ tbl ∧ e.1.isPrefixOf s = true := by
  unfold symBest at h
  have key : ∀ (tbl : List (Str × Str)) (b : Option (Str × Str)) (P : Str × Str → Prop),
      (∀ e ∈ tbl, e.1.isPrefixOf s = true → P e) → (∀ e, b = some e → P e) →
      ∀ e, tbl.foldl (fun best e =>
        if e.1.isPrefixOf s then
          match best with
          | some b => if b.1.length < e.1.length then some e else some b
          | none => some e
        else best) b = some e → P e := by
    intro tbl
    induction tbl with
    | nil => intro b P _ hb e he; exact hb e he
    | cons x tbl ih =>
      intro b P hP hb e he
      rw [List.foldl_cons] at he
      refine ih _ P (fun e he => hP e (by simp [he])) ?_ e he
      intro e' he'
      split at he'
      · rename_i hp
        split at he'
        · split at he'
          · simp at he'; subst he'; exact hP _ (by simp) hp
          · simp at he'; subst he'; exact hb _ rfl
        · simp at he'; subst he'; exact hP _ (by simp) hp
      · exact hb _ he'
  exact key tbl none (fun e => e ∈ tbl ∧ e.1.isPrefixOf s = true) (fun e he hp => ⟨he, hp⟩)
    (by simp) e h

theorem symTable_pos : ∀ e ∈ symTable, 0 < e.1.length := by decide

theorem pSym_len {s : Str} {o r : Str} (h : pSym s = some (o, r)) : r.length < s.length := by
  unfold pSym at h
  simp only [Option.map_eq_some_iff] at h
  obtain ⟨e, h1, h2⟩ := h
  have ⟨hm, hp⟩ := symBest_mem h1
  have hpos := symTable_pos e hm
  have hs := skip_len s
  have hpl := (List.isPrefixOf_iff_prefix.mp hp).length_le
  simp only [Prod.mk.injEq] at h2
  rw [← h2.2, List.length_drop]; omega

/-- Sufficient fuel: no rule runs out of fuel and progress is made. -/
def Good {α : Type} (p : PR α) (bound : Nat) : Prop :=
  p ≠ .fuel ∧ ∀ a r, p = .ok a r → r.length < bound

theorem good_must {p : PR Opd} {pos : Str} {b : Nat} (h : Good p b) : Good (must pos p) b := by
  unfold must; split
  · exact ⟨by simp, by simp⟩
  · exact h

theorem good_map {α β : Type} {p : PR α} {f : α → β} {b : Nat} (h : Good p b) : Good (p.map f) b := by
  obtain ⟨h1, h2⟩ := h
  cases p with
  | ok a r => exact ⟨by simp [PR.map], by intro a' r' h; simp [PR.map] at h; rw [← h.2]; exact h2 _ _ rfl⟩
  | fail => exact ⟨by simp [PR.map], by simp [PR.map]⟩
  | expect p => exact ⟨by simp [PR.map], by simp [PR.map]⟩
  | fuel => exact absurd rfl h1

theorem good_close {p : PR Opd} {k : Opd → Opd} {b : Nat} (h : Good p b) : Good (closeAfter p k) b := by
  obtain ⟨h1, h2⟩ := h
  unfold closeAfter
  cases p with
  | ok a r =>
    have hr := h2 a r rfl
    have hs := skip_len r
    simp only
    split
    · rename_i c r' heq
      rw [heq] at hs; simp at hs
      split
      · exact ⟨by simp, by intro a' r'' h; simp at h; rw [← h.2]; omega⟩
      · exact ⟨by simp, by simp⟩
    · exact ⟨by simp, by simp⟩
  | fail => exact ⟨by simp, by simp⟩
  | expect p => exact ⟨by simp, by simp⟩
  | fuel => exact absurd rfl h1

theorem good_mono {α : Type} {p : PR α} {a b : Nat} (h : Good p a) (hab : a ≤ b) : Good p b :=
  ⟨h.1, fun x r hx => lt_of_lt_of_le (h.2 x r hx) hab⟩

theorem fuel_ok (n : Nat) :
    (∀ s : Str, 3 * s.length + 3 ≤ n → Good (pE n s) s.length) ∧
    (∀ s : Str, 3 * s.length + 1 ≤ n → Good (pEl n s) (s.length + 1)) ∧
    (∀ s : Str, 3 * s.length + 2 ≤ n → Good (pT n s) s.length) ∧
    (∀ s : Str, 3 * s.length + 1 ≤ n → Good (pTl n s) (s.length + 1)) ∧
    (∀ s : Str, 3 * s.length + 1 ≤ n → Good (pF n s) s.length) := by
  induction n with
  | zero => refine ⟨?_, ?_, ?_, ?_, ?_⟩ <;> intro s h <;> omega
  | succ n ih =>
    obtain ⟨iE, iEl, iT, iTl, iF⟩ := ih
    refine ⟨?_, ?_, ?_, ?_, ?_⟩
    · intro s h
      have h1 := iT s (by omega)
      unfold pE
      cases hp : pT n s with
      | ok t r =>
        rw [hp] at h1
        have hr := h1.2 t r rfl
        exact good_mono (good_map (iEl r (by omega))) (by omega)
      | fail => exact ⟨by simp, by simp⟩
      | expect p => exact ⟨by simp, by simp⟩
      | fuel => rw [hp] at h1; exact absurd rfl h1.1
    · intro s h
      unfold pEl
      cases ho : lowOp s with
      | none => exact ⟨by simp, by intro a r h; simp at h; rw [← h.2]; omega⟩
      | some p =>
        obtain ⟨op, r⟩ := p
        have hr := lowOp_len ho
        have h1 := good_must (pos := r) (iT r (by omega))
        simp only
        cases hp : must r (pT n r) with
        | ok t r' =>
          rw [hp] at h1
          have hr' := h1.2 t r' rfl
          exact good_mono (good_map (iEl r' (by omega))) (by omega)
        | fail => exact ⟨by simp, by simp⟩
        | expect p => exact ⟨by simp, by simp⟩
        | fuel => rw [hp] at h1; exact absurd rfl h1.1
    · intro s h
      have h1 := iF s (by omega)
      unfold pT
      cases hp : pF n s with
      | ok t r =>
        rw [hp] at h1
        have hr := h1.2 t r rfl
        exact good_mono (good_map (iTl r (by omega))) (by omega)
      | fail => exact ⟨by simp, by simp⟩
      | expect p => exact ⟨by simp, by simp⟩
      | fuel => rw [hp] at h1; exact absurd rfl h1.1
    · intro s h
      unfold pTl
      cases ho : highOp s with
      | none => exact ⟨by simp, by intro a r h; simp at h; rw [← h.2]; omega⟩
      | some p =>
        obtain ⟨op, r⟩ := p
        have hr := highOp_len ho
        have h1 := good_must (pos := r) (iF r (by omega))
        simp only
        cases hp : must r (pF n r) with
        | ok t r' =>
          rw [hp] at h1
          have hr' := h1.2 t r' rfl
          exact good_mono (good_map (iTl r' (by omega))) (by omega)
        | fail => exact ⟨by simp, by simp⟩
        | expect p => exact ⟨by simp, by simp⟩
        | fuel => rw [hp] at h1; exact absurd rfl h1.1
    · intro s h
      unfold pF
      cases hd : pDouble s with
      | some p =>
        obtain ⟨q, r⟩ := p
        have := pDouble_len hd
        exact ⟨by simp, by intro a r' h; simp at h; rw [← h.2]; exact this⟩
      | none =>
        have hsk := skip_len s
        simp only
        split
        · exact ⟨by simp, by simp⟩
        · rename_i c r heq
          rw [heq] at hsk; simp at hsk
          split
          · exact good_mono (good_close (good_must (iE r (by omega)))) (by omega)
          · split
            · exact good_mono (good_map (good_must (iF r (by omega)))) (by omega)
            · split
              · exact ⟨by simp, by simp⟩
              · rename_i name r2 hsym
                have h2 := pSym_len hsym
                have h3 := skip_len r2
                split
                · exact ⟨by simp, by simp⟩
                · rename_i o r3 heq3
                  rw [heq3] at h3; simp at h3
                  split
                  · exact good_mono (good_close (good_must (iE r3 (by omega)))) (by omega)
                  · exact ⟨by simp, by simp⟩

/-! Extra fuel does not change a result. -/

theorem must_mono {p p' : PR Opd} {pos : Str} (h : p ≠ .fuel → p' = p) (h2 : must pos p ≠ .fuel) :
    must pos p' = must pos p := by
  have : p ≠ .fuel := by rintro rfl; exact h2 rfl
  rw [h this]

theorem close_mono {p p' : PR Opd} {k : Opd → Opd} (h : p ≠ .fuel → p' = p)
    (h2 : closeAfter p k ≠ .fuel) : closeAfter p' k = closeAfter p k := by
  have : p ≠ .fuel := by rintro rfl; exact h2 rfl
  rw [h this]

theorem map_mono {α β : Type} {p p' : PR α} {f : α → β} (h : p ≠ .fuel → p' = p)
    (h2 : p.map f ≠ .fuel) : p'.map f = p.map f := by
  have : p ≠ .fuel := by rintro rfl; exact h2 rfl
  rw [h this]

theorem fuel_mono (n : Nat) :
    (∀ s, pE n s ≠ .fuel → pE (n+1) s = pE n s) ∧
    (∀ s, pEl n s ≠ .fuel → pEl (n+1) s = pEl n s) ∧
    (∀ s, pT n s ≠ .fuel → pT (n+1) s = pT n s) ∧
    (∀ s, pTl n s ≠ .fuel → pTl (n+1) s = pTl n s) ∧
    (∀ s, pF n s ≠ .fuel → pF (n+1) s = pF n s) := by
  induction n with
  | zero => refine ⟨?_, ?_, ?_, ?_, ?_⟩ <;> intro s h <;> exact absurd (by simp [pE, pEl, pT, pTl, pF]) h
  | succ n ih =>
    obtain ⟨iE, iEl, iT, iTl, iF⟩ := ih
    refine ⟨?_, ?_, ?_, ?_, ?_⟩
    · intro s h
      rw [pE] at h
      conv_lhs => rw [pE]
      conv_rhs => rw [pE]
      have h1 : pT n s ≠ .fuel := by intro h1; rw [h1] at h; exact h rfl
      rw [iT s h1]
      cases hp : pT n s with
      | ok t r => rw [hp] at h; exact map_mono (iEl r) h
      | _ => rfl
    · intro s h
      rw [pEl] at h
      conv_lhs => rw [pEl]
      conv_rhs => rw [pEl]
      cases ho : lowOp s with
      | none => rfl
      | some p =>
        obtain ⟨op, r⟩ := p
        simp only [ho] at h ⊢
        have h1 : must r (pT n r) ≠ .fuel := by intro h1; rw [h1] at h; exact h rfl
        rw [must_mono (iT r) h1]
        cases hp : must r (pT n r) with
        | ok t r' => rw [hp] at h; exact map_mono (iEl r') h
        | _ => rfl
    · intro s h
      rw [pT] at h
      conv_lhs => rw [pT]
      conv_rhs => rw [pT]
      have h1 : pF n s ≠ .fuel := by intro h1; rw [h1] at h; exact h rfl
      rw [iF s h1]
      cases hp : pF n s with
      | ok t r => rw [hp] at h; exact map_mono (iTl r) h
      | _ => rfl
    · intro s h
      rw [pTl] at h
      conv_lhs => rw [pTl]
      conv_rhs => rw [pTl]
      cases ho : highOp s with
      | none => rfl
      | some p =>
        obtain ⟨op, r⟩ := p
        simp only [ho] at h ⊢
        have h1 : must r (pF n r) ≠ .fuel := by intro h1; rw [h1] at h; exact h rfl
        rw [must_mono (iF r) h1]
        cases hp : must r (pF n r) with
        | ok t r' => rw [hp] at h; exact map_mono (iTl r') h
        | _ => rfl
    · intro s h
      rw [pF] at h
      conv_lhs => rw [pF]
      conv_rhs => rw [pF]
      cases hd : pDouble s with
      | some p => rfl
      | none =>
        simp only [hd] at h ⊢
        cases hsk : skip s with
        | nil => rfl
        | cons c r =>
          simp only [hsk] at h ⊢
          by_cases ho : isOpen c = true
          · simp only [ho, if_true] at h ⊢
            exact close_mono (must_mono (iE r)) h
          · simp only [ho, Bool.false_eq_true, if_false] at h ⊢
            by_cases hc : c = '-' ∨ c = '+' ∨ c = '#'
            · simp only [hc, if_true] at h ⊢
              exact map_mono (must_mono (iF r)) h
            · simp only [hc, if_false] at h ⊢
              cases hs : pSym s with
              | none => rfl
              | some p =>
                obtain ⟨name, r2⟩ := p
                simp only [hs] at h ⊢
                cases hsk2 : skip r2 with
                | nil => rfl
                | cons o r3 =>
                  simp only [hsk2] at h ⊢
                  by_cases ho : isOpen o = true
                  · simp only [ho, if_true] at h ⊢
                    exact close_mono (must_mono (iE r3)) h
                  · simp only [ho, Bool.false_eq_true, if_false]

theorem fuel_le_of {α : Type} (p : Nat → PR α) (hm : ∀ n, p n ≠ .fuel → p (n+1) = p n)
    {a b : Nat} (h : a ≤ b) (ha : p a ≠ .fuel) : p b = p a := by
  induction b, h using Nat.le_induction with
  | base => rfl
  | succ b hb ih => rw [hm b (by rw [ih]; exact ha), ih]

/-! Fuel-free forms of the rules. -/

def qE (s : Str) : PR Opd := pE (3 * s.length + 3) s
def qEl (s : Str) : PR Ops := pEl (3 * s.length + 1) s
def qT (s : Str) : PR Opd := pT (3 * s.length + 2) s
def qTl (s : Str) : PR Ops := pTl (3 * s.length + 1) s
def qF (s : Str) : PR Opd := pF (3 * s.length + 1) s

theorem pE_eq {n : Nat} {s : Str} (h : 3 * s.length + 3 ≤ n) : pE n s = qE s :=
  fuel_le_of (fun n => pE n s) (fun n => (fuel_mono n).1 s) h ((fuel_ok _).1 s le_rfl).1
theorem pEl_eq {n : Nat} {s : Str} (h : 3 * s.length + 1 ≤ n) : pEl n s = qEl s :=
  fuel_le_of (fun n => pEl n s) (fun n => (fuel_mono n).2.1 s) h ((fuel_ok _).2.1 s le_rfl).1
theorem pT_eq {n : Nat} {s : Str} (h : 3 * s.length + 2 ≤ n) : pT n s = qT s :=
  fuel_le_of (fun n => pT n s) (fun n => (fuel_mono n).2.2.1 s) h ((fuel_ok _).2.2.1 s le_rfl).1
theorem pTl_eq {n : Nat} {s : Str} (h : 3 * s.length + 1 ≤ n) : pTl n s = qTl s :=
  fuel_le_of (fun n => pTl n s) (fun n => (fuel_mono n).2.2.2.1 s) h ((fuel_ok _).2.2.2.1 s le_rfl).1
theorem pF_eq {n : Nat} {s : Str} (h : 3 * s.length + 1 ≤ n) : pF n s = qF s :=
  fuel_le_of (fun n => pF n s) (fun n => (fuel_mono n).2.2.2.2 s) h ((fuel_ok _).2.2.2.2 s le_rfl).1

theorem qE_eqn (s : Str) : qE s = match qT s with
    | .ok t r => (qEl r).map (Opd.prog t)
    | x => x := by
  conv_lhs => rw [qE, pE, pT_eq (by omega)]
  have hg := (fuel_ok _).2.2.1 s (le_refl (3 * s.length + 2))
  change Good (qT s) _ at hg
  cases hp : qT s with
  | ok t r =>
    have := hg.2 t r hp
    simp only; rw [pEl_eq (by omega)]
  | _ => rfl

theorem qT_eqn (s : Str) : qT s = match qF s with
    | .ok t r => (qTl r).map (Opd.prog t)
    | x => x := by
  conv_lhs => rw [qT, pT, pF_eq (by omega)]
  have hg := (fuel_ok _).2.2.2.2 s (le_refl (3 * s.length + 1))
  change Good (qF s) _ at hg
  cases hp : qF s with
  | ok t r =>
    have := hg.2 t r hp
    simp only; rw [pTl_eq (by omega)]
  | _ => rfl

theorem qEl_eqn (s : Str) : qEl s = match lowOp s with
    | none => .ok .nil s
    | some (op, r) =>
      match must r (qT r) with
      | .ok t r' => (qEl r').map (Ops.cons op t)
      | .fail => .fail
      | .expect p => .expect p
      | .fuel => .fuel := by
  conv_lhs => rw [qEl, pEl]
  cases ho : lowOp s with
  | none => rfl
  | some p =>
    obtain ⟨op, r⟩ := p
    have hr := lowOp_len ho
    simp only
    rw [pT_eq (by omega)]
    have hg := good_must (pos := r) ((fuel_ok _).2.2.1 r (le_refl (3 * r.length + 2)))
    change Good (must r (qT r)) _ at hg
    cases hp : must r (qT r) with
    | ok t r' =>
      have := hg.2 t r' hp
      simp only; rw [pEl_eq (by omega)]
    | _ => rfl

theorem qTl_eqn (s : Str) : qTl s = match highOp s with
    | none => .ok .nil s
    | some (op, r) =>
      match must r (qF r) with
      | .ok t r' => (qTl r').map (Ops.cons op t)
      | .fail => .fail
      | .expect p => .expect p
      | .fuel => .fuel := by
  conv_lhs => rw [qTl, pTl]
  cases ho : highOp s with
  | none => rfl
  | some p =>
    obtain ⟨op, r⟩ := p
    have hr := highOp_len ho
    simp only
    rw [pF_eq (by omega)]
    have hg := good_must (pos := r) ((fuel_ok _).2.2.2.2 r (le_refl (3 * r.length + 1)))
    change Good (must r (qF r)) _ at hg
    cases hp : must r (qF r) with
    | ok t r' =>
      have := hg.2 t r' hp
      simp only; rw [pTl_eq (by omega)]
    | _ => rfl

theorem qF_eqn (s : Str) : qF s = match pDouble s with
    | some (q, r) => .ok (.num q) r
    | none =>
      match skip s with
      | [] => .fail
      | c :: r =>
        if isOpen c then closeAfter (must r (qE r)) id
        else if c = '-' ∨ c = '+' ∨ c = '#' then (must r (qF r)).map (Opd.sgn c)
        else
          match pSym s with
          | none => .fail
          | some (name, r2) =>
            match skip r2 with
            | [] => .expect r2
            | o :: r3 =>
              if isOpen o then closeAfter (must r3 (qE r3)) (Opd.fn name)
              else .expect r2 := by
  conv_lhs => rw [qF, pF]
  cases hd : pDouble s with
  | some p => rfl
  | none =>
    have hsk := skip_len s
    cases heq : skip s with
    | nil => rfl
    | cons c r =>
      rw [heq] at hsk; simp at hsk
      simp only
      rw [pE_eq (by omega), pF_eq (by omega)]
      cases hs : pSym s with
      | none => rfl
      | some p =>
        obtain ⟨name, r2⟩ := p
        have h2 := pSym_len hs
        have h3 := skip_len r2
        simp only
        cases hsk2 : skip r2 with
        | nil => rfl
        | cons o r3 =>
          rw [hsk2] at h3; simp at h3
          simp only
          rw [pE_eq (by omega)]

theorem qE_ne_fuel (s : Str) : qE s ≠ .fuel := ((fuel_ok _).1 s le_rfl).1

theorem evalText_eq (tr : Str → ℚ → Option ℚ) (m : MacroMap ℚ) (s : Str) :
    evalText tr m s = match qE s with
      | .ok p _ =>
        match eval tr m p with
        | .ok v => .ok v
        | .throw e => .throw (.evalErr e)
        | .ub => .ub
      | .expect pos => .throw (.expect pos)
      | .fail => .throw .noMatch
      | .fuel => .throw .noMatch := rfl

end NC.Calc
