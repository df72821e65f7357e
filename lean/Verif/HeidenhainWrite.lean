import Verif.HeidenhainBack

/-!
# Heidenhain lines: the words of an accepted line may be written again
-/

namespace NC.Hei
open NC NC.Gram NC.Spec.Hei

theorem digits_natStr (n : Nat) : Digits (natStr n) :=
  ⟨natStr_ne_nil n, fun c hc => isDig_iff.mp (natStr_isDig n c hc)⟩

theorem blanks_one : Blanks c!" " := by intro c hc; simp at hc; exact .inl hc

theorem blanks_none : Blanks [] := fun _ h => by cases h

theorem gap_eq (p : Str) : ∃ b, Blanks b ∧ gap p = b ++ p := by
  unfold gap; split
  · rename_i h; exact ⟨[], blanks_none, by rw [h]; rfl⟩
  · exact ⟨c!" ", blanks_one, rfl⟩

theorem gap_tail (p : Str) : Tail (gap p) := by
  unfold gap; split
  · intro c u h; cases h
  · intro c u h; injection h with h _; subst h; rfl

theorem intText_signed {id : Nat} (h : id < 2 ^ 32) :
    ∃ z, IntText (signedId id) z ∧ -2 ^ 31 ≤ z ∧ z < 2 ^ 31 ∧ (id : Int) = z % 2 ^ 32 := by
  unfold signedId; split
  · refine ⟨_, .plain (digits_natStr id), ?_, ?_, ?_⟩ <;> rw [readNat_natStr] <;> omega
  · refine ⟨_, .minus (digits_natStr _), ?_, ?_, ?_⟩ <;> rw [readNat_natStr] <;> omega

/-- What can be written at all is written by `writeItem`. -/
theorem shows_write {t : Str} {w : Item} (h : Shows t w) : Shows (writeItem w) w := by
  cases h with
  | comment hx => exact .comment hx
  | program h1 h1' h2 h2' h3 h3' hn hn' he =>
    rename_i b n u s1 s2 s3 e
    have := Shows.program (b := b) (u := u) (e := []) blanks_one (by simp) blanks_one (by simp) blanks_one (by simp) hn hn'
      (by intro c hc; cases hc)
    rw [List.append_nil] at this
    exact this
  | cycle h1 h1' hw h2 hn =>
    rename_i w s1 s2 v d v2
    obtain ⟨b, hb, e⟩ := gap_eq (numeral v d v2)
    have := Shows.cycle blanks_one (by simp) hw hb hn
    show Shows (c!"CYCL" ++ c!" " ++ w ++ gap (numeral v d v2)) _
    rw [e, ← List.append_assoc]
    exact this
  | param hi hz hz' hid h1 h2 hg hv hn =>
    rename_i i s1 s2 v z id g d v2
    obtain ⟨z', a1, a2, a3, a4⟩ := intText_signed (id := id) (by omega)
    have := Shows.param a1 a2 a3 a4 blanks_none blanks_none hg hv hn
    rw [List.append_nil, List.append_nil] at this
    exact this
  | general hw h1 hg hq hn ht =>
    rename_i w s1 g q v d v2 tl
    obtain ⟨b, hb, e⟩ := gap_eq (g.toList ++ (q.toList ++ (numeral v d v2 ++ tl.toList)))
    have := Shows.general hw hb hg hq hn ht
    show Shows (w ++ gap (g.toList ++ (q.toList ++ (numeral v d v2 ++ tl.toList)))) _
    rw [e]
    simpa only [List.append_assoc] using this

/-- All ways to write a word begin with the same character. -/
theorem shows_head {t : Str} {w : Item} (h : Shows t w) : t.head? = (writeItem w).head? := by
  cases h with
  | comment hx => rfl
  | program => rename_i b _ _ _ _ _ _ _ _ _ _ _ _ _ _ _; cases b <;> rfl
  | cycle => rfl
  | param => rfl
  | general hw =>
    obtain ⟨c, u, rfl, _⟩ := word_start hw
    rfl

/-! ## What surrounds a word that was read -/

theorem headNot_not_next {p : Char → Bool} {P : Char → Prop} {x : Str} (h : HeadNot p x) (hp : ∀ c, P c → p c = true) :
    ¬ Next P x := by
  rintro ⟨c, u, e, hc⟩
  have := h c u e
  rw [hp c hc] at this
  cases this

theorem optChar_none_head {c : Char} {s : Str} (h : (optChar c s).1 = none) : HeadNot (fun x => x = c) s := by
  intro d u e
  rw [e] at h
  unfold optChar at h
  dsimp only at h
  split at h
  · cases h
  · rename_i hd; simpa using hd

theorem sign_none {s : Str} (h : (sign s).1 = none) : (sign s).2 = s := by
  have := sign_text s
  rw [h] at this
  exact this.symm

theorem not_next_nil {P : Char → Prop} : ¬ Next P [] := by rintro ⟨_, _, h, _⟩; cases h

theorem cycleDef_bars {s r : Str} {c : Cycle} (h : cycleDef s = .got c r) : ¬ Next (Bars (.cycle c)) (skip r) := by
  unfold cycleDef at h
  split at h
  · cases h
  · rename_i r0 h0
    obtain ⟨r1, h1, h⟩ := expect_got h
    obtain ⟨w, hw, h⟩ := expect_got h
    dsimp only at h
    injection h with hc hr
    obtain ⟨cw, v, d, v2⟩ := c
    injection hc with _ e1 e2 e3
    cases v with
    | some x => exact fun ⟨_, _, _, hn⟩ => hn
    | none =>
    cases d with
    | some x => exact fun ⟨_, _, _, hn⟩ => hn
    | none =>
    cases v2 with
    | some x => exact fun ⟨_, _, _, hn⟩ => hn
    | none =>
      have a1 := (optRun_none e1).1
      have a2 := optChar_none e2
      have a3 := (optRun_none e3).1
      have b2 := optChar_none_head e2
      rw [a1] at b2 a2 a3 hr
      rw [a2] at a3 hr
      rw [a3] at hr
      rw [← hr, skip_skip]
      exact headNot_not_next (P := fun c => c = '.') b2 (fun c hc => decide_eq_true hc)

theorem cycleParam_bars {s r : Str} {p : Param} (h : cycleParam s = .got p r) : ¬ Next (Bars (.param p)) (skip r) := by
  unfold cycleParam at h
  split at h
  · rename_i r0
    obtain ⟨n, hn, h⟩ := expect_got h
    obtain ⟨r1, h1, h⟩ := expect_got h
    unfold paramValue at h
    dsimp only at h
    injection h with hc hr
    obtain ⟨id, g, v, d, v2⟩ := p
    injection hc with _ e0 e1 e2 e3
    cases g with
    | some x => exact fun ⟨_, _, _, hn⟩ => hn
    | none =>
    cases v with
    | cons x y => exact fun ⟨_, _, _, hn⟩ => hn
    | nil =>
    cases d with
    | some x => exact fun ⟨_, _, _, hn⟩ => hn
    | none =>
    cases v2 with
    | some x => exact fun ⟨_, _, _, hn⟩ => hn
    | none =>
      have a0 := sign_none e0
      have e1' : (optRun isDig (sign (skip r1)).2).1 = none := by
        rcases hv : (optRun isDig (sign (skip r1)).2).1 with _ | x
        · rfl
        · rw [hv] at e1; exact absurd e1 (digits_some hv).1
      have a1 := (optRun_none e1').1
      have a2 := optChar_none e2
      have a3 := (optRun_none e3).1
      have b2 := optChar_none_head e2
      rw [a1] at b2 a2 a3 hr
      rw [a2] at a3 hr
      rw [a3, a0] at hr
      rw [a0] at b2
      rw [← hr, skip_skip]
      exact headNot_not_next (P := fun c => c = '.') b2 (fun c hc => decide_eq_true hc)
  · cases h

theorem dropWhile_headNot (p : Char → Bool) (s : Str) : HeadNot p (s.dropWhile p) := by
  intro c u e
  have := List.head?_dropWhile_not p s
  rw [e] at this
  simpa using this

theorem startProgram_bars {s r : Str} {p : Program} (h : startProgram s = .got p r) :
    ¬ Next (Bars (.program p)) (skip r) := by
  unfold startProgram at h
  split at h
  · cases h
  · rename_i b r0 h0
    unfold programRest at h
    obtain ⟨r1, h1, h⟩ := expect_got h
    obtain ⟨r2, h2, h⟩ := expect_got h
    obtain ⟨r3, h3, h⟩ := expect_got h
    obtain ⟨r5, h5, h⟩ := expect_got h
    obtain ⟨u, h6, h⟩ := expect_got h
    obtain ⟨r7, h7, h⟩ := expect_got h
    obtain ⟨_, h8, h⟩ := expect_got h
    injection h with _ hr
    subst hr
    have hsp : HeadNot isSpace r7 := by
      cases hu : u.2 with
      | nil => rw [hu] at h7; cases h7; exact headNot_nil _
      | cons c t =>
        rw [hu] at h7
        unfold spaces at h7
        dsimp only at h7
        split at h7
        · injection h7 with h7
          rw [← h7]
          exact dropWhile_headNot _ _
        · cases h7
    have hsk : skip r7 = r7 := skip_of_head (fun c u e => by
      have := hsp c u e
      by_contra hb
      rcases isBlank_iff.mp (by simpa using hb) with rfl | rfl <;> simp [isSpace] at this)
    rw [hsk]
    rintro ⟨c, u, rfl, hc⟩
    unfold notName at h8
    dsimp only at h8
    rw [if_pos (inName_iff.mpr hc)] at h8
    cases h8

theorem general_bars {s r : Str} {g : General} (h : general s = .got g r) : ¬ Next (Bars (.general g)) (skip r) := by
  unfold general at h
  split at h
  · rename_i w r0 hw
    injection h with hg hr
    unfold generalRest at hg hr
    dsimp only at hg hr
    obtain ⟨gw, gs, gq, gv, gd, gv2, gt⟩ := g
    injection hg with _ e0 e1 e2 e3 e4 e5
    cases gs with
    | some x => exact fun ⟨_, _, _, hn⟩ => hn
    | none =>
    cases gq with
    | some x => exact fun ⟨_, _, _, hn⟩ => hn
    | none =>
    cases gv with
    | some x => exact fun ⟨_, _, _, hn⟩ => hn
    | none =>
    cases gd with
    | some x => exact fun ⟨_, _, _, hn⟩ => hn
    | none =>
    cases gv2 with
    | some x => exact fun ⟨_, _, _, hn⟩ => hn
    | none =>
    cases gt with
    | some x => exact fun ⟨_, _, _, hn⟩ => hn
    | none =>
      have a0 := sign_none e0
      have a1 := optChar_none e1
      have b1 := optChar_none_head e1
      have a2 := (optRun_none e2).1
      have a3 := optChar_none e3
      have b3 := optChar_none_head e3
      have a4 := (optRun_none e4).1
      have a5 := optChar_none e5
      rw [a2] at b3 a3 a4 a5 hr
      rw [a3] at a4 a5 hr
      rw [a4] at a5 hr
      rw [a5, a1, a0] at hr
      rw [a1, a0] at b3
      rw [a0] at b1
      rw [← hr, skip_skip]
      rintro ⟨c, u, e, hc | hc⟩
      · have := b3 c u e; simp [hc] at this
      · have := b1 c u e; simp [hc] at this
  · cases h
  · cases h

theorem expect_not_fail {α β : Type} {at_ : Str} {o : Option α} {k : α → Res β} (h : ∀ a, k a ≠ .fail) :
    expect at_ o k ≠ .fail := by
  cases o with
  | none => intro h; cases h
  | some a => exact h a

theorem programRest_not_fail {b : BeginEnd} {s : Str} (h : programRest b s = .fail) : False := by
  revert h
  refine expect_not_fail fun _ => expect_not_fail fun _ => expect_not_fail fun _ => expect_not_fail fun _ =>
    expect_not_fail fun _ => expect_not_fail fun _ => expect_not_fail fun _ h => ?_
  cases h

/-- The rules in front of the last one do not begin like a general word. -/
theorem general_clear {s r : Str} {g : General} (h1 : cycleDef s = .fail) (h2 : cycleParam s = .fail)
    (h4 : startProgram s = .fail) (h : general s = .got g r) : Clear (writeItem (.general g)) (.general g) := by
  have hw : IsWord g.word ∧ ∃ x, s = g.word ++ x := by
    unfold general at h
    split at h
    · rename_i w r0 hw
      injection h with hg _
      rw [← hg]
      obtain ⟨a, b⟩ := word_got hw
      exact ⟨a, r0, b⟩
    · cases h
    · cases h
  obtain ⟨hw, x, ex⟩ := hw
  refine ⟨_, rfl, ?_⟩
  have hno : ∀ o : Str, (∀ c ∈ o, isBlank c = false) → ¬ o <+: s → ∀ p, ¬ o <+: g.word ++ gap p := by
    intro o ho hns p hp
    have := prefix_tail ho (gap_tail p) hp
    exact hns (this.trans ⟨x, ex.symm⟩)
  refine ⟨?_, hno _ (by decide) ?_ _, hno _ (by decide) ?_ _, hno _ (by decide) ?_ _, ?_, ?_⟩
  · obtain ⟨c, u, e, _⟩ := word_start hw
    rw [e]
    rintro ⟨c', u', e', hq⟩
    rw [List.cons_append] at e'
    injection e' with e' _
    rw [ex, e, e', hq, List.cons_append] at h2
    exact expect_not_fail (fun _ => expect_not_fail (fun _ h => by cases h)) h2
  · intro hp
    obtain ⟨y, rfl⟩ := hp
    unfold cycleDef at h1
    rw [lit_back] at h1
    exact expect_not_fail (fun _ => expect_not_fail (fun _ h => by cases h)) h1
  · intro hp
    obtain ⟨y, rfl⟩ := hp
    unfold startProgram beginEnd at h4
    rw [lit_back] at h4
    dsimp only at h4
    exact programRest_not_fail h4
  · intro hp
    obtain ⟨y, rfl⟩ := hp
    unfold startProgram beginEnd at h4
    rw [lit_none (by simp), lit_back] at h4
    dsimp only at h4
    exact programRest_not_fail h4
  · intro hr o ho hp
    have hm := operations_iff.mpr ho
    have := prefix_tail (op_shape hm).2.1 (gap_tail _) hp
    have hd : ∃ c ∈ o, isDig c = true := by
      have : ∀ o ∈ operations, ∃ c ∈ o, isDig c = true := by decide
      exact this o hm
    obtain ⟨c, hc, hd⟩ := hd
    have hcw := hr.2 c (this.subset hc)
    exact absurd hd (by rw [start_not_dig (.inl hcw)]; decide)
  · rintro _ ⟨c, u, e, hc⟩
    have := gap_tail _ c u e
    rw [start_not_blank (.inl hc)] at this
    cases this

theorem clear_other {w : Item} (hg : ∀ g, w ≠ .general g) : Clear (writeItem w) w := by
  cases w with
  | general g => exact absurd rfl (hg g)
  | program p =>
    show (beginEndWord p.beginEnd ++ c!" " ++ c!"PGM" ++ c!" " ++ p.name ++ c!" " ++ measureWord p.measure).getLast? = _
    rw [List.getLast?_append_of_ne_nil]
    cases p.measure <;> simp [measureWord]
  | _ => trivial

/-- The surroundings of a word that was read. -/
theorem item_around {s r : Str} {w : Item} (h : item s = .got w r) :
    Clear (writeItem w) w ∧ ¬ Next (Bars w) (skip r) ∧ (∀ c, w = .comment c → r = []) := by
  unfold item at h
  rcases orElse_got h with ⟨x, hx, rfl⟩ | ⟨f1, h⟩
  · exact ⟨clear_other (fun g h => by cases h), cycleDef_bars hx, fun _ h => by cases h⟩
  rcases orElse_got h with ⟨x, hx, rfl⟩ | ⟨f2, h⟩
  · exact ⟨clear_other (fun g h => by cases h), cycleParam_bars hx, fun _ h => by cases h⟩
  rcases orElse_got h with ⟨x, hx, rfl⟩ | ⟨f3, h⟩
  · refine ⟨clear_other (fun g h => by cases h), ?_, fun _ _ => (comment_got hx).1⟩
    rw [(comment_got hx).1]
    exact not_next_nil
  rcases orElse_got h with ⟨x, hx, rfl⟩ | ⟨f4, h⟩
  · exact ⟨clear_other (fun g h => by cases h), startProgram_bars hx, fun _ h => by cases h⟩
  rcases orElse_got h with ⟨x, hx, rfl⟩ | ⟨f5, h⟩
  · exact ⟨general_clear f1 f2 f4 hx, general_bars hx, fun _ h => by cases h⟩
  · cases h

theorem next_of_head {P : Char → Prop} {x y : Str} (h : x.head? = y.head?) (hn : Next P x) : Next P y := by
  obtain ⟨c, u, rfl, hc⟩ := hn
  cases y with
  | nil => cases h
  | cons d y => injection h with h; exact ⟨d, y, rfl, h ▸ hc⟩

theorem head_append {a b : Str} (h : a ≠ []) : (a ++ b).head? = a.head? := by
  cases a with
  | nil => exact absurd rfl h
  | cons c a => rfl

theorem write_head {w : Item} {ws : List Item} (h : writeItem w ≠ []) : (write (w :: ws)).head? = (writeItem w).head? := by
  cases ws with
  | nil => rfl
  | cons v ws => exact head_append h

theorem items_apart : ∀ (n : Nat) (s : Str) (ws : List Item) (r : Str), items n s = (ws, false, r) → ws ≠ [] →
    Apart (write ws) ws ∧ (write ws).head? = (skip s).head? := by
  intro n
  induction n with
  | zero => intro s ws r h hne; cases h; exact absurd rfl hne
  | succ n ih =>
    intro s ws r h hne
    unfold items at h
    split at h
    · rename_i w r1 hw
      obtain ⟨b, t, hb, ht, e⟩ := item_got hw
      obtain ⟨hc, hbar, hcom⟩ := item_around hw
      have hsh := shows_write ht
      have hne' := shows_ne hsh
      have hhead : (writeItem w).head? = (skip s).head? := by
        rw [← shows_head ht, e, List.append_assoc, skip_append_blanks hb]
        obtain ⟨c, u, rfl, hs⟩ := shows_start ht
        rw [List.cons_append, skip_of_not (start_not_blank hs)]
        rfl
      cases hi : items n r1 with
      | mk ws1 q =>
        obtain ⟨b1, r2⟩ := q
        rw [hi] at h
        cases h
        cases ws1 with
        | nil =>
          refine ⟨?_, hhead⟩
          have := Apart.last hsh hc blanks_none (fun _ _ => rfl)
          rw [List.append_nil] at this
          exact this
        | cons v ws1 =>
          obtain ⟨i1, i2⟩ := ih r1 (v :: ws1) r hi (by simp)
          refine ⟨?_, by rw [write_head hne']; exact hhead⟩
          have := Apart.cons (e := c!" ") hsh hc blanks_one (by simp) i1 (fun hn => hbar (next_of_head i2 hn))
          rw [List.append_assoc] at this
          exact this
    · cases h; exact absurd rfl hne
    · cases h

/-- The words of an accepted line, written again, are a neat line. -/
theorem neat_write {s : Str} {ws : List Item} (h : phrase s = .accept ws) : Neat (write ws) ws := by
  have key : ∀ pre x, rest pre x = .accept ws → ∃ vs, ws = pre ++ vs ∧ vs ≠ [] ∧ Apart (write vs) vs := by
    intro pre x hr
    unfold rest at hr
    split at hr
    · cases hr
    · cases hr
    · rename_i vs r hne hi
      split at hr
      · cases hr
        have hne' : vs ≠ [] := fun e => hne e
        exact ⟨vs, rfl, hne', (items_apart _ _ _ _ hi hne').1⟩
      · cases hr
  unfold phrase at h
  split at h
  · rename_i n r hn
    obtain ⟨vs, rfl, h2, h3⟩ := key _ _ h
    obtain ⟨a, ha, _⟩ := lineNumber_got hn
    have hlt : n < 2 ^ 32 := by cases ha with | mk _ _ h' _ => exact h'
    have hN : Numbered (natStr n ++ c!" ") n := by
      have := Numbered.mk blanks_none (digits_natStr n) (by rw [readNat_natStr]; exact hlt) (.inl rfl : ' ' = ' ' ∨ ' ' = '\t')
      rw [readNat_natStr] at this
      exact this
    have := Neat.numbered hN blanks_none h3
    have e : write ([.number n] ++ vs) = natStr n ++ c!" " ++ [] ++ write vs := by
      cases vs with
      | nil => exact absurd rfl h2
      | cons v vs => show natStr n ++ ' ' :: write (v :: vs) = _; simp
    rw [e]
    exact this
  · obtain ⟨vs, rfl, h2, h3⟩ := key _ _ h
    exact Neat.plain blanks_none h3
  · cases h

/-! ## Where a line is refused -/

theorem expect_suffix {α β : Type} {at_ : Str} {o : Option α} {k : α → Res β} {x s : Str}
    (h : expect at_ o k = .stop x) (h1 : at_ <:+ s) (h2 : ∀ a, o = some a → k a = .stop x → x <:+ s) : x <:+ s := by
  rcases expect_stop h with rfl | ⟨a, ha, hk⟩
  · exact h1
  · exact h2 a ha hk

theorem blanks1_suffix {s r : Str} (h : blanks1 s = some r) : r <:+ s := by
  obtain ⟨-, b, -, -, e⟩ := blanks1_some h
  exact ⟨b, e.symm⟩

theorem lit_suffix {w s r : Str} (h : lit w s = some r) : r <:+ s := ⟨w, (lit_some h).symm⟩

theorem cycleDef_stop {s x : Str} (h : cycleDef s = .stop x) : x <:+ s := by
  unfold cycleDef at h
  split at h
  · cases h
  · rename_i r0 h0
    refine expect_suffix h (lit_suffix h0) (fun r1 h1 h => ?_)
    refine expect_suffix h ((blanks1_suffix h1).trans (lit_suffix h0)) (fun w _ h => ?_)
    cases h

theorem cycleParam_stop {s x : Str} (h : cycleParam s = .stop x) : x <:+ s := by
  unfold cycleParam at h
  split at h
  · rename_i r0
    refine expect_suffix h (List.suffix_cons _ _) (fun n hn h => ?_)
    obtain ⟨i, z, _, _, _, _, e⟩ := int32_some hn
    refine expect_suffix h ((skip_suffix _).trans (.trans ⟨i, e.symm⟩ (List.suffix_cons _ _))) (fun w _ h => ?_)
    cases h
  · cases h

theorem comment_stop {s x : Str} (h : comment s = .stop x) : x <:+ s := by
  unfold comment at h
  split at h
  · rename_i t
    have : t.dropWhile (fun c => decide (c ≠ '~')) <:+ ';' :: t := (List.dropWhile_suffix _).trans (List.suffix_cons _ _)
    split at h
    · cases h
    · cases h
    · cases h; exact this
  · cases h

theorem startProgram_stop {s x : Str} (h : startProgram s = .stop x) : x <:+ s := by
  unfold startProgram at h
  split at h
  · cases h
  · rename_i b r0 h0
    have s0 : r0 <:+ s := ⟨_, (beginEnd_some h0).symm⟩
    unfold programRest at h
    refine expect_suffix h s0 (fun r1 h1 h => ?_)
    have s1 := (blanks1_suffix h1).trans s0
    refine expect_suffix h s1 (fun r2 h2 h => ?_)
    have s2 := (lit_suffix h2).trans s1
    refine expect_suffix h s2 (fun r3 h3 h => ?_)
    have s3 := (blanks1_suffix h3).trans s2
    have s4 := (List.dropWhile_suffix inName).trans s3
    refine expect_suffix h s4 (fun r5 h5 h => ?_)
    have s5 := (blanks1_suffix h5).trans s4
    refine expect_suffix h s5 (fun u h6 h => ?_)
    have s6 : u.2 <:+ s := .trans ⟨_, (measure_some h6).symm⟩ s5
    refine expect_suffix h s6 (fun r7 h7 h => ?_)
    obtain ⟨e, _, e7⟩ := spaces_some h7
    have s7 : r7 <:+ s := .trans ⟨e, e7.symm⟩ s6
    refine expect_suffix h s7 (fun _ _ h => ?_)
    cases h

theorem quoted_stop {s x : Str} (h : quoted s = .stop x) : x <:+ s := by
  unfold quoted at h
  split at h
  · rename_i t
    have h0 : t <:+ '"' :: t := List.suffix_cons _ _
    have h1 := optRun_suffix inQuotes t
    split at h
    · cases h; exact h0
    · cases h
    · rename_i hr; cases h; rw [hr] at h1; exact h1.trans h0
  · cases h

theorem general_stop {s x : Str} (h : general s = .stop x) : x <:+ s := by
  unfold general at h
  split at h
  · cases h
  · cases h
  · rename_i at_ hw
    cases h
    unfold word at hw
    split at hw
    · cases hw
    · split at hw
      · cases hw
      · split at hw
        · cases hw
        · cases hw
        · exact quoted_stop hw

theorem orElse_stop {α : Type} {r : Res α} {f : α → Item} {y : Res Item} {x : Str} (h : orElse r f y = .stop x) :
    r = .stop x ∨ (r = .fail ∧ y = .stop x) := by
  cases r with
  | got b t => cases h
  | fail => exact .inr ⟨rfl, h⟩
  | stop _ => cases h; exact .inl rfl

theorem item_stop {s x : Str} (h : item s = .stop x) : x <:+ s := by
  refine .trans ?_ (skip_suffix s)
  unfold item at h
  rcases orElse_stop h with h | ⟨-, h⟩
  · exact cycleDef_stop h
  rcases orElse_stop h with h | ⟨-, h⟩
  · exact cycleParam_stop h
  rcases orElse_stop h with h | ⟨-, h⟩
  · exact comment_stop h
  rcases orElse_stop h with h | ⟨-, h⟩
  · exact startProgram_stop h
  rcases orElse_stop h with h | ⟨-, h⟩
  · exact general_stop h
  · cases h

theorem rest_refuse {pre ws : List Item} {s x : Str} (h : rest pre s = .refuse ws x) :
    ∃ vs a m, ws = pre ++ vs ∧ Words a vs ∧ s = a ++ m ++ x := by
  unfold rest at h
  split at h
  · rename_i vs at_ hi
    cases h
    obtain ⟨a, y, h1, h2, -, h4⟩ := items_words _ _ _ _ _ hi
    obtain ⟨m, hm⟩ := item_stop (h4 rfl)
    exact ⟨vs, a, m, rfl, h1, by rw [h2, ← hm, List.append_assoc]⟩
  · cases h; exact ⟨[], [], [], by simp, .nil blanks_none, rfl⟩
  · rename_i vs r hne hi
    split at h
    · cases h
    · cases h
      obtain ⟨a, y, h1, h2, h3, -⟩ := items_words _ _ _ _ _ hi
      obtain ⟨m, hm⟩ := skip_suffix r
      exact ⟨vs, a, m, rfl, h1, by rw [h2, h3 rfl, List.append_assoc, hm]⟩

/-- Where a line is refused: the words in front of the position were read. -/
theorem phrase_refuse {s x : Str} {ws : List Item} (h : phrase s = .refuse ws x) :
    ∃ a m, s = a ++ m ++ x ∧ (Words a ws ∨ ∃ k b n vs, a = k ++ b ∧ ws = .number n :: vs ∧ Numbered k n ∧ Words b vs) := by
  unfold phrase at h
  split at h
  · rename_i n r hn
    obtain ⟨k, hk, e⟩ := lineNumber_got hn
    obtain ⟨vs, a, m, rfl, h2, h3⟩ := rest_refuse h
    exact ⟨k ++ a, m, by rw [e, h3]; simp only [List.append_assoc], .inr ⟨k, a, n, vs, rfl, rfl, hk, h2⟩⟩
  · obtain ⟨vs, a, m, rfl, h2, h3⟩ := rest_refuse h
    obtain ⟨b, hb, e⟩ := skip_blanks s
    exact ⟨b ++ a, m, by rw [e, h3]; simp only [List.append_assoc], .inl (words_pre hb h2)⟩
  · rename_i at_ hn
    cases h
    have : x <:+ skip s := by
      unfold lineNumber at hn
      split at hn
      · cases hn
      · rename_i n r hu
        have hr : r <:+ skip s := by
          unfold uint at hu
          split at hu
          · rename_i d r' hd
            split at hu
            · cases hu
              have := optRun_suffix isDig (skip s)
              rw [hd] at this
              exact this
            · cases hu
          · cases hu
        split at hn
        · split at hn
          · cases hn
          · cases hn; exact hr
        · cases hn; exact hr
    obtain ⟨m, hm⟩ := this.trans (skip_suffix s)
    exact ⟨[], m, by rw [List.nil_append, hm], .inl (.nil blanks_none)⟩

end NC.Hei
