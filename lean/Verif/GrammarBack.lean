import Verif.GrammarProofs
import Verif.Spec.Source

/-! # Writing words and reading them again: lemmas -/

namespace NC.Gram
open NC NC.Message

/-- What may follow a written word: the end or a blank. -/
def Tail (t : Str) : Prop := ∀ c u, t = c :: u → isBlank c = true

theorem optRun_back {p : Char → Bool} {v x : Str} (hv : v ≠ []) (hp : ∀ c ∈ v, p c = true)
    (hx : ∀ c r, x = c :: r → p c = false) : optRun p (v ++ x) = (some v, x) := by
  have h0 : x.takeWhile p = [] ∧ x.dropWhile p = x := by
    cases x with
    | nil => exact ⟨rfl, rfl⟩
    | cons c r =>
      have := hx c r rfl
      exact ⟨List.takeWhile_cons_of_neg (by simp [this]), List.dropWhile_cons_of_neg (by simp [this])⟩
  have h1 : (v ++ x).takeWhile p = v := by
    rw [List.takeWhile_append_of_pos hp, h0.1, List.append_nil]
  have h2 : (v ++ x).dropWhile p = x := by
    rw [List.dropWhile_append_of_pos hp, h0.2]
  unfold optRun
  rw [h1, h2]
  cases v with
  | nil => exact absurd rfl hv
  | cons c v => rfl

theorem optRun_back_none {p : Char → Bool} {x : Str} (hx : ∀ c r, x = c :: r → p c = false) :
    optRun p x = (none, x) := by
  unfold optRun
  cases x with
  | nil => rfl
  | cons c r => rw [List.takeWhile_cons_of_neg (by simp [hx c r rfl])]

theorem hd_cons {c : Char} {x : Str} (h : isBlank c = false) : hd (c :: x) = some c := by
  unfold hd; rw [skip_of_not h]; rfl

theorem hd_append {v x : Str} (hv : v ≠ []) (hb : ∀ c ∈ v, isBlank c = false) : hd (v ++ x) = v.head? := by
  cases v with
  | nil => exact absurd rfl hv
  | cons c v => rw [List.cons_append, hd_cons (hb c (by simp))]; rfl

theorem skip_append {v x : Str} (hv : v ≠ []) (hb : ∀ c ∈ v, isBlank c = false) : skip (v ++ x) = v ++ x := by
  cases v with
  | nil => exact absurd rfl hv
  | cons c v => rw [List.cons_append, skip_of_not (hb c (by simp))]

theorem head_of_hd {x : Str} {c : Char} {r : Str} (h : skip x = c :: r) : hd x = some c := by unfold hd; rw [h]; rfl

theorem dig_not_blank {c : Char} (h : isDig c = true) : isBlank c = false := by
  have := isDig_not_sp h
  simp only [isSp, Bool.or_eq_false_iff, decide_eq_false_iff_not] at this
  simp only [isBlank, Bool.or_eq_false_iff, decide_eq_false_iff_not]
  exact ⟨this.1.1.1.1.1, this.1.1.1.1.2⟩

theorem isClose_iff {c : Char} : isClose c = true ↔ c = ']' := by simp [isClose]
theorem isOpen_iff {c : Char} : isOpen c = true ↔ c = '[' := by simp [isOpen]

/-- From the macro sign on, as written. -/
def vtxt (d : Dec) : Str := d.mac.getD [] ++ (d.value.getD [] ++ (d.dot.toList ++ (d.value2.getD [] ++ d.closeB.getD [])))

theorem value_skip (w : Str) (a g : Option Char) (o : Option Str) (s : Str) : value w a g o (skip s) = value w a g o s := by
  have : optHash (skip s) = optHash s := by unfold optHash; rw [skip_skip]
  unfold value
  rw [this]

/-- The characters a written value can begin with. -/
def isMark (c : Char) : Bool := c = '#' || isDig c || c = '.' || c = ']'

theorem blank_not {c : Char} (h : isBlank c = true) : isDig c = false ∧ c ≠ '.' ∧ c ≠ ']' ∧ c ≠ '[' ∧ c ≠ '#' := by
  simp only [isBlank, Bool.or_eq_true, decide_eq_true_eq] at h
  rcases h with rfl | rfl <;> decide

/-- The closing brackets and what follows. -/
theorem close_back {x t : Str} (ht : Tail t) (hh : hd t = hd (optRun isClose (skip x)).2) :
    (∃ t', optRun isClose (skip ((optRun isClose (skip x)).1.getD [] ++ t)) = ((optRun isClose (skip x)).1, t') ∧
      skip t' = skip t) ∧
    hd ((optRun isClose (skip x)).1.getD [] ++ t) = hd x ∧
    (∀ c r, (optRun isClose (skip x)).1.getD [] ++ t = c :: r → c = ']' ∨ isBlank c = true) := by
  cases hc : (optRun isClose (skip x)).1 with
  | some b =>
    obtain ⟨h1, h2, h3, h4⟩ := optRun_some hc
    have hb : ∀ c ∈ b, isBlank c = false := by intro c hc; rw [isClose_iff.mp (h2 c hc)]; decide
    simp only [Option.getD_some]
    refine ⟨⟨t, ?_, rfl⟩, ?_, ?_⟩
    · rw [skip_append h1 hb]
      refine optRun_back h1 h2 ?_
      intro c r hcr
      have := (blank_not (ht c r hcr)).2.2.1
      simp [isClose, this]
    · rw [hd_append h1 hb]
      rw [← hd_skip x, h3, hd_append h1 hb]
    · intro c r hcr
      cases b with
      | nil => exact absurd rfl h1
      | cons y b =>
        rw [List.cons_append] at hcr
        cases hcr
        exact .inl (isClose_iff.mp (h2 _ (by simp)))
  | none =>
    obtain ⟨h1, h2⟩ := optRun_none hc
    rw [h1, hd_skip] at hh
    simp only [Option.getD_none, List.nil_append]
    refine ⟨⟨skip t, ?_, skip_skip t⟩, hh, ?_⟩
    · refine optRun_back_none ?_
      intro c r hcr
      have e1 : hd x = some c := by rw [← hh]; exact head_of_hd hcr
      unfold hd at e1
      cases hx : skip x with
      | nil => rw [hx] at e1; cases e1
      | cons y z => rw [hx] at e1; cases e1; exact h2 _ _ hx
    · intro c r hcr
      exact .inr (ht c r hcr)

/-- A written value is read back. -/
theorem value_back (w : Str) (a g : Option Char) (o : Option Str) (s t : Str) (ht : Tail t)
    (hh : hd t = hd (value w a g o s).2) :
    (∃ t', value w a g o (vtxt (value w a g o s).1 ++ t) = ((value w a g o s).1, t') ∧ skip t' = skip t) ∧
    hd (vtxt (value w a g o s).1 ++ t) = hd s ∧
    (∀ c r, vtxt (value w a g o s).1 ++ t = c :: r → isMark c = true ∨ isBlank c = true) := by
  have hsh := value_shape w none none none s (by simp) (by simp) (by simp)
  have e0 : ∀ w a g o, value w a g o s =
      (⟨w, a, g, o, (optHash s).1, (optRun isDig (skip (optHash s).2)).1, (optDot (optRun isDig (skip (optHash s).2)).2).1,
        (optRun isDig (optDot (optRun isDig (skip (optHash s).2)).2).2).1,
        (optRun isClose (skip (optRun isDig (optDot (optRun isDig (skip (optHash s).2)).2).2).2)).1⟩,
        (optRun isClose (skip (optRun isDig (optDot (optRun isDig (skip (optHash s).2)).2).2).2)).2) := fun _ _ _ _ => rfl
  rw [e0] at hh hsh ⊢
  unfold vtxt
  dsimp only at hh hsh ⊢
  set m := optHash s with hm
  set v := optRun isDig (skip m.2) with hv
  set p := optDot v.2 with hp
  set q := optRun isDig p.2 with hq
  set k := optRun isClose (skip q.2) with hk
  obtain ⟨⟨t', k1, k2⟩, k3, k4⟩ := close_back (x := q.2) ht hh
  rw [← hk] at k1 k3 k4
  -- the texts that remain
  set T4 := k.1.getD [] ++ t with hT4
  have t4dig : ∀ c r, T4 = c :: r → isDig c = false := by
    intro c r h
    rcases k4 c r h with rfl | hb
    · decide
    · exact (blank_not hb).1
  have t4dot : ∀ c r, T4 = c :: r → c ≠ '.' := by
    intro c r h
    rcases k4 c r h with rfl | hb
    · decide
    · exact (blank_not hb).2.1
  have q3 : optRun isDig (q.1.getD [] ++ T4) = (q.1, T4) := by
    cases hq1 : q.1 with
    | none => exact optRun_back_none t4dig
    | some f =>
      obtain ⟨f1, f2, _⟩ := optRun_some hq1
      exact optRun_back f1 f2 t4dig
  set T3 := q.1.getD [] ++ T4 with hT3
  have dotcases := optDot_cases v.2
  rw [← hp] at dotcases
  have q2 : optDot (p.1.toList ++ T3) = (p.1, T3) := by
    rcases dotcases with ⟨r, hr, e⟩ | ⟨e, hn⟩
    · rw [e]; rfl
    · have hp1 : p.1 = none := by rw [e]
      have hq1 : q.1 = none := by
        cases hq1 : q.1 with
        | none => rfl
        | some f => have := (hsh.value2 f hq1).2.2; rw [hp1] at this; cases this
      rw [hp1]
      have : T3 = T4 := by rw [hT3, hq1]; rfl
      rw [this]
      show optDot T4 = (none, T4)
      rcases optDot_cases T4 with ⟨r, hr, _⟩ | ⟨e, _⟩
      · exact absurd rfl (t4dot _ _ hr)
      · exact e
  set T2 := p.1.toList ++ T3 with hT2
  -- from the digits on
  have hT2dig : ∀ c r, T2 = c :: r → isDig c = false := by
    intro c r h
    rcases dotcases with ⟨r', hr, e⟩ | ⟨e, hn⟩
    · rw [hT2, e] at h; cases h; decide
    · have hp1 : p.1 = none := by rw [e]
      have hq1 : q.1 = none := by
        cases hq1 : q.1 with
        | none => rfl
        | some f => have := (hsh.value2 f hq1).2.2; rw [hp1] at this; cases this
      rw [hT2, hp1, hT3, hq1] at h
      exact t4dig c r h
  have hT2m : ∀ c r, T2 = c :: r → isMark c = true ∨ isBlank c = true := by
    intro c r h
    rcases dotcases with ⟨r', hr, e⟩ | ⟨e, hn⟩
    · rw [hT2, e] at h; cases h; left; decide
    · have hp1 : p.1 = none := by rw [e]
      have hq1 : q.1 = none := by
        cases hq1 : q.1 with
        | none => rfl
        | some f => have := (hsh.value2 f hq1).2.2; rw [hp1] at this; cases this
      rw [hT2, hp1, hT3, hq1] at h
      rcases k4 c r h with rfl | hb
      · left; decide
      · exact .inr hb
  have body : ∃ t', (let v' := optRun isDig (skip (v.1.getD [] ++ T2))
      let p' := optDot v'.2
      let q' := optRun isDig p'.2
      let k' := optRun isClose (skip q'.2)
      (v'.1, p'.1, q'.1, k'.1, k'.2)) = (v.1, p.1, q.1, k.1, t') ∧ skip t' = skip t := by
    cases hv1 : v.1 with
    | some ds =>
      obtain ⟨d1, d2, _⟩ := optRun_some hv1
      have e1 : optRun isDig (skip (ds ++ T2)) = (some ds, T2) := by
        rw [skip_append d1 (fun c hc => dig_not_blank (d2 c hc))]
        exact optRun_back d1 d2 hT2dig
      simp only [Option.getD_some]
      rw [e1]
      dsimp only
      rw [q2]
      dsimp only
      rw [q3]
      dsimp only
      exact ⟨t', by rw [k1], k2⟩
    | none =>
      obtain ⟨n1, n2⟩ := optRun_none hv1
      rw [← hv] at n1
      simp only [Option.getD_none, List.nil_append]
      rcases dotcases with ⟨r, hr, e⟩ | ⟨e, hn⟩
      · have hp1 : p.1 = some '.' := by rw [e]
        have e2 : skip T2 = T2 := by
          rw [hT2, hp1]; exact skip_of_not (by decide)
        rw [e2, optRun_back_none hT2dig]
        dsimp only
        rw [q2]
        dsimp only
        rw [q3]
        dsimp only
        exact ⟨t', by rw [k1], k2⟩
      · have hp1 : p.1 = none := by rw [e]
        have hp2 : p.2 = v.2 := by rw [e]
        have hq1 : q.1 = none := by
          cases hq1 : q.1 with
          | none => rfl
          | some f => have := (hsh.value2 f hq1).2.2; rw [hp1] at this; cases this
        have hq2 : q.2 = p.2 := by
          have := (optRun_none hq1).1
          rw [← hq] at this
          exact this
        have eT : T2 = T4 := by rw [hT2, hp1, hT3, hq1]; rfl
        have eh : hd T4 = (skip m.2).head? := by
          rw [k3, hq2, hp2, n1, hd_skip]; rfl
        have ehead : ∀ c r, skip T4 = c :: r → isDig c = false ∧ c ≠ '.' := by
          intro c r h
          have := head_of_hd h
          rw [eh] at this
          cases hx : skip m.2 with
          | nil => rw [hx] at this; cases this
          | cons y z =>
            rw [hx] at this; cases this
            refine ⟨n2 _ _ hx, ?_⟩
            rintro rfl
            exact hn z (by rw [n1, hx])
        rw [eT, optRun_back_none (fun c r h => (ehead c r h).1)]
        dsimp only
        have ed : optDot (skip T4) = (none, skip T4) := by
          rcases optDot_cases (skip T4) with ⟨r, hr, _⟩ | ⟨e, _⟩
          · exact absurd rfl (ehead _ _ hr).2
          · exact e
        rw [ed]
        dsimp only
        rw [optRun_back_none (fun c r h => (ehead c r h).1)]
        dsimp only
        rw [skip_skip, hp1, hq1]
        exact ⟨t', by rw [k1], k2⟩
  have hT1hd : hd (v.1.getD [] ++ T2) = hd m.2 := by
    cases hv1 : v.1 with
    | some ds =>
      obtain ⟨d1, d2, d3, _⟩ := optRun_some hv1
      have db : ∀ c ∈ ds, isBlank c = false := fun c hc => dig_not_blank (d2 c hc)
      rw [Option.getD_some, hd_append d1 db, ← hd_skip m.2, d3, hd_append d1 db]
    | none =>
      obtain ⟨n1, n2⟩ := optRun_none hv1
      rw [← hv] at n1
      rw [Option.getD_none, List.nil_append]
      rcases dotcases with ⟨r, hr, e⟩ | ⟨e, hn⟩
      · have hp1 : p.1 = some '.' := by rw [e]
        have : hd T2 = some '.' := by rw [hT2, hp1]; exact hd_cons (by decide)
        rw [this, ← hd_skip m.2, ← n1, hr, hd_cons (by decide)]
      · have hp1 : p.1 = none := by rw [e]
        have hp2 : p.2 = v.2 := by rw [e]
        have hq1 : q.1 = none := by
          cases hq1 : q.1 with
          | none => rfl
          | some f => have := (hsh.value2 f hq1).2.2; rw [hp1] at this; cases this
        have hq2 : q.2 = p.2 := by
          have := (optRun_none hq1).1
          rw [← hq] at this
          exact this
        have eT : T2 = T4 := by rw [hT2, hp1, hT3, hq1]; rfl
        rw [eT, k3, hq2, hp2, n1, hd_skip]
  have hT1m : ∀ c r, v.1.getD [] ++ T2 = c :: r → isMark c = true ∨ isBlank c = true := by
    intro c r h
    cases hv1 : v.1 with
    | some ds =>
      obtain ⟨d1, d2, d3, _⟩ := optRun_some hv1
      rw [hv1, Option.getD_some] at h
      cases ds with
      | nil => exact absurd rfl d1
      | cons y ds => rw [List.cons_append] at h; cases h; left; simp [isMark, d2 c (by simp)]
    | none => rw [hv1, Option.getD_none, List.nil_append] at h; exact hT2m c r h
  obtain ⟨t'', b1, b2⟩ := body
  have assoc : m.1.getD [] ++ (v.1.getD [] ++ (p.1.toList ++ (q.1.getD [] ++ k.1.getD []))) ++ t =
      m.1.getD [] ++ (v.1.getD [] ++ T2) := by
    rw [hT2, hT3, hT4]; simp
  rw [assoc]
  set T1 := v.1.getD [] ++ T2 with hT1
  have unfoldv : ∀ x, value w a g o x =
      (⟨w, a, g, o, (optHash x).1, (optRun isDig (skip (optHash x).2)).1, (optDot (optRun isDig (skip (optHash x).2)).2).1,
        (optRun isDig (optDot (optRun isDig (skip (optHash x).2)).2).2).1,
        (optRun isClose (skip (optRun isDig (optDot (optRun isDig (skip (optHash x).2)).2).2).2)).1⟩,
        (optRun isClose (skip (optRun isDig (optDot (optRun isDig (skip (optHash x).2)).2).2).2)).2) := fun _ => rfl
  simp only [Prod.mk.injEq] at b1
  obtain ⟨c1, c2, c3, c4, c5⟩ := b1
  rcases optHash_cases s with ⟨r, hr, e⟩ | ⟨e, hn⟩
  · rw [← hm] at e
    have hm1 : m.1 = some c!"#" := by rw [e]
    rw [hm1]
    have e1 : optHash (c!"#" ++ T1) = (some c!"#", T1) := rfl
    refine ⟨⟨t'', ?_, b2⟩, ?_, ?_⟩
    · rw [Option.getD_some, unfoldv, e1]
      dsimp only
      rw [c1, c2, c3, c4, c5]
    · rw [Option.getD_some, head_of_hd hr]; exact hd_cons (by decide)
    · intro c r h
      rw [Option.getD_some] at h
      cases h; left; decide
  · rw [← hm] at e
    have hm1 : m.1 = none := by rw [e]
    have hm2 : m.2 = skip s := by rw [e]
    rw [hm1, Option.getD_none, List.nil_append]
    have hh2 : hd T1 = hd s := by rw [hT1hd, hm2, hd_skip]
    have e1 : optHash T1 = (none, skip T1) := by
      rcases optHash_cases T1 with ⟨r, hr, _⟩ | ⟨e, _⟩
      · exfalso; apply hn; rw [← hh2]; exact head_of_hd hr
      · exact e
    refine ⟨⟨t'', ?_, b2⟩, hh2, hT1m⟩
    rw [unfoldv, e1]
    dsimp only
    rw [skip_skip, c1, c2, c3, c4, c5]

/-- From the sign on, as written. -/
def otxt (d : Dec) : Str := d.sign.toList ++ (d.openB.getD [] ++ vtxt d)

/-- The characters a written operand can begin with. -/
def isMark' (c : Char) : Bool := isMark c || c = '[' || c = '-' || c = '+'

theorem sign_back (s x : Str) (hx : hd x = hd (optSign s).2) :
    (∃ x', optSign ((optSign s).1.toList ++ x) = ((optSign s).1, x') ∧ skip x' = skip x) ∧
      hd ((optSign s).1.toList ++ x) = hd s := by
  rcases optSign_cases s with ⟨c, r, hc, hr, e⟩ | ⟨e, n1, n2⟩
  · rw [e]
    rw [e] at hx
    have hb : isBlank c = false := by rcases hc with rfl | rfl <;> decide
    refine ⟨⟨x, ?_, rfl⟩, ?_⟩
    · show optSign (c :: x) = _
      unfold optSign
      rw [skip_of_not hb]
      rcases hc with rfl | rfl <;> rfl
    · rw [head_of_hd hr]; exact hd_cons hb
  · rw [e] at hx ⊢
    rw [hd_skip] at hx
    refine ⟨⟨skip x, ?_, skip_skip x⟩, hx⟩
    show optSign x = _
    rcases optSign_cases x with ⟨c, r, hc, hr, _⟩ | ⟨e', _⟩
    · exfalso
      have := head_of_hd hr
      rw [hx] at this
      rcases hc with rfl | rfl
      · exact n1 this
      · exact n2 this
    · exact e'

/-- A written operand is read back. -/
theorem operand_back (w : Str) (a : Option Char) (s t : Str) (ht : Tail t) (hh : hd t = hd (operand w a s).2) :
    (∃ t', operand w a (otxt (operand w a s).1 ++ t) = ((operand w a s).1, t') ∧ skip t' = skip t) ∧
    hd (otxt (operand w a s).1 ++ t) = hd s ∧
    (∀ c r, otxt (operand w a s).1 ++ t = c :: r → isMark' c = true ∨ isBlank c = true) := by
  have e0 : ∀ x, operand w a x = value w a (optSign x).1 (optRun isOpen (skip (optSign x).2)).1
    (optRun isOpen (skip (optSign x).2)).2 := fun _ => rfl
  set g := optSign s with hg
  set o := optRun isOpen (skip g.2) with ho
  have es : operand w a s = value w a g.1 o.1 o.2 := e0 s
  rw [es] at hh
  obtain ⟨⟨t', v1, v2⟩, v3, v4⟩ := value_back w a g.1 o.1 o.2 t ht hh
  have et : otxt (operand w a s).1 ++ t = g.1.toList ++ (o.1.getD [] ++ (vtxt (value w a g.1 o.1 o.2).1 ++ t)) := by
    rw [es]; unfold otxt
    obtain ⟨_, _, x3, x4⟩ := value_word w a g.1 o.1 o.2
    rw [x3, x4]; simp
  set T := vtxt (value w a g.1 o.1 o.2).1 ++ t with hT
  have hTopen : ∀ c r, T = c :: r → isOpen c = false := by
    intro c r h
    rcases v4 c r h with hm | hb
    · cases hc : isOpen c with
      | false => rfl
      | true => rw [isOpen_iff.mp hc] at hm; exact absurd hm (by decide)
    · have := (blank_not hb).2.2.2.1
      simp [isOpen, this]
  -- the opening brackets
  have open_back : (∃ x, optRun isOpen (skip (o.1.getD [] ++ T)) = (o.1, x) ∧ (x = T ∨ x = skip T)) ∧
      hd (o.1.getD [] ++ T) = hd g.2 := by
    cases ho1 : o.1 with
    | some b =>
      obtain ⟨b1, b2, b3, _⟩ := optRun_some ho1
      have bb : ∀ c ∈ b, isBlank c = false := by intro c hc; rw [isOpen_iff.mp (b2 c hc)]; decide
      rw [Option.getD_some]
      refine ⟨⟨T, ?_, .inl rfl⟩, ?_⟩
      · rw [skip_append b1 bb]; exact optRun_back b1 b2 hTopen
      · rw [hd_append b1 bb, ← hd_skip g.2, b3, hd_append b1 bb]
    | none =>
      obtain ⟨n1, n2⟩ := optRun_none ho1
      rw [← ho] at n1
      rw [Option.getD_none, List.nil_append]
      have hd2 : hd T = hd g.2 := by rw [v3, n1, hd_skip]
      refine ⟨⟨skip T, ?_, .inr rfl⟩, hd2⟩
      refine optRun_back_none ?_
      intro c r h
      have := head_of_hd h
      rw [hd2] at this
      unfold hd at this
      cases hx : skip g.2 with
      | nil => rw [hx] at this; cases this
      | cons y z => rw [hx] at this; cases this; exact n2 _ _ hx
  obtain ⟨⟨x, o1, o2⟩, o3⟩ := open_back
  obtain ⟨⟨x', s1, s2⟩, s3⟩ := sign_back s (o.1.getD [] ++ T) (by rw [o3])
  rw [← hg] at s1 s3
  have hval : value w a g.1 o.1 x = ((operand w a s).1, t') := by
    rw [es, ← v1]
    rcases o2 with rfl | rfl
    · rfl
    · exact value_skip _ _ _ _ _
  refine ⟨⟨t', ?_, v2⟩, ?_, ?_⟩
  · rw [et, e0, s1]
    dsimp only
    rw [s2, o1]
    exact hval
  · rw [et]; exact s3
  · intro c r h
    rw [et] at h
    cases hg1 : g.1 with
    | some y =>
      rw [hg1] at h
      cases h
      have hc : c = '-' ∨ c = '+' := by
        rcases optSign_cases s with ⟨y, r', hy, _, e⟩ | ⟨e, _⟩
        · rw [hg, e] at hg1; cases hg1; exact hy
        · rw [hg, e] at hg1; cases hg1
      left
      rcases hc with rfl | rfl <;> decide
    | none =>
      rw [hg1] at h
      cases ho1 : o.1 with
      | some b =>
        obtain ⟨b1, b2, _⟩ := optRun_some ho1
        rw [ho1] at h
        cases b with
        | nil => exact absurd rfl b1
        | cons y b => cases h; rw [isOpen_iff.mp (b2 c (by simp))]; left; decide
      | none =>
        rw [ho1] at h
        rcases v4 c r h with hm | hb
        · left; simp [isMark', hm]
        · exact .inr hb

end NC.Gram
