import Verif.Effect
import Verif.Props.Below
import Verif.Props.Endure

/-! # C91: what a variable is worth on a line -/

namespace NC.Props
open NC NC.Srv NC.Pipe NC.Macro NC.Calc NC.Spec NC.Spec.Lines NC.Spec.Variables NC.Spec.Survive

/-- The parser that has checked the lines of a text before line `k` (counted from zero). -/
def Before (S : Setup) (t : Str) (k : Nat) (p : Parser) : Prop :=
  ∃ rs, Rejects Whole.parseLine (S, Pipe.fresh S) 0 ((splitLines t).take k) (S, p) rs

/-- The lines record values for their own numbers. -/
theorem rejects_wrote {x x' : Setup × Parser} {n : Nat} {ls : List Str} {rs : List (Nat × Str × Str)}
    (h : Rejects Whole.parseLine x n ls x' rs) (hm : x.2.macros.Sorted) :
    x'.1 = x.1 ∧ Wrote (fun k => (n : Int) < k.line ∧ k.line ≤ (n + ls.length : Nat)) x.2.macros x'.2.macros := by
  have one : ∀ {x y : Setup × Parser} {n : Nat} {l : Str} {a : Bool} {m : Str} (ls : List Str), x.2.macros.Sorted →
      Whole.parseLine x (n + 1) l = .ok (y, a, m) →
      y.1 = x.1 ∧ Wrote (fun k => (n : Int) < k.line ∧ k.line ≤ (n + (l :: ls).length : Nat)) x.2.macros y.2.macros := by
    intro x y n l a m ls hm hy
    obtain ⟨S, p⟩ := x
    obtain ⟨m', -, -, rfl⟩ := parseLine_ok hy
    refine ⟨rfl, ?_⟩
    have h1 := parse_wrote (S := S) (o := serverOptions) (line := ((n + 1 : Nat) : Int)) l p hm
    exact h1.mono (fun k hk => by rw [List.length_cons]; push_cast at hk ⊢; omega)
  induction h with
  | done => exact ⟨rfl, .refl hm⟩
  | blank _ ih =>
    obtain ⟨h1, h2⟩ := ih hm
    exact ⟨h1, h2.mono (fun k hk => by rw [List.length_cons]; push_cast at hk ⊢; omega)⟩
  | accepted hl hc _ ih =>
    obtain ⟨k1, k2⟩ := one _ hm hc
    obtain ⟨h1, h2⟩ := ih k2.sorted
    exact ⟨h1.trans k1, k2.trans (h2.mono (fun k hk => by rw [List.length_cons]; push_cast at hk ⊢; omega))⟩
  | rejected hl hc _ ih =>
    obtain ⟨k1, k2⟩ := one _ hm hc
    obtain ⟨h1, h2⟩ := ih k2.sorted
    exact ⟨h1.trans k1, k2.trans (h2.mono (fun k hk => by rw [List.length_cons]; push_cast at hk ⊢; omega))⟩

section
variable (R : Whole.Rest) {s : Conf.Settings} {g : Conf.Words} {gc mc : Ver.Groups} {t : Str} {r : Parsed}
  (hr : runCode (Whole.server R) s g gc mc t = .ok r) {S : Setup} (hS : Pipe.configure (Conf.setupOf R.env s g gc mc) = .ok S)
include hr hS

/-- There is such a parser, and the variables of the document are its variables up to that line. -/
theorem before_exists (k : Nat) : ∃ p, Before S t k p := by
  obtain ⟨x, y, a, hx, hy, -, -⟩ := runCode_take R hr k
  unfold Whole.freshParser at hx
  rw [hS] at hx
  cases hx
  obtain ⟨rs, vs, h1, -⟩ := parseLoop_ok _ _ _ _ _ _ hy
  have := (rejects_wrote h1 (fresh_sorted S)).1
  obtain ⟨S', p⟩ := y
  cases this
  exact ⟨p, rs, h1⟩

theorem before_values {k : Nat} {p : Parser} (hp : Before S t k p) (i : Nat) {L : Int} (hL : L ≤ k) :
    r.macros.valueAt i L = p.macros.valueAt i L := by
  obtain ⟨x, y, a, hx, hy, -, hv⟩ := runCode_take R hr k
  unfold Whole.freshParser at hx
  rw [hS] at hx
  cases hx
  obtain ⟨rs, vs, h1, -⟩ := parseLoop_ok _ _ _ _ _ _ hy
  obtain ⟨rs', h2⟩ := hp
  obtain ⟨rfl, -⟩ := rejects_unique _ _ _ _ _ _ _ h1 h2
  exact hv i L hL

omit hr hS in
theorem before_sorted {k : Nat} {p : Parser} (hp : Before S t k p) : p.macros.Sorted ∧
    ∀ i (l : Int), (k : Int) < l → p.macros.get ⟨i, l⟩ = none := by
  obtain ⟨rs, h⟩ := hp
  obtain ⟨-, hw⟩ := rejects_wrote h (fresh_sorted S)
  refine ⟨hw.sorted, fun i l hl => ?_⟩
  rw [hw.others ⟨i, l⟩ (by
    rintro ⟨-, h2⟩
    have : ((splitLines t).take k).length ≤ k := by rw [List.length_take]; omega
    push_cast at h2
    omega)]
  show (initMacros S).get ⟨i, l⟩ = none
  unfold initMacros
  rw [MacroMap.get_emplace (MacroMap.sorted_emplace MacroMap.sorted_nil _ _), if_neg, MacroMap.get_emplace MacroMap.sorted_nil, if_neg]
  · rfl
  · intro e; simp only [MKey.mk.injEq] at e; omega
  · intro e; simp only [MKey.mk.injEq] at e; omega

omit hr hS in
theorem before_next {k : Nat} {p q : Parser} {l : Str} {a : Bool} {m : Option Str} (hp : Before S t k p) (hk : (splitLines t)[k]? = some l) (hl : l ≠ [])
    (h : parse S serverOptions (k + 1 : Nat) l p = (q, .ok (a, m))) : Before S t (k + 1) q := by
  obtain ⟨rs, hp⟩ := hp
  have hlen : k < (splitLines t).length := by
    by_contra hn
    rw [List.getElem?_eq_none (by omega)] at hk
    cases hk
  have e : (splitLines t).take (k + 1) = (splitLines t).take k ++ [l] := by
    rw [List.take_add_one, hk]; rfl
  have hlen2 : ((splitLines t).take k).length = k := by rw [List.length_take]; omega
  have hc : Whole.parseLine (S, p) (k + 1) l = .ok ((S, q), a, m.getD []) := by
    unfold Whole.parseLine
    dsimp only
    rw [h]
  have join : ∀ (l1 : List Str) (x y z : Setup × Parser) (n : Nat) (rs rs' : List (Nat × Str × Str)) (l2 : List Str), Rejects Whole.parseLine x n l1 y rs →
      Rejects Whole.parseLine y (n + l1.length) l2 z rs' → Rejects Whole.parseLine x n (l1 ++ l2) z (rs ++ rs') := by
    intro l1
    induction l1 with
    | nil => intro x y z n rs rs' l2 h1 h2; cases h1; exact h2
    | cons c l1 ih =>
      intro x y z n rs rs' l2 h1 h2
      have e : n + (c :: l1).length = n + 1 + l1.length := by simp; omega
      rw [e] at h2
      cases h1 with
      | blank h1 => exact .blank (ih _ _ _ _ _ _ _ h1 h2)
      | accepted k1 k2 h1 => exact .accepted k1 k2 (ih _ _ _ _ _ _ _ h1 h2)
      | rejected k1 k2 h1 => exact .rejected k1 k2 (ih _ _ _ _ _ _ _ h1 h2)
  unfold Before
  rw [e]
  cases a with
  | true => exact ⟨_, join _ _ _ _ _ _ _ _ hp (by rw [Nat.zero_add, hlen2]; exact .accepted hl hc (.done _ _))⟩
  | false => exact ⟨_, join _ _ _ _ _ _ _ _ hp (by rw [Nat.zero_add, hlen2]; exact .rejected hl hc (.done _ _))⟩

/-! ## The properties -/

/-- C91: before the first line the constants have their values and no other variable has one. -/
theorem C91_start (i : Nat) : r.macros.valueAt i 0 = if i = 3101 then some S.pi else if i = 3102 then some S.e else none := by
  obtain ⟨p, hp⟩ := before_exists R hr hS 0
  have hp' := hp
  obtain ⟨rs, h⟩ := hp'
  rw [before_values R hr hS hp i (by simp)]
  rw [List.take_zero] at h
  cases h
  show (initMacros S).valueAt i 0 = _
  unfold initMacros
  have hs := MacroMap.sorted_emplace (MacroMap.sorted_emplace (V := ℚ) MacroMap.sorted_nil ⟨3101, -1⟩ S.pi) ⟨3102, -1⟩ S.e
  have hg : ∀ l : Int, ((MacroMap.emplace [] ⟨3101, -1⟩ S.pi).emplace ⟨3102, -1⟩ S.e).get ⟨i, l⟩ =
      if l = -1 then (if i = 3101 then some S.pi else if i = 3102 then some S.e else none) else none := by
    intro l
    rw [MacroMap.get_emplace (MacroMap.sorted_emplace MacroMap.sorted_nil _ _), MacroMap.get_emplace MacroMap.sorted_nil,
      MacroMap.get_emplace MacroMap.sorted_nil]
    simp only [MKey.mk.injEq]
    by_cases h0 : l = -1
    · subst h0
      by_cases h1 : i = 3102
      · subst h1; simp [MacroMap.get]
      · by_cases h2 : i = 3101
        · subst h2; simp [MacroMap.get]
        · simp [h1, h2, MacroMap.get]
    · simp [h0, MacroMap.get]
  by_cases h1 : i = 3101
  · rw [if_pos h1, MacroMap.valueAt_eq_some hs]
    exact ⟨-1, by omega, by rw [hg, if_pos rfl, if_pos h1], fun l' h1 h2 => by rw [hg, if_neg (by omega)]⟩
  · by_cases h2 : i = 3102
    · rw [if_neg h1, if_pos h2, MacroMap.valueAt_eq_some hs]
      exact ⟨-1, by omega, by rw [hg, if_pos rfl, if_neg h1, if_pos h2], fun l' h1 h2 => by rw [hg, if_neg (by omega)]⟩
    · rw [if_neg h1, if_neg h2, MacroMap.valueAt_eq_none hs]
      intro l hl
      rw [hg]
      simp [h1, h2]

/-- Values on the line and above, by what is recorded for the line. -/
theorem value_step {k : Nat} {p q : Parser} (hp : Before S t k p) (hq : Before S t (k + 1) q) (i : Nat) :
    r.macros.valueAt i (k + 1 : Nat) = (q.macros.get ⟨i, (k + 1 : Nat)⟩).or (r.macros.valueAt i k) := by
  rw [before_values R hr hS hq i le_rfl]
  have hqs := (before_sorted hq).1
  rw [before_values R hr hS hq i (by push_cast; omega : ((k : Nat) : Int) ≤ _)]
  cases hg : q.macros.get ⟨i, (k + 1 : Nat)⟩ with
  | some v => exact MacroMap.valueAt_of_get hqs hg
  | none =>
    simp only [Option.none_or]
    cases hv : q.macros.valueAt i k with
    | none =>
      rw [MacroMap.valueAt_eq_none hqs] at hv ⊢
      intro l hl
      by_cases h : l = (k + 1 : Nat)
      · rw [h, hg]
      · exact hv l (by push_cast at *; omega)
    | some v =>
      rw [MacroMap.valueAt_eq_some hqs] at hv ⊢
      obtain ⟨l, h1, h2, h3⟩ := hv
      refine ⟨l, by push_cast; omega, h2, fun l' k1 k2 => ?_⟩
      by_cases h : l' = (k + 1 : Nat)
      · rw [h, hg]
      · exact h3 l' k1 (by push_cast at *; omega)

/-- C91: an empty line changes no variable. -/
theorem C91_blank (k : Nat) (hk : (splitLines t)[k]? = some []) (i : Nat) : r.macros.valueAt i (k + 1 : Nat) = r.macros.valueAt i k := by
  obtain ⟨p, hp⟩ := before_exists R hr hS (k + 1)
  have hs := (before_sorted hp).1
  obtain ⟨q, hq⟩ := before_exists R hr hS k
  have e : (splitLines t).take (k + 1) = (splitLines t).take k ++ [[]] := by
    rw [List.take_add_one, hk]; rfl
  have : p = q := by
    obtain ⟨rs, h⟩ := hp
    rw [e] at h
    obtain ⟨y, r1, r2, h1, h2, -⟩ := rejects_split _ _ _ _ _ _ h
    obtain ⟨rs', h'⟩ := hq
    obtain ⟨rfl, -⟩ := rejects_unique _ _ _ _ _ _ _ h1 h'
    cases h2 with
    | blank h2 => cases h2; rfl
    | accepted hl => exact absurd rfl hl
    | rejected hl => exact absurd rfl hl
  subst this
  rw [value_step R hr hS hq hp, (before_sorted hq).2 i _ (by push_cast; omega), Option.none_or]

/-- C91: a line without macro sign, accepted or not, changes no variable but those the control keeps words in. -/
theorem C91_kept (k : Nat) (l : Str) (hk : (splitLines t)[k]? = some l) (hh : '#' ∉ l) (i : Nat)
    (hi : (∀ a, i ∉ sysOf a) ∧ ¬ toolVariable i) : r.macros.valueAt i (k + 1 : Nat) = r.macros.valueAt i k := by
  by_cases hl : l = []
  · subst hl; exact C91_blank R hr hS k hk i
  obtain ⟨p, hp⟩ := before_exists R hr hS k
  obtain ⟨q, hq⟩ := before_exists R hr hS (k + 1)
  have hq' := hq
  have e : (splitLines t).take (k + 1) = (splitLines t).take k ++ [l] := by
    rw [List.take_add_one, hk]; rfl
  have hlen : k < (splitLines t).length := by
    by_contra hn
    rw [List.getElem?_eq_none (by omega)] at hk
    cases hk
  have hlen2 : ((splitLines t).take k).length = k := by rw [List.length_take]; omega
  obtain ⟨rs, h⟩ := hq'
  rw [e] at h
  obtain ⟨y, r1, r2, h1, h2, -⟩ := rejects_split _ _ _ _ _ _ h
  have hp' := hp
  obtain ⟨rs', h'⟩ := hp'
  obtain ⟨rfl, -⟩ := rejects_unique _ _ _ _ _ _ _ h1 h'
  rw [Nat.zero_add, hlen2] at h2
  have key : ∀ {y : Setup × Parser} {a m}, Whole.parseLine (S, p) (k + 1) l = .ok (y, a, m) → y = (S, q) →
      q.macros.get ⟨i, (k + 1 : Nat)⟩ = none := by
    intro y a m hc hy
    obtain ⟨m', -, -, e⟩ := parseLine_ok hc
    rw [hy] at e
    simp only [Prod.mk.injEq] at e
    have hw := parse_plain_wrote (S := S) (o := serverOptions) (line := ((k + 1 : Nat) : Int)) l hh p (before_sorted hp).1
    rw [e.2, hw.others]
    · exact (before_sorted hp).2 i _ (by push_cast; omega)
    · rintro ⟨hx, -⟩
      rcases hx with ⟨w, hx⟩ | hx
      · rw [idsOf_eq] at hx; exact hi.1 w hx
      · exact hi.2 hx
  have : q.macros.get ⟨i, (k + 1 : Nat)⟩ = none := by
    cases h2 with
    | blank h2 => exact absurd rfl hl
    | accepted _ hc h2 => cases h2; exact key hc rfl
    | rejected _ hc h2 => cases h2; exact key hc rfl
  rw [value_step R hr hS hp hq, this, Option.none_or]

section
variable {lg : Enums.ELanguage} (hlg : S.lang = .known lg) (k : Nat) (l : Str) (hk : (splitLines t)[k]? = some l) (hne : l ≠ []) {p q : Parser} {m : Option Str}
  (hp : Before S t k p) (hacc : parse S serverOptions (k + 1 : Nat) l p = (q, .ok (true, m)))
include hlg hk hne hp hacc

/-- C91: on an accepted line without macro sign the system variables of an address get the last number given
to the address on the line, and keep theirs when there is none. -/
theorem C91_words (hh : '#' ∉ l) {gr : Gram.PS} {b : Block} (hb : Gram.phrase (gramOf S) { p.gram with msg := [] } l = (gr, .accept b))
    (a : Str) (i : Nat) (hi : i ∈ sysOf a) : r.macros.valueAt i (k + 1 : Nat) = (given a b).or (r.macros.valueAt i k) := by
  have hq := before_next hp hk hne hacc
  obtain ⟨hs, hn⟩ := before_sorted hp
  obtain ⟨g', b', m1, h1, hsh, h2, h3⟩ := parse_words hlg rfl hh hacc hs
  rw [hb] at h1
  cases h1
  rw [value_step R hr hS hp hq, h3.others, sysRun_given (a := a) (by rw [idsOf_eq]; exact hi) _ _ _ hs hsh h2, hn _ _ (by push_cast; omega),
    Option.or_none]
  rintro ⟨hx, -⟩
  have : ∀ a, ∀ i ∈ sysOf a, ¬ toolVariable i := by
    intro a i hi ht
    rw [← idsOf_eq] at hi
    unfold idsOf at hi
    revert hi
    cases hf : sysVars.find? (fun p => p.1 == a) with
    | none => simp
    | some e =>
      have := List.mem_of_find?_eq_some hf
      revert this
      unfold sysVars toolVariable at *
      intro hm hx
      simp only [List.mem_cons, List.not_mem_nil, or_false] at hm
      rcases hm with rfl | rfl | rfl | rfl | rfl | rfl | rfl | rfl | rfl <;> simp at hx <;> omega
  exact this a i hi hx

/-- C91: an accepted assignment `#n = e` gives the variable the value of the expression, where every variable
has the value in effect above the line. -/
theorem C91_assigned (hsmall : (k : Int) ≤ 2147483647) {gr : Gram.PS} {a d0 : Dec} {ds : List Dec}
    (hb : Gram.phrase (gramOf S) { p.gram with msg := [] } l = (gr, .accept (.dec a :: .dec d0 :: ds.map .dec)))
    (n : Nat) (hn : n ≤ 2147483647) (hw : a.word = c!"#") (hv : a.value = some (natStr n)) (h0 : d0.word = c!"=")
    (e : E) (he : assigned d0 ds = e.pr) (hi : (∀ w, n ∉ sysOf w) ∧ ¬ toolVariable n) :
    ∃ v, e.val (spTr S.tr) (fun i => r.macros.valueAt i k) = some v ∧ r.macros.valueAt n (k + 1 : Nat) = some v := by
  have hq := before_next hp hk hne hacc
  obtain ⟨hs, hnone⟩ := before_sorted hp
  obtain ⟨g', b', m1, h1, h2, h3⟩ := parse_recorded hlg rfl hacc hs
  rw [hb] at h1
  cases h1
  have hmax : p.macros.valueMax = fun i => r.macros.valueAt i k := by
    funext i
    rw [before_values R hr hS hp i le_rfl]
    exact MacroMap.valueMax_eq hs hsmall (fun id l hl => hnone id l hl) i
  obtain ⟨v, hv'⟩ := (C15_expression_needs_value_partial S.tr p.macros _ a d0 ds n e hn hw hv h0 he).mp ⟨m1, h2⟩
  have h4 := evaluate_assign S.tr p.macros (k + 1 : Nat) a d0 ds n e v hn hw hv h0 ((assigned_eq d0 ds).symm.trans he) hv'
  rw [h2] at h4
  cases h4
  rw [hmax] at hv'
  refine ⟨v, hv', ?_⟩
  rw [value_step R hr hS hp hq, h3.others, MacroMap.get_emplace hs, hnone _ _ (by push_cast; omega)]
  · simp
  · rintro ⟨hx, -⟩
    rcases hx with ⟨w, hx⟩ | hx
    · rw [idsOf_eq] at hx; exact hi.1 w hx
    · exact hi.2 hx

/-- C91: an accepted assignment changes no other variable of the program. -/
theorem C91_others {gr : Gram.PS} {a d0 : Dec} {ds : List Dec}
    (hb : Gram.phrase (gramOf S) { p.gram with msg := [] } l = (gr, .accept (.dec a :: .dec d0 :: ds.map .dec)))
    (n : Nat) (hn : n ≤ 2147483647) (hw : a.word = c!"#") (hv : a.value = some (natStr n)) (h0 : d0.word = c!"=")
    (i : Nat) (hin : i ≠ n) (hi : (∀ w, i ∉ sysOf w) ∧ ¬ toolVariable i) : r.macros.valueAt i (k + 1 : Nat) = r.macros.valueAt i k := by
  have hq := before_next hp hk hne hacc
  obtain ⟨hs, hnone⟩ := before_sorted hp
  obtain ⟨g', b', m1, h1, h2, h3⟩ := parse_recorded hlg rfl hacc hs
  rw [hb] at h1
  cases h1
  rw [value_step R hr hS hp hq, h3.others]
  · have : m1.get ⟨i, (k + 1 : Nat)⟩ = none := by
      unfold evaluate at h2
      rw [macRun_assign a d0 ds n hn hw hv h0] at h2
      dsimp only at h2
      rw [if_pos (by omega)] at h2
      split at h2
      · cases h2
      · split at h2
        · cases h2
          rw [MacroMap.get_emplace hs, if_neg, hnone _ _ (by push_cast; omega)]
          intro e
          simp only [MKey.mk.injEq] at e
          exact hin (by simpa using e.1)
        · cases h2
        · cases h2
    rw [this, Option.none_or]
  · rintro ⟨hx, -⟩
    rcases hx with ⟨w, hx⟩ | hx
    · rw [idsOf_eq] at hx; exact hi.1 w hx
    · exact hi.2 hx

/-- C91: an accepted line that has no word `#` of its own, however many variables its words use, changes no
variable but those the control keeps words in. -/
theorem C91_used {gr : Gram.PS} {b : Block} (hb : Gram.phrase (gramOf S) { p.gram with msg := [] } l = (gr, .accept b))
    (hw : ∀ d, Attr.dec d ∈ b → d.word ≠ c!"#") (i : Nat) (hi : (∀ w, i ∉ sysOf w) ∧ ¬ toolVariable i) :
    r.macros.valueAt i (k + 1 : Nat) = r.macros.valueAt i k := by
  have hq := before_next hp hk hne hacc
  obtain ⟨hs, hnone⟩ := before_sorted hp
  obtain ⟨g', b', m1, h1, h2, h3⟩ := parse_recorded hlg rfl hacc hs
  rw [hb] at h1
  cases h1
  have hrun : ∀ b : Block, (∀ d, Attr.dec d ∈ b → d.word ≠ c!"#") → macRun {} b = .ok {} := by
    intro b
    induction b with
    | nil => intro _; rfl
    | cons x b ih =>
      intro h
      have : macStep {} x = .ok {} := by
        cases x with
        | dec d => simp [macStep, h d (by simp)]
        | str _ _ => rfl
        | chr _ _ => rfl
      rw [macRun, this, Out.bind_ok]
      exact ih (fun d hd => h d (by simp [hd]))
  unfold evaluate at h2
  rw [hrun b hw] at h2
  cases h2
  rw [value_step R hr hS hp hq, h3.others, hnone _ _ (by push_cast; omega), Option.none_or]
  rintro ⟨hx, -⟩
  rcases hx with ⟨w, hx⟩ | hx
  · rw [idsOf_eq] at hx; exact hi.1 w hx
  · exact hi.2 hx
end
end

/-! ## What is shown -/

theorem macroHover_value {W : World Conf.Settings Conf.Words Ver.Groups (Setup × Parser)} {md : Option MacroDesc} {mm : MacroMap ℚ} {line : Int} {ds c : Str}
    (hd : ∀ x ∈ ds, isDig x = true) (hne : ds ≠ []) (hsm : readNat ds ≤ 2147483647) {q : ℚ} (hv : mm.valueAt (readNat ds) (line + 1) = some q)
    (h : macroHover W md mm line ('#' :: ds) = .ok c) : Shows c ('#' :: ds ++ c!" = " ++ toStringTrunc q) := by
  unfold macroHover at h
  dsimp only at h
  rw [show ('#' :: ds).drop 1 = ds from rfl, macroId_ok hd hne hsm, Out.bind_ok, hv] at h
  cases md with
  | none => cases h
  | some md =>
    simp only [Out.bind_eq_ok] at h
    obtain ⟨d, -, h⟩ := h
    split at h
    · cases h
      right
      unfold markdown
      refine ⟨c!": " ++ d.1 ++ c!"** \n\n---\n\n" ++ doubleNewlines d.2, ?_⟩
      simp [List.append_assoc]
    · cases h
      left
      rw [if_pos (by rfl)]

/-- C91: after any history, looking at a variable on a line of the latest text of a document shows the value
that is in effect on that line of that text. -/
theorem C91_shown (R : Whole.Rest) (F : Files Conf.Settings Conf.Words Ver.Groups) {s : Conf.Settings} {g : Conf.Words} {gc mc : Ver.Groups}
    (hL : Srv.Loaded (Whole.server R) F s g gc mc) (ds : List Json) (hcl : ∀ d ∈ ds, Spec.Server.Clean d)
    {st st' : Srv.St Conf.Settings Conf.Words Ver.Groups} {os : List (List Json)} (hrun : run (Whole.server R) {} (ds.map (F, ·)) = .ok (st, os))
    (u t : Str) (hu : Spec.Server.latest u ds = some t) (hn : ∀ c ∈ u, c.toNat ≠ 0) (d : Json) (hd : Spec.Server.docUri d = some u)
    (hm : Spec.Server.method d = some c!"textDocument/hover") (line : Nat) (ch : Int)
    (hpl : Spec.Server.intAt [c!"params", c!"position", c!"line"] d = some (line : Int))
    (hpc : Spec.Server.intAt [c!"params", c!"position", c!"character"] d = some ch)
    {out : List Json} (ha : handle (Whole.server R) F st d = .ok (st', out)) (l : Str) (hl : (contentLines t)[line]? = some l)
    (a b : Nat) (ht : Spec.Server.TokenAt Spec.Server.IsMacro l a b) (h1 : (a : Int) ≤ ch) (h2 : ch < b)
    (hc1 : ∀ a' b', Spec.Server.TokenAt Spec.Server.IsCode l a' b' → (a' : Int) ≤ ch → ¬ ch < b')
    (hc2 : ∀ a' b', Spec.Server.TokenAt Spec.Server.IsCodeMacro l a' b' → (a' : Int) ≤ ch → ¬ ch < b')
    (hsm : readNat (Spec.Server.slice l (a + 1) b) ≤ 2147483647) :
    ∃ r id res c, runCode (Whole.server R) s g gc mc t = .ok r ∧ out = [response id res] ∧ Spec.Server.path [c!"contents"] res = some (.str c) ∧
      ∀ q, r.macros.valueAt (readNat (Spec.Server.slice l (a + 1) b)) (line + 1 : Nat) = some q →
        Shows c (Spec.Server.slice l a b ++ c!" = " ++ toStringTrunc q) := by
  obtain ⟨i1, cc⟩ := contexts_loaded F hL u ds {} st os none hcl hrun .start rfl
  unfold Spec.Server.latest at hu
  rw [hu] at cc
  obtain ⟨r, e1, cc⟩ := cc
  cases handle_step ha with
  | hover _ hh =>
    obtain ⟨line', ch', uri, id, res, q1, q2, q3, q4, h5, rfl⟩ := hover_ok hh
    rw [hpl] at q1; cases q1
    rw [hpc] at q2; cases q2
    rw [hd] at q3; cases q3
    rw [cstr_of_clean hn] at h5
    have hlen : line < (contentLines t).length := by
      by_contra hx
      rw [List.getElem?_eq_none (by omega)] at hl
      cases hl
    have hctx : ctxFor st u (line : Int) = some ⟨contentLines t, r.macros, r.lenses⟩ := by
      unfold ctxFor
      rw [cc]
      dsimp only
      exact if_pos ⟨by omega, by simpa using hlen⟩
    rw [hctx] at h5
    have htext : ∀ c : Ctx, c.lines = contentLines t → textFor (some c) (line : Int) = l := by
      intro c hc
      simp only [textFor, hc, Int.toNat_natCast, hl, Option.getD_some]
    have ne := runCode_macros_ne R e1
    unfold hoverIn at h5
    dsimp only at h5
    rw [htext _ rfl] at h5
    have k1 : search matchCode ch 0 0 l = none := by
      cases hs : search matchCode ch 0 0 l with
      | none => rfl
      | some tk =>
        obtain ⟨x1, x2, x3, -⟩ := (search_iff longest_code apart_code _ _ _).mp hs
        exact absurd x3 (hc1 _ _ x1 x2)
    have k2 : search matchCodeHash ch 0 0 l = none := by
      cases hs : search matchCodeHash ch 0 0 l with
      | none => rfl
      | some tk =>
        obtain ⟨x1, x2, x3, -⟩ := (search_iff longest_codeHash apart_codeHash _ _ _).mp hs
        exact absurd x3 (hc2 _ _ x1 x2)
    have k3 := (search_iff longest_hash apart_hash l ch ⟨a, b, Spec.Server.slice l a b⟩).mpr ⟨ht, h1, h2, rfl⟩
    rw [k1] at h5
    dsimp only at h5
    rw [if_neg (by simpa [macrosFor] using ne), k2] at h5
    dsimp only at h5
    rw [k3] at h5
    simp only [Out.bind_eq_ok] at h5
    obtain ⟨c, hc, h5⟩ := h5
    cases h5
    refine ⟨r, id, _, c, e1, rfl, rfl, fun q hq => ?_⟩
    obtain ⟨xs, e, hne, hdig⟩ := ht.2.2.1
    have he : Spec.Server.slice l (a + 1) b = xs := by rw [← slice_drop, e]; rfl
    rw [he] at hq hsm
    rw [e] at hc ⊢
    exact macroHover_value hdig hne hsm (by simpa [macrosFor] using hq) hc
  | quiet hq => exact absurd (by decide) (hq _ hm).1
  | text h' h'' => rw [hm] at h'; cases h'; exact absurd h'' (by decide)
  | _ h' => rw [hm] at h'; cases h'

/-- The value of a variable on a line of a text, with the shipped files. -/
def worth (t : Str) (i : Nat) (line : Int) : Option ℚ :=
  match runCode (Whole.server plainRest) Conf.defaults ⟨demo.tables, demo.ops⟩ demo.gcodes demo.mcodes t with
  | .ok r => r.macros.valueAt i line
  | _ => none

/-- An assignment, a use, a plain line, a blank line and an assignment from the old value. -/
example : (List.range 7).map (fun n => worth c!"#1=5\nX#1\nG0 Y2\n\n#1=#1+2\nX1 X2" 1 n) =
    [none, some 5, some 5, some 5, some 5, some 7, some 7] := by decide +kernel

/-- The feed rate and the spindle speed as the words give them. -/
example : (List.range 4).map (fun n => (worth c!"F20 S500\nX1\nS700" 4109 n, worth c!"F20 S500\nX1\nS700" 4119 n)) =
    [(none, none), (some 20, some 500), (some 20, some 500), (some 20, some 700)] := by decide +kernel

/-- C91 violated: a line that only names a variable and has a word behind it, with no equals sign, is accepted
and gives the variable the value of the word. -/
theorem C91_violated_no_equals : worth c!"#1=2\n#1 X5" 1 2 = some 5 ∧
    (match run (Whole.server plainRest) {} [(shipped, Demo.opened c!"f" c!"#1=2\n#1 X5")] with
      | .ok (_, [[m]]) => diagCount m
      | _ => none) = some 0 := by decide +kernel

/-- A word given by a variable: the value of the variable counts. -/
example : worth c!"#1=500\nS#1" 4119 2 = some 500 := by decide +kernel

end NC.Props
