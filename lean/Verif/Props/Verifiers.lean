import Verif.VerifierProofs

/-! # Properties C30 to C34: the block checks -/

namespace NC.Props
open NC NC.Ver NC.Spec.Verify

/-- A word with a plain number, for the examples. -/
private def w (c : Char) (v : Str) : Attr := .dec { word := [c], value := some v }

/-- C30: a block passes exactly when no address declared unique occurs twice. -/
theorem C30_unique (g : WordMap) (b : Block) :
    uniqueCode g b = .ok () ↔ ∀ a, DeclaredUnique g a → occurs a b ≤ 1 := by
  unfold uniqueCode
  simpa using (uniqueRun_spec g b []).1

/-- C30: otherwise it is rejected with the message naming such an address. -/
theorem C30_rejection (g : WordMap) (b : Block) (h : uniqueCode g b ≠ .ok ()) :
    ∃ a, DeclaredUnique g a ∧ 2 ≤ occurs a b ∧ uniqueCode g b = .throw (.msg .unique .CodeNotUnique [a]) := by
  rcases (uniqueRun_spec g b []).2 with h' | ⟨a, h1, h2, h3⟩
  · exact absurd h' h
  · exact ⟨a, h1, by simpa using h2, h3⟩

/-- C30 (single M code per block, as required for Haas): rejected exactly when
the address occurs twice. -/
theorem C30_same_word (a : Str) (b : Block) :
    (sameWord a b = .ok () ↔ occurs a b ≤ 1) ∧
    (2 ≤ occurs a b → sameWord a b = .throw (.msg .sameWord .DuplicateAddress [a])) := by
  rcases sameWordRun_spec a b false with ⟨h1, h2⟩ | ⟨h1, h2⟩
  · have h2' : occurs a b ≤ 1 := by simpa using h2
    exact ⟨⟨fun _ => h2', fun _ => h1⟩, fun h => by omega⟩
  · have h2' : 2 ≤ occurs a b := by simpa using h2
    refine ⟨⟨fun h => ?_, fun h => by omega⟩, fun _ => h1⟩
    unfold sameWord at h; rw [h1] at h; cases h

private def gX : WordMap := [(c!"X", ⟨c!"X", -10, 10, 0, 3, true, .length⟩), (c!"G", ⟨c!"G", 0, 99, 0, 1, false, .code⟩)]

example : DeclaredUnique gX c!"X" ∧ occurs c!"X" [w 'X' c!"1", w 'G' c!"1", w 'G' c!"2", w 'X' c!"2"] = 2 ∧
    uniqueCode gX [w 'X' c!"1", w 'G' c!"1", w 'G' c!"2", w 'X' c!"2"] = .throw (.msg .unique .CodeNotUnique [c!"X"]) ∧
    uniqueCode gX [w 'X' c!"1", w 'G' c!"1", w 'G' c!"2"] = .ok () :=
  ⟨⟨_, rfl, rfl⟩, by decide, by decide, by decide⟩

/-- C31: when every G and M word has a code, the block passes exactly when no
two of its G codes and no two of its M codes share a group and, if missing
codes are to be reported, every code is listed. -/
theorem C31_groups (m : MacroMap ℚ) (gg mg : Groups) (hgg : SetOfGroups gg) (hmg : SetOfGroups mg) (line : Int)
    (b : Block) (missing : Bool) (gs ms : List (Nat × Nat))
    (hg : List.Forall₂ (Means m line) (codeWords c!"G" b) gs)
    (hm : List.Forall₂ (Means m line) (codeWords c!"M" b) ms) :
    codeGroups m gg mg line b missing = .ok () ↔
      NoClash gg gs ∧ NoClash mg ms ∧
      (missing = true → (∀ c ∈ gs, Listed gg c) ∧ (∀ c ∈ ms, Listed mg c)) := by
  unfold codeGroups
  rcases groupsRun_spec c!"G" gg hgg m line missing b [] gs [] (occInv_nil gg) hg with ⟨h1, h2⟩ | ⟨e, h1, _, h2⟩
  · rw [h1]
    rcases groupsRun_spec c!"M" mg hmg m line missing b [] ms [] (occInv_nil mg) hm with ⟨h3, h4⟩ | ⟨e, h3, _, h4⟩
    · simp only [h3, true_iff]
      exact ⟨h2.1, h4.1, fun h => ⟨h2.2.2 h, h4.2.2 h⟩⟩
    · simp only [h3, reduceCtorEq, false_iff]
      rintro ⟨_, h5, h6⟩
      exact h4 ⟨h5, by simp, fun h => (h6 h).2⟩
  · rw [h1]
    simp only [reduceCtorEq, false_iff]
    rintro ⟨h3, _, h4⟩
    exact h2 ⟨h3, by simp, fun h => (h4 h).1⟩

/-- C31: a rejection names two codes of the block, the later one first, and a
group they share, or a code that is in no group. -/
theorem C31_rejection (m : MacroMap ℚ) (gg mg : Groups) (hgg : SetOfGroups gg) (hmg : SetOfGroups mg) (line : Int)
    (b : Block) (missing : Bool) (gs ms : List (Nat × Nat))
    (hg : List.Forall₂ (Means m line) (codeWords c!"G" b) gs)
    (hm : List.Forall₂ (Means m line) (codeWords c!"M" b) ms)
    (h : codeGroups m gg mg line b missing ≠ .ok ()) :
    ∃ letter gm cs e, (letter = c!"G" ∧ gm = gg ∧ cs = gs ∨ letter = c!"M" ∧ gm = mg ∧ cs = ms) ∧
      codeGroups m gg mg line b missing = .throw (.msg .groups e.1 e.2) ∧
      ((∃ a c g ga gc, e = (.InSameCodeGroup, [codeText letter c, codeText letter a, g]) ∧
          List.Sublist [a, c] cs ∧ gm.find a = some ga ∧ gm.find c = some gc ∧ g ∈ ga ∧ g ∈ gc) ∨
       (missing = true ∧ ∃ c ∈ cs, e = (.MissingInCodeGroups, [codeText letter c]) ∧ ¬ Listed gm c)) := by
  have conv : ∀ (letter : Str) (gm : Groups) (cs : List (Nat × Nat)) (e : Exc),
      Reported letter gm missing [] cs e → ∃ e' : Message.Name × List Str, e = .msg .groups e'.1 e'.2 ∧
      ((∃ a c g ga gc, e' = (.InSameCodeGroup, [codeText letter c, codeText letter a, g]) ∧
          List.Sublist [a, c] cs ∧ gm.find a = some ga ∧ gm.find c = some gc ∧ g ∈ ga ∧ g ∈ gc) ∨
       (missing = true ∧ ∃ c ∈ cs, e' = (.MissingInCodeGroups, [codeText letter c]) ∧ ¬ Listed gm c)) := by
    rintro letter gm cs e (⟨a, c, g, ga, gc, rfl, h1, _, h2⟩ | ⟨c, hc, rfl, h1, h2⟩)
    · exact ⟨_, rfl, Or.inl ⟨a, c, g, ga, gc, rfl, h1, h2⟩⟩
    · exact ⟨_, rfl, Or.inr ⟨h1, c, hc, rfl, h2⟩⟩
  unfold codeGroups at h ⊢
  rcases groupsRun_spec c!"G" gg hgg m line missing b [] gs [] (occInv_nil gg) hg with ⟨h1, _⟩ | ⟨e, h1, h2, _⟩
  · rw [h1] at h ⊢
    rcases groupsRun_spec c!"M" mg hmg m line missing b [] ms [] (occInv_nil mg) hm with ⟨h3, _⟩ | ⟨e, h3, h4, _⟩
    · exact absurd h3 h
    · obtain ⟨e', h5, h6⟩ := conv _ _ _ _ h4
      exact ⟨c!"M", mg, ms, e', Or.inr ⟨rfl, rfl, rfl⟩, by simp only [h3, h5], h6⟩
  · obtain ⟨e', h5, h6⟩ := conv _ _ _ _ h2
    exact ⟨c!"G", gg, gs, e', Or.inl ⟨rfl, rfl, rfl⟩, by simp only [h1, h5], h6⟩

/-- C31: a variable with no value on the line is reported, not looked up. -/
theorem C31_missing_variable (m : MacroMap ℚ) (gg mg : Groups) (line : Int) (d : Dec) (t : Block)
    (missing : Bool) (v : Str) (i : Nat) (hw : d.word = c!"G") (hv : d.value = some v) (hm : d.mac.isSome)
    (hn : Number v i) (hnone : m.valueAt i line = none) :
    codeGroups m gg mg line (.dec d :: t) missing = .throw (.msg .groups .MissingValue [c!"#" ++ v]) := by
  have : codeOf m line d v = .throw (.msg .groups .MissingValue [c!"#" ++ v]) := by
    unfold codeOf
    simp only [stoiE_number hn, Out.bind_ok, hm, if_true, toU32_nat hn.small, hnone]
  have hr : groupsRun c!"G" gg m line missing [] (.dec d :: t) = .throw (.msg .groups .MissingValue [c!"#" ++ v]) := by
    simp only [groupsRun, hw, hv, ne_eq, not_true_eq_false, if_false, this]
  simp only [codeGroups, hr]

private def gg0 : Groups := [((0, 0), [c!"motion"]), ((1, 0), [c!"motion"]), ((17, 0), [c!"plane"]), ((68, 2), [c!"tilt"])]

example : Number c!"17" 17 := ⟨by decide, by decide, by decide, rfl⟩
example : Means [] 3 { word := c!"G", value := some c!"68", dot := some '.', value2 := some c!"2" } (68, 2) :=
  .dotted rfl rfl rfl ⟨by decide, by decide, by decide, rfl⟩ ⟨by decide, by decide, by decide, rfl⟩
example : Means [(⟨100, 1⟩, (682 / 10 : ℚ))] 3 { word := c!"G", mac := some c!"#", value := some c!"100" } (68, 2) :=
  .variableFrac (i := 100) (k := 1) rfl rfl ⟨by decide, by decide, by decide, rfl⟩
    (by rw [show MacroMap.valueAt [(⟨100, 1⟩, (682 / 10 : ℚ))] 100 3 = some (682 / 10) from rfl]; norm_num)
    (by decide) (by decide) (by decide) (by decide)
example : codeGroups [] gg0 [] 1 [w 'G' c!"0", w 'G' c!"17", w 'G' c!"01"] false =
    .throw (.msg .groups .InSameCodeGroup [c!"G1", c!"G0", c!"motion"]) := by decide
example : codeGroups [] gg0 [] 1 [w 'G' c!"0", w 'G' c!"17", w 'G' c!"99"] false = .ok () := by decide
example : SetOfGroups gg0 := by unfold SetOfGroups; decide

/-- C32: with operator rotation off, the verdicts on a program checked from a
fresh verifier. -/
theorem C32_off (prog : List Block) (hr : ∀ b ∈ prog, Readable b) (k : Nat) (b : Block) (hk : prog[k]? = some b)
    (e : Exc) :
    (rotProgram false {} prog)[k]? = some (some e) ↔
      Feeds b ∧ (∀ x ∈ prog.take k, ¬ Feeds x) ∧
      (((∀ x ∈ prog.take (k + 1), ¬ Speeds x) ∧ e = .msg .rotation .ValueNotSet [c!"S"]) ∨
       ((∃ x ∈ prog.take (k + 1), Speeds x) ∧ (∀ x ∈ prog.take (k + 1), ¬ Starts x) ∧
          e = .msg .rotation .ValueNotSet [c!"M3/M4"])) := by
  obtain ⟨o, h1, h2⟩ := rotProgram_off prog [] {} rotInv_nil hr k b hk
  have : prog.take (k + 1) = prog.take k ++ [b] := by
    rw [List.take_add_one, hk]; rfl
  rw [h1, this]
  have h3 := h2 e
  rw [List.nil_append] at h3
  rw [← h3]
  simp

/-- C32: at most one such error per program. -/
theorem C32_once (prog : List Block) (hr : ∀ b ∈ prog, Readable b) (i j : Nat) (e e' : Exc)
    (hi : (rotProgram false {} prog)[i]? = some (some e)) (hj : (rotProgram false {} prog)[j]? = some (some e')) :
    i = j := by
  have len : ∀ (p : List Block) (st : Rot), (rotProgram false st p).length = p.length := by
    intro p; induction p with
    | nil => intro st; rfl
    | cons x t ih => intro st; simp [rotProgram, ih]
  have key : ∀ (a c : Nat) (e1 e2 : Exc), (rotProgram false {} prog)[a]? = some (some e1) →
      (rotProgram false {} prog)[c]? = some (some e2) → a < c → False := by
    intro a c e1 e2 ha hc hlt
    have la := (List.getElem?_eq_some_iff.mp ha).1
    have lc := (List.getElem?_eq_some_iff.mp hc).1
    rw [len] at la lc
    have h1 := (C32_off prog hr a prog[a] (List.getElem?_eq_getElem la) e1).mp ha
    have h2 := (C32_off prog hr c prog[c] (List.getElem?_eq_getElem lc) e2).mp hc
    refine h2.2.1 prog[a] ?_ h1.1
    rw [List.mem_take_iff_getElem]
    exact ⟨a, by omega, rfl⟩
  rcases lt_trichotomy i j with h | h | h
  · exact (key i j e e' hi hj h).elim
  · exact h
  · exact (key j i e' e hj hi h).elim

/-- C32: with operator rotation on, a block passes exactly when it has neither
S nor M3/M4, and is otherwise rejected with the matching message. -/
theorem C32_on (st : Rot) (b : Block)
    (hr : ∀ d ∈ decs b, d.word = c!"M" → ∀ v, d.value = some v → ∃ n, Number v n) :
    ((rotation true st b).2 = none ↔ ¬ Speeds b ∧ ¬ Starts b) ∧
    ((rotation true st b).2 ≠ none →
      (Speeds b ∧ (rotation true st b).2 = some (.msg .rotation .SNotAllowedWhenOperatorTurnsRotation [])) ∨
      (Starts b ∧ (rotation true st b).2 = some (.msg .rotation .M3M4NotAllowedWhenOperatorTurnsRotation []))) := by
  have hv := rotRun_on b st hr
  have heq : (rotation true st b).2 = (rotRun true st b).2 := by
    unfold rotation
    rcases hc : rotRun true st b with ⟨st', _ | e⟩
    · simp [rotCheck]
    · rfl
  rw [heq]
  rcases hv with ⟨h1, h2, h3⟩ | ⟨h1, h2⟩ | ⟨h1, h2⟩
  · rw [h1]; exact ⟨⟨fun _ => ⟨h2, h3⟩, fun _ => rfl⟩, fun h => absurd rfl h⟩
  · rw [h1]
    exact ⟨⟨fun h => (by cases h), fun h => absurd h2 h.1⟩, fun _ => Or.inl ⟨h2, rfl⟩⟩
  · rw [h1]
    exact ⟨⟨fun h => (by cases h), fun h => absurd h2 h.2⟩, fun _ => Or.inr ⟨h2, rfl⟩⟩

example : rotProgram false {} [[w 'G' c!"0"], [w 'S' c!"500", w 'G' c!"1"], [w 'G' c!"1"], [w 'M' c!"3"]] =
    [none, some (.msg .rotation .ValueNotSet [c!"M3/M4"]), none, none] := by decide
example : Feeds [w 'S' c!"500", w 'G' c!"81"] :=
  ⟨{ word := c!"G", value := some c!"81" }, by simp [decs, w], rfl, c!"81", 81, rfl, ⟨by decide, by decide, by decide, rfl⟩, by decide⟩

/-- C33 in full: a block passes the limit check exactly when no word exceeds
its maximum. -/
def C33_full (lathe : Bool) (k : Limits) (b : Block) : Prop :=
  limitRun lathe k b = .ok () ↔ ∀ d ∈ decs b, ¬ Exceeds lathe k d

/-- C33 for blocks whose digits before the point decide, in particular for all whole numbers without minus sign
(`clear_whole`).  Missing: numbers above the limit by a fraction only and negative ones that would be above it without
their sign, for which it fails. -/
theorem C33_limits_partial (lathe : Bool) (k : Limits) (b : Block) (h : Sharp lathe k b) :
    C33_full lathe k b ∧
    (limitRun lathe k b ≠ .ok () → ∃ args, limitRun lathe k b = .throw (.msg .range .ValueHigherThanAllowed args)) := by
  unfold C33_full
  rcases limitRun_spec lathe k b h with ⟨h1, h2⟩ | ⟨e, h1, ⟨args, rfl⟩, d, h2, h3⟩
  · exact ⟨⟨fun _ => h2, fun _ => h1⟩, fun h => absurd h1 h⟩
  · refine ⟨⟨fun h => ?_, fun h => absurd h3 (h d h2)⟩, fun _ => ⟨args, h1⟩⟩
    rw [h1] at h; cases h

private def lim : Limits := ⟨[], 1000, 5000, 20⟩

/-- C33 fails for a fraction above the limit: F1000.9 passes a limit of 1000. -/
theorem C33_violated_fraction : ∃ (k : Limits) (b : Block), ¬ C33_full false k b := by
  refine ⟨lim, [.dec { word := c!"F", value := some c!"1000", dot := some '.', value2 := some c!"9" }], ?_⟩
  intro h
  refine h.mp ?_ _ List.mem_cons_self ?_
  · show limitRun false lim _ = _
    have : stoi c!"1000" = .ok 1000 := by decide
    simp [limitRun, limitWord, stoiE, this, lim]
  · refine ⟨_, rfl, Or.inr (Or.inr ⟨rfl, ?_⟩)⟩
    have h1 : readNat c!"1000" = 1000 := by decide
    have h2 : readNat c!"9" = 9 := by decide
    simp [amount, h1, h2, lim]

/-- C33 fails for a negative number: S-6000 is rejected as more than 5000. -/
theorem C33_violated_sign : ∃ (k : Limits) (b : Block), ¬ C33_full false k b ∧ limitRun false k b ≠ .ok () := by
  have hne : limitRun false lim [.dec { word := c!"S", sign := some '-', value := some c!"6000" }] ≠ .ok () := by
    have : stoi c!"6000" = .ok 6000 := by decide
    simp [limitRun, limitWord, stoiE, this, lim]
  refine ⟨lim, [.dec { word := c!"S", sign := some '-', value := some c!"6000" }], ?_, hne⟩
  intro h
  refine hne (h.mpr ?_)
  intro d hd
  have : d = { word := c!"S", sign := some '-', value := some c!"6000" } := by simpa [decs] using hd
  subst this
  rintro ⟨v, hv, h | h | h⟩
  · have : v = c!"6000" := by simpa using hv.symm
    subst this
    have h1 : readNat c!"6000" = 6000 := by decide
    have h2 : readNat ([] : Str) = 0 := rfl
    have := h.2
    simp [amount, h1, h2, lim] at this
    norm_num at this
  · exact absurd h.1 (by decide)
  · exact absurd h.1 (by decide)

/-- Where C33 fails: for limits that are not negative, a block of one word is judged right exactly if the digits
before the point decide. -/
theorem C33_exact (lathe : Bool) (k : Limits) (d : Dec) (hn : ∀ v, d.value = some v → ∃ n, Number v n)
    (hk : 0 ≤ k.maxSpindle ∧ 0 ≤ k.warehouse ∧ 0 ≤ k.maxFeed) : C33_full lathe k [.dec d] ↔ Clear lathe k d := by
  constructor
  · intro h v hv
    obtain ⟨n, hnv⟩ := hn v hv
    unfold C33_full at h
    have hone : limitRun lathe k [.dec d] = .ok () ↔ limitWord lathe k d = .ok () := by
      cases hw : limitWord lathe k d <;> simp [limitRun, hw]
    have hmem : (∀ d' ∈ decs [.dec d], ¬ Exceeds lathe k d') ↔ ¬ Exceeds lathe k d := by simp [decs]
    rw [hone, hmem] at h
    refine ⟨fun hS => ?_, fun hT t ht => ?_, fun hF => ?_⟩
    · apply decided_of hnv (by exact_mod_cast hk.1)
      have hr : limitWord lathe k d = .ok () ↔ ¬ ((n : Int) > k.maxSpindle) := by
        simp only [limitWord, hv]; rw [if_pos hS, stoiE_number hnv]
        show (if _ then _ else _) = _ ↔ _
        split <;> simp_all
      have hx : Exceeds lathe k d ↔ amount (d.sign == some '-') v (d.value2.getD []) > k.maxSpindle := by
        constructor
        · rintro ⟨v', hv', h | h | h⟩
          · rw [hv] at hv'; cases hv'; exact h.2
          · rw [hS] at h; exact absurd h.1 (by decide)
          · rw [hS] at h; exact absurd h.1 (by decide)
        · intro h'; exact ⟨v, hv, Or.inl ⟨hS, h'⟩⟩
      rw [hr, hx] at h
      have := not_iff_not.mp h
      rw [← this]; exact_mod_cast Iff.rfl
    · rw [toolOf_iff] at ht; subst ht
      obtain ⟨m, hm⟩ := toolDigits_number lathe hnv
      apply decided_of hm (by exact_mod_cast hk.2.1)
      have hr : limitWord lathe k d = .ok () ↔ ¬ ((m : Int) > k.warehouse) := by
        simp only [limitWord, hv]; rw [if_neg (by rw [hT]; decide), if_pos hT, stoiE_number hm]
        show (if _ then _ else _) = _ ↔ _
        split <;> simp_all
      have hx : Exceeds lathe k d ↔ amount (d.sign == some '-') (toolDigits lathe v) (d.value2.getD []) > k.warehouse := by
        constructor
        · rintro ⟨v', hv', h | ⟨_, t, ht, h⟩ | h⟩
          · rw [hT] at h; exact absurd h.1 (by decide)
          · rw [hv] at hv'; cases hv'; rw [toolOf_iff] at ht; subst ht; exact h
          · rw [hT] at h; exact absurd h.1 (by decide)
        · intro h'; exact ⟨v, hv, Or.inr (Or.inl ⟨hT, _, (toolOf_iff lathe v _).mpr rfl, h'⟩)⟩
      rw [hr, hx] at h
      have := not_iff_not.mp h
      rw [← this]; exact_mod_cast Iff.rfl
    · apply decided_of hnv hk.2.2
      have hr : limitWord lathe k d = .ok () ↔ ¬ ((n : ℚ) > k.maxFeed) := by
        simp only [limitWord, hv]; rw [if_neg (by rw [hF]; decide), if_neg (by rw [hF]; decide), if_pos hF, stoiE_number hnv]
        show (if _ then _ else _) = _ ↔ _
        split <;> simp_all
      have hx : Exceeds lathe k d ↔ amount (d.sign == some '-') v (d.value2.getD []) > k.maxFeed := by
        constructor
        · rintro ⟨v', hv', h | h | h⟩
          · rw [hF] at h; exact absurd h.1 (by decide)
          · rw [hF] at h; exact absurd h.1 (by decide)
          · rw [hv] at hv'; cases hv'; exact h.2
        · intro h'; exact ⟨v, hv, Or.inr (Or.inr ⟨hF, h'⟩)⟩
      rw [hr, hx] at h
      rw [← not_iff_not.mp h]
  · intro h
    refine (C33_limits_partial lathe k _ ?_).1
    intro d' hd'
    have : d' = d := by simpa [decs] using hd'
    subst this
    exact ⟨h, hn⟩

example : Sharp true lim [w 'T' c!"2101", w 'S' c!"4000"] ∧
    limitRun true lim [w 'T' c!"2101", w 'S' c!"4000"] =
      .throw (.msg .range .ValueHigherThanAllowed [c!"T", c!"21", c!"20"]) := by
  refine ⟨?_, by decide +kernel⟩
  intro d hd
  simp only [decs, w, List.mem_cons, List.not_mem_nil, or_false] at hd
  rcases hd with rfl | rfl
  · exact ⟨clear_whole (by decide) (by decide), fun v hv => ⟨2101, by cases hv; exact ⟨by decide, by decide, by decide, by decide⟩⟩⟩
  · exact ⟨clear_whole (by decide) (by decide), fun v hv => ⟨4000, by cases hv; exact ⟨by decide, by decide, by decide, by decide⟩⟩⟩

/-- The digits before the point decide for F0.25, and they do not for F1000.9, with feeds up to 1000. -/
example : Clear false lim { word := c!"F", value := some c!"0", dot := some '.', value2 := some c!"25" } ∧
    ¬ Clear false lim { word := c!"F", value := some c!"1000", dot := some '.', value2 := some c!"9" } := by
  have h0 : readNat c!"0" = 0 := by decide
  have h25 : readNat c!"25" = 25 := by decide
  have h1 : readNat c!"1000" = 1000 := by decide
  have h9 : readNat c!"9" = 9 := by decide
  constructor
  · intro v hv
    cases hv
    refine ⟨by simp, by simp, fun _ => ?_⟩
    simp [Decided, amount, h0, h25, lim]
    norm_num
  · intro h
    have := (h _ rfl).2.2 rfl
    simp [Decided, amount, h1, h9, lim] at this
    norm_num at this

/-- C34: the positions pass exactly when each one, moved by the zero point, is
inside the travel range of its axis. -/
theorem C34_travel (k : Limits) (zp : Zero) (wr : WordRange) :
    travelRun k zp wr = .ok () ↔ ∀ e ∈ wr, Inside k zp e.1 e.2.2.1 := by
  rcases travelRun_spec k zp wr with ⟨h1, h2⟩ | ⟨e, h1, h2, lo, hi, h3, h4⟩
  · exact ⟨fun _ => h2, fun _ => h1⟩
  · refine ⟨fun h => ?_, fun h => absurd (h e h1) h2⟩
    rw [h4] at h; cases h

/-- C34: a rejection names an axis that is outside, its position, and the
travel range as seen from the zero point. -/
theorem C34_rejection (k : Limits) (zp : Zero) (wr : WordRange) (h : travelRun k zp wr ≠ .ok ()) :
    ∃ e ∈ wr, ¬ Inside k zp e.1 e.2.2.1 ∧ ∃ lo hi, k.axis e.1 = some (lo, hi) ∧
      travelRun k zp wr = .throw (.msg .range .ValueOutOfRange
        [e.1, dblText e.2.2.1, dblText (lo - offset zp e.1), dblText (hi - offset zp e.1)]) := by
  rcases travelRun_spec k zp wr with ⟨h1, _⟩ | h1
  · exact absurd h1 h
  · exact h1

example : travelRun ⟨[(c!"X", (0, 500))], 0, 0, 0⟩ ⟨100, 0, 0⟩ [(c!"X", (0, 350, 350))] = .ok () ∧
    travelRun ⟨[(c!"X", (0, 500))], 0, 0, 0⟩ ⟨200, 0, 0⟩ [(c!"X", (0, 350, 350))] ≠ .ok () := by
  constructor
  · rw [C34_travel]
    intro e he
    rw [List.mem_singleton.mp he]
    intro lo hi h
    cases h
    constructor <;> norm_num [offset]
  · rw [ne_eq, C34_travel]
    intro h
    have := (h _ List.mem_cons_self 0 500 rfl).2
    norm_num [offset] at this

end NC.Props
