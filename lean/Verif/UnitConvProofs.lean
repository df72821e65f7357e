import Verif.UnitConv
import Verif.Spec.UnitConv
import Verif.NumProofs

/-! # Helper lemmas about unit conversion -/

namespace NC.UnitConv
open NC Spec.UnitConv

theorem rstripDot_noDot {a : Str} (h : ∀ c, a.getLast? = some c → c ≠ '.') : rstripDot a = a := by
  unfold rstripDot
  rw [← List.head?_reverse] at h
  cases hr : a.reverse with
  | nil => rw [List.reverse_eq_nil_iff] at hr; subst hr; rfl
  | cons c r =>
    rw [hr] at h
    have hc : c ≠ '.' := h c rfl
    simp only [List.dropWhile_cons, hc, decide_false, Bool.false_eq_true, if_false]
    rw [← hr, List.reverse_reverse]

theorem rstripDot_append_dot {a : Str} (h : ∀ c, a.getLast? = some c → c ≠ '.') : rstripDot (a ++ ['.']) = a := by
  conv_rhs => rw [← rstripDot_noDot h]
  unfold rstripDot
  simp

theorem getLast_digit {a : Str} (h : AllDig a) : ∀ c, a.getLast? = some c → c ≠ '.' := by
  intro c hc
  have := h c (List.mem_of_getLast? hc)
  rintro rfl
  revert this; decide

theorem numberText_nonneg {p : Nat} (hp : 0 < p) {q : ℚ} (hq : 0 ≤ q) :
    ∃ ip fp : Str, AllDig ip ∧ ip ≠ [] ∧ AllDig fp ∧ fp.length ≤ p ∧
      numberText p q = (if fp = [] then ip else ip ++ '.' :: fp) ∧
      (readNat ip : ℚ) + readNat fp / 10 ^ fp.length = (scaled p q : ℚ) / 10 ^ p := by
  have hneg : decide (q < 0) = false := by simpa using hq
  set ip := natStr (scaled p q / 10 ^ p) with hip
  set f := padZeros p (scaled p q % 10 ^ p) with hf
  have hipd : AllDig ip := natStr_isDig _
  have hfd : AllDig f := padZeros_allDig _ _
  have hfl : f.length = p := padZeros_length (Nat.mod_lt _ (by positivity)) hp
  have htxt : fixedStr p q = ip ++ '.' :: f := by
    rw [fixedStr_eq, if_neg (by omega), hneg]; simp [minus, ip, f]
  refine ⟨ip, rstrip0 f, hipd, natStr_ne_nil _, allDig_rstrip hfd, ?_, ?_, ?_⟩
  · obtain ⟨k, hk⟩ := rstrip0_spec f
    have := congrArg List.length hk
    simp only [List.length_append] at this
    omega
  · unfold numberText
    rw [htxt, rstrip0_append_nz ip (by decide) f]
    split
    · rename_i h0
      rw [h0]
      exact rstripDot_append_dot (getLast_digit hipd)
    · rename_i h0
      apply rstripDot_noDot
      intro c hc
      rw [List.getLast?_append_of_ne_nil _ (by simp), List.getLast?_cons_of_ne_nil h0] at hc
      exact getLast_digit (allDig_rstrip hfd) c hc
  · rw [frac_rstrip]
    have h1 := stod_fixedStr p q
    rw [htxt] at h1
    have h2 := stod_frac false hipd hfd (Or.inl (natStr_ne_nil _))
    simp only [minus, Bool.false_eq_true, if_false, List.nil_append] at h2
    rw [h2, hneg] at h1
    simpa [signed] using h1

theorem takeWhile_ne_dot {ip : Str} (h : AllDig ip) (r : Str) :
    (ip ++ '.' :: r).takeWhile (· ≠ '.') = ip ∧ (ip ++ '.' :: r).dropWhile (· ≠ '.') = '.' :: r := by
  induction ip with
  | nil => simp
  | cons c cs ih =>
    have hc : c ≠ '.' := by
      have := h c (by simp)
      rintro rfl; revert this; decide
    have := ih (fun x hx => h x (by simp [hx]))
    simp only [ne_eq, decide_not] at this
    simp [hc, this.1, this.2]

theorem not_dot_mem {ip : Str} (h : AllDig ip) : '.' ∉ ip := by
  intro hm
  have := h _ hm
  revert this; decide

theorem stod_valueText {d : Dec} {q : ℚ} (h : Denotes d q) : stod (valueText d) = .ok q := by
  obtain ⟨ip, fp, hi, hf, hv, hd, rfl⟩ := h
  have hvd : d.value.getD [] = ip := by
    rcases hv with ⟨h1, h2⟩ | h1
    · rw [h1, h2]; rfl
    · rw [h1]; rfl
  unfold valueText
  rw [hvd]
  rcases hd with ⟨h1, h2, h3, h4⟩ | ⟨h1, h2, h3⟩
  · have := stod_int false hi h4
    simp only [minus, Bool.false_eq_true, if_false, List.nil_append] at this
    subst h3
    rw [h1, h2]
    simp only [Option.toList, Option.getD, List.append_nil]
    rw [this]
    simp [signed, readNat]
  · have hv2 : d.value2.getD [] = fp := by
      rcases h2 with ⟨h4, h5⟩ | h4
      · rw [h4, h5]; rfl
      · rw [h4]; rfl
    have := stod_frac false hi hf h3
    simp only [minus, Bool.false_eq_true, if_false, List.nil_append] at this
    rw [h1, hv2]
    simp only [Option.toList]
    rw [List.append_assoc]
    simpa [signed] using this

theorem _root_.NC.Spec.UnitConv.Denotes.nonneg {d : Dec} {q : ℚ} (h : Denotes d q) : 0 ≤ q := by
  obtain ⟨ip, fp, _, _, _, _, rfl⟩ := h
  positivity

/-- Storing a trimmed number. -/
theorem store_number (d : Dec) {ip fp : Str} (hi : AllDig ip) (hne : ip ≠ []) (hf : AllDig fp) :
    Denotes (store d (if fp = [] then ip else ip ++ '.' :: fp)) ((readNat ip : ℚ) + readNat fp / 10 ^ fp.length) ∧
    store d (if fp = [] then ip else ip ++ '.' :: fp) =
      { d with value := some ip, dot := if fp = [] then none else some '.', value2 := if fp = [] then none else some fp } := by
  by_cases h0 : fp = []
  · subst h0
    have hs : store d ip = { d with value := some ip, dot := none, value2 := none } := by
      unfold store
      rw [if_neg (not_dot_mem hi)]
    simp only [if_true, hs]
    refine ⟨⟨ip, [], hi, by simp, Or.inr rfl, Or.inl ⟨rfl, rfl, rfl, hne⟩, rfl⟩, trivial⟩
  · have hs : store d (ip ++ '.' :: fp) = { d with value := some ip, dot := some '.', value2 := some fp } := by
      unfold store
      have := takeWhile_ne_dot hi fp
      rw [if_pos (by simp)]
      simp only [this.1, this.2, List.drop_succ_cons, List.drop_zero, if_neg h0]
    simp only [if_neg h0, hs]
    refine ⟨⟨ip, fp, hi, hf, Or.inr rfl, Or.inr ⟨rfl, Or.inr rfl, Or.inl hne⟩, rfl⟩, trivial⟩

theorem factor_nonneg {dir : Dir} {q : ℚ} (h : 0 ≤ q) : 0 ≤ factor dir q := by
  cases dir <;> simp only [factor] <;> positivity

/-! ## Lookup -/

theorem find_mem {m : WordMap} {w : Str} {wg : WordGrammar} (h : m.find w = some wg) : (w, wg) ∈ m := by
  unfold WordMap.find at h
  rw [Option.map_eq_some_iff] at h
  obtain ⟨⟨w', wg'⟩, hf, rfl⟩ := h
  have h1 := List.find?_some hf
  have h2 := List.mem_of_find?_eq_some hf
  simp only [beq_iff_eq] at h1
  subst h1
  exact h2

theorem find_of_mem {m : WordMap} (hn : (m.map Prod.fst).Nodup) {w : Str} {wg : WordGrammar} (h : (w, wg) ∈ m) :
    m.find w = some wg := by
  induction m with
  | nil => simp at h
  | cons p m ih =>
    simp only [List.map_cons, List.nodup_cons] at hn
    simp only [List.mem_cons] at h
    rcases h with rfl | h
    · simp [WordMap.find]
    · have hne : p.1 ≠ w := by
        rintro rfl
        exact hn.1 (List.mem_map.mpr ⟨_, h, rfl⟩)
      have := ih hn.2 h
      unfold WordMap.find at this ⊢
      rw [List.find?_cons_of_neg (by simpa using hne)]
      exact this

theorem convWords_find {m : WordMap} (hn : (m.map Prod.fst).Nodup) (w : Str) (wg : WordGrammar) :
    (convWords m).find w = some wg ↔ Dimensional m w wg := by
  have hn' : ((convWords m).map Prod.fst).Nodup := by
    unfold convWords
    exact (List.filter_sublist.map _).nodup hn
  constructor
  · intro h
    have := find_mem h
    unfold convWords at this
    rw [List.mem_filter] at this
    refine ⟨this.1, ?_⟩
    simpa using this.2
  · rintro ⟨h1, h2⟩
    apply find_of_mem hn'
    unfold convWords
    rw [List.mem_filter]
    exact ⟨h1, by simpa using h2⟩

/-! ## Flags -/

theorem firstDec_append (a b : Block) : firstDec (a ++ b) = (firstDec a).or (firstDec b) := by
  induction a with
  | nil => rfl
  | cons x a ih =>
    cases x <;> simp [firstDec, ih]

theorem firstDec_none {a : Block} (h : firstDec a = none) (d : Dec) : Attr.dec d ∉ a := by
  induction a with
  | nil => simp
  | cons x a ih =>
    cases x with
    | dec e => simp [firstDec] at h
    | str w v => simp only [firstDec] at h; simp [ih h]
    | chr w v => simp only [firstDec] at h; simp [ih h]

/-- What the flags mean after the words `pre`. -/
structure Inv (pre : Block) (f : Flags) : Prop where
  skip : f.ignoreRest = true ↔ Skipped pre
  first : f.ignoreRest = false → f.first = (firstDec pre).isSome
  rot : f.ignoreRest = false → (f.g68 = true ↔ Rotating pre)

theorem inv_nil : Inv [] {} := by
  refine ⟨?_, fun _ => rfl, fun _ => ?_⟩
  · simp [Skipped, firstDec]
  · simp [Rotating]

theorem skipped_append_iff (pre : Block) (d : Dec) :
    Skipped (pre ++ [.dec d]) ↔
      Skipped pre ∨ (firstDec pre = none ∧ d.word = ['/']) ∨ gCode d = some 4 := by
  unfold Skipped
  rw [firstDec_append]
  constructor
  · rintro (⟨e, he, hw⟩ | ⟨e, he, hg⟩)
    · cases hfd : firstDec pre with
      | none =>
        rw [hfd] at he
        simp [firstDec] at he
        subst he
        exact Or.inr (Or.inl ⟨rfl, hw⟩)
      | some x =>
        rw [hfd] at he
        simp at he; subst he
        exact Or.inl (Or.inl ⟨x, rfl, hw⟩)
    · simp only [List.mem_append, List.mem_singleton, Attr.dec.injEq] at he
      rcases he with he | rfl
      · exact Or.inl (Or.inr ⟨e, he, hg⟩)
      · exact Or.inr (Or.inr hg)
  · rintro ((⟨e, he, hw⟩ | ⟨e, he, hg⟩) | ⟨h1, h2⟩ | h)
    · left; exact ⟨e, by rw [he]; rfl, hw⟩
    · right; exact ⟨e, by simp [he], hg⟩
    · left; exact ⟨d, by rw [h1]; simp [firstDec], h2⟩
    · right; exact ⟨d, by simp, h⟩

theorem skipped_append_other {a : Attr} (ha : ∀ d, a ≠ .dec d) (pre : Block) :
    Skipped (pre ++ [a]) ↔ Skipped pre := by
  unfold Skipped
  rw [firstDec_append]
  have h1 : firstDec [a] = none := by cases a <;> simp_all [firstDec]
  rw [h1, Option.or_none]
  constructor
  · rintro (h | ⟨e, he, hg⟩)
    · exact Or.inl h
    · simp only [List.mem_append, List.mem_singleton] at he
      rcases he with he | he
      · exact Or.inr ⟨e, he, hg⟩
      · exact absurd he.symm (ha e)
  · rintro (h | ⟨e, he, hg⟩)
    · exact Or.inl h
    · exact Or.inr ⟨e, by simp [he], hg⟩

theorem rotating_append_iff (pre : Block) (d : Dec) :
    Rotating (pre ++ [.dec d]) ↔ Rotating pre ∨ IsG68 d := by
  unfold Rotating
  constructor
  · rintro ⟨e, he, h⟩
    simp only [List.mem_append, List.mem_singleton, Attr.dec.injEq] at he
    rcases he with he | rfl
    · exact Or.inl ⟨e, he, h⟩
    · exact Or.inr h
  · rintro (⟨e, he, h⟩ | h)
    · exact ⟨e, by simp [he], h⟩
    · exact ⟨d, by simp, h⟩

theorem rotating_append_other {a : Attr} (ha : ∀ d, a ≠ .dec d) (pre : Block) :
    Rotating (pre ++ [a]) ↔ Rotating pre := by
  unfold Rotating
  constructor
  · rintro ⟨e, he, h⟩
    simp only [List.mem_append, List.mem_singleton] at he
    rcases he with he | he
    · exact ⟨e, he, h⟩
    · exact absurd he.symm (ha e)
  · rintro ⟨e, he, h⟩
    exact ⟨e, by simp [he], h⟩

/-- The effect on one decimal word, in the words of the specification. -/
def Effect (cw : WordMap) (dir : Dir) (pre : Block) (d d' : Dec) : Prop :=
  (Skipped (pre ++ [.dec d]) ∧ d' = d) ∨
  (¬ Skipped (pre ++ [.dec d]) ∧ ¬ Plain d ∧ d' = d) ∨
  (¬ Skipped (pre ++ [.dec d]) ∧ Plain d ∧ dir = .imperialToMetric ∧ gCode d = some 20 ∧ d' = { d with value := some c!"21" }) ∨
  (¬ Skipped (pre ++ [.dec d]) ∧ Plain d ∧ dir = .metricToImperial ∧ gCode d = some 21 ∧ d' = { d with value := some c!"20" }) ∨
  (¬ Skipped (pre ++ [.dec d]) ∧ IsG68 d ∧ d' = d) ∨
  (¬ Skipped (pre ++ [.dec d]) ∧ Plain d ∧ ¬ IsG68 d ∧ ¬ (dir = .imperialToMetric ∧ gCode d = some 20) ∧
    ¬ (dir = .metricToImperial ∧ gCode d = some 21) ∧ Rotating pre ∧ d.word ∈ g68Params ∧ d' = d) ∨
  (¬ Skipped (pre ++ [.dec d]) ∧ Plain d ∧ ¬ IsG68 d ∧ ¬ (dir = .imperialToMetric ∧ gCode d = some 20) ∧
    ¬ (dir = .metricToImperial ∧ gCode d = some 21) ∧ ¬ (Rotating pre ∧ d.word ∈ g68Params) ∧
    convertWord cw dir d = .ok d')

theorem afterG_ok {cw : WordMap} {dir : Dir} {f : Flags} {d : Dec} {r : Flags × Dec} (h : afterG cw dir f d = .ok r) :
    r.1 = f ∧ ((f.g68 = true ∧ d.word ∈ g68Params ∧ r.2 = d) ∨
      (¬ (f.g68 = true ∧ d.word ∈ g68Params) ∧ convertWord cw dir d = .ok r.2)) := by
  unfold afterG at h
  split at h
  · rename_i hc
    simp only [Out.ok.injEq] at h
    subst h
    exact ⟨rfl, Or.inl ⟨hc.1, hc.2, rfl⟩⟩
  · rename_i hc
    rw [Out.bind_eq_ok] at h
    obtain ⟨d', h1, h2⟩ := h
    simp only [Out.pure_eq, Out.ok.injEq] at h2
    subst h2
    exact ⟨rfl, Or.inr ⟨hc, h1⟩⟩

theorem gv_ok {d : Dec} {gv : Option Int}
    (h : (if d.word = c!"G" then optStoi d.value else .ok none) = .ok gv) : gCode d = gv := by
  unfold gCode
  split at h
  · rename_i hw
    rw [if_pos hw]
    cases hv : d.value with
    | none => rw [hv] at h; simp [optStoi] at h; rw [← h]
    | some v =>
      rw [hv] at h
      simp only [optStoi] at h
      rw [Out.bind_eq_ok] at h
      obtain ⟨n, h1, h2⟩ := h
      simp at h2; subst h2
      simp [h1]
  · rename_i hw
    rw [if_neg hw]
    simpa using h

/-- One word, with the flag invariant. -/
theorem visitDec_ok {cw : WordMap} {dir : Dir} {pre : Block} {f : Flags} (hinv : Inv pre f) {d : Dec}
    {r : Flags × Dec} (h : visitDec cw dir f d = .ok r) :
    Inv (pre ++ [.dec d]) r.1 ∧ Effect cw dir pre d r.2 := by
  unfold visitDec at h
  by_cases hig : f.ignoreRest = true
  · simp only [hig, if_true, Out.ok.injEq] at h
    subst h
    have hs : Skipped (pre ++ [.dec d]) := (skipped_append_iff pre d).mpr (Or.inl (hinv.skip.mp hig))
    exact ⟨⟨by simp [hig, hs], by simp [hig], by simp [hig]⟩, Or.inl ⟨hs, rfl⟩⟩
  have hig' : f.ignoreRest = false := by simpa using hig
  have hns : ¬ Skipped pre := fun hh => hig (hinv.skip.mpr hh)
  have hfst := hinv.first hig'
  have hrot := hinv.rot hig'
  rw [if_neg hig] at h
  by_cases hsl : (!f.first && decide (d.word = c!"/")) = true
  · rw [if_pos hsl] at h
    simp only [Out.ok.injEq] at h
    subst h
    simp only [Bool.and_eq_true, Bool.not_eq_true', decide_eq_true_eq] at hsl
    have hnone : firstDec pre = none := by
      rw [hfst] at hsl
      cases hfd : firstDec pre with
      | none => rfl
      | some x => rw [hfd] at hsl; simp at hsl
    have hs : Skipped (pre ++ [.dec d]) := (skipped_append_iff pre d).mpr (Or.inr (Or.inl ⟨hnone, hsl.2⟩))
    exact ⟨⟨by simp [hs], by simp, by simp⟩, Or.inl ⟨hs, rfl⟩⟩
  rw [if_neg hsl] at h
  have hnsl : ¬ (firstDec pre = none ∧ d.word = ['/']) := by
    rintro ⟨h1, h2⟩
    apply hsl
    rw [hfst, h1]
    simp [h2]
  rw [Out.bind_eq_ok] at h
  obtain ⟨gv, hgv, h⟩ := h
  have hg := gv_ok hgv
  have hsome : (firstDec (pre ++ [Attr.dec d])).isSome = true := by
    rw [firstDec_append]; simp [firstDec]
  by_cases h4 : gv = some 4
  · rw [if_pos h4] at h
    simp only [Out.ok.injEq] at h
    subst h
    have hs : Skipped (pre ++ [.dec d]) := (skipped_append_iff pre d).mpr (Or.inr (Or.inr (hg.trans h4)))
    exact ⟨⟨by simp [hs], by simp, by simp⟩, Or.inl ⟨hs, rfl⟩⟩
  rw [if_neg h4] at h
  have hns' : ¬ Skipped (pre ++ [.dec d]) := by
    rw [skipped_append_iff]
    rintro (h1 | h1 | h1)
    · exact hns h1
    · exact hnsl h1
    · exact h4 (hg.symm.trans h1)
  by_cases hpl : d.mac.isSome ∨ d.openB.isSome ∨ d.closeB.isSome
  · rw [if_pos hpl] at h
    simp only [Out.ok.injEq] at h
    subst h
    have hnp : ¬ Plain d := by
      rintro ⟨h1, h2, h3⟩
      rw [h1, h2, h3] at hpl
      simp at hpl
    have hn68 : ¬ IsG68 d := fun hh => hnp hh.1
    refine ⟨⟨?_, ?_, ?_⟩, Or.inr (Or.inl ⟨hns', hnp, rfl⟩)⟩
    · simp [hig', hns']
    · intro _; exact hsome.symm
    · intro _; rw [rotating_append_iff]; simp only; rw [hrot]; tauto
  rw [if_neg hpl] at h
  have hp : Plain d := by
    simp only [not_or, Bool.not_eq_true, Option.isSome_eq_false_iff, Option.isNone_iff_eq_none] at hpl
    exact hpl
  -- a step that leaves the flags alone
  have same : ∀ (hn68 : ¬ IsG68 d), Inv (pre ++ [.dec d]) { f with first := true } := by
    intro hn68
    refine ⟨?_, ?_, ?_⟩
    · simp [hig', hns']
    · intro _; exact hsome.symm
    · intro _; rw [rotating_append_iff]; simp only; rw [hrot]; tauto
  have set68 : IsG68 d → Inv (pre ++ [.dec d]) { first := true, ignoreRest := f.ignoreRest, g68 := true } := by
    intro h68
    refine ⟨?_, ?_, ?_⟩
    · simp [hig', hns']
    · intro _; exact hsome.symm
    · intro _; rw [rotating_append_iff]; simp [h68]
  -- the tail
  have tail : ∀ (hn68 : ¬ IsG68 d) (hn20 : ¬ (dir = .imperialToMetric ∧ gCode d = some 20))
      (hn21 : ¬ (dir = .metricToImperial ∧ gCode d = some 21)),
      afterG cw dir { f with first := true } d = .ok r →
      Inv (pre ++ [.dec d]) r.1 ∧ Effect cw dir pre d r.2 := by
    intro hn68 hn20 hn21 ha
    obtain ⟨hr1, hr2⟩ := afterG_ok ha
    rw [hr1]
    refine ⟨same hn68, ?_⟩
    rcases hr2 with ⟨h1, h2, h3⟩ | ⟨h1, h2⟩
    · have : Rotating pre := hrot.mp h1
      exact Or.inr (Or.inr (Or.inr (Or.inr (Or.inr (Or.inl ⟨hns', hp, hn68, hn20, hn21, this, h2, h3⟩)))))
    · have : ¬ (Rotating pre ∧ d.word ∈ g68Params) := fun hh => h1 ⟨hrot.mpr hh.1, hh.2⟩
      exact Or.inr (Or.inr (Or.inr (Or.inr (Or.inr (Or.inr ⟨hns', hp, hn68, hn20, hn21, this, h2⟩)))))
  cases gv with
  | none =>
    simp only [gCase] at h
    refine tail ?_ ?_ ?_ h
    · rintro ⟨_, h2, _⟩; rw [hg] at h2; simp at h2
    · rintro ⟨_, h2⟩; rw [hg] at h2; simp at h2
    · rintro ⟨_, h2⟩; rw [hg] at h2; simp at h2
  | some n =>
    simp only [gCase] at h
    by_cases c20 : n = 20 ∧ dir = .imperialToMetric
    · rw [if_pos c20] at h
      simp only [Out.ok.injEq] at h
      subst h
      have hn68 : ¬ IsG68 d := by rintro ⟨_, h2, _⟩; rw [hg, c20.1] at h2; simp at h2
      exact ⟨same hn68, Or.inr (Or.inr (Or.inl ⟨hns', hp, c20.2, by rw [hg, c20.1], rfl⟩))⟩
    rw [if_neg c20] at h
    have hn20 : ¬ (dir = .imperialToMetric ∧ gCode d = some 20) := by
      rintro ⟨h1, h2⟩; rw [hg] at h2; simp at h2; exact c20 ⟨h2, h1⟩
    by_cases c21 : n = 21 ∧ dir = .metricToImperial
    · rw [if_pos c21] at h
      simp only [Out.ok.injEq] at h
      subst h
      have hn68 : ¬ IsG68 d := by rintro ⟨_, h2, _⟩; rw [hg, c21.1] at h2; simp at h2
      exact ⟨same hn68, Or.inr (Or.inr (Or.inr (Or.inl ⟨hns', hp, c21.2, by rw [hg, c21.1], rfl⟩)))⟩
    rw [if_neg c21] at h
    have hn21 : ¬ (dir = .metricToImperial ∧ gCode d = some 21) := by
      rintro ⟨h1, h2⟩; rw [hg] at h2; simp at h2; exact c21 ⟨h2, h1⟩
    by_cases c68 : n = 68
    · rw [if_pos c68] at h
      rw [Out.bind_eq_ok] at h
      obtain ⟨o, ho, h⟩ := h
      have hg68 : gCode d = some 68 := by rw [hg, c68]
      cases hv2 : d.value2 with
      | none =>
        rw [hv2] at ho
        simp [optStoi] at ho
        subst ho
        simp only [g68Case, Out.ok.injEq] at h
        subst h
        have h68 : IsG68 d := ⟨hp, hg68, Or.inl hv2⟩
        exact ⟨set68 h68, Or.inr (Or.inr (Or.inr (Or.inr (Or.inl ⟨hns', h68, rfl⟩))))⟩
      | some v =>
        rw [hv2] at ho
        simp only [optStoi] at ho
        rw [Out.bind_eq_ok] at ho
        obtain ⟨n2, hn2, ho⟩ := ho
        simp at ho
        subst ho
        simp only [g68Case] at h
        split at h
        · rename_i hc
          simp only [Out.ok.injEq] at h
          subst h
          have h68 : IsG68 d := by
            refine ⟨hp, hg68, Or.inr ⟨v, hv2, ?_⟩⟩
            rw [hn2]
            simpa using hc
          exact ⟨set68 h68, Or.inr (Or.inr (Or.inr (Or.inr (Or.inl ⟨hns', h68, rfl⟩))))⟩
        · rename_i hc
          have hn68 : ¬ IsG68 d := by
            rintro ⟨_, _, h3 | ⟨v', h3, h4⟩⟩
            · rw [hv2] at h3; simp at h3
            · rw [hv2] at h3
              simp at h3; subst h3
              rw [hn2] at h4
              simp at h4
              exact hc h4
          exact tail hn68 hn20 hn21 h
    · rw [if_neg c68] at h
      have hn68 : ¬ IsG68 d := by
        rintro ⟨_, h2, _⟩; rw [hg] at h2; simp at h2; exact c68 h2
      exact tail hn68 hn20 hn21 h

/-- The whole block. -/
theorem convertFrom_ok {cw : WordMap} {dir : Dir} : ∀ (b pre : Block) (f : Flags) (out : Block),
    Inv pre f → convertFrom cw dir f b = .ok out →
      out.length = b.length ∧
      ∀ i a, b[i]? = some a → ∃ a', out[i]? = some a' ∧
        ((∀ d, a ≠ .dec d) → a' = a) ∧
        (∀ d, a = .dec d → ∃ d', a' = .dec d' ∧ Effect cw dir (pre ++ b.take i) d d') := by
  intro b
  induction b with
  | nil =>
    intro pre f out _ h
    simp [convertFrom] at h
    subst h
    simp
  | cons x b ih =>
    intro pre f out hinv h
    simp only [convertFrom] at h
    rw [Out.bind_eq_ok] at h
    obtain ⟨r, hr, h⟩ := h
    rw [Out.bind_eq_ok] at h
    obtain ⟨rest, hrest, h⟩ := h
    simp at h
    subst h
    have hx : Inv (pre ++ [x]) r.1 ∧ ((∀ d, x ≠ .dec d) → r.2 = x) ∧
        (∀ d, x = .dec d → ∃ d', r.2 = .dec d' ∧ Effect cw dir pre d d') := by
      cases x with
      | dec d =>
        simp only [visit] at hr
        rw [Out.bind_eq_ok] at hr
        obtain ⟨q, hq, hr⟩ := hr
        simp at hr
        subst hr
        obtain ⟨h1, h2⟩ := visitDec_ok hinv hq
        refine ⟨h1, fun hh => absurd rfl (hh d), ?_⟩
        intro e he
        simp at he; subst he
        exact ⟨q.2, rfl, h2⟩
      | str w v =>
        simp only [visit, Out.ok.injEq] at hr
        subst hr
        have ha : ∀ d, (Attr.str w v) ≠ .dec d := by intro d; simp
        refine ⟨⟨?_, ?_, ?_⟩, fun _ => rfl, fun d hd => absurd hd (ha d)⟩
        · rw [skipped_append_other ha]; exact hinv.skip
        · intro hh; rw [firstDec_append]; simp [firstDec, hinv.first hh]
        · intro hh; rw [rotating_append_other ha]; exact hinv.rot hh
      | chr w v =>
        simp only [visit, Out.ok.injEq] at hr
        subst hr
        have ha : ∀ d, (Attr.chr w v) ≠ .dec d := by intro d; simp
        refine ⟨⟨?_, ?_, ?_⟩, fun _ => rfl, fun d hd => absurd hd (ha d)⟩
        · rw [skipped_append_other ha]; exact hinv.skip
        · intro hh; rw [firstDec_append]; simp [firstDec, hinv.first hh]
        · intro hh; rw [rotating_append_other ha]; exact hinv.rot hh
    obtain ⟨hi1, hi2⟩ := ih (pre ++ [x]) r.1 rest hx.1 hrest
    refine ⟨by simp [hi1], ?_⟩
    intro i a ha
    cases i with
    | zero =>
      simp at ha; subst ha
      exact ⟨r.2, by simp, hx.2.1, by simpa using hx.2.2⟩
    | succ i =>
      simp only [List.getElem?_cons_succ] at ha
      obtain ⟨a', h1, h2, h3⟩ := hi2 i a ha
      exact ⟨a', by simpa using h1, h2, by simpa using h3⟩

end NC.UnitConv
