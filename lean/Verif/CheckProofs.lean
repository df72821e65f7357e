import Verif.Spec.Check
import Verif.Survive
import Verif.VerifierProofs
import Verif.Props.Verifiers

/-! # When the stages of checking a line go through -/

namespace NC.Pipe
open NC NC.Message NC.Gram NC.Ver NC.AttrPath NC.Path NC.Spec.Verify NC.Spec.Survive NC.Spec.Check NC.Spec.Units

theorem mem_decs {b : Block} {d : Dec} : d ∈ decs b ↔ Attr.dec d ∈ b := by
  induction b with
  | nil => simp [decs]
  | cons a b ih => cases a <;> simp [decs, ih]

theorem andThen_iff {l : Enums.ELanguage} {x : Out Exc Unit} {p q : Parser} {k : Parser × Out NumExc Answer} {m : Option Str} :
    andThen (.known l) x p k = (q, .ok (true, m)) ↔ x = .ok () ∧ k = (q, .ok (true, m)) := by
  constructor
  · intro h
    rcases andThen_cases h with h | h
    · exact h
    · cases h.2.1
  · rintro ⟨rfl, h⟩
    exact h

section
variable {S : Setup} {l : Enums.ELanguage} (hl : S.lang = .known l) {o : Options} {line : Int} {b : Block} {p q : Parser}
include hl

theorem lastStage_iff : lastStage S true b p = (q, .ok (true, none)) ↔ (selectRun p.units b).2 = .ok () ∧ q = selected p b := by
  unfold lastStage
  rw [hl, andThen_iff]
  constructor
  · rintro ⟨h1, h2⟩
    simp only [Prod.mk.injEq] at h2
    exact ⟨h1, h2.1.symm⟩
  · rintro ⟨h1, rfl⟩
    exact ⟨h1, rfl⟩

theorem pathStage_iff : pathStage S o line true b p = (q, .ok (true, none)) ↔
    (o.path = true → (calculated S line b p).2 = .ok () ∧
      (o.zeroPoint = true → travelRun S.limits S.zero (ranges (calculated S line b p).1.path.range) = .ok ())) ∧
    lastStage S true b (if o.path then (calculated S line b p).1 else p) = (q, .ok (true, none)) := by
  unfold pathStage
  by_cases ho : o.path = true
  · simp only [ho, if_true, true_imp_iff]
    rw [hl, andThen_iff, andThen_iff]
    by_cases hz : o.zeroPoint = true
    · simp only [hz, if_true, true_imp_iff, and_assoc]
    · simp only [hz, false_imp_iff, and_true, true_and]
      simp
  · simp [ho]

theorem groupStage_iff : groupStage S o line true b p = (q, .ok (true, none)) ↔
    (o.groups = true → codeGroups p.macros S.gcodes S.mcodes line b false = .ok ()) ∧
    (S.haas = true → sameWord c!"M" b = .ok ()) ∧ pathStage S o line true b p = (q, .ok (true, none)) := by
  unfold groupStage
  rw [hl, andThen_iff, andThen_iff]
  by_cases ho : o.groups = true <;> by_cases hh : S.haas = true <;> simp [ho, hh]

theorem analysisStage_iff : analysisStage S o line true b p = (q, .ok (true, none)) ↔
    (o.analysis = true → limitRun S.lathe S.limits b = .ok () ∧ (rotation S.cfg.operatorRotation p.rot b).2 = none) ∧
    groupStage S o line true b (if o.analysis then { p with rot := (rotation S.cfg.operatorRotation p.rot b).1 } else p) =
      (q, .ok (true, none)) := by
  unfold analysisStage
  by_cases ho : o.analysis = true
  · simp only [ho, if_true, true_imp_iff]
    rw [hl, andThen_iff, andThen_iff]
    have : ofOption (rotation S.cfg.operatorRotation p.rot b).2 = .ok () ↔ (rotation S.cfg.operatorRotation p.rot b).2 = none := by
      cases (rotation S.cfg.operatorRotation p.rot b).2 <;> simp [ofOption]
    rw [this, and_assoc]
  · simp [ho]

theorem systemStage_iff : systemStage S o line true b p = (q, .ok (true, none)) ↔
    ∃ m, Macro.sysRun line p.macros b = .ok m ∧ analysisStage S o line true b { p with macros := m } = (q, .ok (true, none)) := by
  unfold systemStage
  cases hm : Macro.sysRun line p.macros b with
  | ok m => simp
  | throw e =>
    simp only [reduceCtorEq, false_and, exists_false, iff_false]
    rw [hl]
    intro h
    simp only [Prod.mk.injEq] at h
    cases (tell_told h.2).1
  | ub => simp

end

/-! ## The words of a line -/

theorem number_of {d : Dec} {b : Block} (hs : ∀ d ∈ decs b, Shape d) (ho : Ordinary lathe k b) (hd : d ∈ decs b) {v : Str}
    (hv : d.value = some v) : Number v (readNat v) :=
  ⟨((hs d hd).value v hv).2, ((hs d hd).value v hv).1, ho.small d hd v (.inl hv), rfl⟩

theorem number_of2 {d : Dec} {b : Block} (hs : ∀ d ∈ decs b, Shape d) (ho : Ordinary lathe k b) (hd : d ∈ decs b) {v : Str}
    (hv : d.value2 = some v) : Number v (readNat v) :=
  ⟨((hs d hd).value2 v hv).2.1, ((hs d hd).value2 v hv).1, ho.small d hd v (.inr hv), rfl⟩

theorem selectRun_number (b : Block) (u : Units) (h : ∀ d ∈ decs b, ∀ v, d.value = some v → ∃ n, Number v n) :
    (selectRun u b).2 = .ok () := by
  induction b generalizing u with
  | nil => rfl
  | cons a b ih =>
    have ht : ∀ d ∈ decs b, ∀ v, d.value = some v → ∃ n, Number v n := fun d hd => h d (by cases a <;> simp [decs, hd])
    cases a with
    | str x y => exact ih u ht
    | chr x y => exact ih u ht
    | dec d =>
      unfold selectRun
      by_cases hw : d.word ≠ c!"G"
      · rw [if_pos hw]; exact ih u ht
      · rw [if_neg hw]
        cases hv : d.value with
        | none => exact ih u ht
        | some v =>
          obtain ⟨n, hn⟩ := h d (by simp [decs]) v hv
          dsimp only
          rw [stoi_number hn]
          dsimp only
          exact ih _ ht

/-- The codes of the words. -/
theorem codes_mean {m : MacroMap ℚ} {line : Int} {b : Block} (hs : ∀ d ∈ decs b, Shape d) (ho : Ordinary lathe k b)
    (hm : ∀ d ∈ decs b, d.mac = none) (letter : Str) : List.Forall₂ (Means m line) (Spec.Verify.codeWords letter b) (codes letter b) := by
  have : ∀ ds : List Dec, (∀ d ∈ ds, d ∈ decs b ∧ d.value.isSome = true) → List.Forall₂ (Means m line) ds (ds.map number) := by
    intro ds
    induction ds with
    | nil => intro _; exact .nil
    | cons d t ih =>
      intro h
      refine .cons ?_ (ih (fun d hd => h d (by simp [hd])))
      obtain ⟨hd, hv⟩ := h d (by simp)
      obtain ⟨v, hv⟩ := Option.isSome_iff_exists.mp hv
      unfold number
      rw [hv]
      cases hv2 : d.value2 with
      | none => exact .plain (hm d hd) hv hv2 (number_of hs ho hd hv)
      | some v2 => exact .dotted (hm d hd) hv hv2 (number_of hs ho hd hv) (number_of2 hs ho hd hv2)
  apply this
  intro d hd
  unfold Spec.Verify.codeWords at hd
  rw [List.mem_filter] at hd
  exact ⟨hd.1, by simpa using (Bool.and_eq_true _ _ ▸ hd.2).2⟩

theorem stod_nil : stod [] = .throw .invalidArgument := by decide

/-- A number without digits cannot be read. -/
theorem valText_bare {d : Dec} (h : Shape d) (hb : Bare d) : ∃ e, stod (valText d) = .throw e := by
  unfold valText
  rw [hb.1, hb.2]
  rcases hsg : d.sign with _ | c
  · rcases hd : d.dot with _ | c'
    · exact ⟨.invalidArgument, by decide⟩
    · rw [h.dot c' hd]; exact ⟨.invalidArgument, by decide⟩
  · rcases hd : d.dot with _ | c'
    · rcases h.sign c hsg with rfl | rfl <;> exact ⟨.invalidArgument, by decide⟩
    · rw [h.dot c' hd]
      rcases h.sign c hsg with rfl | rfl <;> exact ⟨.invalidArgument, by decide⟩

theorem sysRun_iff (line : Int) : ∀ (b : Block) (m : MacroMap ℚ), (∀ d ∈ decs b, Shape d) →
    ((∃ m', Macro.sysRun line m b = .ok m') ↔ ∀ d ∈ decs b, d.word ∈ kept → ¬ Bare d) := by
  intro b
  induction b with
  | nil => intro m _; simp [decs, Macro.sysRun]
  | cons a b ih =>
    intro m hs
    have hst : ∀ d ∈ decs b, Shape d := fun d hd => hs d (by cases a <;> simp [decs, hd])
    have step : ∀ r, Macro.sysStep line m a = r → Macro.sysRun line m (a :: b) = (r >>= fun m' => Macro.sysRun line m' b) := by
      rintro r rfl; rfl
    cases a with
    | str x y => rw [step (.ok m) rfl]; exact ih m hst
    | chr x y => rw [step (.ok m) rfl]; exact ih m hst
    | dec d =>
      have e : Macro.sysStep line m (.dec d) = (match Macro.sysVars.find? (fun p => p.1 == d.word) with
          | some (_, ids) => stod (Macro.plainText d) >>= fun v => Out.ok (ids.foldl (fun (m : MacroMap ℚ) i => m.assign ⟨i, line⟩ v) m)
          | none => .ok m) := rfl
      have hd := hs d (by simp [decs])
      rw [show decs (.dec d :: b) = d :: decs b from rfl, List.forall_mem_cons]
      cases hf : Macro.sysVars.find? (fun p => p.1 == d.word) with
      | none =>
        rw [hf] at e
        rw [step _ e]
        have hk := (kept_iff _).mp hf
        exact (ih m hst).trans ⟨fun h => ⟨fun h' => absurd h' hk, h⟩, fun h => h.2⟩
      | some x =>
        rw [hf] at e
        have hk : d.word ∈ kept := by
          by_contra hk
          rw [(kept_iff _).mpr hk] at hf
          cases hf
        dsimp only at e
        rw [plainText_eq hd] at e
        by_cases hb : Bare d
        · obtain ⟨f, hq⟩ := valText_bare hd hb
          rw [hq] at e
          rw [step _ e]
          constructor
          · rintro ⟨m', h⟩; cases h
          · rintro ⟨h, _⟩; exact absurd hb (h hk)
        · obtain ⟨v, hq⟩ := valText_ok hd hb
          rw [hq] at e
          rw [step _ e]
          exact (ih _ hst).trans ⟨fun h => ⟨fun _ => hb, h⟩, fun h => h.2⟩

/-- The simulation does not depend on the variables, nor on the line number. -/
theorem evaluate_alone {K : Type} [Field K] [LinearOrder K] [FloorRing K] (F : Fns K) (c : Cfg K) (inch : Inch) (line : Int) (b : Block) (s : St K) (m : MacroMap ℚ) :
    (evaluate F c inch line b (s, m)).1.1 = (evaluate F c inch 0 b (s, [])).1.1 ∧
    (evaluate F c inch line b (s, m)).2 = (evaluate F c inch 0 b (s, [])).2 := by
  have tool : ∀ (v : Vis K) (s : St K), (toolPart c line v (s, m)).1.1 = (toolPart c 0 v (s, [])).1.1 ∧
      (toolPart c line v (s, m)).2 = (toolPart c 0 v (s, [])).2 := by
    intro v s
    unfold toolPart
    cases toolOf v with
    | none => exact ⟨rfl, rfl⟩
    | some t =>
      dsimp only
      by_cases h : c.toolExchanges ∨ v.m6
      · rw [if_pos h, if_pos h]
        cases stodE t <;> exact ⟨rfl, rfl⟩
      · rw [if_neg h, if_neg h]; exact ⟨rfl, rfl⟩
  unfold evaluate
  dsimp only
  by_cases hb : b = []
  · rw [if_pos hb, if_pos hb]; exact ⟨rfl, rfl⟩
  · rw [if_neg hb, if_neg hb]
    cases visitAll c {} b with
    | ok v =>
      dsimp only
      unfold evalVis
      obtain ⟨h1, h2⟩ := tool v (mTimes c v (clearMotions s))
      dsimp only
      rw [← h2]
      rcases ht : (toolPart c line v (mTimes c v (clearMotions s), m)).2 with x | x | _
      · cases x
        · exact ⟨h1, rfl⟩
        · dsimp only; rw [h1]; exact ⟨rfl, rfl⟩
      · exact ⟨h1, rfl⟩
      · exact ⟨h1, rfl⟩
    | throw e => exact ⟨rfl, rfl⟩
    | ub => exact ⟨rfl, rfl⟩

end NC.Pipe
