import Verif.PipelineProofs
import Verif.MacroProofs
import Verif.Props.SimTool

/-! # What a line records in the table of variables -/

namespace NC.Pipe
open NC NC.Message NC.Gram NC.Ver NC.AttrPath NC.Path NC.Macro

/-- From `m` to `m'` only entries of `P` are written. -/
structure Wrote (P : MKey → Prop) (m m' : MacroMap ℚ) : Prop where
  sorted : m'.Sorted
  others : ∀ k, ¬ P k → m'.get k = m.get k

theorem Wrote.refl {P : MKey → Prop} {m : MacroMap ℚ} (h : m.Sorted) : Wrote P m m := ⟨h, fun _ _ => rfl⟩

theorem Wrote.trans {P : MKey → Prop} {a b c : MacroMap ℚ} (h : Wrote P a b) (h' : Wrote P b c) : Wrote P a c :=
  ⟨h'.sorted, fun k hk => (h'.others k hk).trans (h.others k hk)⟩

theorem Wrote.mono {P Q : MKey → Prop} {a b : MacroMap ℚ} (h : Wrote P a b) (hPQ : ∀ k, P k → Q k) : Wrote Q a b :=
  ⟨h.sorted, fun k hk => h.others k (fun hp => hk (hPQ k hp))⟩

/-- The variables a controller keeps words in. -/
def SystemId (i : Nat) : Prop := (∃ w, i ∈ idsOf w) ∨ Props.toolVariable i

theorem toolMacros_sorted {m : MacroMap ℚ} (hm : m.Sorted) (line : Int) (q : ℚ) : (toolMacros m line q).Sorted :=
  MacroMap.sorted_assign (MacroMap.sorted_assign (MacroMap.sorted_assign hm _ _) _ _) _ _

section
variable {K : Type} [Field K] [LinearOrder K] [FloorRing K]

theorem toolPart_macros (c : Cfg K) (line : Int) (v : Vis K) (p : St K × MacroMap ℚ) :
    (toolPart c line v p).1.2 = p.2 ∨ ∃ q, (toolPart c line v p).1.2 = toolMacros p.2 line q := by
  unfold toolPart
  split
  · exact .inl rfl
  · split
    · split
      · rename_i q _; exact .inr ⟨q, rfl⟩
      · exact .inl rfl
      · exact .inl rfl
    · exact .inl rfl

theorem evaluate_macros (F : Fns K) (c : Cfg K) (inch : Inch) (line : Int) (b : Block) (p : St K × MacroMap ℚ) :
    (AttrPath.evaluate F c inch line b p).1.2 = p.2 ∨ ∃ q, (AttrPath.evaluate F c inch line b p).1.2 = toolMacros p.2 line q := by
  unfold AttrPath.evaluate
  dsimp only
  split
  · exact .inl rfl
  · split
    · rename_i v _
      unfold evalVis
      dsimp only
      have := toolPart_macros c line v (mTimes c v (clearMotions p.1), p.2)
      split
      · exact this
      · exact this
    · exact .inl rfl
    · exact .inl rfl
end

theorem toolMacros_wrote {m : MacroMap ℚ} (hm : m.Sorted) (line : Int) (q : ℚ) :
    Wrote (fun k => Props.toolVariable k.id ∧ k.line = line) m (toolMacros m line q) :=
  ⟨toolMacros_sorted hm line q, fun k hk => (Props.get_toolMacros hm line q k).2 hk⟩

section
variable {S : Setup} {o : Options} {line : Int} {ok : Bool} {b : Block}

theorem andThen_macros {l : Lang} {x : Out Exc Unit} {p : Parser} {k : Parser × Out NumExc Answer} {P : MKey → Prop} {m : MacroMap ℚ}
    (h : Wrote P m p.macros) (h' : Wrote P m k.1.macros) : Wrote P m (andThen l x p k).1.macros := by
  unfold andThen
  split
  · exact h'
  · exact h
  · exact h

theorem lastStage_wrote {P : MKey → Prop} {m : MacroMap ℚ} (p : Parser) (h : Wrote P m p.macros) :
    Wrote P m (lastStage S ok b p).1.macros := andThen_macros h h

theorem pathStage_wrote {P : MKey → Prop} (hP : ∀ k : MKey, Props.toolVariable k.id ∧ k.line = line → P k) {m : MacroMap ℚ} (p : Parser)
    (h : Wrote P m p.macros) : Wrote P m (pathStage S o line ok b p).1.macros := by
  unfold pathStage
  split
  · have : Wrote P m (calculated S line b p).1.macros := by
      show Wrote P m (AttrPath.evaluate S.F S.cfg (decide (p.units = .imperial)) line b (p.path, p.macros)).1.2
      rcases evaluate_macros S.F S.cfg (decide (p.units = .imperial)) line b (p.path, p.macros) with e | ⟨q, e⟩
      · rw [e]; exact h
      · rw [e]; exact h.trans ((toolMacros_wrote h.sorted line q).mono hP)
    exact andThen_macros this (andThen_macros this (lastStage_wrote _ this))
  · exact lastStage_wrote p h

theorem groupStage_wrote {P : MKey → Prop} (hP : ∀ k : MKey, Props.toolVariable k.id ∧ k.line = line → P k) {m : MacroMap ℚ} (p : Parser)
    (h : Wrote P m p.macros) : Wrote P m (groupStage S o line ok b p).1.macros :=
  andThen_macros h (andThen_macros h (pathStage_wrote hP p h))

theorem analysisStage_wrote {P : MKey → Prop} (hP : ∀ k : MKey, Props.toolVariable k.id ∧ k.line = line → P k) {m : MacroMap ℚ} (p : Parser)
    (h : Wrote P m p.macros) : Wrote P m (analysisStage S o line ok b p).1.macros := by
  unfold analysisStage
  split
  · exact andThen_macros h (andThen_macros (p := { p with rot := _ }) h (groupStage_wrote hP { p with rot := _ } h))
  · exact groupStage_wrote hP p h

theorem sysRun_wrote {m m' : MacroMap ℚ} (hm : m.Sorted) (h : sysRun line m b = .ok m') :
    Wrote (fun k => SystemId k.id ∧ k.line = line) m m' := by
  refine ⟨sysRun_sorted hm h, fun k hk => sysRun_frame hm h k ?_⟩
  by_cases hl : k.line = line
  · right
    intro d _ hi
    exact hk ⟨.inl ⟨_, hi⟩, hl⟩
  · exact .inl hl

theorem systemStage_wrote {P : MKey → Prop} (hP : ∀ k : MKey, SystemId k.id ∧ k.line = line → P k) {m : MacroMap ℚ} (p : Parser)
    (h : Wrote P m p.macros) : Wrote P m (systemStage S o line ok b p).1.macros := by
  unfold systemStage
  split
  · rename_i m' hm
    exact analysisStage_wrote (fun k hk => hP k ⟨.inr hk.1, hk.2⟩) { p with macros := m' } (h.trans ((sysRun_wrote h.sorted hm).mono hP))
  · exact h
  · exact h

theorem codeStage_wrote {P : MKey → Prop} (hP : ∀ k : MKey, SystemId k.id ∧ k.line = line → P k) {m : MacroMap ℚ} (code : Str) (p : Parser)
    (h : Wrote P m p.macros) : Wrote P m (codeStage S o line ok b code p).1.macros := by
  unfold codeStage
  split
  · exact systemStage_wrote hP p h
  · split
    · exact andThen_macros h (systemStage_wrote hP _ h)
    · exact andThen_macros h (systemStage_wrote hP _ h)
    · exact h
    · exact h

theorem substituteStage_wrote {P : MKey → Prop} (hP : ∀ k : MKey, SystemId k.id ∧ k.line = line → P k) {m : MacroMap ℚ} (p : Parser)
    (h : Wrote P m p.macros) : Wrote P m (substituteStage S o line ok b p).1.macros := by
  unfold substituteStage
  split
  · exact codeStage_wrote hP _ p h
  · exact h
  · exact h
  · exact h

theorem evaluate_wrote {tr : Str → ℚ → Option ℚ} {m m' : MacroMap ℚ} (hm : m.Sorted) (h : Macro.evaluate tr m line b = .ok m') :
    Wrote (fun k => k.line = line) m m' := by
  unfold Macro.evaluate at h
  split at h
  · cases h
  · cases h
  · split at h
    · split at h
      · cases h
      · split at h
        · cases h
          refine ⟨MacroMap.sorted_emplace hm _ _, fun k hk => ?_⟩
          rw [MacroMap.get_emplace hm, if_neg]
          rintro ⟨rfl, -⟩
          exact hk rfl
        · cases h
        · cases h
    · cases h; exact .refl hm

/-- A line records values for its own number only. -/
theorem parse_wrote (s : Str) (p : Parser) (h : p.macros.Sorted) : Wrote (fun k => k.line = line) p.macros (parse S o line s p).1.macros := by
  have key : ∀ (ok : Bool) (b : Block) (g : PS), Wrote (fun k => k.line = line) p.macros (wordStage S o line ok b { p with gram := g }).1.macros := by
    intro ok b g
    have h0 : Wrote (fun k => k.line = line) p.macros ({ p with gram := g } : Parser).macros := .refl h
    refine andThen_macros h0 ?_
    split
    · unfold macroStage
      split
      · rename_i m' hm
        exact substituteStage_wrote (fun k hk => hk.2) { p with gram := g, macros := m' } (h0.trans (evaluate_wrote h hm))
      · exact h0
      · exact h0
      · exact h0
      · exact h0
    · exact h0
  unfold parse
  split
  · exact key _ _ _
  · exact key _ _ _
  · exact .refl h
  · exact .refl h

/-- A line without macro sign records values of system variables only. -/
theorem parse_plain_wrote (s : Str) (hs : '#' ∉ s) (p : Parser) (h : p.macros.Sorted) :
    Wrote (fun k => SystemId k.id ∧ k.line = line) p.macros (parse S o line s p).1.macros := by
  have key : ∀ (ok : Bool) (b : Block) (g : PS), (∀ a ∈ b, Plainly a) →
      Wrote (fun k => SystemId k.id ∧ k.line = line) p.macros (wordStage S o line ok b { p with gram := g }).1.macros := by
    intro ok b g hb
    have h0 : Wrote (fun k => SystemId k.id ∧ k.line = line) p.macros ({ p with gram := g } : Parser).macros := .refl h
    refine andThen_macros h0 ?_
    split
    · rw [macroStage_plain hb]
      exact systemStage_wrote (fun k hk => hk) { p with gram := g } h0
    · exact h0
  unfold parse
  split
  · rename_i g b hr
    exact key _ _ _ (words_noHash ((phrase_accept (gramOf_chars S)).mp hr).2 hs)
  · exact key _ _ _ (by simp)
  · exact .refl h
  · exact .refl h
end
end NC.Pipe
