import Verif.Enums

/-! # Property C45: configuration names -/

namespace NC.Props
open NC NC.Enums

/-- Reading accepts exactly the written names, each for its own value, and
never misbehaves. -/
def Faithful {α : Type} (toStr : α → Str) (ofStr : Str → Out Str α) : Prop :=
  (∀ s e, ofStr s = .ok e ↔ s = toStr e) ∧ ∀ s, ofStr s ≠ .ub

/-- Written to a stream and followed by white space or the end, a value is
read back and the rest is left in the stream. -/
def StreamFaithful {α : Type} (toStr : α → Str) (ofStr : Str → Out Str α) : Prop :=
  ∀ (e : α) (lead rest : Str), (∀ c ∈ lead, isSp c = true) → (∀ c, rest.head? = some c → isSp c = true) →
    streamIn ofStr (lead ++ toStr e ++ rest) = .ok (e, rest)

private theorem ite_ok {ε α : Type} {p : Prop} [Decidable p] {a e : α} {r : Out ε α}
    (h : (if p then .ok a else r) = .ok e) : (p ∧ a = e) ∨ r = .ok e := by
  split at h
  · rename_i hp; injection h with h; exact .inl ⟨hp, h⟩
  · exact .inr h

private theorem ite_ub {ε α : Type} {p : Prop} [Decidable p] {a : α} {r : Out ε α}
    (h : (if p then .ok a else r) = .ub) : r = .ub := by
  split at h
  · cases h
  · exact h

private theorem dropWhile_all {p : Char → Bool} {l r : Str} (hl : ∀ c ∈ l, p c = true) :
    (l ++ r).dropWhile p = r.dropWhile p := by
  induction l with
  | nil => rfl
  | cons a l ih => simp [hl a (by simp), ih (fun c hc => hl c (by simp [hc]))]

private theorem readWord_word {lead w rest : Str} (hl : ∀ c ∈ lead, isSp c = true) (hw : w ≠ [])
    (hs : ∀ c ∈ w, isSp c = false) (hr : ∀ c, rest.head? = some c → isSp c = true) :
    readWord (lead ++ w ++ rest) = (w, rest) := by
  have h1 : (lead ++ w ++ rest).dropWhile isSp = w ++ rest := by
    rw [List.append_assoc, dropWhile_all hl]
    cases w with
    | nil => exact absurd rfl hw
    | cons a w => simp [hs a (by simp)]
  unfold readWord
  rw [h1]
  have h2 : ∀ (w : Str), (∀ c ∈ w, isSp c = false) →
      (w ++ rest).takeWhile (fun c => !isSp c) = w ∧ (w ++ rest).dropWhile (fun c => !isSp c) = rest := by
    intro w
    induction w with
    | nil =>
      intro _
      cases rest with
      | nil => exact ⟨rfl, rfl⟩
      | cons c r => simp [hr c rfl]
    | cons a w ih =>
      intro h
      obtain ⟨i1, i2⟩ := ih (fun c hc => h c (by simp [hc]))
      simp [h a (by simp), i1, i2]
  obtain ⟨a, b⟩ := h2 w hs
  simp only [a, b]

private theorem stream_of {α : Type} {toStr : α → Str} {ofStr : Str → Out Str α} (hf : Faithful toStr ofStr)
    (hw : ∀ e, toStr e ≠ [] ∧ ∀ c ∈ toStr e, isSp c = false) : StreamFaithful toStr ofStr := by
  intro e lead rest hl hr
  unfold streamIn
  rw [readWord_word hl (hw e).1 (hw e).2 hr]
  simp [(hf.1 (toStr e) e).mpr rfl]

private theorem faithful_ECncType : Faithful ECncType.toStr ECncType.ofStr := by
  refine ⟨fun s e => ⟨fun h => ?_, fun h => ?_⟩, fun s h => ?_⟩
  · unfold ECncType.ofStr at h
    iterate 5 (rcases ite_ok h with ⟨hp, rfl⟩ | h2; (exact hp); replace h := h2; clear h2)
    exact absurd h (by intro h; cases h)
  · subst h; cases e <;> decide
  · unfold ECncType.ofStr at h
    iterate 5 replace h := ite_ub h
    cases h

private theorem words_ECncType : ∀ e, ECncType.toStr e ≠ [] ∧ ∀ c ∈ ECncType.toStr e, isSp c = false := by
  intro e; cases e <;> decide

private theorem faithful_EFanucParserType : Faithful EFanucParserType.toStr EFanucParserType.ofStr := by
  refine ⟨fun s e => ⟨fun h => ?_, fun h => ?_⟩, fun s h => ?_⟩
  · unfold EFanucParserType.ofStr at h
    iterate 11 (rcases ite_ok h with ⟨hp, rfl⟩ | h2; (exact hp); replace h := h2; clear h2)
    exact absurd h (by intro h; cases h)
  · subst h; cases e <;> decide
  · unfold EFanucParserType.ofStr at h
    iterate 11 replace h := ite_ub h
    cases h

private theorem words_EFanucParserType : ∀ e, EFanucParserType.toStr e ≠ [] ∧ ∀ c ∈ EFanucParserType.toStr e, isSp c = false := by
  intro e; cases e <;> decide

private theorem faithful_EMachineToolType : Faithful EMachineToolType.toStr EMachineToolType.ofStr := by
  refine ⟨fun s e => ⟨fun h => ?_, fun h => ?_⟩, fun s h => ?_⟩
  · unfold EMachineToolType.ofStr at h
    iterate 3 (rcases ite_ok h with ⟨hp, rfl⟩ | h2; (exact hp); replace h := h2; clear h2)
    exact absurd h (by intro h; cases h)
  · subst h; cases e <;> decide
  · unfold EMachineToolType.ofStr at h
    iterate 3 replace h := ite_ub h
    cases h

private theorem words_EMachineToolType : ∀ e, EMachineToolType.toStr e ≠ [] ∧ ∀ c ∈ EMachineToolType.toStr e, isSp c = false := by
  intro e; cases e <;> decide

private theorem faithful_EMachineTool : Faithful EMachineTool.toStr EMachineTool.ofStr := by
  refine ⟨fun s e => ⟨fun h => ?_, fun h => ?_⟩, fun s h => ?_⟩
  · unfold EMachineTool.ofStr at h
    iterate 23 (rcases ite_ok h with ⟨hp, rfl⟩ | h2; (exact hp); replace h := h2; clear h2)
    exact absurd h (by intro h; cases h)
  · subst h; cases e <;> decide
  · unfold EMachineTool.ofStr at h
    iterate 23 replace h := ite_ub h
    cases h

private theorem words_EMachineTool : ∀ e, EMachineTool.toStr e ≠ [] ∧ ∀ c ∈ EMachineTool.toStr e, isSp c = false := by
  intro e; cases e <;> decide

private theorem faithful_ELanguage : Faithful ELanguage.toStr ELanguage.ofStr := by
  refine ⟨fun s e => ⟨fun h => ?_, fun h => ?_⟩, fun s h => ?_⟩
  · unfold ELanguage.ofStr at h
    iterate 2 (rcases ite_ok h with ⟨hp, rfl⟩ | h2; (exact hp); replace h := h2; clear h2)
    exact absurd h (by intro h; cases h)
  · subst h; cases e <;> decide
  · unfold ELanguage.ofStr at h
    iterate 2 replace h := ite_ub h
    cases h

private theorem words_ELanguage : ∀ e, ELanguage.toStr e ≠ [] ∧ ∀ c ∈ ELanguage.toStr e, isSp c = false := by
  intro e; cases e <;> decide

private theorem faithful_EDriverUnits : Faithful EDriverUnits.toStr EDriverUnits.ofStr := by
  refine ⟨fun s e => ⟨fun h => ?_, fun h => ?_⟩, fun s h => ?_⟩
  · unfold EDriverUnits.ofStr at h
    iterate 2 (rcases ite_ok h with ⟨hp, rfl⟩ | h2; (exact hp); replace h := h2; clear h2)
    exact absurd h (by intro h; cases h)
  · subst h; cases e <;> decide
  · unfold EDriverUnits.ofStr at h
    iterate 2 replace h := ite_ub h
    cases h

private theorem words_EDriverUnits : ∀ e, EDriverUnits.toStr e ≠ [] ∧ ∀ c ∈ EDriverUnits.toStr e, isSp c = false := by
  intro e; cases e <;> decide

private theorem faithful_UnitConversionType : Faithful UnitConversionType.toStr UnitConversionType.ofStr := by
  refine ⟨fun s e => ⟨fun h => ?_, fun h => ?_⟩, fun s h => ?_⟩
  · unfold UnitConversionType.ofStr at h
    iterate 2 (rcases ite_ok h with ⟨hp, rfl⟩ | h2; (exact hp); replace h := h2; clear h2)
    exact absurd h (by intro h; cases h)
  · subst h; cases e <;> decide
  · unfold UnitConversionType.ofStr at h
    iterate 2 replace h := ite_ub h
    cases h

private theorem words_UnitConversionType : ∀ e, UnitConversionType.toStr e ≠ [] ∧ ∀ c ∈ UnitConversionType.toStr e, isSp c = false := by
  intro e; cases e <;> decide

private theorem faithful_AxesRotatingOption : Faithful AxesRotatingOption.toStr AxesRotatingOption.ofStr := by
  refine ⟨fun s e => ⟨fun h => ?_, fun h => ?_⟩, fun s h => ?_⟩
  · unfold AxesRotatingOption.ofStr at h
    iterate 9 (rcases ite_ok h with ⟨hp, rfl⟩ | h2; (exact hp); replace h := h2; clear h2)
    exact absurd h (by intro h; cases h)
  · subst h; cases e <;> decide
  · unfold AxesRotatingOption.ofStr at h
    iterate 9 replace h := ite_ub h
    cases h

private theorem words_AxesRotatingOption : ∀ e, AxesRotatingOption.toStr e ≠ [] ∧ ∀ c ∈ AxesRotatingOption.toStr e, isSp c = false := by
  intro e; cases e <;> decide

private theorem faithful_EMotion : Faithful EMotion.toStr EMotion.ofStr := by
  refine ⟨fun s e => ⟨fun h => ?_, fun h => ?_⟩, fun s h => ?_⟩
  · unfold EMotion.ofStr at h
    iterate 2 (rcases ite_ok h with ⟨hp, rfl⟩ | h2; (exact hp); replace h := h2; clear h2)
    exact absurd h (by intro h; cases h)
  · subst h; cases e <;> decide
  · unfold EMotion.ofStr at h
    iterate 2 replace h := ite_ub h
    cases h

private theorem words_EMotion : ∀ e, EMotion.toStr e ≠ [] ∧ ∀ c ∈ EMotion.toStr e, isSp c = false := by
  intro e; cases e <;> decide

private theorem faithful_EWorkPlane : Faithful EWorkPlane.toStr EWorkPlane.ofStr := by
  refine ⟨fun s e => ⟨fun h => ?_, fun h => ?_⟩, fun s h => ?_⟩
  · unfold EWorkPlane.ofStr at h
    iterate 3 (rcases ite_ok h with ⟨hp, rfl⟩ | h2; (exact hp); replace h := h2; clear h2)
    exact absurd h (by intro h; cases h)
  · subst h; cases e <;> decide
  · unfold EWorkPlane.ofStr at h
    iterate 3 replace h := ite_ub h
    cases h

private theorem words_EWorkPlane : ∀ e, EWorkPlane.toStr e ≠ [] ∧ ∀ c ∈ EWorkPlane.toStr e, isSp c = false := by
  intro e; cases e <;> decide

private theorem faithful_EProgrammingType : Faithful EProgrammingType.toStr EProgrammingType.ofStr := by
  refine ⟨fun s e => ⟨fun h => ?_, fun h => ?_⟩, fun s h => ?_⟩
  · unfold EProgrammingType.ofStr at h
    iterate 2 (rcases ite_ok h with ⟨hp, rfl⟩ | h2; (exact hp); replace h := h2; clear h2)
    exact absurd h (by intro h; cases h)
  · subst h; cases e <;> decide
  · unfold EProgrammingType.ofStr at h
    iterate 2 replace h := ite_ub h
    cases h

private theorem words_EProgrammingType : ∀ e, EProgrammingType.toStr e ≠ [] ∧ ∀ c ∈ EProgrammingType.toStr e, isSp c = false := by
  intro e; cases e <;> decide

private theorem faithful_EFeedMode : Faithful EFeedMode.toStr EFeedMode.ofStr := by
  refine ⟨fun s e => ⟨fun h => ?_, fun h => ?_⟩, fun s h => ?_⟩
  · unfold EFeedMode.ofStr at h
    iterate 2 (rcases ite_ok h with ⟨hp, rfl⟩ | h2; (exact hp); replace h := h2; clear h2)
    exact absurd h (by intro h; cases h)
  · subst h; cases e <;> decide
  · unfold EFeedMode.ofStr at h
    iterate 2 replace h := ite_ub h
    cases h

private theorem words_EFeedMode : ∀ e, EFeedMode.toStr e ≠ [] ∧ ∀ c ∈ EFeedMode.toStr e, isSp c = false := by
  intro e; cases e <;> decide

private theorem faithful_EDepthProgrammingType : Faithful EDepthProgrammingType.toStr EDepthProgrammingType.ofStr := by
  refine ⟨fun s e => ⟨fun h => ?_, fun h => ?_⟩, fun s h => ?_⟩
  · unfold EDepthProgrammingType.ofStr at h
    iterate 2 (rcases ite_ok h with ⟨hp, rfl⟩ | h2; (exact hp); replace h := h2; clear h2)
    exact absurd h (by intro h; cases h)
  · subst h; cases e <;> decide
  · unfold EDepthProgrammingType.ofStr at h
    iterate 2 replace h := ite_ub h
    cases h

private theorem words_EDepthProgrammingType : ∀ e, EDepthProgrammingType.toStr e ≠ [] ∧ ∀ c ∈ EDepthProgrammingType.toStr e, isSp c = false := by
  intro e; cases e <;> decide

private theorem faithful_EDrillGreturnMode : Faithful EDrillGreturnMode.toStr EDrillGreturnMode.ofStr := by
  refine ⟨fun s e => ⟨fun h => ?_, fun h => ?_⟩, fun s h => ?_⟩
  · unfold EDrillGreturnMode.ofStr at h
    iterate 2 (rcases ite_ok h with ⟨hp, rfl⟩ | h2; (exact hp); replace h := h2; clear h2)
    exact absurd h (by intro h; cases h)
  · subst h; cases e <;> decide
  · unfold EDrillGreturnMode.ofStr at h
    iterate 2 replace h := ite_ub h
    cases h

private theorem words_EDrillGreturnMode : ∀ e, EDrillGreturnMode.toStr e ≠ [] ∧ ∀ c ∈ EDrillGreturnMode.toStr e, isSp c = false := by
  intro e; cases e <;> decide

private theorem faithful_EBeginEnd : Faithful EBeginEnd.toStr EBeginEnd.ofStr := by
  refine ⟨fun s e => ⟨fun h => ?_, fun h => ?_⟩, fun s h => ?_⟩
  · unfold EBeginEnd.ofStr at h
    iterate 2 (rcases ite_ok h with ⟨hp, rfl⟩ | h2; (exact hp); replace h := h2; clear h2)
    exact absurd h (by intro h; cases h)
  · subst h; cases e <;> decide
  · unfold EBeginEnd.ofStr at h
    iterate 2 replace h := ite_ub h
    cases h

private theorem words_EBeginEnd : ∀ e, EBeginEnd.toStr e ≠ [] ∧ ∀ c ∈ EBeginEnd.toStr e, isSp c = false := by
  intro e; cases e <;> decide

private theorem faithful_EUnit : Faithful EUnit.toStr EUnit.ofStr := by
  refine ⟨fun s e => ⟨fun h => ?_, fun h => ?_⟩, fun s h => ?_⟩
  · unfold EUnit.ofStr at h
    iterate 2 (rcases ite_ok h with ⟨hp, rfl⟩ | h2; (exact hp); replace h := h2; clear h2)
    exact absurd h (by intro h; cases h)
  · subst h; cases e <;> decide
  · unfold EUnit.ofStr at h
    iterate 2 replace h := ite_ub h
    cases h

private theorem words_EUnit : ∀ e, EUnit.toStr e ≠ [] ∧ ∀ c ∈ EUnit.toStr e, isSp c = false := by
  intro e; cases e <;> decide

private theorem faithful_WordType : Faithful wordTypeToStr wordTypeOfStr := by
  refine ⟨fun s e => ⟨fun h => ?_, fun h => ?_⟩, fun s h => ?_⟩
  · unfold wordTypeOfStr at h
    iterate 9 (rcases ite_ok h with ⟨hp, rfl⟩ | h2; (exact hp); replace h := h2; clear h2)
    exact absurd h (by intro h; cases h)
  · subst h; cases e <;> decide
  · unfold wordTypeOfStr at h
    iterate 9 replace h := ite_ub h
    cases h

private theorem words_WordType : ∀ e, wordTypeToStr e ≠ [] ∧ ∀ c ∈ wordTypeToStr e, isSp c = false := by
  intro e; cases e <;> decide

/-- C45: every configuration enumeration but the rotation direction. -/
theorem C45_names :
    Faithful ECncType.toStr ECncType.ofStr ∧
    Faithful EFanucParserType.toStr EFanucParserType.ofStr ∧
    Faithful EMachineToolType.toStr EMachineToolType.ofStr ∧
    Faithful EMachineTool.toStr EMachineTool.ofStr ∧
    Faithful ELanguage.toStr ELanguage.ofStr ∧
    Faithful EDriverUnits.toStr EDriverUnits.ofStr ∧
    Faithful UnitConversionType.toStr UnitConversionType.ofStr ∧
    Faithful AxesRotatingOption.toStr AxesRotatingOption.ofStr ∧
    Faithful EMotion.toStr EMotion.ofStr ∧
    Faithful EWorkPlane.toStr EWorkPlane.ofStr ∧
    Faithful EProgrammingType.toStr EProgrammingType.ofStr ∧
    Faithful EFeedMode.toStr EFeedMode.ofStr ∧
    Faithful EDepthProgrammingType.toStr EDepthProgrammingType.ofStr ∧
    Faithful EDrillGreturnMode.toStr EDrillGreturnMode.ofStr ∧
    Faithful EBeginEnd.toStr EBeginEnd.ofStr ∧
    Faithful EUnit.toStr EUnit.ofStr ∧
    Faithful wordTypeToStr wordTypeOfStr :=
  ⟨faithful_ECncType, faithful_EFanucParserType, faithful_EMachineToolType, faithful_EMachineTool, faithful_ELanguage, faithful_EDriverUnits, faithful_UnitConversionType, faithful_AxesRotatingOption, faithful_EMotion, faithful_EWorkPlane, faithful_EProgrammingType, faithful_EFeedMode, faithful_EDepthProgrammingType, faithful_EDrillGreturnMode, faithful_EBeginEnd, faithful_EUnit, faithful_WordType⟩

/-- C45, distinct names: follows from faithfulness for any of them. -/
theorem C45_distinct {α : Type} {toStr : α → Str} {ofStr : Str → Out Str α} (h : Faithful toStr ofStr)
    (a b : α) (hab : toStr a = toStr b) : a = b := by
  have h1 := (h.1 (toStr a) a).mpr rfl
  have h2 := (h.1 (toStr a) b).mpr hab
  rw [h1] at h2
  injection h2

/-- C45 through streams. -/
theorem C45_streams :
    StreamFaithful ECncType.toStr ECncType.ofStr ∧
    StreamFaithful EFanucParserType.toStr EFanucParserType.ofStr ∧
    StreamFaithful EMachineToolType.toStr EMachineToolType.ofStr ∧
    StreamFaithful EMachineTool.toStr EMachineTool.ofStr ∧
    StreamFaithful ELanguage.toStr ELanguage.ofStr ∧
    StreamFaithful EDriverUnits.toStr EDriverUnits.ofStr ∧
    StreamFaithful UnitConversionType.toStr UnitConversionType.ofStr ∧
    StreamFaithful AxesRotatingOption.toStr AxesRotatingOption.ofStr ∧
    StreamFaithful EMotion.toStr EMotion.ofStr ∧
    StreamFaithful EWorkPlane.toStr EWorkPlane.ofStr ∧
    StreamFaithful EProgrammingType.toStr EProgrammingType.ofStr ∧
    StreamFaithful EFeedMode.toStr EFeedMode.ofStr ∧
    StreamFaithful EDepthProgrammingType.toStr EDepthProgrammingType.ofStr ∧
    StreamFaithful EDrillGreturnMode.toStr EDrillGreturnMode.ofStr ∧
    StreamFaithful EBeginEnd.toStr EBeginEnd.ofStr ∧
    StreamFaithful EUnit.toStr EUnit.ofStr ∧
    StreamFaithful wordTypeToStr wordTypeOfStr :=
  ⟨stream_of faithful_ECncType words_ECncType,
    stream_of faithful_EFanucParserType words_EFanucParserType,
    stream_of faithful_EMachineToolType words_EMachineToolType,
    stream_of faithful_EMachineTool words_EMachineTool,
    stream_of faithful_ELanguage words_ELanguage,
    stream_of faithful_EDriverUnits words_EDriverUnits,
    stream_of faithful_UnitConversionType words_UnitConversionType,
    stream_of faithful_AxesRotatingOption words_AxesRotatingOption,
    stream_of faithful_EMotion words_EMotion,
    stream_of faithful_EWorkPlane words_EWorkPlane,
    stream_of faithful_EProgrammingType words_EProgrammingType,
    stream_of faithful_EFeedMode words_EFeedMode,
    stream_of faithful_EDepthProgrammingType words_EDepthProgrammingType,
    stream_of faithful_EDrillGreturnMode words_EDrillGreturnMode,
    stream_of faithful_EBeginEnd words_EBeginEnd,
    stream_of faithful_EUnit words_EUnit,
    stream_of faithful_WordType words_WordType⟩

/-- C45 fails for the rotation direction: what is written is not accepted. -/
theorem C45_violated_rotation : ∀ e : ERotationDirection,
    ERotationDirection.ofStr e.toStr = .throw (c!"Unsupported ERotationDirection value: " ++ e.toStr) := by
  intro e; cases e <;> decide

/-- C45, what holds for the rotation direction: the accepted names are the
three lists, and the first word of the written text is one of them. -/
theorem C45_rotation_partial (s : Str) (e : ERotationDirection) :
    (ERotationDirection.ofStr s = .ok e ↔
      match e with
      | .Right => s = c!"right" ∨ s = c!"M03" ∨ s = c!"CLW"
      | .Left => s = c!"left" ∨ s = c!"M04" ∨ s = c!"CCLW"
      | .Stop => s = c!"stop" ∨ s = c!"M05") ∧
    ∃ rest, streamIn ERotationDirection.ofStr e.toStr = .ok (e, rest) ∧ rest ≠ [] := by
  refine ⟨?_, ?_⟩
  · constructor
    · intro h
      unfold ERotationDirection.ofStr at h
      iterate 3 (rcases ite_ok h with ⟨hp, rfl⟩ | h2; (exact hp); replace h := h2; clear h2)
      cases h
    · intro h
      cases e <;> simp only at h
      · rcases h with rfl | rfl | rfl <;> decide
      · rcases h with rfl | rfl | rfl <;> decide
      · rcases h with rfl | rfl <;> decide
  · refine ⟨(readWord e.toStr).2, ?_, ?_⟩ <;> cases e <;> decide

example : ECncType.ofStr c!"haas" = .ok .Haas := by decide
example : (ECncType.ofStr c!"Haas").isOk = false := by decide
example : streamIn ELanguage.ofStr c!"  Polish x" = .ok (.Polish, c!" x") := by decide

end NC.Props
