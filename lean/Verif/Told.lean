import Verif.PipelineProofs
import Verif.Spec.Lines

/-!
# What the messages of the checks look like

A text is soft when it has no colon, nowhere `li`, and does not begin with `i`.
-/

namespace NC.Pipe
open NC NC.Message NC.Gram

/-- No `li`. -/
def noLi : Str → Bool
  | [] => true
  | c :: t => !(c == 'l' && t.head? == some 'i') && noLi t

/-- Neither a colon nor `li`, and no `i` at the beginning. -/
def soft (s : Str) : Bool := decide (':' ∉ s) && noLi s && decide (s.head? ≠ some 'i')

theorem noLi_append {a b : Str} (ha : noLi a = true) (hb : noLi b = true) (h : b.head? ≠ some 'i') : noLi (a ++ b) = true := by
  induction a with
  | nil => exact hb
  | cons c a ih =>
    simp only [noLi, List.cons_append, Bool.and_eq_true, Bool.not_eq_true', Bool.and_eq_false_iff, beq_eq_false_iff_ne] at ha ⊢
    refine ⟨?_, ih ha.2⟩
    cases a with
    | nil => exact .inr h
    | cons c' a => exact ha.1

theorem soft_iff {s : Str} : soft s = true ↔ ':' ∉ s ∧ noLi s = true ∧ s.head? ≠ some 'i' := by
  unfold soft
  simp only [Bool.and_eq_true, decide_eq_true_eq]
  tauto

theorem soft_append {a b : Str} (ha : soft a = true) (hb : soft b = true) : soft (a ++ b) = true := by
  rw [soft_iff] at *
  refine ⟨by simp [ha.1, hb.1], noLi_append ha.2.1 hb.2.1 hb.2.2, ?_⟩
  cases a with
  | nil => exact hb.2.2
  | cons c a => exact ha.2.2

theorem soft_of {s : Str} (h : ∀ c ∈ s, c ≠ ':' ∧ c ≠ 'i') : soft s = true := by
  rw [soft_iff]
  refine ⟨fun hc => (h _ hc).1 rfl, ?_, ?_⟩
  · induction s with
    | nil => rfl
    | cons c t ih =>
      simp only [noLi, Bool.and_eq_true, Bool.not_eq_true', Bool.and_eq_false_iff, beq_eq_false_iff_ne]
      refine ⟨.inr ?_, ih (fun c hc => h c (by simp [hc]))⟩
      intro hh
      exact (h 'i' (by simp [List.mem_of_mem_head? (show 'i' ∈ t.head? from hh)])).2 rfl
  · intro hh
    exact (h 'i' (List.mem_of_mem_head? (show 'i' ∈ s.head? from hh))).2 rfl

theorem soft_digits {s : Str} (h : ∀ c ∈ s, isDig c = true) : soft s = true := by
  apply soft_of
  intro c hc
  have := h c hc
  constructor <;> (rintro rfl; revert this; decide)

theorem soft_flatten {l : List Str} (h : ∀ s ∈ l, soft s = true) : soft l.flatten = true := by
  induction l with
  | nil => rfl
  | cons a l ih => exact soft_append (h a (by simp)) (ih (fun s hs => h s (by simp [hs])))

theorem soft_weave : ∀ (ts as : List Str), (∀ s ∈ ts, soft s = true) → (∀ s ∈ as, soft s = true) → soft (weave ts as) = true := by
  intro ts
  induction ts with
  | nil => intro as _ h; exact soft_flatten h
  | cons t ts ih =>
    intro as h h'
    cases as with
    | nil => exact soft_append (h t (by simp)) (ih [] (fun s hs => h s (by simp [hs])) (by simp))
    | cons a as =>
      exact soft_append (soft_append (h t (by simp)) (h' a (by simp))) (ih as (fun s hs => h s (by simp [hs])) (fun s hs => h' s (by simp [hs])))

theorem soft_weave2 : ∀ (ts as : List Str), (∀ s ∈ ts, soft s = true) → (∀ s ∈ as, soft s = true) → soft (weave2 ts as) = true := by
  intro ts
  induction ts with
  | nil => intro as _ h; exact soft_flatten h
  | cons t ts ih =>
    intro as h h'
    cases as with
    | nil => exact soft_append (h t (by simp)) (ih [] (fun s hs => h s (by simp [hs])) (by simp))
    | cons a as =>
      exact soft_append (soft_append (h' a (by simp)) (h t (by simp))) (ih as (fun s hs => h s (by simp [hs])) (fun s hs => h' s (by simp [hs])))

theorem noLi_infix {s : Str} (h : noLi s = true) : ¬ c!"line 1" <:+: s := by
  rintro ⟨a, b, rfl⟩
  induction a with
  | nil => revert h; simp [noLi]
  | cons c a ih =>
    simp only [List.cons_append, noLi, Bool.and_eq_true] at h
    exact ih h.2

/-- The messages of the checks after a line was read, but for that of code groups. -/
def toldNames : List Name :=
  [.TNotWithG, .MissingValue, .MissingPreviousValue, .ValueNotSet, .ValueNotSetForEither, .ValueNotSetForEitherEither, .ValueHigherThanAllowed,
    .ValueOutOfRange, .CodeNotUnique, .DuplicateAddress, .SNotAllowedWhenOperatorTurnsRotation, .M3M4NotAllowedWhenOperatorTurnsRotation]

/-- A message of a check with soft arguments. -/
def Mild (n : Name) (a : List Str) : Prop :=
  (∀ s ∈ a, soft s = true) ∧ (n ∈ toldNames ∨ n = .InSameCodeGroup ∧ ∃ x y, a = x :: y ∧ (x.head? = some 'G' ∨ x.head? = some 'M'))

/-- The first text. -/
def opening (ts : List Str) : Bool :=
  match ts with
  | [] => false
  | t :: _ => decide (t.head? ≠ some '1') && t.any (fun c => !isSp c)

theorem told_of {n : Name} {a : List Str} (h : n ∈ toldNames) (ha : ∀ s ∈ a, soft s = true) : Mild n a := ⟨ha, .inl h⟩

theorem told_texts (l : Enums.ELanguage) : ∀ n ∈ toldNames, ∃ ts, texts (Message.tableOf (.known l)) n = .ok ts ∧ (∀ t ∈ ts, soft t = true) ∧ opening ts = true := by
  intro n hn
  cases l <;> (simp only [toldNames, List.mem_cons, List.not_mem_nil, or_false] at hn
               rcases hn with rfl | rfl | rfl | rfl | rfl | rfl | rfl | rfl | rfl | rfl | rfl | rfl <;> (refine ⟨_, rfl, ?_, ?_⟩ <;> decide))

theorem opened_calm (data : Str) {m r : Str} {t : Str} (hs : soft m = true) (hm : m = t ++ r) (h : t.head? ≠ some '1') (h' : ∃ c ∈ t, isSp c = false) :
    Spec.Lines.Calm data m ∧ m.head? ≠ some '1' ∧ ∃ c ∈ m, isSp c = false := by
  rw [soft_iff] at hs
  obtain ⟨c, hc, hsp⟩ := h'
  have hc' : ∃ c ∈ m, isSp c = false := ⟨c, by rw [hm]; simp [hc], hsp⟩
  refine (fun q => ⟨.plain q hs.1 hc' (noLi_infix hs.2.1), q, hc'⟩) ?_
  rw [hm]
  cases t with
  | nil => cases hc
  | cons x t => exact h

theorem told_calm (l : Enums.ELanguage) {n : Name} {a : List Str} (h : Mild n a) (data : Str) :
    Spec.Lines.Calm data (excText (.known l) n a) ∧ (excText (.known l) n a).head? ≠ some '1' ∧ ∃ c ∈ excText (.known l) n a, isSp c = false := by
  obtain ⟨ha, hn | ⟨rfl, x, y, rfl, hx⟩⟩ := h
  · obtain ⟨ts, h1, h2, h3⟩ := told_texts l n hn
    obtain ⟨t, ts, rfl⟩ : ∃ t u, ts = t :: u := by
      cases ts with
      | nil => cases h3
      | cons t u => exact ⟨t, u, rfl⟩
    simp only [opening, Bool.and_eq_true, decide_eq_true_eq, List.any_eq_true, Bool.not_eq_true'] at h3
    have hne : ¬ (n = .MissingInCodeGroups ∨ n = .InSameCodeGroup) := by
      rintro (rfl | rfl) <;> revert hn <;> decide
    unfold excText
    rw [if_neg hne]
    by_cases hz : a = []
    · rw [if_pos hz]
      have e : outText (makeMessage0 n (.known l)) = t ++ ts.flatten := by
        cases l
        · have h1' : texts tableEn n = .ok (t :: ts) := h1
          unfold makeMessage0; rw [h1']; rfl
        · have h1' : texts tablePl n = .ok (t :: ts) := h1
          unfold makeMessage0; rw [h1']; rfl
      rw [e]
      exact opened_calm data (soft_append (h2 t (by simp)) (soft_flatten (fun s hs => h2 s (by simp [hs])))) rfl h3.1 h3.2
    · rw [if_neg hz]
      have e : outText (makeMessage n (.known l) a) = weave (t :: ts) a := by unfold makeMessage; rw [h1]; rfl
      rw [e]
      have hs := soft_weave (t :: ts) a h2 ha
      cases a with
      | nil => exact absurd rfl hz
      | cons b a => exact opened_calm data hs (List.append_assoc t b _) h3.1 h3.2
  · have e : ∃ ts, excText (.known l) .InSameCodeGroup (x :: y) = weave2 ts (x :: y) ∧ (∀ t ∈ ts, soft t = true) ∧ ts ≠ [] := by
      cases l
      · refine ⟨_, rfl, ?_, ?_⟩ <;> decide
      · refine ⟨_, rfl, ?_, ?_⟩ <;> decide
    obtain ⟨ts, e, h2, h3⟩ := e
    rw [e]
    have hs := soft_weave2 ts (x :: y) h2 ha
    cases ts with
    | nil => exact absurd rfl h3
    | cons t ts =>
      refine opened_calm data hs (t := x) (r := t ++ weave2 ts y) (List.append_assoc x t _) ?_ ?_
      · rcases hx with hx | hx <;> rw [hx] <;> decide
      · cases x with
        | nil => rcases hx with hx | hx <;> cases hx
        | cons c x =>
          refine ⟨c, by simp, ?_⟩
          rcases hx with hx | hx <;> (cases hx; decide)

end NC.Pipe
