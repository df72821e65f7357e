import Verif.Message

/-! # Property C41: message texts -/

namespace NC.Props
open NC NC.Message NC.Enums

/-- The table of a language. -/
def tableFor : ELanguage → List (Name × List Str)
  | .English => tableEn
  | .Polish => tablePl

/-- `msg` is made of the fragments of `texts` and the arguments, both complete
and in order. -/
def WovenFrom (texts args : List Str) (msg : Str) : Prop :=
  ∃ frags : List Str, frags.flatten = msg ∧ texts.Sublist frags ∧ args.Sublist frags ∧
    frags.length = texts.length + args.length

private theorem weave_woven (ts as : List Str) : WovenFrom ts as (weave ts as) := by
  induction ts generalizing as with
  | nil =>
    exact ⟨as, rfl, by simp, List.Sublist.refl _, by simp⟩
  | cons t ts ih =>
    cases as with
    | nil =>
      obtain ⟨f, h1, h2, h3, h4⟩ := ih []
      exact ⟨t :: f, by simp [weave, h1], h2.cons_cons t, by simp, by simpa using h4⟩
    | cons a as =>
      obtain ⟨f, h1, h2, h3, h4⟩ := ih as
      exact ⟨t :: a :: f, by simp [weave, h1], (h2.cons a).cons_cons t, (h3.cons_cons a).cons t,
        by simp only [List.length_cons] at h4 ⊢; omega⟩

private theorem weave2_woven (ts as : List Str) : WovenFrom ts as (weave2 ts as) := by
  induction ts generalizing as with
  | nil =>
    exact ⟨as, rfl, by simp, List.Sublist.refl _, by simp⟩
  | cons t ts ih =>
    cases as with
    | nil =>
      obtain ⟨f, h1, h2, h3, h4⟩ := ih []
      exact ⟨t :: f, by simp [weave2, h1], h2.cons_cons t, by simp, by simpa using h4⟩
    | cons a as =>
      obtain ⟨f, h1, h2, h3, h4⟩ := ih as
      exact ⟨a :: t :: f, by simp [weave2, h1], (h2.cons_cons t).cons a, (h3.cons t).cons_cons a,
        by simp only [List.length_cons] at h4 ⊢; omega⟩

/-- The table has exactly one entry for the name, with a nonempty text. -/
def HasText (t : List (Name × List Str)) (n : Name) : Prop :=
  ∃ ts, t.filter (fun p => p.1 = n) = [(n, ts)] ∧ ts.flatten ≠ []

/-- C41: one text for every error kind, in both languages. -/
theorem C41_text_exists (n : Name) : HasText tableEn n ∧ HasText tablePl n := by
  constructor <;> cases n <;> exact ⟨_, rfl, by decide⟩

private theorem find_of_filter {t : List (Name × List Str)} {n : Name} {ts : List Str}
    (h : t.filter (fun p => p.1 = n) = [(n, ts)]) : texts t n = .ok ts := by
  unfold texts
  rw [← List.head?_filter, h]; rfl

private theorem texts_ok (l : ELanguage) (n : Name) :
    ∃ ts, (tableFor l).filter (fun p => p.1 = n) = [(n, ts)] ∧
      ts.flatten ≠ [] := by
  cases l
  · exact (C41_text_exists n).1
  · exact (C41_text_exists n).2

/-- C41: every message, in every language, is the text of its kind with all
arguments, in order. -/
theorem C41_arguments_kept (n : Name) (l : ELanguage) (args : List Str) :
    ∃ ts msg msg2, (n, ts) ∈ (tableFor l) ∧
      makeMessage n (.known l) args = .ok msg ∧ WovenFrom ts args msg ∧ msg ≠ [] ∧
      makeMessage2 n (.known l) args = .ok msg2 ∧ WovenFrom ts args msg2 ∧ msg2 ≠ [] := by
  obtain ⟨ts, h1, h2⟩ := texts_ok l n
  have hmem : (n, ts) ∈ (tableFor l) := by
    have : (n, ts) ∈ (tableFor l).filter (fun p => p.1 = n) := by
      rw [h1]; simp
    exact (List.mem_filter.mp this).1
  have hne : ∀ m, WovenFrom ts args m → m ≠ [] := by
    rintro m ⟨f, hf, hts, _, _⟩ rfl
    apply h2
    rw [List.flatten_eq_nil_iff] at hf ⊢
    intro x hx
    exact hf x (hts.subset hx)
  have ht : texts (tableOf (.known l)) n = .ok ts := by
    cases l <;> exact find_of_filter h1
  exact ⟨ts, _, _, hmem, by simp only [makeMessage, ht, Out.bind_ok, Out.pure_eq], weave_woven _ _,
    hne _ (weave_woven _ _), by simp only [makeMessage2, ht, Out.bind_ok, Out.pure_eq], weave2_woven _ _,
    hne _ (weave2_woven _ _)⟩

/-- C41, without arguments. -/
theorem C41_no_arguments (n : Name) (l : ELanguage) :
    ∃ ts, (n, ts) ∈ (tableFor l) ∧
      makeMessage0 n (.known l) = .ok ts.flatten ∧ ts.flatten ≠ [] := by
  obtain ⟨ts', h1, h2⟩ := texts_ok l n
  have hmem : (n, ts') ∈ (tableFor l) := by
    have : (n, ts') ∈ (tableFor l).filter (fun p => p.1 = n) := by
      rw [h1]; simp
    exact (List.mem_filter.mp this).1
  refine ⟨ts', hmem, ?_, h2⟩
  have ht := find_of_filter h1
  cases l <;> simp only [tableFor] at ht <;> simp only [makeMessage0, ht, Out.bind_ok, Out.pure_eq]

/-- C41: different kinds have different texts, in each language. -/
theorem C41_texts_distinct : (tableEn.map Prod.snd).Nodup ∧ (tablePl.map Prod.snd).Nodup := by
  constructor <;> decide +kernel

example : makeMessage .ValueHigherThanAllowed (.known .English) [c!"S", c!"9000", c!"8000"] =
    .ok c!"Value S [9000] higher than max allowed value 8000" := by decide +kernel
example : makeMessage2 .InSameCodeGroup (.known .English) [c!"G1", c!"G2", c!"motion"] =
    .ok c!"G1 and G2 are in the same Code Group = motion" := by decide +kernel

end NC.Props
