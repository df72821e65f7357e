import Verif.Removal

/-! # Property C42: removing comments and optional block marks -/

namespace NC.Props
open NC NC.Removal

/-- A comment word. -/
def IsComment (a : Attr) : Prop := ∃ v, a = .str ['('] v

/-- A `/n` word. -/
def IsMark (a : Attr) : Prop := ∃ d, a = .dec d ∧ d.word = ['/'] ∧ d.value ≠ none

private theorem commentLoop_append (b : Block) : ∀ kept, commentLoop kept b = kept ++ commentLoop [] b := by
  induction b with
  | nil => intro kept; simp [commentLoop]
  | cons a as ih =>
    intro kept
    cases a with
    | str w v =>
      simp only [commentLoop]
      split
      · exact ih kept
      · rw [ih, ih ([] ++ [_])]; simp
    | dec d => simp only [commentLoop]; rw [ih, ih ([] ++ [_])]; simp
    | chr w v => simp only [commentLoop]; rw [ih, ih ([] ++ [_])]; simp

private theorem removeComment_cons_comment (v : Str) (b : Block) :
    removeComment (.str ['('] v :: b) = removeComment b := by simp [removeComment, commentLoop]

private theorem removeComment_cons (a : Attr) (b : Block) (h : ¬ IsComment a) :
    removeComment (a :: b) = a :: removeComment b := by
  unfold removeComment
  cases a with
  | str w v =>
    simp only [commentLoop]
    rw [if_neg (fun hw => h ⟨v, by rw [hw]⟩), commentLoop_append]; simp
  | dec d => simp only [commentLoop]; rw [commentLoop_append]; simp
  | chr w v => simp only [commentLoop]; rw [commentLoop_append]; simp

/-- C42: comment removal keeps the order of the words, deletes every comment
and nothing else. -/
theorem C42_comments (b : Block) :
    (removeComment b).Sublist b ∧
    ∀ a, (IsComment a → a ∉ removeComment b) ∧ (¬ IsComment a → (removeComment b).count a = b.count a) := by
  induction b with
  | nil => exact ⟨by simp [removeComment, commentLoop], fun a => ⟨by simp [removeComment, commentLoop], fun _ => rfl⟩⟩
  | cons x b ih =>
    by_cases hx : IsComment x
    · obtain ⟨v, rfl⟩ := hx
      rw [removeComment_cons_comment]
      refine ⟨ih.1.cons _, fun a => ⟨(ih.2 a).1, fun ha => ?_⟩⟩
      rw [(ih.2 a).2 ha, List.count_cons_of_ne]
      intro h; exact ha ⟨v, h.symm⟩
    · rw [removeComment_cons _ _ hx]
      refine ⟨ih.1.cons_cons _, fun a => ⟨fun ha => ?_, fun ha => ?_⟩⟩
      · simp only [List.mem_cons, not_or]
        exact ⟨fun h => hx (h ▸ ha), (ih.2 a).1 ha⟩
      · rw [List.count_cons, List.count_cons, (ih.2 a).2 ha]

/-- C42: removing comments twice is removing them once. -/
theorem C42_comments_idempotent (b : Block) : removeComment (removeComment b) = removeComment b := by
  induction b with
  | nil => rfl
  | cons x b ih =>
    by_cases hx : IsComment x
    · obtain ⟨v, rfl⟩ := hx; rw [removeComment_cons_comment, ih]
    · rw [removeComment_cons _ _ hx, removeComment_cons _ _ hx, ih]

/-- C42: optional block removal deletes the leading `/n` words and nothing
else. -/
theorem C42_marks (b : Block) :
    ∃ marks, b = marks ++ removeOptional b ∧ (∀ a ∈ marks, IsMark a) ∧
      ∀ a, (removeOptional b).head? = some a → ¬ IsMark a := by
  induction b with
  | nil => exact ⟨[], rfl, by simp, by simp [removeOptional]⟩
  | cons x b ih =>
    by_cases hx : IsMark x
    · obtain ⟨d, rfl, hw, hv⟩ := hx
      obtain ⟨m, h1, h2, h3⟩ := ih
      have : removeOptional (.dec d :: b) = removeOptional b := by
        simp only [removeOptional]; rw [if_pos ⟨hw, Option.isSome_iff_ne_none.mpr hv⟩]
      rw [this]
      refine ⟨.dec d :: m, by rw [List.cons_append, ← h1], ?_, h3⟩
      intro a ha
      rcases List.mem_cons.mp ha with rfl | ha
      · exact ⟨d, rfl, hw, hv⟩
      · exact h2 a ha
    · have : removeOptional (x :: b) = x :: b := by
        cases x with
        | dec d =>
          simp only [removeOptional]
          rw [if_neg]
          rintro ⟨hw, hv⟩
          exact hx ⟨d, rfl, hw, fun h => by simp [h] at hv⟩
        | str _ _ => rfl
        | chr _ _ => rfl
      rw [this]
      exact ⟨[], rfl, by simp, fun a ha => by simp at ha; exact ha ▸ hx⟩

/-- C42: removing optional block marks twice is removing them once. -/
theorem C42_marks_idempotent (b : Block) : removeOptional (removeOptional b) = removeOptional b := by
  obtain ⟨m, h1, h2, h3⟩ := C42_marks (removeOptional b)
  obtain ⟨_, _, _, h3'⟩ := C42_marks b
  cases m with
  | nil => exact h1.symm
  | cons a m =>
    refine absurd (h2 a (by simp)) (h3' a ?_)
    rw [h1]; rfl

example : removeComment [.str ['('] c!"a", .dec { word := c!"X", value := some c!"1" }, .str ['('] c!"b"] =
    [.dec { word := c!"X", value := some c!"1" }] := by decide
example : removeOptional [.dec { word := c!"/", value := some c!"1" }, .dec { word := c!"/", value := some c!"2" },
      .dec { word := c!"/" }, .dec { word := c!"/", value := some c!"3" }] =
    [.dec { word := c!"/" }, .dec { word := c!"/", value := some c!"3" }] := by decide

end NC.Props
