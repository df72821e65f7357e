import Verif.Props.Columns
import Verif.Spec.Editor

/-!
# C130: the text and the lines of the editor
-/

namespace NC.Props
open NC NC.Srv NC.Spec.Server NC.Spec.Editor

/-- Every CR is followed by LF. -/
def NoLoneCR (t : Str) : Prop := ∀ a b, t = a ++ '\r' :: b → b.head? = some '\n'

theorem piecesFrom_line (cur l rest : Str) (h : '\n' ∉ l) : piecesFrom '\n' cur (l ++ '\n' :: rest) = (cur ++ l) :: piecesFrom '\n' [] rest := by
  induction l generalizing cur with
  | nil => simp [piecesFrom]
  | cons c l ih =>
    rw [List.mem_cons, not_or] at h
    rw [List.cons_append, piecesFrom, if_neg (fun e => h.1 e.symm), ih _ h.2]
    simp

theorem contentLines_line (l rest : Str) (h : '\n' ∉ l) : contentLines (l ++ '\n' :: rest) = l :: contentLines rest := piecesFrom_line [] l rest h

theorem piecesFrom_last (cur l : Str) (h : '\n' ∉ l) : piecesFrom '\n' cur l = if cur ++ l = [] then [] else [cur ++ l] := by
  induction l generalizing cur with
  | nil => simp [piecesFrom]
  | cons c l ih =>
    rw [List.mem_cons, not_or] at h
    rw [piecesFrom, if_neg (fun e => h.1 e.symm), ih _ h.2]
    simp

theorem lone_tail {l rest : Str} {x : Str} (h : NoLoneCR (l ++ x ++ rest)) : NoLoneCR rest := by
  intro a b e
  exact h (l ++ x ++ a) b (by rw [e]; simp)

/-- **C130, lines.** In a text in which every CR is followed by LF the server has the lines of the editor, possibly with the CR at the end, and
an empty last line may be missing. -/
theorem C130_lines_partial {t : Str} {ls : List Str} (h : EditorLines t ls) (hc : NoLoneCR t) (i : Nat) (l : Str) (hl : ls[i]? = some l) :
    (contentLines t)[i]? = some l ∨ (contentLines t)[i]? = some (l ++ ['\r']) ∨ (l = [] ∧ i + 1 = ls.length ∧ (contentLines t)[i]? = none) := by
  induction h generalizing i l with
  | @last k h1 h2 =>
    cases i with
    | succ i => simp at hl
    | zero =>
      simp only [List.getElem?_cons_zero, Option.some.injEq] at hl
      subst hl
      have : contentLines k = if k = [] then [] else [k] := piecesFrom_last [] k h1
      rw [this]
      split
      · rename_i hk
        exact Or.inr (Or.inr ⟨hk, rfl, rfl⟩)
      · exact Or.inl rfl
  | @lf k rest ls h1 h2 _ ih =>
    rw [contentLines_line _ _ h1]
    cases i with
    | zero =>
      simp only [List.getElem?_cons_zero, Option.some.injEq] at hl
      exact Or.inl (by rw [hl]; rfl)
    | succ i =>
      rw [List.getElem?_cons_succ] at hl ⊢
      rcases ih (lone_tail (l := k) (x := ['\n']) (by simpa using hc)) i l hl with h | h | ⟨h, h', h''⟩
      · exact Or.inl h
      · exact Or.inr (Or.inl h)
      · exact Or.inr (Or.inr ⟨h, by rw [List.length_cons]; omega, h''⟩)
  | @crlf k rest ls h1 h2 _ ih =>
    have e : k ++ '\r' :: '\n' :: rest = (k ++ ['\r']) ++ '\n' :: rest := by simp
    rw [e, contentLines_line _ _ (by simp [h1])]
    cases i with
    | zero =>
      simp only [List.getElem?_cons_zero, Option.some.injEq] at hl
      exact Or.inr (Or.inl (by rw [hl]; rfl))
    | succ i =>
      rw [List.getElem?_cons_succ] at hl ⊢
      rcases ih (lone_tail (l := k) (x := ['\r', '\n']) (by simpa using hc)) i l hl with h | h | ⟨h, h', h''⟩
      · exact Or.inl h
      · exact Or.inr (Or.inl h)
      · exact Or.inr (Or.inr ⟨h, by rw [List.length_cons]; omega, h''⟩)
  | cr _ _ h3 _ _ => exact absurd (hc _ _ rfl) h3

/-- Every change notification has one change. -/
def OneChange (d : Json) : Prop := method d = some c!"textDocument/didChange" → (changes d).length = 1

theorem news_event {d : Json} (h : OneChange d) : news d = event d := by
  unfold news event
  split
  · rfl
  · split
    · rename_i h1 h2
      have hl := h h2
      unfold changes at hl ⊢
      unfold changedText
      cases hp : path [c!"params", c!"contentChanges"] d with
      | none => rw [hp] at hl; simp at hl
      | some j =>
        rw [hp] at hl
        cases j with
        | arr l =>
          dsimp only at hl ⊢
          obtain ⟨a, rfl⟩ := List.length_eq_one_iff.mp hl
          rfl
        | _ => simp at hl
    · split
      · cases docUri d <;> rfl
      · rfl

/-- **C130, text.** If every change notification has one change the text the server answers from (C03) is that of the editor. -/
theorem C130_text_partial (u : Str) (ds : List Json) (h : ∀ d ∈ ds, OneChange d) : latest u ds = inEditor u ds := by
  unfold latest inEditor
  suffices ∀ cur, ds.foldl (update u) cur =
      ds.foldl (fun cur d => match news d with | some (v, t) => if v = u then t else cur | none => cur) cur from this none
  induction ds with
  | nil => intro cur; rfl
  | cons d ds ih =>
    intro cur
    rw [List.foldl_cons, List.foldl_cons, ih (fun d hd => h d (List.mem_cons_of_mem _ hd))]
    congr 1
    rw [news_event (h d List.mem_cons_self)]
    rfl

theorem slice_left (l x : Str) (a b : Nat) (h : b ≤ l.length) : slice (l ++ x) a b = slice l a b := by
  unfold slice
  by_cases ha : a ≤ l.length
  · rw [List.drop_append_of_le_length ha, List.take_append_of_le_length (by rw [List.length_drop]; omega)]
  · rw [show b - a = 0 by omega, List.take_zero, List.take_zero]

theorem code_no_cr {t : Str} (h : IsCode t) : '\r' ∉ t := by
  have hl : '\r' ∉ codeLetters := by decide
  have hd : isDig '\r' = false := by decide
  cases h with
  | whole h1 _ h2 =>
    rw [List.mem_cons, not_or]
    exact ⟨fun e => hl (e ▸ h1), fun e => by rw [h2 _ e] at hd; cases hd⟩
  | point h1 _ h2 =>
    intro hc
    rcases List.mem_append.mp hc with hc | hc
    · rcases List.mem_cons.mp hc with e | hc
      · exact hl (e ▸ h1)
      · rw [h2 _ hc] at hd; cases hd
    · revert hc; decide
  | frac h1 _ h2 h3 =>
    intro hc
    rcases List.mem_append.mp hc with hc | hc
    · rcases List.mem_cons.mp hc with e | hc
      · exact hl (e ▸ h1)
      · rw [h2 _ hc] at hd; cases hd
    · rcases List.mem_cons.mp hc with e | hc
      · revert e; decide
      · rw [← List.mem_singleton.mp hc, hd] at h3; cases h3

/-- A code of a line is a code of the line with CR. -/
theorem token_cr {l : Str} {a b : Nat} (h : TokenAt IsCode l a b) : TokenAt IsCode (l ++ ['\r']) a b := by
  obtain ⟨h1, h2, h3, h4⟩ := h
  refine ⟨h1, by simp; omega, by rw [slice_left _ _ _ _ h2]; exact h3, ?_⟩
  intro b' hb hb' hk
  by_cases hl : b' ≤ l.length
  · rw [slice_left _ _ _ _ hl] at hk
    exact h4 b' hb hl hk
  · have e : b' = l.length + 1 := by simp at hb'; omega
    apply code_no_cr hk
    unfold slice
    rw [List.drop_append_of_le_length (by omega), List.take_of_length_le (by simp; omega)]
    simp

section
variable {S G C σ : Type} {W : World S G C σ}

/-- **C130, hover.** Hover over a code of the text in the editor, by the lines of the editor, is about that code.  (`_partial`: one change in
each notification, no CR without LF.) -/
theorem C130_hover_partial {ds : List (Files S G C × Json)} (hcl : ∀ d ∈ ds, Clean d.2) (hone : ∀ d ∈ ds, OneChange d.2) {st : Srv.St S G C}
    {outs : List (List Json)} (h : run W {} ds = .ok (st, outs)) (u t : Str) (hu : inEditor u (ds.map (·.2)) = some t)
    (hn : ∀ c ∈ u, c.toNat ≠ 0) (F : Files S G C) (d : Json) (hd : docUri d = some u)
    (hm : method d = some c!"textDocument/hover") (line : Nat) (ch : Int) (hpl : intAt [c!"params", c!"position", c!"line"] d = some (line : Int))
    (hpc : intAt [c!"params", c!"position", c!"character"] d = some ch)
    {st' : Srv.St S G C} {o : List Json} (ha : handle W F st d = .ok (st', o)) {ls : List Str} (hls : EditorLines t ls) (hcr : NoLoneCR t)
    (l : Str) (hl : ls[line]? = some l) (a b : Nat) (ht : TokenAt IsCode l a b) (h1 : (a : Int) ≤ ch) (h2 : ch < b) :
    ∃ id r, o = [response id r] ∧ path [c!"range"] r = some (makeRange (line : Int) a b) := by
  have hu' : latest u (ds.map (·.2)) = some t := by
    rw [C130_text_partial u _ (by intro d hd; obtain ⟨e, he, rfl⟩ := List.mem_map.mp hd; exact hone e he)]
    exact hu
  have key := fun l hl ht => C48_code_found hcl h u t hu' hn F d hd hm line ch hpl hpc (by omega) ha l hl a b ht h1 h2
  rcases C130_lines_partial hls hcr line l hl with h | h | ⟨h, _⟩
  · exact key l (by simpa using h) ht
  · exact key _ (by simpa using h) (token_cr ht)
  · rw [h] at ht
    have := ht.1
    have := ht.2.1
    simp at this
    omega

end

/-! ## Cases -/

open NC.Demo

/-- A notification with two changes. -/
def changedTwice (uri text text' : Str) : Json :=
  .obj [(c!"method", .str c!"textDocument/didChange"),
    (c!"params", .obj [(c!"textDocument", .obj [(c!"uri", .str uri)]),
      (c!"contentChanges", .arr [.obj [(c!"text", .str text)], .obj [(c!"text", .str text')]])])]

/-- **C130 violated.** Of two changes in one notification the server takes the first: hover over G54, which the editor shows, finds G0. -/
theorem C130_violated_changes :
    inEditor c!"u" [opened c!"u" c!"", changedTwice c!"u" c!"G0" c!"G54"] = some c!"G54" ∧
    ∃ st o₁ o₂ o₃, run w0 {} [(files, opened c!"u" c!""), (files, changedTwice c!"u" c!"G0" c!"G54"), (files, hovered 1 c!"u" 0 0)] =
        .ok (st, [o₁, o₂, o₃]) ∧ o₃.map (textAt [c!"result", c!"contents"]) = [some c!"**G0: Rapid** \n\n---\n\nRapid traverse"] :=
  ⟨by decide +kernel, _, _, _, _, rfl, by decide +kernel⟩

/-- **C130 violated.** A line that ends with CR alone is not a line for the server: hover over the code of the second line finds nothing. -/
theorem C130_violated_cr : EditorLines c!"X1\rG54" [c!"X1", c!"G54"] ∧
    ∃ st o₁ o₂, run w0 {} [(files, opened c!"u" c!"X1\rG54"), (files, hovered 1 c!"u" 1 0)] = .ok (st, [o₁, o₂]) ∧
      o₂.map toldColumns = [(none, none)] :=
  ⟨.cr (l := c!"X1") (rest := c!"G54") (by decide) (by decide) (by decide) (.last (by decide) (by decide)), _, _, _, rfl, by decide +kernel⟩

/-- The hypotheses are met: the second line of a text of Windows, after a change. -/
example : (∀ d ∈ [opened c!"u" c!"", changed c!"u" c!"X1\r\nG54\r\n"], OneChange d) ∧
    inEditor c!"u" [opened c!"u" c!"", changed c!"u" c!"X1\r\nG54\r\n"] = some c!"X1\r\nG54\r\n" ∧
    EditorLines c!"X1\r\nG54\r\n" [c!"X1", c!"G54", c!""] ∧
    ∃ st o₁ o₂ o₃, run w0 {} [(files, opened c!"u" c!""), (files, changed c!"u" c!"X1\r\nG54\r\n"), (files, hovered 1 c!"u" 1 2)] =
      .ok (st, [o₁, o₂, o₃]) ∧ o₃.map toldColumns = [(some 0, some 3)] := by
  refine ⟨?_, by decide +kernel, ?_, _, _, _, _, rfl, by decide +kernel⟩
  · intro d hd
    rcases List.mem_cons.mp hd with rfl | hd
    · intro h; revert h; decide
    · rw [List.mem_singleton.mp hd]; intro _; rfl
  · exact .crlf (l := c!"X1") (by decide) (by decide) (.crlf (l := c!"G54") (rest := []) (by decide) (by decide) (.last (by decide) (by decide)))

end NC.Props
