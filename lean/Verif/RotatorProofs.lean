import Verif.Rotator
import Verif.Spec.Rotate

/-! # Helper lemmas about axis rotation -/

namespace NC.Rotator
open NC Spec.Rotate

/-- Where a coordinate word goes, and whether its sign flips. -/
def tw (o : Opt) (w : Str) : Str × Bool :=
  match (table o).find? (fun e => e.1.1 == w) with
  | some e => (e.2.1, decide (e.2.2 = -1))
  | none => (w, false)

theorem tw_mem (o : Opt) {w : Str} (h : w ∈ coordWords) : (tw o w).1 ∈ coordWords := by
  revert w; cases o <;> decide

theorem tw_inj (o : Opt) {w w' : Str} (h : w ∈ coordWords) (h' : w' ∈ coordWords) (he : (tw o w).1 = (tw o w').1) :
    w = w' := by
  have key : ∀ u ∈ coordWords, ∀ v ∈ coordWords, (tw o u).1 = (tw o v).1 → u = v := by cases o <;> decide
  exact key w h w' h' he

theorem visitDec_coord (o : Opt) {d : Dec} (h : d.word ∈ coordWords) :
    visitDec (table o) d =
      { d with word := (tw o d.word).1, sign := if (tw o d.word).2 then flipSign d.sign else d.sign } := by
  unfold visitDec tw
  rw [if_pos h]
  cases hf : (table o).find? (fun e => e.1.1 == d.word) with
  | none => simp
  | some e => simp

theorem visitDec_word_other (o : Opt) {d : Dec} (h : d.word ∉ coordWords) : (visitDec (table o) d).word = d.word := by
  unfold visitDec
  rw [if_neg h]
  split
  · split
    · rfl
    · split
      · split
        · rfl
        · rfl
      · rfl
  · rfl

theorem visitDec_other (o : Opt) {d : Dec} (h : d.word ∉ coordWords) (hg : d.word ≠ c!"G") :
    visitDec (table o) d = d := by
  unfold visitDec
  rw [if_neg h, if_neg hg]

theorem signedVal_flip (μ : Dec → ℚ) (hμ : ∀ d w s, μ { d with word := w, sign := s } = μ d) (d : Dec) (w : Str) (n : Bool) :
    signedVal μ { d with word := w, sign := if n then flipSign d.sign else d.sign } =
      if n then -signedVal μ d else signedVal μ d := by
  unfold signedVal flipSign
  simp only [hμ]
  cases n <;> by_cases hs : d.sign = some '-' <;> simp [hs]

/-- The values under the image of an address are the (possibly negated) values
under the address. -/
theorem values_rotate (o : Opt) (μ : Dec → ℚ) (hμ : ∀ d w s, μ { d with word := w, sign := s } = μ d)
    {w : Str} (hw : w ∈ coordWords) (b : Block) :
    values μ (tw o w).1 (rotate o b) = (values μ w b).map (fun v => if (tw o w).2 then -v else v) := by
  unfold rotate
  induction b with
  | nil => rfl
  | cons a b ih =>
    cases a with
    | str s v => simpa [visit, values] using ih
    | chr s v => simpa [visit, values] using ih
    | dec d =>
      simp only [List.map_cons, visit, values]
      by_cases hd : d.word ∈ coordWords
      · rw [visitDec_coord o hd]
        simp only
        by_cases he : d.word = w
        · subst he
          simp only [if_true, List.map_cons]
          rw [signedVal_flip μ hμ, ih]
        · have : (tw o d.word).1 ≠ (tw o w).1 := fun hh => he (tw_inj o hd hw hh)
          rw [if_neg this, if_neg he, ih]
      · have h1 : d.word ≠ w := fun hh => hd (hh ▸ hw)
        have h2 : (visitDec (table o) d).word ≠ (tw o w).1 := by
          rw [visitDec_word_other o hd]
          intro hh
          exact hd (hh ▸ tw_mem o hw)
        rw [if_neg h1, if_neg h2, ih]

theorem coord_rotate (o : Opt) (μ : Dec → ℚ) (hμ : ∀ d w s, μ { d with word := w, sign := s } = μ d)
    {w : Str} (hw : w ∈ coordWords) (b : Block) :
    coord μ (tw o w).1 (rotate o b) = if (tw o w).2 then neg (coord μ w b) else coord μ w b := by
  unfold coord
  rw [values_rotate o μ hμ hw, List.getLast?_map]
  cases (tw o w).2 <;> simp [neg]

/-- Axis and number of quarter turns of an option. -/
def axisOf : Opt → Axis
  | .x90 | .x180 | .x270 => .x
  | .y90 | .y180 | .y270 => .y
  | .z90 | .z180 | .z270 => .z

/-- Number of quarter turns of an option. -/
def turns : Opt → Nat
  | .x90 | .y90 | .z90 => 1
  | .x180 | .y180 | .z180 => 2
  | .x270 | .y270 | .z270 => 3

end NC.Rotator
