import Verif.Spec.Lines
import Verif.Spec.Source

/-!
# Specification vocabulary: documents written from words
-/

namespace NC.Spec.Document
open NC NC.Spec.Lines

/-- A line without its trailing white space: blank, or words with a blank between them. -/
def line : Option Block → Str
  | none => []
  | some b => Source.line b

/-- `text` consists of the given lines and the lines `rest`; white space may follow each line. -/
def Written (text : Str) (ls : List (Option Block)) (rest : List Str) : Prop :=
  ∃ ks, IsLines text (ks ++ rest) ∧ List.Forall₂ (fun k o => TrimmedEnd k (line o)) ks ls

/-- The blocks of the lines that are not blank. -/
def blocks (ls : List (Option Block)) : List Block := ls.filterMap id

/-- A name without a colon and without the letter `i`. -/
def Bland (s : Str) : Prop := ':' ∉ s ∧ 'i' ∉ s

end NC.Spec.Document
