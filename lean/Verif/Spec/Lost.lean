import Verif.Spec.Source

/-! # Specification vocabulary: what of a line is found in its words -/

namespace NC.Spec.Lost
open NC

/-- What is on a line besides blanks and tabs. -/
def solid (s : Str) : Str := s.filter (fun c => !(decide (c = ' ') || decide (c = '\t')))

/-- A letter. -/
def letter (c : Char) : Bool := ('a' ≤ c && c ≤ 'z') || ('A' ≤ c && c ≤ 'Z')

/-- A text without blanks consists of the words one after the other; letters may follow a program name. -/
inductive Consists : Block → Str → Prop
  | none : Consists [] []
  | word {a b t} : Consists b t → Consists (a :: b) (solid (Source.word a) ++ t)
  | named {n x b t} : (∀ c ∈ x, letter c = true) → Consists b t →
      Consists (.str c!"O" n :: b) (solid (Source.word (.str c!"O" n)) ++ (x ++ t))

end NC.Spec.Lost
