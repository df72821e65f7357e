import Verif.Spec.Split
import Verif.Spec.Rewrite

/-! # Specification vocabulary: files in parts -/

namespace NC.Spec.SplitFile
open NC NC.Spec.Rewrite

/-- Nothing but white space. -/
def Blank (l : Str) : Prop := ∀ c ∈ l, c = ' ' ∨ c = '\t' ∨ c = '\n' ∨ c = '\r' ∨ c = '\x0b' ∨ c = '\x0c'

/-- The lines with consecutive numbers. -/
def counted (x : Int) : List Str → List (Int × Str)
  | [] => []
  | l :: t => (x, l) :: counted (x + 1) t

/-- The block as it was, or with the address N and something in the place of its number. -/
def OnlyNumber (g : FanucGrammar) (b b' : Block) : Prop :=
  b' = b ∨ ∃ d : Dec, d.word = c!"N" ∧ b' = .dec d :: unnumbered (numbering g) b

end NC.Spec.SplitFile
