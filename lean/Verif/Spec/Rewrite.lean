import Verif.Spec.Tables
import Verif.Spec.Alike
import Verif.Spec.Renumber

/-! # Specification vocabulary: programs rewritten line by line -/

namespace NC.Spec.Rewrite
open NC NC.Spec.Renumber

/-- A comment. -/
def comment : Attr → Bool
  | .str w _ => decide (w = c!"(")
  | _ => false

/-- The words without the comments. -/
def uncommented (b : Block) : Block := b.filter (fun a => !comment a)

/-- The addresses the tables declare for block numbers. -/
def numbering (g : FanucGrammar) : List Str := (g.metric.filter (fun p => decide (p.2.wtype = .numbering))).map (·.1)

/-- A block without its leading number. -/
def unnumbered (nums : List Str) (b : Block) : Block := body (fun w => decide (w ∈ nums)) b

/-- A block number stands at the beginning of the line if there is one at all, it is a plain number, and something
follows it. -/
structure Headed (nums : List Str) (b : Block) : Prop where
  first : ∀ d, Attr.dec d ∈ b.tail → d.word ∉ nums
  plain : ∀ d t, b = .dec d :: t → d.word ∈ nums → ∃ v, d = { word := d.word, value := some v }
  rest : unnumbered nums b ≠ []

end NC.Spec.Rewrite
