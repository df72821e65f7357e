import Verif.Base

/-!
# Where the comments of a line are

A line as a sequence of words, each at its place; the marks say which characters
belong to comments.
-/

namespace NC.Spec.Colour
open NC

/-- A comment among the words. -/
def IsComment (a : Attr) : Prop := ∃ v, a = .str c!"(" v

/-- `Placed s b m`: the line `s` consists of the words `b` one after the other,
with blanks between them, and `m` marks the characters of the comments, which go
from an opening bracket to the next closing one. Outside of comments there is no
opening bracket. -/
inductive Placed : Str → Block → List Bool → Prop where
  | blanks {s : Str} : (∀ c ∈ s, c = ' ' ∨ c = '\t') → Placed s [] (s.map (fun _ => false))
  | comment {x v r : Str} {b : Block} {m : List Bool} : (∀ c ∈ x, c = ' ' ∨ c = '\t') → ')' ∉ v → Placed r b m →
      Placed (x ++ '(' :: v ++ ')' :: r) (.str c!"(" v :: b)
        (x.map (fun _ => false) ++ true :: v.map (fun _ => true) ++ true :: m)
  | word {x r : Str} {a : Attr} {b : Block} {m : List Bool} : ¬ IsComment a → x ≠ [] → '(' ∉ x → Placed r b m →
      Placed (x ++ r) (a :: b) (x.map (fun _ => false) ++ m)

end NC.Spec.Colour
