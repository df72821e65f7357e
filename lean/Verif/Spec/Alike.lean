import Verif.Spec.Survive

/-! # Specification vocabulary: lines that differ in comments and block numbers only -/

namespace NC.Spec.Alike
open NC NC.Spec.Survive

/-- A comment, or a word that numbers the block; `nums` are the addresses of block numbers. -/
inductive Silent (nums : List Str) : Attr → Prop
  | comment (v : Str) : Silent nums (.str c!"(" v)
  | number {d : Dec} : d.word ∈ nums → d.value ≠ none → Silent nums (.dec d)

/-- The same words in the same order, but for comments and block numbers. -/
inductive Alike (nums : List Str) : Block → Block → Prop
  | nil : Alike nums [] []
  | same (a : Attr) {b b' : Block} : Alike nums b b' → Alike nums (a :: b) (a :: b')
  | left {a : Attr} {b b' : Block} : Silent nums a → Alike nums b b' → Alike nums (a :: b) b'
  | right {a : Attr} {b b' : Block} : Silent nums a → Alike nums b b' → Alike nums b (a :: b')

/-- The addresses that mean something to a machine with the given axes; the slash marks optional blocks. -/
def meaningful (axes : List Str) : List Str := [c!"G", c!"M", c!"S", c!"T", c!"F", c!"/"] ++ located axes

/-- The addresses of block numbers mean nothing else. -/
def Free (axes nums : List Str) : Prop := ∀ w ∈ nums, w ∉ meaningful axes

end NC.Spec.Alike
