import Verif.Base

/-! # Specification vocabulary: how words are written -/

namespace NC.Spec.Source
open NC

/-- The pieces of the value of a decimal word in the order in which they are written. -/
def pieces (d : Dec) : List Str :=
  [d.assign.toList, d.sign.toList, d.openB.getD [], d.mac.getD [], d.value.getD [], d.dot.toList, d.value2.getD [],
    d.closeB.getD []]

/-- What closes a word: a comment has a closing bracket. -/
def closing (w : Str) : Str :=
  match w with
  | ['('] => [')']
  | _ => []

/-- The value of a word as it is written. -/
def value : Attr → Str
  | .dec d => (pieces d).flatten
  | .str w v => v ++ closing w
  | .chr _ c => [c]

/-- A word as it is written; `%` has no value, which is stored as NUL. -/
def word : Attr → Str
  | .chr w '\x00' => w
  | a => a.word ++ value a

/-- A block as it is written, with a blank between the words. -/
def line : Block → Str
  | [] => []
  | [a] => word a
  | a :: t => word a ++ ' ' :: line t

/-- A program as it is written. -/
def text (p : List Block) : Str := (p.map (fun b => line b ++ ['\r', '\n'])).flatten

end NC.Spec.Source
