import Verif.Base
import Verif.Spec.Source

/-!
# Specification vocabulary: words without a number

Addresses kept in system variables and addresses that give positions must be
followed by a number when the program is run.
-/

namespace NC.Spec.Survive
open NC

/-- No digit is written in the word. -/
def Bare (d : Dec) : Prop := d.value = none ∧ d.value2 = none

instance (d : Dec) : Decidable (Bare d) := inferInstanceAs (Decidable (_ ∧ _))

/-- The addresses whose last values are kept in system variables. -/
def kept : List Str := [c!"B", c!"D", c!"E", c!"F", c!"H", c!"M", c!"N", c!"O", c!"S"]

/-- The addresses of positions, distances and times; `axes` are those of the machine. -/
def located (axes : List Str) : List Str :=
  [c!"X", c!"Y", c!"Z", c!"I", c!"J", c!"K", c!"R", c!"Q", c!"L", c!"P", c!"U"] ++ axes

/-- A word that is no number: no digits after an address that is kept, or a lone decimal point
after an address of a position. -/
def Unreadable (axes : List Str) (d : Dec) : Prop := Bare d ∧ (d.word ∈ kept ∨ (d.dot ≠ none ∧ d.word ∈ located axes))

instance (axes : List Str) (d : Dec) : Decidable (Unreadable axes d) := inferInstanceAs (Decidable (_ ∧ _))

/-- The word tables declare the addresses: every name among `names` that is kept or a position
has a declared range, and no axis is called like an operator. -/
structure Declared (axes names : List Str) (known : Str → Bool) : Prop where
  ranges : ∀ w ∈ kept ++ located axes, w ∈ names → known w = true
  letters : ∀ w ∈ axes, w ∉ ([c!"=", c!"+", c!"-", c!"*", c!"/"] : List Str)

end NC.Spec.Survive
