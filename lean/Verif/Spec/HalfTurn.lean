import Verif.Spec.Mirror
import Verif.GrammarProofs

/-!
# A part turned by half a turn about Z

Seen from above, half a turn takes every point to the opposite one: what was at
(x, y) is at (-x, -y), heights stay, and nothing is longer, shorter or runs the
other way round.
-/

namespace NC.Spec.HalfTurn
open NC NC.Spec.Sim

/-- The addresses that give places and centres in the plane of the table. -/
def level : List Str := [c!"X", c!"Y", c!"I", c!"J"]

/-- The program is written for half turns: words are made of signs and digits as the
parser reads them, places and centres have numbers, dwells are not given by X, the
plane is that of the table. -/
structure Turnable (b : Block) : Prop where
  shape : ∀ d, Attr.dec d ∈ b → Gram.Shape d
  given : ∀ d, Attr.dec d ∈ b → d.word ∈ level → d.value ≠ none ∨ d.value2 ≠ none
  dwell : Moved.Dwell b → ∀ d, Attr.dec d ∈ b → d.word ≠ c!"X"
  plane : ∀ n ∈ groupCodes 2 b, n = 17

/-- The coordinate of the turned part along an axis. -/
def opposite {K : Type} [Neg K] (a : Str) (x : K) : K := if a ∈ level then -x else x

end NC.Spec.HalfTurn
