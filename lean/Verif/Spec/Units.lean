import Verif.Verifiers

/-!
# Specification vocabulary: units

A program switches the units by the words `G20` (inch) and `G21` (millimetre).
-/

namespace NC.Spec.Units
open NC

/-- The units a word switches to. -/
def unitOf : Attr → Option Ver.Units
  | .dec ⟨['G'], _, _, _, _, some v, _, _, _⟩ =>
    if stoi v = .ok 20 then some .imperial else if stoi v = .ok 21 then some .metric else none
  | _ => none

/-- The last switch in a sequence of words. -/
def lastSwitch (b : Block) : Option Ver.Units := (b.filterMap unitOf).getLast?

/-- The units in force after the words of a program, from the given ones. -/
def inForce (u : Ver.Units) (b : Block) : Ver.Units := (lastSwitch b).getD u

end NC.Spec.Units
