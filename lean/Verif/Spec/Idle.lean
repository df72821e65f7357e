import Verif.Spec.Modal

/-!
# Blocks that only wait, or do nothing

A block that only waits has no words but G4 with its time P, M codes other than the tool exchange, and words
that have nothing to do with motion, such as a block number.
-/

namespace NC.Spec.Sim
open NC

/-- A word that neither moves nor sets anything: another address, or an M code other than 6. -/
def IdleWord (axes : List Str) (d : Dec) : Prop :=
  d.word ∉ addresses axes ∧ d.word ∉ ([c!"T", c!"F", c!"S", c!"G"] : List Str) ∧
    (d.word = c!"M" → d.value = none ∨ ∃ n, code d = some n ∧ n ≠ 6)

/-- A word of a block that waits: idle, G4, or a readable time P. -/
def WaitWord (axes : List Str) (d : Dec) : Prop :=
  IdleWord axes d ∨ isDwell d = true ∨ (d.word = c!"P" ∧ number d ≠ none)

end NC.Spec.Sim
