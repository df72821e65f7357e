import Verif.Spec.Modal
import Verif.Spec.Moved

/-!
# Blocks that repeat what is in force

A word that repeats what is in force says nothing new: G1 while G1 is in force, F100 while the feed is 100.
-/

namespace NC.Spec.Repeat
open NC NC.Spec.Sim

section
variable {K : Type} [Field K]

/-- The code in force in a modal group. -/
def codeOf (m : Modal K) (k : Nat) : Option Int :=
  if k = 1 then some m.motion
  else if k = 2 then some m.plane
  else if k = 3 then some m.distance
  else if k = 5 then some m.feedMode
  else if k = 10 then some m.retract
  else if k = 13 then some m.speedMode
  else none

/-- The word repeats what is in force, and the block says nothing else about it. -/
inductive Repeats (m : Modal K) (b : Block) (d : Dec) : Prop
  | code (n : Int) (k : Nat) : d.word = c!"G" → code d = some n → modalGroup n = some k → codeOf m k = some n → groupCodes k b = [] →
      Repeats m b d
  | feed (q : ℚ) : d.word = c!"F" → rateOf d = some q → (q : K) = m.feed → (∀ e ∈ words b, e.word ≠ c!"F") → Repeats m b d
  | speed (q : ℚ) : d.word = c!"S" → rateOf d = some q → (q : K) = m.speed → (∀ e ∈ words b, e.word ≠ c!"S") → Repeats m b d

/-- Words that repeat what is in force before the block `b` are put in. -/
inductive Padded (m : Modal K) (b : Block) : Block → Block → Prop
  | nil : Padded m b [] []
  | same (a : Attr) {t t' : Block} : Padded m b t t' → Padded m b (a :: t) (a :: t')
  | add (d : Dec) {t t' : Block} : Repeats m b d → Padded m b t t' → Padded m b t (.dec d :: t')

/-- The block gives a value. -/
def Valued (K : Type) [Field K] (axes : List Str) (b : Block) : Prop := ∃ a ∈ addresses axes, programmed (K := K) b a ≠ none

/-- A block and the same block with words that repeat what is in force.  A motion is not repeated beside a tool exchange or a return to
the base point, nor where rapid positioning is pending; an arc or a cycle only where something is to be done; and no G code beside a T
word. -/
structure Blocks (m : Modal K) (axes : List Str) (pending : Bool) (b b' : Block) : Prop where
  padded : Padded m b b b'
  some : b ≠ []
  tool : (∃ d ∈ words b, d.word = c!"T") → ∀ k, groupCodes k b' = groupCodes k b
  exchange : groupCodes 1 b' ≠ groupCodes 1 b → ∀ d ∈ words b, ¬ (d.word = c!"M" ∧ code d = Option.some 6)
  home : groupCodes 1 b' ≠ groupCodes 1 b → ∀ d ∈ words b, ¬ (d.word = c!"G" ∧ code d = Option.some 28)
  pending : groupCodes 1 b' ≠ groupCodes 1 b → pending = true → ¬ Valued K axes b
  valued : groupCodes 1 b' ≠ groupCodes 1 b → m.motion ∉ ([0, 1, 80] : List Int) → Valued K axes b

end
end NC.Spec.Repeat
