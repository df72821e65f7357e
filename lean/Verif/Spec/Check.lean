import Verif.Spec.Verify
import Verif.Spec.Survive
import Verif.Spec.Units

/-!
# What it means that nothing is wrong with a line

Specification of the checks of a line, put together from those of its words.
-/

namespace NC.Spec.Check
open NC NC.Spec.Verify NC.Spec.Survive

/-- The checks that are wanted. -/
structure Wanted where
  analysis : Bool
  groups : Bool
  travel : Bool

/-- What the words are checked against; `table` is the word table of the units in force. -/
structure Machine where
  table : WordMap
  lathe : Bool
  limits : Ver.Limits
  zero : Ver.Zero
  operator : Bool
  gcodes : Ver.Groups
  mcodes : Ver.Groups
  haas : Bool

/-- The number before the point and that after it. -/
def number (d : Dec) : Nat × Nat := (readNat (d.value.getD []), readNat (d.value2.getD []))

/-- The codes with the given letter in a block. -/
def codes (letter : Str) (b : Block) : List (Nat × Nat) := (codeWords letter b).map number

/-- Nothing is wrong with the words of a block that follows the blocks `done`; `reach` are the
positions of the axes after it. -/
structure Flawless (M : Machine) (w : Wanted) (done : List Block) (b : Block) (reach : List (Str × ℚ)) : Prop where
  unique : ∀ a, DeclaredUnique M.table a → occurs a b ≤ 1
  numbers : ∀ d ∈ decs b, d.word ∈ kept → ¬ Bare d
  limits : w.analysis = true → ∀ d ∈ decs b, ¬ Exceeds M.lathe M.limits d
  spindle : w.analysis = true → M.operator = false → Feeds b → (∀ x ∈ done, ¬ Feeds x) →
    (∃ x ∈ done ++ [b], Speeds x) ∧ ∃ x ∈ done ++ [b], Starts x
  operator : w.analysis = true → M.operator = true → ¬ Speeds b ∧ ¬ Starts b
  groups : w.groups = true → NoClash M.gcodes (codes c!"G" b) ∧ NoClash M.mcodes (codes c!"M" b)
  single : M.haas = true → occurs c!"M" b ≤ 1
  travel : w.travel = true → ∀ e ∈ reach, Inside M.limits M.zero e.1 e.2

/-- Numbers that fit an `int`; speeds, tools and feeds whose digits before the point decide whether they are
above their maximum. -/
structure Ordinary (lathe : Bool) (k : Ver.Limits) (b : Block) : Prop where
  small : ∀ d ∈ decs b, ∀ v, d.value = some v ∨ d.value2 = some v → readNat v ≤ 2147483647
  clear : ∀ d ∈ decs b, Clear lathe k d

end NC.Spec.Check
