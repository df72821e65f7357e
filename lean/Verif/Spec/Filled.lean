import Verif.Spec.Words

/-!
# Specification vocabulary: numbers in the place of variables

`look` gives the values of the variables.
-/

namespace NC.Spec.Filled
open NC NC.Spec.Words

/-- The digits in front of the point: no zeros at the beginning. -/
def Plain0 (v : Str) : Prop := Digits v ∧ (v.head? = some '0' → v = c!"0")

/-- The number of a word, without its sign, is written with up to six decimals, none of them superfluous, and is the nearest of these
to `x`. -/
inductive Writes (d : Dec) (x : ℚ) : Prop
  | whole {v : Str} : d.value = some v → Plain0 v → d.dot = none → d.value2 = none →
      |x * 10 ^ 6 - readNat v * 10 ^ 6| < 1 / 2 → Writes d x
  | point {v f : Str} : d.value = some v → Plain0 v → d.dot = some '.' → d.value2 = some f → Digits f → f.length ≤ 6 →
      f.getLast? ≠ some '0' → |x * 10 ^ 6 - (readNat v * 10 ^ 6 + readNat f * 10 ^ (6 - f.length))| < 1 / 2 → Writes d x

/-- The words of a line and those with numbers in the place of variables; `free` are the addresses whose variables stay. -/
inductive Fill (look : Nat → Option ℚ) (free : List Str) : Attr → Attr → Prop
  | comment (v : Str) : Fill look free (.str c!"(" v) (.str c!"(" v)
  | same {d : Dec} : d.mac = none → d.assign = none → Fill look free (.dec d) (.dec d)
  | value {d d' : Dec} {v : Str} {q : ℚ} : d.word ∉ free → d.mac = some c!"#" → d.value = some v → Digits v → readNat v ≤ 2147483647 →
      d.assign = none → d.openB = none → d.closeB = none → d.dot = none → d.value2 = none → look (readNat v) = some q →
      d'.word = d.word → d'.mac = none → d'.assign = none → d'.openB = none → d'.closeB = none → Writes d' |q| →
      (0 ≤ q ∧ d'.sign = d.sign ∨ q < 0 ∧ d.sign = none ∧ d'.sign = some '-') → Fill look free (.dec d) (.dec d')

/-- Line by line. -/
def Filled (look : Nat → Option ℚ) (free : List Str) : Block → Block → Prop := List.Forall₂ (Fill look free)

end NC.Spec.Filled
