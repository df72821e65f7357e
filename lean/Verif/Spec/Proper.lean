import Verif.Spec.Words
import Verif.Spec.Tables

/-!
# Specification vocabulary: words as a word table declares them

`decs` and `assigns` are the names of the table, `words` the declared ranges.
-/

namespace NC.Spec.Proper
open NC NC.Spec.Words NC.Spec.Tables

/-- Digits of a number that fits an `int`. -/
def Short (v : Str) : Prop := Digits v ∧ readNat v ≤ 2147483647

/-- The number of a word is one its address may have: digits with or without a fraction, a fraction
alone, or the number of a variable. -/
inductive Numbered (words : WordMap) (d : Dec) : Prop
  | whole {v} : d.mac = none → d.value = some v → Short v → d.dot = none → d.value2 = none →
      (∀ wg, WordMap.find words d.word = some wg → Within wg d v) → Numbered words d
  | point {v} : d.mac = none → d.value = some v → Short v → d.dot = some '.' → (∀ f, d.value2 = some f → Short f) →
      (∀ wg, WordMap.find words d.word = some wg → Within wg d v) → Numbered words d
  | fraction {f} : d.mac = none → d.value = none → d.dot = some '.' → d.value2 = some f → Short f →
      (∀ wg, WordMap.find words d.word = some wg → 0 < wg.decTo ∧ FractionOk wg d f) → Numbered words d
  | macro_ {v} : d.mac = some c!"#" → d.value = some v → Short v → d.dot = none → d.value2 = none →
      (∀ wg, WordMap.find words c!"#" = some wg → wg.rangeFrom ≤ readNat v ∧ (readNat v : Int) ≤ wg.rangeTo) → Numbered words d

/-- A sign, or none. -/
def Signed (d : Dec) : Prop := d.sign = none ∨ d.sign = some '+' ∨ d.sign = some '-'

/-- A word of an address and a number, without brackets. -/
structure Value (words : WordMap) (d : Dec) : Prop where
  sign : Signed d
  openB : d.openB = none
  closeB : d.closeB = none
  op : d.word ∉ operators
  name : d.word ≠ [] ∧ d.word.head? ≠ some ']'
  number : Numbered words d

/-- A character of a program name. -/
def nameChar (c : Char) : Bool := letter c || isDig c || c = '_'

/-- A word as the table declares it. -/
inductive Word (words : WordMap) (decs assigns : List Str) : Attr → Prop
  | address {d} : d.word ∈ decs → d.assign = none → Value words d → Word words decs assigns (.dec d)
  | assignment {d} : d.word ∈ assigns → d.assign = some '=' → Value words d → Word words decs assigns (.dec d)
  | comment {v} : ')' ∉ v → Word words decs assigns (.str c!"(" v)
  | program {n} : n ≠ [] → (∀ c ∈ n, nameChar c = true) → (∀ u ∈ decs, u ≠ [] → ¬ u <+: 'O' :: n) →
      Word words decs assigns (.str c!"O" n)

/-- A line of such words, possibly with `%` at its end. -/
inductive Line (words : WordMap) (decs assigns : List Str) : Block → Prop
  | one {a} : Word words decs assigns a → Line words decs assigns [a]
  | percent : Line words decs assigns [.chr c!"%" '\x00']
  | more {a b} : Word words decs assigns a → Line words decs assigns b → Line words decs assigns (a :: b)

end NC.Spec.Proper
