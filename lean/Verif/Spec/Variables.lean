import Verif.Base

/-! # Specification vocabulary: the values of variables -/

namespace NC.Spec.Variables
open NC

/-- The number of a word: digits before and after the dot, with their sign. -/
def amount (d : Dec) : ℚ :=
  let n : ℚ := readNat (d.value.getD []) + readNat (d.value2.getD []) / 10 ^ (d.value2.getD []).length
  if d.sign = some '-' then -n else n

/-- The last number given to an address on a line. -/
def given (a : Str) : Block → Option ℚ
  | [] => none
  | .dec d :: b => (given a b).or (if d.word = a then some (amount d) else none)
  | _ :: b => given a b

end NC.Spec.Variables
