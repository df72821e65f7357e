import Verif.Verifiers
import Verif.NumProofs

/-!
# Codes as texts (parser_net/CodeGroups.cs:10-30)

`ToString` of a code and the conversion from a text.  `uint.Parse` takes white space around an integer and a sign.
-/

namespace NC.CodeText
open NC

/-- `CodeGroupValue.ToString` (CodeGroups.cs:15-18). -/
def text (c : Ver.Code) : Str := if c.2 = 0 then natStr c.1 else natStr c.1 ++ '.' :: natStr c.2

/-- White space of `NumberStyles.AllowLeadingWhite`. -/
def white (c : Char) : Bool := c == ' ' || ('\t' ≤ c && c ≤ '\r')

/-- The sign: a minus only in front of zero. -/
def signed (s : Str) : Bool × Str :=
  match s with
  | [] => (false, [])
  | c :: r => if c = '+' then (false, r) else if c = '-' then (true, r) else (false, c :: r)

/-- `uint.Parse`; `none`: an exception. -/
def uintParse (s : Str) : Option Nat :=
  let r := signed (s.dropWhile white)
  let d := r.2.takeWhile isDig
  if d ≠ [] ∧ (r.2.dropWhile isDig).all white = true ∧ readNat d < 4294967296 ∧ (r.1 = true → readNat d = 0) then some (readNat d) else none

/-- `(CodeGroupValue)value` (CodeGroups.cs:20-28). -/
def read (s : Str) : Option Ver.Code :=
  if '.' ∈ s then (uintParse (s.takeWhile (· ≠ '.'))).bind fun c => (uintParse ((s.dropWhile (· ≠ '.')).drop 1)).bind fun r => some (c, r)
  else (uintParse s).bind fun c => some (c, 0)

end NC.CodeText
