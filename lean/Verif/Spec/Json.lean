import Verif.Json

/-!
# Reading JSON (RFC 8259), independently of the writer

A reader for texts without white space between tokens.  Numbers are limited to
integers.  `n` bounds the nesting.
-/

namespace NC.Spec.Json
open NC

/-- Value of a hexadecimal digit. -/
def hexVal (c : Char) : Option Nat :=
  if '0' ≤ c ∧ c ≤ '9' then some (c.toNat - 48)
  else if 'A' ≤ c ∧ c ≤ 'F' then some (c.toNat - 55)
  else if 'a' ≤ c ∧ c ≤ 'f' then some (c.toNat - 87)
  else none

/-- The character behind a backslash. -/
def unescape (c : Char) : Option Char :=
  if c = '"' then some '"' else if c = '\\' then some '\\' else if c = '/' then some '/'
  else if c = 'b' then some (Char.ofNat 8) else if c = 'f' then some (Char.ofNat 12)
  else if c = 'n' then some '\n' else if c = 'r' then some '\r' else if c = 't' then some '\t' else none

/-- Put a character in front of what was read. -/
def cons1 (c : Char) : Option (Str × Str) → Option (Str × Str)
  | some (s, r) => some (c :: s, r)
  | none => none

/-- The rest of a string behind its opening quote. -/
def readStr : Str → Option (Str × Str)
  | [] => none
  | '"' :: r => some ([], r)
  | '\\' :: 'u' :: a :: b :: c :: d :: r =>
    match hexVal a, hexVal b, hexVal c, hexVal d with
    | some a, some b, some c, some d => cons1 (Char.ofNat (4096 * a + 256 * b + 16 * c + d)) (readStr r)
    | _, _, _, _ => none
  | '\\' :: e :: r =>
    match unescape e with
    | some x => cons1 x (readStr r)
    | none => none
  | c :: r => if c.toNat < 32 then none else cons1 c (readStr r)

/-- Digits without leading zeros. -/
def readDigits (t : Str) : Option (Nat × Str) :=
  let ds := t.takeWhile isDig
  if ds = [] ∨ (ds.length ≠ 1 ∧ ds.head? = some '0') then none
  else some (readNat ds, t.dropWhile isDig)

/-- An integer without leading zeros. -/
def readInt : Str → Option (Int × Str)
  | '-' :: t => match readDigits t with
    | some (n, r) => some (-(n : Int), r)
    | none => none
  | t => match readDigits t with
    | some (n, r) => some ((n : Int), r)
    | none => none

mutual
/-- A value. -/
def readVal : Nat → Str → Option (Json × Str)
  | 0, _ => none
  | n + 1, s =>
    match s with
    | 'n' :: 'u' :: 'l' :: 'l' :: r => some (.null, r)
    | 't' :: 'r' :: 'u' :: 'e' :: r => some (.bool true, r)
    | 'f' :: 'a' :: 'l' :: 's' :: 'e' :: r => some (.bool false, r)
    | '"' :: r => match readStr r with
      | some (t, r) => some (.str t, r)
      | none => none
    | '[' :: ']' :: r => some (.arr [], r)
    | '[' :: r => match readItems n r with
      | some (l, r) => some (.arr l, r)
      | none => none
    | '{' :: '}' :: r => some (.obj [], r)
    | '{' :: r => match readMembers n r with
      | some (l, r) => some (.obj l, r)
      | none => none
    | s => match readInt s with
      | some (z, r) => some (.int z, r)
      | none => none
/-- One or more elements and the closing bracket. -/
def readItems : Nat → Str → Option (List Json × Str)
  | 0, _ => none
  | n + 1, s =>
    match readVal n s with
    | some (a, ']' :: r) => some ([a], r)
    | some (a, ',' :: r) => match readItems n r with
      | some (l, r) => some (a :: l, r)
      | none => none
    | _ => none
/-- One or more members and the closing brace. -/
def readMembers : Nat → Str → Option (List (Str × Json) × Str)
  | 0, _ => none
  | n + 1, s =>
    match s with
    | '"' :: r => match readStr r with
      | some (k, ':' :: r) => match readVal n r with
        | some (v, '}' :: r) => some ([(k, v)], r)
        | some (v, ',' :: r) => match readMembers n r with
          | some (l, r) => some ((k, v) :: l, r)
          | none => none
        | _ => none
      | _ => none
    | _ => none
end

/-- The text means the value: every reader that allows enough nesting reads the
value and nothing remains. -/
def Means (s : Str) (j : Json) : Prop := ∃ n₀, ∀ n, n₀ ≤ n → readVal n s = some (j, [])

/-- Values whose numbers are all integers. -/
inductive Plain : Json → Prop
  | null : Plain .null
  | bool (b : Bool) : Plain (.bool b)
  | int (z : Int) : Plain (.int z)
  | str (s : Str) : Plain (.str s)
  | arr (l : List Json) : (∀ x ∈ l, Plain x) → Plain (.arr l)
  | obj (m : List (Str × Json)) : (∀ e ∈ m, Plain e.2) → Plain (.obj m)

end NC.Spec.Json
