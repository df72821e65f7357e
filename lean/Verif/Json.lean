import Verif.Base

/-!
# JSON values and their text (rapidjson)

Requests reach the handler as a parsed document; reading a missing member, or a
value of the wrong kind, is an assertion failure in rapidjson (undefined in
release builds) and modelled as undefined behaviour.  The reader of rapidjson is
not modelled (a parameter of the server), its writer is.
-/

namespace NC

/-- A JSON value; `other` is a number that is not an `int`, kept as its text. -/
inductive Json where
  | null
  | bool (b : Bool)
  | int (z : Int)
  | other (text : Str)
  | str (s : Str)
  | arr (l : List Json)
  | obj (m : List (Str × Json))
deriving Repr

namespace Json
variable {ε : Type}

/-- First entry with a key. -/
def assoc (k : Str) : List (Str × Json) → Option Json
  | [] => none
  | e :: m => if e.1 = k then some e.2 else assoc k m

/-- `FindMember`; only defined on objects. -/
def member? (j : Json) (k : Str) : Out ε (Option Json) :=
  match j with
  | .obj m => .ok (assoc k m)
  | _ => .ub

/-- `HasMember`. -/
def hasMember (j : Json) (k : Str) : Out ε Bool := j.member? k >>= fun r => .ok r.isSome

/-- `operator[](name)`. -/
def get (j : Json) (k : Str) : Out ε Json :=
  j.member? k >>= fun r => match r with
    | some v => .ok v
    | none => .ub

/-- `operator[](index)` with index 0. -/
def first (j : Json) : Out ε Json :=
  match j with
  | .arr (a :: _) => .ok a
  | _ => .ub

/-- The characters up to the first NUL: what a `const char*` carries. -/
def cstr (s : Str) : Str := s.takeWhile (fun c => c.toNat ≠ 0)

/-- `GetString()` with `GetStringLength()`. -/
def getStr (j : Json) : Out ε Str :=
  match j with
  | .str s => .ok s
  | _ => .ub

/-- `GetString()` turned into a `std::string`. -/
def getCStr (j : Json) : Out ε Str := j.getStr >>= fun s => .ok (cstr s)

/-- Values of type `int`. -/
def isInt32 (z : Int) : Bool := decide (-2147483648 ≤ z) && decide (z ≤ 2147483647)

/-- `GetInt()`. -/
def getInt (j : Json) : Out ε Int :=
  match j with
  | .int z => if isInt32 z then .ok z else .ub
  | _ => .ub

/-! ## The writer -/

/-- Upper case hexadecimal digit. -/
def hexDigit (n : Nat) : Char := if n < 10 then Char.ofNat (48 + n) else Char.ofNat (55 + n)

/-- `Writer::WriteString`, one character (rapidjson writer.h): short escapes,
`\u00XX` for other control characters, everything else as it is. -/
def escape (c : Char) : Str :=
  if c = '"' then c!"\\\""
  else if c = '\\' then c!"\\\\"
  else if c.toNat = 8 then c!"\\b"
  else if c.toNat = 12 then c!"\\f"
  else if c = '\n' then c!"\\n"
  else if c = '\r' then c!"\\r"
  else if c = '\t' then c!"\\t"
  else if c.toNat < 32 then c!"\\u00" ++ [hexDigit (c.toNat / 16), hexDigit (c.toNat % 16)]
  else [c]

/-- A string literal. -/
def quote (s : Str) : Str := '"' :: (s.flatMap escape ++ c!"\"")

mutual
/-- `Writer` without white space. -/
def render : Json → Str
  | .null => c!"null"
  | .bool true => c!"true"
  | .bool false => c!"false"
  | .int z => intStr z
  | .other t => t
  | .str s => quote s
  | .arr l => '[' :: (renderItems true l ++ c!"]")
  | .obj m => '{' :: (renderMembers true m ++ c!"}")
/-- Array elements with commas between them. -/
def renderItems : Bool → List Json → Str
  | _, [] => []
  | first, a :: l => (if first then [] else c!",") ++ render a ++ renderItems false l
/-- Object members with commas between them. -/
def renderMembers : Bool → List (Str × Json) → Str
  | _, [] => []
  | first, (k, v) :: m => (if first then [] else c!",") ++ quote k ++ c!":" ++ render v ++ renderMembers false m
end

end Json
end NC
