import Verif.Verifiers

/-!
# What the verifiers are for

Specification of the block checks, independent of the visitors.
-/

namespace NC.Spec.Verify
open NC

/-- The words of a block that carry an address and a number, in order. -/
def decs : Block → List Dec
  | [] => []
  | .dec d :: t => d :: decs t
  | .str _ _ :: t => decs t
  | .chr _ _ :: t => decs t

/-- The address is declared unique. -/
def DeclaredUnique (g : WordMap) (w : Str) : Prop := ∃ wg, g.find w = some wg ∧ wg.unique = true

/-- How often an address occurs in a block. -/
def occurs (w : Str) (b : Block) : Nat := (decs b).countP (fun d => decide (d.word = w))

/-- The text is an `int` written in digits. -/
structure Number (v : Str) (n : Nat) : Prop where
  digits : ∀ c ∈ v, isDig c = true
  nonempty : v ≠ []
  small : n ≤ 2147483647
  reads : readNat v = n

/-- The code a word means: its own digits, or the value of the macro variable
it names on this line.  The second component is the number after the dot. -/
inductive Means (m : MacroMap ℚ) (line : Int) (d : Dec) : Nat × Nat → Prop
  | plain {v n} : d.mac = none → d.value = some v → d.value2 = none → Number v n → Means m line d (n, 0)
  | dotted {v v2 n r} : d.mac = none → d.value = some v → d.value2 = some v2 → Number v n → Number v2 r →
      Means m line d (n, r)
  | variableInt {v} {i n : Nat} : d.mac.isSome → d.value = some v → Number v i → m.valueAt i line = some (n : ℚ) →
      n ≤ 2147483647 → Means m line d (n, 0)
  | variableFrac {v} {i n k r : Nat} : d.mac.isSome → d.value = some v → Number v i →
      m.valueAt i line = some ((n : ℚ) + r / 10 ^ k) → n ≤ 2147483647 → k ≤ 6 → r < 10 ^ k → r % 10 ≠ 0 →
      Means m line d (n, r)

/-- The words of a block with the given address and a number. -/
def codeWords (letter : Str) (b : Block) : List Dec :=
  (decs b).filter (fun d => decide (d.word = letter) && d.value.isSome)

/-- Two codes share a group. -/
def Clash (gm : Ver.Groups) (a b : Nat × Nat) : Prop :=
  ∃ ga gb g, gm.find a = some ga ∧ gm.find b = some gb ∧ g ∈ ga ∧ g ∈ gb

/-- No two codes of the list share a group. -/
def NoClash (gm : Ver.Groups) (cs : List (Nat × Nat)) : Prop := cs.Pairwise (fun a b => ¬ Clash gm a b)

/-- The code is listed in some group. -/
def Listed (gm : Ver.Groups) (c : Nat × Nat) : Prop := ∃ gs, gm.find c = some gs

/-- `std::set` holds no group twice. -/
def SetOfGroups (gm : Ver.Groups) : Prop := ∀ e ∈ gm, e.2.Nodup

/-- Some word of the block programs a feed move or a drilling cycle. -/
def Feeds (b : Block) : Prop :=
  ∃ d ∈ decs b, d.word = c!"G" ∧ ∃ v n, d.value = some v ∧ Number v n ∧ (n = 1 ∨ (81 ≤ n ∧ n ≤ 89))

/-- The block programs a spindle speed. -/
def Speeds (b : Block) : Prop := ∃ d ∈ decs b, d.word = c!"S"

/-- The block starts the spindle. -/
def Starts (b : Block) : Prop :=
  ∃ d ∈ decs b, d.word = c!"M" ∧ ∃ v n, d.value = some v ∧ Number v n ∧ (n = 3 ∨ n = 4)

/-- The numbers of the G and M words are readable. -/
def Readable (b : Block) : Prop :=
  ∀ d ∈ decs b, d.word = c!"G" ∨ d.word = c!"M" → ∀ v, d.value = some v → ∃ n, Number v n

/-- The tool a T word selects: on a lathe a word of more than two digits is the
tool followed by the offset, the offset taking the larger half. -/
def ToolOf (lathe : Bool) (v t : Str) : Prop :=
  if lathe = true ∧ 2 < v.length then ∃ o, v = t ++ o ∧ (o.length = t.length ∨ o.length = t.length + 1)
  else t = v

/-- The amount a word programs, with sign and fraction. -/
def amount (neg : Bool) (v frac : Str) : ℚ :=
  (if neg then -1 else 1) * ((readNat v : ℚ) + readNat frac / 10 ^ frac.length)

/-- The word programs more than the configured maximum. -/
def Exceeds (lathe : Bool) (k : Ver.Limits) (d : Dec) : Prop :=
  ∃ v, d.value = some v ∧
    ((d.word = c!"S" ∧ amount (d.sign == some '-') v (d.value2.getD []) > k.maxSpindle) ∨
     (d.word = c!"T" ∧ ∃ t, ToolOf lathe v t ∧ amount (d.sign == some '-') t (d.value2.getD []) > k.warehouse) ∨
     (d.word = c!"F" ∧ amount (d.sign == some '-') v (d.value2.getD []) > k.maxFeed))

/-- The digits before the point decide whether a number is above the limit: a negative number stays within it
with its sign left out, any other one is not above it by its fraction alone. -/
def Decided (neg : Bool) (v frac : Str) (limit : ℚ) : Prop :=
  if neg then (readNat v : ℚ) ≤ limit else limit < readNat v ∨ amount false v frac ≤ limit

/-- The digits before the point decide whether a speed, a tool or a feed is above its maximum. -/
def Clear (lathe : Bool) (k : Ver.Limits) (d : Dec) : Prop :=
  ∀ v, d.value = some v →
    (d.word = c!"S" → Decided (d.sign == some '-') v (d.value2.getD []) k.maxSpindle) ∧
    (d.word = c!"T" → ∀ t, ToolOf lathe v t → Decided (d.sign == some '-') t (d.value2.getD []) k.warehouse) ∧
    (d.word = c!"F" → Decided (d.sign == some '-') v (d.value2.getD []) k.maxFeed)

/-- The component of the zero point an axis is shifted by. -/
def offset (zp : Ver.Zero) (a : Str) : ℚ :=
  if a = c!"X" then zp.x else if a = c!"Y" then zp.y else if a = c!"Z" then zp.z else 0

/-- The axis position, in machine coordinates, lies in the travel range. -/
def Inside (k : Ver.Limits) (zp : Ver.Zero) (a : Str) (position : ℚ) : Prop :=
  ∀ lo hi, k.axis a = some (lo, hi) → lo ≤ position + offset zp a ∧ position + offset zp a ≤ hi

end NC.Spec.Verify
