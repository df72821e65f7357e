import Mathlib.Data.Nat.Digits.Lemmas
import Mathlib.Data.Rat.Floor
import Mathlib.Data.Int.Bitwise

/-!
# Specification of macro expressions

Independent of the parser model: abstract syntax in three levels, the way a
programmer writes it down, and its value.  Operators of a level group to the
left because `E.bin`/`T.bin` take the already built left operand.
-/

namespace NC.Spec

/-- Additive level operators. -/
inductive LowO where | add | sub | or | xor
deriving DecidableEq, Repr
/-- Multiplicative level operators. -/
inductive HighO where | mul | div | and | mod
deriving DecidableEq, Repr
/-- Functions of the Fanuc macro language known to the calculator (without SINH, see `C52`). -/
inductive Fun where
  | ABS | ACOS | ASIN | ATAN | FUP | COS | COSH | EXP | FIX | LOG10 | LOG | SIN | SQRT | TAN | TANH
  | ROUND | BCD | BIN
deriving DecidableEq, Repr

mutual
/-- Expressions: terms joined by additive operators. -/
inductive E where
  | one (t : T)
  | bin (e : E) (op : LowO) (t : T)
/-- Terms: factors joined by multiplicative operators. -/
inductive T where
  | one (f : F)
  | bin (t : T) (op : HighO) (f : F)
/-- Factors: number `ip.fp`, bracketed expression, variable, sign, function call. -/
inductive F where
  | num (ip fp : List (Fin 10)) (h : ip ≠ [] ∨ fp ≠ [])
  | br (e : E)
  | mac (f : F)
  | neg (f : F)
  | pos (f : F)
  | fn (g : Fun) (e : E)
end

/-! ## How it is written -/

/-- A decimal digit as a character. -/
def dig (d : Fin 10) : Char := Char.ofNat (48 + d.val)

/-- A number: the dot is written only when there are decimals. -/
def prNum (ip fp : List (Fin 10)) : List Char :=
  if fp = [] then ip.map dig else ip.map dig ++ '.' :: fp.map dig

def LowO.txt : LowO → List Char
  | .add => ['+'] | .sub => ['-'] | .or => ['O', 'R'] | .xor => ['X', 'O', 'R']
def HighO.txt : HighO → List Char
  | .mul => ['*'] | .div => ['/'] | .and => ['A', 'N', 'D'] | .mod => ['M', 'O', 'D']
def Fun.txt : Fun → List Char
  | .ABS => ['A', 'B', 'S'] | .ACOS => ['A', 'C', 'O', 'S'] | .ASIN => ['A', 'S', 'I', 'N']
  | .ATAN => ['A', 'T', 'A', 'N'] | .FUP => ['F', 'U', 'P'] | .COS => ['C', 'O', 'S']
  | .COSH => ['C', 'O', 'S', 'H'] | .EXP => ['E', 'X', 'P'] | .FIX => ['F', 'I', 'X']
  | .LOG10 => ['L', 'O', 'G', '1', '0'] | .LOG => ['L', 'O', 'G'] | .SIN => ['S', 'I', 'N']
  | .SQRT => ['S', 'Q', 'R', 'T'] | .TAN => ['T', 'A', 'N'] | .TANH => ['T', 'A', 'N', 'H']
  | .ROUND => ['R', 'O', 'U', 'N', 'D'] | .BCD => ['B', 'C', 'D'] | .BIN => ['B', 'I', 'N']

mutual
def E.pr : E → List Char
  | .one t => t.pr
  | .bin e op t => e.pr ++ op.txt ++ t.pr
def T.pr : T → List Char
  | .one f => f.pr
  | .bin t op f => t.pr ++ op.txt ++ f.pr
def F.pr : F → List Char
  | .num ip fp _ => prNum ip fp
  | .br e => '[' :: e.pr ++ [']']
  | .mac f => '#' :: f.pr
  | .neg f => '-' :: f.pr
  | .pos f => '+' :: f.pr
  | .fn g e => g.txt ++ '[' :: e.pr ++ [']']
end

/-! ## What it means -/

/-- Integer part (towards zero). -/
def ipart (q : ℚ) : ℤ := if 0 ≤ q then ⌊q⌋ else ⌈q⌉

/-- Integer part when it lies between the bounds. -/
def ipartIn (lo hi : ℤ) (q : ℚ) : Option ℤ :=
  if lo ≤ ipart q ∧ ipart q ≤ hi then some (ipart q) else none

/-- 32-bit signed, 32-bit unsigned and 64-bit unsigned integer parts. -/
def i32 := ipartIn (-2147483648) 2147483647
def u32 := ipartIn 0 4294967295
def u64 := ipartIn 0 18446744073709551615

def LowO.val (op : LowO) (a b : ℚ) : Option ℚ :=
  match op with
  | .add => some (a + b)
  | .sub => some (a - b)
  | .or => do let x ← i32 a; let y ← i32 b; some (Int.lor x y : ℤ)
  | .xor => do let x ← i32 a; let y ← i32 b; some (Int.xor x y : ℤ)

def HighO.val (op : HighO) (a b : ℚ) : Option ℚ :=
  match op with
  | .mul => some (a * b)
  | .div => if b = 0 then none else some (a / b)
  | .and => do let x ← i32 a; let y ← i32 b; some (Int.land x y : ℤ)
  | .mod => do
    let x ← i32 a; let y ← i32 b
    if y = 0 ∨ (x = -2147483648 ∧ y = -1) then none
    else some ((x - y * ipart ((x : ℚ) / y) : ℤ) : ℚ)

/-- Value of a function; `tr` gives the transcendental ones. -/
def Fun.val (tr : Fun → ℚ → Option ℚ) (g : Fun) (x : ℚ) : Option ℚ :=
  match g with
  | .ABS => some |x|
  | .FUP => some (⌈x⌉ : ℤ)
  | .FIX => some (⌊x⌋ : ℤ)
  | .ROUND => some (if 0 ≤ x then (⌊x + 1/2⌋ : ℤ) else (⌈x - 1/2⌉ : ℤ))
  | .BIN => do let n ← u32 x; some (Nat.ofDigits 16 (Nat.digits 10 n.toNat) : ℕ)
  | .BCD => do let n ← u64 x; some ((Nat.ofDigits 10 (Nat.digits 16 n.toNat) % 2 ^ 32 : ℕ))
  | g => tr g x

/-- The number written as `ip.fp`. -/
def numVal (ip fp : List (Fin 10)) : ℚ :=
  (Nat.ofDigits 10 (ip.reverse.map Fin.val) : ℕ) +
    (Nat.ofDigits 10 (fp.reverse.map Fin.val) : ℕ) / 10 ^ fp.length

variable (tr : Fun → ℚ → Option ℚ) (look : ℕ → Option ℚ)

mutual
/-- Value of an expression; `look n` is the value of variable `#n`. -/
def E.val : E → Option ℚ
  | .one t => t.val
  | .bin e op t => do let a ← e.val; let b ← t.val; op.val a b
def T.val : T → Option ℚ
  | .one f => f.val
  | .bin t op f => do let a ← t.val; let b ← f.val; op.val a b
def F.val : F → Option ℚ
  | .num ip fp _ => some (numVal ip fp)
  | .br e => e.val
  | .mac f => do let x ← f.val; let n ← u32 x; look n.toNat
  | .neg f => do let x ← f.val; some (-x)
  | .pos f => f.val
  | .fn g e => do let x ← e.val; g.val tr x
end

end NC.Spec
