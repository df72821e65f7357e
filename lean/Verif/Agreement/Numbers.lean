import Verif.AttrPath
import Verif.MacroMap

/-!
# The functions of the C library with 25 decimals, for the comparison with the unit tests

The model leaves `sqrt`, `atan`, `asin`, `log` and `sin` open.  To compare it with the numbers the
tests of the repository expect they are computed here over the rationals; nothing is proved about
them and no theorem uses them.
-/

namespace NC.Agreement
open NC NC.Path NC.AttrPath

/-- A number cut to 25 decimals. -/
def cut (x : ℚ) : ℚ := (⌊x * 10 ^ 25⌋ : ℚ) / 10 ^ 25

/-- The square root to 25 decimals. -/
def root (x : ℚ) : ℚ := (Nat.sqrt ⌊x * 10 ^ 50⌋.toNat : ℚ) / 10 ^ 25

/-- The sum of `s, s q, s q², …`, each divided by the odd number it belongs to. -/
def odds (s q : ℚ) : Nat → Nat → ℚ
  | 0, _ => 0
  | n + 1, k => s / (2 * k + 1) + odds (cut (s * q)) q n (k + 1)

/-- The arc tangent: three halvings of the angle, then the series. -/
def atan (x : ℚ) : ℚ :=
  let h (y : ℚ) : ℚ := cut (y / (1 + root (1 + y * y)))
  let y := h (h (h x))
  8 * odds y (-(y * y)) 24 0

/-- π as four times the arc tangent of one. -/
def pie : ℚ := cut (4 * atan 1)

/-- The natural logarithm of a positive number. -/
def ln (x : ℚ) : ℚ :=
  let y := root (root (root (root x)))
  let t := cut ((y - 1) / (y + 1))
  32 * odds t (t * t) 30 0

/-- The functions of the C library, to more decimals than a `double` has. -/
def fine : Fns ℚ where
  sqrt := root
  atan := atan
  asin x := if 1 - x * x ≤ 0 then (if 0 < x then pie / 2 else -(pie / 2)) else atan (cut (x / root (1 - x * x)))
  log := ln
  pi := pie

/-- Within the tolerance of the tests. -/
def near (a b : ℚ) : Bool := decide (|a - b| ≤ 1 / 10 ^ 8)

def nearF (a : Fl ℚ) (b : ℚ) : Bool := match a with | some x => near x b | none => false

/-- The sine of an angle in radians by its series: `t` is the current term. -/
def sinLoop (x2 t : ℚ) : Nat → Nat → ℚ
  | 0, _ => 0
  | n + 1, k => t + sinLoop x2 (cut (-(t * x2) / ((2 * k + 2) * (2 * k + 3)))) n (k + 1)

/-- The functions of expressions the tests use; angles are in degrees (ValueCalculator.cpp:301-307). -/
def fineFn (name : Str) (x : ℚ) : Option ℚ :=
  if name = c!"sqrt" then (if x < 0 then none else some (root x))
  else if name = c!"sin" then
    let d := x - 360 * (⌊x / 360⌋ : ℚ)
    let r := cut (d * pie / 180)
    some (sinLoop (cut (r * r)) r 40 0)
  else none

/-- A `std::map` built from a list of entries. -/
def mapOf (l : List (MKey × ℚ)) : MacroMap ℚ := l.foldl (fun m e => m.emplace e.1 e.2) []

end NC.Agreement
