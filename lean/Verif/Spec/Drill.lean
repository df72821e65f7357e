import Mathlib.Algebra.Order.Field.Basic

/-!
# What a drilling cycle does: the heights the tool visits

Independent of the calculator.
-/

namespace NC.Spec.Drill

variable {K : Type} [Field K] [LinearOrder K]

/-- Distance travelled from height `z` through a list of heights. -/
def travel (z : K) : List K → K
  | [] => 0
  | h :: t => |z - h| + travel h t

/-- Where a cycle ends: at the initial level (G98) or at the reference level (G99). -/
def lastLevel (g98 : Bool) (start r : K) : K := if g98 then start else r

/-- Plain drilling: feed from the reference level to the bottom. -/
def work (r bottom : K) : K := travel r [bottom]

/-- Plain drilling: rapid to the reference level, and from the bottom to the last level. -/
def rapid (g98 : Bool) (start r bottom : K) : K :=
  travel start [r] + travel bottom [lastLevel g98 start r]

/-- Tapping: feed down and feed up. -/
def tapWork (r bottom : K) : K := travel r [bottom, r]

/-- Tapping: rapid to the reference level, and from there to the last level. -/
def tapRapid (g98 : Bool) (start r : K) : K := travel start [r] + travel r [lastLevel g98 start r]

/-- Peck drilling: for the `k`-th peck down to depth `k q` and back to the reference level. -/
def pecks (r q : K) : Nat → List K
  | 0 => []
  | n + 1 => pecks r q n ++ [r - (n + 1 : Nat) * q, r]

/-- All heights of peck drilling with `n` full pecks; a last peck to the bottom if they do not reach it. -/
def peckHeights (g98 : Bool) (start r q depth : K) (n : Nat) : List K :=
  [r] ++ pecks r q n ++ (if n * q < depth then [r - depth, r] else []) ++ [lastLevel g98 start r]

/-- Fine boring: feed from the reference level to the bottom. -/
def fineWork (r bottom : K) : K := travel r [bottom]

/-- Fine boring: rapid to the reference level; at the bottom aside by `q`, up to the last level and back aside. -/
def fineRapid (g98 : Bool) (start r bottom q : K) : K :=
  travel start [r] + q + travel bottom [lastLevel g98 start r] + q

/-- Back boring: feed up from the reference level, which is below, to the upper end. -/
def backWork (r top : K) : K := travel r [top]

/-- Back boring: aside, down to the reference level, back; at the upper end aside, up to the initial level, back. -/
def backRapid (start r top q : K) : K := q + travel start [r] + q + q + travel top [start] + q

/-- Chip breaking and pecking feed again over the gap `e` for each further bite. -/
def feedAgain (depth e : K) (bites : Nat) : K := depth + (bites - 1 : Nat) * e

/-- Chip breaking: rapid to the reference level, up by the gap `e` before each further bite, and up to the last level. -/
def chipRapid (g98 : Bool) (start r bottom e : K) (bites : Nat) : K :=
  travel start [r] + (bites - 1 : Nat) * e + travel bottom [lastLevel g98 start r]

end NC.Spec.Drill
