import Verif.Base

/-!
# Specification of axis rotations: quarter turns of vectors

A quarter turn is clockwise seen from the positive end of the axis (the sense
used by the tool for "90 degrees").
-/

namespace NC.Spec.Rotate
open NC

/-- Coordinate axes. -/
inductive Axis where
  | x | y | z
deriving DecidableEq, Repr

/-- A point whose coordinates may be absent (not programmed). -/
structure Pt where
  x : Option ℚ
  y : Option ℚ
  z : Option ℚ
deriving DecidableEq

/-- Negate a coordinate. -/
def neg (c : Option ℚ) : Option ℚ := c.map (fun v => -v)

/-- One quarter turn. -/
def quarter : Axis → Pt → Pt
  | .x, p => ⟨p.x, p.z, neg p.y⟩
  | .y, p => ⟨neg p.z, p.y, p.x⟩
  | .z, p => ⟨p.y, neg p.x, p.z⟩

/-- Value of a word: its magnitude with its sign. -/
def signedVal (μ : Dec → ℚ) (d : Dec) : ℚ := if d.sign = some '-' then -μ d else μ d

/-- The values programmed under an address, in order. -/
def values (μ : Dec → ℚ) (w : Str) : Block → List ℚ
  | [] => []
  | .dec d :: as => if d.word = w then signedVal μ d :: values μ w as else values μ w as
  | _ :: as => values μ w as

/-- The last value programmed under an address. -/
def coord (μ : Dec → ℚ) (w : Str) (b : Block) : Option ℚ := (values μ w b).getLast?

/-- The target point of a block. -/
def target (μ : Dec → ℚ) (b : Block) : Pt := ⟨coord μ ['X'] b, coord μ ['Y'] b, coord μ ['Z'] b⟩

/-- The arc centre offset of a block. -/
def centre (μ : Dec → ℚ) (b : Block) : Pt := ⟨coord μ ['I'] b, coord μ ['J'] b, coord μ ['K'] b⟩

/-- The unit vector of an axis. -/
def unit : Axis → Pt
  | .x => ⟨some 1, some 0, some 0⟩
  | .y => ⟨some 0, some 1, some 0⟩
  | .z => ⟨some 0, some 0, some 1⟩

/-- The axis perpendicular to a working plane: G17 = XY, G18 = ZX, G19 = YZ. -/
def normal : Str → Option Axis
  | ['1', '7'] => some .z
  | ['1', '8'] => some .y
  | ['1', '9'] => some .x
  | _ => none

/-- The opposite vector. -/
def opposite (p : Pt) : Pt := ⟨neg p.x, neg p.y, neg p.z⟩

/-- The other arc direction. -/
def swapArc : Str → Str
  | ['2'] => ['3']
  | ['3'] => ['2']
  | c => c

end NC.Spec.Rotate
