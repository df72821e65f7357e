import Verif.Base
import Mathlib.Algebra.Order.Floor.Ring
import Mathlib.Algebra.Order.Field.Basic
import Mathlib.Data.Rat.Cast.Defs

/-!
# Path lengths (parser/fanuc/MathUtils.h, PathCalculator.h, PathCalculator.cpp)

The numbers are the elements of an ordered field `K`; the C library functions
(`sqrt`, `atan`, `asin`, `log`, the constant `M_PI`) are a parameter `Fns K`.
The geometric theorems take `K = ℝ` with the mathematical functions, the
theorems about bookkeeping hold for every `K` and every `Fns K`, and examples
compute over `ℚ`.  Rounding of `double` is not modelled.  A result the C++ code
would represent as an infinity or a NaN is `none` (`Fl`).
-/

namespace NC.Path
open NC

/-- The C library functions used by the calculator. -/
structure Fns (K : Type) where
  sqrt : K → K
  atan : K → K
  asin : K → K
  log : K → K
  pi : K

/-- A `double`: a finite number, or `none` for an infinity or NaN. -/
abbrev Fl (K : Type) := Option K

/-- Addition of `double`s. -/
def addF {K : Type} [Add K] : Fl K → Fl K → Fl K
  | some a, some b => some (a + b)
  | _, _ => none

/-- Multiplication of a `double` by a finite number. -/
def mulF {K : Type} [Mul K] (c : K) : Fl K → Fl K
  | some a => some (c * a)
  | none => none

/-- `EDepthProgrammingType` (parser/GeneralParserDefines.h:203-207). -/
inductive Depth where
  | absolute | incremental
deriving DecidableEq, Repr

/-- `EDrillGreturnMode` (GeneralParserDefines.h:232-236). -/
inductive Ret where
  | g98 | g99
deriving DecidableEq, Repr

section
variable {K : Type} [Field K] [LinearOrder K]

/-! ## MathUtils -/

/-- `CalcLineLength2d(X, Y)` (MathUtils.h:15-18). -/
def len2 (F : Fns K) (x y : K) : K := F.sqrt (x ^ 2 + y ^ 2)

/-- `CalcLineLength2d(Xpre, Ypre, Xcur, Ycur)` (MathUtils.h:20-23). -/
def dist2 (F : Fns K) (xp yp xc yc : K) : K := len2 F (xp - xc) (yp - yc)

/-- `CalcLineLength3d(X, Y, Z)` (MathUtils.h:25-28). -/
def len3 (F : Fns K) (x y z : K) : K := F.sqrt (x ^ 2 + y ^ 2 + z ^ 2)

/-- `CalcLineLength3d` of two points (MathUtils.h:30-33). -/
def dist3 (F : Fns K) (xp yp zp xc yc zc : K) : K := len3 F (xp - xc) (yp - yc) (zp - zc)

/-- `CalcCircleLength2d` (MathUtils.h:35-38). -/
def circle2 (F : Fns K) (x y : K) : K := 2 * F.pi * len2 F x y

/-- `CalcTime` (MathUtils.h:40-43); division by zero gives an infinity or NaN. -/
def calcTime (path feed : K) : Fl K := if feed = 0 then none else some (path / feed)

/-! ## Arcs -/

/-- `tolerance` (PathCalculator.cpp:34). -/
def tol : K := 1 / 100000000

/-- `Deg` (PathCalculator.cpp:10). -/
def deg (F : Fns K) : K := 180 / F.pi

/-- `atan(a / b)` with the IEEE result for a division by zero (`atan` of an
infinity is a right angle).  `0 / 0` would be NaN; the two uses of this function
in `arcIJ` and `arcR` never divide zero by zero, and `quadrant` is 0 whenever a
coordinate is zero, so that the comparison of the other two is not reached. -/
def atanDiv (F : Fns K) (a b : K) : K :=
  if b = 0 then (if 0 < a then F.pi / 2 else if a < 0 then -(F.pi / 2) else 0) else F.atan (a / b)

/-- The quadrant of a point, 0 on the axes (PathCalculator.cpp:70-92). -/
def quadrant (x y : K) : Nat :=
  if 0 < x ∧ 0 < y then 1
  else if x < 0 ∧ y < 0 then 3
  else if 0 < x ∧ y < 0 then 4
  else if x < 0 ∧ 0 < y then 2
  else 0

/-- An arc through all four quadrants (PathCalculator.cpp:94-111). -/
def longByFour (dir prev curr : Nat) : Bool :=
  if dir = 3 then
    (prev == 1 && curr == 4) || (prev == 2 && curr == 1) || (prev == 3 && curr == 2) || (prev == 4 && curr == 3)
  else if dir = 2 then
    (prev == 4 && curr == 1) || (prev == 1 && curr == 2) || (prev == 2 && curr == 3) || (prev == 3 && curr == 4)
  else false

/-- The two quadrants are opposite (the pairs in PathCalculator.cpp:120-121, 128-129). -/
def opposite (prev curr : Nat) : Bool :=
  (prev == 1 && curr == 3) || (prev == 3 && curr == 1) || (prev == 2 && curr == 4) || (prev == 4 && curr == 2)

/-- An arc between opposite quadrants that exceeds half a turn (PathCalculator.cpp:113-133). -/
def longByThree (dir prev curr : Nat) (tgp tgc : K) : Bool :=
  if dir = 3 then opposite prev curr && decide (tgp < tgc)
  else if dir = 2 then opposite prev curr && decide (tgc < tgp)
  else false

/-- `longArc` for start and end points relative to the centre (PathCalculator.cpp:69-133). -/
def longArc (F : Fns K) (dir : Nat) (px py qx qy : K) : Bool :=
  longByFour dir (quadrant px py) (quadrant qx qy) ||
    longByThree dir (quadrant px py) (quadrant qx qy) (atanDiv F py px * deg F) (atanDiv F qy qx * deg F)

/-- The angle of the short arc over a chord, in degrees (PathCalculator.cpp:42-49, 177-184). -/
def shortAngle (F : Fns K) (r half : K) : K :=
  atanDiv F half (F.sqrt |r ^ 2 - half ^ 2|) * deg F * 2

/-- The points coincide within the tolerance (PathCalculator.cpp:140, 193). -/
def samePoint (xp yp xc yc : K) : Prop := |xp - xc| < tol ∧ |yp - yc| < tol

instance (xp yp xc yc : K) : Decidable (samePoint xp yp xc yc) := by unfold samePoint; infer_instance

/-- The radius is too small to be told from half the circumference (PathCalculator.cpp:31-39, 166-174). -/
def tinyRadius (F : Fns K) (r : K) : Prop := |(2 * F.pi * r) / 2 - r| < tol

instance (F : Fns K) (r : K) : Decidable (tinyRadius F r) := by unfold tinyRadius; infer_instance

/-- The angle of an arc in degrees (PathCalculator.cpp:135-141, 186-194). -/
def arcAngle (F : Fns K) (long same : Bool) (r half : K) : K :=
  if same then 360
  else if long then 360 - shortAngle F r half
  else shortAngle F r half

/-- Coordinates relative to the centre (PathCalculator.cpp:53-67). -/
def relative (cx cy x y : K) : K × K := if cx ≠ 0 ∨ cy ≠ 0 then (x - cx, y - cy) else (x, y)

/-- `G17` with `I J`, absolute (PathCalculator.cpp:12-148). -/
def arcIJ (F : Fns K) (xp yp xc yc i j : K) (dir : Nat) : K :=
  let half := dist2 F xp yp xc yc / 2
  let cx := xp + i
  let cy := yp + j
  let r := F.sqrt ((cx - xp) ^ 2 + (cy - yp) ^ 2)
  if tinyRadius F r then r
  else
    let p := relative cx cy xp yp
    let q := relative cx cy xc yc
    let alpha := arcAngle F (longArc F dir p.1 p.2 q.1 q.2) (decide (samePoint xp yp xc yc)) r half
    alpha / 180 * F.pi * r

/-- `G17` with `R`, absolute (PathCalculator.cpp:150-201). -/
def arcR (F : Fns K) (xp yp xc yc rc : K) : K :=
  let half := dist2 F xp yp xc yc / 2
  let r := |rc|
  if tinyRadius F r then r
  else
    let alpha := arcAngle F (decide (rc < 0)) (decide (samePoint xp yp xc yc)) r half
    alpha / 180 * F.pi * r

/-- `asin(a / b)`: NaN outside [-1, 1] and for a division by zero. -/
def asinDiv (F : Fns K) (a b : K) : Fl K :=
  if b = 0 then none else if |a / b| ≤ 1 then some (F.asin (a / b)) else none

/-- `longArc` of the incremental variant (PathCalculator.cpp:238-253). -/
def longIncr (dir : Nat) (x y i j : K) : Bool :=
  if dir = 3 then
    decide ((0 < x ∧ 0 < y ∧ 0 ≤ i ∧ 0 ≤ j) ∨ (0 < x ∧ y < 0 ∧ 0 ≤ i ∧ j ≤ 0))
  else if dir = 2 then
    decide ((x < 0 ∧ y < 0 ∧ i ≤ 0 ∧ j ≤ 0) ∨ (x < 0 ∧ 0 < y ∧ i ≤ 0 ∧ 0 ≤ j))
  else false

/-- The tail common to both incremental arcs (PathCalculator.cpp:214-259, 275-303): a tiny
radius gives the radius, no displacement the full circle, and only if that left
`Arclong` at zero the angle is computed. -/
def arcIncr (F : Fns K) (x y r : K) (long : Bool) : Fl K :=
  let half := len2 F x y / 2
  let a0 := if x = 0 ∧ y = 0 then 2 * F.pi * r else if tinyRadius F r then r else 0
  if a0 = 0 then
    match asinDiv F half r with
    | none => none
    | some t =>
      let a := t * deg F * 2 / 360 * 2 * F.pi * r
      some (if long then 2 * F.pi * r - a else a)
  else some a0

/-- `G17` with `I J`, incremental (PathCalculator.cpp:203-260). -/
def arcIJIncr (F : Fns K) (x y i j : K) (dir : Nat) : Fl K :=
  arcIncr F x y (len2 F i j) (longIncr dir x y i j)

/-- `G17` with `R`, incremental (PathCalculator.cpp:262-304). -/
def arcRIncr (F : Fns K) (x y rc : K) : Fl K := arcIncr F x y |rc| (decide (rc < 0))

/-! ## Helix and spiral -/

/-- `HelixG17` (PathCalculator.cpp:306-323). -/
def helix (F : Fns K) (pitch i j : K) : K := circle2 F (len2 F i j) pitch

/-- `HelixG17R` (PathCalculator.cpp:344-360). -/
def helixR (F : Fns K) (pitch r : K) : K := circle2 F r pitch

/-- `HelixG17_Quarter` with the pitch of its callers (PathCalculator.cpp:325-342). -/
def helixQuarter (F : Fns K) (dz i j : K) : K := circle2 F (len2 F i j) (dz * 4) / 4

/-- `HelixG17_QuarterR` with the pitch of its callers (PathCalculator.cpp:362-378). -/
def helixQuarterR (F : Fns K) (dz r : K) : K := circle2 F r (dz * 4) / 4

/-- `G2G3_HelixLast` (PathCalculator.cpp:380-383). -/
def helixLast (h : K) : K := h / 2

/-- `G2G3_Helix_Archimedes` (PathCalculator.cpp:398-405); no revolutions: NaN. -/
def archimedes (F : Fns K) (l r : K) : Fl K :=
  if l = 0 then none
  else
    let t := l * 2 * F.pi
    some (r / t / 2 * (t * F.sqrt (1 + t ^ 2) + F.log (t + F.sqrt (1 + t ^ 2))))

/-- `G2G3_HelixG17_ArchimedesLparam` (PathCalculator.cpp:385-389). -/
def archimedesL (F : Fns K) (i j l : K) : Fl K := archimedes F l (len2 F i j)

/-- `G2G3_HelixG17_ArchimedesQparam` (PathCalculator.cpp:391-396). -/
def archimedesQ (F : Fns K) (i j q : K) : Fl K :=
  if q = 0 then none else archimedes F (len2 F i j / q) (len2 F i j)

/-! ## Drilling cycles -/

/-- G81, G82, G85, G86, G88, G89 (PathCalculator.cpp:413-414). -/
def boring (g : Int) : Bool := g ∈ ([81, 82, 85, 86, 88, 89] : List Int)

/-- G74, G84 (PathCalculator.cpp:476). -/
def tapping (g : Int) : Bool := g ∈ ([74, 84] : List Int)

/-- `DrillCyclePath_G17`, absolute, without Q: work and rapid distance (PathCalculator.cpp:407-509). -/
def drill (zp zg r : K) (d : Depth) (g : Int) (ret : Ret) : K × K :=
  if boring g then
    match d, ret with
    | .incremental, .g98 => (2 * |zg| - (zp - r + |zg|), zp - r + |zg|)
    | .incremental, .g99 => (zg, zp - r + zg)
    | .absolute, .g98 =>
      if 0 < zp ∧ zg < 0 then (abs (r + |zg|), abs (|zp| - |r| + |zp| + |zg|))
      else (abs (|r| - |zg|), abs (|zp| - |r| + |zp| - |zg|))
    | .absolute, .g99 =>
      if 0 < zp ∧ zg < 0 then (r + |zg|, |zp| + |zg|)
      else (abs (|r| - |zg|), abs (|zp| - |zg|))
  else if tapping g then
    (match d with
      | .incremental => 2 * |zg|
      | .absolute => 2 * |zg - r|,
     match ret with
      | .g98 => 2 * |r - zp|
      | .g99 => |r - zp|)
  else (0, 0)

/-- `DrillCyclePath_G17`, incremental, without Q (PathCalculator.cpp:649-684). -/
def drillIncr (zg r : K) (g : Int) (ret : Ret) : K × K :=
  if boring g then
    match ret with
    | .g98 => (|zg|, |zg| + 2 * |r|)
    | .g99 => (|zg|, |zg| + |r|)
  else if tapping g then
    match ret with
    | .g98 => (2 * |zg|, 2 * |r|)
    | .g99 => (2 * |zg|, 0)
  else (0, 0)

variable [FloorRing K]

/-- `std::floor(a / b)`. -/
def floorDiv (a b : K) : Int := ⌊a / b⌋

/-- `std::fmod(a, b)`: the remainder with the sign of `a`. -/
def fmod (a b : K) : K := a - b * (if 0 ≤ a / b then (⌊a / b⌋ : K) else (⌈a / b⌉ : K))

/-- `static_cast<int>` of a whole number: undefined outside `int`. -/
def fitsInt (z : Int) : Prop := -2147483648 ≤ z ∧ z ≤ 2147483647

instance (z : Int) : Decidable (fitsInt z) := by unfold fitsInt; infer_instance

/-- The multiplier of the approach distance (PathCalculator.cpp:602, 732). -/
def retFactor : Ret → K
  | .g98 => 2
  | .g99 => 1

/-- Peck drilling G83 over a depth (PathCalculator.cpp:606-643, 733-744): `lin` is the linear distance
computed by the caller. -/
def peck {ε : Type} (depth q lin approach : K) (ret : Ret) : Out ε (Fl K × Fl K) :=
  let n := floorDiv depth q
  if fitsInt (n * n + n) then
    let d := ((n * n + n : Int) : K) * q + retFactor ret * approach
    let d := if 0 < fmod depth q then d + 2 * depth else d
    .ok (some lin, some (d - lin))
  else .ub

/-- The linear distance of G83 (PathCalculator.cpp:609, 632). -/
def peckLin (depth q : K) : K :=
  q * (floorDiv depth q : K) + q / 5 * (floorDiv depth q : K) + fmod depth q

/-- The linear distance of G73 (PathCalculator.cpp:557-571, 714-717). -/
def chipLin (depth q : K) : K := depth + q / 5 * (floorDiv depth q : K)

/-- `DrillCyclePath_G17`, absolute, with Q (PathCalculator.cpp:511-647).  `Q = 0` divides by
zero: no number for G73, an undefined conversion to `int` for G83. -/
def drillQ {ε : Type} (zp zg r q : K) (d : Depth) (g : Int) (ret : Ret) : Out ε (Fl K × Fl K) :=
  if g = 87 then
    .ok (some (abs |r - zg|), some (abs (2 * |r - zp| + 4 * q - |r - zg|)))
  else if g = 76 then
    match d, ret with
    | .incremental, .g98 => .ok (some |zg|, some (2 * |r - zp| + |zg| + 2 * q))
    | .incremental, .g99 => .ok (some |zg|, some (|r - zp| + |zg| + 2 * q))
    | .absolute, .g98 => .ok (some |zg - r|, some (|r - zp| + |zg - zp| + 2 * q))
    | .absolute, .g99 => .ok (some |zg - r|, some (|r - zp| + |zg - r| + 2 * q))
  else if g = 73 then
    let depth := match d with
      | .incremental => |zg|
      | .absolute => |r - zg|
    let back := match d with
      | .incremental => |zg|
      | .absolute => |zg - r|
    .ok (if q = 0 then none else some (chipLin depth q), some (retFactor ret * |r - zp| + back))
  else if g = 83 then
    let depth := match d with
      | .incremental => zg
      | .absolute => |r - zg|
    if q = 0 then .ub else peck depth q (peckLin depth q) |zp - r| ret
  else .ok (some 0, some 0)

/-- `DrillCyclePath_G17`, incremental, with Q (PathCalculator.cpp:686-748). -/
def drillQIncr {ε : Type} (F : Fns K) (zg r q : K) (g : Int) (ret : Ret) : Out ε (Fl K × Fl K) :=
  if g = 87 then
    .ok (some |zg|, some (abs (2 * |r| + 3 * q + F.sqrt (q ^ 2 + zg ^ 2))))
  else if g = 76 then
    match ret with
    | .g98 => .ok (some |zg|, some (|r| + |zg| + 2 * q))
    | .g99 => .ok (some |zg|, some (|zg| + 2 * q))
  else if g = 73 then
    if q = 0 then .ok (none, none)
    else
      .ok (some (chipLin |zg| q),
        some (retFactor ret * |r| + |zg| + q / 5 * (floorDiv |zg| q : K)))
  else if g = 83 then
    if q = 0 then .ub else peck |zg| q (chipLin |zg| q) |r| ret
  else .ok (some 0, some 0)

omit [FloorRing K] in
/-- `DrillCyclePathHole_G17`, absolute (PathCalculator.cpp:750-757). -/
def hole (F : Fns K) (xp yp xc yc : K) (c : Fl K × Fl K) : Fl K × Fl K :=
  (c.1, addF c.2 (some (dist2 F xp yp xc yc)))

omit [FloorRing K] in
/-- `DrillCyclePathHole_G17`, incremental (PathCalculator.cpp:759-766). -/
def holeIncr (F : Fns K) (x y : K) (c : Fl K × Fl K) : Fl K × Fl K :=
  (c.1, addF c.2 (some (len2 F x y)))

end
end NC.Path
