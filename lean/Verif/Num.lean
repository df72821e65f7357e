import Verif.Base

/-!
# Number formatting (parser/util.h, `ostream << fixed << setprecision`)

`std::to_string(double)` is `%f`, i.e. `fixedStr 6`.  Rounding is to nearest,
ties to even, on the exact rational value (IEEE rounding of the double itself
is not modelled).
-/

namespace NC

/-- Round a rational to the nearest integer, ties to even. -/
def roundEven (q : ℚ) : ℤ :=
  let f := ⌊q⌋
  let d := q - f
  if d < 1/2 then f
  else if 1/2 < d then f + 1
  else if f % 2 = 0 then f else f + 1

/-- Digits padded on the left with zeros to at least `w` characters
(`setw(w) << setfill('0')`, util.h:23-29). -/
def padZeros (w n : Nat) : Str :=
  List.replicate (w - (natStr n).length) '0' ++ natStr n

/-- `printf("%.{p}f")` / `ostream << fixed << setprecision(p)` of `q`. -/
def fixedStr (p : Nat) (q : ℚ) : Str :=
  let n := (roundEven (|q| * 10 ^ p)).toNat
  let sgn : Str := if q < 0 then ['-'] else []
  if p = 0 then sgn ++ natStr n
  else sgn ++ natStr (n / 10 ^ p) ++ '.' :: padZeros p (n % 10 ^ p)

/-- Drop trailing zeros. -/
def rstrip0 (s : Str) : Str := (s.reverse.dropWhile (· = '0')).reverse

/-- The trimming of `to_string_trunc` (util.h:13-20) on a text that has a
non-zero character (always the case for `%f` output, which contains a dot). -/
def truncZeros (s : Str) : Str :=
  let t := rstrip0 s
  if s.idxOf '.' + 1 = t.length then t.dropLast else t

/-- `to_string_trunc(double)` (util.h:10-21). -/
def toStringTrunc (q : ℚ) : Str := truncZeros (fixedStr 6 q)

end NC
