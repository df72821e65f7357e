import Verif.Base
import Verif.Spec.Net

/-!
# Where a character of a line is for an editor

The Language Server Protocol counts the characters of a line in units of UTF-16.
-/

namespace NC.Spec.Columns
open NC NC.Spec.Net

/-- The units of a character in UTF-16: two for characters beyond the basic plane. -/
def units (c : Char) : Nat := if c.toNat < 0x10000 then 1 else 2

/-- The column behind a text that begins a line. -/
def column (s : Str) : Nat := (s.map units).sum

/-- The text is these bytes. -/
def Bytes (t s : Str) : Prop := Utf8 t (s.map Char.toNat)

end NC.Spec.Columns
