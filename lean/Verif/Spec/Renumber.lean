import Verif.Base

/-! # Specification vocabulary for renumbering -/

namespace NC.Spec.Renumber
open NC

/-- Blocks that renumbering considers: they carry a leading number, or (unless
only existing numbers are to be changed) they are ordinary blocks, i.e. not
empty, not optional (`/`), not the program delimiter `%`, not a program name
`O...` and not a comment line. -/
def considered (isNum : Str → Bool) (existingOnly : Bool) : Block → Bool
  | [] => false
  | .dec d :: _ => decide (d.word ≠ ['/']) && (isNum d.word || !existingOnly)
  | .chr w _ :: _ => !existingOnly && decide (w ≠ ['%'])
  | .str w _ :: _ => !existingOnly && decide (w ≠ ['O']) && decide (w ≠ ['('])

/-- A block without its leading number. -/
def body (isNum : Str → Bool) : Block → Block
  | .dec d :: rest => if isNum d.word then rest else .dec d :: rest
  | b => b

/-- The `i`-th number of the documented sequence, in closed form: arithmetic
from `start`; once `max` would be exceeded it runs through
`lo, lo+step, ..., ≤ max` again and again. -/
def number (start step max lo i : Nat) : Nat :=
  let first := (max - start) / step + 1
  if i < first then start + i * step
  else lo + ((i - first) % ((max - lo) / step + 1)) * step

/-- The highest number an address of block numbers can have. -/
def highest (g : FanucGrammar) (w : Str) : Option Int :=
  (g.metric.find? (fun p => p.1 == w && decide (p.2.wtype = .numbering))).map (fun p => p.2.rangeTo)

/-- The least number of digits to write: as many as the highest number has, if leading zeros are wanted. -/
def columns (leadingZeroes : Bool) (high : Option Int) : Nat :=
  match leadingZeroes, high with
  | true, some h => (intStr h).length
  | _, _ => 0

end NC.Spec.Renumber
