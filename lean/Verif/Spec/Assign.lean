import Verif.Spec.Expr
import Verif.Spec.Words

/-!
# Specification vocabulary: assignments `#n=expression`

`words` are the declared ranges, `decs` the names of the word table.
-/

namespace NC.Spec.Assign
open NC NC.Spec NC.Spec.Words

/-- The number written by some digits. -/
def worthOf (ds : List (Fin 10)) : Nat := readNat (ds.map dig)

/-- The words a number can follow in an expression. -/
def joints : List Str := [c!"=", c!"+", c!"-", c!"*", c!"/"]

/-- A number that every word in front of it allows, with any sign. -/
structure Modest (words : WordMap) (ip fp : List (Fin 10)) : Prop where
  whole : worthOf ip ≤ 2147483647
  part : worthOf fp ≤ 2147483647
  range : ∀ w ∈ joints, ∀ wg, WordMap.find words w = some wg → wg.rangeFrom ≤ -(worthOf ip : Int) ∧ (worthOf ip : Int) ≤ wg.rangeTo
  decimals : fp ≠ [] → ∀ w ∈ joints, ∀ wg, WordMap.find words w = some wg →
    0 < wg.decTo ∧ wg.decFrom ≤ worthOf fp ∧ worthOf fp ≤ wg.decTo

/-- The number of a variable that can be written. -/
structure Numeral (words : WordMap) (ip : List (Fin 10)) : Prop where
  some : ip ≠ []
  whole : worthOf ip ≤ 2147483647
  range : ∀ wg, WordMap.find words c!"#" = Option.some wg → wg.rangeFrom ≤ (worthOf ip : Int) ∧ (worthOf ip : Int) ≤ wg.rangeTo

/-- A name of the table that begins no other one. -/
def Sole (decs : List Str) (w : Str) : Prop := w ∈ decs ∧ ∀ u ∈ decs, w <+: u → u = w

/-- The name of a function or of an operator written with letters: it has no range of its own. -/
def Named (words : WordMap) (decs : List Str) (w : Str) : Prop := Sole decs w ∧ WordMap.find words w = none

/-- Additive operators in use. -/
def LowOk (words : WordMap) (decs : List Str) : LowO → Prop
  | .add => True
  | .sub => True
  | op => Named words decs op.txt

/-- Multiplicative operators in use. -/
def HighOk (words : WordMap) (decs : List Str) : HighO → Prop
  | .mul => True
  | .div => True
  | op => Named words decs op.txt

section
variable (words : WordMap) (decs : List Str)

mutual
/-- An expression of modest numbers, of variables by number, and of operators and functions the table names. -/
def FitE : E → Prop
  | .one t => FitT t
  | .bin e op t => FitE e ∧ LowOk words decs op ∧ FitT t
def FitT : T → Prop
  | .one f => FitF f
  | .bin t op f => FitT t ∧ HighOk words decs op ∧ FitF f
def FitF : F → Prop
  | .num ip fp _ => Modest words ip fp
  | .br e => FitE e
  | .mac (.num ip [] _) => Numeral words ip
  | .mac _ => False
  | .neg f => FitF f
  | .pos f => FitF f
  | .fn g e => Named words decs g.txt ∧ FitE e
end
end

/-- The signs used in assignments are names that begin no other one, `#` and `=` have declared ranges, and no
name written with `=` begins with `#`. -/
structure Signs (words : WordMap) (decs assigns : List Str) : Prop where
  hash : Sole decs c!"#"
  eq : Sole decs c!"="
  plus : Sole decs c!"+"
  minus : Sole decs c!"-"
  times : Sole decs c!"*"
  hashKnown : WordMap.find words c!"#" ≠ none
  eqKnown : WordMap.find words c!"=" ≠ none
  assigns : ∀ w ∈ assigns, w.head? ≠ some '#'

/-- The assignment `#n=e`. -/
def text (ip : List (Fin 10)) (e : E) : Str := '#' :: ip.map dig ++ '=' :: e.pr

/-! ## Programs -/

mutual
/-- The variables an expression reads. -/
def readsE : E → List Nat
  | .one t => readsT t
  | .bin e _ t => readsE e ++ readsT t
def readsT : T → List Nat
  | .one f => readsF f
  | .bin t _ f => readsT t ++ readsF f
def readsF : F → List Nat
  | .num _ _ _ => []
  | .br e => readsE e
  | .mac (.num ip _ _) => [worthOf ip]
  | .mac _ => []
  | .neg f => readsF f
  | .pos f => readsF f
  | .fn _ e => readsE e
end

/-- A line of a program: an assignment, or words for the machine. -/
inductive Item where
  | assign (ip : List (Fin 10)) (e : E)
  | words (b : Block)

/-- The values of the variables after the lines, if every expression has a value. -/
def computed (tr : Fun → ℚ → Option ℚ) : (Nat → Option ℚ) → List Item → Option (Nat → Option ℚ)
  | env, [] => some env
  | env, .words _ :: t => computed tr env t
  | env, .assign ip e :: t =>
    match e.val tr env with
    | some v => computed tr (fun i => if i = worthOf ip then some v else env i) t
    | none => none

end NC.Spec.Assign
