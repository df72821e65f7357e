import Verif.Spec.Modal
import Mathlib.Data.List.Perm.Basic
import Mathlib.Tactic.Ring

/-!
# Programs of similar parts

A similarity of space that maps the three axes to themselves: turned by quarters, mirrored, shifted, scaled.
Two programs belong to similar parts if the words of one are those of the other with the coordinates (G90) or
distances (G91) and the feeds of the similar part.
-/

namespace NC.Spec.Similar
open NC NC.Spec.Sim

/-- The three linear axes. -/
def threeAxes : List Str := [c!"X", c!"Y", c!"Z"]

/-- Axis `a` goes to axis `onto a`, in the same or the opposite direction, `scale` times as long, with its origin
at `shift a`. -/
structure Similarity (K : Type) [Field K] [LinearOrder K] where
  onto : Str → Str
  back : Str → Bool
  shift : Str → K
  scale : K
  axes : (threeAxes.map onto).Perm threeAxes
  positive : 0 < scale

section
variable {K : Type} [Field K] [LinearOrder K]

/-- The distance of the similar part for a distance along axis `a`. -/
def Similarity.distance (T : Similarity K) (a : Str) (x : K) : K := T.scale * (if T.back a then -x else x)

/-- The coordinate of the similar part for a coordinate on axis `a`. -/
def Similarity.coordinate (T : Similarity K) (a : Str) (x : K) : K := T.distance a x + T.shift a

/-- A length of the similar part. -/
def Similarity.length (T : Similarity K) (x : Option K) : Option K := x.map (T.scale * ·)

/-- The codes after which a word is no coordinate of the path, or which move by themselves: dwell, data setting,
reference point, scaling, mirroring, local and machine coordinates, rotation, position register. -/
def special : List Int := [4, 10, 28, 50, 51, 52, 53, 68, 92]

/-- A word that stays: no axis, tool, feed or tool exchange, and no special code. -/
def Stays (d : Dec) : Prop :=
  d.word ∉ threeAxes ∧ d.word ≠ c!"T" ∧ d.word ≠ c!"F" ∧ isM6 d = false ∧
    (d.word = c!"G" → (∀ n, code d = some n → n ∉ special) ∧ (d.dot = none ∨ d.dot = some '.'))

/-- The words of similar parts; `incr` for G91. -/
inductive Word (T : Similarity K) (incr : Bool) : Attr → Attr → Prop
  | axis (d d' : Dec) (x : K) : d.word ∈ threeAxes → d'.word = T.onto d.word → value d = some x →
      value d' = some (if incr then T.distance d.word x else T.coordinate d.word x) → Word T incr (.dec d) (.dec d')
  | feed (d d' : Dec) (f f' : ℚ) : d.word = c!"F" → d'.word = c!"F" → rateOf d = some f → 0 ≤ f → rateOf d' = some f' →
      (f' : K) = T.scale * f → Word T incr (.dec d) (.dec d')
  | plane (d d' : Dec) (n n' : Int) : d.word = c!"G" → d'.word = c!"G" → code d = some n → code d' = some n' →
      n ∈ ([17, 18, 19] : List Int) → n' ∈ ([17, 18, 19] : List Int) → Word T incr (.dec d) (.dec d')
  | units (d d' : Dec) (n n' : Int) : d.word = c!"G" → d'.word = c!"G" → code d = some n → code d' = some n' →
      d.dot = none → d'.dot = none → n ∈ ([20, 21] : List Int) → n' ∈ ([20, 21] : List Int) → Word T incr (.dec d) (.dec d')
  | centre (d d' : Dec) : d.word ∈ ([c!"I", c!"J", c!"K"] : List Str) → d'.word ∈ ([c!"I", c!"J", c!"K"] : List Str) →
      number d ≠ none → number d' ≠ none → Word T incr (.dec d) (.dec d')
  | stays (d : Dec) : Stays d → Word T incr (.dec d) (.dec d)
  | str (w v : Str) : Word T incr (.str w v) (.str w v)
  | chr (w : Str) (v : Char) : Word T incr (.chr w v) (.chr w v)

/-- No arcs and no cycles. -/
def Straight (b : Block) : Prop := ∀ n ∈ groupCodes 1 b, n ∈ ([0, 1, 80] : List Int)

/-- Straight programs of similar parts, block by block; `incr` is the mode in force before them. -/
inductive Program (T : Similarity K) : Bool → List (Int × Block) → List (Int × Block) → Prop
  | nil (incr : Bool) : Program T incr [] []
  | cons {incr : Bool} {line line' : Int} {b b' : Block} {p p' : List (Int × Block)} :
      Straight b → List.Forall₂ (Word T (incremental b incr)) b b' → Program T (incremental b incr) p p' →
      Program T incr ((line, b) :: p) ((line', b') :: p')

end
end NC.Spec.Similar
