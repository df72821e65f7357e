import Verif.Spec.Similar

/-!
# Programs for a part that lies elsewhere on the table

The same part at another place: the coordinates of the axes X, Y and Z (G90) are those of the moved part, distances (G91),
centres, radii, feeds and everything else stay.
-/

namespace NC.Spec.Moved
open NC NC.Spec.Sim NC.Spec.Similar

section
variable {K : Type} [Field K] [LinearOrder K]

/-- How far the part is moved along each axis; no other address is changed. -/
structure Shift (K : Type) [Field K] where
  by' : Str → K
  only : ∀ a, a ∉ threeAxes → by' a = 0

/-- The attribute gives a coordinate or distance. -/
def Places (a : Attr) : Prop := ∃ d, a = .dec d ∧ d.word ∈ threeAxes ∧ number d ≠ none

/-- The words of the same part at another place; `incr` for G91. -/
inductive Word (S : Shift K) (incr : Bool) : Attr → Attr → Prop
  | axis (d d' : Dec) (x : K) : d.word ∈ threeAxes → d'.word = d.word → value d = some x →
      value d' = some (if incr then x else x + S.by' d.word) → Word S incr (.dec d) (.dec d')
  | same (a : Attr) : ¬ Places a → Word S incr a a

/-- The block moves along a helix or may begin one: all three axes, with a radius or a centre. -/
def Helical (b : Block) : Prop :=
  (∀ a ∈ threeAxes, (programmed b a : Option ℚ) ≠ none) ∧
    ((programmed b c!"R" : Option ℚ) ≠ none ∨ ∀ a ∈ ([c!"I", c!"J", c!"K"] : List Str), (programmed b a : Option ℚ) ≠ none)

/-- At most one coordinate is zero. -/
def OffOrigin (p : Pos K) : Prop := ∀ a ∈ threeAxes, ∀ b ∈ threeAxes, a ≠ b → ¬ (p a = some 0 ∧ p b = some 0)

/-- The block has a dwell. -/
def Dwell (b : Block) : Prop := ∃ d ∈ words b, d.word = c!"G" ∧ code d = some 4

/-- The cycles. -/
def cycles : List Int := [73, 74, 76, 81, 82, 83, 84, 85, 86, 87, 88, 89]

/-- A block of the same part at another place: with the words of the moved part, without dwells given by X, and
helices, if any, with coordinates off the origin. -/
structure Blocks (S : Shift K) (incr : Bool) (b b' : Block) : Prop where
  words : List.Forall₂ (Word S incr) b b'
  dwell : Dwell b → (programmed b c!"X" : Option ℚ) = none
  helix : Helical b → incr = false ∧ OffOrigin (programmed b : Pos K) ∧ OffOrigin (programmed b' : Pos K)

/-- Where G90 or G91 is given there is a motion code or a coordinate as well. -/
def Told (b : Block) : Prop := groupCodes 3 b ≠ [] → groupCodes 1 b ≠ [] ∨ ∃ a ∈ threeAxes, (programmed b a : Option ℚ) ≠ none

/-- Programs of the same part at another place, block by block; `incr` is the mode in force before them. -/
inductive Program (S : Shift K) : Bool → List (Int × Block) → List (Int × Block) → Prop
  | nil (incr : Bool) : Program S incr [] []
  | cons {incr : Bool} {line : Int} {b b' : Block} {p p' : List (Int × Block)} :
      Blocks S (incremental b incr) b b' → Told b → Program S (incremental b incr) p p' →
      Program S incr ((line, b) :: p) ((line, b') :: p')

/-- There are no cycles, or the part is moved sideways only and drilled in the plane G17: the depth of a cycle is not moved.
`g` is the motion and `flat` says that G17 is in force before the program. -/
def Level (S : Shift K) (q : List (Int × Block)) (g : Int) (flat : Prop) : Prop :=
  ((∀ x ∈ q, ∀ n ∈ groupCodes 1 x.2, n ∉ cycles) ∧ g ∉ cycles) ∨
    (S.by' c!"Z" = 0 ∧ (∀ x ∈ q, ∀ n ∈ groupCodes 2 x.2, n = 17) ∧ flat)

end
end NC.Spec.Moved
