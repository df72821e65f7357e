import Verif.Spec.Modal
import Verif.Spec.Moved

/-!
# A straight move in pieces

A block that moves straight to a point can be given another block before it that moves to a point on the way.
-/

namespace NC.Spec.Pieces
open NC NC.Spec.Sim NC.Spec.Similar NC.Spec.Moved

section
variable {K : Type} [Field K] [LinearOrder K]

/-- The words of the block to the end, and those of the block to the point on the way: the part `t` of the way from `p`. -/
inductive Word (p : Pos K) (t : K) : Attr → Attr → Prop
  | axis (d d' : Dec) (x y : K) : d.word ∈ threeAxes → d'.word = d.word → value d = some x → p d.word = some y →
      value d' = some (y + t * (x - y)) → Word p t (.dec d) (.dec d')
  | same (d : Dec) : d.word ≠ c!"/" → ¬ Places (.dec d) → Word p t (.dec d) (.dec d)

/-- The block `b'` moves to a point on the way of the straight move `b`: G0 or G1 and G90 are in force in it, and the feed is not by
surface speed. -/
structure Way (p : Pos K) (m : Modal K) (t : K) (b b' : Block) : Prop where
  words : List.Forall₂ (Word p t) b b'
  steady : Steady b
  from_ : 0 ≤ t
  to_ : t ≤ 1
  known : ∀ a ∈ threeAxes, p a ≠ none
  motion : inGroup 1 b m.motion = 0 ∨ inGroup 1 b m.motion = 1
  distance : inGroup 3 b m.distance = 90
  feed : inGroup 5 b m.feedMode = 94 ∨ inGroup 13 b m.speedMode = 97

end
end NC.Spec.Pieces
