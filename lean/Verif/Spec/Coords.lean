import Verif.Spec.Modal
import Verif.Spec.Moved

/-!
# A program by distances, written by coordinates

Every block of a program says where the tool goes, either by distances from where it is (G91) or by coordinates (G90).  The
program by coordinates has, in the place of every distance, the coordinate from which the tool comes plus the distance, and G90 in the
place of G91.  Everything else stays.
-/

namespace NC.Spec.Coords
open NC NC.Spec.Sim NC.Spec.Similar NC.Spec.Moved

section
variable {K : Type} [Field K] [LinearOrder K]

/-- The attribute is G91. -/
def Distances (a : Attr) : Prop := ∃ d, a = .dec d ∧ d.word = c!"G" ∧ code d = some 91

/-- The words by coordinates; `p` is the place the tool comes from, `incr` says that the block is by distances. -/
inductive Word (p : Pos K) (incr : Bool) : Attr → Attr → Prop
  | axis (d d' : Dec) (x y : K) : d.word ∈ threeAxes → d'.word = d.word → value d = some x → p d.word = some y →
      value d' = some (if incr then y + x else x) → Word p incr (.dec d) (.dec d')
  | mode (d d' : Dec) : d.word = c!"G" → code d = some 91 → d'.word = c!"G" → code d' = some 90 →
      Word p incr (.dec d) (.dec d')
  | same (a : Attr) : ¬ Places a → ¬ Distances a → Word p incr a a

/-- A block by coordinates: `g` is the motion in force before it.  Cycles by distances, helices, dwells given by X and G91 beside a
tool are left out. -/
structure Blocks (p : Pos K) (incr : Bool) (g : Int) (b b' : Block) : Prop where
  words : List.Forall₂ (Word p incr) b b'
  dwell : incr = true → Dwell b → (programmed b c!"X" : Option ℚ) = none
  flat : inGroup 1 b g = 2 ∨ inGroup 1 b g = 3 → ∃ a ∈ threeAxes, (programmed b a : Option ℚ) = none
  still : incr = true → inGroup 1 b g ∉ cycles
  tool : (∃ d ∈ Sim.words b, d.word = c!"T") → ∀ d ∈ Sim.words b, ¬ (d.word = c!"G" ∧ code d = some 91)

end
end NC.Spec.Coords
