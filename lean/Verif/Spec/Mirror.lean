import Verif.Spec.Moved

/-!
# Programs for a mirrored part

The part mirrored at the Y axis, at the X axis or at both (that is, turned by half a turn about Z): the coordinates and distances of the mirrored
axes and of the centres along them change sign, and where the part is seen in a mirror (one axis only) G2 and G3 change places.
-/

namespace NC.Spec.Mirror
open NC NC.Spec.Sim NC.Spec.Moved

/-- Which axes are mirrored. -/
structure Flip where
  x : Bool
  y : Bool

/-- Clockwise and counter-clockwise change places. -/
def Flip.turned (f : Flip) : Bool := f.x != f.y

/-- The address is one of those that change sign: the mirrored axis and its centre word. -/
def Flip.flips (f : Flip) (a : Str) : Bool :=
  (f.x && (decide (a = c!"X") || decide (a = c!"I"))) || (f.y && (decide (a = c!"Y") || decide (a = c!"J")))

section
variable {K : Type} [Field K] [LinearOrder K]

/-- The mirrored value of an address. -/
def Flip.onto (f : Flip) (a : Str) (x : K) : K := if f.flips a then -x else x

/-- The mirrored motion. -/
def Flip.motion (f : Flip) (n : Int) : Int := if f.turned then (if n = 2 then 3 else if n = 3 then 2 else n) else n

/-- The attribute is G2 or G3. -/
def Arcs (a : Attr) : Prop := ∃ d, a = .dec d ∧ d.word = c!"G" ∧ (code d = some 2 ∨ code d = some 3)

/-- The words of the mirrored part. -/
inductive Word (K : Type) [Field K] (f : Flip) : Attr → Attr → Prop
  | place (d d' : Dec) (x : K) : f.flips d.word = true → d'.word = d.word → value d = some x → value d' = some (-x) → Word K f (.dec d) (.dec d')
  | arc (d d' : Dec) (n : Int) : d.word = c!"G" → d'.word = c!"G" → code d = some n → code d' = some (f.motion n) → n = 2 ∨ n = 3 →
      Word K f (.dec d) (.dec d')
  | same (a : Attr) : (∀ d, a = .dec d → f.flips d.word = true → number d = none) → (f.turned = true → ¬ Arcs a) → Word K f a a

/-- A block of the mirrored part: in the plane G17, dwells not given by a mirrored address. -/
structure Blocks (K : Type) [Field K] (f : Flip) (b b' : Block) : Prop where
  words : List.Forall₂ (Word K f) b b'
  dwell : f.x = true → Dwell b → (programmed b c!"X" : Option ℚ) = none
  plane : ∀ n ∈ groupCodes 2 b, n = 17

/-- Programs of the mirrored part, block by block. -/
def Program (K : Type) [Field K] (f : Flip) : List (Int × Block) → List (Int × Block) → Prop :=
  List.Forall₂ (fun x x' => x'.1 = x.1 ∧ Blocks K f x.2 x'.2)

end
end NC.Spec.Mirror
