import Verif.Spec.Sim

/-!
# What stays in force from block to block

Independent of the calculator: the modal groups of the G codes, feed and spindle speed.
-/

namespace NC.Spec.Sim
open NC

/-- The code a word gives in a modal group. -/
def groupWord (k : Nat) (d : Dec) : Option Int :=
  if d.word = c!"G" then (code d).filter (fun n => modalGroup n = some k) else none

/-- The codes a block gives in a modal group. -/
def groupCodes (k : Nat) (b : Block) : List Int := (words b).filterMap (groupWord k)

/-- The code of a modal group in force in a block: the last one it gives, or the one before. -/
def inGroup (k : Nat) (b : Block) (old : Int) : Int := (groupCodes k b).getLast?.getD old

/-- The number of a feed or speed word; it has no sign. -/
def rateOf (d : Dec) : Option ℚ :=
  if d.value.isSome ∨ d.dot.isSome then
    match stod (d.value.getD [] ++ (if d.dot.isSome then d.dot.toList ++ d.value2.getD [] else [])) with
    | .ok q => some q
    | _ => none
  else none

/-- The feed (F) or speed (S) in force in a block: that of its last word, or the one before. -/
def rate {K : Type} [Field K] (a : Str) (b : Block) (old : K) : K :=
  (((words b).filter (fun d => d.word = a)).filterMap (fun d => (rateOf d).map (fun q : ℚ => (q : K)))).getLast?.getD old

/-- What is in force: motion (G0 to G3, cycles), plane (G17 to G19), distance (G90, G91), feed per
minute or revolution (G94, G95), return (G98, G99), speed (G96, G97), F and S. -/
structure Modal (K : Type) where
  motion : Int
  plane : Int
  distance : Int
  feedMode : Int
  retract : Int
  speedMode : Int
  feed : K
  speed : K
deriving DecidableEq

/-- What is in force in a block, given what was before it. -/
def Modal.after {K : Type} [Field K] (b : Block) (m : Modal K) : Modal K where
  motion := inGroup 1 b m.motion
  plane := inGroup 2 b m.plane
  distance := inGroup 3 b m.distance
  feedMode := inGroup 5 b m.feedMode
  retract := inGroup 10 b m.retract
  speedMode := inGroup 13 b m.speedMode
  feed := rate c!"F" b m.feed
  speed := rate c!"S" b m.speed

/-- The addresses that take part in motions, besides further axes. -/
def addresses (axes : List Str) : List Str :=
  [c!"X", c!"Y", c!"Z", c!"I", c!"J", c!"K", c!"R", c!"Q", c!"L", c!"P", c!"U"] ++ axes

/-- The block names no motion and gives no value. -/
def Bare (K : Type) [Field K] (axes : List Str) (b : Block) : Prop :=
  groupCodes 1 b = [] ∧ ∀ a ∈ addresses axes, programmed (K := K) b a = none

/-- The feed per minute: F, or F times spindle speed if F is per revolution. -/
def Modal.perMinute {K : Type} [Field K] (m : Modal K) : K :=
  if m.feedMode = 95 then m.feed * m.speed else m.feed

/-- The seconds to go a way at a speed per minute. -/
def seconds {K : Type} [Field K] (way speed : K) : K := 60 * (way / speed)

/-- The place of a coordinate: X words of a lathe are diameters. -/
def place {K : Type} [Field K] (diameter : Bool) (x : K) : K := if diameter then x / 2 else x

/-- A word that neither exchanges tools nor is an M code, and whose code, for a G word, is modal. -/
def SteadyWord (d : Dec) : Prop :=
  d.word ≠ c!"T" ∧ d.word ≠ c!"M" ∧ (d.word = c!"G" → ∃ n, code d = some n ∧ modalGroup n ≠ none)

/-- A block of such words. -/
def Steady (b : Block) : Prop := ∀ d ∈ words b, SteadyWord d

end NC.Spec.Sim
