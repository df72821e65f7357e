import Verif.Spec.Modal
import Verif.Spec.Sim

/-!
# Feeds of a program and the time it stands still
-/

namespace NC.Spec.Pace
open NC NC.Spec.Sim

variable {K : Type} [Field K] [LinearOrder K]

/-- The F words of a block are within bounds. -/
def FeedsIn (u v : K) (b : Block) : Prop :=
  ∀ d ∈ words b, d.word = c!"F" → ∀ q, rateOf d = some q → u ≤ (q : K) ∧ (q : K) ≤ v

omit [LinearOrder K] in
/-- The time the machine does not move: tool and pallet exchange, measuring, dwell. -/
def standstill (m : Times K) : List (Int × Block) → K
  | [] => 0
  | x :: t => machineTime m x.2 + dwellTime x.2 + standstill m t

end NC.Spec.Pace
