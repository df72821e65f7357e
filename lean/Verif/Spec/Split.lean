import Verif.Spec.UnitConv

/-! # Specification vocabulary for splitting -/

namespace NC.Spec.Split
open NC NC.Spec.UnitConv

/-- `parts` are the `pieces`, each part but the first being preceded, and each
part but the last being followed, by the retraction block (if there is one). -/
def Dressed {α : Type} (rp : Option α) (pieces parts : List (List α)) : Prop :=
  parts.length = pieces.length ∧
  ∀ (k : Nat) (p : List α), pieces[k]? = some p →
    parts[k]? = some ((if k = 0 then [] else rp.toList) ++ p ++ (if k + 1 = pieces.length then [] else rp.toList))

/-- Codes that select a motion: G0..G3, drilling cycles, cycle cancel. -/
def isMotion (n : Int) : Bool :=
  decide (0 ≤ n ∧ n ≤ 3) || decide (n ∈ [73, 74, 76, 81, 82, 83, 84, 85, 86, 87, 88, 89]) || decide (n = 80)

/-- The drilling cycles. -/
def isCycle (n : Int) : Bool := decide (n ∈ [73, 74, 76, 81, 82, 83, 84, 85, 86, 87, 88, 89])

/-- The motion codes of a block, up to an optional block mark. -/
def motions : Block → List Int
  | [] => []
  | .dec d :: as =>
    if d.word = ['/'] then []
    else match gCode d with
      | some n => if isMotion n then n :: motions as else motions as
      | none => motions as
  | _ :: as => motions as

/-- The motion in effect after a program part. -/
def motionAfter (prog : List Block) : Option Int := (prog.flatMap motions).getLast?

end NC.Spec.Split

namespace NC.Spec.Split
open NC NC.Spec.UnitConv

/-- The word asks for a tool exchange: `M6`, or any `T` number on machines
where the tool number itself executes the exchange. -/
def asksExchange (byNumber : Bool) (d : Dec) : Bool :=
  d.dot = none && d.value2 = none &&
    match d.value with
    | none => false
    | some v => if byNumber then decide (d.word = ['T']) else decide (d.word = ['M'] ∧ stoi v = .ok 6)

/-- The block asks for a tool exchange, before an optional block mark. -/
def exchanges (byNumber : Bool) : Block → Bool
  | [] => false
  | .dec d :: as => if d.word = ['/'] then false else asksExchange byNumber d || exchanges byNumber as
  | _ :: as => exchanges byNumber as

/-- How often the block asks for a tool exchange, before an optional block mark. -/
def timesAsked (byNumber : Bool) : Block → Nat
  | [] => 0
  | .dec d :: as => if d.word = ['/'] then 0 else (if asksExchange byNumber d then 1 else 0) + timesAsked byNumber as
  | _ :: as => timesAsked byNumber as

/-- Sum of the work motions of `len` blocks starting at block `i`. -/
def workOf (work : List ℚ) (i len : Nat) : ℚ := ((List.range len).map (fun j => work.getD (i + j) 0)).sum

end NC.Spec.Split
