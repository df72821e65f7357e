import Verif.Calc
import Verif.Num

/-!
# Macro assignment, substitution and system variables

`MacroEvaluator.cpp`, `MacroEvaluatedCodeVerifier.cpp`, `SystemMacroAssigner.cpp`.
-/

namespace NC.Macro

open NC

/-- Append an optional piece of text. -/
def optS : Option Str → Str
  | some s => s
  | none => []
/-- Append an optional character. -/
def optC : Option Char → Str
  | some c => [c]
  | none => []

/-! ## MacroEvaluator.cpp -/

/-- State of `MacroVisitor` (MacroEvaluator.cpp:74-77): `macro` is -1 when unset. -/
structure MacSt where
  mac : Int := -1
  eq : Bool := false
  text : Str := []
deriving DecidableEq, Repr

/-- The value part appended at MacroEvaluator.cpp:43-56. -/
def valText (d : Dec) : Str :=
  optC d.sign ++ optS d.openB ++ optS d.mac ++ optS d.value ++ optC d.dot ++ optS d.value2 ++ optS d.closeB

/-- `MacroVisitor::operator()(DecimalAttributeData)` (MacroEvaluator.cpp:16-57). -/
def macStep (st : MacSt) (a : Attr) : Out NumExc MacSt :=
  match a with
  | .dec d =>
    if st.eq = false then
      if d.word = c!"#" then
        match d.value with
        | some v => do let n ← stoi v; .ok { st with mac := n }
        | none => .ok st
      else if st.mac ≠ -1 then
        .ok { st with eq := decide (d.word = c!"="), text := st.text ++ valText d }
      else .ok st
    else .ok { st with text := st.text ++ d.word ++ valText d }
  | _ => .ok st

/-- The visitor applied to a whole block (MacroEvaluator.cpp:84-85). -/
def macRun : MacSt → Block → Out NumExc MacSt
  | st, [] => .ok st
  | st, a :: b => do let st' ← macStep st a; macRun st' b

/-- How `MacroEvaluator::evaluate` fails. -/
inductive MacFail where
  | num (e : NumExc)            -- exception of stoi, propagates
  | wrongDefinition (id : Int)  -- returns false
  | calc (f : Calc.CalcFail)    -- returns false
deriving DecidableEq, Repr

/-- `MacroEvaluator::evaluate` (MacroEvaluator.cpp:80-107): the new macro table. -/
def evaluate (tr : Str → ℚ → Option ℚ) (m : MacroMap ℚ) (line : Int) (b : Block) :
    Out MacFail (MacroMap ℚ) :=
  match macRun {} b with
  | .throw e => .throw (.num e)
  | .ub => .ub
  | .ok st =>
    if st.mac ≠ -1 then
      if st.text = [] then .throw (.wrongDefinition st.mac)
      else
        match Calc.evalText tr m st.text with
        | .ok v => .ok (m.emplace ⟨st.mac.toNat, line⟩ v)
        | .throw f => .throw (.calc f)
        | .ub => .ub
    else .ok m

/-! ## MacroEvaluatedCodeVerifier.cpp -/

/-- The word list at MacroEvaluatedCodeVerifier.cpp:17. -/
def plainWords : List Str :=
  [c!"#", c!"=", c!"+", c!"-", c!"*", c!"/", c!":", c!"N", c!"GOTO"]

/-- State of `MacroEvaluatedCodeVisitor`. -/
structure SubSt where
  modified : Bool := false
  interesting : Bool := false
  text : Str := []
deriving DecidableEq, Repr

/-- Exceptions of the substitution. -/
inductive SubErr where
  | missing (v : Str)
  | num (e : NumExc)
deriving DecidableEq, Repr

/-- `MacroEvaluatedCodeVisitor::operator()` (MacroEvaluatedCodeVerifier.cpp:31-69). -/
def subStep (ops : List Str) (m : MacroMap ℚ) (line : Int) (st : SubSt) (a : Attr) : Out SubErr SubSt :=
  match a with
  | .dec d =>
    let inter := st.interesting || (!plainWords.contains d.word && !ops.contains d.word)
    let t := st.text ++ d.word ++ optC d.sign ++ optS d.openB
    if inter && d.mac.isSome then
      match d.value with
      | none => .ub
      | some v =>
        match stoi v with
        | .throw e => .throw (.num e)
        | .ub => .ub
        | .ok n =>
          match m.valueAt n.toNat line with
          | none => .throw (.missing v)
          | some q => .ok ⟨true, inter, t ++ toStringTrunc q ++ optS d.closeB⟩
    else
      .ok ⟨st.modified, inter, t ++ optS d.value ++ optC d.dot ++ optS d.value2 ++ optS d.closeB⟩
  | _ => .ok st

/-- The visitor over a block. -/
def subRun (ops : List Str) (m : MacroMap ℚ) (line : Int) : SubSt → Block → Out SubErr SubSt
  | st, [] => .ok st
  | st, a :: b => do let st' ← subStep ops m line st a; subRun ops m line st' b

/-- `MacroEvaluatedCodeVerifier::operator()` (MacroEvaluatedCodeVerifier.cpp:96-108). -/
def substitute (ops : List Str) (m : MacroMap ℚ) (line : Int) (b : Block) : Out SubErr Str := do
  let st ← subRun ops m line {} b
  .ok (if st.modified then st.text else [])

/-! ## SystemMacroAssigner.cpp -/

/-- `word_macros_map` (SystemMacroAssigner.cpp:11-15). -/
def sysVars : List (Str × List Nat) :=
  [(c!"B", [4102, 4302, 4502]), (c!"D", [4107, 4307, 4507]), (c!"E", [4108, 4308, 4508]),
   (c!"F", [4109, 4309, 4509]), (c!"H", [4111, 4311, 4511]), (c!"M", [4113, 4313, 4513]),
   (c!"N", [4114, 4314, 4514]), (c!"O", [4115, 4315, 4515]), (c!"S", [4119, 4319, 4519])]

/-- `value_extractor` (SystemMacroAssigner.cpp:34-47). -/
def plainText (d : Dec) : Str :=
  optC d.sign ++ optS d.value ++ (match d.dot with | some c => [c] ++ optS d.value2 | none => [])

/-- `SystemMacroAssignerVisitor::operator()` (SystemMacroAssigner.cpp:26-62). -/
def sysStep (line : Int) (m : MacroMap ℚ) (a : Attr) : Out NumExc (MacroMap ℚ) :=
  match a with
  | .dec d =>
    match sysVars.find? (fun p => p.1 == d.word) with
    | some (_, ids) => do
      let v ← stod (plainText d)
      .ok (ids.foldl (fun m i => m.assign ⟨i, line⟩ v) m)
    | none => .ok m
  | _ => .ok m

/-- `SystemMacroAssigner::operator()` (SystemMacroAssigner.cpp:69-74). -/
def sysRun (line : Int) : MacroMap ℚ → Block → Out NumExc (MacroMap ℚ)
  | m, [] => .ok m
  | m, a :: b => do let m' ← sysStep line m a; sysRun line m' b

end NC.Macro
