import Verif.UnitConv

/-!
# Splitting programs (parser/fanuc/FileSplitter.cpp)

The member `other_g` of the visitor is written but never read; it is omitted.
-/

namespace NC.Splitter
open NC NC.UnitConv

/-- The three members of `CncDefaultValues` the splitter reads
(parser/GeneralParserDefines.h:260-266). -/
structure Cfg where
  rapidCancels : Bool
  linearCancels : Bool
  toolNumberExchanges : Bool
deriving DecidableEq, Repr

/-- Visitor state (FileSplitter.cpp:124-131). -/
structure St where
  activeG : Int := -1
  wasComment : Bool := false
  drill : Bool := false
  toolChange : Bool := false
  toolCnt : Nat := 0
deriving DecidableEq, Repr

/-- `is_drill_cycle` (AttributesPathCalculator.cpp:26-30). -/
def isDrill (n : Int) : Bool := decide (n ∈ [74, 81, 82, 84, 85, 86, 88, 89])

/-- `is_drill_cycle_qparam` (AttributesPathCalculator.cpp:32-36). -/
def isDrillQ (n : Int) : Bool := decide (n ∈ [73, 76, 83, 87])

/-- The G branch (FileSplitter.cpp:43-62). -/
def onG (c : Cfg) (st : St) (n : Int) : St :=
  if 0 ≤ n ∧ n ≤ 3 then { st with activeG := n }
  else if isDrill n || isDrillQ n then { st with activeG := n, drill := true }
  else if n = 80 ∨ (st.activeG = 0 ∧ c.rapidCancels = true) ∨ (st.activeG = 1 ∧ c.linearCancels = true) then
    { st with activeG := n, drill := false }
  else st

/-- Record a tool change (FileSplitter.cpp:72-73, 84-85). -/
def changed (st : St) : St := { st with toolChange := true, toolCnt := st.toolCnt + 1 }

/-- `operator()(const DecimalAttributeData&)` (FileSplitter.cpp:28-88). -/
def visitDec (c : Cfg) (st : St) (d : Dec) : Out NumExc St :=
  if d.word = c!"/" then .ok { st with wasComment := true }
  else if st.wasComment then .ok st
  else if d.word = c!"G" then do
    let o ← optStoi d.value
    match o with
    | none => pure st
    | some n => pure (onG c st n)
  else if d.word = c!"M" then
    if d.value = none ∨ d.dot.isSome ∨ d.value2.isSome then .ok st
    else if c.toolNumberExchanges then .ok st
    else do
      let o ← optStoi d.value
      pure (if o = some 6 then changed st else st)
  else if d.word = c!"T" then
    if d.value = none ∨ d.dot.isSome ∨ d.value2.isSome then .ok st
    else .ok (if c.toolNumberExchanges then changed st else st)
  else .ok st

/-- Visiting the words of a block. -/
def visitWords (c : Cfg) (st : St) : Block → Out NumExc St
  | [] => .ok st
  | .dec d :: as => do let st' ← visitDec c st d; visitWords c st' as
  | _ :: as => visitWords c st as

/-- `reset` (FileSplitter.cpp:95-102). -/
def reset (st : St) : St :=
  { st with wasComment := false, toolChange := false, activeG := if 3 < st.activeG then -1 else st.activeG }

/-- Reset and visit one block (FileSplitter.cpp:181-183 and the like). -/
def scan (c : Cfg) (st : St) (b : Block) : Out NumExc St := visitWords c (reset st) b

/-- `is_drill_cycle_one_block_after_start` (FileSplitter.cpp:109-112). -/
def inCycle (st : St) : Bool := (decide (st.activeG = -1) && st.drill) || decide (st.activeG = 80)

/-- What distinguishes the four loops: a counter, the condition under which a
block stays in the current part, and the counter update (given whether the
block stayed and the index of the block). -/
structure Ctl (κ : Type) where
  keep : κ → St → Bool
  upd : κ → Bool → Nat → κ

/-- The common loop (FileSplitter.cpp:179-202, 212-231, 247-271, 287-311);
`rp` is the retraction plane block, if one is configured; `cur` is
`value.back()`. -/
def loop {κ : Type} (c : Cfg) (ctl : Ctl κ) (rp : Option Block) :
    κ → St → Nat → List Block → List Block → Out NumExc (List (List Block))
  | _, _, _, cur, [] => .ok [cur]
  | k, st, i, cur, b :: bs => do
    let st' ← scan c st b
    let kept := ctl.keep k st'
    if kept then
      loop c ctl rp (ctl.upd k true i) st' (i + 1) (cur ++ [b]) bs
    else do
      let rest ← loop c ctl rp (ctl.upd k false i) st' (i + 1) (rp.toList ++ [b]) bs
      pure ((cur ++ rp.toList) :: rest)

/-- The condition shared by block count, path and time splitting
(FileSplitter.cpp:185-186, 253-254, 293-294). -/
def keepCond (rapidOnly : Bool) (below : Bool) (st : St) : Bool :=
  below || inCycle st || (rapidOnly && decide (st.activeG ≠ 0))

/-- Loop control of `evaluate_block_numbers` (FileSplitter.cpp:185-201). -/
def countCtl (step : Int) (rapidOnly : Bool) : Ctl Int where
  keep k st := keepCond rapidOnly (decide (k < step)) st
  upd k kept _ := (if kept then k else 0) + 1

/-- Loop control of `evaluate_tool_change` (FileSplitter.cpp:218). -/
def toolCtl : Ctl Unit where
  keep _ st := !(st.toolChange && decide (1 < st.toolCnt))
  upd _ _ _ := ()

/-- Loop control of the path and time variants (FileSplitter.cpp:253-270,
293-310); `work` is the vector of work motions per block, which the callers
make as long as the data (AllAttributesParser.cpp:500-512). -/
def workCtl (limit : ℚ) (rapidOnly : Bool) (work : List ℚ) : Ctl ℚ where
  keep k st := keepCond rapidOnly (decide (k < limit)) st
  upd k kept i := (if kept then k else 0) + work.getD i 0

/-- Outcomes of a split: number conversion exceptions, or the splitter's own. -/
inductive Err where
  | num (e : NumExc)
  | badParameter
deriving DecidableEq, Repr

/-- Lift the exceptions of `stoi`. -/
def lift {α : Type} : Out NumExc α → Out Err α
  | .ok a => .ok a
  | .throw e => .throw (.num e)
  | .ub => .ub

/-- `evaluate_block_numbers` (FileSplitter.cpp:168-203). -/
def byCount (c : Cfg) (step : Int) (rapidOnly : Bool) (rp : Option Block) (prog : List Block) :
    Out Err (List (List Block)) :=
  if step ≤ 0 then .throw .badParameter
  else lift (loop c (countCtl step rapidOnly) rp 0 {} 0 [] prog)

/-- `evaluate_tool_change` (FileSplitter.cpp:205-232). -/
def byTool (c : Cfg) (rp : Option Block) (prog : List Block) : Out Err (List (List Block)) :=
  lift (loop c toolCtl rp () {} 0 [] prog)

/-- `evaluate` for path length and for time (FileSplitter.cpp:234-312). -/
def byWork (c : Cfg) (limit : Int) (rapidOnly : Bool) (work : List ℚ) (rp : Option Block) (prog : List Block) :
    Out Err (List (List Block)) :=
  if limit ≤ 0 then .throw .badParameter
  else lift (loop c (workCtl limit rapidOnly work) rp 0 {} 0 [] prog)

/-- `std::string::find(text) != npos`. -/
def contains (text line : Str) : Bool := decide (text <:+: line)

/-- The text split on lines (FileSplitter.cpp:134-155). -/
def textLoop (text : Str) (rp : Option Str) : List Str → List Str → List (List Str)
  | cur, [] => [cur]
  | cur, x :: xs =>
    if contains text x then (cur ++ rp.toList) :: textLoop text rp (rp.toList ++ [x]) xs
    else textLoop text rp (cur ++ [x]) xs

/-- `FileSplitter::evaluate(std::vector<std::string>&&)`. -/
def byText (text : Str) (rp : Option Str) (lines : List Str) : List (List Str) := textLoop text rp [] lines

end NC.Splitter
