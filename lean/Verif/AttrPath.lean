import Verif.PathCalc
import Verif.Verifiers
import Mathlib.Data.List.Lex
import Mathlib.Data.Char

/-!
# The simulation of a block (parser/fanuc/AttributesPathCalculator.{h,cpp})

`evaluate` is a function of the state that also returns the state left behind by
an exception, since the caller keeps using the calculator.  Numbers are as in
`PathCalc.lean`: words are read as exact decimals.

The `std::map`s are association lists in the order of their keys.
Simplification: the reference member of
`copy_on_return` bound to the temporary `EProgrammingType::Absolute` (lines
1346-1353), which is dangling when the destructor reads it, is read as `Absolute`.
-/

namespace NC.AttrPath
open NC NC.Path NC.Ver

/-- `std::map<std::string, V>`. -/
abbrev VMap (V : Type) := List (Str × V)

namespace VMap
variable {V : Type}

/-- `find`. -/
def get (m : VMap V) (k : Str) : Option V := (m.find? (fun e => e.1 == k)).map (·.2)

/-- `m[k] = v`. -/
def put : VMap V → Str → V → VMap V
  | [], k, v => [(k, v)]
  | e :: t, k, v =>
    if k < e.1 then (k, v) :: e :: t
    else if e.1 = k then (k, v) :: t
    else e :: put t k v

end VMap

/-- `EMachineToolType`, as far as it is distinguished here (parser/GeneralParserDefines.h). -/
inductive MType where
  | lathe | millturn | other
deriving DecidableEq, Repr

/-- `EWorkPlane` (GeneralParserDefines.h:156-161). -/
inductive Plane where
  | xy | xz | yz
deriving DecidableEq, Repr

/-- `EHelixType` (AttributesPathCalculator.h:26-31). -/
inductive Helix where
  | none | full | quarter
deriving DecidableEq, Repr

/-- The constant members: machine type, points, kinematics and default values
(AttributesPathCalculator.h:75-79; GeneralParserDefines.h:110-138, 240-260).  `depthless` is
`machine_tool == lathe_zx || machine_tool == lathe_zxc`. -/
structure Cfg (K : Type) where
  mtype : MType
  depthless : Bool
  base : VMap K
  exchange : VMap K
  axes : List Str
  maxFast : K
  exchangeTime : K
  palletTime : K
  measureTime : K
  diameter2x : Bool
  autoMeasure : Bool
  palletWord : Str
  palletValue : Str
  measureWord : Str
  measureValue : Str
  motion : Int
  plane : Plane
  incr : Bool
  perRev : Bool
  depth : Depth
  ret : Ret
  rotation : K
  cancel0 : Bool
  cancel1 : Bool
  cancel2 : Bool
  cancel3 : Bool
  cancelRapid : Bool
  operatorRotation : Bool
  toolExchanges : Bool
  autoRapid : Bool

/-- A value of `word_range_map`: minimum, current, maximum. -/
structure Rng (K : Type) where
  lo : K
  cur : K
  hi : K
deriving DecidableEq, Repr

/-- `PathResult` (GeneralParserDefines.h:262-271). -/
structure PathRes (K : Type) where
  total : Fl K
  work : Fl K
  fast : Fl K
  toolTotal : Fl K
  toolId : Str
  cycle : Fl K × Fl K
  holes : Nat
deriving DecidableEq, Repr

/-- `TimeResult` (GeneralParserDefines.h:273-280). -/
structure TimeRes (K : Type) where
  total : Fl K
  work : Fl K
  fast : Fl K
  toolTotal : Fl K
  toolId : Str
deriving DecidableEq, Repr

/-- The mutable members (AttributesPathCalculator.h:80-99).  `css` is `active_g9697 == G96`
(initially 0, which is treated like G97), `incr` is `active_g9091 == Incremental`, `perRev` is
`active_feed_mode == PerRevolution`. -/
structure St (K : Type) where
  path : PathRes K
  time : TimeRes K
  prev : VMap K
  tPath : VMap (Fl K)
  tTime : VMap (Fl K)
  range : VMap (Rng K)
  f : K
  s : K
  g : Int
  plane : Plane
  ret : Ret
  incr : Bool
  css : Bool
  perRev : Bool
  helix : Helix
  tool : Str
  autoRapid : Bool
deriving DecidableEq, Repr

section
variable {K : Type} [Field K] [LinearOrder K]

/-! ## The visitor -/

/-- `is_drill_cycle` (AttributesPathCalculator.cpp:19-21, 26-30). -/
def isDrill (g : Int) : Bool := g ∈ ([74, 81, 82, 84, 85, 86, 88, 89] : List Int)

/-- `is_drill_cycle_qparam` (AttributesPathCalculator.cpp:23-24, 32-36). -/
def isDrillQ (g : Int) : Bool := g ∈ ([73, 76, 83, 87] : List Int)

/-- What the visitor collects (AttributesPathCalculator.cpp:273-290). -/
structure Vis (K : Type) where
  vals : VMap K := []
  f : Option K := none
  s : Option K := none
  g : Option Int := none
  plane : Option Plane := none
  ret : Option Ret := none
  incr : Option Bool := none
  css : Option Bool := none
  perRev : Option Bool := none
  otherG : List Str := []
  tools : List Str := []
  m6 : Bool := false
  skip : Bool := false
  pallet : Bool := false
  measure : Bool := false

/-- Text of an optional character. -/
def chrText : Option Char → Str
  | none => []
  | some c => [c]

/-- Text of an optional string. -/
def strText : Option Str → Str
  | none => []
  | some s => s

/-- `std::stod`, its exceptions among those of the calculator. -/
def stodE (s : Str) : Out Exc ℚ :=
  match stod s with
  | .ok q => .ok q
  | .throw e => .throw (.num e)
  | .ub => .ub

/-- The words with a value (AttributesPathCalculator.h:85 and cpp:435-436). -/
def gcodeParams (c : Cfg K) : List Str :=
  [c!"X", c!"Y", c!"Z", c!"I", c!"J", c!"K", c!"R", c!"Q", c!"L", c!"P", c!"U"] ++ c.axes

/-- The text of a value word (AttributesPathCalculator.cpp:74-84). -/
def valText (d : Dec) : Str := chrText d.sign ++ strText d.value ++ chrText d.dot ++ strText d.value2

/-- The text of a feed or spindle word: the sign is not read (AttributesPathCalculator.cpp:104-112, 119-127). -/
def feedText (d : Dec) : Str :=
  strText d.value ++ (if d.dot.isSome then chrText d.dot ++ strText d.value2 else [])

/-- A P word without decimal point is in milliseconds (AttributesPathCalculator.cpp:85-87). -/
def scaleP (d : Dec) (x : K) : K := if d.word = c!"P" ∧ d.dot = none then x / 1000 else x

/-- The tool number of a T word (AttributesPathCalculator.cpp:95-97). -/
def toolNumber (c : Cfg K) (v : Str) : Str :=
  if c.mtype = .lathe ∧ 2 < v.length then v.take (v.length / 2) else v

/-- The text kept for a G code of no category (AttributesPathCalculator.cpp:171-174). -/
def otherText (v : Str) (d : Dec) : Str :=
  match d.dot, d.value2 with
  | some p, some v2 => v ++ p :: v2
  | _, _ => v

/-- What a G code sets. -/
inductive GKind where
  | plane (p : Plane)
  | motion (n : Int)
  | perRev (b : Bool)
  | css (b : Bool)
  | ret (r : Ret)
  | incr (b : Bool)
  | other
deriving DecidableEq, Repr

/-- G codes that are neither planes nor motions (AttributesPathCalculator.cpp:157-169). -/
def modeKind (n : Int) : GKind :=
  if n = 94 then .perRev false
  else if n = 95 then .perRev true
  else if n = 96 then .css true
  else if n = 97 then .css false
  else if n = 98 then .ret .g98
  else if n = 99 then .ret .g99
  else if n = 90 then .incr false
  else if n = 91 then .incr true
  else .other

/-- The kind of a G code with integer part `n` (AttributesPathCalculator.cpp:152-169). -/
def gKind (n : Int) : GKind :=
  if n = 17 then .plane .xy
  else if n = 18 then .plane .xz
  else if n = 19 then .plane .yz
  else if (0 ≤ n ∧ n ≤ 3) ∨ n = 80 ∨ isDrill n ∨ isDrillQ n then .motion n
  else modeKind n

/-- What a word tells the visitor. -/
inductive Act (K : Type) where
  | nothing
  | val (w : Str) (x : K)
  | tool (t : Str)
  | feed (x : K)
  | spindle (x : K)
  | aux (m6 pallet measure : Bool)
  | code (k : GKind) (text : Str)

/-- The code of pallet exchange (AttributesPathCalculator.cpp:138, 181). -/
def isPallet (c : Cfg K) (w v : Str) : Bool := decide (w = c.palletWord) && decide (v = c.palletValue)

/-- The code of tool measurement (AttributesPathCalculator.cpp:140-145, 183-187). -/
def isMeasure (c : Cfg K) (w v : Str) : Bool :=
  !c.autoMeasure && (decide (w = c.measureWord) && decide (v = c.measureValue))

/-- A value word (AttributesPathCalculator.cpp:70-88). -/
def readVal (d : Dec) : Out Exc (Act K) :=
  if d.value = none ∧ d.dot = none then .ok .nothing
  else
    match stodE (valText d) with
    | .ok q => .ok (.val d.word (scaleP d (q : K)))
    | .throw e => .throw e
    | .ub => .ub

/-- A T word (AttributesPathCalculator.cpp:89-99). -/
def readTool (c : Cfg K) (d : Dec) : Out Exc (Act K) :=
  match d.value with
  | none => .ok .nothing
  | some v => if d.dot.isSome ∨ d.value2.isSome then .ok .nothing else .ok (.tool (toolNumber c v))

/-- An F or S word (AttributesPathCalculator.cpp:100-129). -/
def readFeed (f : K → Act K) (d : Dec) : Out Exc (Act K) :=
  if d.value = none ∧ d.dot = none then .ok .nothing
  else
    match stodE (feedText d) with
    | .ok q => .ok (f (q : K))
    | .throw e => .throw e
    | .ub => .ub

/-- An M word (AttributesPathCalculator.cpp:130-146). -/
def readAux (c : Cfg K) (d : Dec) : Out Exc (Act K) :=
  match d.value with
  | none => .ok .nothing
  | some v =>
    if d.dot.isSome ∨ d.value2.isSome then .ok .nothing
    else
      match stoiE v with
      | .ok n => .ok (.aux (decide (n = 6)) (isPallet c d.word v) (isMeasure c d.word v))
      | .throw e => .throw e
      | .ub => .ub

/-- A G word (AttributesPathCalculator.cpp:147-176). -/
def readCode (d : Dec) : Out Exc (Act K) :=
  match d.value with
  | none => .ok .nothing
  | some v =>
    match stoiE v with
    | .ok n => .ok (.code (gKind n) (otherText v d))
    | .throw e => .throw e
    | .ub => .ub

/-- A word that is not skipped (AttributesPathCalculator.cpp:60-176). -/
def readWord (c : Cfg K) (d : Dec) : Out Exc (Act K) :=
  if d.word ∈ gcodeParams c then readVal d
  else if d.word = c!"T" then readTool c d
  else if d.word = c!"F" then readFeed .feed d
  else if d.word = c!"S" then readFeed .spindle d
  else if d.word = c!"M" then readAux c d
  else if d.word = c!"G" then readCode d
  else .ok .nothing

omit [Field K] [LinearOrder K] in
/-- What a G code changes (AttributesPathCalculator.cpp:152-175). -/
def setCode (r : Vis K) (text : Str) : GKind → Vis K
  | .plane p => { r with plane := some p }
  | .motion n => { r with g := some n }
  | .perRev b => { r with perRev := some b }
  | .css b => { r with css := some b }
  | .ret x => { r with ret := some x }
  | .incr b => { r with incr := some b }
  | .other => { r with otherG := r.otherG ++ [text] }

omit [Field K] [LinearOrder K] in
/-- The members a word changes. -/
def Act.on (r : Vis K) : Act K → Vis K
  | .nothing => r
  | .val w x => { r with vals := r.vals.put w x }
  | .tool t => { r with tools := r.tools ++ [t] }
  | .feed x => { r with f := some x }
  | .spindle x => { r with s := some x }
  | .aux a p m => { r with m6 := r.m6 || a, pallet := r.pallet || p, measure := r.measure || m }
  | .code k t => setCode r t k

/-- The visitor on one attribute (AttributesPathCalculator.cpp:49-193). -/
def visit (c : Cfg K) (r : Vis K) : Attr → Out Exc (Vis K)
  | .dec d =>
    if d.word = c!"/" then .ok { r with skip := true }
    else if r.skip then .ok r
    else
      match readWord c d with
      | .ok a => .ok (Act.on r a)
      | .throw e => .throw e
      | .ub => .ub
  | .str w v => .ok (Act.on r (.aux false (isPallet c w v) (isMeasure c w v)))
  | .chr _ _ => .ok r

/-- The visitor applied to a block (AttributesPathCalculator.cpp:479-481). -/
def visitAll (c : Cfg K) : Vis K → Block → Out Exc (Vis K)
  | r, [] => .ok r
  | r, a :: t =>
    match visit c r a with
    | .ok r' => visitAll c r' t
    | .throw e => .throw e
    | .ub => .ub

omit [Field K] [LinearOrder K] in
/-- `get_t` (AttributesPathCalculator.cpp:250-261). -/
def toolOf (v : Vis K) : Option Str := if v.m6 then v.tools.head? else v.tools.getLast?

/-! ## Saving positions -/

/-- `get_ignore_g_codes` (AttributesPathCalculator.cpp:296-311). -/
def ignored : List (Str × List Str) :=
  let three := [c!"10", c!"50.1", c!"51.1", c!"52", c!"53", c!"68", c!"68.2", c!"68.3", c!"68.4", c!"92"]
  [(c!"X", c!"4" :: three), (c!"Y", three), (c!"Z", three),
   (c!"I", [c!"68.2", c!"68.4"]), (c!"J", [c!"68.2", c!"68.4"]), (c!"K", [c!"68.2", c!"68.4"]),
   (c!"R", [c!"5", c!"5.1", c!"6.2", c!"10", c!"68", c!"68.3"]),
   (c!"U", [c!"71", c!"72"]), (c!"W", [c!"71", c!"72"])]

/-- The word is not saved (AttributesPathCalculator.cpp:331-347). -/
def skipped (g : Int) (og : List Str) (w : Str) : Bool :=
  (decide (w = c!"Z") && (isDrill g || isDrillQ g)) || decide (w = c!"Q") || decide (w = c!"L") ||
    (match (ignored.find? (fun e => e.1 == w)) with
      | some e => e.2.any (fun x => og.any (fun y => y == x))
      | none => false)

/-- A range after another value (AttributesPathCalculator.cpp:353-358, 372-377). -/
def widen (r : Rng K) (x : K) : Rng K :=
  if x < r.lo then ⟨x, x, r.hi⟩ else if r.hi < x then ⟨r.lo, x, x⟩ else ⟨r.lo, x, r.hi⟩

/-- The axes that move incrementally (AttributesPathCalculator.cpp:349). -/
def movesIncr (incr : Bool) (w : Str) : Bool :=
  incr && (decide (w = c!"X") || decide (w = c!"Y") || decide (w = c!"Z"))

/-- One turn of the loop of `~copy_on_return` (AttributesPathCalculator.cpp:349-383). -/
def copyOne (incr : Bool) (w : Str) (x : K) (p : VMap K × VMap (Rng K)) : VMap K × VMap (Rng K) :=
  if movesIncr incr w then
    match p.2.get w with
    | some r => (p.1.put w (r.cur + x), p.2.put w (widen r (r.cur + x)))
    | none => (p.1.put w x, p.2.put w ⟨x, x, x⟩)
  else
    match p.2.get w with
    | some r => (p.1.put w x, p.2.put w (widen r x))
    | none => (p.1.put w x, p.2.put w ⟨x, x, x⟩)

/-- `~copy_on_return` (AttributesPathCalculator.cpp:327-385). -/
def copyBack (g : Int) (incr : Bool) (og : List Str) : VMap K → VMap K × VMap (Rng K) → VMap K × VMap (Rng K)
  | [], p => p
  | e :: t, p => copyBack g incr og t (if skipped g og e.1 then p else copyOne incr e.1 e.2 p)

/-- `copy_on_return` over the members. -/
def copySt (incr : Bool) (og : List Str) (v : VMap K) (s : St K) : St K :=
  let p := copyBack s.g incr og v (s.prev, s.range)
  { s with prev := p.1, range := p.2 }

/-! ## Construction and reset -/

omit [LinearOrder K] in
/-- `active_s` without program (AttributesPathCalculator.cpp:427, 449). -/
def startS (c : Cfg K) : K := if c.operatorRotation then c.rotation else -1

omit [LinearOrder K] in
/-- `PathResult{}`. -/
def PathRes.empty : PathRes K := ⟨some 0, some 0, some 0, some 0, [], (some 0, some 0), 0⟩

omit [LinearOrder K] in
/-- `TimeResult{}`. -/
def TimeRes.empty : TimeRes K := ⟨some 0, some 0, some 0, some 0, []⟩

/-- The constructor (AttributesPathCalculator.cpp:417-437). -/
def initial (c : Cfg K) : St K :=
  copySt c.incr [] c.base
    { path := .empty, time := .empty, prev := [], tPath := [], tTime := [], range := [],
      f := -1, s := startS c, g := c.motion, plane := c.plane, ret := c.ret, incr := c.incr,
      css := false, perRev := c.perRev, helix := .none, tool := [], autoRapid := false }

/-- `reset` (AttributesPathCalculator.cpp:439-458). -/
def reset (c : Cfg K) (s : St K) : St K :=
  copySt c.incr [] c.base
    { s with path := .empty, time := .empty, range := [], tPath := [], tTime := [], prev := [],
             f := -1, s := startS c, g := c.motion, plane := c.plane, ret := c.ret, incr := c.incr,
             css := false, perRev := c.perRev, helix := .none, tool := [] }

/-! ## Evaluation -/

/-- What a part of `evaluate` does: it goes on (`ok true`), returns (`ok false`) or throws. -/
abbrev Part (σ : Type) := σ × Out Exc Bool

/-- Go on with the rest. -/
def Part.andThen {σ : Type} (p : Part σ) (k : σ → Part σ) : Part σ :=
  match p.2 with
  | .ok true => k p.1
  | _ => p

/-- `make_message` for an exception of the calculator. -/
def err (n : Message.Name) (args : List Str) : Exc := .msg .path n args

omit [LinearOrder K] in
/-- Add a finite number to a total. -/
def bump (t : Fl K) (x : K) : Fl K := addF t (some x)

omit [LinearOrder K] in
/-- The block's motions are cleared (AttributesPathCalculator.cpp:471-474). -/
def clearMotions (s : St K) : St K :=
  { s with path := { s.path with work := some 0, fast := some 0 },
           time := { s.time with work := some 0, fast := some 0 } }

omit [LinearOrder K] in
/-- Add to the total time. -/
def addTime (x : K) (s : St K) : St K := { s with time := { s.time with total := bump s.time.total x } }

omit [LinearOrder K] in
/-- The time of a tool exchange (AttributesPathCalculator.cpp:504-506, 538-540). -/
def exchangeTimes (c : Cfg K) (s : St K) : St K :=
  let s := addTime c.exchangeTime s
  if c.autoMeasure then addTime c.measureTime s else s

omit [LinearOrder K] in
/-- The times of M6, tool measurement and pallet exchange (AttributesPathCalculator.cpp:501-511). -/
def mTimes (c : Cfg K) (v : Vis K) (s : St K) : St K :=
  let s := if ¬ c.toolExchanges ∧ v.m6 then exchangeTimes c s else s
  let s := if ¬ c.autoMeasure ∧ v.measure then addTime c.measureTime s else s
  if v.pallet then addTime c.palletTime s else s

omit [Field K] [LinearOrder K] in
/-- `move_to_tool_exchange_point` (AttributesPathCalculator.cpp:503, 537). -/
def atTool (c : Cfg K) (v : Vis K) : Bool :=
  (!c.toolExchanges && v.m6) || (c.toolExchanges && (toolOf v).isSome)

omit [Field K] [LinearOrder K] in
/-- `move_to_machine_base_point` (AttributesPathCalculator.cpp:587-589). -/
def atBase (v : Vis K) : Bool := decide (c!"28" ∈ v.otherG)

/-- The system variables of the tool number (AttributesPathCalculator.cpp:529-530). -/
def toolMacros (m : MacroMap ℚ) (line : Int) (q : ℚ) : MacroMap ℚ :=
  ((m.assign ⟨4120, line⟩ q).assign ⟨4320, line⟩ q).assign ⟨4520, line⟩ q

/-- The number of the G code reported together with T (AttributesPathCalculator.cpp:557-567). -/
def planeNum : Plane → Int
  | .xy => 17
  | .xz => 18
  | .yz => 19

/-- The number of a return mode. -/
def retNum : Ret → Int
  | .g98 => 98
  | .g99 => 99

omit [Field K] [LinearOrder K] in
/-- The offending G code (AttributesPathCalculator.cpp:553-565). -/
def tWithG (v : Vis K) : Option Int :=
  v.g <|> v.plane.map planeNum <|> v.ret.map retNum <|> v.incr.map (fun b => if b then 91 else 90)

omit [LinearOrder K] in
/-- The totals of the tool are put away (AttributesPathCalculator.cpp:515-522). -/
def storeTool (c : Cfg K) (s : St K) : St K :=
  { s with autoRapid := c.autoRapid || s.autoRapid,
           tPath := if s.tool ≠ [] then s.tPath.put s.tool s.path.toolTotal else s.tPath,
           tTime := if s.tool ≠ [] then s.tTime.put s.tool s.time.toolTotal else s.tTime }

omit [LinearOrder K] in
/-- The totals of the tool are fetched (AttributesPathCalculator.cpp:533, 535-549). -/
def fetchTool (c : Cfg K) (s : St K) : St K :=
  let s := { s with path := { s.path with toolId := s.tool }, time := { s.time with toolId := s.tool } }
  let s := if c.toolExchanges then exchangeTimes c s else s
  { s with path := { s.path with toolTotal := (s.tPath.get s.tool).getD (some 0) },
           time := { s.time with toolTotal := (s.tTime.get s.tool).getD (some 0) } }

/-- Without a tool exchange nothing else happens (AttributesPathCalculator.cpp:551-572). -/
def tAlone (c : Cfg K) (v : Vis K) (s : St K) : Part (St K) :=
  if atTool c v then (s, .ok true)
  else
    match tWithG v with
    | some n => (s, .throw (err .TNotWithG [intStr n]))
    | none => (copySt s.incr v.otherG v.vals s, .ok false)

/-- The T word (AttributesPathCalculator.cpp:513-573). -/
def toolPart (c : Cfg K) (line : Int) (v : Vis K) (p : St K × MacroMap ℚ) : Part (St K × MacroMap ℚ) :=
  match toolOf v with
  | none => (p, .ok true)
  | some t =>
    if c.toolExchanges ∨ v.m6 then
      match stodE t with
      | .ok q =>
        let r := tAlone c v (fetchTool c { storeTool c p.1 with tool := t })
        ((r.1, toolMacros p.2 line q), r.2)
      | .throw e => (({ storeTool c p.1 with tool := t }, p.2), .throw e)
      | .ub => (({ storeTool c p.1 with tool := t }, p.2), .ub)
    else
      let r := tAlone c v (fetchTool c (storeTool c p.1))
      ((r.1, p.2), r.2)

omit [LinearOrder K] in
/-- The seconds of a word of a dwell. -/
def dwellWord (v : Vis K) (w : Str) (s : St K) : St K :=
  match v.vals.get w with
  | some x => addTime x s
  | none => s

omit [LinearOrder K] in
/-- G4 (AttributesPathCalculator.cpp:576-585). -/
def dwell (v : Vis K) (s : St K) : St K :=
  if c!"04" ∈ v.otherG ∨ c!"4" ∈ v.otherG then
    dwellWord v c!"P" (dwellWord v c!"U" (dwellWord v c!"X" s))
  else s

/-- The modal values without motion (AttributesPathCalculator.cpp:603-614). -/
def beforeMotion (v : Vis K) (s : St K) : St K :=
  let s := { s with plane := v.plane.getD s.plane, incr := v.incr.getD s.incr, css := v.css.getD s.css,
                    ret := v.ret.getD s.ret }
  copySt s.incr v.otherG v.vals s

/-- Motion after a tool exchange or a return to the base point, and blocks before any motion
(AttributesPathCalculator.cpp:591-633). -/
def startPart (c : Cfg K) (v : Vis K) (s : St K) : Part (St K) :=
  let s := if atTool c v || atBase v then { s with g := 0 } else s
  if s.autoRapid ∧ v.vals ≠ [] then ({ s with autoRapid := false, g := 0 }, .ok true)
  else if (!atTool c v && !atBase v) ∧ s.g = -1 ∧ v.g = none then (beforeMotion v s, .ok false)
  else (s, .ok true)

/-- The values in force in the block (AttributesPathCalculator.cpp:635-643). -/
structure Cur (K : Type) where
  g : Int
  f : K
  s : K
  plane : Plane
  incr : Bool
  css : Bool
  ret : Ret
  perRev : Bool

omit [Field K] [LinearOrder K] in
/-- (AttributesPathCalculator.cpp:635-643) -/
def current (v : Vis K) (s : St K) : Cur K :=
  ⟨v.g.getD s.g, v.f.getD s.f, v.s.getD s.s, v.plane.getD s.plane, v.incr.getD s.incr, v.css.getD s.css,
   v.ret.getD s.ret, v.perRev.getD s.perRev⟩

omit [Field K] [LinearOrder K] in
/-- `lathe_programming` (AttributesPathCalculator.cpp:645-647). -/
def latheProg (c : Cfg K) (p : Plane) : Bool := decide (c.mtype = .lathe) || (decide (c.mtype = .millturn) && decide (p = .xz))

omit [LinearOrder K] in
/-- Halved for a lathe without diameter programming (AttributesPathCalculator.cpp:648). -/
def halve (c : Cfg K) (p : Plane) (x : K) : K := if latheProg c p ∧ ¬ c.diameter2x then x / 2 else x

omit [LinearOrder K] in
/-- The cycle is cancelled. -/
def cancelCycle (s : St K) : St K := { s with path := { s.path with cycle := (some 0, some 0), holes := 0 } }

omit [Field K] [LinearOrder K] in
/-- The length of the block's motion (AttributesPathCalculator.cpp:704-709, 731-734). -/
def setMotion (g : Int) (x : Fl K) (s : St K) : St K :=
  if g = 0 then { s with path := { s.path with fast := x } } else { s with path := { s.path with work := x } }

/-! ### G0, G1 -/

omit [Field K] [LinearOrder K] in
/-- The end point on an axis (AttributesPathCalculator.cpp:676-700).  With both a tool exchange and a
return to the base point an iterator of one map is compared with the end of the other. -/
def target (c : Cfg K) (v : Vis K) (axis : Str) (prev : K) : Out Exc K :=
  if atTool c v then
    match c.exchange.get axis with
    | some x => .ok x
    | none => if atBase v then .ub else .ok prev
  else if atBase v then .ok ((c.base.get axis).getD prev)
  else .ok ((v.vals.get axis).getD prev)

/-- G0 and G1 to a point (AttributesPathCalculator.cpp:667-711). -/
def linearAbs (F : Fns K) (c : Cfg K) (v : Vis K) (cur : Cur K) (s : St K) : Part (St K) :=
  match s.prev.get c!"X", s.prev.get c!"Y", s.prev.get c!"Z" with
  | none, _, _ => (s, .throw (err .MissingPreviousValue [c!"X"]))
  | some _, none, _ => (s, .throw (err .MissingPreviousValue [c!"Y"]))
  | some _, some _, none => (s, .throw (err .MissingPreviousValue [c!"Z"]))
  | some xp, some yp, some zp =>
    match target c v c!"X" xp, target c v c!"Y" yp, target c v c!"Z" zp with
    | .ok x, .ok y, .ok z =>
      (setMotion cur.g (some (dist3 F (halve c cur.plane xp) yp zp (halve c cur.plane x) y z)) s, .ok true)
    | _, _, _ => (s, .ub)

omit [Field K] [LinearOrder K] in
/-- A value is programmed or known. -/
def known (v : Vis K) (s : St K) (w : Str) : Bool := (v.vals.get w).isSome || (s.prev.get w).isSome

/-- G0 and G1 by a distance (AttributesPathCalculator.cpp:713-735). -/
def linearIncr (F : Fns K) (c : Cfg K) (v : Vis K) (cur : Cur K) (s : St K) : Part (St K) :=
  if known v s c!"X" = false then (s, .throw (err .MissingValue [c!"X"]))
  else if known v s c!"Y" = false then (s, .throw (err .MissingValue [c!"Y"]))
  else if known v s c!"Z" = false then (s, .throw (err .MissingValue [c!"Z"]))
  else
    (setMotion cur.g (some (len3 F (halve c cur.plane ((v.vals.get c!"X").getD 0)) ((v.vals.get c!"Y").getD 0)
      ((v.vals.get c!"Z").getD 0))) s, .ok true)

omit [LinearOrder K] in
/-- Motions that cancel a cycle (AttributesPathCalculator.cpp:656-661, 743-748). -/
def cancelBy (c : Cfg K) (g : Int) (s : St K) : St K :=
  if (g = 0 ∧ c.cancel0) ∨ (g = 1 ∧ c.cancel1) ∨ (g = 2 ∧ c.cancel2) ∨ (g = 3 ∧ c.cancel3) then cancelCycle s else s

/-- (AttributesPathCalculator.cpp:650-736) -/
def linear (F : Fns K) (c : Cfg K) (v : Vis K) (cur : Cur K) (s : St K) : Part (St K) :=
  if cur.incr = false ∨ atTool c v ∨ atBase v then linearAbs F c v cur (cancelBy c cur.g s)
  else linearIncr F c v cur (cancelBy c cur.g s)

/-! ### G2, G3 -/

/-- The axes and centre words of a plane (AttributesPathCalculator.cpp:785-791, 819-825, 853-859). -/
structure Axes where
  a1 : Str
  a2 : Str
  a3 : Str
  p1 : Str
  p2 : Str
  p3 : Str

/-- (AttributesPathCalculator.cpp:785-886); the functions chosen there all delegate to those of G17. -/
def axesOf : Plane → Axes
  | .xy => ⟨c!"X", c!"Y", c!"Z", c!"I", c!"J", c!"K"⟩
  | .xz => ⟨c!"X", c!"Z", c!"Y", c!"I", c!"K", c!"J"⟩
  | .yz => ⟨c!"Y", c!"Z", c!"X", c!"J", c!"K", c!"I"⟩

/-- The words of a circular move; `i j k r` change on the way (AttributesPathCalculator.cpp:888-905). -/
structure CW (K : Type) where
  xp : K
  yp : K
  zp : Option K
  i : Option K
  j : Option K
  k : Option K
  r : Option K
  q : Option K
  l : Option K
  x : Option K
  y : Option K
  z : Option K

/-- The part of the state and words that circular moves work on. -/
abbrev CPart (K : Type) := (St K × CW K) × Out Exc Bool

omit [Field K] [LinearOrder K] in
/-- Set the work motion. -/
def setWork (x : Fl K) (s : St K) : St K := { s with path := { s.path with work := x } }

/-- Q or L: a spiral (AttributesPathCalculator.cpp:910-928). -/
def spiral (F : Fns K) (ax : Axes) (s : St K) (w : CW K) : CPart K :=
  let w := { w with i := w.i <|> s.prev.get ax.p1, j := w.j <|> s.prev.get ax.p2 }
  match w.i, w.j with
  | none, _ => ((s, w), .throw (err .MissingValue [ax.p1]))
  | some _, none => ((s, w), .throw (err .MissingValue [ax.p2]))
  | some i, some j =>
    match w.q, w.l with
    | some q, _ => ((setWork (archimedesQ F i j q) s, w), .ok false)
    | none, some l => ((setWork (archimedesL F i j l) s, w), .ok false)
    | none, none => ((s, w), .ok false)

/-- The first block of a helix (AttributesPathCalculator.cpp:929-942); the flag says that a quarter
begins. -/
def helixStart (ax : Axes) (s : St K) (w : CW K) : CPart K × Bool :=
  match w.x, w.y, w.z with
  | some x, some y, some _ =>
    if s.helix = .none ∧ ((w.i.isSome ∧ w.j.isSome ∧ w.k.isSome) ∨ w.r.isSome) then
      if w.zp = none then (((s, w), .throw (err .MissingPreviousValue [ax.a3])), false)
      else if (x = w.xp ∧ y = w.yp) ∨ (x = 0 ∧ y = 0) then ((({ s with helix := .full }, w), .ok true), false)
      else ((({ s with helix := .quarter }, w), .ok true), true)
    else (((s, w), .ok true), false)
  | _, _, _ => (((s, w), .ok true), false)

/-- A turn or quarter by centre or radius (e.g. AttributesPathCalculator.cpp:978-981, 997-1000). -/
def turn (F : Fns K) (quarter : Bool) (dz : K) (w : CW K) : Out Exc K :=
  match w.i, w.j, w.r with
  | some i, some j, _ => .ok (if quarter then helixQuarter F dz i j else helix F dz i j)
  | _, _, some r => .ok (if quarter then helixQuarterR F dz r else helixR F dz r)
  | _, _, none => .ub

/-- The work motion is a turn, or undefined if `*z` is empty. -/
def setTurn (F : Fns K) (quarter last : Bool) (dz : Option K) (s : St K) (w : CW K) : CPart K :=
  match dz with
  | none => ((s, w), .ub)
  | some dz =>
    match turn F quarter dz w with
    | .ok t => ((setWork (some (if last then helixLast t else t)) s, w), .ok false)
    | .throw e => ((s, w), .throw e)
    | .ub => ((s, w), .ub)

omit [Field K] [LinearOrder K] in
/-- The helix ends. -/
def endHelix (p : CPart K) : CPart K :=
  match p.2 with
  | .ok b => (({ p.1.1 with helix := .none }, p.1.2), .ok b)
  | _ => p

/-- Incremental helix (AttributesPathCalculator.cpp:972-1008). -/
def helixIncr (F : Fns K) (first : Bool) (s : St K) (w : CW K) : CPart K :=
  match s.helix with
  | .full =>
    if (w.x = none ∨ w.x = some 0) ∧ (w.y = none ∨ w.y = some 0) then setTurn F false false w.z s w
    else endHelix (setTurn F false true w.z s w)
  | .quarter =>
    if first ∨ (w.x.isSome ∧ w.i.isSome ∧ w.j.isSome) then setTurn F true false w.z s w
    else (({ s with helix := .none }, w), .ok true)
  | .none => ((s, w), .ok false)

omit [LinearOrder K] in
/-- `*z_prev - *z`, if both are there. -/
def dzOf (w : CW K) : Option K :=
  match w.zp, w.z with
  | some zp, some z => some (zp - z)
  | _, _ => none

/-- Absolute helix (AttributesPathCalculator.cpp:1010-1047). -/
def helixAbs (F : Fns K) (s : St K) (w : CW K) : CPart K :=
  match s.helix with
  | .full =>
    if w.xp = w.x.getD w.xp ∧ w.yp = w.y.getD w.yp then setTurn F false false (dzOf w) s w
    else endHelix (setTurn F false true (dzOf w) s w)
  | .quarter =>
    if w.z = none ∧ w.zp = none then ((s, w), .ub)
    else if w.xp ≠ w.x.getD w.xp ∧ w.yp ≠ w.y.getD w.yp then
      match w.zp with
      | none => ((s, w), .ub)
      | some zp =>
        if zp ≠ w.z.getD zp then setTurn F true false (dzOf w) s w
        else (({ s with helix := .none }, w), .ok true)
    else (({ s with helix := .none }, w), .ok true)
  | .none => ((s, w), .ok false)

/-- A block of a helix (AttributesPathCalculator.cpp:944-1048); `ok true` means that the arc is to be
computed. -/
def helixRun (F : Fns K) (ax : Axes) (incr first : Bool) (s : St K) (w : CW K) : CPart K :=
  let ip := s.prev.get ax.p1
  let jp := s.prev.get ax.p2
  let kp := s.prev.get ax.p3
  let rp := s.prev.get c!"R"
  if (w.r = none ∧ rp = none) ∧ ((w.i = none ∧ ip = none) ∨ (w.j = none ∧ jp = none)) then
    ((s, w), .throw (err .ValueNotSetForEitherEither [ax.p1, ax.p2, ax.p3]))
  else
    let w := { w with i := w.i <|> ip, j := w.j <|> jp, k := w.k <|> kp, r := w.r <|> rp }
    if w.r = none ∧ (w.i = none ∨ w.j = none ∨ w.k = none) then
      ((s, w), .throw (err .ValueNotSetForEitherEither [ax.p1, ax.p2, ax.p3]))
    else if incr then helixIncr F first s w
    else helixAbs F s w

/-- The end point on an axis of the plane (AttributesPathCalculator.cpp:1066, 1074, 1084-1085). -/
def arcEnd (incr : Bool) (prev : K) : Option K → K
  | none => prev
  | some x => if incr then prev + x else x

/-- The arc (AttributesPathCalculator.cpp:1050-1099). -/
def arc (F : Fns K) (c : Cfg K) (cur : Cur K) (ax : Axes) (s : St K) (w : CW K) : Part (St K) :=
  let w := if w.r = none ∧ (w.i = none ∨ w.j = none) then
      { w with i := w.i <|> s.prev.get ax.p1, j := w.j <|> s.prev.get ax.p2 } else w
  let xp := halve c cur.plane w.xp
  let xc := halve c cur.plane (arcEnd cur.incr w.xp w.x)
  let yc := arcEnd cur.incr w.yp w.y
  match w.i, w.j, w.r with
  | some i, some j, _ => (setWork (some (arcIJ F xp w.yp xc yc (halve c cur.plane i) j cur.g.toNat)) s, .ok true)
  | _, _, some r => (setWork (some (arcR F xp w.yp xc yc r)) s, .ok true)
  | _, _, none => (s, .throw (err .ValueNotSetForEither [ax.p1, ax.p2]))

/-- The last step of a circular move: the arc, unless a helix or spiral has been computed. -/
def arcStep (F : Fns K) (c : Cfg K) (cur : Cur K) (ax : Axes) (p : CPart K) : Part (St K) :=
  match p.2 with
  | .ok true => if p.1.1.helix = .none then arc F c cur ax p.1.1 p.1.2 else (p.1.1, .ok true)
  | .ok false => (p.1.1, .ok true)
  | .throw e => (p.1.1, .throw e)
  | .ub => (p.1.1, .ub)

/-- Helix in progress, or none (AttributesPathCalculator.cpp:944). -/
def helixStep (F : Fns K) (ax : Axes) (incr first : Bool) (p : CPart K) : CPart K :=
  match p.2 with
  | .ok b => if p.1.1.helix = .none then (p.1, .ok b) else helixRun F ax incr first p.1.1 p.1.2
  | _ => p

/-- With the previous values of both axes (AttributesPathCalculator.cpp:897-1099). -/
def circularFrom (F : Fns K) (c : Cfg K) (v : Vis K) (cur : Cur K) (ax : Axes) (xp yp : K) (s : St K) : Part (St K) :=
  let g := fun w => v.vals.get w
  let w : CW K := ⟨xp, yp, s.prev.get ax.a3, g ax.p1, g ax.p2, g ax.p3, g c!"R", g c!"Q", g c!"L", g ax.a1, g ax.a2, g ax.a3⟩
  if w.q.isSome ∨ w.l.isSome then
    arcStep F c cur ax (helixStep F ax cur.incr false (spiral F ax s w))
  else
    let h := helixStart ax s w
    arcStep F c cur ax (helixStep F ax cur.incr h.2 h.1)

/-- (AttributesPathCalculator.cpp:738-1100) -/
def circular (F : Fns K) (c : Cfg K) (v : Vis K) (cur : Cur K) (s : St K) : Part (St K) :=
  if v.g = none ∧ v.vals = [] then (s, .ok false)
  else
    let ax := axesOf cur.plane
    match s.prev.get ax.a1, s.prev.get ax.a2 with
    | none, _ => (cancelBy c cur.g s, .throw (err .MissingPreviousValue [ax.a1]))
    | some _, none => (cancelBy c cur.g s, .throw (err .MissingPreviousValue [ax.a2]))
    | some xp, some yp => circularFrom F c v cur ax xp yp (cancelBy c cur.g s)

/-! ### Drilling -/

variable [FloorRing K]

/-- The distances of the cycle (AttributesPathCalculator.cpp:1194-1228).  The test for a missing Q
looks at R. -/
def cycleOf (F : Fns K) (c : Cfg K) (cur : Cur K) (zp zg r : K) (q : Option K) : Out Exc (Fl K × Fl K) :=
  if isDrill cur.g then
    let d := if cur.incr then drillIncr zg r cur.g cur.ret else drill zp zg r c.depth cur.g cur.ret
    .ok (some d.1, some d.2)
  else
    match q with
    | none => .ub
    | some q => if cur.incr then drillQIncr F zg r q cur.g cur.ret else drillQ zp zg r q c.depth cur.g cur.ret

/-- The cycle is computed for its first hole and for each K word (AttributesPathCalculator.cpp:1177-1229).
The depth axis is the third axis of the plane. -/
def cyclePart (F : Fns K) (c : Cfg K) (v : Vis K) (cur : Cur K) (s : St K) : Part (St K) :=
  let ax := axesOf cur.plane
  if s.path.holes ≠ 0 ∧ v.vals.get c!"K" = none then (s, .ok true)
  else
    match s.prev.get ax.a3 with
    | none => (s, .throw (err .MissingPreviousValue [ax.a3]))
    | some zp =>
      if v.vals.get ax.a3 = none ∧ c.depthless = false then (s, .throw (err .MissingValue [ax.a3 ++ c!"gleb"]))
      else
        match v.vals.get c!"R" with
        | none => (s, .throw (err .MissingValue [c!"R"]))
        | some r =>
          match cycleOf F c cur zp (if c.depthless then 0 else (v.vals.get ax.a3).getD 0) r (v.vals.get c!"Q") with
          | .ok d => ({ s with path := { s.path with cycle := d } }, .ok true)
          | .throw e => (s, .throw e)
          | .ub => (s, .ub)

omit [LinearOrder K] [FloorRing K] in
/-- The holes of a repetition (AttributesPathCalculator.cpp:1264-1270). -/
def addHoles (d : Fl K × Fl K) : Nat → Fl K × Fl K → Fl K × Fl K
  | 0, p => p
  | n + 1, p => addHoles d n (addF p.1 d.1, addF p.2 d.2)

omit [Field K] [LinearOrder K] [FloorRing K] in
/-- The next hole (AttributesPathCalculator.cpp:1280; `unsigned int`). -/
def countHole (d : Fl K × Fl K) (s : St K) : St K :=
  { s with path := { s.path with work := d.1, fast := d.2, holes := (s.path.holes + 1) % 4294967296 } }

/-- The number of holes of a K word (AttributesPathCalculator.cpp:1261-1263). -/
def holesOf : Option K → Out Exc Nat
  | none => .ok 1
  | some k => if 0 < k then (if fitsInt ⌊k⌋ then .ok ⌊k⌋.toNat else .ub) else .ok 1

/-- The motion to the hole and the cycle there (AttributesPathCalculator.cpp:1231-1280). -/
def holePart (F : Fns K) (v : Vis K) (cur : Cur K) (s : St K) : Part (St K) :=
  let ax := axesOf cur.plane
  match s.prev.get ax.a1, s.prev.get ax.a2 with
  | none, _ => (s, .throw (err .MissingPreviousValue [ax.a1]))
  | some _, none => (s, .throw (err .MissingPreviousValue [ax.a2]))
  | some xp, some yp =>
    let x := v.vals.get ax.a1
    let y := v.vals.get ax.a2
    let k := v.vals.get c!"K"
    let cyc := if k = some 0 then (some 0, some 0) else s.path.cycle
    if cur.incr = false then (countHole (hole F xp yp (x.getD xp) (y.getD yp) cyc) s, .ok true)
    else if k = some 0 then (countHole (holeIncr F (x.getD 0) (y.getD 0) cyc) s, .ok true)
    else
      match holesOf k with
      | .ok n =>
        (countHole (addHoles (holeIncr F (x.getD 0) (y.getD 0) cyc) n (s.path.work, s.path.fast)) s, .ok true)
      | .throw e => (s, .throw e)
      | .ub => (s, .ub)

/-- (AttributesPathCalculator.cpp:1108-1281) -/
def drilling (F : Fns K) (c : Cfg K) (v : Vis K) (cur : Cur K) (s : St K) : Part (St K) :=
  if v.g = none ∧ v.vals = [] then (s, .ok false)
  else (cyclePart F c v cur s).andThen (holePart F v cur)

/-! ### All motions, totals -/

/-- G80 (AttributesPathCalculator.cpp:1101-1107). -/
def gAfter (c : Cfg K) (g : Int) : Int := if g = 80 ∧ c.cancelRapid then 0 else g

/-- The motion of the block (AttributesPathCalculator.cpp:650-1285). -/
def motion (F : Fns K) (c : Cfg K) (v : Vis K) (cur : Cur K) (s : St K) : Part (St K) :=
  if cur.g = 0 ∨ cur.g = 1 then linear F c v cur s
  else if cur.g = 2 ∨ cur.g = 3 then circular F c v cur s
  else if cur.g = 80 then (cancelCycle s, .ok true)
  else if isDrill cur.g ∨ isDrillQ cur.g then drilling F c v cur s
  else (s, .ok false)

omit [FloorRing K] in
/-- The modal values (AttributesPathCalculator.cpp:1287-1294). -/
def saveModal (c : Cfg K) (cur : Cur K) (s : St K) : St K :=
  { s with f := cur.f, s := cur.s, g := gAfter c cur.g, plane := cur.plane, ret := cur.ret, incr := cur.incr,
           css := cur.css, perRev := cur.perRev }

omit [LinearOrder K] [FloorRing K] in
/-- The path totals (AttributesPathCalculator.cpp:1296-1298). -/
def addPath (s : St K) : St K :=
  let m := addF s.path.work s.path.fast
  { s with path := { s.path with toolId := s.tool, toolTotal := addF s.path.toolTotal m, total := addF s.path.total m } }

/-- `EDriverUnits` is `Inch`. -/
abbrev Inch := Bool

/-- Speed from surface speed (MathUtils.h:50-58, AttributesPathCalculator.cpp:1311-1315). -/
def surface (F : Fns K) (inch : Inch) (s path : K) : K :=
  (s * (if inch then 12 else 1000)) / (F.pi * path)

/-- The feed per minute (AttributesPathCalculator.cpp:1306-1328). -/
def feedPerMinute (F : Fns K) (c : Cfg K) (inch : Inch) (cur : Cur K) (path : K) : K :=
  if latheProg c cur.plane ∧ cur.perRev then
    if cur.css then cur.f * surface F inch cur.s path else cur.f * cur.s
  else cur.f

/-- The time of the work motion in seconds (AttributesPathCalculator.cpp:1304-1329). -/
def workTime (F : Fns K) (c : Cfg K) (inch : Inch) (cur : Cur K) : Fl K → Fl K
  | none => if 0 < cur.f then none else some 0
  | some w => if w ≠ 0 ∧ 0 < cur.f then mulF 60 (calcTime w (feedPerMinute F c inch cur w)) else some 0

/-- The time of the rapid motion in seconds (AttributesPathCalculator.cpp:1330-1331). -/
def fastTime (c : Cfg K) : Fl K → Fl K
  | none => if 0 < c.maxFast then none else some 0
  | some w => if w ≠ 0 ∧ 0 < c.maxFast then mulF 60 (calcTime w c.maxFast) else some 0

/-- The time totals (AttributesPathCalculator.cpp:1300-1333). -/
def addTimes (F : Fns K) (c : Cfg K) (inch : Inch) (cur : Cur K) (s : St K) : St K :=
  let w := workTime F c inch cur s.path.work
  let q := fastTime c s.path.fast
  let m := addF w q
  { s with time := { s.time with toolId := s.tool, work := w, fast := q, toolTotal := addF s.time.toolTotal m,
                                 total := addF s.time.total m } }

omit [FloorRing K] in
/-- The checks of F, fast feed and S (AttributesPathCalculator.cpp:1335-1343). -/
def checks (c : Cfg K) (cur : Cur K) (s : St K) : Out Exc Unit :=
  if s.path.work ≠ some 0 ∧ cur.f < 0 then .throw (err .ValueNotSet [c!"F"])
  else if s.path.fast ≠ some 0 ∧ c.maxFast < 0 then .throw (err .ValueNotSet [c!"Fast Feed"])
  else if s.path.work ≠ some 0 ∧ 0 < cur.f ∧ latheProg c cur.plane ∧ cur.perRev ∧ cur.s < 0 then
    .throw (err .ValueNotSet [c!"S"])
  else .ok ()

/-- The positions after the block (AttributesPathCalculator.cpp:1345-1355). -/
def savePositions (c : Cfg K) (v : Vis K) (s : St K) : St K :=
  if atTool c v then copySt false v.otherG c.exchange s
  else if atBase v then copySt false v.otherG c.base s
  else copySt s.incr v.otherG v.vals s

/-- After the motion (AttributesPathCalculator.cpp:1287-1355). -/
def account (F : Fns K) (c : Cfg K) (inch : Inch) (v : Vis K) (cur : Cur K) (s : St K) : Part (St K) :=
  let s := addTimes F c inch cur (addPath (saveModal c cur s))
  match checks c cur s with
  | .ok () => (savePositions c v s, .ok true)
  | .throw e => (s, .throw e)
  | .ub => (s, .ub)

/-- From the motion on (AttributesPathCalculator.cpp:635-1355). -/
def moveBlock (F : Fns K) (c : Cfg K) (inch : Inch) (v : Vis K) (s : St K) : Part (St K) :=
  (motion F c v (current v s) s).andThen (account F c inch v (current v s))

/-- From the dwell on (AttributesPathCalculator.cpp:576-1355). -/
def afterTool (F : Fns K) (c : Cfg K) (inch : Inch) (v : Vis K) (s : St K) : Part (St K) :=
  (startPart c v (dwell v s)).andThen (moveBlock F c inch v)

/-- The result of the last part. -/
def finish : Out Exc Bool → Out Exc Unit
  | .ok _ => .ok ()
  | .throw e => .throw e
  | .ub => .ub

/-- With the visited block (AttributesPathCalculator.cpp:483-1356). -/
def evalVis (F : Fns K) (c : Cfg K) (inch : Inch) (line : Int) (v : Vis K) (p : St K × MacroMap ℚ) :
    (St K × MacroMap ℚ) × Out Exc Unit :=
  let t := toolPart c line v (mTimes c v p.1, p.2)
  match t.2 with
  | .ok true =>
    let r := afterTool F c inch v t.1.1
    ((r.1, t.1.2), finish r.2)
  | o => (t.1, finish o)

/-- `evaluate` (AttributesPathCalculator.cpp:468-1356): the state and the caller's macro variables
afterwards, and whether it threw. -/
def evaluate (F : Fns K) (c : Cfg K) (inch : Inch) (line : Int) (b : Block) (p : St K × MacroMap ℚ) :
    (St K × MacroMap ℚ) × Out Exc Unit :=
  let s := clearMotions p.1
  if b = [] then ((s, p.2), .ok ())
  else
    match visitAll c {} b with
    | .ok v => evalVis F c inch line v (s, p.2)
    | .throw e => ((s, p.2), .throw e)
    | .ub => ((s, p.2), .ub)

end
end NC.AttrPath
