import Verif.Enums
import Verif.Pipeline

/-!
# Reading the configuration (nclangsrv/NCSettingsReader.cpp, WordGrammarReader.cpp, CodeGroupsReader.cpp)

The files are read by `boost::property_tree`.  Its JSON reader is not modelled: the
input here is the tree it makes, in which numbers, booleans and strings are texts.
Every exception is caught in the readers and makes `read` return false, so a failed
conversion is `none`.  Numbers beyond the range of `double` are not distinguished.
-/

namespace NC.Conf
open NC NC.Enums NC.AttrPath NC.Path

/-- `boost::property_tree::ptree`: a text and named children in the order of the file. -/
inductive PTree where
  | node (data : Str) (kids : List (Str × PTree))

/-- `data()`. -/
def PTree.data : PTree → Str
  | .node d _ => d

/-- The children. -/
def PTree.kids : PTree → List (Str × PTree)
  | .node _ k => k

/-- `get_child`: the first child of that name. -/
def PTree.child (t : PTree) (k : Str) : Option PTree := (t.kids.find? (fun e => e.1 == k)).map (·.2)

/-! ## Texts as values: `stream_translator` of boost -/

/-- Only white space is left in the stream. -/
def blank (s : Str) : Bool := s.all isSp

/-- Sign, digits, rest of a text. -/
def scan (s : Str) : Bool × Str × Str :=
  let sr := splitSign (s.dropWhile isSp)
  (sr.1, sr.2.takeWhile isDig, sr.2.dropWhile isDig)

/-- The number written by sign and digits. -/
def signed (neg : Bool) (ds : Str) : Int := if neg then -(readNat ds : Int) else readNat ds

/-- `get_value<int>`. -/
def intOf (s : Str) : Option Int :=
  let r := scan s
  let v := signed r.1 r.2.1
  if r.2.1 ≠ [] ∧ blank r.2.2 = true ∧ -2147483648 ≤ v ∧ v ≤ 2147483647 then some v else none

/-- `get_value<unsigned int>`: a minus sign is accepted and wraps around. -/
def uintOf (s : Str) : Option Nat :=
  let r := scan s
  let n := readNat r.2.1
  if r.2.1 ≠ [] ∧ blank r.2.2 = true ∧ n ≤ 4294967295 then
    some (if r.1 then (4294967296 - n) % 4294967296 else n)
  else none

/-- `true`, `false` in the stream. -/
def alphaOf (s : Str) : Option Bool :=
  if c!"true".isPrefixOf s then (if blank (s.drop 4) then some true else none)
  else if c!"false".isPrefixOf s then (if blank (s.drop 5) then some false else none)
  else none

/-- `get_value<bool>`: as a number first, then, from where that stopped, as a word. -/
def boolOf (s : Str) : Option Bool :=
  let r := scan s
  let v := signed r.1 r.2.1
  if r.2.1 ≠ [] ∧ (v = 0 ∨ v = 1) then (if blank r.2.2 then some (decide (v = 1)) else none)
  else alphaOf (r.2.2.dropWhile isSp)

/-- An exponent, if there is one: the exponent and the rest. -/
def expOf : Str → Option (Int × Str)
  | 'e' :: r =>
    let sr := splitSign r
    if sr.2.takeWhile isDig = [] then none
    else some (signed sr.1 (sr.2.takeWhile isDig), sr.2.dropWhile isDig)
  | 'E' :: r =>
    let sr := splitSign r
    if sr.2.takeWhile isDig = [] then none
    else some (signed sr.1 (sr.2.takeWhile isDig), sr.2.dropWhile isDig)
  | r => some (0, r)

/-- The rest behind the digits after a dot. -/
def afterFrac : Str → Str
  | '.' :: f => f.dropWhile isDig
  | r => r

/-- `get_value<double>`. -/
def dblOf (s : Str) : Option ℚ :=
  let r := scan s
  let fp := fracDigits r.2.2
  if r.2.1 = [] ∧ fp = [] then none
  else
    match expOf (afterFrac r.2.2) with
    | none => none
    | some (e, rest) =>
      if blank rest then
        let v : ℚ := ((readNat r.2.1 : ℚ) + (readNat fp : ℚ) / 10 ^ fp.length) * 10 ^ e
        some (if r.1 then -v else v)
      else none

/-- `get_value` of an enumeration: `operator>>` throws on an unknown word (Macro.h:14-21). -/
def enumOf {α : Type} (ofStr : Str → Out Str α) (s : Str) : Option α :=
  match streamIn ofStr s with
  | .ok r => if blank r.2 then some r.1 else none
  | _ => none

/-- `get<T>(key)`. -/
def PTree.get {α : Type} (f : Str → Option α) (t : PTree) (k : Str) : Option α := (t.child k).bind (fun c => f c.data)

/-! ## NCSettingsReader -/

/-- The members of `NCSettingsReader` (NCSettingsReader.h:54-60; GeneralParserDefines.h:104-145, 240-260). -/
structure Settings where
  tool : EMachineTool
  ttype : EMachineToolType
  driver : EFanucParserType
  exchange : VMap ℚ
  base : VMap ℚ
  axes : VMap (ℚ × ℚ)
  maxFeed : ℚ
  maxFast : ℚ
  maxSpindle : Int
  warehouse : Int
  exchangeTime : Int
  palletTime : Int
  measureTime : Int
  diameter2x : Bool
  autoMeasure : Bool
  palletCode : Str
  palletValue : Str
  measureCode : Str
  measureValue : Str
  motion : EMotion
  plane : EWorkPlane
  units : EDriverUnits
  programming : EProgrammingType
  feedMode : EFeedMode
  direction : ERotationDirection
  depth : EDepthProgrammingType
  ret : EDrillGreturnMode
  rotation : Int
  cancel0 : Bool
  cancel1 : Bool
  cancel2 : Bool
  cancel3 : Bool
  cancelRapid : Bool
  operatorRotation : Bool
  toolExchanges : Bool
  autoRapid : Bool
  zeroX : ℚ
  zeroY : ℚ
  zeroZ : ℚ
deriving DecidableEq

/-- `std::map::emplace`: an entry that is there stays. -/
def emplace {V : Type} (m : VMap V) (k : Str) (v : V) : VMap V := if (m.get k).isSome then m else m.put k v

/-- The loops that fill the maps of points (NCSettingsReader.cpp:89-94). -/
def readPoints : List (Str × PTree) → VMap ℚ → Option (VMap ℚ)
  | [], m => some m
  | (k, t) :: l, m => do
    let v ← dblOf t.data
    readPoints l (emplace m k v)

/-- The loop over the axes (NCSettingsReader.cpp:100-105). -/
def readAxes : List (Str × PTree) → VMap (ℚ × ℚ) → Option (VMap (ℚ × ℚ))
  | [], m => some m
  | (k, t) :: l, m => do
    let lo ← t.get dblOf c!"range_min"
    let hi ← t.get dblOf c!"range_max"
    readAxes l (emplace m k (lo, hi))

/-- A text member. -/
def textOf (s : Str) : Option Str := some s

/-- `NCSettingsReader::read` on the tree of the file (NCSettingsReader.cpp:78-165). -/
def readSettings (root : PTree) : Option Settings := do
  let tool ← root.get (enumOf EMachineTool.ofStr) c!"machine_tool"
  let ttype ← root.get (enumOf EMachineToolType.ofStr) c!"machine_tool_type"
  let driver ← root.get (enumOf EFanucParserType.ofStr) c!"driver"
  let mpd ← root.child c!"machine_points_data"
  let te ← mpd.child c!"tool_exchange_point"
  let exchange ← readPoints te.kids []
  let mb ← mpd.child c!"machine_base_point"
  let base ← readPoints mb.kids []
  let k ← root.child c!"kinematics"
  let ax ← k.child c!"cartesian_system_axis"
  let axes ← readAxes ax.kids []
  let maxFeed ← k.get dblOf c!"max_working_feed"
  let maxFast ← k.get dblOf c!"max_fast_feed"
  let maxSpindle ← k.get intOf c!"maximum_spindle_speed"
  let warehouse ← k.get intOf c!"numer_of_items_in_the_warehouse"
  let exchangeTime ← k.get intOf c!"tool_exchange_time"
  let palletTime ← k.get intOf c!"pallet_exchange_time"
  let measureTime ← k.get intOf c!"tool_measurement_time"
  let diameter2x ← k.get boolOf c!"diameter_programming_2x"
  let autoMeasure ← k.get boolOf c!"auto_measure_after_tool_selection"
  let palletCode ← k.get textOf c!"pallet_exchange_code"
  let palletValue ← k.get textOf c!"pallet_exchange_code_value"
  let measureCode ← k.get textOf c!"tool_measurement_code"
  let measureValue ← k.get textOf c!"tool_measurement_code_value"
  let cnc ← root.child c!"cnc_default_values"
  let motion ← cnc.get (enumOf EMotion.ofStr) c!"default_motion"
  let plane ← cnc.get (enumOf EWorkPlane.ofStr) c!"default_work_plane"
  let units ← cnc.get (enumOf EDriverUnits.ofStr) c!"default_driver_units"
  let programming ← cnc.get (enumOf EProgrammingType.ofStr) c!"default_programming"
  let feedMode ← cnc.get (enumOf EFeedMode.ofStr) c!"default_feed_mode"
  let direction ← cnc.get (enumOf ERotationDirection.ofStr) c!"default_rotation_direction"
  let depth ← cnc.get (enumOf EDepthProgrammingType.ofStr) c!"drill_cycle_z_value"
  let ret ← cnc.get (enumOf EDrillGreturnMode.ofStr) c!"drill_cycle_return_value"
  let rotation ← cnc.get intOf c!"default_rotation"
  let cancel0 ← cnc.get boolOf c!"rapid_traverse_cancel_cycle"
  let cancel1 ← cnc.get boolOf c!"linear_interpolation_cancel_cycle"
  let cancel2 ← cnc.get boolOf c!"circular_interpolation_cw_cancel_cycle"
  let cancel3 ← cnc.get boolOf c!"circular_interpolation_ccw_cancel_cycle"
  let cancelRapid ← cnc.get boolOf c!"cycle_cancel_starts_rapid_traverse"
  let operatorRotation ← cnc.get boolOf c!"operator_turns_on_rotation"
  let toolExchanges ← cnc.get boolOf c!"tool_number_executes_exchange"
  let autoRapid ← cnc.get boolOf c!"auto_rapid_traverse_after_tool_exchange"
  let zp ← root.child c!"zero_point"
  let zeroX ← zp.get dblOf c!"X"
  let zeroY ← zp.get dblOf c!"Y"
  let zeroZ ← zp.get dblOf c!"Z"
  pure ⟨tool, ttype, driver, exchange, base, axes, maxFeed, maxFast, maxSpindle, warehouse, exchangeTime, palletTime,
    measureTime, diameter2x, autoMeasure, palletCode, palletValue, measureCode, measureValue, motion, plane, units,
    programming, feedMode, direction, depth, ret, rotation, cancel0, cancel1, cancel2, cancel3, cancelRapid,
    operatorRotation, toolExchanges, autoRapid, zeroX, zeroY, zeroZ⟩

/-- `setDefaults` (NCSettingsReader.cpp:26-67); `mZeroPoint{}` is zero (NCSettingsReader.h:54). -/
def defaults : Settings :=
  { tool := .mill_3axis, ttype := .Mill, driver := .FanucMill,
    exchange := [(c!"X", 0), (c!"Y", 0), (c!"Z", 500)],
    base := [(c!"I", 0), (c!"J", 0), (c!"K", 0), (c!"X", 0), (c!"Y", 0), (c!"Z", 500)],
    axes := [(c!"X", (-500, 500)), (c!"Y", (-500, 500)), (c!"Z", (0, 1000))],
    maxFeed := 20000, maxFast := 20000, maxSpindle := 10000, warehouse := 30, exchangeTime := 6, palletTime := 1,
    measureTime := 3, diameter2x := false, autoMeasure := false, palletCode := [], palletValue := [], measureCode := [],
    measureValue := [], motion := .RapidTraverse, plane := .XY, units := .Millimeter, programming := .Absolute,
    feedMode := .PerMinute, direction := .Right, depth := .Absolute, ret := .G98, rotation := 0, cancel0 := false,
    cancel1 := false, cancel2 := false, cancel3 := false, cancelRapid := false, operatorRotation := false,
    toolExchanges := false, autoRapid := false, zeroX := 0, zeroY := 0, zeroZ := 0 }

/-! ## WordGrammarReader -/

/-- `word_map[word] = …`. -/
def putWord : WordMap → Str → WordGrammar → WordMap
  | [], k, v => [(k, v)]
  | e :: t, k, v => if e.1 = k then (k, v) :: t else e :: putWord t k v

/-- The entry of a word (WordGrammarReader.cpp:26-32). -/
def readEntry (t : PTree) : Option WordGrammar := do
  let word ← t.get textOf c!"word"
  let rf ← t.get intOf c!"range_from"
  let rt ← t.get intOf c!"range_to"
  let df ← t.get uintOf c!"decimal_from"
  let dt ← t.get uintOf c!"decimal_to"
  let u ← t.get boolOf c!"unique"
  let ty ← t.get (enumOf wordTypeOfStr) c!"type"
  pure ⟨word, rf, rt, df, dt, u, ty⟩

/-- The loop of `readGrammar` (WordGrammarReader.cpp:24-33): the table, and whether the end was reached. -/
def readWords : List (Str × PTree) → WordMap → WordMap × Bool
  | [], m => (m, true)
  | (k, t) :: l, m =>
    match readEntry t with
    | some g => readWords l (putWord m k g)
    | none => (m, false)

/-- `readGrammar` (WordGrammarReader.cpp:21-34). -/
def readTable (root : PTree) (units : Str) : WordMap × Bool :=
  match root.child units with
  | some t => readWords t.kids []
  | none => ([], false)

/-- The contents of a `WordGrammarReader`. -/
structure Words where
  tables : FanucGrammar
  ops : List Str

/-- `WordGrammarReader::read` on the tree of the file (WordGrammarReader.cpp:52-61): what was
stored, and whether all of it was read. -/
def readGrammar (root : PTree) : Words × Bool :=
  let m := readTable root c!"metric"
  if m.2 = false then (⟨⟨m.1, []⟩, []⟩, false)
  else
    let i := readTable root c!"imperial"
    if i.2 = false then (⟨⟨m.1, i.1⟩, []⟩, false)
    else
      match root.child c!"operations" with
      | some t => (⟨⟨m.1, i.1⟩, t.kids.map (fun e => e.2.data)⟩, true)
      | none => (⟨⟨m.1, i.1⟩, []⟩, false)

/-! ## CodeGroupsReader -/

/-- `std::set<std::string>::insert`. -/
def insertName : List Str → Str → List Str
  | [], k => [k]
  | e :: t, k => if k < e then k :: e :: t else if e = k then e :: t else e :: insertName t k

/-- `mCodeGroups[code].insert(name)`. -/
def addGroup : Ver.Groups → Ver.Code → Str → Ver.Groups
  | [], c, n => [(c, [n])]
  | e :: t, c, n => if e.1 = c then (c, insertName e.2 n) :: t else e :: addGroup t c n

/-- The codes of a group (CodeGroupsReader.cpp:40-45). -/
def readGroup (name : Str) : List (Str × PTree) → Ver.Groups → Ver.Groups × Bool
  | [], m => (m, true)
  | (_, t) :: l, m =>
    match t.get uintOf c!"code", t.get uintOf c!"rest" with
    | some c, some r => readGroup name l (addGroup m (c, r) name)
    | _, _ => (m, false)

/-- The groups (CodeGroupsReader.cpp:38-46). -/
def readAllGroups : List (Str × PTree) → Ver.Groups → Ver.Groups × Bool
  | [], m => (m, true)
  | (name, arr) :: l, m =>
    let r := readGroup name arr.kids m
    if r.2 then readAllGroups l r.1 else (r.1, false)

/-- `CodeGroupsReader::read` on the tree of the file (CodeGroupsReader.cpp:34-47). -/
def readGroups (root : PTree) : Ver.Groups × Bool :=
  match root.child c!"groups" with
  | some t => readAllGroups t.kids []
  | none => ([], false)

/-! ## The parser of a document -/

/-- The machine type as the path calculator distinguishes it. -/
def mtypeOf : EMachineToolType → MType
  | .Lathe => .lathe
  | .Millturn => .millturn
  | .Mill => .other

/-- The work plane. -/
def planeOf : EWorkPlane → Plane
  | .XY => .xy
  | .XZ => .xz
  | .YZ => .yz

/-- `static_cast<int>` of the default motion. -/
def motionOf : EMotion → Int
  | .RapidTraverse => 0
  | .LinearInterpolation => 1

/-- The drilling depth mode. -/
def depthOf : EDepthProgrammingType → Depth
  | .Absolute => .absolute
  | .Incremental => .incremental

/-- The drilling return mode. -/
def retOf : EDrillGreturnMode → Ret
  | .G98 => .g98
  | .G99 => .g99

/-- The active word table (AllAttributesParser.cpp:138-139). -/
def unitsOf : EDriverUnits → Ver.Units
  | .Millimeter => .metric
  | .Inch => .imperial

/-- The configuration of the path calculator (AllAttributesParser.cpp:157-159), before the
points are replaced. -/
def cfgOf (s : Settings) : Cfg ℚ :=
  { mtype := mtypeOf s.ttype, depthless := decide (s.tool = .lathe_zx) || decide (s.tool = .lathe_zxc),
    base := s.base, exchange := s.exchange, axes := s.axes.map (·.1), maxFast := s.maxFast,
    exchangeTime := s.exchangeTime, palletTime := s.palletTime, measureTime := s.measureTime,
    diameter2x := s.diameter2x, autoMeasure := s.autoMeasure, palletWord := s.palletCode, palletValue := s.palletValue,
    measureWord := s.measureCode, measureValue := s.measureValue, motion := motionOf s.motion, plane := planeOf s.plane,
    incr := decide (s.programming = .Incremental), perRev := decide (s.feedMode = .PerRevolution),
    depth := depthOf s.depth, ret := retOf s.ret, rotation := s.rotation, cancel0 := s.cancel0, cancel1 := s.cancel1,
    cancel2 := s.cancel2, cancel3 := s.cancel3, cancelRapid := s.cancelRapid, operatorRotation := s.operatorRotation,
    toolExchanges := s.toolExchanges, autoRapid := s.autoRapid }

/-- The limits the verifiers see. -/
def limitsOf (s : Settings) : Ver.Limits := ⟨s.axes, s.maxFeed, s.maxSpindle, s.warehouse⟩

/-- What is not configured: the functions of the path calculation and of the calculator, `M_PI`, `M_E`. -/
structure Env where
  F : Path.Fns ℚ
  tr : Str → ℚ → Option ℚ
  pi : ℚ
  e : ℚ

/-- The arguments of the constructor and of `set_ncsettings` (NCParser.cpp:315-324, 367-390);
the language is English (NCParser.cpp:255). -/
def setupOf (E : Env) (s : Settings) (g : Words) (gc mc : Ver.Groups) : Pipe.Setup :=
  { tables := g.tables, ops := g.ops, gcodes := gc, mcodes := mc,
    haas := decide (s.driver = .HaasLathe) || decide (s.driver = .HaasMill), lang := .known .English,
    units := unitsOf s.units, lathe := decide (s.ttype = .Lathe), cfg := cfgOf s, limits := limitsOf s,
    zero := ⟨s.zeroX, s.zeroY, s.zeroZ⟩, F := E.F, tr := E.tr, pi := E.pi, e := E.e }

end NC.Conf
