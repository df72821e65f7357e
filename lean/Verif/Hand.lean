import Verif.Form
import Verif.SplitFile
import Verif.Wrapper
import Verif.Whole

/-!
# Handing over settings from .NET (parser_net, AllAttributesParserWrapperBase.cpp)

The .NET class copies its settings into structures; the native side reads the same
memory with its own declarations.  A structure in memory is the list of its members,
in the order of the declaration that wrote it.

Simplifications: the sizes and the alignment of the members agree on both sides, texts are
bytes, and integers fit.  A number that is no value of an enumeration is `ub` here.
-/

namespace NC.Hand
open NC NC.Enums NC.AttrPath NC.Conf NC.Form

/-- A member of a structure: a null pointer is `text none`. -/
inductive Cell where
  | dbl (q : ℚ)
  | int (z : Int)
  | uint (n : Nat)
  | flag (b : Bool)
  | text (s : Option Str)
deriving DecidableEq

/-- `KeyNotFoundException` of a dictionary. -/
inductive Exc where
  | noKey (k : Str)
deriving DecidableEq

/-! ## Enumerations of .NET -/

/-- `MachineTool` (AllAttributesParser.cs:42-67). -/
def netTools : List EMachineTool :=
  [.mill_3axis, .mill_4axis, .mill_4axis_horizontal, .mill_4axis_horizontal_pinola, .mill_4axis_head_gantry,
   .mill_5axis_head_head_gantry, .mill_5axis_head_table_gantry, .mill_5axis_table_table, .mill_5axis_table_tilt,
   .mill_5axis_head_table, .mill_5axis_horizontal_table_table, .mill_5axis_horizontal_table_table_pinola,
   .lathe_zx, .lathe_zxc, .lathe_zxcy, .lathe_zxcy_steady, .millturn_XYZBC, .millturn_XYZBC_steady, .millturn_XYZBC_C2,
   .millturn_XYZBC_C2_steady, .millturn_XYZBC_C2_Lower_Left_Turret, .millturn_XYZBC_C2_Lower_Right_Turret,
   .millturn_XYZBC_C2_Lower_LeftRight_Turret]

/-- `FanucParserType` (AllAttributesParser.cs:21-34). -/
def netDrivers : List EFanucParserType :=
  [.FanucLatheSystemA, .FanucLatheSystemB, .FanucLatheSystemC, .FanucMill, .FanucMillturnSystemA, .FanucMillturnSystemB,
   .GenericLathe, .GenericMill, .HaasLathe, .HaasMill, .MakinoMill]

/-- `WordType` (AllAttributesParser.cs:186-197). -/
def netWordTypes : List WordType := [.misc, .angle, .calc, .code, .feed, .length, .macro, .numbering, .assignable]

/-- `FileSplittingType` (AllAttributesParser.cs:430-437). -/
def netKinds : List SplitFile.Kind := [.blocks, .tool, .time, .path, .text]

/-- `MachineToolType` (AllAttributesParser.cs:36-41). -/
def netTypes : List EMachineToolType := [.Mill, .Lathe, .Millturn]

/-- `Language` (AllAttributesParser.cs:470-474). -/
def netLanguages : List ELanguage := [.English, .Polish]

/-- The number of an enumerator when the first one is `start`. -/
def number {α : Type} [DecidableEq α] (start : Int) (l : List α) (x : α) : Int := start + l.idxOf x

/-- `Motion`, `WorkPlane`, `DriverUnits`, `ProgrammingType`, `FeedMode`, `RotationDirection`,
`DepthProgrammingType`, `DrillCycleReturnValue` (AllAttributesParser.cs:239-243, 355-397). -/
def netMotion : EMotion → Int := number 0 [.RapidTraverse, .LinearInterpolation]
def netPlane : EWorkPlane → Int := number 17 [.XY, .XZ, .YZ]
def netUnits : EDriverUnits → Int := number 0 [.Millimeter, .Inch]
def netProgramming : EProgrammingType → Int := number 90 [.Absolute, .Incremental]
def netFeedMode : EFeedMode → Int := number 94 [.PerMinute, .PerRevolution]
def netDirection : ERotationDirection → Int := number 3 [.Right, .Left, .Stop]
def netDepth : EDepthProgrammingType → Int := number 0 [.Absolute, .Incremental]
def netReturn : EDrillGreturnMode → Int := number 98 [.G98, .G99]

/-! ## Enumerations of the native side -/

/-- Numbers and their enumerators. -/
def ofTable {α ε : Type} (l : List (Int × α)) (z : Int) : Out ε α :=
  match l.find? (fun e => e.1 == z) with
  | some e => .ok e.2
  | none => .ub

/-- `EMachineTool` (GeneralParserDefines.h:54-82). -/
def tools : List (Int × EMachineTool) :=
  [(0, .mill_3axis), (1, .mill_4axis), (2, .mill_4axis_horizontal), (3, .mill_4axis_horizontal_pinola), (4, .mill_4axis_head_gantry),
   (5, .mill_5axis_head_head_gantry), (6, .mill_5axis_head_table_gantry), (7, .mill_5axis_table_table), (8, .mill_5axis_table_tilt),
   (9, .mill_5axis_head_table), (10, .mill_5axis_horizontal_table_table), (11, .mill_5axis_horizontal_table_table_pinola),
   (12, .lathe_zx), (13, .lathe_zxc), (14, .lathe_zxcy), (15, .lathe_zxcy_steady), (16, .millturn_XYZBC),
   (17, .millturn_XYZBC_steady), (18, .millturn_XYZBC_C2), (19, .millturn_XYZBC_C2_steady),
   (20, .millturn_XYZBC_C2_Lower_Left_Turret), (21, .millturn_XYZBC_C2_Lower_Right_Turret),
   (22, .millturn_XYZBC_C2_Lower_LeftRight_Turret)]

/-- `EFanucParserType` (GeneralParserDefines.h:29-42). -/
def drivers : List (Int × EFanucParserType) :=
  [(0, .FanucLatheSystemA), (1, .FanucLatheSystemB), (2, .FanucLatheSystemC), (3, .FanucMill), (4, .FanucMillturnSystemA),
   (5, .FanucMillturnSystemB), (6, .GenericLathe), (7, .GenericMill), (8, .HaasLathe), (9, .HaasMill), (10, .MakinoMill)]

/-- `WordType` (AllAttributesParserDefines.h:60-71). -/
def wordTypes : List (Int × WordType) :=
  [(0, .misc), (1, .angle), (2, .calc), (3, .code), (4, .feed), (5, .length), (6, .macro), (7, .numbering), (8, .assignable)]

/-- `FileSplittingType` (GeneralParserDefines.h:325-332). -/
def kinds : List (Int × SplitFile.Kind) :=
  [(0, .blocks), (1, .tool), (2, .time), (3, .path), (4, .text)]

/-- `EMachineToolType` (GeneralParserDefines.h:47-52), `ELanguage` (99-103), `EMotion` (148-152), `EWorkPlane`
(157-162), `EDriverUnits` (167-171), `EFeedMode` (176-180), `ERotationDirection` (185-190), `EProgrammingType`
(195-199), `EDepthProgrammingType` (204-208), `EDrillGreturnMode` (232-236). -/
def types : List (Int × EMachineToolType) := [(0, .Mill), (1, .Lathe), (2, .Millturn)]
def languages : List (Int × ELanguage) := [(0, .English), (1, .Polish)]
def motions : List (Int × EMotion) := [(0, .RapidTraverse), (1, .LinearInterpolation)]
def planes : List (Int × EWorkPlane) := [(17, .XY), (18, .XZ), (19, .YZ)]
def unitss : List (Int × EDriverUnits) := [(0, .Millimeter), (1, .Inch)]
def feedModes : List (Int × EFeedMode) := [(94, .PerMinute), (95, .PerRevolution)]
def directions : List (Int × ERotationDirection) := [(3, .Right), (4, .Left), (5, .Stop)]
def programmings : List (Int × EProgrammingType) := [(90, .Absolute), (91, .Incremental)]
def depths : List (Int × EDepthProgrammingType) := [(0, .Absolute), (1, .Incremental)]
def returns : List (Int × EDrillGreturnMode) := [(98, .G98), (99, .G99)]

/-! ## What .NET writes -/

/-- A text that .NET hands over: without the rest behind a NUL, which ends it for the native side. -/
def bytes (s : Str) : Str := s.takeWhile (· ≠ '\x00')

/-- A reference to a string. -/
def textCell (s : Option Str) : Cell := .text (s.map bytes)

/-- `Kinematics` (AllAttributesParser.cs:275-291), whose strings may be null. -/
structure KinObj where
  axes : Dict (ℚ × ℚ)
  maxFeed : ℚ
  maxFast : ℚ
  spindle : Int
  warehouse : Int
  exchangeTime : Int
  palletTime : Int
  measureTime : Int
  diameter2x : Bool
  autoMeasure : Bool
  palletCode : Option Str
  palletValue : Option Str
  measureCode : Option Str
  measureValue : Option Str

/-- The arguments of `SetNCSettings` (AllAttributesParser.cs:1480). -/
structure Handed where
  tool : EMachineTool
  ttype : EMachineToolType
  exchange : Dict ℚ
  base : Dict ℚ
  kin : KinObj
  cnc : Cnc
  zero : Dict ℚ

/-- `KinematicsWrapper` (AllAttributesParser.cs:331-353, 1482-1497). -/
def kinCells (k : KinObj) : List Cell :=
  [.dbl k.maxFeed, .dbl k.maxFast, .int k.spindle, .int k.warehouse, .int k.exchangeTime, .int k.palletTime, .int k.measureTime,
   .flag k.diameter2x, .flag k.autoMeasure, textCell k.palletCode, textCell k.palletValue, textCell k.measureCode,
   textCell k.measureValue]

/-- `AxisParametersWrapper` (AllAttributesParser.cs:322-329, 1499-1507). -/
def axisCells (e : Str × (ℚ × ℚ)) : List Cell := [textCell (some e.1), .dbl e.2.1, .dbl e.2.2]

/-- `CncDefaultValuesWrapper` (AllAttributesParser.cs:399-428, 1509-1528). -/
def cncCells (c : Cnc) : List Cell :=
  [.int (netMotion c.motion), .int (netPlane c.plane), .int (netUnits c.units), .int (netProgramming c.programming),
   .int (netFeedMode c.feedMode), .int (netDirection c.direction), .int (netDepth c.depth), .int (netReturn c.ret), .int c.rotation,
   .flag c.cancel0, .flag c.cancel1, .flag c.cancel2, .flag c.cancel3, .flag c.cancelRapid, .flag c.operatorRotation,
   .flag c.toolExchanges, .flag c.autoRapid]

/-- `zeroPointDict[k]` (AllAttributesParser.cs:1532-1534). -/
def key (d : Dict ℚ) (k : Str) : Out Exc ℚ :=
  match look d k with
  | some v => .ok v
  | none => .throw (.noKey k)

/-- `ZeroPoint` (AllAttributesParser.cs:453-459, 1530-1535). -/
def zeroCells (d : Dict ℚ) : Out Exc (List Cell) :=
  (key d c!"X").bind fun x => (key d c!"Y").bind fun y => (key d c!"Z").bind fun z => .ok [.dbl x, .dbl y, .dbl z]

/-! ## What the native side reads -/

/-- A `std::string` of a `char*`; undefined for a null pointer. -/
def str {ε : Type} : Option Str → Out ε Str
  | some s => .ok s
  | none => .ub

/-- The members of `Kinematics` but the axes. -/
structure KinRec where
  maxFeed : ℚ
  maxFast : ℚ
  spindle : Int
  warehouse : Int
  exchangeTime : Int
  palletTime : Int
  measureTime : Int
  diameter2x : Bool
  autoMeasure : Bool
  palletCode : Str
  palletValue : Str
  measureCode : Str
  measureValue : Str

/-- `KinematicsWrapper` (AllAttributesParserWrapperBase.h:136-151), `fill_kinematics`
(AllAttributesParserWrapperBase.cpp:186-203). -/
def readKin : List Cell → Out Exc KinRec
  | [.dbl a, .dbl b, .int c, .int d, .int e, .int f, .int g, .flag h, .flag i, .text j, .text k, .text l, .text m] =>
    (str j).bind fun j => (str k).bind fun k => (str l).bind fun l => (str m).bind fun m =>
      .ok ⟨a, b, c, d, e, f, g, h, i, j, k, l, m⟩
  | _ => .ub

/-- `AxisParametersWrapper` (AllAttributesParserWrapperBase.h:129-134). -/
def readAxis : List Cell → Out Exc (Str × (ℚ × ℚ))
  | [.text a, .dbl b, .dbl c] => (str a).bind fun a => .ok (a, (b, c))
  | _ => .ub

/-- The loop over the axes (AllAttributesParserWrapperBase.cpp:205-209). -/
def readAxes (a : List (List Cell)) : Nat → Nat → VMap (ℚ × ℚ) → Out Exc (VMap (ℚ × ℚ))
  | 0, _, m => .ok m
  | n + 1, x, m =>
    match a[x]? with
    | some c => (readAxis c).bind fun e => readAxes a n (x + 1) (m.put e.1 e.2)
    | none => .ub

/-- `makeMachinePointsData`, one of its loops (AllAttributesParserWrapperBase.cpp:16-28). -/
def readPoints (ks : List Str) (vs : List ℚ) : Nat → Nat → VMap ℚ → Out Exc (VMap ℚ)
  | 0, _, m => .ok m
  | n + 1, x, m =>
    match ks[x]?, vs[x]? with
    | some k, some v => readPoints ks vs n (x + 1) (m.put k v)
    | _, _ => .ub

/-- `CncDefaultValues` (GeneralParserDefines.h:246-264). -/
def readCnc : List Cell → Out Exc Cnc
  | [.int a, .int b, .int c, .int d, .int e, .int f, .int g, .int h, .int i, .flag j, .flag k, .flag l, .flag m, .flag n, .flag o,
     .flag p, .flag q] =>
    (ofTable motions a).bind fun a => (ofTable planes b).bind fun b => (ofTable unitss c).bind fun c =>
    (ofTable programmings d).bind fun d => (ofTable feedModes e).bind fun e => (ofTable directions f).bind fun f =>
    (ofTable depths g).bind fun g => (ofTable returns h).bind fun h =>
      .ok ⟨a, b, c, d, e, f, g, h, i, j, k, l, m, n, o, p, q⟩
  | _ => .ub

/-- `ZeroPoint` (GeneralParserDefines.h:141-146). -/
def readZero : List Cell → Out Exc (ℚ × ℚ × ℚ)
  | [.dbl x, .dbl y, .dbl z] => .ok (x, y, z)
  | _ => .ub

/-- `SetNCSettings` (AllAttributesParser.cs:1480-1553, AllAttributesParserWrapperBase.cpp:214-228): the
settings that reach `set_ncsettings`; the driver is the one of the constructor. -/
def setSettings (driver : EFanucParserType) (h : Handed) : Out Exc Settings :=
  (zeroCells h.zero).bind fun z =>
  (ofTable tools (number 0 netTools h.tool)).bind fun tool => (ofTable types (number 0 netTypes h.ttype)).bind fun ttype =>
  (readPoints (h.base.map (fun e => bytes e.1)) (h.base.map (·.2)) h.base.length 0 []).bind fun base =>
  (readPoints (h.exchange.map (fun e => bytes e.1)) (h.exchange.map (·.2)) h.exchange.length 0 []).bind fun exchange =>
  (readKin (kinCells h.kin)).bind fun k => (readAxes (h.kin.axes.map axisCells) h.kin.axes.length 0 []).bind fun axes =>
  (readCnc (cncCells h.cnc)).bind fun c => (readZero z).bind fun z =>
    .ok ⟨tool, ttype, driver, exchange, base, axes, k.maxFeed, k.maxFast, k.spindle, k.warehouse, k.exchangeTime, k.palletTime,
      k.measureTime, k.diameter2x, k.autoMeasure, k.palletCode, k.palletValue, k.measureCode, k.measureValue, c.motion, c.plane,
      c.units, c.programming, c.feedMode, c.direction, c.depth, c.ret, c.rotation, c.cancel0, c.cancel1, c.cancel2, c.cancel3,
      c.cancelRapid, c.operatorRotation, c.toolExchanges, c.autoRapid, z.1, z.2.1, z.2.2⟩

/-! ## Construction -/

/-- `WordGrammarWrapper` (AllAttributesParser.cs:199-211), whose string may be null. -/
structure WordObj where
  word : Option Str
  rangeFrom : Int
  rangeTo : Int
  decFrom : Nat
  decTo : Nat
  unique : Bool
  wtype : WordType

/-- `ParserSettings` (AllAttributesParser.cs:461-469). -/
structure ParserObj where
  parse : Bool
  evalMacro : Bool
  groups : Bool
  path : Bool
  analysis : Bool
  zeroPoint : Bool

/-- The arguments of the constructor (FanucAllAttributesParser.cs:14-21). -/
structure Client where
  metric : Dict WordObj
  imperial : Dict WordObj
  ops : List Str
  gcodes : Dict (List Ver.Code)
  mcodes : Dict (List Ver.Code)
  settings : ParserObj
  language : ELanguage
  driver : EFanucParserType

/-- The structure written for a word. -/
def wordCells (w : WordObj) : List Cell :=
  [textCell w.word, .int w.rangeFrom, .int w.rangeTo, .uint w.decFrom, .uint w.decTo, .flag w.unique,
   .int (number 0 netWordTypes w.wtype)]

/-- `WordGrammarWrapper` (fanuc/AllAttributesParserWrapper.h:68-77). -/
def readWord : List Cell → Out Exc WordGrammar
  | [.text a, .int b, .int c, .uint d, .uint e, .flag f, .int g] =>
    (str a).bind fun a => (ofTable wordTypes g).bind fun g => .ok ⟨a, b, c, d, e, f, g⟩
  | _ => .ub

/-- The elements `build_grammar_map` reads (fanuc/AllAttributesParserWrapper.cpp:14-19). -/
def readWords (ks : List Str) (vs : List (List Cell)) : Nat → Nat → Out Exc (List (Str × WordGrammar))
  | 0, _ => .ok []
  | n + 1, x =>
    match ks[x]?, vs[x]? with
    | some k, some v => (readWord v).bind fun g => (readWords ks vs n (x + 1)).bind fun r => .ok ((k, g) :: r)
    | _, _ => .ub

/-- A word table: the arrays (FanucAllAttributesParser.cs:46-51) and what is made of them. -/
def table (d : Dict WordObj) : Out Exc WordMap :=
  (readWords (d.map (fun e => bytes e.1)) (d.map (fun e => wordCells e.2)) d.length 0).bind fun l => .ok (Wrap.buildGrammar [] l)

/-- The loops over the groups (FanucAllAttributesParser.cs:23-41): all codes, and the sizes. -/
def flatten : List (List Ver.Code) → List Ver.Code × List Nat → List Ver.Code × List Nat
  | [], r => r
  | l :: t, r => flatten t (r.1 ++ l, r.2 ++ [l.length])

/-- The groups: the arrays and what is made of them. -/
def groups (d : Dict (List Ver.Code)) : Out Exc Ver.Groups :=
  let r := flatten (d.map (·.2)) ([], [])
  match Wrap.unflatten [] (d.map (fun e => bytes e.1)) r.2 r.1 with
  | .ok m => .ok m
  | _ => .ub

/-- `ParserSettingsWrapper` (AllAttributesParser.cs:515-538). -/
def optionCells (p : ParserObj) : List Cell := [.flag p.evalMacro, .flag p.groups, .flag p.path, .flag p.analysis, .flag p.zeroPoint]

/-- `ParserSettings` (GeneralParserDefines.h:87-94). -/
def readOptions : List Cell → Out Exc Pipe.Options
  | [.flag a, .flag b, .flag c, .flag d, .flag e] => .ok ⟨a, b, c, d, e⟩
  | _ => .ub

/-- The constructor and `SetNCSettings`: the setup and the options of the parser. -/
def connect (E : Env) (c : Client) (h : Handed) : Out Exc (Pipe.Setup × Pipe.Options) :=
  (table c.metric).bind fun metric => (table c.imperial).bind fun imperial =>
  (groups c.gcodes).bind fun g => (groups c.mcodes).bind fun m => (readOptions (optionCells c.settings)).bind fun o =>
  (ofTable languages (number 0 netLanguages c.language)).bind fun l => (ofTable drivers (number 0 netDrivers c.driver)).bind fun d =>
  (setSettings d h).bind fun s =>
    .ok ({ setupOf E s ⟨⟨metric, imperial⟩, c.ops.map bytes⟩ g m with lang := .known l }, o)

/-! ## Requests -/

/-- `FileSplitting` (AllAttributesParser.cs:439-451), whose strings may be null. -/
structure SplitObj where
  kind : SplitFile.Kind
  step : Int
  time : Int
  path : Int
  text : Option Str
  rapidOnly : Bool
  plane : Option Str

/-- The structure. -/
def splitCells (s : SplitObj) : List Cell :=
  [.int (number 0 netKinds s.kind), .int s.step, .int s.time, .int s.path, textCell s.text, .flag s.rapidOnly, textCell s.plane]

/-- `FileSplittingWrapper` (AllAttributesParserWrapperBase.h:153-162) and the copy (fanuc/AllAttributesParserWrapper.cpp:358-359,
454-455). -/
def readSplit : List Cell → Out Exc SplitFile.Request
  | [.int a, .int b, .int c, .int d, .text e, .flag f, .text g] =>
    (ofTable kinds a).bind fun a => (str e).bind fun e => (str g).bind fun g => .ok ⟨a, b, c, d, e, f, g⟩
  | _ => .ub

/-- `RenumberSettings` (AllAttributesParser.cs:222-234), whose string may be null. -/
structure RenumberObj where
  word : Option Str
  step : Nat
  frequency : Nat
  maxNumber : Nat
  existingOnly : Bool
  leadingZeroes : Bool

/-- The structure. -/
def renumberCells (r : RenumberObj) : List Cell :=
  [textCell r.word, .uint r.step, .uint r.frequency, .uint r.maxNumber, .flag r.existingOnly, .flag r.leadingZeroes]

/-- `RenumberSettingsWrapper` (AllAttributesParserWrapperBase.h:119-127) and the copy
(AllAttributesParserWrapperBase.cpp:156-168). -/
def readRenumber : List Cell → Out Exc Renumber.Settings
  | [.text a, .uint b, .uint c, .uint d, .flag e, .flag f] => (str a).bind fun a => .ok ⟨a, b, c, d, e, f⟩
  | _ => .ub

end NC.Hand
