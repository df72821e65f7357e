import Verif.Settings
import Mathlib.Data.Int.Log

/-!
# The settings form (cmtconfig/NCSettingsForm.cs, NCSettingsForm/*.cs, NCSettingsDefinition.cs)

The controls of the form, filled by an imported file (`buttonImport_Click`) and read by
the export (`buttonExport_Click`).  An exception is `none`.

Simplifications: a `double` is a rational number that is printed exactly (doubles are
finite decimals; .NET prints at most fifteen digits and uses exponents below 0.0001 and
from 1E+15 on); the texts of numbers have no white space and no exponents; pictures exist;
author and version are left out, because the server does not read them; names of items
are compared up to the case of the letters A to Z.  Setting the same text again raises no
event in .NET, which makes no difference here, because a checked text stays as it is.
-/

namespace NC.Form
open NC NC.Enums NC.Conf

/-! ## Numbers and texts in .NET -/

/-- The separators of `CultureInfo`: en-US and the invariant culture, pl-PL (NCSettingsForm.cs:36-47). -/
inductive Culture where
  | english
  | polish
deriving DecidableEq, Repr

/-- `NumberDecimalSeparator`. -/
def Culture.dec : Culture → Char
  | .english => '.'
  | .polish => ','

/-- `NumberGroupSeparator`: a comma, a space that does not break. -/
def Culture.grp : Culture → Char
  | .english => ','
  | .polish => Char.ofNat 160

/-- The last `k` digits of a number. -/
def lastDigits : Nat → Nat → Str
  | 0, _ => []
  | k + 1, n => lastDigits k (n / 10) ++ [digChr (n % 10)]

/-- The number of decimals of a number. -/
def decimals (q : ℚ) : Nat := ((List.range (q.den + 1)).find? (fun k => decide (10 ^ k % q.den = 0))).getD 0

/-- `double.ToString()`: sign, whole part, and as many decimals as there are. -/
def numText (sep : Char) (q : ℚ) : Str :=
  let k := decimals q
  let n := q.num.natAbs * (10 ^ k / q.den)
  (if q < 0 then ['-'] else []) ++ natStr (n / 10 ^ k) ++ (if k = 0 then [] else sep :: lastDigits k n)

/-- `int.ToString()`. -/
def intText (z : Int) : Str := intStr z

/-- A leading sign. -/
def splitMinus : Str → Bool × Str
  | '-' :: r => (true, r)
  | '+' :: r => (false, r)
  | r => (false, r)

/-- `int.Parse`. -/
def netInt (s : Str) : Option Int :=
  let r := splitMinus s
  let v : Int := if r.1 then -(readNat r.2 : Int) else readNat r.2
  if r.2 ≠ [] ∧ r.2.all isDig = true ∧ -2147483648 ≤ v ∧ v ≤ 2147483647 then some v else none

/-- Digits, among which group separators are skipped behind the first digit. -/
def wholePart (grp : Char) (s : Str) : Str × Str :=
  match s with
  | [] => ([], [])
  | c :: _ =>
    if isDig c then (s.takeWhile (fun x => isDig x || x == grp), s.dropWhile (fun x => isDig x || x == grp)) else ([], s)

/-- `double.Parse` with `NumberStyles.Float | NumberStyles.AllowThousands`. -/
def netNum (dec grp : Char) (s : Str) : Option ℚ :=
  let r := splitMinus s
  let w := wholePart grp r.2
  let ds := w.1.filter isDig
  let fin (f : Str) : Option ℚ :=
    if f.all isDig = true ∧ (ds ≠ [] ∨ f ≠ []) then
      let v : ℚ := (readNat ds : ℚ) + (readNat f : ℚ) / 10 ^ f.length
      some (if r.1 then -v else v)
    else none
  match w.2 with
  | [] => fin []
  | c :: f => if c = dec then fin f else none

/-- `double.Parse` in the current culture. -/
def Culture.number (c : Culture) (s : Str) : Option ℚ := netNum c.dec c.grp s

/-- `double.TryParse` in the invariant culture (CNCMachinePoints.cs:122, 152). -/
def invariant (s : Str) : Option ℚ := netNum '.' ',' s

/-- The nearest whole number, the even one of two. -/
def nearest (x : ℚ) : Int :=
  let f := ⌊x⌋
  let r := x - f
  if r < 1 / 2 then f else if 1 / 2 < r then f + 1 else if f % 2 = 0 then f else f + 1

/-- The conversion to `float`; too large numbers are an exception. -/
def single (q : ℚ) : Option ℚ :=
  if q = 0 then some 0
  else
    let e := max (Int.log 2 |q| - 23) (-149)
    let r : ℚ := nearest (q / 2 ^ e) * 2 ^ e
    if 2 ^ 128 ≤ |r| then none else some r

/-- `float.Parse` in the current culture. -/
def Culture.float (c : Culture) (s : Str) : Option ℚ := (c.number s).bind single

/-- Equal names of items. -/
def sameName (a b : Str) : Bool := a.map Char.toLower == b.map Char.toLower

/-- `ComboBox.FindStringExact`: the value of the first item of that name; nothing is selected if there is none. -/
def select {α : Type} (items : List (Str × α)) (name : Str) : Option α := (items.find? (fun i => sameName i.1 name)).map (·.2)

/-! ## Data (NCSettingsDefinition.cs, parser_net/AllAttributesParser.cs:263-320) -/

/-- `Dictionary<string, T>` in the order of insertion. -/
abbrev Dict (α : Type) := List (Str × α)

/-- `dict[key]`, which throws when there is no such key. -/
def look {α : Type} (d : Dict α) (k : Str) : Option α := (d.find? (fun e => e.1 == k)).map (·.2)

/-- `dict[key] = value`. -/
def put {α : Type} : Dict α → Str → α → Dict α
  | [], k, v => [(k, v)]
  | e :: t, k, v => if e.1 = k then (k, v) :: t else e :: put t k v

/-- `enum Driver` (NCSettingsDefinition.cs:38-52). -/
inductive Driver where
  | of (d : EFanucParserType)
  | heidenhain
deriving DecidableEq, Repr

/-- `Driver.ToString()`. -/
def Driver.text : Driver → Str
  | .of d => d.toStr
  | .heidenhain => c!"heidenhain"

/-- `RotationDirection.ToString()` (AllAttributesParser.cs:386-391). -/
def directionText : ERotationDirection → Str
  | .Right => c!"right"
  | .Left => c!"left"
  | .Stop => c!"stop"

/-- `Kinematics` (AllAttributesParser.cs:275-291). -/
structure Kin where
  axes : Dict (ℚ × ℚ)
  maxFeed : ℚ
  maxFast : ℚ
  spindle : Int
  warehouse : Int
  exchangeTime : Int
  palletTime : Int
  measureTime : Int
  diameter2x : Bool
  autoMeasure : Bool
  palletCode : Str
  palletValue : Str
  measureCode : Str
  measureValue : Str
deriving DecidableEq

/-- `CncDefaultValues` (AllAttributesParser.cs:293-320). -/
structure Cnc where
  motion : EMotion
  plane : EWorkPlane
  units : EDriverUnits
  programming : EProgrammingType
  feedMode : EFeedMode
  direction : ERotationDirection
  depth : EDepthProgrammingType
  ret : EDrillGreturnMode
  rotation : Int
  cancel0 : Bool
  cancel1 : Bool
  cancel2 : Bool
  cancel3 : Bool
  cancelRapid : Bool
  operatorRotation : Bool
  toolExchanges : Bool
  autoRapid : Bool
deriving DecidableEq

/-- `NCSettingsFile` (NCSettingsDefinition.cs:225-239). -/
structure File where
  driver : Driver
  tool : Str
  toolId : Str
  ttype : EMachineToolType
  extras : Dict Bool
  kin : Kin
  cnc : Cnc
  exchange : Dict ℚ
  base : Dict ℚ
  zero : Dict ℚ
deriving DecidableEq

/-- `MachineToolData` (NCSettingsDefinition.cs:27-36). -/
structure Machine where
  ttype : EMachineToolType
  extras : Dict Bool
  kin : Kin
  cnc : Cnc
  exchange : Dict ℚ
  base : Dict ℚ

/-- `NCSettings` and `NCSettingsName` (NCSettingsDefinition.cs:125-152), as far as they are used. -/
structure Defs where
  drivers : List Driver
  driverName : Driver → Option Str
  machines : Dict Machine
  machineName : Dict Str
  extrasName : Dict Str
  kinLists : Dict (List Str)
  cncLists : Dict (List Str)
  cncNames : Dict (Dict Str)

/-! ## Controls -/

/-- The controls of the kinematics panel. -/
structure KinPanel where
  axes : List (Str × Str × Str)
  maxFeed : Str
  maxFast : Str
  spindle : Str
  warehouse : Str
  exchangeTime : Str
  palletTime : Str
  measureTime : Str
  diameter2x : Bool
  autoMeasure : Bool
  palletCode : Option Str
  palletValue : Str
  measureCode : Option Str
  measureValue : Str

/-- The controls of the panel of initial parameters: the values of the selected items, texts and boxes. -/
structure CncPanel where
  motion : Option Str
  plane : Option Str
  units : Option Str
  programming : Option Str
  feedMode : Option Str
  direction : Option Str
  depth : Option Str
  ret : Option Str
  rotation : Str
  cancel0 : Bool
  cancel1 : Bool
  cancel2 : Bool
  cancel3 : Bool
  cancelRapid : Bool
  operatorRotation : Bool
  toolExchanges : Bool
  autoRapid : Bool

/-- Three text boxes. -/
structure Boxes where
  x : Str
  y : Str
  z : Str

/-- The form. -/
structure Panels where
  driver : Option Driver
  machine : Option (Str × Machine)
  toolId : Str
  extras : Dict Bool
  kin : KinPanel
  cnc : CncPanel
  exchange : Boxes
  base : Boxes
  zero : Boxes

/-! ## Import -/

/-- The items of the list of drivers (CNCMachineTool.cs:58-85). -/
def driverItems (d : Defs) : Option (List (Str × Driver)) :=
  (d.drivers.filter (fun x => x ≠ .heidenhain)).mapM (fun x => (d.driverName x).map (fun n => (n, x)))

/-- The machines of a driver (CNCMachineTool.cs:98-125). -/
def offered : Driver → Str → EMachineToolType → Bool
  | .of .FanucMill, _, t | .of .GenericMill, _, t | .of .HaasMill, _, t | .of .MakinoMill, _, t => decide (t = .Mill)
  | .of .FanucLatheSystemA, _, t | .of .FanucLatheSystemB, _, t | .of .FanucLatheSystemC, _, t | .of .GenericLathe, _, t
  | .of .HaasLathe, _, t => decide (t = .Lathe)
  | .of .FanucMillturnSystemA, k, t | .of .FanucMillturnSystemB, k, t => decide (t = .Millturn ∧ k = c!"mill-turn_XYZBC")
  | .heidenhain, _, _ => true

/-- The items of the list of machines (CNCMachineTool.cs:93-130). -/
def machineItems (d : Defs) (v : Driver) : Option (List (Str × Str × Machine)) :=
  (d.machines.filter (fun m => offered v m.1 m.2.ttype)).mapM (fun m => (look d.machineName m.1).map (fun n => (n, m.1, m.2)))

/-- `FillComboBoxMachine`: the machine of the file, or the first one; without any machine an exception
(CNCMachineTool.cs:91-135). -/
def pickMachine (d : Defs) (f : File) (v : Driver) : Option (Option (Str × Machine)) := do
  let items ← machineItems d v
  if items.any (fun i => i.2.1 == f.tool) then do
    let n ← look d.machineName f.tool
    pure (select items n)
  else
    match items with
    | [] => none
    | i :: _ => pure (some i.2)

/-- The list of extras (CNCMachineTool.cs:160-166). -/
def pickExtras (d : Defs) (f : File) (k : Str) (m : Machine) : Option (Dict Bool) :=
  let es := if f.extras ≠ [] ∧ k = f.tool then f.extras else m.extras
  if es.all (fun e => (look d.extrasName e.1).isSome) then some es else none

/-- The name and the machine that are selected; without one the dictionary throws. -/
def Panels.tool (p : Panels) : Str := (p.machine.map (·.1)).getD []

/-- Whether the file is for the selected driver and machine (e.g. CNCKinematics.cs:90). -/
def applies (f : File) (v : Option Driver) (k : Str) : Bool :=
  decide (f.driver.text = (v.map Driver.text).getD []) && decide (f.tool = k)

/-- `FillData` of the kinematics (CNCKinematics.cs:98-105). -/
def kinItem (d : Defs) (name value : Str) : Option (Option Str) :=
  (look d.kinLists name).map (fun l => select (l.map (fun i => (i, i))) value)

/-- `SetDefaults` of the kinematics (CNCKinematics.cs:113-140). -/
def showKin (d : Defs) (c : Culture) (k : Kin) : Option KinPanel := do
  let pallet ← kinItem d c!"pallet_exchange_code" k.palletCode
  let measure ← kinItem d c!"tool_measurement_code" k.measureCode
  pure { axes := k.axes.map (fun a => (a.1, numText c.dec a.2.1, numText c.dec a.2.2)),
         maxFeed := numText c.dec k.maxFeed, maxFast := numText c.dec k.maxFast, spindle := intText k.spindle,
         warehouse := intText k.warehouse, exchangeTime := intText k.exchangeTime, palletTime := intText k.palletTime,
         measureTime := intText k.measureTime, diameter2x := k.diameter2x, autoMeasure := k.autoMeasure, palletCode := pallet,
         palletValue := k.palletValue, measureCode := measure, measureValue := k.measureValue }

/-- `FillData` of the initial parameters (CNCInitialParams.cs:88-96). -/
def cncItem (d : Defs) (name value : Str) : Option (Option Str) := do
  let l ← look d.cncLists name
  let ns ← look d.cncNames name
  let items ← l.mapM (fun i => (look ns i).map (fun n => (n, i)))
  let n ← look ns value
  pure (select items n)

/-- `SetDefaults` of the initial parameters (CNCInitialParams.cs:98-143). -/
def showCnc (d : Defs) (v : Cnc) : Option CncPanel := do
  let motion ← cncItem d c!"default_motion" v.motion.toStr
  let plane ← cncItem d c!"default_work_plane" v.plane.toStr
  let units ← cncItem d c!"default_driver_units" v.units.toStr
  let programming ← cncItem d c!"default_programming" v.programming.toStr
  let feedMode ← cncItem d c!"default_feed_mode" v.feedMode.toStr
  let direction ← cncItem d c!"default_rotation_direction" (directionText v.direction)
  let depth ← cncItem d c!"drill_cycle_z_value" v.depth.toStr
  let ret ← cncItem d c!"drill_cycle_return_value" v.ret.toStr
  pure { motion := motion, plane := plane, units := units, programming := programming, feedMode := feedMode,
         direction := direction, depth := depth, ret := ret, rotation := intText v.rotation, cancel0 := v.cancel0,
         cancel1 := v.cancel1, cancel2 := v.cancel2, cancel3 := v.cancel3, cancelRapid := v.cancelRapid,
         operatorRotation := v.operatorRotation, toolExchanges := v.toolExchanges, autoRapid := v.autoRapid }

/-- The loop of `ValidateInput` (CNCMachinePoints.cs:140-156). -/
def validateFrom (acc : Str) : Str → Str
  | [] => acc
  | c :: r =>
    if acc = [] ∧ c = '-' then validateFrom ['-'] r
    else if (invariant (acc ++ [c])).isSome then validateFrom (acc ++ [c]) r
    else validateFrom acc r

/-- A text set into a box of the machine points, after `TextChanged` (CNCMachinePoints.cs:80-85, 158-186). -/
def pointText (c : Culture) (q : ℚ) : Str := validateFrom [] (numText c.dec q)

/-- The boxes of a point (CNCMachinePoints.cs:80-85). -/
def showPoint (c : Culture) (p : Dict ℚ) : Option Boxes := do
  let x ← look p c!"X"
  let y ← look p c!"Y"
  let z ← look p c!"Z"
  pure ⟨pointText c x, pointText c y, pointText c z⟩

/-- A lathe or a mill-turn machine. -/
def turning (t : EMachineToolType) : Bool := decide (t = .Lathe) || decide (t = .Millturn)

/-- The dictionary throws unless the axis is there. -/
def needAxis (k : Kin) (a : Str) : Option Unit := (look k.axes a).map (fun _ => ())

/-- X and Y of the program zero (CNCProgramZero.cs:78-131). -/
def showZeroXY (c : Culture) (t : EMachineToolType) (k : Kin) (z : Dict ℚ) (old : Boxes) : Option (Str × Str) :=
  if turning t then pure (old.x, old.y) else do
    let x ← look z c!"X"
    let y ← look z c!"Y"
    let _ ← needAxis k c!"X"
    let _ ← needAxis k c!"Y"
    pure (numText c.dec x, numText c.dec y)

/-- `SetDefaults` of the program zero (CNCProgramZero.cs:78-131): the labels of the ranges are left out, but
the axes have to be there. -/
def showZero (c : Culture) (t : EMachineToolType) (k : Kin) (z : Dict ℚ) (old : Boxes) : Option Boxes := do
  let xy ← showZeroXY c t k z old
  let zz ← look z c!"Z"
  let _ ← needAxis k c!"Z"
  pure ⟨xy.1, xy.2, numText c.dec zz⟩

/-- `defaultProgramZeroData` (CNCProgramZero.cs:23). -/
def zeroDefault : Dict ℚ := [(c!"X", 0), (c!"Y", 0), (c!"Z", 0)]

/-- The panels behind the machine are filled (CNCKinematics.cs:88-96, CNCInitialParams.cs:82-86,
CNCMachinePoints.cs:65-70, CNCProgramZero.cs:66-76). -/
def fill (d : Defs) (c : Culture) (f : File) (p : Panels) : Option Panels := do
  let m ← look d.machines p.tool
  let own := applies f p.driver p.tool
  let kin ← showKin d c (if own && decide (f.kin.axes ≠ []) then f.kin else m.kin)
  let cnc ← showCnc d (if own then f.cnc else m.cnc)
  let pts := if own && decide (f.exchange ≠ []) then (f.exchange, f.base) else (m.exchange, m.base)
  let exchange ← showPoint c pts.1
  let base ← showPoint c pts.2
  let zero ← if own then showZero c f.ttype f.kin f.zero p.zero else showZero c m.ttype m.kin zeroDefault p.zero
  pure { p with kin := kin, cnc := cnc, exchange := exchange, base := base, zero := zero }

/-- The machine panel is set: the driver, then its machines and the extras (CNCMachineTool.cs:50-89, 137-166). -/
def setMachine (d : Defs) (f : File) (p : Panels) : Option Panels := do
  let items ← driverItems d
  let n ← d.driverName f.driver
  match select items n with
  | none => pure { p with driver := none, toolId := f.toolId }
  | some v => do
    let m ← pickMachine d f v
    match m with
    | none => pure { p with driver := some v, machine := none, toolId := f.toolId }
    | some m => do
      let es ← pickExtras d f m.1 m.2
      pure { p with driver := some v, machine := some m, toolId := f.toolId, extras := es }

/-- `buttonImport_Click` (NCSettingsForm.cs:206-220). -/
def importFile (d : Defs) (c : Culture) (f : File) (p : Panels) : Option Panels := do
  let p ← setMachine d f p
  fill d c f p

/-! ## Export -/

/-- An extra is ticked (CNCMachineTool.cs:243-271). -/
def Panels.has (p : Panels) (k : Str) : Bool := (look p.extras k).getD false

/-- `ReadData` of the kinematics for the axes (CNCKinematics.cs:291-299): a name that is there twice throws. -/
def readRanges (c : Culture) : List (Str × Str × Str) → Dict (ℚ × ℚ) → Option (Dict (ℚ × ℚ))
  | [], acc => some acc
  | (a, lo, hi) :: r, acc => do
    let l ← c.float lo
    let h ← c.float hi
    if (look acc a).isSome then none else readRanges c r (acc ++ [(a, (l, h))])

/-- The settings of the pallet changer (CNCKinematics.cs:251-300). -/
def readPallet (p : Panels) : Option (Int × Str × Str) :=
  if p.has c!"pallet_changer" then do
    let t ← netInt p.kin.palletTime
    let k ← p.kin.palletCode
    pure (t, k, p.kin.palletValue)
  else pure (0, [], [])

/-- The settings of the probe (CNCKinematics.cs:251-300). -/
def readProbe (p : Panels) : Option (Bool × Int × Str × Str) :=
  if p.has c!"cnc_probe" then do
    let t ← netInt p.kin.measureTime
    let k ← p.kin.measureCode
    pure (p.kin.autoMeasure, t, k, p.kin.measureValue)
  else pure (false, 0, [], [])

/-- `ReadData` of the kinematics (CNCKinematics.cs:251-300). -/
def readKin (c : Culture) (p : Panels) : Option Kin := do
  let maxFeed ← netInt p.kin.maxFeed
  let maxFast ← netInt p.kin.maxFast
  let spindle ← netInt p.kin.spindle
  let warehouse ← netInt p.kin.warehouse
  let exchangeTime ← netInt p.kin.exchangeTime
  let pallet ← readPallet p
  let probe ← readProbe p
  let axes ← readRanges c p.kin.axes []
  pure { axes := axes, maxFeed := maxFeed, maxFast := maxFast, spindle := spindle, warehouse := warehouse,
         exchangeTime := exchangeTime, palletTime := pallet.1, palletCode := pallet.2.1, palletValue := pallet.2.2,
         diameter2x := p.kin.diameter2x, autoMeasure := probe.1, measureTime := probe.2.1, measureCode := probe.2.2.1,
         measureValue := probe.2.2.2 }

/-- `Enum.Parse` of the selected item (CNCInitialParams.cs:166-169): the name of a constant. -/
def netEnum {α : Type} (all : List α) (text : α → Str) (s : Option Str) : Option α :=
  s.bind (fun t => all.find? (fun a => text a == t))

/-- `ReadData` of the initial parameters (CNCInitialParams.cs:171-192). -/
def readCnc (p : CncPanel) : Option Cnc := do
  let motion ← netEnum [.RapidTraverse, .LinearInterpolation] EMotion.toStr p.motion
  let plane ← netEnum [.XY, .XZ, .YZ] EWorkPlane.toStr p.plane
  let units ← netEnum [.Millimeter, .Inch] EDriverUnits.toStr p.units
  let programming ← netEnum [.Absolute, .Incremental] EProgrammingType.toStr p.programming
  let feedMode ← netEnum [.PerMinute, .PerRevolution] EFeedMode.toStr p.feedMode
  let rotation ← netInt p.rotation
  let direction ← netEnum [.Right, .Left, .Stop] directionText p.direction
  let depth ← netEnum [.Absolute, .Incremental] EDepthProgrammingType.toStr p.depth
  let ret ← netEnum [.G98, .G99] EDrillGreturnMode.toStr p.ret
  pure { motion := motion, plane := plane, units := units, programming := programming, feedMode := feedMode,
         direction := direction, depth := depth, ret := ret, rotation := rotation, cancel0 := p.cancel0, cancel1 := p.cancel1,
         cancel2 := p.cancel2, cancel3 := p.cancel3, cancelRapid := p.cancelRapid, operatorRotation := p.operatorRotation,
         toolExchanges := p.toolExchanges, autoRapid := p.autoRapid }

/-- `ReadData` of a coordinate (CNCMachinePoints.cs:119-125). -/
def readCoord (s : Str) : ℚ := (invariant s).getD 0

/-- `ReadData` of a point: other keys stay (CNCMachinePoints.cs:127-138). -/
def readPoint (b : Boxes) (old : Dict ℚ) : Dict ℚ :=
  put (put (put old c!"X" (readCoord b.x)) c!"Y" (readCoord b.y)) c!"Z" (readCoord b.z)

/-- X and Y of the program zero, which lathes do not have (CNCProgramZero.cs:138-154). -/
def readZeroXY (c : Culture) (t : EMachineToolType) (b : Boxes) : Option (ℚ × ℚ) :=
  if turning t then pure (0, 0) else do
    let x ← c.number b.x
    let y ← c.number b.y
    pure (x, y)

/-- `ReadData` of the program zero (CNCProgramZero.cs:138-154). -/
def readZero (c : Culture) (t : EMachineToolType) (b : Boxes) (old : Dict ℚ) : Option (Dict ℚ) := do
  let xy ← readZeroXY c t b
  let z ← c.number b.z
  pure (put (put (put old c!"X" xy.1) c!"Y" xy.2) c!"Z" z)

/-- `buttonExport_Click` (NCSettingsForm.cs:222-239): a copy of the file the form was opened with is changed. -/
def exportFile (d : Defs) (c : Culture) (o : File) (p : Panels) : Option File := do
  let v ← p.driver
  let m ← p.machine
  let kin ← readKin c p
  let cnc ← readCnc p.cnc
  let now ← look d.machines p.tool
  let zero ← readZero c now.ttype p.zero o.zero
  pure { driver := v, tool := m.1, toolId := p.toolId, ttype := m.2.ttype, extras := p.extras, kin := kin, cnc := cnc,
         exchange := readPoint p.exchange o.exchange, base := readPoint p.base o.base, zero := zero }

/-! ## The file as a tree -/

/-- A number as Json.NET writes it: with a decimal point. -/
def jsonNum (q : ℚ) : Str := let t := numText '.' q; if decimals q = 0 then t ++ c!".0" else t

/-- `true`, `false`. -/
def jsonBool (b : Bool) : Str := if b then c!"true" else c!"false"

/-- A leaf with a name. -/
def item (k t : Str) : Str × PTree := (k, .node t [])

/-- The object of a dictionary of numbers. -/
def numbers (d : Dict ℚ) : PTree := .node [] (d.map (fun e => item e.1 (jsonNum e.2)))

/-- The object of the kinematics. -/
def Kin.tree (k : Kin) : PTree := .node [] [
  (c!"cartesian_system_axis", .node [] (k.axes.map (fun a => (a.1, .node [] [item c!"range_min" (jsonNum a.2.1), item c!"range_max" (jsonNum a.2.2)])))),
  item c!"max_working_feed" (jsonNum k.maxFeed), item c!"max_fast_feed" (jsonNum k.maxFast),
  item c!"maximum_spindle_speed" (intText k.spindle), item c!"numer_of_items_in_the_warehouse" (intText k.warehouse),
  item c!"tool_exchange_time" (intText k.exchangeTime), item c!"pallet_exchange_time" (intText k.palletTime),
  item c!"tool_measurement_time" (intText k.measureTime), item c!"diameter_programming_2x" (jsonBool k.diameter2x),
  item c!"auto_measure_after_tool_selection" (jsonBool k.autoMeasure), item c!"pallet_exchange_code" k.palletCode,
  item c!"pallet_exchange_code_value" k.palletValue, item c!"tool_measurement_code" k.measureCode,
  item c!"tool_measurement_code_value" k.measureValue]

/-- The object of the default values; enumerations are written by name (`StringEnumConverter`). -/
def Cnc.tree (v : Cnc) : PTree := .node [] [
  item c!"default_motion" v.motion.toStr, item c!"default_work_plane" v.plane.toStr, item c!"default_driver_units" v.units.toStr,
  item c!"default_programming" v.programming.toStr, item c!"default_feed_mode" v.feedMode.toStr,
  item c!"default_rotation_direction" (directionText v.direction), item c!"drill_cycle_z_value" v.depth.toStr,
  item c!"drill_cycle_return_value" v.ret.toStr, item c!"default_rotation" (intText v.rotation),
  item c!"rapid_traverse_cancel_cycle" (jsonBool v.cancel0), item c!"linear_interpolation_cancel_cycle" (jsonBool v.cancel1),
  item c!"circular_interpolation_cw_cancel_cycle" (jsonBool v.cancel2),
  item c!"circular_interpolation_ccw_cancel_cycle" (jsonBool v.cancel3),
  item c!"cycle_cancel_starts_rapid_traverse" (jsonBool v.cancelRapid), item c!"operator_turns_on_rotation" (jsonBool v.operatorRotation),
  item c!"tool_number_executes_exchange" (jsonBool v.toolExchanges),
  item c!"auto_rapid_traverse_after_tool_exchange" (jsonBool v.autoRapid)]

/-- `Write` (NCSettingsDefinition.cs:241-246), read again as a tree; fields before properties. -/
def File.tree (f : File) : PTree := .node [] [
  item c!"version" c!"1.0", item c!"driver" f.driver.text, item c!"machine_tool" f.tool, item c!"machine_tool_id" f.toolId,
  item c!"machine_tool_type" f.ttype.toStr, (c!"extras", .node [] (f.extras.map (fun e => item e.1 (jsonBool e.2)))),
  (c!"machine_points_data", .node [] [(c!"tool_exchange_point", numbers f.exchange), (c!"machine_base_point", numbers f.base)]),
  (c!"kinematics", f.kin.tree), (c!"cnc_default_values", f.cnc.tree), (c!"zero_point", numbers f.zero)]

end NC.Form
