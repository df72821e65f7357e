import Verif.Form

/-!
# What the settings form has to keep

Independent of the controls: numbers that have finitely many decimals, numbers of single
precision, and when two files, or a file and settings, say the same.
-/

namespace NC.Spec.Form
open NC NC.Enums NC.AttrPath NC.Conf NC.Form

/-- A number with finitely many decimals. -/
def Finite (q : ℚ) : Prop := ∃ (m : Int) (k : Nat), q = m / 10 ^ k

/-- A number of single precision. -/
def Single (q : ℚ) : Prop := ∃ m e : Int, q = m * 2 ^ e ∧ |m| < 2 ^ 24 ∧ -149 ≤ e ∧ e ≤ 104

/-- A whole number of 32 bits. -/
def Small (z : Int) : Prop := -2147483648 ≤ z ∧ z ≤ 2147483647

/-- A whole number of 32 bits as a number. -/
def WholeSmall (q : ℚ) : Prop := ∃ z : Int, q = z ∧ Small z

/-- The first entry of a name. -/
inductive First {α : Type} : Dict α → Str → α → Prop
  | here (k : Str) (v : α) (d : Dict α) : First ((k, v) :: d) k v
  | there (k : Str) (v : α) (e : Str × α) (d : Dict α) : e.1 ≠ k → First d k v → First (e :: d) k v

/-- Two dictionaries have the same entries. -/
def SameDict {α : Type} (a b : Dict α) : Prop := ∀ k v, First a k v ↔ First b k v

/-- Two files say the same. -/
structure SameFile (a b : File) : Prop where
  driver : a.driver = b.driver
  tool : a.tool = b.tool
  toolId : a.toolId = b.toolId
  ttype : a.ttype = b.ttype
  extras : SameDict a.extras b.extras
  kin : a.kin = b.kin
  cnc : a.cnc = b.cnc
  exchange : SameDict a.exchange b.exchange
  base : SameDict a.base b.base
  zero : SameDict a.zero b.zero

/-- A map has the entries of a dictionary. -/
def Holds {α : Type} (m : VMap α) (d : Dict α) : Prop := ∀ k v, m.get k = some v ↔ First d k v

/-- The settings are those of the file. -/
structure Kept (f : File) (s : Settings) : Prop where
  driver : f.driver = .of s.driver
  tool : f.tool = s.tool.toStr
  ttype : f.ttype = s.ttype
  exchange : Holds s.exchange f.exchange
  base : Holds s.base f.base
  axes : Holds s.axes f.kin.axes
  feeds : s.maxFeed = f.kin.maxFeed ∧ s.maxFast = f.kin.maxFast
  numbers : s.maxSpindle = f.kin.spindle ∧ s.warehouse = f.kin.warehouse ∧ s.exchangeTime = f.kin.exchangeTime ∧
    s.palletTime = f.kin.palletTime ∧ s.measureTime = f.kin.measureTime ∧ s.rotation = f.cnc.rotation
  flags : s.diameter2x = f.kin.diameter2x ∧ s.autoMeasure = f.kin.autoMeasure ∧ s.cancel0 = f.cnc.cancel0 ∧
    s.cancel1 = f.cnc.cancel1 ∧ s.cancel2 = f.cnc.cancel2 ∧ s.cancel3 = f.cnc.cancel3 ∧ s.cancelRapid = f.cnc.cancelRapid ∧
    s.operatorRotation = f.cnc.operatorRotation ∧ s.toolExchanges = f.cnc.toolExchanges ∧ s.autoRapid = f.cnc.autoRapid
  texts : s.palletCode = f.kin.palletCode ∧ s.palletValue = f.kin.palletValue ∧ s.measureCode = f.kin.measureCode ∧
    s.measureValue = f.kin.measureValue
  modes : s.motion = f.cnc.motion ∧ s.plane = f.cnc.plane ∧ s.units = f.cnc.units ∧ s.programming = f.cnc.programming ∧
    s.feedMode = f.cnc.feedMode ∧ s.direction = f.cnc.direction ∧ s.depth = f.cnc.depth ∧ s.ret = f.cnc.ret
  zero : First f.zero c!"X" s.zeroX ∧ First f.zero c!"Y" s.zeroY ∧ First f.zero c!"Z" s.zeroZ

/-- A known file: the server has the driver and the machine, numbers have finitely many decimals or fit, and the
zero point has its coordinates. -/
structure Proper (f : File) : Prop where
  driver : ∃ v : EFanucParserType, f.driver = .of v
  tool : ∃ t : EMachineTool, f.tool = t.toStr
  exchange : ∀ e ∈ f.exchange, Finite e.2
  base : ∀ e ∈ f.base, Finite e.2
  zeroes : ∀ e ∈ f.zero, Finite e.2
  axes : ∀ e ∈ f.kin.axes, Finite e.2.1 ∧ Finite e.2.2
  feeds : Finite f.kin.maxFeed ∧ Finite f.kin.maxFast
  numbers : Small f.kin.spindle ∧ Small f.kin.warehouse ∧ Small f.kin.exchangeTime ∧ Small f.kin.palletTime ∧
    Small f.kin.measureTime ∧ Small f.cnc.rotation
  zero : ∀ a ∈ [c!"X", c!"Y", c!"Z"], ∃ q, First f.zero a q

/-- What is selected in the form is an item of its lists, and the machines are known to the server. -/
structure Chosen (d : Defs) (p : Panels) : Prop where
  driver : p.driver ≠ some .heidenhain
  machine : ∀ k m, p.machine = some (k, m) → (k, m) ∈ d.machines
  known : ∀ e ∈ d.machines, ∃ t : EMachineTool, e.1 = t.toStr

/-- Names that differ in more than the case of letters. -/
def Apart (a b : Str) : Prop := a.map Char.toLower ≠ b.map Char.toLower

/-- A value of a list of the initial parameters, whose items have different names. -/
def Offered (d : Defs) (list value : Str) : Prop :=
  ∃ l ns, First d.cncLists list l ∧ First d.cncNames list ns ∧ value ∈ l ∧ (∀ i ∈ l, ∃ n, First ns i n) ∧
    ∀ i ∈ l, ∀ n m, i ≠ value → First ns i n → First ns value m → Apart n m

/-- A value of a list of the kinematics. -/
def Choice (d : Defs) (list value : Str) : Prop :=
  ∃ l, First d.kinLists list l ∧ value ∈ l ∧ ∀ i ∈ l, i ≠ value → Apart i value

/-- The nearest number of single precision. -/
def Nearest (q r : ℚ) : Prop := Single r ∧ ∀ s, Single s → |r - q| ≤ |s - q|

/-- The number of decimals. -/
def Decimals (q : ℚ) (k : Nat) : Prop := (∃ z : Int, q * 10 ^ k = z) ∧ ∀ j, (∃ z : Int, q * 10 ^ j = z) → k ≤ j

/-- What becomes of a coordinate of a machine point. -/
def Coord : Culture → ℚ → ℚ → Prop
  | .english, q, r => r = q
  | .polish, q, r => ∃ k, Decimals q k ∧ r = q * 10 ^ k

/-- A lathe or a mill-turn machine. -/
def Turns (t : EMachineToolType) : Prop := t = .Lathe ∨ t = .Millturn

/-- Definitions that name what the file selects, and a file that is complete. -/
structure Importable (d : Defs) (f : File) (m : Machine) : Prop where
  driver : f.driver ∈ d.drivers ∧ f.driver ≠ .heidenhain
  driverNames : ∀ v ∈ d.drivers, v ≠ .heidenhain → ∃ n, d.driverName v = some n
  driversApart : ∀ v ∈ d.drivers, ∀ n k, v ≠ f.driver → d.driverName v = some n → d.driverName f.driver = some k → Apart n k
  machine : First d.machines f.tool m
  suits : offered f.driver f.tool m.ttype = true
  machineNames : ∀ e ∈ d.machines, ∃ n, First d.machineName e.1 n
  machinesApart : ∀ e ∈ d.machines, ∀ n k, e ≠ (f.tool, m) → First d.machineName e.1 n → First d.machineName f.tool k → Apart n k
  ttype : f.ttype = m.ttype
  extras : f.extras ≠ [] ∧ ∀ e ∈ f.extras, ∃ n, First d.extrasName e.1 n
  pallet : Choice d c!"pallet_exchange_code" f.kin.palletCode
  measure : Choice d c!"tool_measurement_code" f.kin.measureCode
  motion : Offered d c!"default_motion" f.cnc.motion.toStr
  plane : Offered d c!"default_work_plane" f.cnc.plane.toStr
  units : Offered d c!"default_driver_units" f.cnc.units.toStr
  programming : Offered d c!"default_programming" f.cnc.programming.toStr
  feedMode : Offered d c!"default_feed_mode" f.cnc.feedMode.toStr
  direction : Offered d c!"default_rotation_direction" (directionText f.cnc.direction)
  depth : Offered d c!"drill_cycle_z_value" f.cnc.depth.toStr
  ret : Offered d c!"drill_cycle_return_value" f.cnc.ret.toStr
  axes : (f.kin.axes.map (·.1)).Nodup ∧ (∀ e ∈ f.kin.axes, Finite e.2.1 ∧ |e.2.1| ≤ 2 ^ 127 ∧ Finite e.2.2 ∧ |e.2.2| ≤ 2 ^ 127) ∧
    ∀ a ∈ [c!"X", c!"Y", c!"Z"], (Turns f.ttype → a = c!"Z") → ∃ r, First f.kin.axes a r
  feeds : Finite f.kin.maxFeed ∧ Finite f.kin.maxFast
  numbers : Small f.kin.spindle ∧ Small f.kin.warehouse ∧ Small f.kin.exchangeTime ∧ Small f.kin.palletTime ∧
    Small f.kin.measureTime ∧ Small f.cnc.rotation
  exchange : ∀ a ∈ [c!"X", c!"Y", c!"Z"], ∃ q, First f.exchange a q ∧ Finite q
  base : ∀ a ∈ [c!"X", c!"Y", c!"Z"], ∃ q, First f.base a q ∧ Finite q
  zero : ∀ a ∈ [c!"X", c!"Y", c!"Z"], ∃ q, First f.zero a q ∧ Finite q

/-- A point of the exported file: X, Y and Z are those of the form, the others those of the file it was opened with. -/
def PointBack (c : Culture) (p o r : Dict ℚ) : Prop :=
  (∀ a ∈ [c!"X", c!"Y", c!"Z"], ∀ q, First p a q → ∃ v, Coord c q v ∧ First r a v) ∧
    ∀ a, a ∉ [c!"X", c!"Y", c!"Z"] → ∀ v, First r a v ↔ First o a v

/-- What is exported after an import. -/
structure Back (c : Culture) (f o r : File) : Prop where
  machine : r.driver = f.driver ∧ r.tool = f.tool ∧ r.toolId = f.toolId ∧ r.ttype = f.ttype ∧ r.extras = f.extras
  cnc : r.cnc = f.cnc
  axes : List.Forall₂ (fun a b : Str × ℚ × ℚ => b.1 = a.1 ∧ Nearest a.2.1 b.2.1 ∧ Nearest a.2.2 b.2.2) f.kin.axes r.kin.axes
  kin : r.kin.maxFeed = f.kin.maxFeed ∧ r.kin.maxFast = f.kin.maxFast ∧ r.kin.spindle = f.kin.spindle ∧
    r.kin.warehouse = f.kin.warehouse ∧ r.kin.exchangeTime = f.kin.exchangeTime ∧ r.kin.diameter2x = f.kin.diameter2x
  pallet : First f.extras c!"pallet_changer" true → r.kin.palletTime = f.kin.palletTime ∧ r.kin.palletCode = f.kin.palletCode ∧
    r.kin.palletValue = f.kin.palletValue
  noPallet : ¬ First f.extras c!"pallet_changer" true → r.kin.palletTime = 0 ∧ r.kin.palletCode = [] ∧ r.kin.palletValue = []
  probe : First f.extras c!"cnc_probe" true → r.kin.autoMeasure = f.kin.autoMeasure ∧ r.kin.measureTime = f.kin.measureTime ∧
    r.kin.measureCode = f.kin.measureCode ∧ r.kin.measureValue = f.kin.measureValue
  noProbe : ¬ First f.extras c!"cnc_probe" true → r.kin.autoMeasure = false ∧ r.kin.measureTime = 0 ∧ r.kin.measureCode = [] ∧
    r.kin.measureValue = []
  exchange : PointBack c f.exchange o.exchange r.exchange
  base : PointBack c f.base o.base r.base
  zero : (Turns f.ttype → First r.zero c!"X" 0 ∧ First r.zero c!"Y" 0 ∧ ∀ q, First f.zero c!"Z" q → First r.zero c!"Z" q) ∧
    (¬ Turns f.ttype → ∀ a ∈ [c!"X", c!"Y", c!"Z"], ∀ q, First f.zero a q → First r.zero a q) ∧
    ∀ a, a ∉ [c!"X", c!"Y", c!"Z"] → ∀ v, First r.zero a v ↔ First o.zero a v

end NC.Spec.Form
