import Verif.Settings
import Verif.AttrPathProofs

/-!
# What a settings file says

Independent of the reader: names are looked up from the root, a number is what its
digits say, and a name used twice means the first one.
-/

namespace NC.Spec.Conf
open NC NC.Enums NC.AttrPath NC.Conf

/-- The member of a tree under a list of names. -/
inductive At : PTree → List Str → PTree → Prop
  | here (t : PTree) : At t [] t
  | there (d : Str) (pre : List (Str × PTree)) (k : Str) (c : PTree) (post : List (Str × PTree)) (p : List Str) (r : PTree) :
      (∀ e ∈ pre, e.1 ≠ k) → At c p r → At (.node d (pre ++ (k, c) :: post)) (k :: p) r

/-- White space only. -/
def Blank (s : Str) : Prop := ∀ c ∈ s, isSp c = true

/-- Digits only. -/
def Digits (s : Str) : Prop := ∀ c ∈ s, isDig c = true

/-- A sign in front of a number, and whether it is a minus. -/
def Sign (s : Str) (neg : Bool) : Prop := (s = [] ∧ neg = false) ∨ (s = c!"+" ∧ neg = false) ∨ (s = c!"-" ∧ neg = true)

/-- The number with a sign. -/
def withSign (neg : Bool) (q : ℚ) : ℚ := if neg then -q else q

/-- A whole number, possibly with white space around it. -/
def Whole (s : Str) (z : Int) : Prop :=
  ∃ a g neg d b, s = a ++ (g ++ (d ++ b)) ∧ Blank a ∧ Sign g neg ∧ Digits d ∧ d ≠ [] ∧ Blank b ∧
    (z : ℚ) = withSign neg (readNat d)

/-- A whole number that fits a C++ `int`. -/
def Fits (s : Str) (z : Int) : Prop := Whole s z ∧ -2147483648 ≤ z ∧ z ≤ 2147483647

/-- An exponent: nothing, or `e` with a whole number. -/
def Exponent (s : Str) (x : Int) : Prop :=
  (s = [] ∧ x = 0) ∨
    ∃ c g neg d, (c = 'e' ∨ c = 'E') ∧ s = c :: (g ++ d) ∧ Sign g neg ∧ Digits d ∧ d ≠ [] ∧ (x : ℚ) = withSign neg (readNat d)

/-- A fraction: nothing, or a dot and digits. -/
def Fraction (s d : Str) : Prop := (s = [] ∧ d = []) ∨ (s = '.' :: d ∧ Digits d)

/-- A decimal number, possibly with white space around it. -/
def Number (s : Str) (q : ℚ) : Prop :=
  ∃ a g neg i f fd x e b, s = a ++ (g ++ (i ++ (f ++ (x ++ b)))) ∧ Blank a ∧ Sign g neg ∧ Digits i ∧ Fraction f fd ∧
    (i ≠ [] ∨ fd ≠ []) ∧ Exponent x e ∧ Blank b ∧
    q = withSign neg (((readNat i : ℚ) + (readNat fd : ℚ) / 10 ^ fd.length) * 10 ^ e)

/-- The word of a truth value. -/
def truthWord (b : Bool) : Str := if b then c!"true" else c!"false"

/-- A truth value: 1 or 0, or the word, in front of which any other number is overlooked. -/
def Truth (s : Str) (v : Bool) : Prop :=
  (∃ z : Int, Whole s z ∧ ((z = 0 ∧ v = false) ∨ (z = 1 ∧ v = true))) ∨
  (∃ a g neg d m b, s = a ++ (g ++ (d ++ (m ++ (truthWord v ++ b)))) ∧ Blank a ∧ Sign g neg ∧ Digits d ∧ Blank m ∧ Blank b ∧
    (d ≠ [] → withSign neg (readNat d) ≠ 0 ∧ withSign neg (readNat d) ≠ 1))

/-- A single word, possibly with white space around it. -/
def Word (s w : Str) : Prop :=
  ∃ a b, s = a ++ (w ++ b) ∧ Blank a ∧ Blank b ∧ w ≠ [] ∧ ∀ c ∈ w, isSp c = false

/-- The names of the directions. -/
def directionNames : ERotationDirection → List Str
  | .Right => [c!"right", c!"M03", c!"CLW"]
  | .Left => [c!"left", c!"M04", c!"CCLW"]
  | .Stop => [c!"stop", c!"M05"]

/-- A section that lists values by name: every member has a value, the map has the first one of each name. -/
def Listed {V : Type} (Val : PTree → V → Prop) (t : PTree) (m : VMap V) : Prop :=
  VMap.Sorted m ∧ (∀ e ∈ t.kids, ∃ v, Val e.2 v) ∧ ∀ a v, m.get a = some v ↔ ∃ c, At t [a] c ∧ Val c v

/-- The two ends of an axis. -/
def Ends (t : PTree) (r : ℚ × ℚ) : Prop :=
  (∃ n, At t [c!"range_min"] n ∧ Number n.data r.1) ∧ ∃ n, At t [c!"range_max"] n ∧ Number n.data r.2

/-- Single settings: where they are, and what their text means. -/
def fields (s : Settings) : List (List Str × (Str → Prop)) :=
  [([c!"machine_tool"], fun x => Word x s.tool.toStr),
   ([c!"machine_tool_type"], fun x => Word x s.ttype.toStr),
   ([c!"driver"], fun x => Word x s.driver.toStr),
   ([c!"kinematics", c!"max_working_feed"], fun x => Number x s.maxFeed),
   ([c!"kinematics", c!"max_fast_feed"], fun x => Number x s.maxFast),
   ([c!"kinematics", c!"maximum_spindle_speed"], fun x => Fits x s.maxSpindle),
   ([c!"kinematics", c!"numer_of_items_in_the_warehouse"], fun x => Fits x s.warehouse),
   ([c!"kinematics", c!"tool_exchange_time"], fun x => Fits x s.exchangeTime),
   ([c!"kinematics", c!"pallet_exchange_time"], fun x => Fits x s.palletTime),
   ([c!"kinematics", c!"tool_measurement_time"], fun x => Fits x s.measureTime),
   ([c!"kinematics", c!"diameter_programming_2x"], fun x => Truth x s.diameter2x),
   ([c!"kinematics", c!"auto_measure_after_tool_selection"], fun x => Truth x s.autoMeasure),
   ([c!"kinematics", c!"pallet_exchange_code"], fun x => x = s.palletCode),
   ([c!"kinematics", c!"pallet_exchange_code_value"], fun x => x = s.palletValue),
   ([c!"kinematics", c!"tool_measurement_code"], fun x => x = s.measureCode),
   ([c!"kinematics", c!"tool_measurement_code_value"], fun x => x = s.measureValue),
   ([c!"cnc_default_values", c!"default_motion"], fun x => Word x s.motion.toStr),
   ([c!"cnc_default_values", c!"default_work_plane"], fun x => Word x s.plane.toStr),
   ([c!"cnc_default_values", c!"default_driver_units"], fun x => Word x s.units.toStr),
   ([c!"cnc_default_values", c!"default_programming"], fun x => Word x s.programming.toStr),
   ([c!"cnc_default_values", c!"default_feed_mode"], fun x => Word x s.feedMode.toStr),
   ([c!"cnc_default_values", c!"default_rotation_direction"], fun x => ∃ w ∈ directionNames s.direction, Word x w),
   ([c!"cnc_default_values", c!"drill_cycle_z_value"], fun x => Word x s.depth.toStr),
   ([c!"cnc_default_values", c!"drill_cycle_return_value"], fun x => Word x s.ret.toStr),
   ([c!"cnc_default_values", c!"default_rotation"], fun x => Fits x s.rotation),
   ([c!"cnc_default_values", c!"rapid_traverse_cancel_cycle"], fun x => Truth x s.cancel0),
   ([c!"cnc_default_values", c!"linear_interpolation_cancel_cycle"], fun x => Truth x s.cancel1),
   ([c!"cnc_default_values", c!"circular_interpolation_cw_cancel_cycle"], fun x => Truth x s.cancel2),
   ([c!"cnc_default_values", c!"circular_interpolation_ccw_cancel_cycle"], fun x => Truth x s.cancel3),
   ([c!"cnc_default_values", c!"cycle_cancel_starts_rapid_traverse"], fun x => Truth x s.cancelRapid),
   ([c!"cnc_default_values", c!"operator_turns_on_rotation"], fun x => Truth x s.operatorRotation),
   ([c!"cnc_default_values", c!"tool_number_executes_exchange"], fun x => Truth x s.toolExchanges),
   ([c!"cnc_default_values", c!"auto_rapid_traverse_after_tool_exchange"], fun x => Truth x s.autoRapid),
   ([c!"zero_point", c!"X"], fun x => Number x s.zeroX),
   ([c!"zero_point", c!"Y"], fun x => Number x s.zeroY),
   ([c!"zero_point", c!"Z"], fun x => Number x s.zeroZ)]

/-- The tree says what the settings are. -/
structure Written (t : PTree) (s : Settings) : Prop where
  single : ∀ f ∈ fields s, ∃ n, At t f.1 n ∧ f.2 n.data
  exchange : ∃ n, At t [c!"machine_points_data", c!"tool_exchange_point"] n ∧ Listed (fun c q => Number c.data q) n s.exchange
  base : ∃ n, At t [c!"machine_points_data", c!"machine_base_point"] n ∧ Listed (fun c q => Number c.data q) n s.base
  axes : ∃ n, At t [c!"kinematics", c!"cartesian_system_axis"] n ∧ Listed Ends n s.axes

/-- What the text at a place says. -/
def Says (t : PTree) (p : List Str) (P : Str → Prop) : Prop := ∃ n, At t p n ∧ P n.data

/-- One of some words is written, and it has this meaning. -/
def Named {α : Type} (l : List (Str × α)) (v : α) (x : Str) : Prop := ∃ w, (w, v) ∈ l ∧ Word x w

/-- The G codes in force before the first block, by the words for them. -/
def motionCodes : List (Str × Int) := [(c!"rapid_traverse", 0), (c!"linear_interpolation", 1)]
def planeCodes : List (Str × Int) := [(c!"XY", 17), (c!"XZ", 18), (c!"YZ", 19)]
def distanceCodes : List (Str × Int) := [(c!"absolute", 90), (c!"incremental", 91)]
def feedCodes : List (Str × Int) := [(c!"feed_per_minute", 94), (c!"feed_per_revolution", 95)]
def returnCodes : List (Str × Int) := [(c!"beginning", 98), (c!"point_r", 99)]

mutual
/-- The same tree up to the order of the members, whose names differ. -/
inductive Same : PTree → PTree → Prop
  | mk (d : Str) (k l m : List (Str × PTree)) : (k.map (·.1)).Nodup → k.Perm l → SameList l m → Same (.node d k) (.node d m)
/-- The same members. -/
inductive SameList : List (Str × PTree) → List (Str × PTree) → Prop
  | nil : SameList [] []
  | cons (k : Str) (a b : PTree) (l m : List (Str × PTree)) : Same a b → SameList l m → SameList ((k, a) :: l) ((k, b) :: m)
end

end NC.Spec.Conf
