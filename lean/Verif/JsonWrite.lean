import Verif.JsonFile
import Verif.NetFiles

/-!
# The text of a file written by Json.NET

`JsonConvert.SerializeObject(…, Formatting.Indented)` and `File.WriteAllText` (cmtconfig/NCSettingsDefinition.cs:241-246,
parser_net/PredefinedBlocks.cs:83-84).  Json.NET is not part of the repository; its writer is modelled as documented: members on
lines of their own, indented by two blanks for each level, a blank behind the colon, `{}` and `[]` without members.

Simplified: texts are bytes in UTF-8; the escapes of U+0085, U+2028 and U+2029 are left out; the end of a line is
`Environment.NewLine`, a parameter.
-/

namespace NC.JFile
open NC NC.Enums NC.Conf

/-- A value of JSON. -/
inductive J where
  | str (s : Str)
  | num (t : Str)
  | bool (b : Bool)
  | null
  | obj (m : List (Str × J))
  | arr (l : List J)

mutual

/-- The tree that boost keeps of a value. -/
def J.tree : J → PTree
  | .str s => .node s []
  | .num t => .node t []
  | .bool b => .node (Form.jsonBool b) []
  | .null => .node c!"null" []
  | .obj m => .node [] (treeM m)
  | .arr l => .node [] (treeA l)

/-- Members. -/
def treeM : List (Str × J) → List (Str × PTree)
  | [] => []
  | (k, v) :: l => (k, v.tree) :: treeM l

/-- Elements. -/
def treeA : List J → List (Str × PTree)
  | [] => []
  | v :: l => ([], v.tree) :: treeA l

end

/-- A digit of base 16. -/
def hexChr (n : Nat) : Char := if n < 10 then Char.ofNat (48 + n) else Char.ofNat (87 + n)

/-- `WriteEscapedJavaScriptString`, one character. -/
def escChar (c : Char) : Str :=
  if c = '"' then ['\\', '"'] else if c = '\\' then ['\\', '\\'] else if c = '\n' then ['\\', 'n'] else if c = '\r' then ['\\', 'r']
  else if c = '\t' then ['\\', 't'] else if c = '\x08' then ['\\', 'b'] else if c = '\x0c' then ['\\', 'f']
  else if c.toNat < 32 then ['\\', 'u', '0', '0', hexChr (c.toNat / 16), hexChr (c.toNat % 16)]
  else [c]

/-- A string with its quotes. -/
def quote (s : Str) : Str := '"' :: (s.flatMap escChar ++ ['"'])

/-- A new line with its indentation. -/
def brk (nl : Str) (d : Nat) : Str := nl ++ List.replicate (2 * d) ' '

mutual

/-- `JsonTextWriter` with `Formatting.Indented`. -/
def J.write (nl : Str) (d : Nat) : J → Str
  | .str s => quote s
  | .num t => t
  | .bool b => Form.jsonBool b
  | .null => c!"null"
  | .obj m => '{' :: (writeM nl d m ++ ['}'])
  | .arr l => '[' :: (writeA nl d l ++ [']'])

/-- Members. -/
def writeM (nl : Str) (d : Nat) : List (Str × J) → Str
  | [] => []
  | (k, v) :: l => brk nl (d + 1) ++ (quote k ++ ':' :: ' ' :: (v.write nl (d + 1) ++
      (match l with
       | [] => brk nl d
       | _ :: _ => ',' :: writeM nl d l)))

/-- Elements. -/
def writeA (nl : Str) (d : Nat) : List J → Str
  | [] => []
  | v :: l => brk nl (d + 1) ++ (v.write nl (d + 1) ++
      (match l with
       | [] => brk nl d
       | _ :: _ => ',' :: writeA nl d l))

end

end NC.JFile

namespace NC.Form
open NC NC.Enums NC.Conf NC.JFile

/-- A dictionary of numbers. -/
def numbersJ (d : Dict ℚ) : J := .obj (d.map (fun e => (e.1, .num (jsonNum e.2))))

/-- The kinematics (the members of `Kin.tree`). -/
def Kin.json (k : Kin) : J := .obj [
  (c!"cartesian_system_axis", .obj (k.axes.map (fun a => (a.1, .obj [(c!"range_min", .num (jsonNum a.2.1)), (c!"range_max", .num (jsonNum a.2.2))])))),
  (c!"max_working_feed", .num (jsonNum k.maxFeed)), (c!"max_fast_feed", .num (jsonNum k.maxFast)),
  (c!"maximum_spindle_speed", .num (intText k.spindle)), (c!"numer_of_items_in_the_warehouse", .num (intText k.warehouse)),
  (c!"tool_exchange_time", .num (intText k.exchangeTime)), (c!"pallet_exchange_time", .num (intText k.palletTime)),
  (c!"tool_measurement_time", .num (intText k.measureTime)), (c!"diameter_programming_2x", .bool k.diameter2x),
  (c!"auto_measure_after_tool_selection", .bool k.autoMeasure), (c!"pallet_exchange_code", .str k.palletCode),
  (c!"pallet_exchange_code_value", .str k.palletValue), (c!"tool_measurement_code", .str k.measureCode),
  (c!"tool_measurement_code_value", .str k.measureValue)]

/-- The default values; enumerations are strings (`StringEnumConverter`). -/
def Cnc.json (v : Cnc) : J := .obj [
  (c!"default_motion", .str v.motion.toStr), (c!"default_work_plane", .str v.plane.toStr), (c!"default_driver_units", .str v.units.toStr),
  (c!"default_programming", .str v.programming.toStr), (c!"default_feed_mode", .str v.feedMode.toStr),
  (c!"default_rotation_direction", .str (directionText v.direction)), (c!"drill_cycle_z_value", .str v.depth.toStr),
  (c!"drill_cycle_return_value", .str v.ret.toStr), (c!"default_rotation", .num (intText v.rotation)),
  (c!"rapid_traverse_cancel_cycle", .bool v.cancel0), (c!"linear_interpolation_cancel_cycle", .bool v.cancel1),
  (c!"circular_interpolation_cw_cancel_cycle", .bool v.cancel2),
  (c!"circular_interpolation_ccw_cancel_cycle", .bool v.cancel3),
  (c!"cycle_cancel_starts_rapid_traverse", .bool v.cancelRapid), (c!"operator_turns_on_rotation", .bool v.operatorRotation),
  (c!"tool_number_executes_exchange", .bool v.toolExchanges),
  (c!"auto_rapid_traverse_after_tool_exchange", .bool v.autoRapid)]

/-- `NCSettingsFile` (NCSettingsDefinition.cs:225-239); fields before properties. -/
def File.json (f : File) : J := .obj [
  (c!"version", .str c!"1.0"), (c!"driver", .str f.driver.text), (c!"machine_tool", .str f.tool), (c!"machine_tool_id", .str f.toolId),
  (c!"machine_tool_type", .str f.ttype.toStr), (c!"extras", .obj (f.extras.map (fun e => (e.1, .bool e.2)))),
  (c!"machine_points_data", .obj [(c!"tool_exchange_point", numbersJ f.exchange), (c!"machine_base_point", numbersJ f.base)]),
  (c!"kinematics", f.kin.json), (c!"cnc_default_values", f.cnc.json), (c!"zero_point", numbersJ f.zero)]

/-- `Write` (NCSettingsDefinition.cs:241-246): the bytes of the file. -/
def File.text (nl : Str) (f : File) : Str := f.json.write nl 0

end NC.Form
