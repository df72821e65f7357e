import Verif.Base

/-!
# Configuration enumerations and their names

Transcription of the `to_string` / `to_X` pairs.  `std::invalid_argument` is
an exception carrying the message.  `to_string` of a value outside the
enumeration (only possible by casting) is not modelled.  The word types
(fanuc/AllAttributesParserDefines.cpp) use the enumeration of `Base`.
-/

namespace NC.Enums
open NC

/-- `ECncType` (declared in the header of parser/GeneralParserDefines.cpp). -/
inductive ECncType where
  | Fanuc
  | Generic
  | Haas
  | Heidenhain
  | Makino
deriving DecidableEq, Repr

/-- `to_string` (parser/GeneralParserDefines.cpp:12-29). -/
def ECncType.toStr : ECncType → Str
  | .Fanuc => c!"fanuc"
  | .Generic => c!"generic"
  | .Haas => c!"haas"
  | .Heidenhain => c!"heidenhain"
  | .Makino => c!"makino"

/-- `to_ECncType` (parser/GeneralParserDefines.cpp:31-45). -/
def ECncType.ofStr (s : Str) : Out Str ECncType :=
  if s = c!"fanuc" then .ok .Fanuc else
  if s = c!"generic" then .ok .Generic else
  if s = c!"haas" then .ok .Haas else
  if s = c!"heidenhain" then .ok .Heidenhain else
  if s = c!"makino" then .ok .Makino else
  .throw (c!"Unsupported ECncType value: " ++ s)

/-- `EFanucParserType` (declared in the header of parser/GeneralParserDefines.cpp). -/
inductive EFanucParserType where
  | FanucLatheSystemA
  | FanucLatheSystemB
  | FanucLatheSystemC
  | FanucMill
  | FanucMillturnSystemA
  | FanucMillturnSystemB
  | GenericLathe
  | GenericMill
  | HaasLathe
  | HaasMill
  | MakinoMill
deriving DecidableEq, Repr

/-- `to_string` (parser/GeneralParserDefines.cpp:50-79). -/
def EFanucParserType.toStr : EFanucParserType → Str
  | .FanucLatheSystemA => c!"fanuc_lathe_system_a"
  | .FanucLatheSystemB => c!"fanuc_lathe_system_b"
  | .FanucLatheSystemC => c!"fanuc_lathe_system_c"
  | .FanucMill => c!"fanuc_mill"
  | .FanucMillturnSystemA => c!"fanuc_millturn_system_a"
  | .FanucMillturnSystemB => c!"fanuc_millturn_system_b"
  | .GenericLathe => c!"generic_lathe"
  | .GenericMill => c!"generic_mill"
  | .HaasLathe => c!"haas_lathe"
  | .HaasMill => c!"haas_mill"
  | .MakinoMill => c!"makino_mill"

/-- `to_EFanucParserType` (parser/GeneralParserDefines.cpp:81-107). -/
def EFanucParserType.ofStr (s : Str) : Out Str EFanucParserType :=
  if s = c!"fanuc_lathe_system_a" then .ok .FanucLatheSystemA else
  if s = c!"fanuc_lathe_system_b" then .ok .FanucLatheSystemB else
  if s = c!"fanuc_lathe_system_c" then .ok .FanucLatheSystemC else
  if s = c!"fanuc_mill" then .ok .FanucMill else
  if s = c!"fanuc_millturn_system_a" then .ok .FanucMillturnSystemA else
  if s = c!"fanuc_millturn_system_b" then .ok .FanucMillturnSystemB else
  if s = c!"generic_lathe" then .ok .GenericLathe else
  if s = c!"generic_mill" then .ok .GenericMill else
  if s = c!"haas_lathe" then .ok .HaasLathe else
  if s = c!"haas_mill" then .ok .HaasMill else
  if s = c!"makino_mill" then .ok .MakinoMill else
  .throw (c!"Unsupported EFanucParserType value: " ++ s)

/-- `EMachineToolType` (declared in the header of parser/GeneralParserDefines.cpp). -/
inductive EMachineToolType where
  | Mill
  | Lathe
  | Millturn
deriving DecidableEq, Repr

/-- `to_string` (parser/GeneralParserDefines.cpp:112-125). -/
def EMachineToolType.toStr : EMachineToolType → Str
  | .Mill => c!"mill"
  | .Lathe => c!"lathe"
  | .Millturn => c!"millturn"

/-- `to_EMachineToolType` (parser/GeneralParserDefines.cpp:127-137). -/
def EMachineToolType.ofStr (s : Str) : Out Str EMachineToolType :=
  if s = c!"mill" then .ok .Mill else
  if s = c!"lathe" then .ok .Lathe else
  if s = c!"millturn" then .ok .Millturn else
  .throw (c!"Unsupported EMachineToolType value: " ++ s)

/-- `EMachineTool` (declared in the header of parser/GeneralParserDefines.cpp). -/
inductive EMachineTool where
  | mill_3axis
  | mill_4axis
  | mill_4axis_horizontal
  | mill_4axis_horizontal_pinola
  | mill_4axis_head_gantry
  | mill_5axis_head_head_gantry
  | mill_5axis_head_table_gantry
  | mill_5axis_table_table
  | mill_5axis_table_tilt
  | mill_5axis_head_table
  | mill_5axis_horizontal_table_table
  | mill_5axis_horizontal_table_table_pinola
  | lathe_zx
  | lathe_zxc
  | lathe_zxcy
  | lathe_zxcy_steady
  | millturn_XYZBC
  | millturn_XYZBC_steady
  | millturn_XYZBC_C2
  | millturn_XYZBC_C2_steady
  | millturn_XYZBC_C2_Lower_Left_Turret
  | millturn_XYZBC_C2_Lower_Right_Turret
  | millturn_XYZBC_C2_Lower_LeftRight_Turret
deriving DecidableEq, Repr

/-- `to_string` (parser/GeneralParserDefines.cpp:142-195). -/
def EMachineTool.toStr : EMachineTool → Str
  | .mill_3axis => c!"mill_3axis"
  | .mill_4axis => c!"mill_4axis"
  | .mill_4axis_horizontal => c!"mill_4axis_horizontal"
  | .mill_4axis_horizontal_pinola => c!"mill_4axis_horizontal_pinola"
  | .mill_4axis_head_gantry => c!"mill_4axis_head_gantry"
  | .mill_5axis_head_head_gantry => c!"mill_5axis_head_head_gantry"
  | .mill_5axis_head_table_gantry => c!"mill_5axis_head_table_gantry"
  | .mill_5axis_table_table => c!"mill_5axis_table_table"
  | .mill_5axis_table_tilt => c!"mill_5axis_table_tilt"
  | .mill_5axis_head_table => c!"mill_5axis_head_table"
  | .mill_5axis_horizontal_table_table => c!"mill_5axis_horizontal_table_table"
  | .mill_5axis_horizontal_table_table_pinola => c!"mill_5axis_horizontal_table_table_pinola"
  | .lathe_zx => c!"lathe_zx"
  | .lathe_zxc => c!"lathe_zxc"
  | .lathe_zxcy => c!"lathe_zxcy"
  | .lathe_zxcy_steady => c!"lathe_zxcy_steady"
  | .millturn_XYZBC => c!"mill-turn_XYZBC"
  | .millturn_XYZBC_steady => c!"mill-turn_XYZBC_steady"
  | .millturn_XYZBC_C2 => c!"mill-turn_XYZBC_C2"
  | .millturn_XYZBC_C2_steady => c!"mill-turn_XYZBC_C2_steady"
  | .millturn_XYZBC_C2_Lower_Left_Turret => c!"mill-turn_XYZBC_C2_Lower_Left_Turret"
  | .millturn_XYZBC_C2_Lower_Right_Turret => c!"mill-turn_XYZBC_C2_Lower_Right_Turret"
  | .millturn_XYZBC_C2_Lower_LeftRight_Turret => c!"mill-turn_XYZBC_C2_Lower_LeftRight_Turret"

/-- `to_EMachineTool` (parser/GeneralParserDefines.cpp:197-247). -/
def EMachineTool.ofStr (s : Str) : Out Str EMachineTool :=
  if s = c!"mill_3axis" then .ok .mill_3axis else
  if s = c!"mill_4axis" then .ok .mill_4axis else
  if s = c!"mill_4axis_horizontal" then .ok .mill_4axis_horizontal else
  if s = c!"mill_4axis_horizontal_pinola" then .ok .mill_4axis_horizontal_pinola else
  if s = c!"mill_4axis_head_gantry" then .ok .mill_4axis_head_gantry else
  if s = c!"mill_5axis_head_head_gantry" then .ok .mill_5axis_head_head_gantry else
  if s = c!"mill_5axis_head_table_gantry" then .ok .mill_5axis_head_table_gantry else
  if s = c!"mill_5axis_table_table" then .ok .mill_5axis_table_table else
  if s = c!"mill_5axis_table_tilt" then .ok .mill_5axis_table_tilt else
  if s = c!"mill_5axis_head_table" then .ok .mill_5axis_head_table else
  if s = c!"mill_5axis_horizontal_table_table" then .ok .mill_5axis_horizontal_table_table else
  if s = c!"mill_5axis_horizontal_table_table_pinola" then .ok .mill_5axis_horizontal_table_table_pinola else
  if s = c!"lathe_zx" then .ok .lathe_zx else
  if s = c!"lathe_zxc" then .ok .lathe_zxc else
  if s = c!"lathe_zxcy" then .ok .lathe_zxcy else
  if s = c!"lathe_zxcy_steady" then .ok .lathe_zxcy_steady else
  if s = c!"mill-turn_XYZBC" then .ok .millturn_XYZBC else
  if s = c!"mill-turn_XYZBC_steady" then .ok .millturn_XYZBC_steady else
  if s = c!"mill-turn_XYZBC_C2" then .ok .millturn_XYZBC_C2 else
  if s = c!"mill-turn_XYZBC_C2_steady" then .ok .millturn_XYZBC_C2_steady else
  if s = c!"mill-turn_XYZBC_C2_Lower_Left_Turret" then .ok .millturn_XYZBC_C2_Lower_Left_Turret else
  if s = c!"mill-turn_XYZBC_C2_Lower_Right_Turret" then .ok .millturn_XYZBC_C2_Lower_Right_Turret else
  if s = c!"mill-turn_XYZBC_C2_Lower_LeftRight_Turret" then .ok .millturn_XYZBC_C2_Lower_LeftRight_Turret else
  .throw (c!"Unsupported EMachineTool value: " ++ s)

/-- `ELanguage` (declared in the header of parser/GeneralParserDefines.cpp). -/
inductive ELanguage where
  | English
  | Polish
deriving DecidableEq, Repr

/-- `to_string` (parser/GeneralParserDefines.cpp:252-263). -/
def ELanguage.toStr : ELanguage → Str
  | .English => c!"English"
  | .Polish => c!"Polish"

/-- `to_ELanguage` (parser/GeneralParserDefines.cpp:265-273). -/
def ELanguage.ofStr (s : Str) : Out Str ELanguage :=
  if s = c!"English" then .ok .English else
  if s = c!"Polish" then .ok .Polish else
  .throw (c!"Unsupported ELanguage value: " ++ s)

/-- `EDriverUnits` (declared in the header of parser/GeneralParserDefines.cpp). -/
inductive EDriverUnits where
  | Millimeter
  | Inch
deriving DecidableEq, Repr

/-- `to_string` (parser/GeneralParserDefines.cpp:278-289). -/
def EDriverUnits.toStr : EDriverUnits → Str
  | .Millimeter => c!"millimeter"
  | .Inch => c!"inch"

/-- `to_EDriverUnits` (parser/GeneralParserDefines.cpp:291-299). -/
def EDriverUnits.ofStr (s : Str) : Out Str EDriverUnits :=
  if s = c!"millimeter" then .ok .Millimeter else
  if s = c!"inch" then .ok .Inch else
  .throw (c!"Unsupported EDriverUnits value: " ++ s)

/-- `UnitConversionType` (declared in the header of parser/GeneralParserDefines.cpp). -/
inductive UnitConversionType where
  | metric_to_imperial
  | imperial_to_metric
deriving DecidableEq, Repr

/-- `to_string` (parser/GeneralParserDefines.cpp:304-315). -/
def UnitConversionType.toStr : UnitConversionType → Str
  | .metric_to_imperial => c!"m2i"
  | .imperial_to_metric => c!"i2m"

/-- `to_UnitConversionType` (parser/GeneralParserDefines.cpp:317-325). -/
def UnitConversionType.ofStr (s : Str) : Out Str UnitConversionType :=
  if s = c!"m2i" then .ok .metric_to_imperial else
  if s = c!"i2m" then .ok .imperial_to_metric else
  .throw (c!"Unsupported UnitConversionType value: " ++ s)

/-- `AxesRotatingOption` (declared in the header of parser/GeneralParserDefines.cpp). -/
inductive AxesRotatingOption where
  | Xrotate90degrees
  | Xrotate180degrees
  | Xrotate270degrees
  | Yrotate90degrees
  | Yrotate180degrees
  | Yrotate270degrees
  | Zrotate90degrees
  | Zrotate180degrees
  | Zrotate270degrees
deriving DecidableEq, Repr

/-- `to_string` (parser/GeneralParserDefines.cpp:330-356). -/
def AxesRotatingOption.toStr : AxesRotatingOption → Str
  | .Xrotate90degrees => c!"X90"
  | .Xrotate180degrees => c!"X180"
  | .Xrotate270degrees => c!"X270"
  | .Yrotate90degrees => c!"Y90"
  | .Yrotate180degrees => c!"Y180"
  | .Yrotate270degrees => c!"Y270"
  | .Zrotate90degrees => c!"Z90"
  | .Zrotate180degrees => c!"Z180"
  | .Zrotate270degrees => c!"Z270"

/-- `to_AxesRotatingOption` (parser/GeneralParserDefines.cpp:358-380). -/
def AxesRotatingOption.ofStr (s : Str) : Out Str AxesRotatingOption :=
  if s = c!"X90" then .ok .Xrotate90degrees else
  if s = c!"X180" then .ok .Xrotate180degrees else
  if s = c!"X270" then .ok .Xrotate270degrees else
  if s = c!"Y90" then .ok .Yrotate90degrees else
  if s = c!"Y180" then .ok .Yrotate180degrees else
  if s = c!"Y270" then .ok .Yrotate270degrees else
  if s = c!"Z90" then .ok .Zrotate90degrees else
  if s = c!"Z180" then .ok .Zrotate180degrees else
  if s = c!"Z270" then .ok .Zrotate270degrees else
  .throw (c!"Unsupported AxesRotatingOption value: " ++ s)

/-- `EMotion` (declared in the header of parser/GeneralParserDefines.cpp). -/
inductive EMotion where
  | RapidTraverse
  | LinearInterpolation
deriving DecidableEq, Repr

/-- `to_string` (parser/GeneralParserDefines.cpp:385-397). -/
def EMotion.toStr : EMotion → Str
  | .RapidTraverse => c!"rapid_traverse"
  | .LinearInterpolation => c!"linear_interpolation"

/-- `to_EMotion` (parser/GeneralParserDefines.cpp:399-407). -/
def EMotion.ofStr (s : Str) : Out Str EMotion :=
  if s = c!"rapid_traverse" then .ok .RapidTraverse else
  if s = c!"linear_interpolation" then .ok .LinearInterpolation else
  .throw (c!"Unsupported EMotion value: " ++ s)

/-- `EWorkPlane` (declared in the header of parser/GeneralParserDefines.cpp). -/
inductive EWorkPlane where
  | XY
  | XZ
  | YZ
deriving DecidableEq, Repr

/-- `to_string` (parser/GeneralParserDefines.cpp:412-426). -/
def EWorkPlane.toStr : EWorkPlane → Str
  | .XY => c!"XY"
  | .XZ => c!"XZ"
  | .YZ => c!"YZ"

/-- `to_EWorkPlane` (parser/GeneralParserDefines.cpp:428-438). -/
def EWorkPlane.ofStr (s : Str) : Out Str EWorkPlane :=
  if s = c!"XY" then .ok .XY else
  if s = c!"XZ" then .ok .XZ else
  if s = c!"YZ" then .ok .YZ else
  .throw (c!"Unsupported EWorkPlane value: " ++ s)

/-- `EProgrammingType` (declared in the header of parser/GeneralParserDefines.cpp). -/
inductive EProgrammingType where
  | Absolute
  | Incremental
deriving DecidableEq, Repr

/-- `to_string` (parser/GeneralParserDefines.cpp:443-455). -/
def EProgrammingType.toStr : EProgrammingType → Str
  | .Absolute => c!"absolute"
  | .Incremental => c!"incremental"

/-- `to_EProgrammingType` (parser/GeneralParserDefines.cpp:457-465). -/
def EProgrammingType.ofStr (s : Str) : Out Str EProgrammingType :=
  if s = c!"absolute" then .ok .Absolute else
  if s = c!"incremental" then .ok .Incremental else
  .throw (c!"Unsupported EProgrammingType value: " ++ s)

/-- `EFeedMode` (declared in the header of parser/GeneralParserDefines.cpp). -/
inductive EFeedMode where
  | PerMinute
  | PerRevolution
deriving DecidableEq, Repr

/-- `to_string` (parser/GeneralParserDefines.cpp:470-482). -/
def EFeedMode.toStr : EFeedMode → Str
  | .PerMinute => c!"feed_per_minute"
  | .PerRevolution => c!"feed_per_revolution"

/-- `to_EFeedMode` (parser/GeneralParserDefines.cpp:484-492). -/
def EFeedMode.ofStr (s : Str) : Out Str EFeedMode :=
  if s = c!"feed_per_minute" then .ok .PerMinute else
  if s = c!"feed_per_revolution" then .ok .PerRevolution else
  .throw (c!"Unsupported EFeedMode value: " ++ s)

/-- `ERotationDirection` (declared in the header of parser/GeneralParserDefines.cpp). -/
inductive ERotationDirection where
  | Right
  | Left
  | Stop
deriving DecidableEq, Repr

/-- `to_string` (parser/GeneralParserDefines.cpp:497-511). -/
def ERotationDirection.toStr : ERotationDirection → Str
  | .Right => c!"right (M03) CLW (clockwise)"
  | .Left => c!"left (M04) CCLW (counterclockwise)"
  | .Stop => c!"stop (M05)"

/-- `to_ERotationDirection` (parser/GeneralParserDefines.cpp:513-523). -/
def ERotationDirection.ofStr (s : Str) : Out Str ERotationDirection :=
  if s = c!"right" ∨ s = c!"M03" ∨ s = c!"CLW" then .ok .Right else
  if s = c!"left" ∨ s = c!"M04" ∨ s = c!"CCLW" then .ok .Left else
  if s = c!"stop" ∨ s = c!"M05" then .ok .Stop else
  .throw (c!"Unsupported ERotationDirection value: " ++ s)

/-- `EDepthProgrammingType` (declared in the header of parser/GeneralParserDefines.cpp). -/
inductive EDepthProgrammingType where
  | Absolute
  | Incremental
deriving DecidableEq, Repr

/-- `to_string` (parser/GeneralParserDefines.cpp:528-540). -/
def EDepthProgrammingType.toStr : EDepthProgrammingType → Str
  | .Absolute => c!"absolute"
  | .Incremental => c!"incremental"

/-- `to_EDepthProgrammingType` (parser/GeneralParserDefines.cpp:542-550). -/
def EDepthProgrammingType.ofStr (s : Str) : Out Str EDepthProgrammingType :=
  if s = c!"absolute" then .ok .Absolute else
  if s = c!"incremental" then .ok .Incremental else
  .throw (c!"Unsupported EDepthProgrammingType value: " ++ s)

/-- `EDrillGreturnMode` (declared in the header of parser/GeneralParserDefines.cpp). -/
inductive EDrillGreturnMode where
  | G98
  | G99
deriving DecidableEq, Repr

/-- `to_string` (parser/GeneralParserDefines.cpp:555-567). -/
def EDrillGreturnMode.toStr : EDrillGreturnMode → Str
  | .G98 => c!"beginning"
  | .G99 => c!"point_r"

/-- `to_EDrillGreturnMode` (parser/GeneralParserDefines.cpp:569-577). -/
def EDrillGreturnMode.ofStr (s : Str) : Out Str EDrillGreturnMode :=
  if s = c!"beginning" then .ok .G98 else
  if s = c!"point_r" then .ok .G99 else
  .throw (c!"Unsupported EDrillGreturnMode value: " ++ s)

/-- `EBeginEnd` (declared in the header of parser/heidenhain/AllAttributesParserDefines.cpp). -/
inductive EBeginEnd where
  | «begin»
  | «end»
deriving DecidableEq, Repr

/-- `to_string` (parser/heidenhain/AllAttributesParserDefines.cpp:13-25). -/
def EBeginEnd.toStr : EBeginEnd → Str
  | .«begin» => c!"begin"
  | .«end» => c!"end"

/-- `to_EBeginEnd` (parser/heidenhain/AllAttributesParserDefines.cpp:27-35). -/
def EBeginEnd.ofStr (s : Str) : Out Str EBeginEnd :=
  if s = c!"begin" then .ok .«begin» else
  if s = c!"end" then .ok .«end» else
  .throw (c!"Unsupported EBeginEnd value: " ++ s)

/-- `EUnit` (declared in the header of parser/heidenhain/AllAttributesParserDefines.cpp). -/
inductive EUnit where
  | mm
  | inch
deriving DecidableEq, Repr

/-- `to_string` (parser/heidenhain/AllAttributesParserDefines.cpp:40-52). -/
def EUnit.toStr : EUnit → Str
  | .mm => c!"mm"
  | .inch => c!"inch"

/-- `to_EUnit` (parser/heidenhain/AllAttributesParserDefines.cpp:54-62). -/
def EUnit.ofStr (s : Str) : Out Str EUnit :=
  if s = c!"mm" then .ok .mm else
  if s = c!"inch" then .ok .inch else
  .throw (c!"Unsupported EUnit value: " ++ s)

/-- `to_string` (parser/fanuc/AllAttributesParserDefines.cpp:34-60). -/
def wordTypeToStr : WordType → Str
  | .misc => c!"misc"
  | .angle => c!"angle"
  | .calc => c!"calc"
  | .code => c!"code"
  | .feed => c!"feed"
  | .length => c!"length"
  | .«macro» => c!"macro"
  | .numbering => c!"numbering"
  | .assignable => c!"assignable"

/-- `to_WordType` (parser/fanuc/AllAttributesParserDefines.cpp:62-84). -/
def wordTypeOfStr (s : Str) : Out Str WordType :=
  if s = c!"misc" then .ok .misc else
  if s = c!"angle" then .ok .angle else
  if s = c!"calc" then .ok .calc else
  if s = c!"code" then .ok .code else
  if s = c!"feed" then .ok .feed else
  if s = c!"length" then .ok .length else
  if s = c!"macro" then .ok .«macro» else
  if s = c!"numbering" then .ok .numbering else
  if s = c!"assignable" then .ok .assignable else
  .throw (c!"Unsupported WordType value: " ++ s)

/-- `istr >> s` for a `std::string` (used by RIGHT_STREAM_OP, Macro.h:14-21):
skip white space, take the following non-space characters; the rest stays in
the stream. -/
def readWord (s : Str) : Str × Str :=
  let t := s.dropWhile isSp
  (t.takeWhile (fun c => !isSp c), t.dropWhile (fun c => !isSp c))

/-- `operator>>` for an enumeration with the given reader (Macro.h:14-21). -/
def streamIn {α : Type} (ofStr : Str → Out Str α) (s : Str) : Out Str (α × Str) := do
  let e ← ofStr (readWord s).1
  pure (e, (readWord s).2)

end NC.Enums
