import Verif.Server
import Verif.Settings

/-!
# The whole server

The server of `Verif.Server` with the readers of `Verif.Settings` and the line
parser of `Verif.Pipeline` in it, instead of an arbitrary one.
-/

namespace NC.Whole
open NC NC.Srv

/-- A number shown to the user; what is not finite is shown as zero (simplification: `inf` and `nan` are printed). -/
def shown (x : Path.Fl ℚ) : ℚ := x.getD 0

/-- What is not configured by files: the functions of the numbers, the command line, rapidjson's reader. -/
structure Rest where
  env : Conf.Env
  pathTime : Bool
  logging : Bool
  readJson : Str → Option Json
  related : Str → Json

/-- The constructor, `reset_macro_values` and `set_ncsettings` (NCParser.cpp:366-390). -/
def freshParser (E : Conf.Env) (s : Conf.Settings) (g : Conf.Words) (gc mc : Ver.Groups) :
    Out Exc (Pipe.Setup × Pipe.Parser) :=
  match Pipe.configure (Conf.setupOf E s g gc mc) with
  | .ok S => .ok (S, Pipe.fresh S)
  | .throw e => .throw (.num e)
  | .ub => .ub

/-- `parse` of a line (NCParser.cpp:427-436, AllAttributesParser.cpp:203-336): both calls take the same
way; a message that is left alone is the empty one of NCParser.cpp:413.  The line number fits an `int`. -/
def parseLine (x : Pipe.Setup × Pipe.Parser) (n : Nat) (l : Str) : Out Exc ((Pipe.Setup × Pipe.Parser) × Bool × Str) :=
  match (Pipe.parse x.1 Pipe.serverOptions n l x.2).2 with
  | .ok a => .ok ((x.1, (Pipe.parse x.1 Pipe.serverOptions n l x.2).1), a.1, a.2.getD [])
  | .throw e => .throw (.num e)
  | .ub => .ub

/-- `get_path_result` and `get_time_result` (AllAttributesParser.cpp:109-117). -/
def totalsOf (x : Pipe.Setup × Pipe.Parser) : Totals :=
  let p := x.2.path.path
  let t := x.2.path.time
  ⟨shown p.total, shown p.toolTotal, p.toolId, shown p.fast, shown p.work, shown t.total, shown t.fast, shown t.work⟩

/-- The server. -/
def server (R : Rest) : World Conf.Settings Conf.Words Ver.Groups (Pipe.Setup × Pipe.Parser) where
  fresh := freshParser R.env
  line := parseLine
  totals := totalsOf
  macros x := x.2.macros
  pathTime := R.pathTime
  defaults := Conf.defaults
  readJson := R.readJson
  logging := R.logging
  related := R.related

end NC.Whole
