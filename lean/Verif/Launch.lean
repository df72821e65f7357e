import Verif.Enums
import Verif.Extension

/-!
# From the settings of the editor to the server

The arguments that the extension passes (vscode-client/src/extension.ts:93-110), `boost::program_options` as it is used by
the server, and what `main` does with them (nclangsrv/nclangsrv.cpp:38-97).

Boost is not part of the repository: `command_line_parser::run` is modelled from its published sources (`detail/cmdline.cpp`:
`parse_long_option`, `parse_short_option`, `parse_terminator`, `finish_option`; `options_description.cpp`: `match`, `find_nothrow`), with
the default style.  Every error is an exception that `main` does not catch.

Simplified: the arguments reach the process as they are (no conversion of character sets); the calculation of path and
time is the text `true` or `false` in the store of the editor; the log is written without errors.
-/

namespace NC.Launch
open NC NC.Enums

/-! ## The extension -/

/-- `if (value) args.push(option, value)`. -/
def pass (option : Str) : Option Str → List Str
  | some v => if v = [] then [] else [option, v]
  | none => []

/-- `startLangServerNCProj` (extension.ts:94-110). -/
def arguments (c : Ext.Store) : List Str :=
  pass c!"--ncsetting-path" (c.effective .ncsettingPath) ++ (pass c!"--log-path" (c.effective .logPath) ++
    ((if c.effective .pathTime = some c!"true" then [c!"--calculate-path", c!"true"] else []) ++
      pass c!"--macro-desc-path" (c.effective .macroPath)))

/-! ## The options of the server -/

/-- What an option takes. -/
inductive Kind where
  | nothing
  | truth
  | rotation
  | text
deriving DecidableEq

/-- `option_description`. -/
structure Desc where
  long : Str
  short : Option Char
  kind : Kind
deriving DecidableEq

/-- nclangsrv.cpp:49-60. -/
def descs : List Desc := [
  ⟨c!"help", some 'h', .nothing⟩, ⟨c!"single-line-output", some 's', .truth⟩, ⟨c!"convert-length", none, .truth⟩,
  ⟨c!"calculate-path", none, .truth⟩, ⟨c!"rotate", none, .truth⟩, ⟨c!"rotate-option", none, .rotation⟩,
  ⟨c!"ncsetting-path", some 'n', .text⟩, ⟨c!"macro-desc-path", some 'm', .text⟩, ⟨c!"log-path", some 'l', .text⟩]

/-- The exceptions of program_options. -/
inductive Err where
  | unknown
  | ambiguous
  | missing
  | extra
  | empty
  | positional
  | multiple
  | value
deriving DecidableEq

/-- `match`: a full match. -/
def Desc.full (d : Desc) (name : Str) : Bool :=
  d.long == name || (match d.short with
    | some c => name == ['-', c]
    | none => false)

/-- `match`: the beginning of a long name. -/
def Desc.near (d : Desc) (name : Str) : Bool := !d.full name && name.isPrefixOf d.long

/-- `find_nothrow` with `allow_guessing`. -/
def find (name : Str) : Out Err (Option Desc) :=
  if 1 < (descs.filter (·.full name)).length then .throw .ambiguous
  else match descs.find? (·.full name) with
    | some d => .ok (some d)
    | none => if 1 < (descs.filter (·.near name)).length then .throw .ambiguous else .ok (descs.find? (·.near name))

/-! ## The arguments -/

/-- `option`: a key (none for an argument without one) and values. -/
structure Item where
  key : Str
  vals : List Str
deriving DecidableEq

/-- `parse_long_option`. -/
def longOpt (t : Str) : Out Err (Option Item) :=
  match t with
  | a :: b :: r =>
    if a = '-' ∧ b = '-' ∧ r ≠ [] then
      if '=' ∈ r then
        if (r.dropWhile (· ≠ '=')).drop 1 = [] then .throw .empty
        else .ok (some ⟨r.takeWhile (· ≠ '='), [(r.dropWhile (· ≠ '=')).drop 1]⟩)
      else .ok (some ⟨r, []⟩)
    else .ok none
  | _ => .ok none

/-- Is this the letter of an option without value? -/
def plainLetter (c : Char) : Bool := descs.any (fun d => d.short == some c && d.kind == .nothing)

/-- The loop of `parse_short_option`: letters of options without values may stand together. -/
def sticky : Char → Str → List Item
  | c, [] => [⟨['-', c], []⟩]
  | c, a :: r => if plainLetter c then ⟨['-', c], []⟩ :: sticky a r else [⟨['-', c], [a :: r]⟩]

/-- `parse_short_option`. -/
def shortOpt (t : Str) : Option (List Item) :=
  match t with
  | a :: c :: r => if a = '-' ∧ c ≠ '-' then some (sticky c r) else none
  | _ => none

/-- Does an argument look like an option? -/
def looks (t : Str) : Out Err Bool := (longOpt t).bind fun i => .ok (i.isSome || (shortOpt t).isSome)

/-- `finish_option`: the name is completed and the value taken from the next argument. -/
def finish (i : Item) (rest : List Str) : Out Err (Item × List Str) :=
  if i.key = [] then .ok (i, rest)
  else (find i.key).bind fun d => match d with
    | none => .throw .unknown
    | some d =>
      if d.kind = .nothing then if i.vals = [] then .ok (⟨d.long, []⟩, rest) else .throw .extra
      else if i.vals ≠ [] then .ok (⟨d.long, i.vals⟩, rest)
      else match rest with
        | [] => .throw .missing
        | t :: r => (looks t).bind fun b =>
            (if b = true then find t else .ok none).bind fun o => match o with
              | some _ => .throw .missing
              | none => .ok (⟨d.long, [t]⟩, r)

/-- All but the last of several letters take no value from the next argument. -/
def finishAll : List Item → List Str → Out Err (List Item × List Str)
  | [], rest => .ok ([], rest)
  | [i], rest => (finish i rest).bind fun f => .ok ([f.1], f.2)
  | i :: l, rest => (finish i []).bind fun f => (finishAll l rest).bind fun g => .ok (f.1 :: g.1, g.2)

/-- `cmdline::run`. -/
def cut : Nat → List Str → Out Err (List Item)
  | 0, _ => .ok []
  | _ + 1, [] => .ok []
  | n + 1, t :: r => (longOpt t).bind fun i => match i with
    | some i => (finish i r).bind fun f => (cut n f.2).bind fun l => .ok (f.1 :: l)
    | none => match shortOpt t with
      | some s => (finishAll s r).bind fun f => (cut n f.2).bind fun l => .ok (f.1 ++ l)
      | none => if t = c!"--" then .ok (r.map (fun v => ⟨[], [v]⟩)) else (cut n r).bind fun l => .ok (⟨[], [t]⟩ :: l)

/-- `to_lower` of `validate` for `bool`. -/
def truthOf (s : Str) : Option Bool :=
  let t := s.map Char.toLower
  if t ∈ [[], c!"on", c!"yes", c!"1", c!"true"] then some true
  else if t ∈ [c!"off", c!"no", c!"0", c!"false"] then some false else none

/-- `validate`: can the value be stored? -/
def valid (k : Kind) (v : Str) : Bool :=
  match k with
  | .nothing => true
  | .truth => (truthOf v).isSome
  | .rotation => match AxesRotatingOption.ofStr v with
    | .ok _ => true
    | _ => false
  | .text => true

/-- The kind of an option. -/
def kindOf (key : Str) : Kind := ((descs.find? (fun d => d.long == key)).map (·.kind)).getD .text

/-- `po::store`: each option once, with a value that can be read; no arguments without option. -/
def store : List Item → List (Str × Str) → Out Err (List (Str × Str))
  | [], acc => .ok acc
  | i :: l, acc =>
    if i.key = [] then .throw .positional
    else if acc.any (fun e => e.1 == i.key) then .throw .multiple
    else if valid (kindOf i.key) (i.vals.headD []) then store l (acc ++ [(i.key, i.vals.headD [])])
    else .throw .value

/-- The value of an option that was given. -/
def given (acc : List (Str × Str)) (key : Str) : Option Str := (acc.find? (fun e => e.1 == key)).map (·.2)

/-! ## main -/

/-- What the server works with (nclangsrv.cpp:77-101). -/
structure Server where
  settings : Str
  log : Option Str
  macros : Str
  calculate : Bool
deriving DecidableEq

/-- How `main` begins. -/
inductive Start where
  | exit (code : Nat)
  | run (s : Server)
deriving DecidableEq

/-- `main` up to the loop: options that were not given have their defaults; `--help` ends the server with 1; a log only with a path. -/
def main (args : List Str) : Out Err Start :=
  (cut (args.length + 1) args).bind fun items => (store items []).bind fun acc =>
    if (given acc c!"help").isSome then .ok (.exit 1)
    else .ok (.run ⟨(given acc c!"ncsetting-path").getD [],
      (if (given acc c!"log-path").getD [] = [] then none else given acc c!"log-path"),
      (given acc c!"macro-desc-path").getD [],
      ((given acc c!"calculate-path").bind truthOf).getD false⟩)

end NC.Launch
