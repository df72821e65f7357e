import Verif.Net
import Verif.Settings

/-!
# The text of a configuration file: `boost::property_tree::read_json`

The readers of the server call `read_json` (nclangsrv/NCSettingsReader.cpp:78, WordGrammarReader.cpp:54,
CodeGroupsReader.cpp:34).  Boost is not part of the repository; its parser is modelled as a recursive descent that follows the
functions of `json_parser/detail/parser.hpp` (`parse_value`, `parse_object`, `parse_array`, `parse_string`,
`parse_escape`, `parse_codepoint_ref`, `parse_number`) with the callbacks of `standard_callbacks.hpp`, which keep
numbers, booleans and `null` as texts.  Every error is an exception that the readers catch: `none`.

Simplified: a text is a list of bytes in well-formed UTF-8 without a byte order mark (boost refuses malformed bytes in
strings); the depth of recursion is not bounded.
-/

namespace NC.JFile
open NC NC.Conf

/-- `is_ws`. -/
def ws (c : Char) : Bool := c == ' ' || c == '\t' || c == '\n' || c == '\r'

/-- `skip_ws`. -/
def skipWs (s : Str) : Str := s.dropWhile ws

/-! ## Strings -/

/-- `decode_hexdigit`. -/
def hex (c : Char) : Option Nat :=
  if isDig c then some (c.toNat - 48)
  else if 'a' ≤ c ∧ c ≤ 'f' then some (c.toNat - 87)
  else if 'A' ≤ c ∧ c ≤ 'F' then some (c.toNat - 55)
  else none

/-- `parse_hex_quad`. -/
def quad : Str → Option (Nat × Str)
  | a :: b :: c :: d :: r => (hex a).bind fun a => (hex b).bind fun b => (hex c).bind fun c => (hex d).bind fun d =>
      some (a * 4096 + b * 256 + c * 16 + d, r)
  | _ => none

/-- `is_surrogate_high`. -/
def high (n : Nat) : Bool := 55296 ≤ n && n < 56320

/-- `is_surrogate_low`. -/
def low (n : Nat) : Bool := 56320 ≤ n && n < 57344

/-- `feed_codepoint`. -/
def feed (n : Nat) : Str := Net.utf8Of (Char.ofNat n)

/-- The second half of a pair of surrogates. -/
def pair (h : Nat) : Str → Option (Str × Str)
  | b :: u :: r => if b = '\\' ∧ u = 'u' then
      (quad r).bind fun q => if low q.1 then some (feed (65536 + (h - 55296) * 1024 + (q.1 - 56320)), q.2) else none
    else none
  | _ => none

/-- `parse_codepoint_ref`. -/
def codepoint (s : Str) : Option (Str × Str) :=
  (quad s).bind fun q => if low q.1 then none else if high q.1 then pair q.1 q.2 else some (feed q.1, q.2)

/-- The escapes of one letter. -/
def simple : List (Char × Nat) := [('"', 34), ('\\', 92), ('/', 47), ('b', 8), ('f', 12), ('n', 10), ('r', 13), ('t', 9)]

/-- `parse_escape`, behind the backslash. -/
def escape : Str → Option (Str × Str)
  | [] => none
  | c :: r => match simple.lookup c with
    | some n => some ([Char.ofNat n], r)
    | none => if c = 'u' then codepoint r else none

/-- `parse_string`, behind the opening quote, up to the closing one. -/
def chars : Nat → Str → Option (Str × Str)
  | 0, _ => none
  | _ + 1, [] => none
  | n + 1, c :: r =>
    if c = '"' then some ([], r)
    else if c = '\\' then (escape r).bind fun e => (chars n e.2).bind fun q => some (e.1 ++ q.1, q.2)
    else (chars n r).bind fun q => some (c :: q.1, q.2)

/-- `parse_string`. -/
def string (n : Nat) : Str → Option (Str × Str)
  | [] => none
  | c :: r => if c = '"' then chars n r else none

/-! ## Numbers and literals -/

/-- `parse_int_part`. -/
def intPart : Str → Option (Str × Str)
  | [] => none
  | c :: r => if c = '0' then some ([c], r) else if isDig c then some (c :: r.takeWhile isDig, r.dropWhile isDig) else none

/-- At least one digit, then as many as there are. -/
def someDigits (s : Str) : Option (Str × Str) := if s.takeWhile isDig = [] then none else some (s.takeWhile isDig, s.dropWhile isDig)

/-- `parse_frac_part`. -/
def fracPart : Str → Option (Str × Str)
  | [] => some ([], [])
  | c :: r => if c = '.' then (someDigits r).bind fun d => some (c :: d.1, d.2) else some ([], c :: r)

/-- The sign of an exponent. -/
def expSign : Str → Str × Str
  | [] => ([], [])
  | c :: r => if c = '+' ∨ c = '-' then ([c], r) else ([], c :: r)

/-- `parse_exp_part`. -/
def expPart : Str → Option (Str × Str)
  | [] => some ([], [])
  | c :: r => if c = 'e' ∨ c = 'E' then (someDigits (expSign r).2).bind fun d => some (c :: ((expSign r).1 ++ d.1), d.2)
    else some ([], c :: r)

/-- The minus sign. -/
def minus : Str → Str × Str
  | [] => ([], [])
  | c :: r => if c = '-' then ([c], r) else ([], c :: r)

/-- `parse_number`. -/
def number (s : Str) : Option (Str × Str) :=
  (intPart (minus s).2).bind fun i => (fracPart i.2).bind fun f => (expPart f.2).bind fun e =>
    some ((minus s).1 ++ (i.1 ++ (f.1 ++ e.1)), e.2)

/-- `expect` of a whole literal. -/
def expect (w s : Str) : Option Str := if w.isPrefixOf s then some (s.drop w.length) else none

/-- `parse_boolean`, `parse_null`, `parse_number`. -/
def scalar (s : Str) : Option (Str × Str) :=
  match s with
  | [] => none
  | c :: _ =>
    if c = 't' then (expect c!"true" s).bind fun r => some (c!"true", r)
    else if c = 'f' then (expect c!"false" s).bind fun r => some (c!"false", r)
    else if c = 'n' then (expect c!"null" s).bind fun r => some (c!"null", r)
    else number s

/-! ## Values -/

/-- `expect` of one character, behind white space. -/
def need (x : Char) (s : Str) : Option Str :=
  match skipWs s with
  | [] => none
  | c :: r => if c = x then some r else none

/-- After a member or an element: does another follow, or is it the end? -/
def next (close : Char) (s : Str) : Option (Bool × Str) :=
  match skipWs s with
  | [] => none
  | c :: r => if c = ',' then some (true, r) else if c = close then some (false, r) else none

mutual

/-- `parse_value`. -/
def value : Nat → Str → Option (PTree × Str)
  | 0, _ => none
  | n + 1, s => match skipWs s with
    | [] => none
    | c :: r =>
      if c = '{' then match need '}' r with
        | some r => some (.node [] [], r)
        | none => (members n r).bind fun k => some (.node [] k.1, k.2)
      else if c = '[' then match need ']' r with
        | some r => some (.node [] [], r)
        | none => (elements n r).bind fun k => some (.node [] k.1, k.2)
      else if c = '"' then (string n (c :: r)).bind fun t => some (.node t.1 [], t.2)
      else (scalar (c :: r)).bind fun t => some (.node t.1 [], t.2)

/-- The loop of `parse_object`. -/
def members : Nat → Str → Option (List (Str × PTree) × Str)
  | 0, _ => none
  | n + 1, s => (string n (skipWs s)).bind fun k => (need ':' k.2).bind fun r => (value n r).bind fun v =>
      (next '}' v.2).bind fun c => match c with
        | (true, r) => (members n r).bind fun m => some ((k.1, v.1) :: m.1, m.2)
        | (false, r) => some ([(k.1, v.1)], r)

/-- The loop of `parse_array`. -/
def elements : Nat → Str → Option (List (Str × PTree) × Str)
  | 0, _ => none
  | n + 1, s => (value n s).bind fun v =>
      (next ']' v.2).bind fun c => match c with
        | (true, r) => (elements n r).bind fun m => some (([], v.1) :: m.1, m.2)
        | (false, r) => some ([([], v.1)], r)

end

/-- `read_json`: one value and nothing behind it (`finish`). -/
def readJson (s : Str) : Option PTree :=
  (value (s.length + 1) s).bind fun v => if skipWs v.2 = [] then some v.1 else none

/-! ## The readers on the texts of their files -/

/-- `NCSettingsReader::read` (NCSettingsReader.cpp:76-186). -/
def settingsFile (t : Str) : Option Settings := (readJson t).bind readSettings

/-- `WordGrammarReader::read` (WordGrammarReader.cpp:50-80): without a tree nothing is stored. -/
def grammarFile (t : Str) : Words × Bool :=
  match readJson t with
  | some p => readGrammar p
  | none => (⟨⟨[], []⟩, []⟩, false)

/-- `CodeGroupsReader::read` (CodeGroupsReader.cpp:30-63). -/
def groupsFile (t : Str) : Ver.Groups × Bool :=
  match readJson t with
  | some p => readGroups p
  | none => ([], false)

end NC.JFile
