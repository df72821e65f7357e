import Verif.Json
import Verif.Lines
import Verif.MacroMap
import Verif.Framing

/-!
# The language server (nclangsrv/JsonMessageHandler.cpp, NCParser.cpp,
CodesReader.cpp, MacrosDescReader.cpp)

The line parser, the settings types and the JSON reader are parameters
(`World`); the files on disk are an input of every message (`Files`), so that
they may change while the server runs.
-/

namespace NC.Srv
open NC

/-- Exceptions that leave `main` and end the process. -/
inductive Exc where
  /-- `std::filesystem::canonical` on a missing file. -/
  | filesystem
  /-- number conversion. -/
  | num (e : NumExc)
deriving DecidableEq, Repr

/-- A configuration file: missing, unreadable (with what the reader had stored
before it failed, and the error text), or readable. -/
inductive File (α : Type) where
  | absent
  | bad (part : α) (err : Str)
  | good (a : α)

/-- The `descriptions` part of a description file: code, then title and text
pairs. -/
abbrev DescFile := List (Str × List (Str × Str))

/-- `PathResult` and `TimeResult` after a line. -/
structure Totals where
  pTotal : ℚ
  pTool : ℚ
  toolId : Str
  pFast : ℚ
  pWork : ℚ
  tTotal : ℚ
  tFast : ℚ
  tWork : ℚ
deriving DecidableEq

/-- What the server uses but this file does not model. -/
structure World (S G C σ : Type) where
  /-- a fresh line parser: constructor, `reset_macro_values`, `set_ncsettings`
  (NCParser.cpp:357-390) -/
  fresh : S → G → C → C → Out Exc σ
  /-- `parse` of one line: verdict and message -/
  line : σ → Nat → Str → Out Exc (σ × Bool × Str)
  /-- `get_path_result`, `get_time_result` -/
  totals : σ → Totals
  /-- `get_macro_values` -/
  macros : σ → MacroMap ℚ
  /-- `calculatePathTime` -/
  pathTime : Bool
  /-- settings used when no file is configured -/
  defaults : S
  /-- rapidjson's reader -/
  readJson : Str → Option Json
  /-- a log file is configured -/
  logging : Bool
  /-- `relatedInformation` of the description file diagnostic
  (JsonMessageHandler.cpp:51-105) -/
  related : Str → Json

/-- The files as they are when a message arrives. -/
structure Files (S G C : Type) where
  /-- `none`: no `--ncsetting-path` -/
  settings : Option (File S)
  grammar : File G
  gGroups : File C
  mGroups : File C
  gDesc : File DescFile
  mDesc : File DescFile
  macroDesc : File DescFile
  /-- `none`: no `--macro-desc-path` -/
  userDesc : Option (File DescFile)

/-! ## NCParser -/

/-- One `snprintf` into the 256 byte buffer followed by
`result.append(buffer, written)`: reading past the buffer is undefined. -/
def segment (s : Str) : Out Exc Str := if s.length < 256 then .ok s else .ub

/-- One optional part of the lens text. -/
def part (cond : Bool) (s : Str) : Out Exc Str := if cond then segment s else .ok []

/-- `tolerance` (NCParser.cpp:122). -/
def tolerance : ℚ := 1 / 100

/-- `formatPathTimeResult` (NCParser.cpp:153-203). -/
def lensText (t : Totals) (wp wt fp ft : ℚ) : Out Exc Str := do
  let a ← part (decide (tolerance ≤ t.pTotal)) (c!" | Total path = " ++ fixedStr 2 t.pTotal)
  let b ← part (decide (tolerance ≤ t.tTotal)) (c!" | Total time = " ++ formatTime t.tTotal)
  let c ← part (decide (tolerance ≤ t.pTool) && decide (tolerance ≤ t.pTotal - t.pTool))
    (c!" | T" ++ t.toolId ++ c!" total path = " ++ fixedStr 2 t.pTool)
  let d ← part (decide (tolerance ≤ t.pFast)) (c!" | Total rapid path = " ++ fixedStr 2 fp)
  let e ← part (decide (tolerance ≤ t.tFast)) (c!" | Total rapid time = " ++ formatTime ft)
  let f ← part (decide (tolerance ≤ t.pWork)) (c!" | Total cut path = " ++ fixedStr 2 wp)
  let g ← part (decide (tolerance ≤ t.tWork)) (c!" | Total cut time = " ++ formatTime wt)
  pure (a ++ b ++ c ++ d ++ e ++ f ++ g)

/-- Running values of the loop over the lines (NCParser.cpp:396-402). -/
structure Acc where
  prev : ℚ := 0
  wPath : ℚ := 0
  wTime : ℚ := 0
  fPath : ℚ := 0
  fTime : ℚ := 0
  messages : List Str := []
  lenses : List (Nat × Str) := []

/-- The path/time part of the loop body (NCParser.cpp:479-499). -/
def addLens (a : Acc) (n : Nat) (t : Totals) : Out Exc Acc :=
  if t.tTotal = a.prev then .ok a
  else do
    let a' := { a with prev := t.tTotal, fPath := a.fPath + t.pFast, fTime := a.fTime + t.tFast,
                       wPath := a.wPath + t.pWork, wTime := a.wTime + t.tWork }
    let s ← lensText t a'.wPath a'.wTime a'.fPath a'.fTime
    pure { a' with lenses := a'.lenses ++ [(n, s)] }

/-- Keeping the message of a rejected line (NCParser.cpp:438-463). -/
def addMessage (a : Acc) (ok : Bool) (m : Str) : Acc :=
  if ok then a else { a with messages := a.messages ++ [m] }

variable {S G C σ : Type}

/-- The loop over the lines (NCParser.cpp:405-500), with `n` lines behind it. -/
def parseLoop (W : World S G C σ) : σ → Acc → Nat → List Str → Out Exc (σ × Acc)
  | s, a, _, [] => .ok (s, a)
  | s, a, n, l :: ls =>
    if l = [] then parseLoop W s a (n + 1) ls
    else W.line s (n + 1) l >>= fun r =>
      let a := addMessage a r.2.1 (reword (n + 1) l r.2.2)
      (if W.pathTime then addLens a n (W.totals r.1) else .ok a) >>= fun a =>
        parseLoop W r.1 a (n + 1) ls

/-- Readers of `NCParser`: `none` until created; created readers keep what they
could read, even if they failed. -/
structure PState (S G C : Type) where
  /-- contents of `NCSettingsReader` once read -/
  settings : Option S := none
  grammar : Option G := none
  gGroups : Option C := none
  mGroups : Option C := none

/-- What `NCParser::parse` returns. -/
structure Parsed where
  messages : List Str
  macros : MacroMap ℚ := []
  lenses : List (Nat × Str) := []

/-- The lazily created readers (NCParser.cpp:268-313): reuse an existing reader;
otherwise `canonical` throws on a missing file, the reader is stored, and a
failed read makes `parse` return an error message. -/
def lazyRead {α : Type} (cur : Option α) (f : File α) : Out Exc (α × Bool) :=
  match cur with
  | some a => .ok (a, true)
  | none =>
    match f with
    | .absent => .throw .filesystem
    | .bad p _ => .ok (p, false)
    | .good a => .ok (a, true)

/-- Settings (NCParser.cpp:261-262, NCSettingsReader.cpp:69-...): read until it
succeeds once. -/
def readSettings (W : World S G C σ) (p : PState S G C) (f : Option (File S)) : S × PState S G C × Bool :=
  match f with
  | none => (W.defaults, p, true)
  | some f =>
    match p.settings with
    | some s => (s, p, true)
    | none =>
      match f with
      | .good s => (s, { p with settings := some s }, true)
      | _ => (W.defaults, p, false)

/-- Message texts (NCParser.cpp:262, 280, 296, 312). -/
def errSettings : Str := c!"ERROR: Couldn't read .ncsetting file"
/-- NCParser.cpp:280. -/
def errGrammar : Str := c!"ERROR: Couldn't read word grammar settings"
/-- NCParser.cpp:296. -/
def errGCodes : Str := c!"ERROR: Couldn't read gcode groups settings"
/-- NCParser.cpp:312. -/
def errMCodes : Str := c!"ERROR: Couldn't read mcode groups settings"

/-- A fresh parser run over the lines of a document (NCParser.cpp:315-519). -/
def runCode (W : World S G C σ) (s : S) (g : G) (gc mc : C) (code : Str) : Out Exc Parsed := do
  let p ← W.fresh s g gc mc
  let r ← parseLoop W p {} 0 (splitLines code)
  pure ⟨r.2.messages, W.macros r.1, r.2.lenses⟩

/-- `NCParser::parse` (NCParser.cpp:259-520). -/
def ncParse (W : World S G C σ) (F : Files S G C) (p : PState S G C) (code : Str) :
    Out Exc (PState S G C × Parsed) :=
  let (s, p, ok) := readSettings W p F.settings
  if !ok then .ok (p, ⟨[errSettings], [], []⟩)
  else lazyRead p.grammar F.grammar >>= fun (g, ok) =>
    let p := { p with grammar := some g }
    if !ok then .ok (p, ⟨[errGrammar], [], []⟩)
    else lazyRead p.gGroups F.gGroups >>= fun (gc, ok) =>
      let p := { p with gGroups := some gc }
      if !ok then .ok (p, ⟨[errGCodes], [], []⟩)
      else lazyRead p.mGroups F.mGroups >>= fun (mc, ok) =>
        let p := { p with mGroups := some mc }
        if !ok then .ok (p, ⟨[errMCodes], [], []⟩)
        else runCode W s g gc mc code >>= fun r => .ok (p, r)

/-! ## Descriptions -/

/-- `std::map::find` / `unordered_map::find`. -/
def find {α : Type} (k : Str) : List (Str × α) → Option α
  | [] => none
  | e :: m => if e.1 = k then some e.2 else find k m

/-- `emplace`: an existing entry wins. -/
def emplace {α : Type} (m : List (Str × α)) (k : Str) (v : α) : List (Str × α) :=
  match find k m with
  | some _ => m
  | none => m ++ [(k, v)]

/-- `CodesReader`: `mData` and `mCodes`. -/
structure Codes where
  desc : List (Str × (Str × Str)) := []
  codes : List Str := []
deriving DecidableEq, Repr

/-- `addSynonim` (CodesReader.cpp:39). -/
def hasSynonym (code : Str) : Bool := code.length == 1 || (code.length == 3 && code[1]? == some '.')

/-- Inner loop of `CodesReader::read` (CodesReader.cpp:40-46). -/
def addTitles (code : Str) : List (Str × Str) → List (Str × (Str × Str)) → List (Str × (Str × Str))
  | [], m => m
  | td :: tds, m =>
    let m := emplace m code td
    addTitles code tds (if hasSynonym code then emplace m ('0' :: code) ((find code m).getD td) else m)

/-- Outer loop of `CodesReader::read` (CodesReader.cpp:37-50). -/
def addCodes : DescFile → Codes → Codes
  | [], c => c
  | (code, tds) :: f, c =>
    addCodes f ⟨addTitles code tds c.desc, c.codes ++ [code] ++ (if hasSynonym code then ['0' :: code] else [])⟩

/-- `CodesReader::read` after `canonical` (JsonMessageHandler.cpp:396-428). -/
def readCodes (f : File DescFile) : Out Exc Codes :=
  match f with
  | .absent => .throw .filesystem
  | .bad p _ => .ok (addCodes p {})
  | .good d => .ok (addCodes d {})

/-- `MacrosDescReader`: `mData`, `mMacros`, `mRanges`. -/
structure MacroDesc where
  desc : List (Str × (Str × Str)) := []
  macros : List Str := []
  ranges : List ((Int × Int) × Str) := []
deriving DecidableEq, Repr

/-- `MacrosDescReader::readJson` on readable contents (MacrosDescReader.cpp:52-57). -/
def addMacros : DescFile → MacroDesc → MacroDesc
  | [], m => m
  | (code, tds) :: f, m =>
    addMacros f { m with desc := tds.foldl (fun d td => emplace d code td) m.desc,
                         macros := if code ∈ m.macros then m.macros else m.macros ++ [code] }

/-- `#` and digits, as `#(\d+)`. -/
def hashNum : Str → Option (Str × Str)
  | '#' :: r => if r.takeWhile isDig = [] then none else some (r.takeWhile isDig, r.dropWhile isDig)
  | _ => none

/-- A literal text. -/
def lit (p s : Str) : Option Str := if p.isPrefixOf s then some (s.drop p.length) else none

/-- `#(\d+)-#(\d+)`. -/
def numPair (s : Str) : Option ((Str × Str) × Str) := do
  let (a, s) ← hashNum s
  let s ← lit c!"-" s
  let (b, s) ← hashNum s
  pure ((a, b), s)

/-- `Range: #(\d+)-#(\d+)` at the beginning of a text (MacrosDescReader.cpp:81). -/
def matchR1 (s : Str) : Option (List (Str × Str)) := do
  let s ← lit c!"Range: " s
  let (p, _) ← numPair s
  pure [p]

/-- `Range: #(\d+)-#(\d+) - #(\d+)-#(\d+)` at the beginning of a text
(MacrosDescReader.cpp:82). -/
def matchR2 (s : Str) : Option (List (Str × Str)) := do
  let s ← lit c!"Range: " s
  let (p, s) ← numPair s
  let s ← lit c!" - " s
  let (q, _) ← numPair s
  pure [p, q]

/-- `std::regex_search`: the leftmost match. -/
def searchAny {α : Type} (f : Str → Option α) : Str → Option α
  | [] => f []
  | c :: s => match f (c :: s) with
    | some a => some a
    | none => searchAny f s

/-- The number pairs of a description (MacrosDescReader.cpp:89). -/
def rangePairs (desc : Str) : List (Str × Str) :=
  ((searchAny matchR2 desc).orElse (fun _ => searchAny matchR1 desc)).getD []

/-- Both ends as numbers; failure is only logged, through a null pointer when
there is no logger (MacrosDescReader.cpp:98-116). -/
def rangeOf (logging : Bool) (key : Str) (p : Str × Str) : Out Exc (List ((Int × Int) × Str)) :=
  match stoi p.1 with
  | .ok b => match stoi p.2 with
    | .ok e => .ok [((b, e), key)]
    | _ => if logging then .ok [] else .ub
  | _ => if logging then .ok [] else .ub

/-- The loop over the pairs of one description. -/
def rangesOf (logging : Bool) (key : Str) : List (Str × Str) → Out Exc (List ((Int × Int) × Str))
  | [] => .ok []
  | p :: ps => rangeOf logging key p >>= fun a => rangesOf logging key ps >>= fun b => .ok (a ++ b)

/-- `readRanges` (MacrosDescReader.cpp:79-120); the iteration order of the hash
table is taken to be the order of insertion. -/
def readRanges (logging : Bool) : List (Str × (Str × Str)) → Out Exc (List ((Int × Int) × Str))
  | [] => .ok []
  | (k, _, d) :: m => rangesOf logging k (rangePairs d) >>= fun a => readRanges logging m >>= fun b => .ok (a ++ b)

/-- `MacrosDescReader::read` (MacrosDescReader.cpp:26-43): the reader's state and
the error text if one of the files is unreadable (a missing user file counts as
unreadable, a missing built-in file was already refused by `canonical`). -/
def readMacros (logging : Bool) (user : Option (File DescFile)) (builtin : File DescFile) :
    Out Exc (MacroDesc × Option Str) :=
  match builtin with
  | .absent => .throw .filesystem
  | _ =>
    let u : MacroDesc × Option Str := match user with
      | none => ({}, none)
      | some .absent => ({}, some c!"cannot open file")
      | some (.bad p e) => (addMacros p {}, some e)
      | some (.good d) => (addMacros d {}, none)
    match u.2 with
    | some e => .ok (u.1, some e)
    | none => match builtin with
      | .good d => (readRanges logging (addMacros d u.1).desc) >>= fun r =>
          .ok ({ addMacros d u.1 with ranges := r }, none)
      | .bad p e => .ok (addMacros p u.1, some e)
      | .absent => .throw .filesystem

/-- `MacrosDescReader::getDesc(code)` (MacrosDescReader.cpp:122-157). -/
def macroDesc (logging : Bool) (m : MacroDesc) (code : Str) : Out Exc (Str × Str) :=
  match find code m.desc with
  | some d => .ok d
  | none =>
    match stoi code with
    | .ok i =>
      match m.ranges.find? (fun r => decide (i > r.1.1) && decide (i < r.1.2)) with
      | some r => .ok ((find r.2 m.desc).getD ([], []))
      | none => .ok ([], [])
    | _ => if logging then .ok ([], []) else .ub

/-! ## The handler -/

/-- `FileContext` (JsonMessageHandler.h:53-58). -/
structure Ctx where
  lines : List Str
  macros : MacroMap ℚ
  lenses : List (Nat × Str)

/-- State of `JsonMessageHandler` (JsonMessageHandler.h:69-81). -/
structure St (S G C : Type) where
  contexts : List (Str × Ctx) := []
  suggestions : List Str := []
  gCodes : Option Codes := none
  mCodes : Option Codes := none
  macroDesc : Option MacroDesc := none
  currentUri : Str := []
  exit : Bool := false
  parser : PState S G C := {}

/-- Erase a key. -/
def eraseKey {α : Type} (k : Str) (m : List (Str × α)) : List (Str × α) := m.filter (fun e => e.1 ≠ k)

/-- `fetch_gCodesDesc` (JsonMessageHandler.cpp:396-411). -/
def fetchG (F : Files S G C) (st : St S G C) : Out Exc (St S G C × Codes) :=
  match st.gCodes with
  | some c => .ok (st, c)
  | none => readCodes F.gDesc >>= fun c =>
    .ok ({ st with gCodes := some c, suggestions := st.suggestions ++ c.codes.map ('G' :: ·) }, c)

/-- `fetch_mCodesDesc` (JsonMessageHandler.cpp:413-428). -/
def fetchM (F : Files S G C) (st : St S G C) : Out Exc (St S G C × Codes) :=
  match st.mCodes with
  | some c => .ok (st, c)
  | none => readCodes F.mDesc >>= fun c =>
    .ok ({ st with mCodes := some c, suggestions := st.suggestions ++ c.codes.map ('M' :: ·) }, c)

/-- `fetch_macrosDesc` (JsonMessageHandler.cpp:430-445) and its `catch`
(JsonMessageHandler.cpp:1020-1028): the error text, if any. -/
def fetchMacros (W : World S G C σ) (F : Files S G C) (st : St S G C) : Out Exc (St S G C × Option Str) :=
  match st.macroDesc with
  | some _ => .ok (st, none)
  | none => readMacros W.logging F.userDesc F.macroDesc >>= fun r =>
    match r.2 with
    | some e => .ok ({ st with macroDesc := some r.1 }, some e)
    | none => .ok ({ st with macroDesc := some r.1,
                             suggestions := st.suggestions ++ r.1.macros.map ('#' :: ·) }, none)

/-- The envelope of a response. -/
def response (id : Int) (result : Json) : Json :=
  .obj [(c!"jsonrpc", .str c!"2.0"), (c!"id", .int id), (c!"result", result)]

/-- `makeRange` (JsonMessageHandler.cpp:34-49). -/
def makeRange (line a b : Int) : Json :=
  let pos (x : Int) : Json := .obj [(c!"line", .int line), (c!"character", .int x)]
  .obj [(c!"start", pos a), (c!"end", pos b)]

/-- `initialize`'s result (JsonMessageHandler.cpp:314-342). -/
def capabilities : Json :=
  .obj [(c!"capabilities", .obj [
    (c!"textDocumentSync", .obj [(c!"openClose", .bool true), (c!"change", .int 1)]),
    (c!"completionProvider", .obj [(c!"resolveProvider", .bool true)]),
    (c!"hoverProvider", .bool true),
    (c!"codeLensProvider", .obj [(c!"resolveProvider", .bool true)])])]

/-- One diagnostic (JsonMessageHandler.cpp:1094-1103). -/
def diagJson (d : Diag) : Json :=
  .obj [(c!"severity", .int 1), (c!"range", makeRange d.line d.character d.character), (c!"message", .str d.message)]

/-- Title of the description file diagnostic (JsonMessageHandler.cpp:77). -/
def macroDescTitle : Str := c!"Problem in user macro descriptions file"

/-- `prepareMacroDescDiagnostic` (JsonMessageHandler.cpp:51-105). -/
def macroDescDiag (W : World S G C σ) (err : Str) : Json :=
  .obj [(c!"severity", .int 1), (c!"range", makeRange 0 0 0), (c!"message", .str macroDescTitle),
    (c!"relatedInformation", W.related err)]

/-- The notification (JsonMessageHandler.cpp:1030-1112). -/
def publication (uri : Str) (diags : List Json) : Json :=
  .obj [(c!"jsonrpc", .str c!"2.0"), (c!"method", .str c!"textDocument/publishDiagnostics"),
    (c!"params", .obj [(c!"uri", .str uri), (c!"diagnostics", .arr diags)])]

/-- `textDocument_publishDiagnostics` (JsonMessageHandler.cpp:1004-1129). -/
def publish (W : World S G C σ) (F : Files S G C) (st : St S G C) (uri content : Str) :
    Out Exc (St S G C × List Json) :=
  ncParse W F st.parser content >>= fun (p, r) =>
    let st := { st with parser := p,
                        contexts := eraseKey uri st.contexts ++ [(uri, ⟨contentLines content, r.macros, r.lenses⟩)] }
    fetchMacros W F st >>= fun (st, err) =>
      diagsOf r.messages >>= fun ds =>
        .ok (st, [publication uri ((match err with
          | some e => if e = [] then [] else [macroDescDiag W e]
          | none => []) ++ ds.map diagJson)])

/-! ### Hover -/

/-- `G`, `g`, `M` or `m`. -/
def isCodeLetter (c : Char) : Bool := c == 'G' || c == 'g' || c == 'M' || c == 'm'

/-- Length of `\.?\d?` at the beginning of a text. -/
def fracLen : Str → Nat
  | '.' :: c :: _ => if isDig c then 2 else 1
  | ['.'] => 1
  | c :: _ => if isDig c then 1 else 0
  | [] => 0

/-- `[GgMm]\d+\.?\d?` (JsonMessageHandler.cpp:651): length of the match at the
beginning of a text. -/
def matchCode : Str → Option Nat
  | c :: r =>
    if isCodeLetter c ∧ r.takeWhile isDig ≠ [] then
      some (1 + (r.takeWhile isDig).length + fracLen (r.dropWhile isDig))
    else none
  | [] => none

/-- `#\d+` (JsonMessageHandler.cpp:729). -/
def matchHash : Str → Option Nat
  | '#' :: r => if r.takeWhile isDig ≠ [] then some (1 + (r.takeWhile isDig).length) else none
  | _ => none

/-- `[GgMm]#\d+` (JsonMessageHandler.cpp:687). -/
def matchCodeHash : Str → Option Nat
  | c :: r => if isCodeLetter c then (matchHash r).map (1 + ·) else none
  | [] => none

/-- A token found in a line. -/
structure Token where
  start : Nat
  stop : Nat
  text : Str
deriving DecidableEq, Repr

/-- `searchPattern` (JsonMessageHandler.cpp:117-136): `pos` characters are
behind, `skip` more belong to a token that does not cover the position. -/
def search (m : Str → Option Nat) (ch : Int) : Nat → Nat → Str → Option Token
  | _, _, [] => none
  | pos, k + 1, _ :: s => search m ch (pos + 1) k s
  | pos, 0, c :: s =>
    match m (c :: s) with
    | some n =>
      if (pos : Int) ≤ ch ∧ ch < pos + n then some ⟨pos, pos + n, (c :: s).take n⟩
      else search m ch (pos + 1) (n - 1) s
    | none => search m ch (pos + 1) 0 s

/-- `extractCode` (JsonMessageHandler.cpp:138-144). -/
def extractCode : Str → Str
  | '0' :: c :: s => extractCode (c :: s)
  | s => s

/-- `replaceAll(description, "\n", "\n\n")` (JsonMessageHandler.cpp:146-157). -/
def doubleNewlines (s : Str) : Str := s.flatMap (fun c => if c = '\n' then c!"\n\n" else [c])

/-- `markdownFormatHover` (JsonMessageHandler.cpp:159-162). -/
def markdown (contents title desc : Str) : Str :=
  c!"**" ++ contents ++ c!": " ++ title ++ c!"** \n\n---\n\n" ++ doubleNewlines desc

/-- `hoverMakeResult` (JsonMessageHandler.cpp:107-115). -/
def hoverResult (contents : Str) (line : Int) (t : Token) : Json :=
  .obj [(c!"contents", .str contents), (c!"range", makeRange line t.start t.stop)]

/-- The description of a code in the table of its letter. -/
def describe (letter : Char) (g m : Codes) (code contents : Str) : Str :=
  if letter = 'G' ∨ letter = 'g' then
    match find code g.desc with
    | some d => markdown contents d.1 d.2
    | none => contents
  else
    match find code m.desc with
    | some d => markdown contents d.1 d.2
    | none => contents

/-- The letter shown in front of the substituted code. -/
def letterOf (c : Char) : Str := if c = 'G' ∨ c = 'g' then c!" (G" else c!" (M"

/-- `std::stoi` whose exception nobody catches, cast to `uint32_t` (the texts
are digits, so the value is not negative). -/
def macroId (code : Str) : Out Exc Nat :=
  match stoi code with
  | .ok z => .ok z.toNat
  | .throw e => .throw (.num e)
  | .ub => .ub

/-- Text of a hovered macro (JsonMessageHandler.cpp:735-755). -/
def macroHover (W : World S G C σ) (md : Option MacroDesc) (macros : MacroMap ℚ) (line : Int) (tok : Str) :
    Out Exc Str :=
  let code := extractCode (tok.drop 1)
  macroId code >>= fun id =>
    let v := macros.valueAt id (line + 1)
    let c1 := match v with
      | some q => tok ++ c!" = " ++ toStringTrunc q
      | none => tok
    match md with
    | none => .ub
    | some md => Srv.macroDesc W.logging md code >>= fun d =>
      if d.1 ≠ [] ∨ d.2 ≠ [] then .ok (markdown c1 d.1 d.2)
      else .ok (if v.isSome then c1 else c1 ++ c!" = undefined")

/-- The line asked about (JsonMessageHandler.cpp:612, 636). -/
def textFor (ctx : Option Ctx) (line : Int) : Str :=
  match ctx with
  | some c => (c.lines[line.toNat]?).getD []
  | none => []

/-- The macro values of the document (JsonMessageHandler.cpp:613, 637). -/
def macrosFor (ctx : Option Ctx) : MacroMap ℚ :=
  match ctx with
  | some c => c.macros
  | none => []

/-- The result of a hover request in a line (JsonMessageHandler.cpp:647-772). -/
def hoverIn (W : World S G C σ) (F : Files S G C) (st : St S G C) (ctx : Option Ctx) (line ch : Int) :
    Out Exc (St S G C × Json) :=
  let text := textFor ctx line
  let macros := macrosFor ctx
  match search matchCode ch 0 0 text with
  | some t =>
    fetchG F st >>= fun (st, g) => fetchM F st >>= fun (st, m) =>
      .ok (st, hoverResult (describe (t.text.headD ' ') g m (extractCode (t.text.drop 1)) t.text) line t)
  | none =>
    if macros = [] then .ok (st, .null)
    else
      match search matchCodeHash ch 0 0 text with
      | some t =>
        macroId (extractCode (t.text.drop 2)) >>= fun id =>
          match macros.valueAt id (line + 1) with
          | some q =>
            fetchG F st >>= fun (st, g) => fetchM F st >>= fun (st, m) =>
              let code := toStringTrunc q
              let contents := t.text ++ letterOf (t.text.headD ' ') ++ code ++ c!")"
              .ok (st, hoverResult (describe (t.text.headD ' ') g m code contents) line t)
          | none => .ok (st, .obj [])
      | none =>
        match search matchHash ch 0 0 text with
        | some t => macroHover W st.macroDesc macros line t.text >>= fun s => .ok (st, hoverResult s line t)
        | none => .ok (st, .null)

/-- The context used for a position (JsonMessageHandler.cpp:615-638): none when
the document is unknown or has no such line. -/
def ctxFor (st : St S G C) (uri : Str) (line : Int) : Option Ctx :=
  match find uri st.contexts with
  | none => none
  | some c => if 0 ≤ line ∧ line < c.lines.length then some c else none

/-- `textDocument_hover` (JsonMessageHandler.cpp:602-791). -/
def hover (W : World S G C σ) (F : Files S G C) (st : St S G C) (req : Json) : Out Exc (St S G C × List Json) := do
  let params ← req.get c!"params"
  let position ← params.get c!"position"
  let line ← (← position.get c!"line").getInt
  let ch ← (← position.get c!"character").getInt
  let doc ← params.get c!"textDocument"
  let uri ← (← doc.get c!"uri").getCStr
  let id ← (← req.get c!"id").getInt
  let (st, r) ← hoverIn W F st (ctxFor st uri line) line ch
  pure (st, [response id r])

/-! ### Completion and code lenses -/

/-- One suggestion (JsonMessageHandler.cpp:464-471). -/
def suggestion (n : Nat) (label : Str) : Json :=
  .obj [(c!"label", .str label), (c!"kind", .int 15), (c!"insertTextFormat", .int 2), (c!"data", .int n)]

/-- Suggestions numbered from `n`. -/
def suggestionsFrom : Nat → List Str → List Json
  | _, [] => []
  | n, s :: l => suggestion n s :: suggestionsFrom (n + 1) l

/-- `textDocument_completion` (JsonMessageHandler.cpp:447-492). -/
def completion (F : Files S G C) (st : St S G C) (id : Int) : Out Exc (St S G C × List Json) := do
  let (st, _) ← fetchG F st
  let (st, _) ← fetchM F st
  pure (st, [response id (.arr (suggestionsFrom 1 st.suggestions))])

/-- Title and text of a resolved label (JsonMessageHandler.cpp:534-561); using a
table that was not created is undefined. -/
def labelDesc (W : World S G C σ) (st : St S G C) (label : Str) : Out Exc (Str × Str) :=
  match label with
  | [] => .ok ([], [])
  | c :: code =>
    if c = 'G' ∨ c = 'g' then
      match st.gCodes with
      | none => .ub
      | some t => .ok ((find code t.desc).getD ([], []))
    else if c = 'M' ∨ c = 'm' then
      match st.mCodes with
      | none => .ub
      | some t => .ok ((find code t.desc).getD ([], []))
    else if c = '#' then
      match st.macroDesc with
      | none => .ub
      | some t => Srv.macroDesc W.logging t code
    else .ok ([], [])

/-- A text or null. -/
def textOrNull (s : Str) : Json := if s = [] then .null else .str s

/-- A member copied if present. -/
def copied (params : Json) (k : Str) : Out Exc (List (Str × Json)) :=
  params.member? k >>= fun r => .ok (match r with | some v => [(k, v)] | none => [])

/-- `completionItem_resolve` (JsonMessageHandler.cpp:494-600). -/
def resolve (W : World S G C σ) (st : St S G C) (req : Json) : Out Exc (St S G C × List Json) := do
  let id ← (← req.get c!"id").getInt
  if ← req.hasMember c!"params" then
    let params ← req.get c!"params"
    let label ← params.get c!"label"
    let fmt ← copied params c!"insertTextFormat"
    let kind ← copied params c!"kind"
    let data ← copied params c!"data"
    let l ← label.getStr
    let d ← labelDesc W st l
    pure (st, [response id (.obj ((c!"label", label) :: fmt ++ kind ++ data ++
      [(c!"detail", textOrNull d.1), (c!"documentation", textOrNull d.2)]))])
  else pure (st, [response id (.obj [])])

/-- The command of a lens (JsonMessageHandler.cpp:845-854). -/
def lensCommand (title : Str) : Json := .obj [(c!"title", .str title), (c!"command", .null)]

/-- One lens (JsonMessageHandler.cpp:834-858). -/
def lensJson (e : Nat × Str) : Json :=
  .obj [(c!"range", makeRange e.1 0 0), (c!"command", lensCommand e.2)]

/-- Result of a lens request for a document. -/
def lensResult (ctx : Option Ctx) : Json :=
  match ctx with
  | none => .null
  | some c => if c.lenses = [] then .null else .arr (c.lenses.map lensJson)

/-- `textDocument_codeLens` (JsonMessageHandler.cpp:793-879). -/
def codeLens (st : St S G C) (req : Json) : Out Exc (St S G C × List Json) := do
  let params ← req.get c!"params"
  let doc ← params.get c!"textDocument"
  let uri ← (← doc.get c!"uri").getCStr
  let id ← (← req.get c!"id").getInt
  let ctx := find uri st.contexts
  pure (if ctx.isSome then { st with currentUri := uri } else st, [response id (lensResult ctx)])

/-- Result of resolving a lens at a line. -/
def lensResolved (ctx : Option Ctx) (range : Json) (line : Int) : Json :=
  match ctx with
  | none => .null
  | some c =>
    match c.lenses.find? (fun e => (e.1 : Int) = line) with
    | some e => .obj [(c!"range", range), (c!"command", lensCommand e.2)]
    | none => .null

/-- `codeLens_resolve` (JsonMessageHandler.cpp:881-963). -/
def codeLensResolve (st : St S G C) (req : Json) : Out Exc (St S G C × List Json) := do
  let params ← req.get c!"params"
  let range ← params.get c!"range"
  let start ← range.get c!"start"
  let line ← (← start.get c!"line").getInt
  let id ← (← req.get c!"id").getInt
  pure (st, [response id (lensResolved (find st.currentUri st.contexts) range line)])

/-! ### Dispatch -/

/-- The `id` of a message (JsonMessageHandler.cpp:219-225). -/
def idOf (d : Json) : Out Exc Int :=
  d.member? c!"id" >>= fun r => .ok (match r with
    | some (.int z) => if Json.isInt32 z then z else 0
    | some (.str s) => atoi (Json.cstr s)
    | _ => 0)

/-- The `method` of a message (JsonMessageHandler.cpp:227-235). -/
def methodOf (d : Json) : Out Exc Str :=
  d.member? c!"method" >>= fun r => match r with
    | some m => m.getStr
    | none => .ok []

/-- `textDocument_didOpen` (JsonMessageHandler.cpp:371-377). -/
def didOpen (W : World S G C σ) (F : Files S G C) (st : St S G C) (d : Json) : Out Exc (St S G C × List Json) := do
  let doc ← (← d.get c!"params").get c!"textDocument"
  let uri ← (← doc.get c!"uri").getCStr
  let text ← (← doc.get c!"text").getCStr
  publish W F st uri text

/-- `textDocument_didChange` (JsonMessageHandler.cpp:379-386). -/
def didChange (W : World S G C σ) (F : Files S G C) (st : St S G C) (d : Json) : Out Exc (St S G C × List Json) := do
  let params ← d.get c!"params"
  let doc ← params.get c!"textDocument"
  let change ← (← params.get c!"contentChanges").first
  let uri ← (← doc.get c!"uri").getCStr
  let text ← (← change.get c!"text").getCStr
  publish W F st uri text

/-- `textDocument_didClose` (JsonMessageHandler.cpp:388-394). -/
def didClose (st : St S G C) (d : Json) : Out Exc (St S G C × List Json) := do
  let doc ← (← d.get c!"params").get c!"textDocument"
  let uri ← (← doc.get c!"uri").getCStr
  pure ({ st with contexts := eraseKey uri st.contexts }, [])

/-- The dispatch of `JsonMessageHandler::parse` (JsonMessageHandler.cpp:240-300). -/
def dispatch (W : World S G C σ) (F : Files S G C) (st : St S G C) (d : Json) (id : Int) (method : Str) :
    Out Exc (St S G C × List Json) :=
  if method = c!"initialize" then .ok (st, [response id capabilities])
  else if method = c!"initialized" then .ok (st, [])
  else if method = c!"workspace/didChangeConfiguration" then .ok (st, [])
  else if method = c!"textDocument/didOpen" then didOpen W F st d
  else if method = c!"textDocument/didChange" then didChange W F st d
  else if method = c!"textDocument/didClose" then didClose st d
  else if method = c!"textDocument/completion" then completion F st id
  else if method = c!"completionItem/resolve" then resolve W st d
  else if method = c!"textDocument/hover" then hover W F st d
  else if method = c!"textDocument/codeLens" then codeLens st d
  else if method = c!"codeLens/resolve" then codeLensResolve st d
  else if method = c!"$/cancelRequest" then .ok (st, [])
  else if method = c!"shutdown" then .ok ({ st with exit := true }, [response id .null])
  else if method = c!"exit" then .ok ({ st with exit := true }, [])
  else .ok (st, [])

/-- `JsonMessageHandler::parse` on a parsed document (JsonMessageHandler.cpp:205-303). -/
def handle (W : World S G C σ) (F : Files S G C) (st : St S G C) (d : Json) : Out Exc (St S G C × List Json) := do
  let id ← idOf d
  let method ← methodOf d
  dispatch W F st d id method

/-- `JsonMessageHandler::parse`; a text that is not JSON leaves a null document,
on which `HasMember` is undefined (JsonMessageHandler.cpp:203-219). -/
def parse (W : World S G C σ) (F : Files S G C) (st : St S G C) (body : Str) : Out Exc (St S G C × List Json) :=
  match W.readJson body with
  | none => .ub
  | some d => handle W F st d

/-- The handler over a list of documents, each with the files of its time. -/
def run (W : World S G C σ) : St S G C → List (Files S G C × Json) → Out Exc (St S G C × List (List Json))
  | st, [] => .ok (st, [])
  | st, (F, d) :: ds => handle W F st d >>= fun r => run W r.1 ds >>= fun q => .ok (q.1, r.2 :: q.2)

/-- Everything the process remembers: the handler, what it wrote so far, and
the files it will see with each further message. -/
structure Proc (S G C : Type) where
  st : St S G C
  written : List Json := []
  files : List (Files S G C)
  last : Files S G C

/-- The handler as used by `main`: parse, write the answers, report `exit()`. -/
def onMessage (W : World S G C σ) (p : Proc S G C) (body : Str) : Out Exc (Proc S G C × Bool) :=
  let F := p.files.headD p.last
  parse W F p.st body >>= fun r =>
    .ok ({ p with st := r.1, written := p.written ++ r.2, files := p.files.tail }, r.1.exit)

/-- Characters on standard output. -/
def Proc.output (p : Proc S G C) : Str := (p.written.map (fun j => frame j.render)).flatten

end NC.Srv
