import Verif.Server

/-!
# What a client sees, independently of the handler

Messages are looked at as JSON values through `path`; documents are followed by
`latest`, which knows nothing about contexts.
-/

namespace NC.Spec.Server
open NC

/-- The value at a path of member names. -/
def path : List Str → Json → Option Json
  | [], j => some j
  | k :: ks, .obj m => match Json.assoc k m with
    | some v => path ks v
    | none => none
  | _, _ => none

/-- A text at a path. -/
def textAt (p : List Str) (j : Json) : Option Str :=
  match path p j with
  | some (.str s) => some s
  | _ => none

/-- An integer of 32 bits at a path. -/
def intAt (p : List Str) (j : Json) : Option Int :=
  match path p j with
  | some (.int z) => if -2147483648 ≤ z ∧ z ≤ 2147483647 then some z else none
  | _ => none

/-- The method of a message. -/
def method (d : Json) : Option Str := textAt [c!"method"] d

/-- The text of the first change of a `didChange` notification. -/
def changedText (d : Json) : Option Str :=
  match path [c!"params", c!"contentChanges"] d with
  | some (.arr (a :: _)) => textAt [c!"text"] a
  | _ => none

/-- The document a notification is about. -/
def docUri (d : Json) : Option Str := textAt [c!"params", c!"textDocument", c!"uri"] d

/-- What a notification says about a document: its new text, or that it was
closed. -/
def event (d : Json) : Option (Str × Option Str) :=
  if method d = some c!"textDocument/didOpen" then
    match docUri d, textAt [c!"params", c!"textDocument", c!"text"] d with
    | some u, some t => some (u, some t)
    | _, _ => none
  else if method d = some c!"textDocument/didChange" then
    match docUri d, changedText d with
    | some u, some t => some (u, some t)
    | _, _ => none
  else if method d = some c!"textDocument/didClose" then
    match docUri d with
    | some u => some (u, none)
    | none => none
  else none

/-- How a message changes the text of document `u`. -/
def update (u : Str) (cur : Option Str) (d : Json) : Option Str :=
  match event d with
  | some (v, t) => if v = u then t else cur
  | none => cur

/-- The text a document has after a history (oldest message first): that of the
most recent opening or change, unless it was closed since. -/
def latest (u : Str) (ds : List Json) : Option Str := ds.foldl (update u) none

/-- No NUL character in the name or text of a document. -/
def Clean (d : Json) : Prop :=
  ∀ u t, event d = some (u, t) → (∀ c ∈ u, c.toNat ≠ 0) ∧ ∀ s, t = some s → ∀ c ∈ s, c.toNat ≠ 0

/-- Requests that are answered under the id of the request. -/
def requests : List Str :=
  [c!"initialize", c!"textDocument/completion", c!"completionItem/resolve", c!"textDocument/hover",
   c!"textDocument/codeLens", c!"codeLens/resolve", c!"shutdown"]

/-- Notifications that are followed by diagnostics. -/
def texts : List Str := [c!"textDocument/didOpen", c!"textDocument/didChange"]

/-- A JSON-RPC response with an id: version, id and result, nothing else. -/
def IsResponse (id : Int) (j : Json) : Prop :=
  ∃ r, j = .obj [(c!"jsonrpc", .str c!"2.0"), (c!"id", .int id), (c!"result", r)]

/-- A notification with the diagnostics of a document. -/
def IsDiagnostics (uri : Str) (j : Json) : Prop :=
  textAt [c!"method"] j = some c!"textDocument/publishDiagnostics" ∧
  path [c!"id"] j = none ∧
  textAt [c!"params", c!"uri"] j = some uri ∧
  ∃ ds, path [c!"params", c!"diagnostics"] j = some (.arr ds)

/-- The messages allowed in reply to a message. -/
def Replies (d : Json) (outs : List Json) : Prop :=
  match method d with
  | none => outs = []
  | some m =>
    if m ∈ requests then
      (∀ id, intAt [c!"id"] d = some id → ∃ j, outs = [j] ∧ IsResponse id j)
    else if m ∈ texts then
      ∃ j u, outs = [j] ∧ docUri d = some u ∧ IsDiagnostics u j
    else outs = []

/-- Messages that end the server. -/
def Ends (d : Json) : Prop := method d = some c!"shutdown" ∨ method d = some c!"exit"

instance (d : Json) : Decidable (Ends d) := by unfold Ends; infer_instance

/-- The messages up to and including the first one that ends the server. -/
def through : List Json → List Json
  | [] => []
  | d :: ds => if Ends d then [d] else d :: through ds

/-- Pair the messages with the files of their time; the last files stay. -/
def withFiles {F : Type} (last : F) : List F → List Json → List (F × Json)
  | _, [] => []
  | fs, d :: ds => (fs.headD last, d) :: withFiles last fs.tail ds

/-- The message texts of the diagnostics in a notification. -/
def messagesOf (j : Json) : List Str :=
  match path [c!"params", c!"diagnostics"] j with
  | some (.arr ds) => ds.filterMap (textAt [c!"message"])
  | _ => []

/-- A reply reports a text. -/
def Reported (text : Str) (outs : List Json) : Prop := ∃ j ∈ outs, text ∈ messagesOf j

/-- A file that cannot be used. -/
def Unreadable {α : Type} (f : Srv.File α) : Prop := ∀ a, f ≠ .good a

/-- The labels of a list of suggestions, with their numbers. -/
def labels (j : Json) : Option (List (Option Str × Option Int)) :=
  match path [c!"result"] j with
  | some (.arr l) => some (l.map (fun e => (textAt [c!"label"] e, intAt [c!"data"] e)))
  | _ => none

/-- A text of digits. -/
def Digits (s : Str) : Prop := s ≠ [] ∧ ∀ c ∈ s, isDig c = true

/-- The text does not go on with a digit. -/
def NoDigit (s : Str) : Prop := ∀ c r, s = c :: r → isDig c = false

/-- A description documents the range of macros from `a` to `b`: it contains
`Range: #a-#b`, or `Range: #x-#y - #a-#b`. -/
inductive Documents : Str → Nat → Nat → Prop
  | one {pre post ds es : Str} : Digits ds → Digits es → NoDigit post →
      Documents (pre ++ c!"Range: #" ++ ds ++ c!"-#" ++ es ++ post) (readNat ds) (readNat es)
  | two {pre post ds es fs gs : Str} : Digits ds → Digits es → Digits fs → Digits gs → NoDigit post →
      Documents (pre ++ c!"Range: #" ++ ds ++ c!"-#" ++ es ++ c!" - #" ++ fs ++ c!"-#" ++ gs ++ post) (readNat fs) (readNat gs)

/-- `Range: ` occurs at most once. -/
def OneRange (d : Str) : Prop :=
  ∀ p q p' q', d = p ++ c!"Range: " ++ q → d = p' ++ c!"Range: " ++ q' → p = p'

/-- What a description file says about a name: the first title and text of the
first entry that has one. -/
def described (f : Srv.DescFile) (k : Str) : Option (Str × Str) :=
  (f.filterMap (fun e => if e.1 = k then e.2.head? else none)).head?

/-- Letters that introduce a code. -/
def codeLetters : List Char := ['G', 'g', 'M', 'm']

/-- A code as written in a program: letter, digits, optionally a point and
optionally one digit behind it. -/
inductive IsCode : Str → Prop
  | whole {c ds} : c ∈ codeLetters → ds ≠ [] → (∀ d ∈ ds, isDig d = true) → IsCode (c :: ds)
  | point {c ds} : c ∈ codeLetters → ds ≠ [] → (∀ d ∈ ds, isDig d = true) → IsCode (c :: ds ++ c!".")
  | frac {c ds e} : c ∈ codeLetters → ds ≠ [] → (∀ d ∈ ds, isDig d = true) → isDig e = true →
      IsCode (c :: ds ++ ['.', e])

/-- A macro variable as written in a program. -/
def IsMacro (t : Str) : Prop := ∃ ds, t = '#' :: ds ∧ ds ≠ [] ∧ ∀ d ∈ ds, isDig d = true

/-- A code letter with a macro variable behind it. -/
def IsCodeMacro (t : Str) : Prop := ∃ c m, t = c :: m ∧ c ∈ codeLetters ∧ IsMacro m

/-- Part `[a, b)` of a line. -/
def slice (line : Str) (a b : Nat) : Str := (line.drop a).take (b - a)

/-- A token of a kind in a line: it is of the kind, and no longer text at the
same place is. -/
def TokenAt (kind : Str → Prop) (line : Str) (a b : Nat) : Prop :=
  a < b ∧ b ≤ line.length ∧ kind (slice line a b) ∧
    ∀ b', b < b' → b' ≤ line.length → ¬ kind (slice line a b')

end NC.Spec.Server
