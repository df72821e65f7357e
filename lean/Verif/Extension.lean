import Verif.Base

/-!
# Reload prompts of the editor extension (vscode-client/src/extension.ts)

The editor's configuration store is modelled as one value per target and key.
Writing a value raises a configuration event for that key, at once, exactly
when the stored value changes (this is the editor's behaviour, assumed here;
in the editor the event arrives asynchronously).
-/

namespace NC.Ext

/-- Where a setting is stored (`ConfigurationTarget`). -/
inductive Target where
  | global
  | workspace
deriving DecidableEq, Repr

/-- The settings of the extension, and all others. -/
inductive Key where
  | logPath
  | ncsettingPath
  | pathTime
  | macroPath
  | other (name : Str)
deriving DecidableEq, Repr

/-- The settings listed in extension.ts:186-191. -/
def watched : List Key := [.logPath, .ncsettingPath, .pathTime, .macroPath]

/-- Stored values; `none` when unset. -/
abbrev Store := Target → Key → Option Str

/-- The declared defaults (package.json:40-57); the path of the macro descriptions is not declared. -/
def fallback : Key → Option Str
  | .logPath => some []
  | .ncsettingPath => some []
  | .pathTime => some c!"true"
  | .macroPath => none
  | .other _ => none

/-- The value a program reads: workspace first, then the user's, then the default (`workspace.getConfiguration().get`). -/
def Store.effective (c : Store) (k : Key) : Option Str :=
  ((c .workspace k).orElse (fun _ => c .global k)).orElse (fun _ => fallback k)

/-- Writing one value. -/
def Store.set (c : Store) (t : Target) (k : Key) (v : Option Str) : Store :=
  fun t' k' => if t' = t ∧ k' = k then v else c t' k'

/-- Extension state: the store, `ignoreNextConfigurationChange`
(extension.ts:178) and the number of reload prompts shown. -/
structure St where
  store : Store
  ignore : Bool
  prompts : Nat

/-- The listener (extension.ts:181-197): one prompt at most. -/
def onChange (s : St) (k : Key) : St :=
  if s.ignore then { s with ignore := false }
  else if k ∈ watched then { s with prompts := s.prompts + 1 } else s

/-- A write to the store, with the event it raises. -/
def write (s : St) (t : Target) (k : Key) (v : Option Str) : St :=
  let s' := { s with store := s.store.set t k v }
  if s.store t k = v then s' else onChange s' k

/-- What can happen. -/
inductive Action where
  /-- The user edits a setting in the editor. -/
  | edit (t : Target) (k : Key) (v : Option Str)
  /-- Command `togglePathTimeCalculation` (extension.ts:364-375). -/
  | toggle
  /-- A file chosen through `askFilePath` (extension.ts:240-275); the key is
  `ncsettingPath` or `macroPath`. -/
  | choose (t : Target) (k : Key) (path : Str)
deriving DecidableEq, Repr

/-- Own update: set the flag, write, prompt (extension.ts:264-270, 369-371). -/
def ownUpdate (s : St) (t : Target) (k : Key) (v : Str) : St :=
  let s' := write { s with ignore := true } t k (some v)
  { s' with prompts := s'.prompts + 1 }

/-- `!calculatePathTime` as stored. -/
def negated (v : Option Str) : Str := if v = some c!"true" then c!"false" else c!"true"

/-- One action. -/
def step (s : St) : Action → St
  | .edit t k v => write s t k v
  | .toggle => ownUpdate s .global .pathTime (negated (s.store.effective .pathTime))
  | .choose t k p => ownUpdate s t k p

/-- The store after an action, and whether the action stores something new. -/
def stored (c : Store) : Action → Store
  | .edit t k v => c.set t k v
  | .toggle => c.set .global .pathTime (some (negated (c.effective .pathTime)))
  | .choose t k p => c.set t k (some p)

end NC.Ext
