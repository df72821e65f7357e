import Verif.Spec.Server

/-!
# The problems an editor lists for a document

An editor keeps one list of problems per document: each
`textDocument/publishDiagnostics` notification replaces the list of the document
it names, and nothing else touches it. This is said on the messages the server
writes alone.
-/

namespace NC.Spec.Listed
open NC NC.Spec.Server

/-- The list a message of the server gives for document `u`, if it gives one. -/
def pushed (u : Str) (j : Json) : Option (List Json) :=
  if textAt [c!"method"] j = some c!"textDocument/publishDiagnostics" ∧ textAt [c!"params", c!"uri"] j = some u then
    match path [c!"params", c!"diagnostics"] j with
    | some (.arr l) => some l
    | _ => none
  else none

/-- How a message of the server changes the list of document `u`. -/
def relist (u : Str) (cur : Option (List Json)) (j : Json) : Option (List Json) :=
  match pushed u j with
  | some l => some l
  | none => cur

/-- The list the editor has for document `u` after the messages of the server
(oldest first); none if the server never gave one. -/
def listed (u : Str) (written : List Json) : Option (List Json) := written.foldl (relist u) none

/-- How a message of the editor changes the last text it ever gave for `u`;
closing the document does not count. -/
def lastGiven (u : Str) (cur : Option Str) (d : Json) : Option Str :=
  match event d with
  | some (v, some t) => if v = u then some t else cur
  | _ => cur

/-- The last text the editor ever gave for document `u`. -/
def lastText (u : Str) (ds : List Json) : Option Str := ds.foldl (lastGiven u) none

end NC.Spec.Listed
