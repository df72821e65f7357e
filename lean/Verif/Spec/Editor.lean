import Verif.Spec.Server

/-!
# The text of a document and its lines by the Language Server Protocol
-/

namespace NC.Spec.Editor
open NC NC.Spec.Server

/-- The changes of a `didChange` notification. -/
def changes (d : Json) : List Json :=
  match path [c!"params", c!"contentChanges"] d with
  | some (.arr l) => l
  | _ => []

/-- What a notification says about a document: its text when it is opened, the text after the changes in their order (each of them is the whole
text), or that it is closed. -/
def news (d : Json) : Option (Str × Option Str) :=
  if method d = some c!"textDocument/didOpen" then
    match docUri d, textAt [c!"params", c!"textDocument", c!"text"] d with
    | some u, some t => some (u, some t)
    | _, _ => none
  else if method d = some c!"textDocument/didChange" then
    match docUri d, (changes d).getLast?.bind (textAt [c!"text"]) with
    | some u, some t => some (u, some t)
    | _, _ => none
  else if method d = some c!"textDocument/didClose" then (docUri d).map (·, none)
  else none

/-- The text a document has in the editor after the notifications. -/
def inEditor (u : Str) (ds : List Json) : Option Str :=
  ds.foldl (fun cur d => match news d with | some (v, t) => if v = u then t else cur | none => cur) none

/-- The lines of a text: they end with LF, CR LF or CR. -/
inductive EditorLines : Str → List Str → Prop
  | last {l} : '\n' ∉ l → '\r' ∉ l → EditorLines l [l]
  | lf {l rest ls} : '\n' ∉ l → '\r' ∉ l → EditorLines rest ls → EditorLines (l ++ '\n' :: rest) (l :: ls)
  | crlf {l rest ls} : '\n' ∉ l → '\r' ∉ l → EditorLines rest ls → EditorLines (l ++ '\r' :: '\n' :: rest) (l :: ls)
  | cr {l rest ls} : '\n' ∉ l → '\r' ∉ l → rest.head? ≠ some '\n' → EditorLines rest ls → EditorLines (l ++ '\r' :: rest) (l :: ls)

end NC.Spec.Editor
