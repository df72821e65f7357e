import Verif.Spec.Server

/-!
# Requests of JSON-RPC and of the protocol

Independent of the handler: a request is a message with a method and an id, the id being any value but null; its answer carries the same id and
a result or an error; the process ends with the notification `exit`.
-/

namespace NC.Spec.Rpc
open NC NC.Spec.Server

/-- A request: it has a method and an id. -/
def Request (d : Json) : Prop := ∃ m v, method d = some m ∧ path [c!"id"] d = some v ∧ v ≠ .null

/-- An answer to a message: the same id, and a result or an error. -/
def AnswerTo (d j : Json) : Prop :=
  path [c!"id"] j = path [c!"id"] d ∧ ((∃ r, path [c!"result"] j = some r) ∨ ∃ e, path [c!"error"] j = some e)

/-- What is written for a message is one answer to it. -/
def AnsweredOnce (d : Json) (outs : List Json) : Prop := ∃ j, outs = [j] ∧ AnswerTo d j

/-- The messages the server has to take: those up to and including the first `exit`. -/
def untilExit : List Json → List Json
  | [] => []
  | d :: ds => if method d = some c!"exit" then [d] else d :: untilExit ds

end NC.Spec.Rpc
