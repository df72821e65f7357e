import Verif.Framing

/-!
# What framing means, independently of the reading loop

A stream is a sequence of messages as the base protocol writes them, with any
text free of the letter `C` in between.
-/

namespace NC.Spec.Framing
open NC

/-- One message on the wire: text before it, the decimal digits of its length,
the line ends after the header, the body. -/
structure Wire where
  before : Str
  digits : Str
  eol : Str
  body : Str

/-- The characters of a message. -/
def Wire.text (w : Wire) : Str := w.before ++ c!"Content-Length: " ++ w.digits ++ w.eol ++ w.body

/-- The message follows the protocol: the announced length is the length of the
body, the header is followed by line ends only, and the body is not empty and
does not start with a line end. -/
structure Wire.Good (w : Wire) : Prop where
  quiet : 'C' ∉ w.before
  decimal : ∀ c ∈ w.digits, isDig c = true
  length : readNat w.digits = w.body.length
  fits : w.body.length ≤ 2147483647
  eol_ne : w.eol ≠ []
  eol : ∀ c ∈ w.eol, c = '\r' ∨ c = '\n'
  body : ∃ c r, w.body = c :: r ∧ c ≠ '\r' ∧ c ≠ '\n'

/-- Hand the bodies over one after the other until the handler asks to stop;
returns the remaining messages. -/
def deliver {ε σ : Type} (h : σ → Str → Out ε (σ × Bool)) : σ → List Wire → Out ε (σ × Option (List Wire))
  | s, [] => .ok (s, none)
  | s, w :: ws => h s w.body >>= fun r => if r.2 then .ok (r.1, some ws) else deliver h r.1 ws

/-- A handler that only writes down what it is given. -/
def record (s : List Str) (b : Str) : Out Empty (List Str × Bool) := .ok (s ++ [b], false)

/-- The client's side of the protocol: a text is the concatenation of framed
bodies. -/
def Frames : List Str → Str → Prop
  | [], t => t = []
  | b :: bs, t => ∃ ds rest, t = c!"Content-Length: " ++ ds ++ c!"\r\n\r\n" ++ b ++ rest ∧
      ds ≠ [] ∧ (∀ c ∈ ds, isDig c = true) ∧ readNat ds = b.length ∧ Frames bs rest

end NC.Spec.Framing
