import Verif.Base

/-!
# Reading framed messages (nclangsrv/nclangsrv.cpp:105-175)

The main loop of the server reads single characters.  It is modelled as a
machine with one mode per inner loop; characters stand for the bytes of the
stream.  The message handler is a parameter.
-/

namespace NC.Srv

/-- The header name the loop looks for (nclangsrv.cpp:120). -/
def headerName : Str := c!"Content-Length: "

/-- Conversion `int` to `uint32_t` (nclangsrv.cpp:138). -/
def asU32 (z : Int) : Nat := (z % 4294967296).toNat

/-- `uint32_t length = std::atoi(str.c_str())` (nclangsrv.cpp:138). -/
def frameLength (s : Str) : Nat := asU32 (atoi s)

/-- Which inner loop of `main` is waiting for the next character. -/
inductive Mode where
  /-- nclangsrv.cpp:113-122, with the text collected in `str`. -/
  | seek (acc : Str)
  /-- nclangsrv.cpp:129-136, with the text collected in `str`. -/
  | num (acc : Str)
  /-- nclangsrv.cpp:148-156, with the value of `length`. -/
  | first (length : Nat)
  /-- `std::cin.read` (nclangsrv.cpp:158), with the number of characters still
  wanted and the characters read so far. -/
  | rest (want : Nat) (acc : Str)
deriving DecidableEq, Repr

/-- What one character does: the next mode and, when a message is complete, its
text as given to `jsonMessageHandler.parse` (nclangsrv.cpp:165).  A `read` of
zero characters (length 1) completes at once. -/
def feed : Mode → Char → Mode × Option Str
  | .seek acc, c =>
    if acc = [] ∧ c ≠ 'C' then (.seek [], none)
    else if acc ++ [c] = headerName then (.num [], none)
    else (.seek (acc ++ [c]), none)
  | .num acc, c =>
    if c = '\r' ∨ c = '\n' then
      if frameLength acc = 0 then (.seek [], none) else (.first (frameLength acc), none)
    else (.num (acc ++ [c]), none)
  | .first n, c =>
    if c = '\r' ∨ c = '\n' then (.first n, none)
    else if n - 1 = 0 then (.seek [], some [c])
    else (.rest (n - 1) [c], none)
  | .rest w acc, c =>
    if w - 1 = 0 then (.seek [], some (acc ++ [c]))
    else (.rest (w - 1) (acc ++ [c]), none)

/-- What the loop does at the end of the input: a message whose header was
accepted is handed over with the characters that did arrive. -/
def atEnd : Mode → Option Str
  | .seek _ => none
  | .num acc => if frameLength acc = 0 then none else some []
  | .first _ => some []
  | .rest _ acc => some acc

/-- How the server ended up: still looping (at the end of the input it waits
for ever), or left through `break` (nclangsrv.cpp:166-174) with the unread input. -/
inductive Ended where
  | waiting
  | stopped (unread : Str)
deriving DecidableEq, Repr

/-- `main`'s loop: `h` is the message handler, whose boolean result is
`jsonMessageHandler.exit()` after the message. -/
def serve {ε σ : Type} (h : σ → Str → Out ε (σ × Bool)) : Mode → σ → Str → Out ε (σ × Ended)
  | m, s, [] =>
    match atEnd m with
    | none => .ok (s, .waiting)
    | some b => h s b >>= fun r => .ok (r.1, if r.2 then .stopped [] else .waiting)
  | m, s, c :: cs =>
    match feed m c with
    | (m', none) => serve h m' s cs
    | (m', some b) => h s b >>= fun r => if r.2 then .ok (r.1, .stopped cs) else serve h m' r.1 cs

/-- The whole run of the server on its standard input. -/
def main {ε σ : Type} (h : σ → Str → Out ε (σ × Bool)) (s : σ) (input : Str) : Out ε (σ × Ended) :=
  serve h (.seek []) s input

/-- How every answer is written (e.g. JsonMessageHandler.cpp:359): header,
empty line, text. -/
def frame (body : Str) : Str := headerName ++ natStr body.length ++ c!"\r\n\r\n" ++ body

end NC.Srv
