import Verif.Num

/-!
# Lines, messages, times (nclangsrv/NCParser.cpp, nclangsrv/JsonMessageHandler.cpp)

How the server cuts a document into lines, words the message of a rejected
line, turns messages into diagnostics, and shows times.  Characters stand for
bytes; `std::isspace` is that of the "C" locale.
-/

namespace NC.Srv

/-- `rtrim` (NCParser.cpp:205-213). -/
def rtrim (s : Str) : Str := (s.reverse.dropWhile (fun c => isSp c || c == '\r')).reverse

/-- `splitLines` (NCParser.cpp:215-238); `cur` is the line read so far. -/
def splitFrom (cur : Str) : Str → List Str
  | [] => if cur = [] then [] else [rtrim cur]
  | c :: cs => if c = '\n' then rtrim cur :: splitFrom [] cs else splitFrom (cur ++ [c]) cs

/-- `splitLines` of a text. -/
def splitLines (s : Str) : List Str := splitFrom [] s

/-- Repeated `std::getline(ss, data, d)` until it fails; `cur` is the piece
read so far.  A piece is delivered at each delimiter and, when it is not empty,
at the end (JsonMessageHandler.cpp:1009-1012 with `\n`, 1066-1072 with `:`). -/
def piecesFrom (d : Char) (cur : Str) : Str → List Str
  | [] => if cur = [] then [] else [cur]
  | c :: cs => if c = d then cur :: piecesFrom d [] cs else piecesFrom d (cur ++ [c]) cs

/-- All pieces of a text. -/
def pieces (d : Char) (s : Str) : List Str := piecesFrom d [] s

/-- `contentLines` of a document (JsonMessageHandler.cpp:1006-1012). -/
def contentLines (s : Str) : List Str := pieces '\n' s

/-- `boost::algorithm::trim`. -/
def trim (s : Str) : Str := ((s.dropWhile isSp).reverse.dropWhile isSp).reverse

/-- `std::string::find`: the text before the first occurrence and the text
behind it. -/
def cutAt (pat : Str) : Str → Option (Str × Str)
  | [] => if pat = [] then some ([], []) else none
  | c :: cs =>
    if pat.isPrefixOf (c :: cs) then some ([], (c :: cs).drop pat.length)
    else (cutAt pat cs).map (fun r => (c :: r.1, r.2))

/-- The message kept for rejected line `n` with text `data` when the parser
said `msg` (NCParser.cpp:438-463). -/
def reword (n : Nat) (data msg : Str) : Str :=
  match cutAt c!"line 1" msg with
  | some (a, b) => a ++ (c!"line " ++ natStr n) ++ b
  | none =>
    if msg = [] then natStr n ++ c!": '" ++ data ++ c!"'"
    else if msg.head? = some '1' then natStr n ++ msg.drop 1
    else natStr n ++ c!": " ++ msg

/-- The loop over the lines of a program (NCParser.cpp:405-500): `ck` is the
line parser, called with the line number and the line; blank lines are skipped.
Result: final parser state and the messages. -/
def checkFrom {ε σ : Type} (ck : σ → Nat → Str → Out ε (σ × Bool × Str)) :
    σ → Nat → List Str → Out ε (σ × List Str)
  | s, _, [] => .ok (s, [])
  | s, n, l :: ls =>
    if l = [] then checkFrom ck s (n + 1) ls
    else ck s (n + 1) l >>= fun r => checkFrom ck r.1 (n + 1) ls >>= fun q =>
      .ok (q.1, if r.2.1 then q.2 else reword (n + 1) l r.2.2 :: q.2)

/-- The messages of a program text. -/
def check {ε σ : Type} (ck : σ → Nat → Str → Out ε (σ × Bool × Str)) (s : σ) (code : Str) :
    Out ε (σ × List Str) := checkFrom ck s 0 (splitLines code)

/-- A diagnostic: zero-based line and column, and its text. -/
structure Diag where
  line : Int
  character : Int
  message : Str
deriving DecidableEq, Repr

/-- `if (x > 0) x--` (JsonMessageHandler.cpp:1077-1078, 1082-1083). -/
def lower (z : Int) : Int := if 0 < z then z - 1 else z

/-- The diagnostic made of one message (JsonMessageHandler.cpp:1059-1106): none
if there is nothing to say; reading `tokens[1]` of a single token is undefined. -/
def diagOf {ε : Type} (msg : Str) : Out ε (Option Diag) :=
  let keep (d : Diag) : Out ε (Option Diag) :=
    .ok (if d.line ≠ 0 ∨ d.character ≠ 0 ∨ d.message ≠ [] then some d else none)
  match (pieces ':' msg).map trim with
  | [] => keep ⟨0, 0, msg⟩
  | [_] => .ub
  | [t0, t1] => keep ⟨lower (atoi t0), 0, t1⟩
  | t0 :: t1 :: t2 :: _ => keep ⟨lower (atoi t0), lower (atoi t1), t2⟩

/-- All diagnostics of a document, in order (JsonMessageHandler.cpp:1053-1107). -/
def diagsOf {ε : Type} : List Str → Out ε (List Diag)
  | [] => .ok []
  | m :: ms => diagOf m >>= fun d => diagsOf ms >>= fun ds => .ok (d.toList ++ ds)

/-- `std::round`: to the nearest integer, halves away from zero. -/
def roundAway (q : ℚ) : ℤ := if q < 0 then -⌊-q + 1 / 2⌋ else ⌊q + 1 / 2⌋

/-- `formatTime` (NCParser.cpp:124-151); `snprintf` keeps at most 31 characters.
The conversion to `int64_t` is only defined inside its range. -/
def formatTime (seconds : ℚ) : Str :=
  let ms := roundAway (seconds * 1000)
  let a := ms.natAbs
  let hours := a / (1000 * 60 * 60)
  let minutes := a / (1000 * 60) % 60
  let secs := a / 1000 % 60
  let milli := a % 1000
  let sgn : Str := if ms < 0 then c!"-" else c!""
  if 0 < hours then
    (sgn ++ natStr hours ++ c!":" ++ padZeros 2 minutes ++ c!":" ++ padZeros 2 secs ++ c!"." ++ padZeros 3 milli).take 31
  else
    (sgn ++ natStr minutes ++ c!":" ++ padZeros 2 secs ++ c!"." ++ padZeros 3 milli).take 31

end NC.Srv
