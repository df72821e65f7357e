import Verif.Pipeline
import Verif.Splitter
import Verif.Transform

/-!
# Splitting a file (parser/fanuc/AllAttributesParser.cpp:472-568)

`split_file` reads the lines, measures them if they are split by path or time, cuts, and numbers the blocks of
the parts. Simplifications: what is left in the parts when the call fails is left out; a part whose sum of path or
time is not finite is not modelled (`unknown`).
-/

namespace NC.SplitFile
open NC NC.Gram NC.Pipe

/-- `FileSplittingType` (GeneralParserDefines.h:325-332). -/
inductive Kind where
  | blocks
  | tool
  | time
  | path
  | text
deriving DecidableEq, Repr

/-- `FileSplitting` (GeneralParserDefines.h:334-343). -/
structure Request where
  kind : Kind
  step : Int := 0
  time : Int := 0
  path : Int := 0
  text : Str := []
  rapidOnly : Bool := false
  plane : Str := []
deriving DecidableEq, Repr

/-- The members that the call uses: the parser and its renumberer. -/
structure Obj where
  p : Parser
  num : Renumber.St := {}

/-- What the call does: it returns true with the parts, or false; `none`: the caller's message is left alone. The
other exceptions leave the interface (AllAttributesParser.cpp:561-565). -/
inductive Outcome where
  | parts (value : List (List Block)) (msg : Option Str)
  | refused (msg : Option Str)
  | uncaught (e : Splitter.Err)
  | ub
  | unknown
deriving DecidableEq, Repr

/-- What a loop over the lines does. -/
inductive Step (α : Type) where
  | done (a : α) (msg : Option Str)
  | refused (msg : Option Str)
  | thrown (e : NumExc)
  | ub
deriving DecidableEq, Repr

/-- `message` is written, or not. -/
def said (old new : Option Str) : Option Str :=
  match new with
  | some m => some m
  | none => old

/-- `std::isspace` in the classic locale, as `boost::algorithm::trim` asks. -/
def white (c : Char) : Bool := c ∈ [' ', '\t', '\n', '\r', '\x0b', '\x0c']

/-- Nothing is left after `trim` (AllAttributesParser.cpp:502-504, 537-539). -/
def blank (l : Str) : Bool := l.all white

/-- Something is put before what the rest of the loop yields. -/
def Step.put {α : Type} (a : α) : Step (List α) → Step (List α)
  | .done as m => .done (a :: as) m
  | .refused m => .refused m
  | .thrown e => .thrown e
  | .ub => .ub

/-- The lines are read (AllAttributesParser.cpp:533-542). -/
def readLines (G : Gram) : PS → Option Str → List Str → PS × Step (List Block)
  | ps, m, [] => (ps, .done [] m)
  | ps, m, l :: t =>
    if blank l then ((readLines G ps m t).1, (readLines G ps m t).2.put [])
    else
      match simpleParse G ps l with
      | (q, .uncaught e) => (q, .thrown e)
      | (q, .ret b true m') => ((readLines G q (said m m') t).1, (readLines G q (said m m') t).2.put b)
      | (q, .ret _ false m') => (q, .refused (said m m'))

/-- `{true, false, true}` (AllAttributesParser.cpp:504; GeneralParserDefines.h:87-94). -/
def options : Options := ⟨true, false, true, false, false⟩

/-- `v` after `parse`: what the grammar puts there (AllAttributesParser.cpp:214). -/
def wordsRead (S : Setup) (p : Parser) (l : Str) : Block :=
  match (phrase (gramOf S) { p.gram with msg := [] } l).2 with
  | .accept b => b
  | .expect b _ => b
  | .raise b _ => b
  | .reject => []

/-- `get_path_result().work_motion`, `get_time_result().work_motion` (AllAttributesParser.cpp:507-510). -/
def motion (k : Kind) (p : Parser) : Path.Fl ℚ := if k = .path then p.path.path.work else p.path.time.work

/-- The lines are checked and simulated, and what the simulation holds after each is noted, also after a blank line
(AllAttributesParser.cpp:498-511). -/
def measure (S : Setup) (k : Kind) : Parser → Option Str → Int → List Str → Parser × Step (List (Block × Path.Fl ℚ))
  | p, m, _, [] => (p, .done [] m)
  | p, m, x, l :: t =>
    if blank l then ((measure S k p m (x + 1) t).1, (measure S k p m (x + 1) t).2.put ([], motion k p))
    else
      match parse S options x l p with
      | (q, .ok (true, m')) =>
        ((measure S k q (said m m') (x + 1) t).1, (measure S k q (said m m') (x + 1) t).2.put (wordsRead S p l, motion k q))
      | (q, .ok (false, m')) => (q, .refused (said m m'))
      | (q, .throw e) => (q, .thrown e)
      | (q, .ub) => (q, .ub)

/-- The retraction plane is read (AllAttributesParser.cpp:513-518, 544-549). -/
def readPlane (G : Gram) (ps : PS) (m : Option Str) (plane : Str) : PS × Step (Option Block) :=
  if plane = [] then (ps, .done none m)
  else
    match simpleParse G ps plane with
    | (q, .uncaught e) => (q, .thrown e)
    | (q, .ret b true m') => (q, .done (some b) (said m m'))
    | (q, .ret _ false m') => (q, .refused (said m m'))

/-- `get_cnc_default_values()` as the splitter reads them. -/
def cutting (S : Setup) : Splitter.Cfg := ⟨S.cfg.cancel0, S.cfg.cancel1, S.cfg.toolExchanges⟩

/-- The blocks of the parts are numbered (AllAttributesParser.cpp:528-531, 555-558). -/
def renumberParts (g : FanucGrammar) (s : Renumber.Settings) : Renumber.St → List (List Block) → Renumber.St × List (List Block)
  | st, [] => (st, [])
  | st, p :: ps =>
    let r := Renumber.renumberAll g s st p
    let q := renumberParts g s r.1 ps
    (q.1, r.2 :: q.2)

/-- The settings of the numbers (AllAttributesParser.cpp:527, 554). -/
def numbers : Renumber.Settings := ⟨c!"N", 1, 0, 0, false, false⟩

/-- The settings of the numbers when split at a text (AllAttributesParser.cpp:484). -/
def textNumbers : Renumber.Settings := ⟨c!"N", 1, 1, 99999, false, false⟩

/-- The only exception that is caught (AllAttributesParser.cpp:561-565). -/
def caught : Splitter.Err → Outcome
  | .num .outOfRange => .refused (some c!"stoi")
  | .num .invalidArgument => .uncaught (.num .invalidArgument)
  | .badParameter => .uncaught .badParameter

/-- The parts that were cut are numbered (AllAttributesParser.cpp:520-531, 551-558). -/
def finish (S : Setup) (o : Obj) (m : Option Str) : Out Splitter.Err (List (List Block)) → Obj × Outcome
  | .ok parts =>
    ({ o with num := (renumberParts S.tables numbers o.num parts).1 }, .parts (renumberParts S.tables numbers o.num parts).2 m)
  | .throw e => (o, caught e)
  | .ub => (o, .ub)

/-- Split by blocks or tools (AllAttributesParser.cpp:533-559). -/
def splitRead (S : Setup) (r : Request) (o : Obj) (data : List Str) : Obj × Outcome :=
  match readLines (gramOf S) o.p.gram none data with
  | (ps, .done bs m) =>
    match readPlane (gramOf S) ps m r.plane with
    | (ps', .done rp m') =>
      finish S { o with p := { o.p with gram := ps' } } m'
        (if r.kind = .blocks then Splitter.byCount (cutting S) r.step r.rapidOnly rp bs else Splitter.byTool (cutting S) rp bs)
    | (ps', .refused m') => ({ o with p := { o.p with gram := ps' } }, .refused m')
    | (ps', .thrown e) => ({ o with p := { o.p with gram := ps' } }, caught (.num e))
    | (ps', .ub) => ({ o with p := { o.p with gram := ps' } }, .ub)
  | (ps, .refused m) => ({ o with p := { o.p with gram := ps } }, .refused m)
  | (ps, .thrown e) => ({ o with p := { o.p with gram := ps } }, caught (.num e))
  | (ps, .ub) => ({ o with p := { o.p with gram := ps } }, .ub)

/-- The amounts, if all are finite. -/
def amounts {α : Type} : List (α × Path.Fl ℚ) → Option (List ℚ)
  | [] => some []
  | (_, some w) :: t => (amounts t).map (w :: ·)
  | (_, none) :: _ => none

/-- Split by path or time (AllAttributesParser.cpp:493-532). -/
def splitMeasured (S : Setup) (r : Request) (o : Obj) (data : List Str) : Obj × Outcome :=
  match measure S r.kind o.p none 0 data with
  | (p, .done ms m) =>
    match readPlane (gramOf S) p.gram m r.plane with
    | (ps', .done rp m') =>
      match amounts ms with
      | none => ({ o with p := { p with gram := ps' } }, .unknown)
      | some ws =>
        finish S { o with p := { p with gram := ps' } } m'
          (Splitter.byWork (cutting S) (if r.kind = .path then r.path else r.time) r.rapidOnly ws rp (ms.map Prod.fst))
    | (ps', .refused m') => ({ o with p := { p with gram := ps' } }, .refused m')
    | (ps', .thrown e) => ({ o with p := { p with gram := ps' } }, caught (.num e))
    | (ps', .ub) => ({ o with p := { p with gram := ps' } }, .ub)
  | (p, .refused m) => ({ o with p := p }, .refused m)
  | (p, .thrown e) => ({ o with p := p }, caught (.num e))
  | (p, .ub) => ({ o with p := p }, .ub)

/-- The lines of a part are renumbered; what `renumber` returns is not looked at (AllAttributesParser.cpp:485-491). -/
def renumberLines (S : Setup) : Xform.Obj → Option Str → List Str → Xform.Obj × Step (List Block)
  | x, m, [] => (x, .done [] m)
  | x, m, l :: t =>
    match Xform.call (gramOf S) S.tables (.renumber textNumbers) x l with
    | (y, .uncaught e) => (y, .thrown e)
    | (y, .ret b _ m') => ((renumberLines S y (said m m') t).1, (renumberLines S y (said m m') t).2.put b)

/-- The same for all parts. -/
def renumberFiles (S : Setup) : Xform.Obj → Option Str → List (List Str) → Xform.Obj × Step (List (List Block))
  | x, m, [] => (x, .done [] m)
  | x, m, p :: ps =>
    match renumberLines S x m p with
    | (y, .done bs m') => ((renumberFiles S y m' ps).1, (renumberFiles S y m' ps).2.put bs)
    | (y, .refused m') => (y, .refused m')
    | (y, .thrown e) => (y, .thrown e)
    | (y, .ub) => (y, .ub)

/-- Split at a text (AllAttributesParser.cpp:478-492). -/
def splitText (S : Setup) (r : Request) (o : Obj) (data : List Str) : Obj × Outcome :=
  match renumberFiles S ⟨o.p.gram, o.num⟩ none (Splitter.byText r.text (if r.plane = [] then none else some r.plane) data) with
  | (x, .done parts m) => (⟨{ o.p with gram := x.gram }, x.num⟩, .parts parts m)
  | (x, .refused m) => (⟨{ o.p with gram := x.gram }, x.num⟩, .refused m)
  | (x, .thrown e) => (⟨{ o.p with gram := x.gram }, x.num⟩, caught (.num e))
  | (x, .ub) => (⟨{ o.p with gram := x.gram }, x.num⟩, .ub)

/-- `split_file` (AllAttributesParser.cpp:472-568). -/
def splitFile (S : Setup) (r : Request) (o : Obj) (data : List Str) : Obj × Outcome :=
  if r.kind = .text then splitText S r o data
  else if r.kind = .path ∨ r.kind = .time then splitMeasured S r o data
  else splitRead S r o data

end NC.SplitFile
