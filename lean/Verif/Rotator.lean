import Verif.Base

/-!
# Axis rotation (parser/fanuc/AxesRotator.cpp)
-/

namespace NC.Rotator
open NC

/-- `AxesRotatingOption` (parser/GeneralParserDefines.h:309-321). -/
inductive Opt where
  | x90 | x180 | x270 | y90 | y180 | y270 | z90 | z180 | z270
deriving DecidableEq, Repr

/-- `WordTransform` (AxesRotator.cpp:16-20) with its key; keys with an empty
value are the coordinate words, keys `G nn` the code words. -/
abbrev Table := List ((Str × Str) × (Str × Int))

/-- The tables `wtom` (AxesRotator.cpp:39-166). -/
def table : Opt → Table
  | .x90 =>
    [((c!"X", c!""), (c!"X", 1)), ((c!"Y", c!""), (c!"Z", -1)), ((c!"Z", c!""), (c!"Y", 1)),
     ((c!"I", c!""), (c!"I", 1)), ((c!"J", c!""), (c!"K", -1)), ((c!"K", c!""), (c!"J", 1)),
     ((c!"G", c!"17"), (c!"G", 18)), ((c!"G", c!"18"), (c!"G", 17)), ((c!"G", c!"19"), (c!"G", 19)),
     ((c!"G", c!"2"), (c!"G", 2)), ((c!"G", c!"3"), (c!"G", 3))]
  | .x180 =>
    [((c!"X", c!""), (c!"X", 1)), ((c!"Y", c!""), (c!"Y", -1)), ((c!"Z", c!""), (c!"Z", -1)),
     ((c!"I", c!""), (c!"I", 1)), ((c!"J", c!""), (c!"J", -1)), ((c!"K", c!""), (c!"K", -1)),
     ((c!"G", c!"17"), (c!"G", 17)), ((c!"G", c!"18"), (c!"G", 18)), ((c!"G", c!"19"), (c!"G", 19)),
     ((c!"G", c!"2"), (c!"G", 3)), ((c!"G", c!"3"), (c!"G", 2))]
  | .x270 =>
    [((c!"X", c!""), (c!"X", 1)), ((c!"Y", c!""), (c!"Z", 1)), ((c!"Z", c!""), (c!"Y", -1)),
     ((c!"I", c!""), (c!"I", 1)), ((c!"J", c!""), (c!"K", 1)), ((c!"K", c!""), (c!"J", -1)),
     ((c!"G", c!"17"), (c!"G", 18)), ((c!"G", c!"18"), (c!"G", 17)), ((c!"G", c!"19"), (c!"G", 19)),
     ((c!"G", c!"2"), (c!"G", 3)), ((c!"G", c!"3"), (c!"G", 2))]
  | .y90 =>
    [((c!"X", c!""), (c!"Z", 1)), ((c!"Y", c!""), (c!"Y", 1)), ((c!"Z", c!""), (c!"X", -1)),
     ((c!"I", c!""), (c!"K", 1)), ((c!"J", c!""), (c!"J", 1)), ((c!"K", c!""), (c!"I", -1)),
     ((c!"G", c!"17"), (c!"G", 19)), ((c!"G", c!"18"), (c!"G", 18)), ((c!"G", c!"19"), (c!"G", 17)),
     ((c!"G", c!"2"), (c!"G", 3)), ((c!"G", c!"3"), (c!"G", 2))]
  | .y180 =>
    [((c!"X", c!""), (c!"X", -1)), ((c!"Y", c!""), (c!"Y", 1)), ((c!"Z", c!""), (c!"Z", -1)),
     ((c!"I", c!""), (c!"I", -1)), ((c!"J", c!""), (c!"J", 1)), ((c!"K", c!""), (c!"K", -1)),
     ((c!"G", c!"17"), (c!"G", 17)), ((c!"G", c!"18"), (c!"G", 18)), ((c!"G", c!"19"), (c!"G", 19)),
     ((c!"G", c!"2"), (c!"G", 3)), ((c!"G", c!"3"), (c!"G", 2))]
  | .y270 =>
    [((c!"X", c!""), (c!"Z", -1)), ((c!"Y", c!""), (c!"Y", 1)), ((c!"Z", c!""), (c!"X", 1)),
     ((c!"I", c!""), (c!"K", -1)), ((c!"J", c!""), (c!"J", 1)), ((c!"K", c!""), (c!"I", 1)),
     ((c!"G", c!"17"), (c!"G", 19)), ((c!"G", c!"18"), (c!"G", 18)), ((c!"G", c!"19"), (c!"G", 17)),
     ((c!"G", c!"2"), (c!"G", 2)), ((c!"G", c!"3"), (c!"G", 3))]
  | .z90 =>
    [((c!"X", c!""), (c!"Y", -1)), ((c!"Y", c!""), (c!"X", 1)), ((c!"Z", c!""), (c!"Z", 1)),
     ((c!"I", c!""), (c!"J", -1)), ((c!"J", c!""), (c!"I", 1)), ((c!"K", c!""), (c!"K", 1)),
     ((c!"G", c!"17"), (c!"G", 17)), ((c!"G", c!"18"), (c!"G", 19)), ((c!"G", c!"19"), (c!"G", 18)),
     ((c!"G", c!"2"), (c!"G", 2)), ((c!"G", c!"3"), (c!"G", 3))]
  | .z180 =>
    [((c!"X", c!""), (c!"X", -1)), ((c!"Y", c!""), (c!"Y", -1)), ((c!"Z", c!""), (c!"Z", 1)),
     ((c!"I", c!""), (c!"I", -1)), ((c!"J", c!""), (c!"J", -1)), ((c!"K", c!""), (c!"K", 1)),
     ((c!"G", c!"17"), (c!"G", 17)), ((c!"G", c!"18"), (c!"G", 18)), ((c!"G", c!"19"), (c!"G", 19)),
     ((c!"G", c!"2"), (c!"G", 2)), ((c!"G", c!"3"), (c!"G", 3))]
  | .z270 =>
    [((c!"X", c!""), (c!"Y", 1)), ((c!"Y", c!""), (c!"X", -1)), ((c!"Z", c!""), (c!"Z", 1)),
     ((c!"I", c!""), (c!"J", 1)), ((c!"J", c!""), (c!"I", -1)), ((c!"K", c!""), (c!"K", 1)),
     ((c!"G", c!"17"), (c!"G", 17)), ((c!"G", c!"18"), (c!"G", 19)), ((c!"G", c!"19"), (c!"G", 18)),
     ((c!"G", c!"2"), (c!"G", 2)), ((c!"G", c!"3"), (c!"G", 3))]

/-- The six coordinate addresses (AxesRotator.cpp:178-179). -/
def coordWords : List Str := [c!"X", c!"Y", c!"Z", c!"I", c!"J", c!"K"]

/-- The sign change (AxesRotator.cpp:184-190). -/
def flipSign (s : Option Char) : Option Char := if s = some '-' then none else some '-'

/-- `operator()(DecimalAttributeData&)` (AxesRotator.cpp:176-207).  A missing
table entry for a coordinate word would dereference `end()`; the tables have
all six, the model returns the word unchanged in that (impossible) case. -/
def visitDec (t : Table) (d : Dec) : Dec :=
  if d.word ∈ coordWords then
    match t.find? (fun e => e.1.1 == d.word) with
    | some e => { d with word := e.2.1, sign := if e.2.2 = -1 then flipSign d.sign else d.sign }
    | none => d
  else if d.word = c!"G" then
    match d.value with
    | none => d
    | some v =>
      if v ∈ [c!"17", c!"18", c!"19", c!"2", c!"3"] then
        match t.find? (fun e => e.1 == (c!"G", v)) with
        | some e => { d with value := some (intStr e.2.2) }
        | none => d
      else d
  else d

/-- Variant dispatch (AxesRotator.cpp:209-212). -/
def visit (t : Table) : Attr → Attr
  | .dec d => .dec (visitDec t d)
  | a => a

/-- `AxesRotator::operator()` (AxesRotator.cpp:218-223). -/
def rotate (o : Opt) (b : Block) : Block := b.map (visit (table o))

end NC.Rotator
