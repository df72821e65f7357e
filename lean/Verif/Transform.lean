import Verif.Grammar
import Verif.Removal
import Verif.Renumber
import Verif.Rotator
import Verif.UnitConv
import Verif.Wrapper

/-!
# Rewriting single lines (parser/fanuc/AllAttributesParser.cpp:384-630)

The calls of the interface that read a line with `simple_parse` and change the words. The words come back to
the caller, who writes them one after the other (`Wrap.blockText`, as `SplitFileString` does itself,
AllAttributesParserWrapper.cpp:416-480). Simplification: the conversion types and rotation options outside
their enumerations are left out.
-/

namespace NC.Xform
open NC NC.Gram

/-- The calls. -/
inductive Job where
  | convert (dir : UnitConv.Dir)
  | unnumber
  | renumber (s : Renumber.Settings)
  | rotate (o : Rotator.Opt)
  | uncomment
  | unmark

/-- The members of the parser that the calls use: the grammar's state and the renumberer's. -/
structure Obj where
  gram : PS := {}
  num : Renumber.St := {}

/-- What a call does to the words: `unit_converter.mm_to_inch` and `inch_to_mm` (AllAttributesParser.cpp:398-408),
`renumberer.remove` (424), `renumberer.renumber` (443), `AxesRotator` (463), and the loops of `remove_comment`
(581-591) and `remove_optional_block` (613-625). -/
def Job.work (g : FanucGrammar) (st : Renumber.St) (b : Block) : Job → Renumber.St × Out NumExc Block
  | .convert dir => (st, UnitConv.convert g dir b)
  | .unnumber => (st, .ok (Renumber.remove g b))
  | .renumber s => ((Renumber.renumber g s st b).1, .ok (Renumber.renumber g s st b).2)
  | .rotate o => (st, .ok (Rotator.rotate o b))
  | .uncomment => (st, .ok (Removal.removeComment b))
  | .unmark => (st, .ok (Removal.removeOptional b))

/-- The conversion leaves off when the line is not accepted (AllAttributesParser.cpp:394-395); the other calls
change the words that were read before the flaw (420-630). -/
def Job.needsAccepted : Job → Bool
  | .convert _ => true
  | _ => false

/-- A call. An exception of the conversion is not caught (AllAttributesParser.cpp:391-411). -/
def call (G : Gram) (g : FanucGrammar) (j : Job) (o : Obj) (l : Str) : Obj × Call :=
  match simpleParse G o.gram l with
  | (ps, .uncaught e) => ({ o with gram := ps }, .uncaught e)
  | (ps, .ret b ok m) =>
    if j.needsAccepted && !ok then ({ o with gram := ps }, .ret b false m)
    else
      match j.work g o.num b with
      | (st, .ok b') => (⟨ps, st⟩, .ret b' ok m)
      | (st, .throw e) => (⟨ps, st⟩, .uncaught e)
      | (st, .ub) => (⟨ps, st⟩, .uncaught .invalidArgument)

/-- The calls for the lines of a file, one after the other. -/
def calls (G : Gram) (g : FanucGrammar) (j : Job) : Obj → List Str → Obj × List Call
  | o, [] => (o, [])
  | o, l :: ls =>
    let r := call G g j o l
    let q := calls G g j r.1 ls
    (q.1, r.2 :: q.2)

end NC.Xform
