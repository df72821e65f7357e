import Verif.Pipeline
import Verif.GrammarDemo
import Verif.SimDemo

/-! # A parser for examples: the shipped mill tables and a small machine -/

namespace NC.Pipe
open NC NC.Message NC.Gram NC.Ver

/-- Fanuc mill, metric by default, everything English. -/
def demo : Setup where
  tables := ⟨millMetric, millImperial⟩
  ops := millOps
  gcodes := [((0, 0), [c!"01"]), ((1, 0), [c!"01"]), ((20, 0), [c!"06"]), ((21, 0), [c!"06"])]
  mcodes := [((3, 0), [c!"A"]), ((5, 0), [c!"A"])]
  haas := false
  lang := .known .English
  units := .metric
  lathe := false
  cfg := SimDemo.mill
  limits := ⟨[(c!"X", (-500000, 500000))], 100000, 20000, 60⟩
  zero := ⟨0, 0, 0⟩
  F := SimDemo.qf
  tr _ _ := none
  pi := 22 / 7
  e := 19 / 7

/-- Lines numbered from 1. -/
def lines (ls : List Str) : List (Int × Str) := ls.zipIdx.map (fun e => ((e.2 : Int) + 1, e.1))

end NC.Pipe
