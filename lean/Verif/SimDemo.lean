import Verif.AttrPath

/-!
# A machine and blocks for examples
-/

namespace NC.SimDemo
open NC NC.Path NC.AttrPath

/-- Functions over the rationals that are right for squares of whole numbers. -/
def qf : Fns ℚ where
  sqrt x := (Nat.sqrt x.num.toNat : ℚ) / (Nat.sqrt x.den : ℚ)
  atan _ := 0
  asin _ := 0
  log _ := 0
  pi := 22 / 7

/-- A milling machine with base point (0, 0, 10) and tool exchange point (0, 0, 50). -/
def mill : Cfg ℚ where
  mtype := .other
  depthless := false
  base := [(c!"X", 0), (c!"Y", 0), (c!"Z", 10)]
  exchange := [(c!"X", 0), (c!"Y", 0), (c!"Z", 50)]
  axes := [c!"A"]
  maxFast := 600
  exchangeTime := 5
  palletTime := 7
  measureTime := 3
  diameter2x := false
  autoMeasure := false
  palletWord := c!"M"
  palletValue := c!"60"
  measureWord := c!"M"
  measureValue := c!"50"
  motion := 0
  plane := .xy
  incr := false
  perRev := false
  depth := .absolute
  ret := .g98
  rotation := 0
  cancel0 := true
  cancel1 := true
  cancel2 := true
  cancel3 := true
  cancelRapid := true
  operatorRotation := false
  toolExchanges := false
  autoRapid := false

/-- A word with an integer value. -/
def w (a v : Str) : Attr := .dec { word := a, value := some v }

/-- A word with a negative value. -/
def wn (a v : Str) : Attr := .dec { word := a, sign := some '-', value := some v }

/-- A word without value. -/
def w0 (a : Str) : Attr := .dec { word := a }

/-- The blocks evaluated from a fresh calculator. -/
def run (c : Cfg ℚ) : List Block → St ℚ × MacroMap ℚ → St ℚ × MacroMap ℚ
  | [], p => p
  | b :: t, p => run c t (evaluate qf c false 1 b p).1

/-- A fresh calculator. -/
def start (c : Cfg ℚ) : St ℚ × MacroMap ℚ := (initial c, [])

end NC.SimDemo
