import Verif.Agreement.Numbers

/-!
# Path lengths: parser_ut/fanuc/PathCalculatorTest.cpp and AttributesPathCalculatorTest.cpp

What the tests of the repository expect of the path calculator, and what the model gives.  These are tests of the model, not proofs about
the program: each case is evaluated by the kernel.
-/

namespace NC.Agreement
open NC NC.Path NC.AttrPath

/-! ## PathCalculatorTest.cpp -/

/-- Both lengths of a cycle are as expected. -/
def cycleIs (o : Out Unit (Fl ℚ × Fl ℚ)) (e : ℚ × ℚ) : Bool :=
  match o with
  | .ok (a, b) => nearF a e.1 && nearF b e.2
  | _ => false

/-- As `cycleIs`, for the cycles without Q. -/
def pairIs (p e : ℚ × ℚ) : Bool := near p.1 e.1 && near p.2 e.2

-- PathCalculatorTest.cpp:16-28 (G0, G1)
example : near (dist3 fine 12 13 14 20 21 22) 13.856406460551 = true := by decide +kernel
example : near (len3 fine 8 8 8) 13.856406460551 = true := by decide +kernel

-- PathCalculatorTest.cpp:30-44 (G2G3)
example : [2, 3].all (fun d => near (arcIJ fine 12 13 14 15 20 21 d) 2.82954938327595) = true := by decide +kernel

-- PathCalculatorTest.cpp:46-76 (G2_Increment, G3_Increment)
example : nearF (arcIJIncr fine 14 15 20 21 2) 20.9723231255513 = true := by decide +kernel
example : nearF (arcIJIncr fine 14 15 20 21 3) 161.240050782657 = true := by decide +kernel

-- PathCalculatorTest.cpp:78-108 (G2G3_R, G2G3_R_Increment)
example : near (arcR fine 12 13 14 15 20) 2.83078946648854 = true := by decide +kernel
example : nearF (arcRIncr fine 14 15 20) 21.5450445774531 = true := by decide +kernel

-- PathCalculatorTest.cpp:110-198 (Drill_CyclePath_DepthIncremental, Drill_CyclePath_Absolute)
example : [81, 82, 85, 86, 88, 89].all (fun g =>
    pairIs (drill 14 20 21 .incremental g .g98) (27, 13) && pairIs (drill 14 20 21 .incremental g .g99) (20, 13) &&
    pairIs (drill 14 20 21 .absolute g .g98) (1, 13) && pairIs (drill 14 20 21 .absolute g .g99) (1, 6)) = true := by
  decide +kernel
example : [74, 84].all (fun g =>
    pairIs (drill 14 20 21 .incremental g .g98) (40, 14) && pairIs (drill 14 20 21 .incremental g .g99) (40, 7) &&
    pairIs (drill 14 20 21 .absolute g .g98) (2, 14) && pairIs (drill 14 20 21 .absolute g .g99) (2, 7)) = true := by
  decide +kernel

-- PathCalculatorTest.cpp:200-242 (Drill_CyclePath_Incremental)
example : [81, 82, 85, 86, 88, 89].all (fun g =>
    pairIs (drillIncr 6 21 g .g98) (6, 48) && pairIs (drillIncr 6 21 g .g99) (6, 27)) = true := by decide +kernel
example : [74, 84].all (fun g =>
    pairIs (drillIncr 6 21 g .g98) (12, 42) && pairIs (drillIncr 6 21 g .g99) (12, 0)) = true := by decide +kernel

-- PathCalculatorTest.cpp:244-320 (Drill_CyclePath_QParam_DepthIncremental, Drill_CyclePath_QParam_Absolute)
example : [(87, (1, 33), (1, 33)), (76, (20, 44), (20, 37)), (73, (24, 34), (24, 27)), (83, (24, 90), (24, 83))].all
    (fun e => cycleIs (drillQ 14 20 21 5 .incremental e.1 .g98) e.2.1 &&
      cycleIs (drillQ 14 20 21 5 .incremental e.1 .g99) e.2.2) = true := by decide +kernel
example : [(87, (1, 33), (1, 33)), (76, (1, 23), (1, 18)), (73, (1, 15), (1, 8)), (83, (1, 15), (1, 8))].all
    (fun e => cycleIs (drillQ 14 20 21 5 .absolute e.1 .g98) e.2.1 &&
      cycleIs (drillQ 14 20 21 5 .absolute e.1 .g99) e.2.2) = true := by decide +kernel

-- PathCalculatorTest.cpp:322-360 (Drill_CyclePath_QParam_Incremental)
example : [(87, (6, 64.8102496759066), (6, 64.8102496759066)), (76, (6, 37), (6, 16)), (73, (7, 49), (7, 28)),
    (83, (7, 57), (7, 36))].all
    (fun e => cycleIs (drillQIncr fine 6 21 5 e.1 .g98) e.2.1 && cycleIs (drillQIncr fine 6 21 5 e.1 .g99) e.2.2) =
    true := by decide +kernel

-- PathCalculatorTest.cpp:362-404 (Drill_CyclePathHole, Drill_CyclePathHole_Incremental)
example : cycleIs (.ok (hole fine 12 13 30 31 (some 10, some 15))) (10, 40.45584412271571) = true := by decide +kernel
example : cycleIs (.ok (holeIncr fine 18 18 (some 10, some 15))) (10, 40.45584412271571) = true := by decide +kernel

-- PathCalculatorTest.cpp:406-536 (helices: the absolute variants take the difference of the heights)
example : near (helix fine (12 - 13) 30 31) 271.125088435787 = true := by decide +kernel
example : near (helix fine (-1) 30 31) 271.125088435787 = true := by decide +kernel
example : near (helixR fine (12 - 13) 30) 188.600249897836 = true := by decide +kernel
example : near (helixR fine (-1) 30) 188.600249897836 = true := by decide +kernel
example : near (helixQuarter fine (12 - 13) 30 31) 68.0537424776271 = true := by decide +kernel
example : near (helixQuarter fine (-1) 30 31) 68.0537424776271 = true := by decide +kernel
example : near (helixQuarterR fine (12 - 13) 30) 47.5409235064851 = true := by decide +kernel
example : near (helixQuarterR fine (-1) 30) 47.5409235064851 = true := by decide +kernel
example : near (helixLast 12.346) 6.173 = true := by decide +kernel

-- PathCalculatorTest.cpp:538-568 (spirals)
example : nearF (archimedesQ fine 12 13 30) 38.773935717471 = true := by decide +kernel
example : nearF (archimedesL fine 12 13 30) 1667.71529169112 = true := by decide +kernel

/-! ## AttributesPathCalculatorTest.cpp -/

/-- One call of `verify` (AttributesPathCalculatorTest.cpp:110-155): the block, whether `evaluate`
returns, the tool, the expected path lengths, ranges and new variables. -/
structure Step where
  block : Block
  returns : Bool
  tool : Str
  total : ℚ
  work : ℚ
  fast : ℚ
  toolTotal : ℚ
  range : VMap (Rng ℚ)
  vars : List (Int × Int × ℚ)

/-- The machine of the tests (AttributesPathCalculatorTest.cpp:36-70). -/
def millCfg : Cfg ℚ where
  mtype := .other
  depthless := false
  base := [(c!"X", 0), (c!"Y", 0), (c!"Z", 0)]
  exchange := []
  axes := [c!"X", c!"Y", c!"Z"]
  maxFast := 20000
  exchangeTime := 6
  palletTime := 0
  measureTime := 0
  diameter2x := false
  autoMeasure := false
  palletWord := []
  palletValue := []
  measureWord := c!"M"
  measureValue := c!"123"
  motion := 0
  plane := .xy
  incr := false
  perRev := false
  depth := .absolute
  ret := .g98
  rotation := 0
  cancel0 := false
  cancel1 := false
  cancel2 := false
  cancel3 := false
  cancelRapid := false
  operatorRotation := false
  toolExchanges := false
  autoRapid := false

/-- The ranges are those expected, within the tolerance. -/
def sameRange (a b : VMap (Rng ℚ)) : Bool :=
  a.length == b.length && b.all fun e =>
    match a.get e.1 with
    | some r => near r.lo e.2.lo && near r.cur e.2.cur && near r.hi e.2.hi
    | none => false

/-- The variables are those expected, within the tolerance. -/
def sameVars (m : MacroMap ℚ) (b : List (Int × Int × ℚ)) : Bool :=
  m.length == b.length && b.all fun e => m.any fun x => x.1.id == e.1 && x.1.line == e.2.1 && near x.2 e.2.2

/-- The steps in order on one calculator, each with fresh variables: the numbers of those that do
not come out as expected. -/
def wrong : List Step → Nat → St ℚ → List Nat
  | [], _, _ => []
  | e :: t, n, s =>
    let r := evaluate fine millCfg false 1 e.block (s, [])
    let p := r.1.1.path
    let o := match r.2 with
      | .ok () => e.returns
      | .throw (.msg .path _ _) => !e.returns
      | _ => false
    let good := o && p.toolId == e.tool && nearF p.work e.work && nearF p.fast e.fast &&
      nearF p.toolTotal e.toolTotal && nearF p.total e.total && sameRange r.1.1.range e.range &&
      sameVars r.1.2 e.vars
    (if good then [] else [n]) ++ wrong t (n + 1) r.1.1

/-- `G90_absolute_programming` (AttributesPathCalculatorTest.cpp). -/
def g90AbsoluteProgramming : List Step := [
  -- T4 M6
  ⟨[.dec ⟨c!"T", none, none, none, none, (some c!"4"), none, none, none⟩,
    .dec ⟨c!"M", none, none, none, none, (some c!"6"), none, none, none⟩], true, c!"4", 0, 0, 0, 0,
    [(c!"X", ⟨0, 0, 0⟩), (c!"Y", ⟨0, 0, 0⟩), (c!"Z", ⟨0, 0, 0⟩)], [(4120, 1, 4), (4320, 1, 4), (4520, 1, 4)]⟩,
  -- X0 Y0 Z0
  ⟨[.dec ⟨c!"X", none, none, none, none, (some c!"0"), none, none, none⟩,
    .dec ⟨c!"Y", none, none, none, none, (some c!"0"), none, none, none⟩,
    .dec ⟨c!"Z", none, none, none, none, (some c!"0"), none, none, none⟩], true, c!"4", 0, 0, 0, 0,
    [(c!"X", ⟨0, 0, 0⟩), (c!"Y", ⟨0, 0, 0⟩), (c!"Z", ⟨0, 0, 0⟩)], []⟩,
  -- G90 G0 X4 Y5 Z2
  ⟨[.dec ⟨c!"G", none, none, none, none, (some c!"90"), none, none, none⟩,
    .dec ⟨c!"G", none, none, none, none, (some c!"0"), none, none, none⟩,
    .dec ⟨c!"X", none, none, none, none, (some c!"4"), none, none, none⟩,
    .dec ⟨c!"Y", none, none, none, none, (some c!"5"), none, none, none⟩,
    .dec ⟨c!"Z", none, none, none, none, (some c!"2"), none, none, none⟩], true, c!"4", (670820393249937/100000000000000), 0, (670820393249937/100000000000000), (670820393249937/100000000000000),
    [(c!"X", ⟨0, 4, 4⟩), (c!"Y", ⟨0, 5, 5⟩), (c!"Z", ⟨0, 2, 2⟩)], []⟩,
  -- X3 Y4
  ⟨[.dec ⟨c!"X", none, none, none, none, (some c!"3"), none, none, none⟩,
    .dec ⟨c!"Y", none, none, none, none, (some c!"4"), none, none, none⟩], true, c!"4", (812241749487247/100000000000000), 0, (14142135623731/10000000000000), (812241749487247/100000000000000),
    [(c!"X", ⟨0, 3, 4⟩), (c!"Y", ⟨0, 4, 5⟩), (c!"Z", ⟨0, 2, 2⟩)], []⟩,
  -- G1 Y6 F2
  ⟨[.dec ⟨c!"G", none, none, none, none, (some c!"1"), none, none, none⟩,
    .dec ⟨c!"Y", none, none, none, none, (some c!"6"), none, none, none⟩,
    .dec ⟨c!"F", none, none, none, none, (some c!"2"), none, none, none⟩], true, c!"4", (1012241749487247/100000000000000), 2, 0, (1012241749487247/100000000000000),
    [(c!"X", ⟨0, 3, 4⟩), (c!"Y", ⟨0, 6, 6⟩), (c!"Z", ⟨0, 2, 2⟩)], []⟩,
  -- G2 X2 Y3 I2
  ⟨[.dec ⟨c!"G", none, none, none, none, (some c!"2"), none, none, none⟩,
    .dec ⟨c!"X", none, none, none, none, (some c!"2"), none, none, none⟩,
    .dec ⟨c!"Y", none, none, none, none, (some c!"3"), none, none, none⟩,
    .dec ⟨c!"I", none, none, none, none, (some c!"2"), none, none, none⟩], false, c!"4", (1012241749487247/100000000000000), 0, 0, (1012241749487247/100000000000000),
    [(c!"X", ⟨0, 3, 4⟩), (c!"Y", ⟨0, 6, 6⟩), (c!"Z", ⟨0, 2, 2⟩)], []⟩,
  -- G2 G17 X2 Y3 I2
  ⟨[.dec ⟨c!"G", none, none, none, none, (some c!"2"), none, none, none⟩,
    .dec ⟨c!"G", none, none, none, none, (some c!"17"), none, none, none⟩,
    .dec ⟨c!"X", none, none, none, none, (some c!"2"), none, none, none⟩,
    .dec ⟨c!"Y", none, none, none, none, (some c!"3"), none, none, none⟩,
    .dec ⟨c!"I", none, none, none, none, (some c!"2"), none, none, none⟩], false, c!"4", (1012241749487247/100000000000000), 0, 0, (1012241749487247/100000000000000),
    [(c!"X", ⟨0, 3, 4⟩), (c!"Y", ⟨0, 6, 6⟩), (c!"Z", ⟨0, 2, 2⟩)], []⟩,
  -- G2 G17 X2 Y3 I2 J3
  ⟨[.dec ⟨c!"G", none, none, none, none, (some c!"2"), none, none, none⟩,
    .dec ⟨c!"G", none, none, none, none, (some c!"17"), none, none, none⟩,
    .dec ⟨c!"X", none, none, none, none, (some c!"2"), none, none, none⟩,
    .dec ⟨c!"Y", none, none, none, none, (some c!"3"), none, none, none⟩,
    .dec ⟨c!"I", none, none, none, none, (some c!"2"), none, none, none⟩,
    .dec ⟨c!"J", none, none, none, none, (some c!"3"), none, none, none⟩], true, c!"4", (334899465852713/25000000000000), (65471222784721/20000000000000), 0, (334899465852713/25000000000000),
    [(c!"I", ⟨2, 2, 2⟩), (c!"J", ⟨3, 3, 3⟩), (c!"X", ⟨0, 2, 4⟩), (c!"Y", ⟨0, 3, 6⟩), (c!"Z", ⟨0, 2, 2⟩)], []⟩,
  -- G18 Z4 K3
  ⟨[.dec ⟨c!"G", none, none, none, none, (some c!"18"), none, none, none⟩,
    .dec ⟨c!"Z", none, none, none, none, (some c!"4"), none, none, none⟩,
    .dec ⟨c!"K", none, none, none, none, (some c!"3"), none, none, none⟩], true, c!"4", (61690200516941/4000000000000), (202657149512673/100000000000000), 0, (61690200516941/4000000000000),
    [(c!"I", ⟨2, 2, 2⟩), (c!"J", ⟨3, 3, 3⟩), (c!"K", ⟨3, 3, 3⟩), (c!"X", ⟨0, 2, 4⟩), (c!"Y", ⟨0, 3, 6⟩), (c!"Z", ⟨0, 4, 4⟩)], []⟩,
  -- G3 X3 I3
  ⟨[.dec ⟨c!"G", none, none, none, none, (some c!"3"), none, none, none⟩,
    .dec ⟨c!"X", none, none, none, none, (some c!"3"), none, none, none⟩,
    .dec ⟨c!"I", none, none, none, none, (some c!"3"), none, none, none⟩], true, c!"4", (1642487953239131/100000000000000), (50116470157803/50000000000000), 0, (1642487953239131/100000000000000),
    [(c!"I", ⟨2, 3, 3⟩), (c!"J", ⟨3, 3, 3⟩), (c!"K", ⟨3, 3, 3⟩), (c!"X", ⟨0, 3, 4⟩), (c!"Y", ⟨0, 3, 6⟩), (c!"Z", ⟨0, 4, 4⟩)], []⟩,
  -- T5 M6
  ⟨[.dec ⟨c!"T", none, none, none, none, (some c!"5"), none, none, none⟩,
    .dec ⟨c!"M", none, none, none, none, (some c!"6"), none, none, none⟩], true, c!"5", (4106219883/250000000), 0, 0, 0,
    [(c!"I", ⟨2, 3, 3⟩), (c!"J", ⟨3, 3, 3⟩), (c!"K", ⟨3, 3, 3⟩), (c!"X", ⟨0, 3, 4⟩), (c!"Y", ⟨0, 3, 6⟩), (c!"Z", ⟨0, 4, 4⟩)], [(4120, 1, 5), (4320, 1, 5), (4520, 1, 5)]⟩,
  -- T5
  ⟨[.dec ⟨c!"T", none, none, none, none, (some c!"5"), none, none, none⟩], true, c!"5", (4106219883/250000000), 0, 0, 0,
    [(c!"I", ⟨2, 3, 3⟩), (c!"J", ⟨3, 3, 3⟩), (c!"K", ⟨3, 3, 3⟩), (c!"X", ⟨0, 3, 4⟩), (c!"Y", ⟨0, 3, 6⟩), (c!"Z", ⟨0, 4, 4⟩)], []⟩,
  -- G3 G17 X2 Y3 I2 J3
  ⟨[.dec ⟨c!"G", none, none, none, none, (some c!"3"), none, none, none⟩,
    .dec ⟨c!"G", none, none, none, none, (some c!"17"), none, none, none⟩,
    .dec ⟨c!"X", none, none, none, none, (some c!"2"), none, none, none⟩,
    .dec ⟨c!"Y", none, none, none, none, (some c!"3"), none, none, none⟩,
    .dec ⟨c!"I", none, none, none, none, (some c!"2"), none, none, none⟩,
    .dec ⟨c!"J", none, none, none, none, (some c!"3"), none, none, none⟩], true, c!"5", (69712450874421/4000000000000), (4012932746421/4000000000000), 0, (4012932746421/4000000000000),
    [(c!"I", ⟨2, 2, 3⟩), (c!"J", ⟨3, 3, 3⟩), (c!"K", ⟨3, 3, 3⟩), (c!"X", ⟨0, 2, 4⟩), (c!"Y", ⟨0, 3, 6⟩), (c!"Z", ⟨0, 4, 4⟩)], []⟩]

example : wrong g90AbsoluteProgramming 0 (initial millCfg) = [] := by decide +kernel

/-- `Not_crash_test` (AttributesPathCalculatorTest.cpp). -/
def notCrashTest : List Step := [
  -- T4 M6
  ⟨[.dec ⟨c!"T", none, none, none, none, (some c!"4"), none, none, none⟩,
    .dec ⟨c!"M", none, none, none, none, (some c!"6"), none, none, none⟩], true, c!"4", 0, 0, 0, 0,
    [(c!"X", ⟨0, 0, 0⟩), (c!"Y", ⟨0, 0, 0⟩), (c!"Z", ⟨0, 0, 0⟩)], [(4120, 1, 4), (4320, 1, 4), (4520, 1, 4)]⟩,
  -- X0 Y0 Z0
  ⟨[.dec ⟨c!"X", none, none, none, none, (some c!"0"), none, none, none⟩,
    .dec ⟨c!"Y", none, none, none, none, (some c!"0"), none, none, none⟩,
    .dec ⟨c!"Z", none, none, none, none, (some c!"0"), none, none, none⟩], true, c!"4", 0, 0, 0, 0,
    [(c!"X", ⟨0, 0, 0⟩), (c!"Y", ⟨0, 0, 0⟩), (c!"Z", ⟨0, 0, 0⟩)], []⟩,
  -- G1 Z[-7.8-26]
  ⟨[.dec ⟨c!"G", none, none, none, none, (some c!"1"), none, none, none⟩,
    .dec ⟨c!"Z", none, none, (some c!"["), none, none, none, none, none⟩,
    .dec ⟨c!"-", none, none, none, none, (some c!"7"), (some '.'), (some c!"8"), none⟩,
    .dec ⟨c!"-", none, none, none, none, (some c!"26"), none, none, (some c!"]")⟩], true, c!"4", 0, 0, 0, 0,
    [(c!"X", ⟨0, 0, 0⟩), (c!"Y", ⟨0, 0, 0⟩), (c!"Z", ⟨0, 0, 0⟩)], []⟩,
  -- F[-2+5]
  ⟨[.dec ⟨c!"F", none, none, (some c!"["), none, none, none, none, none⟩,
    .dec ⟨c!"-", none, none, none, none, (some c!"2"), none, none, none⟩,
    .dec ⟨c!"+", none, none, none, none, (some c!"5"), none, none, (some c!"]")⟩], true, c!"4", 0, 0, 0, 0,
    [(c!"X", ⟨0, 0, 0⟩), (c!"Y", ⟨0, 0, 0⟩), (c!"Z", ⟨0, 0, 0⟩)], []⟩,
  -- S[-2+5]
  ⟨[.dec ⟨c!"S", none, none, (some c!"["), none, none, none, none, none⟩,
    .dec ⟨c!"-", none, none, none, none, (some c!"2"), none, none, none⟩,
    .dec ⟨c!"+", none, none, none, none, (some c!"5"), none, none, (some c!"]")⟩], true, c!"4", 0, 0, 0, 0,
    [(c!"X", ⟨0, 0, 0⟩), (c!"Y", ⟨0, 0, 0⟩), (c!"Z", ⟨0, 0, 0⟩)], []⟩]

example : wrong notCrashTest 0 (initial millCfg) = [] := by decide +kernel

/-- `Helix_360_full_arc_G90_absolute_programming` (AttributesPathCalculatorTest.cpp). -/
def helix360FullArcG90AbsoluteProgramming : List Step := [
  -- T2 M6
  ⟨[.dec ⟨c!"T", none, none, none, none, (some c!"2"), none, none, none⟩,
    .dec ⟨c!"M", none, none, none, none, (some c!"6"), none, none, none⟩], true, c!"2", 0, 0, 0, 0,
    [(c!"X", ⟨0, 0, 0⟩), (c!"Y", ⟨0, 0, 0⟩), (c!"Z", ⟨0, 0, 0⟩)], [(4120, 1, 2), (4320, 1, 2), (4520, 1, 2)]⟩,
  -- G17 G90
  ⟨[.dec ⟨c!"G", none, none, none, none, (some c!"90"), none, none, none⟩,
    .dec ⟨c!"G", none, none, none, none, (some c!"17"), none, none, none⟩,
    .dec ⟨c!"G", none, none, none, none, (some c!"90"), none, none, none⟩], true, c!"2", 0, 0, 0, 0,
    [(c!"X", ⟨0, 0, 0⟩), (c!"Y", ⟨0, 0, 0⟩), (c!"Z", ⟨0, 0, 0⟩)], []⟩,
  -- G90 X162.453 Y112.453
  ⟨[.dec ⟨c!"G", none, none, none, none, (some c!"90"), none, none, none⟩,
    .dec ⟨c!"X", none, none, none, none, (some c!"162"), (some '.'), (some c!"453"), none⟩,
    .dec ⟨c!"Y", none, none, none, none, (some c!"112"), (some '.'), (some c!"453"), none⟩], true, c!"2", (98788479108143/500000000000), 0, (98788479108143/500000000000), (98788479108143/500000000000),
    [(c!"X", ⟨0, (162453/1000), (162453/1000)⟩), (c!"Y", ⟨0, (112453/1000), (112453/1000)⟩), (c!"Z", ⟨0, 0, 0⟩)], []⟩,
  -- Z153.
  ⟨[.dec ⟨c!"Z", none, none, none, none, (some c!"153"), (some '.'), none, none⟩], true, c!"2", (175288479108143/500000000000), 0, 153, (175288479108143/500000000000),
    [(c!"X", ⟨0, (162453/1000), (162453/1000)⟩), (c!"Y", ⟨0, (112453/1000), (112453/1000)⟩), (c!"Z", ⟨0, 153, 153⟩)], []⟩,
  -- G94 G02 X150. Y150. I50.38 J37.547 F250.
  ⟨[.dec ⟨c!"G", none, none, none, none, (some c!"94"), none, none, none⟩,
    .dec ⟨c!"G", none, none, none, none, (some c!"02"), none, none, none⟩,
    .dec ⟨c!"X", none, none, none, none, (some c!"150"), (some '.'), none, none⟩,
    .dec ⟨c!"Y", none, none, none, none, (some c!"150"), (some '.'), none, none⟩,
    .dec ⟨c!"I", none, none, none, none, (some c!"50"), (some '.'), (some c!"38"), none⟩,
    .dec ⟨c!"J", none, none, none, none, (some c!"37"), (some '.'), (some c!"547"), none⟩,
    .dec ⟨c!"F", none, none, none, none, (some c!"250"), (some '.'), none, none⟩], true, c!"2", (977048758950423/2500000000000), (25151590852427/625000000000), 0, (977048758950423/2500000000000),
    [(c!"I", ⟨(2519/50), (2519/50), (2519/50)⟩), (c!"J", ⟨(37547/1000), (37547/1000), (37547/1000)⟩), (c!"X", ⟨0, 150, (162453/1000)⟩), (c!"Y", ⟨0, 150, 150⟩), (c!"Z", ⟨0, 153, 153⟩)], []⟩,
  -- X150. Y150. Z148. I50. J0.0 K-.796
  ⟨[.dec ⟨c!"X", none, none, none, none, (some c!"150"), (some '.'), none, none⟩,
    .dec ⟨c!"Y", none, none, none, none, (some c!"150"), (some '.'), none, none⟩,
    .dec ⟨c!"Z", none, none, none, none, (some c!"148"), (some '.'), none, none⟩,
    .dec ⟨c!"I", none, none, none, none, (some c!"50"), (some '.'), none, none⟩,
    .dec ⟨c!"J", none, none, none, none, (some c!"0"), (some '.'), (some c!"0"), none⟩,
    .dec ⟨c!"K", none, (some '-'), none, none, none, (some '.'), (some c!"796"), none⟩], true, c!"2", (3532728288941071/5000000000000), (63145230841609/200000000000), 0, (3532728288941071/5000000000000),
    [(c!"I", ⟨50, 50, (2519/50)⟩), (c!"J", ⟨0, 0, (37547/1000)⟩), (c!"K", ⟨(-199/250), (-199/250), (-199/250)⟩), (c!"X", ⟨0, 150, (162453/1000)⟩), (c!"Y", ⟨0, 150, 150⟩), (c!"Z", ⟨0, 148, 153⟩)], []⟩,
  -- Z143.
  ⟨[.dec ⟨c!"Z", none, none, none, none, (some c!"143"), (some '.'), none, none⟩], true, c!"2", (319459941248831/312500000000), (63145230841609/200000000000), 0, (319459941248831/312500000000),
    [(c!"I", ⟨50, 50, (2519/50)⟩), (c!"J", ⟨0, 0, (37547/1000)⟩), (c!"K", ⟨(-199/250), (-199/250), (-199/250)⟩), (c!"X", ⟨0, 150, (162453/1000)⟩), (c!"Y", ⟨0, 150, 150⟩), (c!"Z", ⟨0, 143, 153⟩)], []⟩,
  -- X240.451 Y120.611 Z100. I50. J0.0 K-.796
  ⟨[.dec ⟨c!"X", none, none, none, none, (some c!"240"), (some '.'), (some c!"451"), none⟩,
    .dec ⟨c!"Y", none, none, none, none, (some c!"120"), (some '.'), (some c!"611"), none⟩,
    .dec ⟨c!"Z", none, none, none, none, (some c!"100"), (some '.'), none, none⟩,
    .dec ⟨c!"I", none, none, none, none, (some c!"50"), (some '.'), none, none⟩,
    .dec ⟨c!"J", none, none, none, none, (some c!"0"), (some '.'), (some c!"0"), none⟩,
    .dec ⟨c!"K", none, (some '-'), none, none, none, (some '.'), (some c!"796"), none⟩], true, c!"2", (6147251302692111/5000000000000), (207178448542163/1000000000000), 0, (6147251302692111/5000000000000),
    [(c!"I", ⟨50, 50, (2519/50)⟩), (c!"J", ⟨0, 0, (37547/1000)⟩), (c!"K", ⟨(-199/250), (-199/250), (-199/250)⟩), (c!"X", ⟨0, (240451/1000), (240451/1000)⟩), (c!"Y", ⟨0, (120611/1000), 150⟩), (c!"Z", ⟨0, 100, 153⟩)], []⟩]

example : wrong helix360FullArcG90AbsoluteProgramming 0 (initial millCfg) = [] := by decide +kernel

/-- `Helix_4x90_arc_G90_absolute_programming` (AttributesPathCalculatorTest.cpp). -/
def helix4x90ArcG90AbsoluteProgramming : List Step := [
  -- T2 M6
  ⟨[.dec ⟨c!"T", none, none, none, none, (some c!"2"), none, none, none⟩,
    .dec ⟨c!"M", none, none, none, none, (some c!"6"), none, none, none⟩], true, c!"2", 0, 0, 0, 0,
    [(c!"X", ⟨0, 0, 0⟩), (c!"Y", ⟨0, 0, 0⟩), (c!"Z", ⟨0, 0, 0⟩)], [(4120, 1, 2), (4320, 1, 2), (4520, 1, 2)]⟩,
  -- G17 G90
  ⟨[.dec ⟨c!"G", none, none, none, none, (some c!"17"), none, none, none⟩,
    .dec ⟨c!"G", none, none, none, none, (some c!"90"), none, none, none⟩], true, c!"2", 0, 0, 0, 0,
    [(c!"X", ⟨0, 0, 0⟩), (c!"Y", ⟨0, 0, 0⟩), (c!"Z", ⟨0, 0, 0⟩)], []⟩,
  -- G90 X162.453 Y112.453 Z160.
  ⟨[.dec ⟨c!"G", none, none, none, none, (some c!"90"), none, none, none⟩,
    .dec ⟨c!"X", none, none, none, none, (some c!"162"), (some '.'), (some c!"453"), none⟩,
    .dec ⟨c!"Y", none, none, none, none, (some c!"112"), (some '.'), (some c!"453"), none⟩,
    .dec ⟨c!"Z", none, none, none, none, (some c!"160"), (some '.'), none, none⟩], true, c!"2", (127118698878253/500000000000), 0, (127118698878253/500000000000), (127118698878253/500000000000),
    [(c!"X", ⟨0, (162453/1000), (162453/1000)⟩), (c!"Y", ⟨0, (112453/1000), (112453/1000)⟩), (c!"Z", ⟨0, 160, 160⟩)], []⟩,
  -- Z153.
  ⟨[.dec ⟨c!"Z", none, none, none, none, (some c!"153"), (some '.'), none, none⟩], true, c!"2", (130618698878253/500000000000), 0, 7, (130618698878253/500000000000),
    [(c!"X", ⟨0, (162453/1000), (162453/1000)⟩), (c!"Y", ⟨0, (112453/1000), (112453/1000)⟩), (c!"Z", ⟨0, 153, 160⟩)], []⟩,
  -- G02 X150. Y150. I50.38 J37.547 F250.
  ⟨[.dec ⟨c!"G", none, none, none, none, (some c!"02"), none, none, none⟩,
    .dec ⟨c!"X", none, none, none, none, (some c!"150"), (some '.'), none, none⟩,
    .dec ⟨c!"Y", none, none, none, none, (some c!"150"), (some '.'), none, none⟩,
    .dec ⟨c!"I", none, none, none, none, (some c!"50"), (some '.'), (some c!"38"), none⟩,
    .dec ⟨c!"J", none, none, none, none, (some c!"37"), (some '.'), (some c!"547"), none⟩,
    .dec ⟨c!"F", none, none, none, none, (some c!"250"), (some '.'), none, none⟩], true, c!"2", (753699857800973/2500000000000), (25151590852427/625000000000), 0, (753699857800973/2500000000000),
    [(c!"I", ⟨(2519/50), (2519/50), (2519/50)⟩), (c!"J", ⟨(37547/1000), (37547/1000), (37547/1000)⟩), (c!"X", ⟨0, 150, (162453/1000)⟩), (c!"Y", ⟨0, 150, 150⟩), (c!"Z", ⟨0, 153, 160⟩)], []⟩,
  -- X200. Y200. Z151.75 I50. J0.0 K-.796
  ⟨[.dec ⟨c!"X", none, none, none, none, (some c!"200"), (some '.'), none, none⟩,
    .dec ⟨c!"Y", none, none, none, none, (some c!"200"), (some '.'), none, none⟩,
    .dec ⟨c!"Z", none, none, none, none, (some c!"151"), (some '.'), (some c!"75"), none⟩,
    .dec ⟨c!"I", none, none, none, none, (some c!"50"), (some '.'), none, none⟩,
    .dec ⟨c!"J", none, none, none, none, (some c!"0"), (some '.'), (some c!"0"), none⟩,
    .dec ⟨c!"K", none, (some '-'), none, none, none, (some '.'), (some c!"796"), none⟩], true, c!"2", (1902057408362003/5000000000000), (394657692760057/5000000000000), 0, (1902057408362003/5000000000000),
    [(c!"I", ⟨50, 50, (2519/50)⟩), (c!"J", ⟨0, 0, (37547/1000)⟩), (c!"K", ⟨(-199/250), (-199/250), (-199/250)⟩), (c!"X", ⟨0, 200, 200⟩), (c!"Y", ⟨0, 200, 200⟩), (c!"Z", ⟨0, (607/4), 160⟩)], []⟩,
  -- X250. Y150. Z150.5 I0.0 J-50.
  ⟨[.dec ⟨c!"X", none, none, none, none, (some c!"250"), (some '.'), none, none⟩,
    .dec ⟨c!"Y", none, none, none, none, (some c!"150"), (some '.'), none, none⟩,
    .dec ⟨c!"Z", none, none, none, none, (some c!"150"), (some '.'), (some c!"5"), none⟩,
    .dec ⟨c!"I", none, none, none, none, (some c!"0"), (some '.'), (some c!"0"), none⟩,
    .dec ⟨c!"J", none, (some '-'), none, none, (some c!"50"), (some '.'), none, none⟩], true, c!"2", (114835755056103/250000000000), (394657692760057/5000000000000), 0, (114835755056103/250000000000),
    [(c!"I", ⟨0, 0, (2519/50)⟩), (c!"J", ⟨(-50), (-50), (37547/1000)⟩), (c!"K", ⟨(-199/250), (-199/250), (-199/250)⟩), (c!"X", ⟨0, 250, 250⟩), (c!"Y", ⟨0, 150, 200⟩), (c!"Z", ⟨0, (301/2), 160⟩)], []⟩,
  -- X200. Y100. Z149.25 I-50. J0.0
  ⟨[.dec ⟨c!"X", none, none, none, none, (some c!"200"), (some '.'), none, none⟩,
    .dec ⟨c!"Y", none, none, none, none, (some c!"100"), (some '.'), none, none⟩,
    .dec ⟨c!"Z", none, none, none, none, (some c!"149"), (some '.'), (some c!"25"), none⟩,
    .dec ⟨c!"I", none, (some '-'), none, none, (some c!"50"), (some '.'), none, none⟩,
    .dec ⟨c!"J", none, (some '-'), none, none, (some c!"0"), (some '.'), (some c!"0"), none⟩], true, c!"2", (2691372793882117/5000000000000), (394657692760057/5000000000000), 0, (2691372793882117/5000000000000),
    [(c!"I", ⟨(-50), (-50), (2519/50)⟩), (c!"J", ⟨(-50), 0, (37547/1000)⟩), (c!"K", ⟨(-199/250), (-199/250), (-199/250)⟩), (c!"X", ⟨0, 200, 250⟩), (c!"Y", ⟨0, 100, 200⟩), (c!"Z", ⟨0, (597/4), 160⟩)], []⟩,
  -- X150. Y150. Z148. I0.0 J50.
  ⟨[.dec ⟨c!"X", none, none, none, none, (some c!"150"), (some '.'), none, none⟩,
    .dec ⟨c!"Y", none, none, none, none, (some c!"150"), (some '.'), none, none⟩,
    .dec ⟨c!"Z", none, none, none, none, (some c!"148"), (some '.'), none, none⟩,
    .dec ⟨c!"I", none, none, none, none, (some c!"0"), (some '.'), (some c!"0"), none⟩,
    .dec ⟨c!"J", none, none, none, none, (some c!"50"), (some '.'), none, none⟩], true, c!"2", (1543015243321087/2500000000000), (394657692760057/5000000000000), 0, (1543015243321087/2500000000000),
    [(c!"I", ⟨(-50), 0, (2519/50)⟩), (c!"J", ⟨(-50), 50, 50⟩), (c!"K", ⟨(-199/250), (-199/250), (-199/250)⟩), (c!"X", ⟨0, 150, 250⟩), (c!"Y", ⟨0, 150, 200⟩), (c!"Z", ⟨0, 148, 160⟩)], []⟩,
  -- X200. Y200. Z146.75 I50. J0.0
  ⟨[.dec ⟨c!"X", none, none, none, none, (some c!"200"), (some '.'), none, none⟩,
    .dec ⟨c!"Y", none, none, none, none, (some c!"200"), (some '.'), none, none⟩,
    .dec ⟨c!"Z", none, none, none, none, (some c!"146"), (some '.'), (some c!"75"), none⟩,
    .dec ⟨c!"I", none, none, none, none, (some c!"50"), (some '.'), none, none⟩,
    .dec ⟨c!"J", none, none, none, none, (some c!"0"), (some '.'), (some c!"0"), none⟩], true, c!"2", (3480688179402231/5000000000000), (394657692760057/5000000000000), 0, (3480688179402231/5000000000000),
    [(c!"I", ⟨(-50), 50, (2519/50)⟩), (c!"J", ⟨(-50), 0, 50⟩), (c!"K", ⟨(-199/250), (-199/250), (-199/250)⟩), (c!"X", ⟨0, 200, 250⟩), (c!"Y", ⟨0, 200, 200⟩), (c!"Z", ⟨0, (587/4), 160⟩)], []⟩,
  -- X250. Y150. Z145.5 I0.0 J-50.
  ⟨[.dec ⟨c!"X", none, none, none, none, (some c!"250"), (some '.'), none, none⟩,
    .dec ⟨c!"Y", none, none, none, none, (some c!"150"), (some '.'), none, none⟩,
    .dec ⟨c!"Z", none, none, none, none, (some c!"145"), (some '.'), (some c!"5"), none⟩,
    .dec ⟨c!"I", none, none, none, none, (some c!"0"), (some '.'), (some c!"0"), none⟩,
    .dec ⟨c!"J", none, (some '-'), none, none, (some c!"50"), (some '.'), none, none⟩], true, c!"2", (242209117010143/312500000000), (394657692760057/5000000000000), 0, (242209117010143/312500000000),
    [(c!"I", ⟨(-50), 0, (2519/50)⟩), (c!"J", ⟨(-50), (-50), 50⟩), (c!"K", ⟨(-199/250), (-199/250), (-199/250)⟩), (c!"X", ⟨0, 250, 250⟩), (c!"Y", ⟨0, 150, 200⟩), (c!"Z", ⟨0, (291/2), 160⟩)], []⟩,
  -- X240.451 Y120.611 Z145. I-50. J0.0 K-.796
  ⟨[.dec ⟨c!"X", none, none, none, none, (some c!"240"), (some '.'), (some c!"451"), none⟩,
    .dec ⟨c!"Y", none, none, none, none, (some c!"120"), (some '.'), (some c!"611"), none⟩,
    .dec ⟨c!"Z", none, none, none, none, (some c!"145"), (some '.'), none, none⟩,
    .dec ⟨c!"I", none, (some '-'), none, none, (some c!"50"), (some '.'), none, none⟩,
    .dec ⟨c!"J", none, none, none, none, (some c!"0"), (some '.'), (some c!"0"), none⟩,
    .dec ⟨c!"K", none, (some '-'), none, none, none, (some '.'), (some c!"796"), none⟩], true, c!"2", (8536717975126191/10000000000000), (157205246160323/2000000000000), 0, (8536717975126191/10000000000000),
    [(c!"I", ⟨(-50), (-50), (2519/50)⟩), (c!"J", ⟨(-50), 0, 50⟩), (c!"K", ⟨(-199/250), (-199/250), (-199/250)⟩), (c!"X", ⟨0, (240451/1000), 250⟩), (c!"Y", ⟨0, (120611/1000), 200⟩), (c!"Z", ⟨0, 145, 160⟩)], []⟩,
  -- I-40.451 J29.389
  ⟨[.dec ⟨c!"I", none, (some '-'), none, none, (some c!"40"), (some '.'), (some c!"451"), none⟩,
    .dec ⟨c!"J", none, none, none, none, (some c!"29"), (some '.'), (some c!"389"), none⟩], true, c!"2", (11678308569087161/10000000000000), (314159059396097/1000000000000), 0, (11678308569087161/10000000000000),
    [(c!"I", ⟨(-50), (-40451/1000), (2519/50)⟩), (c!"J", ⟨(-50), (29389/1000), 50⟩), (c!"K", ⟨(-199/250), (-199/250), (-199/250)⟩), (c!"X", ⟨0, (240451/1000), 250⟩), (c!"Y", ⟨0, (120611/1000), 200⟩), (c!"Z", ⟨0, 145, 160⟩)], []⟩]

example : wrong helix4x90ArcG90AbsoluteProgramming 0 (initial millCfg) = [] := by decide +kernel

/-- `Helix_Archimedes_G90_absolute_programming` (AttributesPathCalculatorTest.cpp). -/
def helixArchimedesG90AbsoluteProgramming : List Step := [
  -- T22 M6
  ⟨[.dec ⟨c!"T", none, none, none, none, (some c!"22"), none, none, none⟩,
    .dec ⟨c!"M", none, none, none, none, (some c!"6"), none, none, none⟩], true, c!"22", 0, 0, 0, 0,
    [(c!"X", ⟨0, 0, 0⟩), (c!"Y", ⟨0, 0, 0⟩), (c!"Z", ⟨0, 0, 0⟩)], [(4120, 1, 22), (4320, 1, 22), (4520, 1, 22)]⟩,
  -- X0 Y0 Z0
  ⟨[.dec ⟨c!"X", none, none, none, none, (some c!"0"), none, none, none⟩,
    .dec ⟨c!"Y", none, none, none, none, (some c!"0"), none, none, none⟩,
    .dec ⟨c!"Z", none, none, none, none, (some c!"0"), none, none, none⟩], true, c!"22", 0, 0, 0, 0,
    [(c!"X", ⟨0, 0, 0⟩), (c!"Y", ⟨0, 0, 0⟩), (c!"Z", ⟨0, 0, 0⟩)], []⟩,
  -- G0 G17 G90 X40 Y0
  ⟨[.dec ⟨c!"G", none, none, none, none, (some c!"0"), none, none, none⟩,
    .dec ⟨c!"G", none, none, none, none, (some c!"17"), none, none, none⟩,
    .dec ⟨c!"G", none, none, none, none, (some c!"90"), none, none, none⟩,
    .dec ⟨c!"X", none, none, none, none, (some c!"40"), none, none, none⟩,
    .dec ⟨c!"Y", none, none, none, none, (some c!"0"), none, none, none⟩], true, c!"22", 40, 0, 40, 40,
    [(c!"X", ⟨0, 40, 40⟩), (c!"Y", ⟨0, 0, 0⟩), (c!"Z", ⟨0, 0, 0⟩)], []⟩,
  -- G2 X0 Y0 I-40 J0 Q5 F3
  ⟨[.dec ⟨c!"G", none, none, none, none, (some c!"2"), none, none, none⟩,
    .dec ⟨c!"X", none, none, none, none, (some c!"0"), none, none, none⟩,
    .dec ⟨c!"Y", none, none, none, none, (some c!"0"), none, none, none⟩,
    .dec ⟨c!"I", none, (some '-'), none, none, (some c!"40"), none, none, none⟩,
    .dec ⟨c!"J", none, none, none, none, (some c!"0"), none, none, none⟩,
    .dec ⟨c!"Q", none, none, none, none, (some c!"5"), none, none, none⟩,
    .dec ⟨c!"F", none, none, none, none, (some c!"3"), none, none, none⟩], true, c!"22", (104734305856097/100000000000), (100734305856097/100000000000), 0, (104734305856097/100000000000),
    [(c!"I", ⟨(-40), (-40), (-40)⟩), (c!"J", ⟨0, 0, 0⟩), (c!"X", ⟨0, 0, 40⟩), (c!"Y", ⟨0, 0, 0⟩), (c!"Z", ⟨0, 0, 0⟩)], []⟩,
  -- G2 X0 Y0 I-40 J0 L5
  ⟨[.dec ⟨c!"G", none, none, none, none, (some c!"2"), none, none, none⟩,
    .dec ⟨c!"X", none, none, none, none, (some c!"0"), none, none, none⟩,
    .dec ⟨c!"Y", none, none, none, none, (some c!"0"), none, none, none⟩,
    .dec ⟨c!"I", none, (some '-'), none, none, (some c!"40"), none, none, none⟩,
    .dec ⟨c!"J", none, none, none, none, (some c!"0"), none, none, none⟩,
    .dec ⟨c!"L", none, none, none, none, (some c!"5"), none, none, none⟩], true, c!"22", (33572317597019/20000000000), (31563641064499/50000000000), 0, (33572317597019/20000000000),
    [(c!"I", ⟨(-40), (-40), (-40)⟩), (c!"J", ⟨0, 0, 0⟩), (c!"X", ⟨0, 0, 40⟩), (c!"Y", ⟨0, 0, 0⟩), (c!"Z", ⟨0, 0, 0⟩)], []⟩]

example : wrong helixArchimedesG90AbsoluteProgramming 0 (initial millCfg) = [] := by decide +kernel

/-- `G91_incremental_programming` (AttributesPathCalculatorTest.cpp). -/
def g91IncrementalProgramming : List Step := [
  -- T4 M6
  ⟨[.dec ⟨c!"T", none, none, none, none, (some c!"4"), none, none, none⟩,
    .dec ⟨c!"M", none, none, none, none, (some c!"6"), none, none, none⟩], true, c!"4", 0, 0, 0, 0,
    [(c!"X", ⟨0, 0, 0⟩), (c!"Y", ⟨0, 0, 0⟩), (c!"Z", ⟨0, 0, 0⟩)], [(4120, 1, 4), (4320, 1, 4), (4520, 1, 4)]⟩,
  -- X0 Y0 Z0
  ⟨[.dec ⟨c!"X", none, none, none, none, (some c!"0"), none, none, none⟩,
    .dec ⟨c!"Y", none, none, none, none, (some c!"0"), none, none, none⟩,
    .dec ⟨c!"Z", none, none, none, none, (some c!"0"), none, none, none⟩], true, c!"4", 0, 0, 0, 0,
    [(c!"X", ⟨0, 0, 0⟩), (c!"Y", ⟨0, 0, 0⟩), (c!"Z", ⟨0, 0, 0⟩)], []⟩,
  -- G91 G17 G0 X4 Y5 Z2
  ⟨[.dec ⟨c!"G", none, none, none, none, (some c!"91"), none, none, none⟩,
    .dec ⟨c!"G", none, none, none, none, (some c!"17"), none, none, none⟩,
    .dec ⟨c!"G", none, none, none, none, (some c!"0"), none, none, none⟩,
    .dec ⟨c!"X", none, none, none, none, (some c!"4"), none, none, none⟩,
    .dec ⟨c!"Y", none, none, none, none, (some c!"5"), none, none, none⟩,
    .dec ⟨c!"Z", none, none, none, none, (some c!"2"), none, none, none⟩], true, c!"4", (670820393249937/100000000000000), 0, (670820393249937/100000000000000), (670820393249937/100000000000000),
    [(c!"X", ⟨0, 4, 4⟩), (c!"Y", ⟨0, 5, 5⟩), (c!"Z", ⟨0, 2, 2⟩)], []⟩,
  -- X-1 Y-1
  ⟨[.dec ⟨c!"X", none, (some '-'), none, none, (some c!"1"), none, none, none⟩,
    .dec ⟨c!"Y", none, (some '-'), none, none, (some c!"1"), none, none, none⟩], true, c!"4", (812241749487247/100000000000000), 0, (14142135623731/10000000000000), (812241749487247/100000000000000),
    [(c!"X", ⟨0, 3, 4⟩), (c!"Y", ⟨0, 4, 5⟩), (c!"Z", ⟨0, 2, 2⟩)], []⟩,
  -- G1 Y2 F5
  ⟨[.dec ⟨c!"G", none, none, none, none, (some c!"91"), none, none, none⟩,
    .dec ⟨c!"G", none, none, none, none, (some c!"1"), none, none, none⟩,
    .dec ⟨c!"Y", none, none, none, none, (some c!"2"), none, none, none⟩,
    .dec ⟨c!"F", none, none, none, none, (some c!"5"), none, none, none⟩], true, c!"4", (1012241749487247/100000000000000), 2, 0, (1012241749487247/100000000000000),
    [(c!"X", ⟨0, 3, 4⟩), (c!"Y", ⟨0, 6, 6⟩), (c!"Z", ⟨0, 2, 2⟩)], []⟩,
  -- G2 X25. Y-43.301 I0. J-28.868
  ⟨[.dec ⟨c!"G", none, none, none, none, (some c!"2"), none, none, none⟩,
    .dec ⟨c!"X", none, none, none, none, (some c!"25"), (some '.'), none, none⟩,
    .dec ⟨c!"Y", none, (some '-'), none, none, (some c!"43"), (some '.'), (some c!"301"), none⟩,
    .dec ⟨c!"I", none, none, none, none, (some c!"0"), (some '.'), none, none⟩,
    .dec ⟨c!"J", none, (some '-'), none, none, (some c!"28"), (some '.'), (some c!"868"), none⟩], true, c!"4", (7058126197341877/100000000000000), (604588444785463/10000000000000), 0, (7058126197341877/100000000000000),
    [(c!"I", ⟨0, 0, 0⟩), (c!"J", ⟨(-7217/250), (-7217/250), (-7217/250)⟩), (c!"X", ⟨0, 28, 28⟩), (c!"Y", ⟨(-37301/1000), (-37301/1000), 6⟩), (c!"Z", ⟨0, 2, 2⟩)], []⟩]

example : wrong g91IncrementalProgramming 0 (initial millCfg) = [] := by decide +kernel

/-- `Helix_360_full_arc_G91_incremental_programming` (AttributesPathCalculatorTest.cpp). -/
def helix360FullArcG91IncrementalProgramming : List Step := [
  -- T2 M6
  ⟨[.dec ⟨c!"T", none, none, none, none, (some c!"2"), none, none, none⟩,
    .dec ⟨c!"M", none, none, none, none, (some c!"6"), none, none, none⟩], true, c!"2", 0, 0, 0, 0,
    [(c!"X", ⟨0, 0, 0⟩), (c!"Y", ⟨0, 0, 0⟩), (c!"Z", ⟨0, 0, 0⟩)], [(4120, 1, 2), (4320, 1, 2), (4520, 1, 2)]⟩,
  -- G17 G91
  ⟨[.dec ⟨c!"G", none, none, none, none, (some c!"17"), none, none, none⟩,
    .dec ⟨c!"G", none, none, none, none, (some c!"91"), none, none, none⟩], true, c!"2", 0, 0, 0, 0,
    [(c!"X", ⟨0, 0, 0⟩), (c!"Y", ⟨0, 0, 0⟩), (c!"Z", ⟨0, 0, 0⟩)], []⟩,
  -- G91 X162.453 Y112.453
  ⟨[.dec ⟨c!"G", none, none, none, none, (some c!"91"), none, none, none⟩,
    .dec ⟨c!"X", none, none, none, none, (some c!"162"), (some '.'), (some c!"453"), none⟩,
    .dec ⟨c!"Y", none, none, none, none, (some c!"112"), (some '.'), (some c!"453"), none⟩], true, c!"2", (98788479108143/500000000000), 0, (98788479108143/500000000000), (98788479108143/500000000000),
    [(c!"X", ⟨0, (162453/1000), (162453/1000)⟩), (c!"Y", ⟨0, (112453/1000), (112453/1000)⟩), (c!"Z", ⟨0, 0, 0⟩)], []⟩,
  -- Z153.
  ⟨[.dec ⟨c!"Z", none, none, none, none, (some c!"153"), (some '.'), none, none⟩], true, c!"2", (175288479108143/500000000000), 0, 153, (175288479108143/500000000000),
    [(c!"X", ⟨0, (162453/1000), (162453/1000)⟩), (c!"Y", ⟨0, (112453/1000), (112453/1000)⟩), (c!"Z", ⟨0, 153, 153⟩)], []⟩,
  -- G94 G02 X-12.453 Y37.547 I50.38 J37.547 F250.
  ⟨[.dec ⟨c!"G", none, none, none, none, (some c!"94"), none, none, none⟩,
    .dec ⟨c!"G", none, none, none, none, (some c!"02"), none, none, none⟩,
    .dec ⟨c!"X", none, (some '-'), none, none, (some c!"12"), (some '.'), (some c!"453"), none⟩,
    .dec ⟨c!"Y", none, none, none, none, (some c!"37"), (some '.'), (some c!"547"), none⟩,
    .dec ⟨c!"I", none, none, none, none, (some c!"50"), (some '.'), (some c!"38"), none⟩,
    .dec ⟨c!"J", none, none, none, none, (some c!"37"), (some '.'), (some c!"547"), none⟩,
    .dec ⟨c!"F", none, none, none, none, (some c!"250"), (some '.'), none, none⟩], true, c!"2", (977048758950423/2500000000000), (25151590852427/625000000000), 0, (977048758950423/2500000000000),
    [(c!"I", ⟨(2519/50), (2519/50), (2519/50)⟩), (c!"J", ⟨(37547/1000), (37547/1000), (37547/1000)⟩), (c!"X", ⟨0, 150, (162453/1000)⟩), (c!"Y", ⟨0, 150, 150⟩), (c!"Z", ⟨0, 153, 153⟩)], []⟩,
  -- X0. Y0. Z-5. I50. J0.0 K-.796
  ⟨[.dec ⟨c!"X", none, none, none, none, (some c!"0"), (some '.'), none, none⟩,
    .dec ⟨c!"Y", none, none, none, none, (some c!"0"), (some '.'), none, none⟩,
    .dec ⟨c!"Z", none, (some '-'), none, none, (some c!"5"), (some '.'), none, none⟩,
    .dec ⟨c!"I", none, none, none, none, (some c!"50"), (some '.'), none, none⟩,
    .dec ⟨c!"J", none, none, none, none, (some c!"0"), (some '.'), (some c!"0"), none⟩,
    .dec ⟨c!"K", none, (some '-'), none, none, none, (some '.'), (some c!"796"), none⟩], true, c!"2", (3532728288941071/5000000000000), (63145230841609/200000000000), 0, (3532728288941071/5000000000000),
    [(c!"I", ⟨50, 50, (2519/50)⟩), (c!"J", ⟨0, 0, (37547/1000)⟩), (c!"K", ⟨(-199/250), (-199/250), (-199/250)⟩), (c!"X", ⟨0, 150, (162453/1000)⟩), (c!"Y", ⟨0, 150, 150⟩), (c!"Z", ⟨0, 148, 153⟩)], []⟩,
  -- Z-5.
  ⟨[.dec ⟨c!"Z", none, (some '-'), none, none, (some c!"5"), (some '.'), none, none⟩], true, c!"2", (319459941248831/312500000000), (63145230841609/200000000000), 0, (319459941248831/312500000000),
    [(c!"I", ⟨50, 50, (2519/50)⟩), (c!"J", ⟨0, 0, (37547/1000)⟩), (c!"K", ⟨(-199/250), (-199/250), (-199/250)⟩), (c!"X", ⟨0, 150, (162453/1000)⟩), (c!"Y", ⟨0, 150, 150⟩), (c!"Z", ⟨0, 143, 153⟩)], []⟩,
  -- X90.451 Y-29.389 Z-43. I50. J0.0 K-.796
  ⟨[.dec ⟨c!"X", none, none, none, none, (some c!"90"), (some '.'), (some c!"451"), none⟩,
    .dec ⟨c!"Y", none, (some '-'), none, none, (some c!"29"), (some '.'), (some c!"389"), none⟩,
    .dec ⟨c!"Z", none, (some '-'), none, none, (some c!"43"), (some '.'), none, none⟩,
    .dec ⟨c!"I", none, none, none, none, (some c!"50"), (some '.'), none, none⟩,
    .dec ⟨c!"J", none, none, none, none, (some c!"0"), (some '.'), (some c!"0"), none⟩,
    .dec ⟨c!"K", none, (some '-'), none, none, none, (some '.'), (some c!"796"), none⟩], true, c!"2", (6147251302692111/5000000000000), (207178448542163/1000000000000), 0, (6147251302692111/5000000000000),
    [(c!"I", ⟨50, 50, (2519/50)⟩), (c!"J", ⟨0, 0, (37547/1000)⟩), (c!"K", ⟨(-199/250), (-199/250), (-199/250)⟩), (c!"X", ⟨0, (240451/1000), (240451/1000)⟩), (c!"Y", ⟨0, (120611/1000), 150⟩), (c!"Z", ⟨0, 100, 153⟩)], []⟩]

example : wrong helix360FullArcG91IncrementalProgramming 0 (initial millCfg) = [] := by decide +kernel

/-- `Helix_4x90_arc_G91_incremental_programming` (AttributesPathCalculatorTest.cpp). -/
def helix4x90ArcG91IncrementalProgramming : List Step := [
  -- T2 M6
  ⟨[.dec ⟨c!"T", none, none, none, none, (some c!"2"), none, none, none⟩,
    .dec ⟨c!"M", none, none, none, none, (some c!"6"), none, none, none⟩], true, c!"2", 0, 0, 0, 0,
    [(c!"X", ⟨0, 0, 0⟩), (c!"Y", ⟨0, 0, 0⟩), (c!"Z", ⟨0, 0, 0⟩)], [(4120, 1, 2), (4320, 1, 2), (4520, 1, 2)]⟩,
  -- G17 G91
  ⟨[.dec ⟨c!"G", none, none, none, none, (some c!"17"), none, none, none⟩,
    .dec ⟨c!"G", none, none, none, none, (some c!"91"), none, none, none⟩], true, c!"2", 0, 0, 0, 0,
    [(c!"X", ⟨0, 0, 0⟩), (c!"Y", ⟨0, 0, 0⟩), (c!"Z", ⟨0, 0, 0⟩)], []⟩,
  -- G91 X162.453 Y112.453 Z160.
  ⟨[.dec ⟨c!"G", none, none, none, none, (some c!"91"), none, none, none⟩,
    .dec ⟨c!"X", none, none, none, none, (some c!"162"), (some '.'), (some c!"453"), none⟩,
    .dec ⟨c!"Y", none, none, none, none, (some c!"112"), (some '.'), (some c!"453"), none⟩,
    .dec ⟨c!"Z", none, none, none, none, (some c!"160"), (some '.'), none, none⟩], true, c!"2", (127118698878253/500000000000), 0, (127118698878253/500000000000), (127118698878253/500000000000),
    [(c!"X", ⟨0, (162453/1000), (162453/1000)⟩), (c!"Y", ⟨0, (112453/1000), (112453/1000)⟩), (c!"Z", ⟨0, 160, 160⟩)], []⟩,
  -- Z-7.
  ⟨[.dec ⟨c!"Z", none, (some '-'), none, none, (some c!"7"), (some '.'), none, none⟩], true, c!"2", (130618698878253/500000000000), 0, 7, (130618698878253/500000000000),
    [(c!"X", ⟨0, (162453/1000), (162453/1000)⟩), (c!"Y", ⟨0, (112453/1000), (112453/1000)⟩), (c!"Z", ⟨0, 153, 160⟩)], []⟩,
  -- G02 X-12.453 Y37.547 I50.38 J37.547 F250.
  ⟨[.dec ⟨c!"G", none, none, none, none, (some c!"02"), none, none, none⟩,
    .dec ⟨c!"X", none, (some '-'), none, none, (some c!"12"), (some '.'), (some c!"453"), none⟩,
    .dec ⟨c!"Y", none, none, none, none, (some c!"37"), (some '.'), (some c!"547"), none⟩,
    .dec ⟨c!"I", none, none, none, none, (some c!"50"), (some '.'), (some c!"38"), none⟩,
    .dec ⟨c!"J", none, none, none, none, (some c!"37"), (some '.'), (some c!"547"), none⟩,
    .dec ⟨c!"F", none, none, none, none, (some c!"250"), (some '.'), none, none⟩], true, c!"2", (753699857800973/2500000000000), (25151590852427/625000000000), 0, (753699857800973/2500000000000),
    [(c!"I", ⟨(2519/50), (2519/50), (2519/50)⟩), (c!"J", ⟨(37547/1000), (37547/1000), (37547/1000)⟩), (c!"X", ⟨0, 150, (162453/1000)⟩), (c!"Y", ⟨0, 150, 150⟩), (c!"Z", ⟨0, 153, 160⟩)], []⟩,
  -- X50. Y50. Z-1.25 I50. J0.0 K-.796
  ⟨[.dec ⟨c!"X", none, none, none, none, (some c!"50"), (some '.'), none, none⟩,
    .dec ⟨c!"Y", none, none, none, none, (some c!"50"), (some '.'), none, none⟩,
    .dec ⟨c!"Z", none, (some '-'), none, none, (some c!"1"), (some '.'), (some c!"25"), none⟩,
    .dec ⟨c!"I", none, none, none, none, (some c!"50"), (some '.'), none, none⟩,
    .dec ⟨c!"J", none, none, none, none, (some c!"0"), (some '.'), (some c!"0"), none⟩,
    .dec ⟨c!"K", none, (some '-'), none, none, none, (some '.'), (some c!"796"), none⟩], true, c!"2", (1902057408362003/5000000000000), (394657692760057/5000000000000), 0, (1902057408362003/5000000000000),
    [(c!"I", ⟨50, 50, (2519/50)⟩), (c!"J", ⟨0, 0, (37547/1000)⟩), (c!"K", ⟨(-199/250), (-199/250), (-199/250)⟩), (c!"X", ⟨0, 200, 200⟩), (c!"Y", ⟨0, 200, 200⟩), (c!"Z", ⟨0, (607/4), 160⟩)], []⟩,
  -- X50. Y-50. Z-1.25 I0.0 J-50.
  ⟨[.dec ⟨c!"X", none, none, none, none, (some c!"50"), (some '.'), none, none⟩,
    .dec ⟨c!"Y", none, (some '-'), none, none, (some c!"50"), (some '.'), none, none⟩,
    .dec ⟨c!"Z", none, (some '-'), none, none, (some c!"1"), (some '.'), (some c!"25"), none⟩,
    .dec ⟨c!"I", none, none, none, none, (some c!"0"), (some '.'), (some c!"0"), none⟩,
    .dec ⟨c!"J", none, (some '-'), none, none, (some c!"50"), (some '.'), none, none⟩], true, c!"2", (114835755056103/250000000000), (394657692760057/5000000000000), 0, (114835755056103/250000000000),
    [(c!"I", ⟨0, 0, (2519/50)⟩), (c!"J", ⟨(-50), (-50), (37547/1000)⟩), (c!"K", ⟨(-199/250), (-199/250), (-199/250)⟩), (c!"X", ⟨0, 250, 250⟩), (c!"Y", ⟨0, 150, 200⟩), (c!"Z", ⟨0, (301/2), 160⟩)], []⟩,
  -- X-50. Y-50. Z-1.25 I-50. J0.0
  ⟨[.dec ⟨c!"X", none, (some '-'), none, none, (some c!"50"), (some '.'), none, none⟩,
    .dec ⟨c!"Y", none, (some '-'), none, none, (some c!"50"), (some '.'), none, none⟩,
    .dec ⟨c!"Z", none, (some '-'), none, none, (some c!"1"), (some '.'), (some c!"25"), none⟩,
    .dec ⟨c!"I", none, (some '-'), none, none, (some c!"50"), (some '.'), none, none⟩,
    .dec ⟨c!"J", none, none, none, none, (some c!"0"), (some '.'), (some c!"0"), none⟩], true, c!"2", (2691372793882117/5000000000000), (394657692760057/5000000000000), 0, (2691372793882117/5000000000000),
    [(c!"I", ⟨(-50), (-50), (2519/50)⟩), (c!"J", ⟨(-50), 0, (37547/1000)⟩), (c!"K", ⟨(-199/250), (-199/250), (-199/250)⟩), (c!"X", ⟨0, 200, 250⟩), (c!"Y", ⟨0, 100, 200⟩), (c!"Z", ⟨0, (597/4), 160⟩)], []⟩,
  -- X-50. Y50. Z-1.25 I0.0 J50.
  ⟨[.dec ⟨c!"X", none, (some '-'), none, none, (some c!"50"), (some '.'), none, none⟩,
    .dec ⟨c!"Y", none, none, none, none, (some c!"50"), (some '.'), none, none⟩,
    .dec ⟨c!"Z", none, (some '-'), none, none, (some c!"1"), (some '.'), (some c!"25"), none⟩,
    .dec ⟨c!"I", none, none, none, none, (some c!"0"), (some '.'), (some c!"0"), none⟩,
    .dec ⟨c!"J", none, none, none, none, (some c!"50"), (some '.'), none, none⟩], true, c!"2", (1543015243321087/2500000000000), (394657692760057/5000000000000), 0, (1543015243321087/2500000000000),
    [(c!"I", ⟨(-50), 0, (2519/50)⟩), (c!"J", ⟨(-50), 50, 50⟩), (c!"K", ⟨(-199/250), (-199/250), (-199/250)⟩), (c!"X", ⟨0, 150, 250⟩), (c!"Y", ⟨0, 150, 200⟩), (c!"Z", ⟨0, 148, 160⟩)], []⟩,
  -- X50. Y50. Z-1.25 I50. J0.0
  ⟨[.dec ⟨c!"X", none, none, none, none, (some c!"50"), (some '.'), none, none⟩,
    .dec ⟨c!"Y", none, none, none, none, (some c!"50"), (some '.'), none, none⟩,
    .dec ⟨c!"Z", none, (some '-'), none, none, (some c!"1"), (some '.'), (some c!"25"), none⟩,
    .dec ⟨c!"I", none, none, none, none, (some c!"50"), (some '.'), none, none⟩,
    .dec ⟨c!"J", none, none, none, none, (some c!"0"), (some '.'), (some c!"0"), none⟩], true, c!"2", (3480688179402231/5000000000000), (394657692760057/5000000000000), 0, (3480688179402231/5000000000000),
    [(c!"I", ⟨(-50), 50, (2519/50)⟩), (c!"J", ⟨(-50), 0, 50⟩), (c!"K", ⟨(-199/250), (-199/250), (-199/250)⟩), (c!"X", ⟨0, 200, 250⟩), (c!"Y", ⟨0, 200, 200⟩), (c!"Z", ⟨0, (587/4), 160⟩)], []⟩,
  -- X50. Y-50. Z-1.25 I0.0 J-50.
  ⟨[.dec ⟨c!"X", none, none, none, none, (some c!"50"), (some '.'), none, none⟩,
    .dec ⟨c!"Y", none, (some '-'), none, none, (some c!"50"), (some '.'), none, none⟩,
    .dec ⟨c!"Z", none, (some '-'), none, none, (some c!"1"), (some '.'), (some c!"25"), none⟩,
    .dec ⟨c!"I", none, none, none, none, (some c!"0"), (some '.'), (some c!"0"), none⟩,
    .dec ⟨c!"J", none, (some '-'), none, none, (some c!"50"), (some '.'), none, none⟩], true, c!"2", (242209117010143/312500000000), (394657692760057/5000000000000), 0, (242209117010143/312500000000),
    [(c!"I", ⟨(-50), 0, (2519/50)⟩), (c!"J", ⟨(-50), (-50), 50⟩), (c!"K", ⟨(-199/250), (-199/250), (-199/250)⟩), (c!"X", ⟨0, 250, 250⟩), (c!"Y", ⟨0, 150, 200⟩), (c!"Z", ⟨0, (291/2), 160⟩)], []⟩,
  -- X-9.549 Y-29.389 Z-0.5 I-50. J0.0 K-.796
  ⟨[.dec ⟨c!"X", none, (some '-'), none, none, (some c!"9"), (some '.'), (some c!"549"), none⟩,
    .dec ⟨c!"Y", none, (some '-'), none, none, (some c!"29"), (some '.'), (some c!"389"), none⟩,
    .dec ⟨c!"Z", none, (some '-'), none, none, (some c!"0"), (some '.'), (some c!"5"), none⟩,
    .dec ⟨c!"I", none, (some '-'), none, none, (some c!"50"), (some '.'), none, none⟩,
    .dec ⟨c!"J", none, none, none, none, (some c!"0"), (some '.'), (some c!"0"), none⟩,
    .dec ⟨c!"K", none, (some '-'), none, none, none, (some '.'), (some c!"796"), none⟩], true, c!"2", (8536717975126191/10000000000000), (157205246160323/2000000000000), 0, (8536717975126191/10000000000000),
    [(c!"I", ⟨(-50), (-50), (2519/50)⟩), (c!"J", ⟨(-50), 0, 50⟩), (c!"K", ⟨(-199/250), (-199/250), (-199/250)⟩), (c!"X", ⟨0, (240451/1000), 250⟩), (c!"Y", ⟨0, (120611/1000), 200⟩), (c!"Z", ⟨0, 145, 160⟩)], []⟩,
  -- I-40.451 J29.389
  ⟨[.dec ⟨c!"I", none, (some '-'), none, none, (some c!"40"), (some '.'), (some c!"451"), none⟩,
    .dec ⟨c!"J", none, none, none, none, (some c!"29"), (some '.'), (some c!"389"), none⟩], true, c!"2", (11678308569087161/10000000000000), (314159059396097/1000000000000), 0, (11678308569087161/10000000000000),
    [(c!"I", ⟨(-50), (-40451/1000), (2519/50)⟩), (c!"J", ⟨(-50), (29389/1000), 50⟩), (c!"K", ⟨(-199/250), (-199/250), (-199/250)⟩), (c!"X", ⟨0, (240451/1000), 250⟩), (c!"Y", ⟨0, (120611/1000), 200⟩), (c!"Z", ⟨0, 145, 160⟩)], []⟩]

example : wrong helix4x90ArcG91IncrementalProgramming 0 (initial millCfg) = [] := by decide +kernel

end NC.Agreement
