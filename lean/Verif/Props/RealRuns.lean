import Verif.Props.ScaledArcs
import Verif.Props.ByRadius
import Verif.Props.PartedArcs
import Verif.Props.TurnedArcs

/-!
# Runs over the real numbers that meet the hypotheses of C128, C136, C137, C138 and C140

The cases beside these theorems run over the rationals.  Here the same blocks are evaluated over the real numbers, and the theorems are applied to
the runs.
-/

namespace NC.Props.RealRuns
open NC NC.Path NC.Ver NC.AttrPath NC.Spec.Sim NC.Spec.Geo NC.SimDemo Real

local notation "RF" => realFns

set_option linter.unusedSimpArgs false

/-- The machine of `SimDemo.mill` over the real numbers, with base point (x, y, 10). -/
noncomputable def millAt (x y : ℝ) : Cfg ℝ where
  mtype := .other
  depthless := false
  base := [(c!"X", x), (c!"Y", y), (c!"Z", 10)]
  exchange := [(c!"X", 0), (c!"Y", 0), (c!"Z", 50)]
  axes := [c!"A"]
  maxFast := 600
  exchangeTime := 5
  palletTime := 7
  measureTime := 3
  diameter2x := false
  autoMeasure := false
  palletWord := c!"M"
  palletValue := c!"60"
  measureWord := c!"M"
  measureValue := c!"50"
  motion := 0
  plane := .xy
  incr := false
  perRev := false
  depth := .absolute
  ret := .g98
  rotation := 0
  cancel0 := true
  cancel1 := true
  cancel2 := true
  cancel3 := true
  cancelRapid := true
  operatorRotation := false
  toolExchanges := false
  autoRapid := false

/-- A quarter turn about the origin from (3, 4). -/
def quarter : Block := [w c!"G" c!"3", wn c!"X" c!"4", w c!"Y" c!"3", wn c!"I" c!"3", wn c!"J" c!"4", w c!"F" c!"100"]

/-- Back. -/
def quarterBack : Block := [w c!"G" c!"2", w c!"X" c!"3", w c!"Y" c!"4", w c!"I" c!"4", wn c!"J" c!"3", w c!"F" c!"100"]

/-- In twice the size. -/
def quarterTwice : Block := [w c!"G" c!"3", wn c!"X" c!"8", w c!"Y" c!"6", wn c!"I" c!"6", wn c!"J" c!"8", w c!"F" c!"100"]

/-- The next quarter. -/
def quarterTurned : Block := [w c!"G" c!"3", wn c!"X" c!"3", wn c!"Y" c!"4", w c!"I" c!"4", wn c!"J" c!"3", w c!"F" c!"100"]

/-- Both quarters at once. -/
def halfCircle : Block := [w c!"G" c!"3", wn c!"X" c!"3", wn c!"Y" c!"4", wn c!"I" c!"3", wn c!"J" c!"4", w c!"F" c!"100"]

/-- By its radius. -/
def quarterByRadius : Block := [w c!"G" c!"3", wn c!"X" c!"4", w c!"Y" c!"3", w c!"R" c!"5", w c!"F" c!"100"]

theorem valXm4 : stodE (valText { word := c!"X", sign := some '-', value := some c!"4" }) = .ok (-4) := by decide +kernel
theorem valY3 : stodE (valText { word := c!"Y", value := some c!"3" }) = .ok 3 := by decide +kernel
theorem valIm3 : stodE (valText { word := c!"I", sign := some '-', value := some c!"3" }) = .ok (-3) := by decide +kernel
theorem valJm4 : stodE (valText { word := c!"J", sign := some '-', value := some c!"4" }) = .ok (-4) := by decide +kernel
theorem valX3 : stodE (valText { word := c!"X", value := some c!"3" }) = .ok 3 := by decide +kernel
theorem valY4 : stodE (valText { word := c!"Y", value := some c!"4" }) = .ok 4 := by decide +kernel
theorem valI4 : stodE (valText { word := c!"I", value := some c!"4" }) = .ok 4 := by decide +kernel
theorem valJm3 : stodE (valText { word := c!"J", sign := some '-', value := some c!"3" }) = .ok (-3) := by decide +kernel
theorem valXm8 : stodE (valText { word := c!"X", sign := some '-', value := some c!"8" }) = .ok (-8) := by decide +kernel
theorem valY6 : stodE (valText { word := c!"Y", value := some c!"6" }) = .ok 6 := by decide +kernel
theorem valIm6 : stodE (valText { word := c!"I", sign := some '-', value := some c!"6" }) = .ok (-6) := by decide +kernel
theorem valJm8 : stodE (valText { word := c!"J", sign := some '-', value := some c!"8" }) = .ok (-8) := by decide +kernel
theorem valXm3 : stodE (valText { word := c!"X", sign := some '-', value := some c!"3" }) = .ok (-3) := by decide +kernel
theorem valYm4 : stodE (valText { word := c!"Y", sign := some '-', value := some c!"4" }) = .ok (-4) := by decide +kernel
theorem valR5 : stodE (valText { word := c!"R", value := some c!"5" }) = .ok 5 := by decide +kernel
theorem valF : stodE (feedText { word := c!"F", value := some c!"100" }) = .ok 100 := by decide +kernel
theorem valG2 : stoiE c!"2" = .ok 2 := by decide +kernel
theorem valG3 : stoiE c!"3" = .ok 3 := by decide +kernel
theorem ordIJ : ((['I'] : Str) < ['J']) := by decide
theorem ordIR : ((['I'] : Str) < ['R']) := by decide
theorem ordIX : ((['I'] : Str) < ['X']) := by decide
theorem ordIY : ((['I'] : Str) < ['Y']) := by decide
theorem ordIZ : ((['I'] : Str) < ['Z']) := by decide
theorem ordJI : ¬ ((['J'] : Str) < ['I']) := by decide
theorem ordJR : ((['J'] : Str) < ['R']) := by decide
theorem ordJX : ((['J'] : Str) < ['X']) := by decide
theorem ordJY : ((['J'] : Str) < ['Y']) := by decide
theorem ordJZ : ((['J'] : Str) < ['Z']) := by decide
theorem ordRI : ¬ ((['R'] : Str) < ['I']) := by decide
theorem ordRJ : ¬ ((['R'] : Str) < ['J']) := by decide
theorem ordRX : ((['R'] : Str) < ['X']) := by decide
theorem ordRY : ((['R'] : Str) < ['Y']) := by decide
theorem ordRZ : ((['R'] : Str) < ['Z']) := by decide
theorem ordXI : ¬ ((['X'] : Str) < ['I']) := by decide
theorem ordXJ : ¬ ((['X'] : Str) < ['J']) := by decide
theorem ordXR : ¬ ((['X'] : Str) < ['R']) := by decide
theorem ordXY : ((['X'] : Str) < ['Y']) := by decide
theorem ordXZ : ((['X'] : Str) < ['Z']) := by decide
theorem ordYI : ¬ ((['Y'] : Str) < ['I']) := by decide
theorem ordYJ : ¬ ((['Y'] : Str) < ['J']) := by decide
theorem ordYR : ¬ ((['Y'] : Str) < ['R']) := by decide
theorem ordYX : ¬ ((['Y'] : Str) < ['X']) := by decide
theorem ordYZ : ((['Y'] : Str) < ['Z']) := by decide
theorem ordZI : ¬ ((['Z'] : Str) < ['I']) := by decide
theorem ordZJ : ¬ ((['Z'] : Str) < ['J']) := by decide
theorem ordZR : ¬ ((['Z'] : Str) < ['R']) := by decide
theorem ordZX : ¬ ((['Z'] : Str) < ['X']) := by decide
theorem ordZY : ¬ ((['Z'] : Str) < ['Y']) := by decide
theorem kept0I : skipped 0 [] ['I'] = false := by decide +kernel
theorem kept0J : skipped 0 [] ['J'] = false := by decide +kernel
theorem kept0R : skipped 0 [] ['R'] = false := by decide +kernel
theorem kept0X : skipped 0 [] ['X'] = false := by decide +kernel
theorem kept0Y : skipped 0 [] ['Y'] = false := by decide +kernel
theorem kept0Z : skipped 0 [] ['Z'] = false := by decide +kernel
theorem kept2I : skipped 2 [] ['I'] = false := by decide +kernel
theorem kept2J : skipped 2 [] ['J'] = false := by decide +kernel
theorem kept2R : skipped 2 [] ['R'] = false := by decide +kernel
theorem kept2X : skipped 2 [] ['X'] = false := by decide +kernel
theorem kept2Y : skipped 2 [] ['Y'] = false := by decide +kernel
theorem kept2Z : skipped 2 [] ['Z'] = false := by decide +kernel
theorem kept3I : skipped 3 [] ['I'] = false := by decide +kernel
theorem kept3J : skipped 3 [] ['J'] = false := by decide +kernel
theorem kept3R : skipped 3 [] ['R'] = false := by decide +kernel
theorem kept3X : skipped 3 [] ['X'] = false := by decide +kernel
theorem kept3Y : skipped 3 [] ['Y'] = false := by decide +kernel
theorem kept3Z : skipped 3 [] ['Z'] = false := by decide +kernel

/-- The state at the start. -/
theorem initial_at (x y : ℝ) : initial (millAt x y) = {
      path := .empty, time := .empty, prev := [(c!"X", x), (c!"Y", y), (c!"Z", 10)], tPath := [], tTime := [],
      range := [(c!"X", ⟨x, x, x⟩), (c!"Y", ⟨y, y, y⟩), (c!"Z", ⟨10, 10, 10⟩)],
      f := -1, s := -1, g := 0, plane := .xy, ret := .g98, incr := false,
      css := false, perRev := false, helix := .none, tool := [], autoRapid := false } := by
  simp [initial, millAt, copySt, copyBack, copyOne, movesIncr, startS, VMap.put, VMap.get, kept0I, kept0J, kept0R, kept0X, kept0Y, kept0Z, kept2I, kept2J, kept2R, kept2X, kept2Y, kept2Z, kept3I, kept3J, kept3R, kept3X, kept3Y, kept3Z,
    ordIJ, ordIR, ordIX, ordIY, ordIZ, ordJI, ordJR, ordJX, ordJY, ordJZ, ordRI, ordRJ, ordRX, ordRY, ordRZ, ordXI, ordXJ, ordXR, ordXY, ordXZ, ordYI, ordYJ, ordYR, ordYX, ordYZ, ordZI, ordZJ, ordZR, ordZX, ordZY]

theorem quarter_visit (x y : ℝ) : visitAll (millAt x y) {} quarter = .ok { vals := [(c!"I", -3), (c!"J", -4), (c!"X", -4), (c!"Y", 3)], f := some 100, g := some 3 } := by
  simp [visitAll, visit, quarter, w, wn, readWord, gcodeParams, millAt, readVal, valXm4, valY3, valIm3, valJm4, valX3, valY4, valI4, valJm3, valXm8, valY6, valIm6, valJm8, valXm3, valYm4, valR5, valF, valG2, valG3, readFeed, readCode, scaleP, gKind, Act.on, setCode, VMap.put,
    ordIJ, ordIR, ordIX, ordIY, ordIZ, ordJI, ordJR, ordJX, ordJY, ordJZ, ordRI, ordRJ, ordRX, ordRY, ordRZ, ordXI, ordXJ, ordXR, ordXY, ordXZ, ordYI, ordYJ, ordYR, ordYX, ordYZ, ordZI, ordZJ, ordZR, ordZX, ordZY]

/-- The block is accepted and leads to its end. -/
theorem quarter_run : let e := evaluate RF (millAt 3 4) false 1 quarter (initial (millAt 3 4), [])
    e.2 = .ok () ∧ pos e.1.1 c!"X" = some (-4) ∧ pos e.1.1 c!"Y" = some 3 ∧ pos e.1.1 c!"I" = some (-3) ∧ pos e.1.1 c!"J" = some (-4) := by
  have h100 : ¬ ((100 : ℝ) < 0) := by norm_num
  dsimp only
  unfold evaluate
  rw [if_neg (by decide), quarter_visit, initial_at]
  simp [evalVis, toolPart, toolOf, mTimes, gAfter, millAt, clearMotions, afterTool, startPart, dwell, Part.andThen, moveBlock, current, motion, circular,
    circularFrom, axesOf, arcStep, helixStep, helixStart, arc, setWork, account, checks, addTimes, addPath, saveModal, savePositions, atTool, atBase,
    cancelBy, cancelCycle, copySt, copyBack, copyOne, movesIncr, widen, finish, VMap.put, VMap.get, pos, h100, latheProg,
    kept0I, kept0J, kept0R, kept0X, kept0Y, kept0Z, kept2I, kept2J, kept2R, kept2X, kept2Y, kept2Z, kept3I, kept3J, kept3R, kept3X, kept3Y, kept3Z,
    ordIJ, ordIR, ordIX, ordIY, ordIZ, ordJI, ordJR, ordJX, ordJY, ordJZ, ordRI, ordRJ, ordRX, ordRY, ordRZ, ordXI, ordXJ, ordXR, ordXY, ordXZ, ordYI, ordYJ, ordYR, ordYX, ordYZ, ordZI, ordZJ, ordZR, ordZX, ordZY]
  try norm_num

theorem quarterBack_visit (x y : ℝ) : visitAll (millAt x y) {} quarterBack = .ok { vals := [(c!"I", 4), (c!"J", -3), (c!"X", 3), (c!"Y", 4)], f := some 100, g := some 2 } := by
  simp [visitAll, visit, quarterBack, w, wn, readWord, gcodeParams, millAt, readVal, valXm4, valY3, valIm3, valJm4, valX3, valY4, valI4, valJm3, valXm8, valY6, valIm6, valJm8, valXm3, valYm4, valR5, valF, valG2, valG3, readFeed, readCode, scaleP, gKind, Act.on, setCode, VMap.put,
    ordIJ, ordIR, ordIX, ordIY, ordIZ, ordJI, ordJR, ordJX, ordJY, ordJZ, ordRI, ordRJ, ordRX, ordRY, ordRZ, ordXI, ordXJ, ordXR, ordXY, ordXZ, ordYI, ordYJ, ordYR, ordYX, ordYZ, ordZI, ordZJ, ordZR, ordZX, ordZY]

/-- The block is accepted and leads to its end. -/
theorem quarterBack_run : let e := evaluate RF (millAt 3 4) false 1 quarterBack (initial (millAt (-4) 3), [])
    e.2 = .ok () ∧ pos e.1.1 c!"X" = some 3 ∧ pos e.1.1 c!"Y" = some 4 ∧ pos e.1.1 c!"I" = some 4 ∧ pos e.1.1 c!"J" = some (-3) := by
  have h100 : ¬ ((100 : ℝ) < 0) := by norm_num
  dsimp only
  unfold evaluate
  rw [if_neg (by decide), quarterBack_visit, initial_at]
  simp [evalVis, toolPart, toolOf, mTimes, gAfter, millAt, clearMotions, afterTool, startPart, dwell, Part.andThen, moveBlock, current, motion, circular,
    circularFrom, axesOf, arcStep, helixStep, helixStart, arc, setWork, account, checks, addTimes, addPath, saveModal, savePositions, atTool, atBase,
    cancelBy, cancelCycle, copySt, copyBack, copyOne, movesIncr, widen, finish, VMap.put, VMap.get, pos, h100, latheProg,
    kept0I, kept0J, kept0R, kept0X, kept0Y, kept0Z, kept2I, kept2J, kept2R, kept2X, kept2Y, kept2Z, kept3I, kept3J, kept3R, kept3X, kept3Y, kept3Z,
    ordIJ, ordIR, ordIX, ordIY, ordIZ, ordJI, ordJR, ordJX, ordJY, ordJZ, ordRI, ordRJ, ordRX, ordRY, ordRZ, ordXI, ordXJ, ordXR, ordXY, ordXZ, ordYI, ordYJ, ordYR, ordYX, ordYZ, ordZI, ordZJ, ordZR, ordZX, ordZY]
  try norm_num

theorem quarterTwice_visit (x y : ℝ) : visitAll (millAt x y) {} quarterTwice = .ok { vals := [(c!"I", -6), (c!"J", -8), (c!"X", -8), (c!"Y", 6)], f := some 100, g := some 3 } := by
  simp [visitAll, visit, quarterTwice, w, wn, readWord, gcodeParams, millAt, readVal, valXm4, valY3, valIm3, valJm4, valX3, valY4, valI4, valJm3, valXm8, valY6, valIm6, valJm8, valXm3, valYm4, valR5, valF, valG2, valG3, readFeed, readCode, scaleP, gKind, Act.on, setCode, VMap.put,
    ordIJ, ordIR, ordIX, ordIY, ordIZ, ordJI, ordJR, ordJX, ordJY, ordJZ, ordRI, ordRJ, ordRX, ordRY, ordRZ, ordXI, ordXJ, ordXR, ordXY, ordXZ, ordYI, ordYJ, ordYR, ordYX, ordYZ, ordZI, ordZJ, ordZR, ordZX, ordZY]

/-- The block is accepted and leads to its end. -/
theorem quarterTwice_run : let e := evaluate RF (millAt 3 4) false 1 quarterTwice (initial (millAt 6 8), [])
    e.2 = .ok () ∧ pos e.1.1 c!"X" = some (-8) ∧ pos e.1.1 c!"Y" = some 6 ∧ pos e.1.1 c!"I" = some (-6) ∧ pos e.1.1 c!"J" = some (-8) := by
  have h100 : ¬ ((100 : ℝ) < 0) := by norm_num
  dsimp only
  unfold evaluate
  rw [if_neg (by decide), quarterTwice_visit, initial_at]
  simp [evalVis, toolPart, toolOf, mTimes, gAfter, millAt, clearMotions, afterTool, startPart, dwell, Part.andThen, moveBlock, current, motion, circular,
    circularFrom, axesOf, arcStep, helixStep, helixStart, arc, setWork, account, checks, addTimes, addPath, saveModal, savePositions, atTool, atBase,
    cancelBy, cancelCycle, copySt, copyBack, copyOne, movesIncr, widen, finish, VMap.put, VMap.get, pos, h100, latheProg,
    kept0I, kept0J, kept0R, kept0X, kept0Y, kept0Z, kept2I, kept2J, kept2R, kept2X, kept2Y, kept2Z, kept3I, kept3J, kept3R, kept3X, kept3Y, kept3Z,
    ordIJ, ordIR, ordIX, ordIY, ordIZ, ordJI, ordJR, ordJX, ordJY, ordJZ, ordRI, ordRJ, ordRX, ordRY, ordRZ, ordXI, ordXJ, ordXR, ordXY, ordXZ, ordYI, ordYJ, ordYR, ordYX, ordYZ, ordZI, ordZJ, ordZR, ordZX, ordZY]
  try norm_num

theorem quarterTurned_visit (x y : ℝ) : visitAll (millAt x y) {} quarterTurned = .ok { vals := [(c!"I", 4), (c!"J", -3), (c!"X", -3), (c!"Y", -4)], f := some 100, g := some 3 } := by
  simp [visitAll, visit, quarterTurned, w, wn, readWord, gcodeParams, millAt, readVal, valXm4, valY3, valIm3, valJm4, valX3, valY4, valI4, valJm3, valXm8, valY6, valIm6, valJm8, valXm3, valYm4, valR5, valF, valG2, valG3, readFeed, readCode, scaleP, gKind, Act.on, setCode, VMap.put,
    ordIJ, ordIR, ordIX, ordIY, ordIZ, ordJI, ordJR, ordJX, ordJY, ordJZ, ordRI, ordRJ, ordRX, ordRY, ordRZ, ordXI, ordXJ, ordXR, ordXY, ordXZ, ordYI, ordYJ, ordYR, ordYX, ordYZ, ordZI, ordZJ, ordZR, ordZX, ordZY]

/-- The block is accepted and leads to its end. -/
theorem quarterTurned_run : let e := evaluate RF (millAt 3 4) false 1 quarterTurned (initial (millAt (-4) 3), [])
    e.2 = .ok () ∧ pos e.1.1 c!"X" = some (-3) ∧ pos e.1.1 c!"Y" = some (-4) ∧ pos e.1.1 c!"I" = some 4 ∧ pos e.1.1 c!"J" = some (-3) := by
  have h100 : ¬ ((100 : ℝ) < 0) := by norm_num
  dsimp only
  unfold evaluate
  rw [if_neg (by decide), quarterTurned_visit, initial_at]
  simp [evalVis, toolPart, toolOf, mTimes, gAfter, millAt, clearMotions, afterTool, startPart, dwell, Part.andThen, moveBlock, current, motion, circular,
    circularFrom, axesOf, arcStep, helixStep, helixStart, arc, setWork, account, checks, addTimes, addPath, saveModal, savePositions, atTool, atBase,
    cancelBy, cancelCycle, copySt, copyBack, copyOne, movesIncr, widen, finish, VMap.put, VMap.get, pos, h100, latheProg,
    kept0I, kept0J, kept0R, kept0X, kept0Y, kept0Z, kept2I, kept2J, kept2R, kept2X, kept2Y, kept2Z, kept3I, kept3J, kept3R, kept3X, kept3Y, kept3Z,
    ordIJ, ordIR, ordIX, ordIY, ordIZ, ordJI, ordJR, ordJX, ordJY, ordJZ, ordRI, ordRJ, ordRX, ordRY, ordRZ, ordXI, ordXJ, ordXR, ordXY, ordXZ, ordYI, ordYJ, ordYR, ordYX, ordYZ, ordZI, ordZJ, ordZR, ordZX, ordZY]
  try norm_num

theorem halfCircle_visit (x y : ℝ) : visitAll (millAt x y) {} halfCircle = .ok { vals := [(c!"I", -3), (c!"J", -4), (c!"X", -3), (c!"Y", -4)], f := some 100, g := some 3 } := by
  simp [visitAll, visit, halfCircle, w, wn, readWord, gcodeParams, millAt, readVal, valXm4, valY3, valIm3, valJm4, valX3, valY4, valI4, valJm3, valXm8, valY6, valIm6, valJm8, valXm3, valYm4, valR5, valF, valG2, valG3, readFeed, readCode, scaleP, gKind, Act.on, setCode, VMap.put,
    ordIJ, ordIR, ordIX, ordIY, ordIZ, ordJI, ordJR, ordJX, ordJY, ordJZ, ordRI, ordRJ, ordRX, ordRY, ordRZ, ordXI, ordXJ, ordXR, ordXY, ordXZ, ordYI, ordYJ, ordYR, ordYX, ordYZ, ordZI, ordZJ, ordZR, ordZX, ordZY]

/-- The block is accepted and leads to its end. -/
theorem halfCircle_run : let e := evaluate RF (millAt 3 4) false 1 halfCircle (initial (millAt 3 4), [])
    e.2 = .ok () ∧ pos e.1.1 c!"X" = some (-3) ∧ pos e.1.1 c!"Y" = some (-4) ∧ pos e.1.1 c!"I" = some (-3) ∧ pos e.1.1 c!"J" = some (-4) := by
  have h100 : ¬ ((100 : ℝ) < 0) := by norm_num
  dsimp only
  unfold evaluate
  rw [if_neg (by decide), halfCircle_visit, initial_at]
  simp [evalVis, toolPart, toolOf, mTimes, gAfter, millAt, clearMotions, afterTool, startPart, dwell, Part.andThen, moveBlock, current, motion, circular,
    circularFrom, axesOf, arcStep, helixStep, helixStart, arc, setWork, account, checks, addTimes, addPath, saveModal, savePositions, atTool, atBase,
    cancelBy, cancelCycle, copySt, copyBack, copyOne, movesIncr, widen, finish, VMap.put, VMap.get, pos, h100, latheProg,
    kept0I, kept0J, kept0R, kept0X, kept0Y, kept0Z, kept2I, kept2J, kept2R, kept2X, kept2Y, kept2Z, kept3I, kept3J, kept3R, kept3X, kept3Y, kept3Z,
    ordIJ, ordIR, ordIX, ordIY, ordIZ, ordJI, ordJR, ordJX, ordJY, ordJZ, ordRI, ordRJ, ordRX, ordRY, ordRZ, ordXI, ordXJ, ordXR, ordXY, ordXZ, ordYI, ordYJ, ordYR, ordYX, ordYZ, ordZI, ordZJ, ordZR, ordZX, ordZY]
  try norm_num

theorem quarterByRadius_visit (x y : ℝ) : visitAll (millAt x y) {} quarterByRadius = .ok { vals := [(c!"R", 5), (c!"X", -4), (c!"Y", 3)], f := some 100, g := some 3 } := by
  simp [visitAll, visit, quarterByRadius, w, wn, readWord, gcodeParams, millAt, readVal, valXm4, valY3, valIm3, valJm4, valX3, valY4, valI4, valJm3, valXm8, valY6, valIm6, valJm8, valXm3, valYm4, valR5, valF, valG2, valG3, readFeed, readCode, scaleP, gKind, Act.on, setCode, VMap.put,
    ordIJ, ordIR, ordIX, ordIY, ordIZ, ordJI, ordJR, ordJX, ordJY, ordJZ, ordRI, ordRJ, ordRX, ordRY, ordRZ, ordXI, ordXJ, ordXR, ordXY, ordXZ, ordYI, ordYJ, ordYR, ordYX, ordYZ, ordZI, ordZJ, ordZR, ordZX, ordZY]

/-- The block is accepted and leads to its end. -/
theorem quarterByRadius_run : let e := evaluate RF (millAt 3 4) false 1 quarterByRadius (initial (millAt 3 4), [])
    e.2 = .ok () ∧ pos e.1.1 c!"X" = some (-4) ∧ pos e.1.1 c!"Y" = some 3 ∧ pos e.1.1 c!"R" = some 5 := by
  have h100 : ¬ ((100 : ℝ) < 0) := by norm_num
  dsimp only
  unfold evaluate
  rw [if_neg (by decide), quarterByRadius_visit, initial_at]
  simp [evalVis, toolPart, toolOf, mTimes, gAfter, millAt, clearMotions, afterTool, startPart, dwell, Part.andThen, moveBlock, current, motion, circular,
    circularFrom, axesOf, arcStep, helixStep, helixStart, arc, setWork, account, checks, addTimes, addPath, saveModal, savePositions, atTool, atBase,
    cancelBy, cancelCycle, copySt, copyBack, copyOne, movesIncr, widen, finish, VMap.put, VMap.get, pos, h100, latheProg,
    kept0I, kept0J, kept0R, kept0X, kept0Y, kept0Z, kept2I, kept2J, kept2R, kept2X, kept2Y, kept2Z, kept3I, kept3J, kept3R, kept3X, kept3Y, kept3Z,
    ordIJ, ordIR, ordIX, ordIY, ordIZ, ordJI, ordJR, ordJX, ordJY, ordJZ, ordRI, ordRJ, ordRX, ordRY, ordRZ, ordXI, ordXJ, ordXR, ordXY, ordXZ, ordYI, ordYJ, ordYR, ordYX, ordYZ, ordZI, ordZJ, ordZR, ordZX, ordZY]
  try norm_num

theorem millAt_wf (x y : ℝ) : WF (millAt x y) := by
  refine ⟨?_, ?_, Or.inr (Or.inl rfl)⟩ <;> simp [VMap.Sorted, millAt, ordXY, ordXZ, ordYZ]

theorem millAt_axes (x y : ℝ) : AxesOk (millAt x y) := by
  unfold AxesOk
  show ∀ w ∈ ([c!"G", c!"M", c!"T", c!"F", c!"S"] : List Str), w ∉ ([c!"A"] : List Str)
  decide

theorem initial_pos (x y : ℝ) : pos (initial (millAt x y)) c!"X" = some x ∧ pos (initial (millAt x y)) c!"Y" = some y := by
  rw [initial_at]
  simp [pos, VMap.get]

theorem quarterTurned_arc : IsArc .ccw (0, 0) 5 (π / 2) (-4, 3) (-3, -4) := by
  have hp := Real.pi_pos
  refine arc_of (by norm_num) (by linarith) (by linarith) (by norm_num) ?_ ?_ <;>
    rw [Real.cos_pi_div_two, Real.sin_pi_div_two] <;> simp [Sense.sgn]

theorem quarter_arc : IsArc .ccw (0, 0) 5 (π / 2) (3, 4) (-4, 3) := by
  have hp := Real.pi_pos
  refine arc_of (by norm_num) (by linarith) (by linarith) (by norm_num) ?_ ?_ <;>
    rw [Real.cos_pi_div_two, Real.sin_pi_div_two] <;> simp [Sense.sgn]

theorem quarterBack_arc : IsArc .cw (0, 0) 5 (π / 2) (-4, 3) (3, 4) := by
  have hp := Real.pi_pos
  refine arc_of (by norm_num) (by linarith) (by linarith) (by norm_num) ?_ ?_ <;>
    rw [Real.cos_pi_div_two, Real.sin_pi_div_two] <;> simp [Sense.sgn]

theorem quarterTwice_arc : IsArc .ccw (0, 0) 10 (π / 2) (6, 8) (-8, 6) := by
  have hp := Real.pi_pos
  refine arc_of (by norm_num) (by linarith) (by linarith) (by norm_num) ?_ ?_ <;>
    rw [Real.cos_pi_div_two, Real.sin_pi_div_two] <;> simp [Sense.sgn]

theorem halfCircle_arc : IsArc .ccw (0, 0) 5 π (3, 4) (-3, -4) := by
  have hp := Real.pi_pos
  refine arc_of (by norm_num) (by linarith) (by linarith) (by norm_num) ?_ ?_ <;>
    rw [Real.cos_pi, Real.sin_pi] <;> simp [Sense.sgn]

theorem quarter_plain : NC.Spec.Sim.Plain quarter := by
  show ∀ d ∈ words quarter, PlainWord d
  unfold PlainWord
  decide +kernel

theorem quarter_leg : MakesLeg quarter (initial (millAt 3 4)) (evaluate RF (millAt 3 4) false 1 quarter (initial (millAt 3 4), [])).1.1 (some (.centre .ccw (0, 0) (3, 4) (-4, 3))) := by
  obtain ⟨-, h1, h2, h3, h4⟩ := quarter_run
  have hg : (initial (millAt 3 4)).g = 0 := by rw [initial_at]
  have hpl : (initial (millAt 3 4)).plane = .xy := by rw [initial_at]
  have hax : axesIn quarter (initial (millAt 3 4)) = planeAxes 17 := by
    unfold axesIn
    rw [hpl]
    congr 1
  have hc : motionCode quarter (initial (millAt 3 4)).g = 3 := by rw [hg]; decide +kernel
  have hA : ArcBlock quarter (initial (millAt 3 4)) (planeAxes 17) := by
    refine ⟨by rw [hc]; decide, Or.inl (by decide +kernel), ?_, ⟨?_, ?_⟩, by rw [initial_at]⟩ <;> simp [programmed, words, quarter, w, wn, planeAxes]
  refine ⟨by decide, by rw [hc]; rfl, by rw [hax]; exact hA, by simp [programmed, words, quarter, w, wn], ?_⟩
  rw [hax]
  exact ⟨(initial_pos _ _).1, (initial_pos _ _).2, h1, h2, h3.trans (by norm_num), h4.trans (by norm_num), _, _, quarter_arc⟩

theorem quarter_moves : MovesAlong (millAt 3 4) false [(1, quarter)] (initial (millAt 3 4), []) [.centre .ccw (0, 0) (3, 4) (-4, 3)] :=
  MovesAlong.step (1, quarter) [] _ (some _) [] quarter_plain quarter_leg (.done _)

theorem quarter_accepted : (Sml.run RF (millAt 3 4) false [(1, quarter)] (initial (millAt 3 4), [])).2 = .ok () := by
  unfold Sml.run
  rw [quarter_run.1]
  rfl

theorem quarterBack_plain : NC.Spec.Sim.Plain quarterBack := by
  show ∀ d ∈ words quarterBack, PlainWord d
  unfold PlainWord
  decide +kernel

theorem quarterBack_leg : MakesLeg quarterBack (initial (millAt (-4) 3)) (evaluate RF (millAt 3 4) false 1 quarterBack (initial (millAt (-4) 3), [])).1.1 (some (.centre .cw (0, 0) (-4, 3) (3, 4))) := by
  obtain ⟨-, h1, h2, h3, h4⟩ := quarterBack_run
  have hg : (initial (millAt (-4) 3)).g = 0 := by rw [initial_at]
  have hpl : (initial (millAt (-4) 3)).plane = .xy := by rw [initial_at]
  have hax : axesIn quarterBack (initial (millAt (-4) 3)) = planeAxes 17 := by
    unfold axesIn
    rw [hpl]
    congr 1
  have hc : motionCode quarterBack (initial (millAt (-4) 3)).g = 2 := by rw [hg]; decide +kernel
  have hA : ArcBlock quarterBack (initial (millAt (-4) 3)) (planeAxes 17) := by
    refine ⟨by rw [hc]; decide, Or.inl (by decide +kernel), ?_, ⟨?_, ?_⟩, by rw [initial_at]⟩ <;> simp [programmed, words, quarterBack, w, wn, planeAxes]
  refine ⟨by decide, by rw [hc]; rfl, by rw [hax]; exact hA, by simp [programmed, words, quarterBack, w, wn], ?_⟩
  rw [hax]
  exact ⟨(initial_pos _ _).1, (initial_pos _ _).2, h1, h2, h3.trans (by norm_num), h4.trans (by norm_num), _, _, quarterBack_arc⟩

theorem quarterBack_moves : MovesAlong (millAt 3 4) false [(1, quarterBack)] (initial (millAt (-4) 3), []) [.centre .cw (0, 0) (-4, 3) (3, 4)] :=
  MovesAlong.step (1, quarterBack) [] _ (some _) [] quarterBack_plain quarterBack_leg (.done _)

theorem quarterBack_accepted : (Sml.run RF (millAt 3 4) false [(1, quarterBack)] (initial (millAt (-4) 3), [])).2 = .ok () := by
  unfold Sml.run
  rw [quarterBack_run.1]
  rfl

theorem quarterTwice_plain : NC.Spec.Sim.Plain quarterTwice := by
  show ∀ d ∈ words quarterTwice, PlainWord d
  unfold PlainWord
  decide +kernel

theorem quarterTwice_leg : MakesLeg quarterTwice (initial (millAt 6 8)) (evaluate RF (millAt 3 4) false 1 quarterTwice (initial (millAt 6 8), [])).1.1 (some (.centre .ccw (0, 0) (6, 8) (-8, 6))) := by
  obtain ⟨-, h1, h2, h3, h4⟩ := quarterTwice_run
  have hg : (initial (millAt 6 8)).g = 0 := by rw [initial_at]
  have hpl : (initial (millAt 6 8)).plane = .xy := by rw [initial_at]
  have hax : axesIn quarterTwice (initial (millAt 6 8)) = planeAxes 17 := by
    unfold axesIn
    rw [hpl]
    congr 1
  have hc : motionCode quarterTwice (initial (millAt 6 8)).g = 3 := by rw [hg]; decide +kernel
  have hA : ArcBlock quarterTwice (initial (millAt 6 8)) (planeAxes 17) := by
    refine ⟨by rw [hc]; decide, Or.inl (by decide +kernel), ?_, ⟨?_, ?_⟩, by rw [initial_at]⟩ <;> simp [programmed, words, quarterTwice, w, wn, planeAxes]
  refine ⟨by decide, by rw [hc]; rfl, by rw [hax]; exact hA, by simp [programmed, words, quarterTwice, w, wn], ?_⟩
  rw [hax]
  exact ⟨(initial_pos _ _).1, (initial_pos _ _).2, h1, h2, h3.trans (by norm_num), h4.trans (by norm_num), _, _, quarterTwice_arc⟩

theorem quarterTwice_moves : MovesAlong (millAt 3 4) false [(1, quarterTwice)] (initial (millAt 6 8), []) [.centre .ccw (0, 0) (6, 8) (-8, 6)] :=
  MovesAlong.step (1, quarterTwice) [] _ (some _) [] quarterTwice_plain quarterTwice_leg (.done _)

theorem quarterTwice_accepted : (Sml.run RF (millAt 3 4) false [(1, quarterTwice)] (initial (millAt 6 8), [])).2 = .ok () := by
  unfold Sml.run
  rw [quarterTwice_run.1]
  rfl

theorem quarterTurned_plain : NC.Spec.Sim.Plain quarterTurned := by
  show ∀ d ∈ words quarterTurned, PlainWord d
  unfold PlainWord
  decide +kernel

theorem quarterTurned_leg : MakesLeg quarterTurned (initial (millAt (-4) 3)) (evaluate RF (millAt 3 4) false 1 quarterTurned (initial (millAt (-4) 3), [])).1.1 (some (.centre .ccw (0, 0) (-4, 3) (-3, -4))) := by
  obtain ⟨-, h1, h2, h3, h4⟩ := quarterTurned_run
  have hg : (initial (millAt (-4) 3)).g = 0 := by rw [initial_at]
  have hpl : (initial (millAt (-4) 3)).plane = .xy := by rw [initial_at]
  have hax : axesIn quarterTurned (initial (millAt (-4) 3)) = planeAxes 17 := by
    unfold axesIn
    rw [hpl]
    congr 1
  have hc : motionCode quarterTurned (initial (millAt (-4) 3)).g = 3 := by rw [hg]; decide +kernel
  have hA : ArcBlock quarterTurned (initial (millAt (-4) 3)) (planeAxes 17) := by
    refine ⟨by rw [hc]; decide, Or.inl (by decide +kernel), ?_, ⟨?_, ?_⟩, by rw [initial_at]⟩ <;> simp [programmed, words, quarterTurned, w, wn, planeAxes]
  refine ⟨by decide, by rw [hc]; rfl, by rw [hax]; exact hA, by simp [programmed, words, quarterTurned, w, wn], ?_⟩
  rw [hax]
  exact ⟨(initial_pos _ _).1, (initial_pos _ _).2, h1, h2, h3.trans (by norm_num), h4.trans (by norm_num), _, _, quarterTurned_arc⟩

theorem quarterTurned_moves : MovesAlong (millAt 3 4) false [(1, quarterTurned)] (initial (millAt (-4) 3), []) [.centre .ccw (0, 0) (-4, 3) (-3, -4)] :=
  MovesAlong.step (1, quarterTurned) [] _ (some _) [] quarterTurned_plain quarterTurned_leg (.done _)

theorem quarterTurned_accepted : (Sml.run RF (millAt 3 4) false [(1, quarterTurned)] (initial (millAt (-4) 3), [])).2 = .ok () := by
  unfold Sml.run
  rw [quarterTurned_run.1]
  rfl

theorem halfCircle_plain : NC.Spec.Sim.Plain halfCircle := by
  show ∀ d ∈ words halfCircle, PlainWord d
  unfold PlainWord
  decide +kernel

theorem halfCircle_leg : MakesLeg halfCircle (initial (millAt 3 4)) (evaluate RF (millAt 3 4) false 1 halfCircle (initial (millAt 3 4), [])).1.1 (some (.centre .ccw (0, 0) (3, 4) (-3, -4))) := by
  obtain ⟨-, h1, h2, h3, h4⟩ := halfCircle_run
  have hg : (initial (millAt 3 4)).g = 0 := by rw [initial_at]
  have hpl : (initial (millAt 3 4)).plane = .xy := by rw [initial_at]
  have hax : axesIn halfCircle (initial (millAt 3 4)) = planeAxes 17 := by
    unfold axesIn
    rw [hpl]
    congr 1
  have hc : motionCode halfCircle (initial (millAt 3 4)).g = 3 := by rw [hg]; decide +kernel
  have hA : ArcBlock halfCircle (initial (millAt 3 4)) (planeAxes 17) := by
    refine ⟨by rw [hc]; decide, Or.inl (by decide +kernel), ?_, ⟨?_, ?_⟩, by rw [initial_at]⟩ <;> simp [programmed, words, halfCircle, w, wn, planeAxes]
  refine ⟨by decide, by rw [hc]; rfl, by rw [hax]; exact hA, by simp [programmed, words, halfCircle, w, wn], ?_⟩
  rw [hax]
  exact ⟨(initial_pos _ _).1, (initial_pos _ _).2, h1, h2, h3.trans (by norm_num), h4.trans (by norm_num), _, _, halfCircle_arc⟩

theorem halfCircle_moves : MovesAlong (millAt 3 4) false [(1, halfCircle)] (initial (millAt 3 4), []) [.centre .ccw (0, 0) (3, 4) (-3, -4)] :=
  MovesAlong.step (1, halfCircle) [] _ (some _) [] halfCircle_plain halfCircle_leg (.done _)

theorem halfCircle_accepted : (Sml.run RF (millAt 3 4) false [(1, halfCircle)] (initial (millAt 3 4), [])).2 = .ok () := by
  unfold Sml.run
  rw [halfCircle_run.1]
  rfl

theorem quarterByRadius_plain : NC.Spec.Sim.Plain quarterByRadius := by
  show ∀ d ∈ words quarterByRadius, PlainWord d
  unfold PlainWord
  decide +kernel

theorem quarterByRadius_leg : MakesLeg quarterByRadius (initial (millAt 3 4)) (evaluate RF (millAt 3 4) false 1 quarterByRadius (initial (millAt 3 4), [])).1.1 (some (.radius 5 (3, 4) (-4, 3))) := by
  obtain ⟨-, h1, h2, h3⟩ := quarterByRadius_run
  have hg : (initial (millAt 3 4)).g = 0 := by rw [initial_at]
  have hpl : (initial (millAt 3 4)).plane = .xy := by rw [initial_at]
  have hax : axesIn quarterByRadius (initial (millAt 3 4)) = planeAxes 17 := by
    unfold axesIn
    rw [hpl]
    congr 1
  have hc : motionCode quarterByRadius (initial (millAt 3 4)).g = 3 := by rw [hg]; decide +kernel
  have hA : ArcBlock quarterByRadius (initial (millAt 3 4)) (planeAxes 17) := by
    refine ⟨by rw [hc]; decide, Or.inl (by decide +kernel), ?_, ⟨?_, ?_⟩, by rw [initial_at]⟩ <;> simp [programmed, words, quarterByRadius, w, wn, planeAxes]
  refine ⟨by decide, by rw [hax]; exact hA, ?_, ?_⟩
  · have : number { word := c!"R", value := some c!"5" } = some 5 := by decide +kernel
    simp [programmed, words, quarterByRadius, w, wn, value, this]
  · rw [hax]
    exact ⟨Or.inl (by simp [programmed, words, quarterByRadius, w, wn, planeAxes]), (initial_pos _ _).1, (initial_pos _ _).2, h1, h2⟩

theorem quarterByRadius_moves : MovesAlong (millAt 3 4) false [(1, quarterByRadius)] (initial (millAt 3 4), []) [.radius 5 (3, 4) (-4, 3)] :=
  MovesAlong.step (1, quarterByRadius) [] _ (some _) [] quarterByRadius_plain quarterByRadius_leg (.done _)

theorem quarterByRadius_accepted : (Sml.run RF (millAt 3 4) false [(1, quarterByRadius)] (initial (millAt 3 4), [])).2 = .ok () := by
  unfold Sml.run
  rw [quarterByRadius_run.1]
  rfl

/-- A state after the first quarter, whatever has been counted. -/
noncomputable def afterQuarter (pa : PathRes ℝ) (ti : TimeRes ℝ) : St ℝ where
  path := pa
  time := ti
  prev := [(c!"I", -3), (c!"J", -4), (c!"X", -4), (c!"Y", 3), (c!"Z", 10)]
  tPath := []
  tTime := []
  range := [(c!"I", ⟨-3, -3, -3⟩), (c!"J", ⟨-4, -4, -4⟩), (c!"X", ⟨-4, -4, 3⟩), (c!"Y", ⟨3, 3, 4⟩), (c!"Z", ⟨10, 10, 10⟩)]
  f := 100
  s := -1
  g := 3
  plane := .xy
  ret := .g98
  incr := false
  css := false
  perRev := false
  helix := .none
  tool := []
  autoRapid := false

theorem quarter_after : ∃ pa ti, (evaluate RF (millAt 3 4) false 1 quarter (initial (millAt 3 4), [])).1 = (afterQuarter pa ti, []) := by
  have h100 : ¬ ((100 : ℝ) < 0) := by norm_num
  unfold evaluate
  rw [if_neg (by decide), quarter_visit, initial_at]
  simp [evalVis, toolPart, toolOf, mTimes, gAfter, millAt, clearMotions, afterTool, startPart, dwell, Part.andThen, moveBlock, current, motion, circular,
    circularFrom, axesOf, arcStep, helixStep, helixStart, arc, setWork, account, checks, addTimes, addPath, saveModal, savePositions, atTool, atBase,
    cancelBy, cancelCycle, copySt, copyBack, copyOne, movesIncr, widen, finish, VMap.put, VMap.get, pos, h100, latheProg,
    kept0I, kept0J, kept0R, kept0X, kept0Y, kept0Z, kept2I, kept2J, kept2R, kept2X, kept2Y, kept2Z, kept3I, kept3J, kept3R, kept3X, kept3Y, kept3Z,
    ordIJ, ordIR, ordIX, ordIY, ordIZ, ordJI, ordJR, ordJX, ordJY, ordJZ, ordRI, ordRJ, ordRX, ordRY, ordRZ, ordXI, ordXJ, ordXR, ordXY, ordXZ, ordYI, ordYJ, ordYR, ordYX, ordYZ, ordZI, ordZJ, ordZR, ordZX, ordZY]
  norm_num [afterQuarter]

theorem quarterTurned_next (pa : PathRes ℝ) (ti : TimeRes ℝ) : let e := evaluate RF (millAt 3 4) false 2 quarterTurned (afterQuarter pa ti, [])
    e.2 = .ok () ∧ pos e.1.1 c!"X" = some (-3) ∧ pos e.1.1 c!"Y" = some (-4) ∧ pos e.1.1 c!"I" = some 4 ∧ pos e.1.1 c!"J" = some (-3) := by
  have h100 : ¬ ((100 : ℝ) < 0) := by norm_num
  dsimp only
  unfold evaluate afterQuarter
  rw [if_neg (by decide), quarterTurned_visit]
  simp [evalVis, toolPart, toolOf, mTimes, gAfter, millAt, clearMotions, afterTool, startPart, dwell, Part.andThen, moveBlock, current, motion, circular,
    circularFrom, axesOf, arcStep, helixStep, helixStart, arc, setWork, account, checks, addTimes, addPath, saveModal, savePositions, atTool, atBase,
    cancelBy, cancelCycle, copySt, copyBack, copyOne, movesIncr, widen, finish, VMap.put, VMap.get, pos, h100, latheProg,
    kept0I, kept0J, kept0R, kept0X, kept0Y, kept0Z, kept2I, kept2J, kept2R, kept2X, kept2Y, kept2Z, kept3I, kept3J, kept3R, kept3X, kept3Y, kept3Z,
    ordIJ, ordIR, ordIX, ordIY, ordIZ, ordJI, ordJR, ordJX, ordJY, ordJZ, ordRI, ordRJ, ordRX, ordRY, ordRZ, ordXI, ordXJ, ordXR, ordXY, ordXZ, ordYI, ordYJ, ordYR, ordYX, ordYZ, ordZI, ordZJ, ordZR, ordZX, ordZY]
  norm_num

theorem initial_empty (x y : ℝ) : Inv (initial (millAt x y)) ∧ (initial (millAt x y)).autoRapid = false ∧ (initial (millAt x y)).path.total = some 0 :=
  ⟨initial_inv (millAt_wf x y), by rw [initial_at], by rw [initial_at]; rfl⟩

/-- C128: there and back. -/
example : ∃ L, (Sml.run RF (millAt 3 4) false [(1, quarter)] (initial (millAt 3 4), [])).1.1.path.total = some (0 + L) ∧
    (Sml.run RF (millAt 3 4) false [(1, quarterBack)] (initial (millAt (-4) 3), [])).1.1.path.total = some (0 + L) :=
  C128_program (millAt_wf 3 4) (millAt_axes 3 4) rfl rfl false quarter_moves quarterBack_moves (initial_empty _ _).1 (initial_empty _ _).1
    (initial_empty _ _).2.1 (initial_empty _ _).2.1 (initial_empty _ _).2.2 (initial_empty _ _).2.2 quarter_accepted quarterBack_accepted

/-- C137: in twice the size. -/
example : ∃ L, (Sml.run RF (millAt 3 4) false [(1, quarter)] (initial (millAt 3 4), [])).1.1.path.total = some (0 + L) ∧
    (Sml.run RF (millAt 3 4) false [(1, quarterTwice)] (initial (millAt 6 8), [])).1.1.path.total = some (0 + 2 * L) := by
  refine C137_larger (millAt_wf 3 4) (millAt_axes 3 4) rfl rfl false (by norm_num) quarter_moves ?_ ?_ (initial_empty _ _).1 (initial_empty _ _).1
    (initial_empty _ _).2.1 (initial_empty _ _).2.1 (initial_empty _ _).2.2 (initial_empty _ _).2.2 quarter_accepted quarterTwice_accepted
  · have e : [Leg.centre .ccw (0, 0) (3, 4) (-4, 3)].map (Leg.scaledBy 2) = [.centre .ccw (0, 0) (6, 8) (-8, 6)] := by
      simp only [List.map_cons, List.map_nil, Leg.scaledBy, scaledTo]
      norm_num
    rw [e]
    exact quarterTwice_moves
  · intro m hm
    rw [List.mem_singleton.mp hm]
    refine ⟨Or.inr (Or.inl ?_), ?_⟩
    · dsimp only
      unfold tol
      norm_num
    · dsimp only
      rw [show ((3 : ℝ) - 0) ^ 2 + (4 - 0) ^ 2 = 5 ^ 2 by norm_num, Real.sqrt_sq (by norm_num)]
      unfold tol
      norm_num

/-- C140: by its radius. -/
example : (Sml.run RF (millAt 3 4) false [(1, quarterByRadius)] (initial (millAt 3 4), [])).1.1.path.total =
    (Sml.run RF (millAt 3 4) false [(1, quarter)] (initial (millAt 3 4), [])).1.1.path.total := by
  have hp := Real.pi_gt_three
  refine C140_program_partial (millAt_wf 3 4) (millAt_axes 3 4) rfl rfl false quarter_moves quarterByRadius_moves ?_ (initial_empty _ _).1
    (initial_empty _ _).1 (initial_empty _ _).2.1 (initial_empty _ _).2.1 (initial_empty _ _).2.2 (initial_empty _ _).2.2 quarter_accepted
    quarterByRadius_accepted
  refine .cons (Or.inr ⟨.ccw, (0, 0), 5, π / 2, (3, 4), (-4, 3), ⟨quarter_arc, by linarith, ?_, Or.inl ?_, rfl, ?_⟩, Or.inl (by linarith)⟩) .nil
  · unfold tol
    linarith
  · dsimp only
    unfold tol
    norm_num
  · rw [if_pos (by linarith)]

/-- C136: turned by a quarter. -/
theorem quarter_turning : ArcRun RF (millAt 3 4) false 1 quarter (initial (millAt 3 4), []) .ccw (3, 4) (-4, 3) (0, 0) := by
  obtain ⟨h0, h1, h2, h3, h4⟩ := quarter_run
  have hg : (initial (millAt 3 4)).g = 0 := by rw [initial_at]
  have hpl : (initial (millAt 3 4)).plane = .xy := by rw [initial_at]
  refine ⟨(initial_empty _ _).1, ?_, by decide, Or.inl (initial_empty _ _).2.1, ?_, ?_, by simp [programmed, words, quarter, w, wn], h0,
    (initial_pos _ _).1, (initial_pos _ _).2, h1, h2, h3.trans (by norm_num), h4.trans (by norm_num), ?_⟩
  · show ∀ d ∈ words quarter, PlainWord d
    unfold PlainWord
    decide +kernel
  · show planeCode quarter (planeNum (initial (millAt 3 4)).plane) = 17
    rw [hpl]
    decide +kernel
  · refine ⟨?_, Or.inl (by decide +kernel), ?_, ⟨?_, ?_⟩, by rw [initial_at]⟩
    · show motionCode quarter (initial (millAt 3 4)).g = 2 ∨ _
      rw [hg]
      decide +kernel
    all_goals simp [programmed, words, quarter, w, wn, planeAxes]
  · show motionCode quarter (initial (millAt 3 4)).g = 3
    rw [hg]
    decide +kernel

theorem quarterTurned_turning :
    ArcRun RF (millAt 3 4) false 1 quarterTurned (initial (millAt (-4) 3), []) .ccw (-4, 3) (-3, -4) (0, 0) := by
  obtain ⟨h0, h1, h2, h3, h4⟩ := quarterTurned_run
  have hg : (initial (millAt (-4) 3)).g = 0 := by rw [initial_at]
  have hpl : (initial (millAt (-4) 3)).plane = .xy := by rw [initial_at]
  refine ⟨(initial_empty _ _).1, ?_, by decide, Or.inl (initial_empty _ _).2.1, ?_, ?_, by simp [programmed, words, quarterTurned, w, wn], h0,
    (initial_pos _ _).1, (initial_pos _ _).2, h1, h2, h3.trans (by norm_num), h4.trans (by norm_num), ?_⟩
  · show ∀ d ∈ words quarterTurned, PlainWord d
    unfold PlainWord
    decide +kernel
  · show planeCode quarterTurned (planeNum (initial (millAt (-4) 3)).plane) = 17
    rw [hpl]
    decide +kernel
  · refine ⟨?_, Or.inl (by decide +kernel), ?_, ⟨?_, ?_⟩, by rw [initial_at]⟩
    · show motionCode quarterTurned (initial (millAt (-4) 3)).g = 2 ∨ _
      rw [hg]
      decide +kernel
    all_goals simp [programmed, words, quarterTurned, w, wn, planeAxes]
  · show motionCode quarterTurned (initial (millAt (-4) 3)).g = 3
    rw [hg]
    decide +kernel

example : (evaluate RF (millAt 3 4) false 1 quarterTurned (initial (millAt (-4) 3), [])).1.1.path.work =
    (evaluate RF (millAt 3 4) false 1 quarter (initial (millAt 3 4), [])).1.1.path.work := by
  have hp := Real.pi_gt_three
  have e (x y : ℝ) : turnedTo ((1 : ℤ) * (π / 2)) (0, 0) (x, y) = (-y, x) := by
    unfold turnedTo
    rw [Int.cast_one, one_mul, Real.cos_pi_div_two, Real.sin_pi_div_two]
    simp
  refine C136_quarters_partial (o := (0, 0)) (millAt_wf 3 4) (millAt_axes 3 4) rfl 1 quarter_turning ?_ quarter_arc ?_ (Or.inl ?_)
  · rw [e, e, e]
    convert quarterTurned_turning using 2
    simp
  · unfold tol
    linarith
  · dsimp only
    unfold tol
    norm_num

/-- C136, the same as programs. -/
example : ∃ L, (Sml.run RF (millAt 3 4) false [(1, quarter)] (initial (millAt 3 4), [])).1.1.path.total = some (0 + L) ∧
    (Sml.run RF (millAt 3 4) false [(1, quarterTurned)] (initial (millAt (-4) 3), [])).1.1.path.total = some (0 + L) := by
  refine C136_program_quarters (millAt_wf 3 4) (millAt_axes 3 4) rfl rfl false 1 (o := (0, 0)) quarter_moves ?_ (initial_empty _ _).1
    (initial_empty _ _).1 (initial_empty _ _).2.1 (initial_empty _ _).2.1 (initial_empty _ _).2.2 (initial_empty _ _).2.2 quarter_accepted
    quarterTurned_accepted
  have e (x y : ℝ) : turnedTo ((1 : ℤ) * (π / 2)) (0, 0) (x, y) = (-y, x) := by
    unfold turnedTo
    rw [Int.cast_one, one_mul, Real.cos_pi_div_two, Real.sin_pi_div_two]
    simp
  have e' : [Leg.centre .ccw (0, 0) (3, 4) (-4, 3)].map (Leg.turnedBy ((1 : ℤ) * (π / 2)) (0, 0)) = [.centre .ccw (0, 0) (-4, 3) (-3, -4)] := by
    simp only [List.map_cons, List.map_nil, Leg.turnedBy, e, neg_zero]
  rw [e']
  exact quarterTurned_moves

/-- C138: half a turn in two pieces. -/
theorem quarterTurned_leg_next (pa : PathRes ℝ) (ti : TimeRes ℝ) :
    MakesLeg quarterTurned (afterQuarter pa ti) (evaluate RF (millAt 3 4) false 2 quarterTurned (afterQuarter pa ti, [])).1.1
      (some (.centre .ccw (0, 0) (-4, 3) (-3, -4))) := by
  obtain ⟨-, h1, h2, h3, h4⟩ := quarterTurned_next pa ti
  have hax : axesIn quarterTurned (afterQuarter pa ti) = planeAxes 17 := by
    show planeAxes (planeCode quarterTurned 17) = _
    congr 1
  have hc : motionCode quarterTurned (afterQuarter pa ti).g = 3 := by
    show motionCode quarterTurned 3 = 3
    decide +kernel
  have hA : ArcBlock quarterTurned (afterQuarter pa ti) (planeAxes 17) := by
    refine ⟨by rw [hc]; decide, Or.inl (by decide +kernel), ?_, ⟨?_, ?_⟩, rfl⟩ <;> simp [programmed, words, quarterTurned, w, wn, planeAxes]
  refine ⟨by decide, by rw [hc]; rfl, by rw [hax]; exact hA, by simp [programmed, words, quarterTurned, w, wn], ?_⟩
  rw [hax]
  have hX : pos (afterQuarter pa ti) c!"X" = some (-4) := by simp [pos, VMap.get, afterQuarter]
  have hY : pos (afterQuarter pa ti) c!"Y" = some 3 := by simp [pos, VMap.get, afterQuarter]
  exact ⟨hX, hY, h1, h2, h3.trans (by norm_num), h4.trans (by norm_num), _, _, quarterTurned_arc⟩

theorem halfInPieces_moves : MovesAlong (millAt 3 4) false [(1, quarter), (2, quarterTurned)] (initial (millAt 3 4), [])
    ([] ++ piecesOf .ccw (0, 0) (3, 4) [(-4, 3), (-3, -4)] ++ []) := by
  obtain ⟨pa, ti, e⟩ := quarter_after
  refine MovesAlong.step (1, quarter) _ _ (some (.centre .ccw (0, 0) (3, 4) (-4, 3))) [.centre .ccw (0, 0) (-4, 3) (-3, -4)] quarter_plain quarter_leg ?_
  dsimp only
  rw [e]
  exact MovesAlong.step (2, quarterTurned) [] _ (some _) [] quarterTurned_plain (quarterTurned_leg_next pa ti) (.done _)

theorem halfInPieces_accepted : (Sml.run RF (millAt 3 4) false [(1, quarter), (2, quarterTurned)] (initial (millAt 3 4), [])).2 = .ok () := by
  obtain ⟨pa, ti, e⟩ := quarter_after
  unfold Sml.run
  rw [quarter_run.1]
  dsimp only
  rw [e]
  unfold Sml.run
  rw [(quarterTurned_next pa ti).1]
  rfl

example : (Sml.run RF (millAt 3 4) false [(1, quarter), (2, quarterTurned)] (initial (millAt 3 4), [])).1.1.path.total =
    (Sml.run RF (millAt 3 4) false [(1, halfCircle)] (initial (millAt 3 4), [])).1.1.path.total := by
  have hp := Real.pi_gt_three
  refine (C138_program_iff_partial (before := []) (after := []) (r := 5) (φ := π / 2 + π / 2) (millAt_wf 3 4) (millAt_axes 3 4) rfl rfl false
    halfCircle_moves halfInPieces_moves (.piece quarter_arc (by linarith) (.last quarterTurned_arc (by linarith))) rfl (by linarith) ?_ ?_
    (Or.inr (Or.inl ?_)) (initial_empty _ _).1 (initial_empty _ _).1 (initial_empty _ _).2.1 (initial_empty _ _).2.1 (initial_empty _ _).2.2
    (initial_empty _ _).2.2 halfCircle_accepted halfInPieces_accepted).mpr (Or.inl (by linarith))
  · unfold tol
    linarith
  · refine ⟨Or.inl ?_, Or.inr ?_, trivial⟩ <;> dsimp only <;> unfold tol <;> norm_num
  · dsimp only
    unfold tol
    norm_num

/-- The quarter turn is counted with its length. -/
example : (Sml.run RF (millAt 3 4) false [(1, quarter)] (initial (millAt 3 4), [])).1.1.path.total = some (5 * (π / 2)) := by
  have hp := Real.pi_gt_three
  rw [(moves_total (millAt_wf 3 4) (millAt_axes 3 4) rfl rfl false quarter_moves (initial_empty _ _).1 (initial_empty _ _).2.1 (initial_empty _ _).2.2
    quarter_accepted).1]
  have hb : BothWays .ccw (0, 0) 5 (π / 2) (3, 4) (-4, 3) (.centre .ccw (0, 0) (3, 4) (-4, 3)) (.radius 5 (3, 4) (-4, 3)) := by
    refine ⟨quarter_arc, by linarith, ?_, Or.inl ?_, rfl, by rw [if_pos (by linarith)]⟩
    · unfold tol
      linarith
    · dsimp only
      unfold tol
      norm_num
  rw [List.map_cons, List.map_nil, List.sum_cons, List.sum_nil, hb.len_iff.mpr (Or.inl (by linarith)), hb.radius_len, zero_add, add_zero]

end NC.Props.RealRuns
