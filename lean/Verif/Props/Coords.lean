import Verif.SimCoords
import Verif.SimDemo
import Verif.Props.Similar

/-!
# C118: distances and coordinates
-/

namespace NC.Cds
open NC NC.Path NC.Ver NC.AttrPath NC.Spec.Sim NC.Props
open NC.Spec.Similar (threeAxes)

section
variable {K : Type} [Field K] [LinearOrder K] [IsStrictOrderedRing K] [FloorRing K]

theorem initial_ab {c : Cfg K} (hw : VMap.Sorted c.base) : initial { c with incr := false } = ab (initial c) := by
  cases hi : c.incr with
  | false =>
    obtain ⟨⟩ := c
    subst hi
    rfl
  | true =>
    unfold initial
    dsimp only
    rw [hi]
    unfold copySt
    dsimp only
    rw [Mvd.copyBack_fresh _ [] hw _ (by intro x _; rfl)]
    rfl

/-- A program by coordinates: every block is written with the place the tool comes from when the program by distances is simulated. -/
inductive Rewritten (F : Fns K) (c : Cfg K) (inch : Inch) : St K × MacroMap ℚ → Prog → Prog → Prop
  | nil (p : St K × MacroMap ℚ) : Rewritten F c inch p [] []
  | cons (p : St K × MacroMap ℚ) (line : Int) (b b' : Block) (q q' : Prog) :
      Spec.Coords.Blocks (pos p.1) (incremental b p.1.incr) p.1.g b b' →
      ((evaluate F c inch line b p).2 = .ok () → Rewritten F c inch (evaluate F c inch line b p).1 q q') →
      Rewritten F c inch p ((line, b) :: q) ((line, b') :: q')

theorem program_ab (F : Fns K) {c : Cfg K} (hw : WF c) (hc : AxesOk c) (inch : Inch) {p : St K × MacroMap ℚ} {q q' : Prog}
    (hq : Rewritten F c inch p q q') (i : Inv p.1) (hp : Placed p.1) (hh : p.1.helix = .none) :
    Sml.run F c inch q' (ab p.1, p.2) =
      ((ab (Sml.run F c inch q p).1.1, (Sml.run F c inch q p).1.2), (Sml.run F c inch q p).2) := by
  induction hq with
  | nil p => rfl
  | cons p line b b' q q' hb _ ih =>
    have he := evaluate_ab F hc inch line p hb i hp hh
    unfold Sml.run
    dsimp only
    rw [he]
    dsimp only
    cases ho : (evaluate F c inch line b p).2 with
    | throw e => rfl
    | ub => rfl
    | ok u =>
      dsimp only
      refine ih ho (evaluate_inv F hw inch line b p i) (evaluate_placed F c inch line b p i hp) ?_
      refine (eval_quiet hc (evaluate_eval F c inch line b p) hh ?_).1
      intro h23
      obtain ⟨a, h1, h2⟩ := hb.flat h23
      exact ⟨a, h1, (Mvd.programmed_none b _).mpr h2⟩

theorem run_start (F : Fns K) {c : Cfg K} (inch : Inch) (q : Prog) (p : St K × MacroMap ℚ) :
    Sml.run F { c with incr := false } inch q p = Sml.run F c inch q p := by
  induction q generalizing p with
  | nil => rfl
  | cons x t ih =>
    unfold Sml.run
    rw [evaluate_start]
    cases (evaluate F c inch x.1 x.2 p).2 with
    | ok u => exact ih _
    | throw e => rfl
    | ub => rfl

end
end NC.Cds

namespace NC.Props
open NC NC.Path NC.Ver NC.AttrPath NC.Spec.Sim NC.Cds
open NC.Spec.Similar (threeAxes)

section
variable {K : Type} [Field K] [LinearOrder K] [IsStrictOrderedRing K] [FloorRing K]

/-- **C118, a block.** A block by distances and the same block by coordinates are accepted or refused alike, with the same
message, and leave everything the simulation knows the same (positions, bounds, lengths, times, totals of the tools, modes and
variables), but that coordinates are in force.  This holds for straight moves, arcs in the plane, dwells, tool exchanges and
returns to the base point, on mills and lathes, and for cycles by coordinates.  (`_partial`: helices, cycles by distances and a tool
beside G91 are left out; see the violations below.) -/
theorem C118_block_partial (F : Fns K) {c : Cfg K} (hc : AxesOk c) (inch : Inch) (line : Int) {b b' : Block} (s : St K) (m : MacroMap ℚ)
    (hb : Spec.Coords.Blocks (pos s) (incremental b s.incr) s.g b b') (i : Inv s) (hp : Placed s) (hh : s.helix = .none) :
    let x := evaluate F c inch line b (s, m)
    let x' := evaluate F c inch line b' ({ s with incr := false }, m)
    x'.2 = x.2 ∧ x'.1.2 = x.1.2 ∧ x'.1.1 = { x.1.1 with incr := false } := by
  intro x x'
  have hx : x' = ((ab x.1.1, x.1.2), x.2) := evaluate_ab F hc inch line (s, m) hb i hp hh
  rw [hx]
  exact ⟨rfl, rfl, rfl⟩

/-- **C118, a program.** The program by coordinates stops at the same block with the same message or not at all, and in the end
everything is the same.  Prefixes show the same for every block in between.  (`_partial` as for a block.) -/
theorem C118_program_partial (F : Fns K) {c : Cfg K} (hw : WF c) (hc : AxesOk c) (inch : Inch) {q q' : Prog} (s : St K) (m : MacroMap ℚ)
    (hq : Rewritten F c inch (s, m) q q') (i : Inv s) (hp : Placed s) (hh : s.helix = .none) :
    let x := Sml.run F c inch q (s, m)
    let x' := Sml.run F c inch q' ({ s with incr := false }, m)
    x'.2 = x.2 ∧ x'.1.2 = x.1.2 ∧ x'.1.1 = { x.1.1 with incr := false } := by
  intro x x'
  have hx : x' = ((ab x.1.1, x.1.2), x.2) := program_ab F hw hc inch hq i hp hh
  rw [hx]
  exact ⟨rfl, rfl, rfl⟩

/-- **C118, from the start.** The same for the whole simulation, the program by coordinates on a machine that starts in G90.
(`_partial` as for a block.) -/
theorem C118_start_partial (F : Fns K) {c : Cfg K} (hw : WF c) (hc : AxesOk c) (hx : ∀ a ∈ threeAxes, c.base.get a ≠ none) (inch : Inch)
    {q q' : Prog} (m : MacroMap ℚ) (hq : Rewritten F c inch (initial c, m) q q') :
    let x := Sml.run F c inch q (initial c, m)
    let x' := Sml.run F { c with incr := false } inch q' (initial { c with incr := false }, m)
    x'.2 = x.2 ∧ x'.1.2 = x.1.2 ∧ x'.1.1 = { x.1.1 with incr := false } := by
  intro x x'
  have hx : x' = ((ab x.1.1, x.1.2), x.2) := by
    show Sml.run F { c with incr := false } inch q' (initial { c with incr := false }, m) = _
    rw [initial_ab hw.base, run_start]
    exact program_ab F hw hc inch hq (initial_inv hw) (initial_placed hw hx) rfl
  rw [hx]
  exact ⟨rfl, rfl, rfl⟩

end

section
open NC.SimDemo

/-- A part by distances: a straight move, a quarter of a circle, and a move of two axes. -/
def byDistances : Prog :=
  [(1, [w c!"G" c!"0", w c!"X" c!"5", w c!"Y" c!"5", w c!"Z" c!"1"]),
   (2, [w c!"G" c!"91", w c!"G" c!"1", w c!"X" c!"10", w c!"F" c!"100"]),
   (3, [w c!"G" c!"3", w c!"X" c!"10", w c!"Y" c!"10", w c!"I" c!"0", w c!"J" c!"10"]),
   (4, [w c!"G" c!"1", w c!"X" c!"3", wn c!"Y" c!"4"])]

/-- The same part by coordinates. -/
def byCoordinates : Prog :=
  [(1, [w c!"G" c!"0", w c!"X" c!"5", w c!"Y" c!"5", w c!"Z" c!"1"]),
   (2, [w c!"G" c!"90", w c!"G" c!"1", w c!"X" c!"15", w c!"F" c!"100"]),
   (3, [w c!"G" c!"3", w c!"X" c!"25", w c!"Y" c!"15", w c!"I" c!"0", w c!"J" c!"10"]),
   (4, [w c!"G" c!"1", w c!"X" c!"28", w c!"Y" c!"11"])]

/-- Words that stay. -/
theorem kept_word {p : Pos ℚ} {incr : Bool} {a v : Str} (h : a ∉ threeAxes) (h91 : a = c!"G" → code { word := a, value := some v : Dec } ≠ some 91) :
    Spec.Coords.Word p incr (w a v) (w a v) :=
  .same _ (by rintro ⟨d, h1, h2, _⟩; cases h1; exact h h2) (by rintro ⟨d, h1, h2, h3⟩; cases h1; exact h91 h2 h3)

/-- The hypotheses hold for the part. -/
example : Rewritten qf mill false (initial mill, []) byDistances byCoordinates := by
  have noDwell : ∀ b : Block, ((words b).all fun d => !(d.word == c!"G" && code d == some 4)) = true → ¬ Spec.Moved.Dwell b := by
    rintro b hb ⟨d, h1, h2, h3⟩
    have := List.all_eq_true.mp hb d h1
    rw [h2, h3] at this
    revert this; decide
  have noTool : ∀ b : Block, ((words b).all fun d => !(d.word == c!"T")) = true →
      (∃ d ∈ words b, d.word = c!"T") → ∀ d ∈ words b, ¬ (d.word = c!"G" ∧ code d = some 91) := by
    rintro b hb ⟨d, h1, h2⟩
    have := List.all_eq_true.mp hb d h1
    rw [h2] at this
    exact absurd this (by decide)
  refine .cons _ _ _ _ _ _ ⟨?_, fun _ h => absurd h (noDwell _ (by decide)), by decide +kernel, by decide +kernel, noTool _ (by decide)⟩ fun _ =>
    .cons _ _ _ _ _ _ ⟨?_, fun _ h => absurd h (noDwell _ (by decide)), by decide +kernel, by decide +kernel, noTool _ (by decide)⟩ fun _ =>
    .cons _ _ _ _ _ _ ⟨?_, fun _ h => absurd h (noDwell _ (by decide)), by decide +kernel, by decide +kernel, noTool _ (by decide)⟩ fun _ =>
    .cons _ _ _ _ _ _ ⟨?_, fun _ h => absurd h (noDwell _ (by decide)), by decide +kernel, by decide +kernel, noTool _ (by decide)⟩ fun _ =>
    .nil _
  · exact .cons (kept_word (by decide) (by decide))
      (.cons (.axis _ _ 5 0 (by decide) rfl (by decide +kernel) (by decide +kernel) (by decide +kernel))
      (.cons (.axis _ _ 5 0 (by decide) rfl (by decide +kernel) (by decide +kernel) (by decide +kernel))
      (.cons (.axis _ _ 1 10 (by decide) rfl (by decide +kernel) (by decide +kernel) (by decide +kernel)) .nil)))
  · exact .cons (.mode _ _ rfl (by decide) rfl (by decide)) (.cons (kept_word (by decide) (by decide))
      (.cons (.axis _ _ 10 5 (by decide) rfl (by decide +kernel) (by decide +kernel) (by decide +kernel))
      (.cons (kept_word (by decide) (by decide)) .nil)))
  · exact .cons (kept_word (by decide) (by decide))
      (.cons (.axis _ _ 10 15 (by decide) rfl (by decide +kernel) (by decide +kernel) (by decide +kernel))
      (.cons (.axis _ _ 10 5 (by decide) rfl (by decide +kernel) (by decide +kernel) (by decide +kernel))
      (.cons (kept_word (by decide) (by decide)) (.cons (kept_word (by decide) (by decide)) .nil))))
  · exact .cons (kept_word (by decide) (by decide))
      (.cons (.axis _ _ 3 25 (by decide) rfl (by decide +kernel) (by decide +kernel) (by decide +kernel))
      (.cons (.axis _ _ (-4) 15 (by decide) rfl (by decide +kernel) (by decide +kernel) (by decide +kernel)) .nil))

/-- And it is simulated without error. -/
example : (Sml.run qf mill false byDistances (initial mill, [])).2 = .ok () := by decide +kernel

/-- The path of the last block of a program. -/
def pathAfter (q : List Block) : Fl ℚ × Fl ℚ := ((SimDemo.run mill q (start mill)).1.path.work, (SimDemo.run mill q (start mill)).1.path.fast)

/-- **C118 is violated by tapping with G99.** From Z10 over R2 to Z-5 there are 18 of rapid moves; the same hole by distances, R 8 below
the start and Z 7 below R, has 10 (PathCalculator.cpp:668-681). -/
theorem C118_violated_tapping :
    pathAfter [[w c!"G" c!"0", w c!"X" c!"0", w c!"Y" c!"0", w c!"Z" c!"10"],
      [w c!"G" c!"90", w c!"G" c!"99", w c!"G" c!"84", w c!"X" c!"10", w c!"Y" c!"0", wn c!"Z" c!"5", w c!"R" c!"2", w c!"F" c!"100"]] = (some 14, some 18) ∧
    pathAfter [[w c!"G" c!"0", w c!"X" c!"0", w c!"Y" c!"0", w c!"Z" c!"10"],
      [w c!"G" c!"91", w c!"G" c!"99", w c!"G" c!"84", w c!"X" c!"10", w c!"Y" c!"0", wn c!"Z" c!"7", wn c!"R" c!"8", w c!"F" c!"100"]] = (some 14, some 10) := by
  decide +kernel

/-- **C118 is violated by peck drilling G73.** The same hole, in pecks of 2, has 33 of rapid moves by coordinates, in which the
retracts between the pecks are missing, and 34.2 by distances (PathCalculator.cpp:555-599, 712-745). -/
theorem C118_violated_pecks :
    pathAfter [[w c!"G" c!"0", w c!"X" c!"0", w c!"Y" c!"0", w c!"Z" c!"10"],
      [w c!"G" c!"90", w c!"G" c!"98", w c!"G" c!"73", w c!"X" c!"10", w c!"Y" c!"0", wn c!"Z" c!"5", w c!"R" c!"2", w c!"Q" c!"2", w c!"F" c!"100"]] = (some (41 / 5), some 33) ∧
    pathAfter [[w c!"G" c!"0", w c!"X" c!"0", w c!"Y" c!"0", w c!"Z" c!"10"],
      [w c!"G" c!"91", w c!"G" c!"98", w c!"G" c!"73", w c!"X" c!"10", w c!"Y" c!"0", wn c!"Z" c!"7", wn c!"R" c!"8", w c!"Q" c!"2", w c!"F" c!"100"]] = (some (41 / 5), some (171 / 5)) := by
  decide +kernel

/-- **C118 is violated by a helix.** A helix by distances from X16 Y16 to X32 Y32 is a whole turn, since the distances are compared with
the coordinates; by coordinates it is not (AttributesPathCalculator.cpp:933). -/
theorem C118_violated_helix :
    pathAfter [[w c!"G" c!"0", w c!"X" c!"16", w c!"Y" c!"16", w c!"Z" c!"0"],
      [w c!"G" c!"91", w c!"G" c!"2", w c!"X" c!"16", w c!"Y" c!"16", wn c!"Z" c!"3", w c!"R" c!"16", w c!"F" c!"100"]] ≠
    pathAfter [[w c!"G" c!"0", w c!"X" c!"16", w c!"Y" c!"16", w c!"Z" c!"0"],
      [w c!"G" c!"90", w c!"G" c!"2", w c!"X" c!"32", w c!"Y" c!"32", wn c!"Z" c!"3", w c!"R" c!"16", w c!"F" c!"100"]] := by
  decide +kernel

end
end NC.Props
