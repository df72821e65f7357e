import Verif.SimRepeat
import Verif.SimDemo
import Verif.Props.Similar

/-!
# C119: words that repeat what is in force
-/

namespace NC.Props
open NC NC.Path NC.Ver NC.AttrPath NC.Spec.Sim NC.Rpt
open NC.Spec.Repeat (Repeats Padded)

section
variable {K : Type} [Field K] [LinearOrder K] [FloorRing K]

/-- A program in which words that repeat what is in force are put in. -/
inductive Restated (F : Fns K) (c : Cfg K) (inch : Inch) : St K × MacroMap ℚ → Prog → Prog → Prop
  | nil (p : St K × MacroMap ℚ) : Restated F c inch p [] []
  | cons (p : St K × MacroMap ℚ) (line : Int) (b b' : Block) (q q' : Prog) :
      b' = b ∨ Spec.Repeat.Blocks (modalOf p.1) c.axes p.1.autoRapid b b' →
      ((evaluate F c inch line b p).2 = .ok () → Restated F c inch (evaluate F c inch line b p).1 q q') →
      Restated F c inch p ((line, b) :: q) ((line, b') :: q')

/-- **C119, a block.** A block with words that repeat what is in force (motions, planes, G90 and G91, G94 to G99, feed, speed) gives the same
result, message, variables and state as the block without them, in every state and on every machine.  (`_partial`: not for a motion beside
a tool exchange, a return to the base point or pending rapid positioning, for arcs and cycles without any value, nor for G codes beside a
T word; see the violations below.) -/
theorem C119_block_partial (F : Fns K) {c : Cfg K} (hc : AxesOk c) (inch : Inch) (line : Int) {b b' : Block} (s : St K) (m : MacroMap ℚ)
    (hb : Spec.Repeat.Blocks (modalOf s) c.axes s.autoRapid b b') :
    evaluate F c inch line b' (s, m) = evaluate F c inch line b (s, m) :=
  evaluate_rep F hc inch line (s, m) hb

end

section
variable {K : Type} [Field K] [LinearOrder K] [IsStrictOrderedRing K] [FloorRing K]

/-- **C119, a program.** The same for programs: whether in every block what is in force is repeated, or nowhere, makes no difference.
(`_partial` as for a block.) -/
theorem C119_program_partial (F : Fns K) {c : Cfg K} (hc : AxesOk c) (inch : Inch) {q q' : Prog} (p : St K × MacroMap ℚ)
    (hq : Restated F c inch p q q') : Sml.run F c inch q' p = Sml.run F c inch q p := by
  induction hq with
  | nil p => rfl
  | cons p line b b' q q' hb _ ih =>
    have he : evaluate F c inch line b' p = evaluate F c inch line b p := by
      rcases hb with rfl | hb
      · rfl
      · exact evaluate_rep F hc inch line p hb
    unfold Sml.run
    dsimp only
    rw [he]
    cases ho : (evaluate F c inch line b p).2 with
    | throw e => rfl
    | ub => rfl
    | ok u => exact ih ho

end

section
open NC.SimDemo

/-- A path with a corner, and a hole. -/
def terse : Prog :=
  [(1, [w c!"G" c!"1", w c!"X" c!"10", w c!"F" c!"100"]),
   (2, [w c!"Y" c!"10"]),
   (3, [w c!"G" c!"81", w c!"X" c!"5", wn c!"Z" c!"5", w c!"R" c!"2"]),
   (4, [w c!"X" c!"20"])]

/-- The same with everything said again. -/
def wordy : Prog :=
  [(1, [w c!"G" c!"1", w c!"G" c!"17", w c!"X" c!"10", w c!"F" c!"100"]),
   (2, [w c!"G" c!"1", w c!"Y" c!"10", w c!"F" c!"100"]),
   (3, [w c!"G" c!"81", w c!"G" c!"98", w c!"X" c!"5", wn c!"Z" c!"5", w c!"R" c!"2"]),
   (4, [w c!"G" c!"81", w c!"G" c!"90", w c!"X" c!"20"])]

/-- The hypotheses hold for the path and the hole. -/
example : Restated qf mill false (initial mill, []) terse wordy := by
  have noTool : ∀ b b' : Block, ((words b).all fun d => !(d.word == c!"T")) = true → (∃ d ∈ words b, d.word = c!"T") →
      ∀ k, groupCodes k b' = groupCodes k b := by
    rintro b b' hb ⟨d, h1, h2⟩
    have := List.all_eq_true.mp hb d h1
    rw [h2] at this
    exact absurd this (by decide)
  have none6 : ∀ b : Block, ((words b).all fun d => !(d.word == c!"M")) = true → ∀ d ∈ words b, ¬ (d.word = c!"M" ∧ code d = some 6) := by
    rintro b hb d h1 ⟨h2, _⟩
    have := List.all_eq_true.mp hb d h1
    rw [h2] at this
    exact absurd this (by decide)
  have none28 : ∀ b : Block, ((words b).all fun d => code d != some 28) = true → ∀ d ∈ words b, ¬ (d.word = c!"G" ∧ code d = some 28) := by
    rintro b hb d h1 ⟨_, h2⟩
    have := List.all_eq_true.mp hb d h1
    rw [h2] at this
    exact absurd this (by decide)
  refine .cons _ _ _ _ _ _ (Or.inr ⟨?_, by decide, noTool _ _ (by decide), fun _ => none6 _ (by decide), fun _ => none28 _ (by decide),
      fun h => absurd (by decide +kernel) h, fun h => absurd (by decide +kernel) h⟩) fun _ =>
    .cons _ _ _ _ _ _ (Or.inr ⟨?_, by decide, noTool _ _ (by decide), fun _ => none6 _ (by decide), fun _ => none28 _ (by decide),
      fun _ h => absurd h (by decide +kernel), fun _ h => absurd h (by decide +kernel)⟩) fun _ =>
    .cons _ _ _ _ _ _ (Or.inr ⟨?_, by decide, noTool _ _ (by decide), fun _ => none6 _ (by decide), fun _ => none28 _ (by decide),
      fun h => absurd (by decide +kernel) h, fun h => absurd (by decide +kernel) h⟩) fun _ =>
    .cons _ _ _ _ _ _ (Or.inr ⟨?_, by decide, noTool _ _ (by decide), fun _ => none6 _ (by decide), fun _ => none28 _ (by decide),
      fun _ h => absurd h (by decide +kernel), fun _ _ => ⟨c!"X", by decide, by decide +kernel⟩⟩) fun _ =>
    .nil _
  · exact .same _ (.add _ (.code 17 2 rfl (by decide) (by decide) (by decide +kernel) (by decide)) (.same _ (.same _ .nil)))
  · exact .add _ (.code 1 1 rfl (by decide) (by decide) (by decide +kernel) (by decide))
      (.same _ (.add _ (.feed 100 rfl (by decide +kernel) (by decide +kernel) (by decide)) .nil))
  · exact .same _ (.add _ (.code 98 10 rfl (by decide) (by decide) (by decide +kernel) (by decide)) (.same _ (.same _ (.same _ .nil))))
  · exact .add _ (.code 81 1 rfl (by decide) (by decide) (by decide +kernel) (by decide))
      (.add _ (.code 90 3 rfl (by decide) (by decide) (by decide +kernel) (by decide)) (.same _ .nil))

/-- And it is simulated without error. -/
example : (Sml.run qf mill false terse (initial mill, [])).2 = .ok () := by decide +kernel

/-- **C119 is violated by a return to the base point.** While G1 is in force G28 is a rapid move of 10; G1 G28 is counted as a cut of 10
(AttributesPathCalculator.cpp:591-596, 635). -/
theorem C119_violated_home :
    let s := (SimDemo.run mill [[w c!"G" c!"1", w c!"X" c!"10", w c!"F" c!"100"]] (start mill))
    ((evaluate qf mill false 2 [w c!"G" c!"28", w c!"X" c!"0"] s).1.1.path.fast = some 10 ∧
     (evaluate qf mill false 2 [w c!"G" c!"28", w c!"X" c!"0"] s).1.1.path.work = some 0) ∧
    (evaluate qf mill false 2 [w c!"G" c!"1", w c!"G" c!"28", w c!"X" c!"0"] s).1.1.path.fast = some 0 ∧
    (evaluate qf mill false 2 [w c!"G" c!"1", w c!"G" c!"28", w c!"X" c!"0"] s).1.1.path.work = some 10 := by
  decide +kernel

/-- **C119 is violated by an arc without values.** While G2 is in force a block with F alone is accepted; with G2 again it is refused
(AttributesPathCalculator.cpp:738-742). -/
theorem C119_violated_arc :
    let s := (SimDemo.run mill [[w c!"G" c!"2", w c!"X" c!"10", w c!"R" c!"5", w c!"F" c!"100"]] (start mill))
    s.1.g = 2 ∧ (evaluate qf mill false 2 [w c!"F" c!"50"] s).2 = .ok () ∧
    (evaluate qf mill false 2 [w c!"G" c!"2", w c!"F" c!"50"] s).2 ≠ .ok () := by
  decide +kernel

/-- **C119 is violated by a T word.** T1 prepares a tool; with G17, which is in force, it is refused
(AttributesPathCalculator.cpp:553-567). -/
theorem C119_violated_tool :
    (evaluate qf mill false 1 [w c!"T" c!"1"] (start mill)).2 = .ok () ∧ (initial mill).plane = .xy ∧
    (evaluate qf mill false 1 [w c!"T" c!"1", w c!"G" c!"17"] (start mill)).2 ≠ .ok () := by
  decide +kernel

/-- **C119 is violated after a tool exchange with rapid positioning.** G1 is in force and Y20 is a rapid move of 20; G1 Y20 is a cut of 20
(AttributesPathCalculator.cpp:586-601). -/
theorem C119_violated_pending :
    let c : Cfg ℚ := { mill with autoRapid := true }
    let s := SimDemo.run c [[w c!"T" c!"1", w c!"M" c!"6"], [w c!"G" c!"1", w c!"F" c!"100"]] (start c)
    s.1.g = 1 ∧
    ((evaluate qf c false 3 [w c!"Y" c!"20"] s).1.1.path.fast = some 20 ∧
     (evaluate qf c false 3 [w c!"Y" c!"20"] s).1.1.path.work = some 0) ∧
    (evaluate qf c false 3 [w c!"G" c!"1", w c!"Y" c!"20"] s).1.1.path.fast = some 0 ∧
    (evaluate qf c false 3 [w c!"G" c!"1", w c!"Y" c!"20"] s).1.1.path.work = some 20 := by
  decide +kernel

end
end NC.Props
