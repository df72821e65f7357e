import Verif.Props.SimTotals
import Verif.Props.SimMono
import Verif.SimDemo

/-!
# Properties of the simulation of blocks: cases and violations

Concrete cases for the theorems of `Props.Sim`, `Props.SimTotals` and `Props.SimMono`, and the negations of
what the code does not do.
-/

namespace NC.Props
open NC NC.Path NC.Ver NC.AttrPath NC.Spec.Sim NC.SimDemo

theorem mill_wf : WF mill := by
  refine ⟨?_, ?_, by decide⟩ <;> (unfold VMap.Sorted; decide)

theorem mill_axes : AxesOk mill := by unfold AxesOk; decide

/-! ## C25 -/

/-- A program for the examples: an arc start, an incremental move, a failing block, a tool exchange. -/
def sample : Prog :=
  [(1, [w c!"G" c!"1", w c!"X" c!"3", w c!"Y" c!"4", w c!"F" c!"100"]),
   (2, [w c!"G" c!"91", wn c!"X" c!"9", w c!"Y" c!"12", w c!"Z" c!"8"]),
   (3, [w c!"G" c!"2", w c!"X" c!"1"]),
   (4, [w c!"T" c!"1", w c!"M" c!"6"])]

/-- `C25_history`: X has been 0, 3, -6 and 0 again. -/
example : (final qf mill false sample (start mill)).1.range.get c!"X" = some { lo := -6, cur := 0, hi := 3 } ∧
    (history qf mill false sample (start mill)).filterMap (fun s => pos s c!"X") = [0, 3, -6, -6, 0] := by
  decide +kernel

/-- `C25_failed`: an arc without centre and radius is refused. -/
example : (evaluate qf mill false 1 [w c!"G" c!"2", w c!"X" c!"1"] (start mill)).2 ≠ .ok () := by decide +kernel

/-- `C25_position`. -/
example : Inv (start mill).1 ∧ Plain [w c!"G" c!"91", w c!"X" c!"3", w c!"Y" c!"4"] ∧
    (evaluate qf mill false 1 [w c!"G" c!"91", w c!"X" c!"3", w c!"Y" c!"4"] (start mill)).2 = .ok () ∧
    c!"X" ∈ gcodeParams mill ∧
    pos (evaluate qf mill false 1 [w c!"G" c!"91", w c!"X" c!"3", w c!"Y" c!"4"] (start mill)).1.1 c!"X" = some 3 := by
  refine ⟨initial_inv mill_wf, ?_, by decide +kernel, by decide, by decide +kernel⟩
  intro d hd
  simp [words, w] at hd
  rcases hd with rfl | rfl | rfl
  · exact ⟨by decide, by decide, fun _ => ⟨91, by decide, by decide +kernel⟩⟩
  · exact ⟨by decide, by decide, fun h => absurd h (by decide)⟩
  · exact ⟨by decide, by decide, fun h => absurd h (by decide)⟩

/-- `C25_exchange`: after the tool exchange Z is at 50. -/
example : (evaluate qf mill false 1 [w c!"T" c!"1", w c!"M" c!"6"] (start mill)).2 = .ok () ∧
    pos (evaluate qf mill false 1 [w c!"T" c!"1", w c!"M" c!"6"] (start mill)).1.1 c!"Z" = some 50 ∧
    Exchange [w c!"T" c!"1", w c!"M" c!"6"] := by
  refine ⟨by decide +kernel, by decide +kernel, ⟨{ word := c!"M", value := some c!"6" }, ?_, rfl, ?_, rfl, rfl⟩⟩
  · simp [words, w]
  · decide +kernel

/-- `C25_home`: after G28 X is at the base point again. -/
example : (run mill [[w c!"X" c!"3", w c!"Y" c!"4"], [w c!"G" c!"28", w c!"X" c!"7"]] (start mill)).1.range.get c!"X" =
      some { lo := 0, cur := 0, hi := 3 } ∧
    Home [w c!"G" c!"28", w c!"X" c!"7"] := by
  refine ⟨by decide +kernel, ⟨{ word := c!"G", value := some c!"28" }, ?_, rfl, rfl, rfl⟩⟩
  simp [words, w]

/-! ## C26 -/

/-- `C26_path`, `C26_program` and `C26_time_partial`: 5 mm at 100 mm/min take 3 s, the tool exchange 5 s and
the rapid motion to it 5 s. -/
example :
    let prog : Prog := [(1, [w c!"G" c!"1", w c!"X" c!"3", w c!"Y" c!"4", w c!"F" c!"100"]),
      (2, [w c!"X" c!"0", w c!"Y" c!"0"]), (3, [w c!"T" c!"1", w c!"M" c!"6"])]
    AllOk qf mill false prog (start mill) ∧
    motions qf mill false prog (start mill) = [some 5, some 5, some 40] ∧
    (final qf mill false prog (start mill)).1.path.total = some 50 ∧
    (final qf mill false prog (start mill)).1.time.total = some (3 + 3 + 5 + 4) := by
  refine ⟨?_, by decide +kernel, by decide +kernel, by decide +kernel⟩
  unfold AllOk
  simp only [AllOk]
  decide +kernel

/-- `C26_failed_partial`: a failing arc adds nothing. -/
example : (evaluate qf mill false 1 [w c!"G" c!"1", w c!"X" c!"1", w c!"G" c!"2", w c!"F" c!"100"]
    (start mill)).1.1.path.total = some 0 := by decide +kernel

/-- **C26, violated.** A block refused because F is not set has been added to the totals. -/
theorem C26_violated_failed :
    (evaluate qf mill false 1 [w c!"G" c!"1", w c!"X" c!"3", w c!"Y" c!"4"] (start mill)).2 =
        .throw (err .ValueNotSet [c!"F"]) ∧
    (evaluate qf mill false 1 [w c!"G" c!"1", w c!"X" c!"3", w c!"Y" c!"4"] (start mill)).1.1.path.total = some 5 := by
  decide +kernel

/-- **C26, violated.** A drilling cycle whose R is below Z makes the total path smaller, even negative. -/
theorem C26_violated_decreases :
    let p := run mill [[w c!"G" c!"1", w c!"X" c!"3", w c!"Y" c!"4", w c!"F" c!"100"]] (start mill)
    let b : Block := [w c!"G" c!"81", w c!"G" c!"99", w c!"X" c!"3", w c!"Y" c!"4", wn c!"Z" c!"1", wn c!"R" c!"90"]
    p.1.path.total = some 5 ∧
    (evaluate qf mill false 1 b p).2 = .ok () ∧
    (evaluate qf mill false 1 b p).1.1.path.work = some (-89) ∧
    (evaluate qf mill false 1 b p).1.1.path.total = some (-73) := by decide +kernel

/-- **C26, violated.** The dwell of a block with a T word that does not exchange the tool is lost. -/
theorem C26_violated_dwell :
    (evaluate qf mill false 1 [w c!"G" c!"4", w c!"X" c!"2"] (start mill)).1.1.time.total = some (2 + 1 / 5) ∧
    (evaluate qf mill false 1 [w c!"T" c!"1", w c!"G" c!"4", w c!"X" c!"2"] (start mill)).1.1.time.total = some 0 := by
  decide +kernel

end NC.Props
