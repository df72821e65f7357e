import Verif.SimBooks
import Verif.SimDemo
import Verif.Props.Similar

/-!
# C124: what was counted before, and programs run again and again
-/

namespace NC.Props
open NC NC.Path NC.Ver NC.AttrPath NC.Spec.Sim NC.Bks

section
variable {K : Type} [Field K] [LinearOrder K]

/-- The machine stands at the same place with the same tool, and the same is in force. Totals and bounds may differ. -/
structure Standing (s s' : St K) : Prop where
  place : ∀ a, pos s' a = pos s a
  before : s'.prev = s.prev
  feed : s'.f = s.f
  speed : s'.s = s.s
  motion : s'.g = s.g
  plane : s'.plane = s.plane
  back : s'.ret = s.ret
  incr : s'.incr = s.incr
  surface : s'.css = s.css
  perRev : s'.perRev = s.perRev
  helix : s'.helix = s.helix
  tool : s'.tool = s.tool
  auto : s'.autoRapid = s.autoRapid
  cycle : s'.path.cycle = s.path.cycle
  holes : s'.path.holes = s.path.holes

/-- The totals differ by `P` and `T`. -/
def Ahead (P T : Fl K) (s s' : St K) : Prop := s'.path.total = addF P s.path.total ∧ s'.time.total = addF T s.time.total

/-- The lengths and the times of the last block are the same. -/
def SameLast (s s' : St K) : Prop :=
  s'.path.work = s.path.work ∧ s'.path.fast = s.path.fast ∧ s'.time.work = s.time.work ∧ s'.time.fast = s.time.fast

theorem bk_out {P T : Fl K} {s s' : St K} (h : Bk P T s s') : Standing s s' ∧ Ahead P T s s' ∧ SameLast s s' := by
  obtain ⟨u, rfl, rfl, rfl, h3⟩ := h
  exact ⟨⟨h3, rfl, rfl, rfl, rfl, rfl, rfl, rfl, rfl, rfl, rfl, rfl, rfl, rfl, rfl⟩, ⟨rfl, rfl⟩, rfl, rfl, rfl, rfl⟩

theorem bk_in {P T : Fl K} {s s' : St K} (h : Standing s s') (ht : Ahead P T s s') : Bk P T (clearMotions s) (clearMotions s') := by
  obtain ⟨h0, h1, h2, h3, h4, h5, h6, h7, h8, h9, h10, h11, h12, h13, h14⟩ := h
  obtain ⟨t1, t2⟩ := ht
  refine ⟨⟨P, T, s'.path.toolTotal, s'.path.toolId, s'.time.toolTotal, s'.time.toolId, s'.tPath, s'.tTime, s'.range⟩, ?_, rfl, rfl, h0⟩
  unfold clearMotions lg
  dsimp only
  rw [← t1, ← t2, ← h13, ← h14, ← h1, ← h2, ← h3, ← h4, ← h5, ← h6, ← h7, ← h8, ← h9, ← h10, ← h11, ← h12]

theorem Standing.refl (s : St K) : Standing s s := ⟨fun _ => rfl, rfl, rfl, rfl, rfl, rfl, rfl, rfl, rfl, rfl, rfl, rfl, rfl, rfl, rfl⟩

theorem Standing.trans {s t u : St K} (h : Standing s t) (g : Standing t u) : Standing s u :=
  ⟨fun a => (g.1 a).trans (h.1 a), g.2.trans h.2, g.3.trans h.3, g.4.trans h.4, g.5.trans h.5, g.6.trans h.6, g.7.trans h.7, g.8.trans h.8,
    g.9.trans h.9, g.10.trans h.10, g.11.trans h.11, g.12.trans h.12, g.13.trans h.13, g.14.trans h.14, g.15.trans h.15⟩

section
variable [FloorRing K]

/-- **C124, a block.** Whatever was counted before, and wherever the machine has been, a block has the same outcome, lengths and times,
leaves the machine at the same place with the same in force, and adds the same to the totals. -/
theorem C124_block (F : Fns K) (c : Cfg K) (inch : Inch) (line : Int) (b : Block) {P T : Fl K} {s s' : St K} (h : Standing s s')
    (ht : Ahead P T s s') (m m' : MacroMap ℚ) :
    let r := evaluate F c inch line b (s, m)
    let r' := evaluate F c inch line b (s', m')
    r'.2 = r.2 ∧ Standing r.1.1 r'.1.1 ∧ Ahead P T r.1.1 r'.1.1 ∧ SameLast r.1.1 r'.1.1 := by
  obtain ⟨h1, h2⟩ := evaluate_bk F c inch line b (bk_in h ht) m m'
  exact ⟨h2, bk_out h1⟩

/-- **C124, a program.** -/
theorem C124_program (F : Fns K) (c : Cfg K) (inch : Inch) (q : Prog) {P T : Fl K} {s s' : St K} (h : Standing s s') (ht : Ahead P T s s')
    (m m' : MacroMap ℚ) :
    let r := Sml.run F c inch q (s, m)
    let r' := Sml.run F c inch q (s', m')
    r'.2 = r.2 ∧ Standing r.1.1 r'.1.1 ∧ Ahead P T r.1.1 r'.1.1 ∧ (q ≠ [] → SameLast r.1.1 r'.1.1) := by
  induction q generalizing s s' m m' with
  | nil => exact ⟨rfl, h, ht, fun h => absurd rfl h⟩
  | cons x t ih =>
    obtain ⟨h1, h2, h3, h4⟩ := C124_block F c inch x.1 x.2 h ht m m'
    dsimp only
    unfold Sml.run
    rw [h1]
    cases ho : (evaluate F c inch x.1 x.2 (s, m)).2 with
    | throw e => exact ⟨rfl, h2, h3, fun _ => h4⟩
    | ub => exact ⟨rfl, h2, h3, fun _ => h4⟩
    | ok u =>
      obtain ⟨i1, i2, i3, i4⟩ := ih h2 h3 (evaluate F c inch x.1 x.2 (s, m)).1.2 (evaluate F c inch x.1 x.2 (s', m')).1.2
      refine ⟨i1, i2, i3, fun _ => ?_⟩
      cases t with
      | nil => exact h4
      | cons y t => exact i4 (List.cons_ne_nil y t)

theorem run_append (F : Fns K) (c : Cfg K) (inch : Inch) (q q' : Prog) (p : St K × MacroMap ℚ) (h : (Sml.run F c inch q p).2 = .ok ()) :
    Sml.run F c inch (q ++ q') p = Sml.run F c inch q' (Sml.run F c inch q p).1 := by
  induction q generalizing p with
  | nil => rfl
  | cons x t ih =>
    have e : ∀ l : Prog, Sml.run F c inch (x :: l) p = match (evaluate F c inch x.1 x.2 p).2 with
        | .ok () => Sml.run F c inch l (evaluate F c inch x.1 x.2 p).1
        | o => ((evaluate F c inch x.1 x.2 p).1, o) := fun _ => rfl
    rw [e t] at h
    rw [List.cons_append, e (t ++ q'), e t]
    cases ho : (evaluate F c inch x.1 x.2 p).2 with
    | throw e => rw [ho] at h; cases h
    | ub => rw [ho] at h; cases h
    | ok u =>
      rw [ho] at h
      exact ih _ h

theorem replicate_flatten {α : Type} (n : Nat) (q : List α) : (List.replicate (n + 1) q).flatten = (List.replicate n q).flatten ++ q := by
  rw [List.replicate_succ', List.flatten_append]
  simp

/-- **C124, again and again.** If a program is accepted and leaves the machine where it was, with the same in force, then it may be run any
number of times: every round is accepted, leaves the machine there, and takes the same path and the same time. -/
theorem C124_repeat (F : Fns K) (c : Cfg K) (inch : Inch) (q : Prog) (s : St K) (m : MacroMap ℚ) (hok : (Sml.run F c inch q (s, m)).2 = .ok ())
    (hs : Standing s (Sml.run F c inch q (s, m)).1.1) {a b x y : K} (ha : s.path.total = some a) (hx : s.time.total = some x)
    (hb : (Sml.run F c inch q (s, m)).1.1.path.total = some b) (hy : (Sml.run F c inch q (s, m)).1.1.time.total = some y) (n : Nat) :
    let r := Sml.run F c inch (List.replicate n q).flatten (s, m)
    r.2 = .ok () ∧ Standing s r.1.1 ∧ r.1.1.path.total = some (a + n * (b - a)) ∧ r.1.1.time.total = some (x + n * (y - x)) := by
  induction n with
  | zero => exact ⟨rfl, Standing.refl s, by simp [Sml.run, ha], by simp [Sml.run, hx]⟩
  | succ n ih =>
    obtain ⟨i1, i2, i3, i4⟩ := ih
    dsimp only
    rw [replicate_flatten, run_append F c inch _ _ _ i1]
    have hA : Ahead (some ((n : K) * (b - a))) (some ((n : K) * (y - x))) s (Sml.run F c inch (List.replicate n q).flatten (s, m)).1.1 := by
      refine ⟨?_, ?_⟩
      · rw [i3, ha]; simp [addF, add_comm]
      · rw [i4, hx]; simp [addF, add_comm]
    obtain ⟨j1, j2, ⟨j3, j4⟩, _⟩ := C124_program F c inch q i2 hA m (Sml.run F c inch (List.replicate n q).flatten (s, m)).1.2
    refine ⟨j1.trans hok, hs.trans j2, ?_, ?_⟩
    · rw [j3, hb]
      simp only [addF, Nat.cast_succ]
      congr 1; ring
    · rw [j4, hy]
      simp only [addF, Nat.cast_succ]
      congr 1; ring

end
end

/-! ## Concrete cases -/

open NC.SimDemo

/-- A tool exchange and a square, left where it was entered. -/
def pocket : Prog :=
  [(1, [w c!"T" c!"2", w c!"M" c!"6"]),
   (2, [w c!"G" c!"1", w c!"X" c!"10", w c!"F" c!"100", w c!"S" c!"500"]),
   (3, [w c!"Y" c!"10"]),
   (4, [w c!"X" c!"0"]),
   (5, [w c!"G" c!"0", w c!"X" c!"0", w c!"Y" c!"0"])]

/-- The state after the first round. -/
def entered : St ℚ := (Sml.run qf mill false pocket (initial mill, [])).1.1

/-- The round is accepted and ends where it began. -/
example : (Sml.run qf mill false pocket (entered, [])).2 = .ok () ∧ Standing entered (Sml.run qf mill false pocket (entered, [])).1.1 := by
  have hr : (Sml.run qf mill false pocket (entered, [])).1.1.range = entered.range := by decide +kernel
  refine ⟨by decide +kernel, fun a => ?_, by decide +kernel, by decide +kernel, by decide +kernel, by decide +kernel, by decide +kernel,
    by decide +kernel, by decide +kernel, by decide +kernel, by decide +kernel, by decide +kernel, by decide +kernel, by decide +kernel,
    by decide +kernel, by decide +kernel⟩
  unfold pos
  rw [hr]

/-- Path and time of the round. -/
example : entered.path.total ≠ (Sml.run qf mill false pocket (entered, [])).1.1.path.total ∧ entered.path.total.isSome = true ∧
    entered.time.total.isSome = true ∧ entered.time.total ≠ (Sml.run qf mill false pocket (entered, [])).1.1.time.total ∧
    (Sml.run qf mill false pocket (entered, [])).1.1.time.total.isSome = true := by
  decide +kernel

end NC.Props
