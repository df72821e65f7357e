import Verif.SimPieces
import Verif.SimDemo
import Verif.Props.Rates
import Mathlib.Data.Rat.Sqrt

/-!
# C122: a straight move may be made in pieces
-/

namespace NC.Props
open NC NC.Path NC.Ver NC.AttrPath NC.Spec.Sim NC.Spec.Pieces NC.Pcs

/-- The states agree in everything but the lengths and times of the last motion. -/
def SameButLast {K : Type} (s s' : St K) : Prop :=
  s' = { s with path := { s.path with work := s'.path.work, fast := s'.path.fast }, time := { s.time with work := s'.time.work, fast := s'.time.fast } }

section
variable {K : Type} [Field K] [LinearOrder K]

omit [LinearOrder K] in
theorem sameButLast_iff (s s' : St K) : SameButLast s s' ↔ clearMotions s' = clearMotions s := by
  obtain ⟨pa, ti, prev, tp, tt, range, f, sp, g, pl, ret, incr, css, pr, hx, tool, ar⟩ := s
  obtain ⟨pa', ti', prev', tp', tt', range', f', sp', g', pl', ret', incr', css', pr', hx', tool', ar'⟩ := s'
  obtain ⟨a1, a2, a3, a4, a5, a6, a7⟩ := pa
  obtain ⟨b1, b2, b3, b4, b5, b6, b7⟩ := pa'
  obtain ⟨c1, c2, c3, c4, c5⟩ := ti
  obtain ⟨d1, d2, d3, d4, d5⟩ := ti'
  unfold SameButLast clearMotions
  simp

variable [IsStrictOrderedRing K] [FloorRing K]

/-- **C122, a block.** Before a straight move to a point a block can be put that goes to a point on the way: both are accepted if the move
is, and afterwards everything is the same (positions, bounds, totals of path and time, tool, modes) except the length and time of the last
motion. -/
theorem C122_block_partial {F : Fns K} (hF : Rooted F) {c : Cfg K} (hc : AxesOk c) (inch : Inch) (line line' : Int) {b b' : Block} {t : K}
    {s : St K} (m : MacroMap ℚ) (hp : Inv s) (hh : Held s) (hr : s.autoRapid = false) (hw : Way (pos s) (modalOf s) t b b')
    (h : (evaluate F c inch line b (s, m)).2 = .ok ()) :
    let q := evaluate F c inch line' b' (s, m)
    let q' := evaluate F c inch line b q.1
    q.2 = .ok () ∧ q'.2 = .ok () ∧ SameButLast (evaluate F c inch line b (s, m)).1.1 q'.1.1 ∧
      q'.1.2 = (evaluate F c inch line b (s, m)).1.2 := by
  obtain ⟨h1, _, h3, h4, h5, _⟩ := evaluate_pieces hF hc inch line line' m hp hh hr hw h
  exact ⟨h1, h3, (sameButLast_iff _ _).mpr h4, h5⟩

/-- The second program is the first with any number of points put on the way of straight moves; `p` is the state before. -/
inductive Finer (F : Fns K) (c : Cfg K) (inch : Inch) : Prog → Prog → St K × MacroMap ℚ → Prop
  | nil (p : St K × MacroMap ℚ) : Finer F c inch [] [] p
  | keep (x : Int × Block) (q q' : Prog) (p : St K × MacroMap ℚ) : Finer F c inch q q' (evaluate F c inch x.1 x.2 p).1 →
      Finer F c inch (x :: q) (x :: q') p
  | way (l l' : Int) (b b' : Block) (t : K) (q q' : Prog) (p : St K × MacroMap ℚ) : p.1.autoRapid = false →
      Way (pos p.1) (modalOf p.1) t b b' → Finer F c inch ((l, b) :: q) q' (evaluate F c inch l' b' p).1 →
      Finer F c inch ((l, b) :: q) ((l', b') :: q') p

/-- What a block does does not depend on the last motion. -/
theorem evaluate_last (F : Fns K) (c : Cfg K) (inch : Inch) (line : Int) (b : Block) {p p' : St K × MacroMap ℚ}
    (h : clearMotions p'.1 = clearMotions p.1) (hm : p'.2 = p.2) : evaluate F c inch line b p' = evaluate F c inch line b p := by
  unfold evaluate
  rw [h, hm]

theorem run_last (F : Fns K) (c : Cfg K) (inch : Inch) (q : Prog) {p p' : St K × MacroMap ℚ}
    (h : clearMotions p'.1 = clearMotions p.1) (hm : p'.2 = p.2) :
    (Sml.run F c inch q p').2 = (Sml.run F c inch q p).2 ∧ clearMotions (Sml.run F c inch q p').1.1 = clearMotions (Sml.run F c inch q p).1.1 ∧
      (Sml.run F c inch q p').1.2 = (Sml.run F c inch q p).1.2 := by
  cases q with
  | nil => exact ⟨rfl, h, hm⟩
  | cons x t =>
    have : Sml.run F c inch (x :: t) p' = Sml.run F c inch (x :: t) p := by
      unfold Sml.run
      rw [evaluate_last F c inch x.1 x.2 h hm]
    rw [this]
    exact ⟨rfl, rfl, rfl⟩

/-- **C122, a program.** With points put on the way of straight moves a program that is accepted stays so and ends in the same state: the
same totals of path and time in all and for each tool, the same bounds and positions.
(`_partial`: moves by coordinates, with a feed that is not by surface speed; see `C122_violated_surface`.) -/
theorem C122_program_partial {F : Fns K} (hF : Rooted F) {c : Cfg K} (hw : WF c) (hc : AxesOk c) (inch : Inch) {q q' : Prog}
    {p : St K × MacroMap ℚ} (hp : Inv p.1) (hh : Held p.1) (hq : Finer F c inch q q' p) (hok : (Sml.run F c inch q p).2 = .ok ()) :
    (Sml.run F c inch q' p).2 = .ok () ∧ SameButLast (Sml.run F c inch q p).1.1 (Sml.run F c inch q' p).1.1 ∧
      (Sml.run F c inch q' p).1.2 = (Sml.run F c inch q p).1.2 := by
  induction hq with
  | nil p => exact ⟨rfl, (sameButLast_iff _ _).mpr rfl, rfl⟩
  | keep x q q' p _ ih =>
    have i1 := evaluate_inv F hw inch x.1 x.2 p hp
    have i2 := evaluate_held F hw inch x.1 x.2 p hp hh
    unfold Sml.run at hok ⊢
    cases ho : (evaluate F c inch x.1 x.2 p).2 with
    | throw e => rw [ho] at hok; cases hok
    | ub => rw [ho] at hok; cases hok
    | ok u => rw [ho] at hok; exact ih i1 i2 hok
  | way l l' b b' t q q' p hr hwy _ ih =>
    have i1 := evaluate_inv F hw inch l' b' p hp
    have i2 := evaluate_held F hw inch l' b' p hp hh
    have hb : (evaluate F c inch l b p).2 = .ok () := by
      unfold Sml.run at hok
      dsimp only at hok
      cases ho : (evaluate F c inch l b p).2 with
      | throw e => rw [ho] at hok; cases hok
      | ub => rw [ho] at hok; cases hok
      | ok u => rfl
    obtain ⟨h1, _, h3, h4, h5, _⟩ := evaluate_pieces hF hc inch l l' p.2 hp hh hr hwy hb
    have e1 : Sml.run F c inch ((l', b') :: q') p = Sml.run F c inch q' (evaluate F c inch l' b' p).1 := by
      rw [Sml.run]
      dsimp only
      rw [h1]
    have step : ∀ p1 : St K × MacroMap ℚ, (evaluate F c inch l b p1).2 = .ok () →
        Sml.run F c inch ((l, b) :: q) p1 = Sml.run F c inch q (evaluate F c inch l b p1).1 := by
      intro p1 k
      rw [Sml.run]
      dsimp only
      rw [k]
    rw [step p hb] at hok ⊢
    obtain ⟨r1, r2, r3⟩ := run_last F c inch q h4 h5
    have ih' := ih i1 i2 (by rw [step _ h3]; rw [r1]; exact hok)
    rw [step _ h3] at ih'
    rw [e1]
    refine ⟨ih'.1, ?_, ih'.2.2.trans r3⟩
    exact (sameButLast_iff _ _).mpr (((sameButLast_iff _ _).mp ih'.2.1).trans r2)

end

/-- The real root takes squares out. -/
theorem rooted_real : Rooted realFns := by
  intro t x ht hx
  show Real.sqrt (t ^ 2 * x) = t * Real.sqrt x
  rw [Real.sqrt_mul (by positivity), Real.sqrt_sq ht]

/-- **C122, from the start**, over the real numbers. -/
theorem C122_start_partial {c : Cfg ℝ} (hw : WF c) (hc : AxesOk c) (inch : Inch) {q q' : Prog} (m : MacroMap ℚ)
    (hq : Finer realFns c inch q q' (initial c, m)) (hok : (Sml.run realFns c inch q (initial c, m)).2 = .ok ()) :
    (Sml.run realFns c inch q' (initial c, m)).2 = .ok () ∧
      (Sml.run realFns c inch q' (initial c, m)).1.1.path.total = (Sml.run realFns c inch q (initial c, m)).1.1.path.total ∧
      (Sml.run realFns c inch q' (initial c, m)).1.1.time.total = (Sml.run realFns c inch q (initial c, m)).1.1.time.total ∧
      (Sml.run realFns c inch q' (initial c, m)).1.1.range = (Sml.run realFns c inch q (initial c, m)).1.1.range ∧
      SameButLast (Sml.run realFns c inch q (initial c, m)).1.1 (Sml.run realFns c inch q' (initial c, m)).1.1 := by
  have hi : Held (initial c) := by
    intro a r hr
    have k : (initial c).range.get a = _ := copyBack_range c.motion c.incr [] hw.base ([], []) a
    rw [k] at hr
    cases hq : c.base.get a with
    | none => rw [hq] at hr; cases hr
    | some x =>
      rw [hq] at hr
      dsimp only at hr
      split at hr
      · cases hr
      · cases hr
        exact ⟨le_refl _, le_refl _⟩
  obtain ⟨h1, h2, _⟩ := C122_program_partial rooted_real hw hc inch (initial_inv hw) hi hq hok
  have h3 := h2
  unfold SameButLast at h3
  have e1 := congrArg (fun s => s.path.total) h3
  have e2 := congrArg (fun s => s.time.total) h3
  have e3 := congrArg St.range h3
  exact ⟨h1, e1, e2, e3, h2⟩

section
open NC.SimDemo

/-- A straight move, and a block to the middle of its way. -/
def wholeCut : Block := [w c!"G" c!"1", w c!"X" c!"30", w c!"Y" c!"40", w c!"F" c!"100"]
def halfCut : Block := [w c!"G" c!"1", w c!"X" c!"15", w c!"Y" c!"20", w c!"F" c!"100"]

theorem half_way : Way (pos (initial mill)) (modalOf (initial mill)) (1 / 2) wholeCut halfCut where
  words := by
    refine .cons (.same _ (by decide) ?_) (.cons (.axis _ _ 30 0 (by decide) rfl (by decide +kernel) (by decide +kernel) (by decide +kernel))
      (.cons (.axis _ _ 40 0 (by decide) rfl (by decide +kernel) (by decide +kernel) (by decide +kernel)) (.cons (.same _ (by decide) ?_) .nil)))
    · rintro ⟨d, hd, h1, _⟩
      cases hd
      revert h1
      decide
    · rintro ⟨d, hd, h1, _⟩
      cases hd
      revert h1
      decide
  steady := steady_of (by decide)
  from_ := by norm_num
  to_ := by norm_num
  known := by decide +kernel
  motion := by decide +kernel
  distance := by decide +kernel
  feed := by decide +kernel

/-- The root of rational squares. -/
def squareRoots : Fns ℚ := { qf with sqrt := fun x => if Rat.sqrt x * Rat.sqrt x = x then Rat.sqrt x else 0 }

/-- It takes squares out: the theorems apply to it. -/
theorem squareRoots_rooted : Rooted squareRoots := by
  intro t x ht _
  show (if Rat.sqrt (t ^ 2 * x) * Rat.sqrt (t ^ 2 * x) = t ^ 2 * x then Rat.sqrt (t ^ 2 * x) else 0) =
    t * (if Rat.sqrt x * Rat.sqrt x = x then Rat.sqrt x else 0)
  by_cases hx : Rat.sqrt x * Rat.sqrt x = x
  · have e : t ^ 2 * x = (t * Rat.sqrt x) * (t * Rat.sqrt x) := by
      calc t ^ 2 * x = t ^ 2 * (Rat.sqrt x * Rat.sqrt x) := by rw [hx]
        _ = _ := by ring
    have e2 : Rat.sqrt (t ^ 2 * x) = t * Rat.sqrt x := by
      rw [e, Rat.sqrt_eq, abs_of_nonneg (mul_nonneg ht (Rat.sqrt_nonneg x))]
    rw [if_pos hx, e2, if_pos e.symm]
  · rw [if_neg hx, mul_zero]
    by_cases ht0 : t = 0
    · rw [ht0]
      simp
    · rw [if_neg]
      intro k
      apply hx
      refine Rat.exists_mul_self x |>.mp ⟨Rat.sqrt (t ^ 2 * x) / t, ?_⟩
      rw [div_mul_div_comm, k]
      field_simp

/-- Such programs exist, and the moves are accepted. -/
example : Finer squareRoots mill false [(2, wholeCut)] [(1, halfCut), (2, wholeCut)] (initial mill, []) ∧
    (Sml.run squareRoots mill false [(2, wholeCut)] (initial mill, [])).2 = .ok () ∧
    (Sml.run squareRoots mill false [(1, halfCut), (2, wholeCut)] (initial mill, [])).1.1.path.total = some 50 :=
  ⟨.way 2 1 wholeCut halfCut (1 / 2) [] _ _ rfl half_way (.keep _ _ _ _ (.nil _)), by decide +kernel, by decide +kernel⟩

/-- **C122 is violated with a feed by surface speed.** The spindle speed is computed from the length of the motion instead of the diameter
(AttributesPathCalculator.cpp:1311-1315), so that a move in two pieces takes half the time. -/
theorem C122_violated_surface :
    let b (x : Str) : Block := [w c!"G" c!"1", w c!"G" c!"95", w c!"G" c!"96", w c!"X" x, w c!"F" c!"2", w c!"S" c!"100"]
    (Sml.run qf turner false [(1, b c!"20"), (2, b c!"40")] (initial turner, [])).2 = .ok () ∧
      (Sml.run qf turner false [(1, b c!"20"), (2, b c!"40")] (initial turner, [])).1.1.path.total =
        (Sml.run qf turner false [(2, b c!"40")] (initial turner, [])).1.1.path.total ∧
      (Sml.run qf turner false [(1, b c!"20"), (2, b c!"40")] (initial turner, [])).1.1.time.total ≠
        (Sml.run qf turner false [(2, b c!"40")] (initial turner, [])).1.1.time.total := by
  decide +kernel

end
end NC.Props
