import Verif.Props.SimLength
import Verif.Props.SimTotals
import Verif.Props.SimReset
import Verif.Props.Geometry
import Verif.Props.Similar
import Verif.Props.Rounds
import Verif.SimDemo

/-!
# C125: the way is never shorter than the distance
-/

namespace NC.Props
open NC NC.Path NC.Ver NC.AttrPath NC.Spec.Sim NC.Spec.Geo

/-- A block of straight moves: just moves, and neither G2 nor G3. -/
def OnlyStraight (b : Block) : Prop := Plain b ∧ ∀ d ∈ words b, motionWord d ≠ some 2 ∧ motionWord d ≠ some 3

theorem straight_code {b : Block} (h : OnlyStraight b) {g : Int} (hg : g = 0 ∨ g = 1) : motionCode b g = 0 ∨ motionCode b g = 1 := by
  unfold motionCode
  cases hl : ((words b).filterMap motionWord).getLast? with
  | none => exact hg
  | some n =>
    have hn := List.mem_of_getLast? hl
    obtain ⟨d, hd, hm⟩ := List.mem_filterMap.mp hn
    obtain ⟨h2, h3⟩ := h.2 d hd
    rw [hm] at h2 h3
    show n = 0 ∨ n = 1
    unfold motionWord at hm
    split at hm
    · rename_i hc
      rw [hm] at hc
      rcases hc.2 with e | e | e | e
      · exact Or.inl (Option.some.inj e)
      · exact Or.inr (Option.some.inj e)
      · exact absurd e h2
      · exact absurd e h3
    · cases hm

section
variable {K : Type} [Field K] [LinearOrder K] [IsStrictOrderedRing K] [FloorRing K]

/-- The lengths of straight lines are a distance. -/
structure Metric (F : Fns K) : Prop where
  here : ∀ x y z, dist3 F x y z x y z = 0
  detour : ∀ x y z x' y' z' x'' y'' z'', dist3 F x y z x'' y'' z'' ≤ dist3 F x y z x' y' z' + dist3 F x' y' z' x'' y'' z''

theorem straight_run {F : Fns K} (hF : Metric F) {c : Cfg K} (hc : WF c) (hx : AxesOk c) (hm : c.mtype = .other) (ha : c.autoRapid = false)
    (inch : Inch) (q : Prog) (hq : ∀ l ∈ q, OnlyStraight l.2) (p : St K × MacroMap ℚ) (hp : Inv p.1) (hr : p.1.autoRapid = false)
    (hg : p.1.g = 0 ∨ p.1.g = 1) {x y z a : K} (hX : pos p.1 c!"X" = some x) (hY : pos p.1 c!"Y" = some y) (hZ : pos p.1 c!"Z" = some z)
    (hA : p.1.path.total = some a) (hok : (Sml.run F c inch q p).2 = .ok ()) :
    ∃ x' y' z' b, pos (Sml.run F c inch q p).1.1 c!"X" = some x' ∧ pos (Sml.run F c inch q p).1.1 c!"Y" = some y' ∧
      pos (Sml.run F c inch q p).1.1 c!"Z" = some z' ∧ (Sml.run F c inch q p).1.1.path.total = some b ∧
      dist3 F x y z x' y' z' ≤ b - a ∧ Inv (Sml.run F c inch q p).1.1 ∧ (Sml.run F c inch q p).1.1.autoRapid = false ∧
      ((Sml.run F c inch q p).1.1.g = 0 ∨ (Sml.run F c inch q p).1.1.g = 1) := by
  induction q generalizing p x y z a with
  | nil => exact ⟨x, y, z, a, hX, hY, hZ, hA, by rw [hF.here, sub_self], hp, hr, hg⟩
  | cons l t ih =>
    have hl := hq l List.mem_cons_self
    have ht := fun k hk => hq k (List.mem_cons_of_mem _ hk)
    unfold Sml.run at hok ⊢
    cases ho : (evaluate F c inch l.1 l.2 p).2 with
    | throw e => rw [ho] at hok; cases hok
    | ub => rw [ho] at hok; cases hok
    | ok u =>
      rw [ho] at hok
      dsimp only at hok ⊢
      have i1 := evaluate_inv F hc inch l.1 l.2 p hp
      have i2 := eval_autoRapid ha hr (evaluate_eval F c inch l.1 l.2 p)
      have hcode := straight_code hl hg
      have hg' : motionCode l.2 p.1.g ∈ ([0, 1, 2, 3] : List Int) := by rcases hcode with h | h <;> rw [h] <;> decide
      by_cases hne : l.2 = []
      · have e : (evaluate F c inch l.1 l.2 p).1 = (clearMotions p.1, p.2) := by rw [hne]; rfl
        rw [e] at hok i1 i2 ⊢
        exact ih ht _ i1 i2 hg hX hY hZ hA hok
      · obtain ⟨x1, y1, z1, k1, k2, k3, k4, k5⟩ := C71_line_partial F hc hx hm inch l.1 l.2 p hp hl.1 hne (Or.inl hr) hcode ho hX hY hZ
        obtain ⟨_, _, _, _, _, _, _, _, _, _, _, _, _, _, _, _, _, _, _, w3⟩ := plain_motion F hx inch l.1 p hl.1 hne (Or.inl hr) hg' ho
        have hT := C26_path F c inch l.1 l.2 p hp ho
        have hT' : (evaluate F c inch l.1 l.2 p).1.1.path.total = some (a + dist3 F x y z x1 y1 z1) := by
          rw [hT, hA]
          rcases hcode with h | h
          · rw [(k4 h).1, (k4 h).2]
            simp [addF]
          · rw [(k5 h).1, (k5 h).2]
            simp [addF]
        obtain ⟨x2, y2, z2, b, j1, j2, j3, j4, j5, j6⟩ := ih ht _ i1 i2 (by rw [w3]; exact hcode) k1 k2 k3 hT' hok
        refine ⟨x2, y2, z2, b, j1, j2, j3, j4, ?_, j6⟩
        have := hF.detour x y z x1 y1 z1 x2 y2 z2
        linarith

/-- **C125.** An accepted program of straight moves takes at least the distance from where it begins to where it ends. -/
theorem C125_distance {F : Fns K} (hF : Metric F) {c : Cfg K} (hc : WF c) (hx : AxesOk c) (hm : c.mtype = .other) (ha : c.autoRapid = false)
    (inch : Inch) (q : Prog) (hq : ∀ l ∈ q, OnlyStraight l.2) (p : St K × MacroMap ℚ) (hp : Inv p.1) (hr : p.1.autoRapid = false)
    (hg : p.1.g = 0 ∨ p.1.g = 1) {x y z a : K} (hX : pos p.1 c!"X" = some x) (hY : pos p.1 c!"Y" = some y) (hZ : pos p.1 c!"Z" = some z)
    (hA : p.1.path.total = some a) (hok : (Sml.run F c inch q p).2 = .ok ()) :
    ∃ x' y' z' b, pos (Sml.run F c inch q p).1.1 c!"X" = some x' ∧ pos (Sml.run F c inch q p).1.1 c!"Y" = some y' ∧
      pos (Sml.run F c inch q p).1.1 c!"Z" = some z' ∧ (Sml.run F c inch q p).1.1.path.total = some b ∧
      dist3 F x y z x' y' z' ≤ b - a := by
  obtain ⟨x', y', z', b, h1, h2, h3, h4, h5, _⟩ := straight_run hF hc hx hm ha inch q hq p hp hr hg hX hY hZ hA hok
  exact ⟨x', y', z', b, h1, h2, h3, h4, h5⟩

/-- **C125, by way of a point.** It takes at least the distance by way of any point it visits. -/
theorem C125_visited {F : Fns K} (hF : Metric F) {c : Cfg K} (hc : WF c) (hx : AxesOk c) (hm : c.mtype = .other) (ha : c.autoRapid = false)
    (inch : Inch) (q q' : Prog) (hq : ∀ l ∈ q ++ q', OnlyStraight l.2) (p : St K × MacroMap ℚ) (hp : Inv p.1) (hr : p.1.autoRapid = false)
    (hg : p.1.g = 0 ∨ p.1.g = 1) {x y z a : K} (hX : pos p.1 c!"X" = some x) (hY : pos p.1 c!"Y" = some y) (hZ : pos p.1 c!"Z" = some z)
    (hA : p.1.path.total = some a) (hok : (Sml.run F c inch (q ++ q') p).2 = .ok ()) :
    ∃ x' y' z' x'' y'' z'' b, pos (Sml.run F c inch q p).1.1 c!"X" = some x' ∧ pos (Sml.run F c inch q p).1.1 c!"Y" = some y' ∧
      pos (Sml.run F c inch q p).1.1 c!"Z" = some z' ∧ pos (Sml.run F c inch (q ++ q') p).1.1 c!"X" = some x'' ∧
      pos (Sml.run F c inch (q ++ q') p).1.1 c!"Y" = some y'' ∧ pos (Sml.run F c inch (q ++ q') p).1.1 c!"Z" = some z'' ∧
      (Sml.run F c inch (q ++ q') p).1.1.path.total = some b ∧
      dist3 F x y z x' y' z' + dist3 F x' y' z' x'' y'' z'' ≤ b - a := by
  have hok1 : (Sml.run F c inch q p).2 = .ok () := by
    clear hq hp hr hg hX hY hZ hA
    induction q generalizing p with
    | nil => rfl
    | cons l t ih =>
      rw [List.cons_append] at hok
      unfold Sml.run at hok ⊢
      cases ho : (evaluate F c inch l.1 l.2 p).2 with
      | throw e => rw [ho] at hok; cases hok
      | ub => rw [ho] at hok; cases hok
      | ok u => rw [ho] at hok; exact ih _ hok
  rw [run_append F c inch q q' p hok1] at hok ⊢
  obtain ⟨x', y', z', b', h1, h2, h3, h4, h5, h6, h7, h8⟩ :=
    straight_run hF hc hx hm ha inch q (fun l hl => hq l (List.mem_append_left _ hl)) p hp hr hg hX hY hZ hA hok1
  obtain ⟨x'', y'', z'', b, k1, k2, k3, k4, k5, _⟩ :=
    straight_run hF hc hx hm ha inch q' (fun l hl => hq l (List.mem_append_right _ hl)) _ h6 h7 h8 h1 h2 h3 h4 hok
  exact ⟨x', y', z', x'', y'', z'', b, h1, h2, h3, k1, k2, k3, k4, by linarith⟩

end

theorem metric_real : Metric realFns where
  here x y z := (C29_line_metric x y z x y z x y z).1.mpr ⟨rfl, rfl, rfl⟩
  detour x y z x' y' z' x'' y'' z'' := (C29_line_metric x y z x' y' z' x'' y'' z'').2.2.2

/-- **C125, from the start**, over the real numbers: the distance is that of space. -/
theorem C125_start {c : Cfg ℝ} (hc : WF c) (hx : AxesOk c) (hm : c.mtype = .other) (ha : c.autoRapid = false) (inch : Inch) (q : Prog)
    (hq : ∀ l ∈ q, OnlyStraight l.2) (m : MacroMap ℚ) (hg : c.motion = 0 ∨ c.motion = 1) {x y z : ℝ} (hX : pos (initial c) c!"X" = some x)
    (hY : pos (initial c) c!"Y" = some y) (hZ : pos (initial c) c!"Z" = some z)
    (hok : (Sml.run realFns c inch q (initial c, m)).2 = .ok ()) :
    ∃ x' y' z' b, pos (Sml.run realFns c inch q (initial c, m)).1.1 c!"X" = some x' ∧
      pos (Sml.run realFns c inch q (initial c, m)).1.1 c!"Y" = some y' ∧ pos (Sml.run realFns c inch q (initial c, m)).1.1 c!"Z" = some z' ∧
      (Sml.run realFns c inch q (initial c, m)).1.1.path.total = some b ∧ dist (pt x y z) (pt x' y' z') ≤ b := by
  obtain ⟨x', y', z', b, h1, h2, h3, h4, h5⟩ := C125_distance metric_real hc hx hm ha inch q hq (initial c, m) (initial_inv hc) rfl hg hX hY hZ
    (a := 0) rfl hok
  refine ⟨x', y', z', b, h1, h2, h3, h4, ?_⟩
  rw [← C29_line]
  linarith

/-! ## Concrete cases -/

open SimDemo

/-- Two sides of a triangle, one of them by a distance. -/
def corner : Prog :=
  [(1, [w c!"G" c!"1", w c!"X" c!"3", w c!"F" c!"100"]), (2, []), (3, [w c!"G" c!"91", w c!"G" c!"0", w c!"Y" c!"4"])]

example : (∀ l ∈ corner, OnlyStraight l.2) ∧ mill.mtype = .other ∧ mill.autoRapid = false ∧ (initial mill).g = 0 := by
  refine ⟨?_, by decide +kernel, by decide +kernel, by decide +kernel⟩
  intro l hl
  unfold OnlyStraight Plain PlainWord
  revert l
  decide +kernel

/-- From (0, 0, 10) to (3, 4, 10): the distance is 5, the way is 7. -/
example : (Sml.run qf mill false corner (initial mill, [])).2 = .ok () ∧
    (Sml.run qf mill false corner (initial mill, [])).1.1.path.total = some 7 ∧ dist3 qf 0 0 10 3 4 10 = 5 ∧
    pos (initial mill) c!"X" = some 0 ∧ pos (Sml.run qf mill false corner (initial mill, [])).1.1 c!"Y" = some 4 := by
  decide +kernel

end NC.Props
