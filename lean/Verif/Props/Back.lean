import Verif.Props.Chord
import Verif.Props.Sense

/-!
# C128: the way back is as long as the way there
-/

namespace NC.Props
open NC NC.Path NC.Ver NC.AttrPath NC.Spec.Sim NC.Spec.Geo Real

local notation "RF" => realFns

/-- An arc backwards. -/
theorem arc_back {s : Sense} {c p q : ℝ × ℝ} {r φ : ℝ} (h : IsArc s c r φ p q) : IsArc (backwards s) c r φ q p := by
  obtain ⟨hr, h0, h1, θ, e1, e2⟩ := h
  refine ⟨hr, h0, h1, θ + s.sgn * φ, e2, ?_⟩
  rw [backwards_sgn, e1, show θ + s.sgn * φ + -s.sgn * φ = θ by ring]

theorem arc_radius {s : Sense} {c p q : ℝ × ℝ} {r φ : ℝ} (h : IsArc s c r φ p q) :
    √((c.1 - p.1) ^ 2 + (c.2 - p.2) ^ 2) = r := by
  obtain ⟨hr, _, _, θ, e1, _⟩ := h
  rw [e1, show (c.1 - (c.1 + r * cos θ)) ^ 2 + (c.2 - (c.2 + r * sin θ)) ^ 2 = r ^ 2 * (sin θ ^ 2 + cos θ ^ 2) by ring, sin_sq_add_cos_sq, mul_one,
    Real.sqrt_sq hr.le]

/-- What the code computes for an arc whose radius or chord is within the tolerance. -/
theorem arc_small {s : Sense} {c p q : ℝ × ℝ} {r φ : ℝ} (h : IsArc s c r φ p q) :
    (tinyRadius RF r → arcIJ RF p.1 p.2 q.1 q.2 (c.1 - p.1) (c.2 - p.2) s.code = r) ∧
    (¬ tinyRadius RF r → samePoint p.1 p.2 q.1 q.2 → arcIJ RF p.1 p.2 q.1 q.2 (c.1 - p.1) (c.2 - p.2) s.code = 360 / 180 * π * r) := by
  have hR : (RF).sqrt ((p.1 + (c.1 - p.1) - p.1) ^ 2 + (p.2 + (c.2 - p.2) - p.2) ^ 2) = r := by
    rw [show p.1 + (c.1 - p.1) - p.1 = c.1 - p.1 by ring, show p.2 + (c.2 - p.2) - p.2 = c.2 - p.2 by ring]
    exact arc_radius h
  constructor
  · intro ht
    unfold arcIJ
    simp only
    rw [hR, if_pos ht]
  · intro ht hs
    unfold arcIJ
    simp only
    rw [hR, if_neg ht]
    unfold arcAngle
    rw [decide_eq_true hs, if_pos rfl]
    rfl

theorem same_symm {x y x' y' : ℝ} : samePoint x y x' y' ↔ samePoint x' y' x y := by
  unfold samePoint
  rw [abs_sub_comm x, abs_sub_comm y]

/-- **C128, arcs.** An arc about a centre is as long as the arc back about the same centre with the other code. -/
theorem C128_arc {s : Sense} {c p q : ℝ × ℝ} {r φ : ℝ} (h : IsArc s c r φ p q) :
    arcIJ RF q.1 q.2 p.1 p.2 (c.1 - q.1) (c.2 - q.2) (backwards s).code = arcIJ RF p.1 p.2 q.1 q.2 (c.1 - p.1) (c.2 - p.2) s.code := by
  have hb := arc_back h
  by_cases ht : tinyRadius RF r
  · rw [(arc_small h).1 ht, (arc_small hb).1 ht]
  · by_cases hs : samePoint p.1 p.2 q.1 q.2
    · rw [(arc_small h).2 ht hs, (arc_small hb).2 ht (same_symm.mp hs)]
    · rw [arcIJ_of_arc h ht hs, arcIJ_of_arc hb ht (fun h => hs (same_symm.mp h))]
      have hq : DifferentQuadrants (q.1 - c.1, q.2 - c.2) (p.1 - c.1, p.2 - c.2) ↔ DifferentQuadrants (p.1 - c.1, p.2 - c.2) (q.1 - c.1, q.2 - c.2) := by
        unfold DifferentQuadrants
        simp only [mul_comm (q.1 - c.1), mul_comm (q.2 - c.2)]
        tauto
      by_cases hc : π < φ ∧ ¬ DifferentQuadrants (p.1 - c.1, p.2 - c.2) (q.1 - c.1, q.2 - c.2)
      · rw [if_pos hc, if_pos ⟨hc.1, fun h => hc.2 (hq.mp h)⟩]
      · rw [if_neg hc, if_neg (fun h => hc ⟨h.1, fun h' => h.2 (hq.mpr h')⟩)]

/-- An arc with a radius. -/
theorem C128_radius (x y x' y' r : ℝ) : arcR RF x' y' x y r = arcR RF x y x' y' r := by
  have e : dist2 RF x' y' x y = dist2 RF x y x' y' := by
    unfold dist2 len2
    rw [show (x' - x) ^ 2 + (y' - y) ^ 2 = (x - x') ^ 2 + (y - y') ^ 2 by ring]
  unfold arcR
  simp only [e, decide_eq_decide.mpr (same_symm (x := x') (y := y') (x' := x) (y' := y))]

/-! ## Programs -/

/-- A motion. -/
inductive Leg where
  | line (x y z x' y' z' : ℝ)
  | centre (s : Sense) (c p q : ℝ × ℝ)
  | radius (r : ℝ) (p q : ℝ × ℝ)

/-- The motion back. -/
def Leg.back : Leg → Leg
  | .line x y z x' y' z' => .line x' y' z' x y z
  | .centre s c p q => .centre (backwards s) c q p
  | .radius r p q => .radius r q p

/-- What an accepted block does between the states before and after it: a straight move between the positions; an arc in its plane about the centre
in force; an arc with the radius of the block.  An empty block does nothing. -/
def MakesLeg (b : Block) (s s' : St ℝ) : Option Leg → Prop
  | none => b = []
  | some (.line x y z x' y' z') => b ≠ [] ∧ (motionCode b s.g = 0 ∨ motionCode b s.g = 1) ∧
      pos s c!"X" = some x ∧ pos s c!"Y" = some y ∧ pos s c!"Z" = some z ∧
      pos s' c!"X" = some x' ∧ pos s' c!"Y" = some y' ∧ pos s' c!"Z" = some z'
  | some (.centre t c p q) => b ≠ [] ∧ motionCode b s.g = t.code ∧ ArcBlock b s (axesIn b s) ∧ programmed (K := ℝ) b c!"R" = none ∧
      pos s (axesIn b s).u = some p.1 ∧ pos s (axesIn b s).v = some p.2 ∧ pos s' (axesIn b s).u = some q.1 ∧ pos s' (axesIn b s).v = some q.2 ∧
      pos s' (axesIn b s).cu = some (c.1 - p.1) ∧ pos s' (axesIn b s).cv = some (c.2 - p.2) ∧ ∃ r φ, IsArc t c r φ p q
  | some (.radius r p q) => b ≠ [] ∧ ArcBlock b s (axesIn b s) ∧ programmed b c!"R" = some r ∧
      (programmed (K := ℝ) b (axesIn b s).cu = none ∨ programmed (K := ℝ) b (axesIn b s).cv = none) ∧
      pos s (axesIn b s).u = some p.1 ∧ pos s (axesIn b s).v = some p.2 ∧ pos s' (axesIn b s).u = some q.1 ∧ pos s' (axesIn b s).v = some q.2

/-- The motions of a program. -/
inductive MovesAlong (c : Cfg ℝ) (inch : Inch) : Prog → St ℝ × MacroMap ℚ → List Leg → Prop
  | done (p) : MovesAlong c inch [] p []
  | step (l : Int × Block) (t : Prog) (p) (m : Option Leg) (ms : List Leg) : Plain l.2 → MakesLeg l.2 p.1 (evaluate RF c inch l.1 l.2 p).1.1 m →
      MovesAlong c inch t (evaluate RF c inch l.1 l.2 p).1 ms → MovesAlong c inch (l :: t) p (m.toList ++ ms)

/-- The length the code computes. -/
noncomputable def Leg.len : Leg → ℝ
  | .line x y z x' y' z' => dist3 RF x y z x' y' z'
  | .centre s c p q => arcIJ RF p.1 p.2 q.1 q.2 (c.1 - p.1) (c.2 - p.2) s.code
  | .radius r p q => arcR RF p.1 p.2 q.1 q.2 r

/-- A motion that goes round the centre it names. -/
def Leg.Round : Leg → Prop
  | .centre s c p q => ∃ r φ, IsArc s c r φ p q
  | _ => True

theorem back_len {m : Leg} (h : m.Round) : m.back.len = m.len := by
  cases m with
  | line x y z x' y' z' =>
    show dist3 RF x' y' z' x y z = dist3 RF x y z x' y' z'
    unfold dist3 len3
    rw [show (x' - x) ^ 2 + (y' - y) ^ 2 + (z' - z) ^ 2 = (x - x') ^ 2 + (y - y') ^ 2 + (z - z') ^ 2 by ring]
  | centre s c p q => obtain ⟨r, φ, h⟩ := h; exact C128_arc h
  | radius r p q => exact C128_radius _ _ _ _ _

/-- The total of a program is the sum of its motions. -/
theorem moves_total {c : Cfg ℝ} (hc : WF c) (hx : AxesOk c) (hm : c.mtype = .other) (ha : c.autoRapid = false) (inch : Inch) {q : Prog}
    {p : St ℝ × MacroMap ℚ} {ms : List Leg} (h : MovesAlong c inch q p ms) (hp : Inv p.1) (hr : p.1.autoRapid = false) {a : ℝ}
    (hA : p.1.path.total = some a) (hok : (Sml.run RF c inch q p).2 = .ok ()) :
    (Sml.run RF c inch q p).1.1.path.total = some (a + (ms.map Leg.len).sum) ∧ ∀ m ∈ ms, m.Round := by
  induction h generalizing a with
  | done p => exact ⟨by rw [List.map_nil, List.sum_nil, add_zero]; exact hA, by simp⟩
  | step l t p m ms hpl hmk _ ih =>
    unfold Sml.run at hok ⊢
    cases ho : (evaluate RF c inch l.1 l.2 p).2 with
    | throw e => rw [ho] at hok; cases hok
    | ub => rw [ho] at hok; cases hok
    | ok u =>
      rw [ho] at hok
      dsimp only at hok ⊢
      have i1 := evaluate_inv RF hc inch l.1 l.2 p hp
      have i2 := eval_autoRapid ha hr (evaluate_eval RF c inch l.1 l.2 p)
      have hT := C26_path RF c inch l.1 l.2 p hp ho
      have key : (evaluate RF c inch l.1 l.2 p).1.1.path.total = some (a + (m.toList.map Leg.len).sum) ∧ ∀ k ∈ m.toList, k.Round := by
        cases m with
        | none =>
          have hmk : l.2 = [] := hmk
          refine ⟨?_, by simp⟩
          have : (evaluate RF c inch l.1 l.2 p).1.1.path.total = p.1.path.total := by rw [hmk]; rfl
          rw [this, hA]
          simp
        | some m =>
          cases m with
          | line x y z x' y' z' =>
            obtain ⟨hne, hcode, hX, hY, hZ, hX', hY', hZ'⟩ := hmk
            obtain ⟨x1, y1, z1, k1, k2, k3, k4, k5⟩ := C71_line_partial RF hc hx hm inch l.1 l.2 p hp hpl hne (Or.inl hr) hcode ho hX hY hZ
            rw [k1] at hX'
            rw [k2] at hY'
            rw [k3] at hZ'
            cases hX'
            cases hY'
            cases hZ'
            refine ⟨?_, by simp [Leg.Round]⟩
            rw [hT, hA]
            rcases hcode with h | h
            · rw [(k4 h).1, (k4 h).2]; simp [addF, Leg.len]
            · rw [(k5 h).1, (k5 h).2]; simp [addF, Leg.len]
          | centre t c' P Q =>
            obtain ⟨hne, hcode, hArc, hR, hX, hY, hX', hY', hI, hJ, hround⟩ := hmk
            obtain ⟨x1, y1, e1, e2, e3, k⟩ := C29_planes_partial RF hc hx hm inch l.1 l.2 p hp hpl hne (Or.inl hr) hArc ho hX hY
            refine ⟨?_, by simpa [Leg.Round] using hround⟩
            have e1' := e1.symm.trans hX'
            have e2' := e2.symm.trans hY'
            rcases k with ⟨i, j, k1, k2, _, k3⟩ | ⟨r, k1, _⟩
            · have k1' := k1.symm.trans hI
              have k2' := k2.symm.trans hJ
              rw [hT, hA, k3, e3, hcode, Option.some.inj e1', Option.some.inj e2', Option.some.inj k1', Option.some.inj k2',
                show ((t.code : Int)).toNat = t.code by cases t <;> rfl]
              simp [addF, Leg.len]
            · rw [hR] at k1; cases k1
          | radius r P Q =>
            obtain ⟨hne, hArc, hR, hn, hX, hY, hX', hY'⟩ := hmk
            obtain ⟨x1, y1, e1, e2, e3, k⟩ := C29_planes_partial RF hc hx hm inch l.1 l.2 p hp hpl hne (Or.inl hr) hArc ho hX hY
            refine ⟨?_, by simp [Leg.Round]⟩
            have e1' := e1.symm.trans hX'
            have e2' := e2.symm.trans hY'
            rcases k with ⟨i, j, _, _, k3, _⟩ | ⟨r', k1, _, k3⟩
            · exfalso
              rcases k3 with k3 | ⟨k3, k4⟩
              · rw [hR] at k3; cases k3
              · rcases hn with hn | hn
                · rw [k3] at hn; cases hn
                · rw [k4] at hn; cases hn
            · rw [hR] at k1
              cases k1
              rw [hT, hA, k3, e3, Option.some.inj e1', Option.some.inj e2']
              simp [addF, Leg.len]
      obtain ⟨j1, j2⟩ := ih i1 i2 key.1 hok
      refine ⟨?_, ?_⟩
      · rw [j1, List.map_append, List.sum_append, add_assoc]
      · intro k hk
        rcases List.mem_append.mp hk with hk | hk
        · exact key.2 k hk
        · exact j2 k hk

/-- **C128, programs.** Two accepted programs of straight moves and arcs, the second of which makes the motions of the first backwards, add
the same to the path. -/
theorem C128_program {c : Cfg ℝ} (hc : WF c) (hx : AxesOk c) (hm : c.mtype = .other) (ha : c.autoRapid = false) (inch : Inch) {q q' : Prog}
    {p p' : St ℝ × MacroMap ℚ} {ms : List Leg} (h : MovesAlong c inch q p ms) (h' : MovesAlong c inch q' p' (ms.reverse.map Leg.back))
    (hp : Inv p.1) (hp' : Inv p'.1) (hr : p.1.autoRapid = false) (hr' : p'.1.autoRapid = false) {a a' : ℝ}
    (hA : p.1.path.total = some a) (hA' : p'.1.path.total = some a')
    (hok : (Sml.run RF c inch q p).2 = .ok ()) (hok' : (Sml.run RF c inch q' p').2 = .ok ()) :
    ∃ L, (Sml.run RF c inch q p).1.1.path.total = some (a + L) ∧ (Sml.run RF c inch q' p').1.1.path.total = some (a' + L) := by
  obtain ⟨h1, h2⟩ := moves_total hc hx hm ha inch h hp hr hA hok
  obtain ⟨h3, _⟩ := moves_total hc hx hm ha inch h' hp' hr' hA' hok'
  refine ⟨_, h1, ?_⟩
  rw [h3, List.map_map, List.map_reverse, List.sum_reverse]
  congr 3
  apply List.map_congr_left
  intro m hmem
  exact back_len (h2 m hmem)

/-! ## A concrete case -/

section
open SimDemo

/-- A straight move and a quarter turn, and the way back. -/
def thither : Prog := [(1, [w c!"G" c!"1", w c!"X" c!"3", w c!"Y" c!"4", w c!"F" c!"100"]), (2, []),
  (3, [w c!"G" c!"3", wn c!"X" c!"4", w c!"Y" c!"3", wn c!"I" c!"3", wn c!"J" c!"4"])]
def hither : Prog := [(4, [w c!"G" c!"2", w c!"X" c!"3", w c!"Y" c!"4", w c!"I" c!"4", wn c!"J" c!"3"]),
  (5, [w c!"G" c!"1", w c!"X" c!"0", w c!"Y" c!"0"])]

/-- Both are accepted, the second leads back to where the first began, and both add the same, a side of 5 and a quarter of the circle of radius 5. -/
example :
    let p := initial mill
    let e := Sml.run quarters mill false thither (p, [])
    let e' := Sml.run quarters mill false hither e.1
    e.2 = .ok () ∧ e'.2 = .ok () ∧ pos e.1.1 c!"X" = some (-4) ∧ pos e'.1.1 c!"X" = some 0 ∧ pos e'.1.1 c!"Y" = some 0 ∧
      ∃ L, 12 < L ∧ e.1.1.path.total = some (0 + L) ∧ e'.1.1.path.total = some (L + L) := by
  refine ⟨by decide +kernel, by decide +kernel, by decide +kernel, by decide +kernel, by decide +kernel,
    ((Sml.run quarters mill false thither (initial mill, [])).1.1.path.total).getD 0, by decide +kernel, by decide +kernel, by decide +kernel⟩

/-- The blocks are as `MovesAlong` has them. -/
example : (∀ l ∈ thither ++ hither, ∀ d ∈ words l.2, PlainWord d) ∧
    ArcBlock (K := ℚ) [w c!"G" c!"3", wn c!"X" c!"4", w c!"Y" c!"3", wn c!"I" c!"3", wn c!"J" c!"4"] (initial mill) (planeAxes 17) := by
  refine ⟨?_, ⟨by decide +kernel, by decide +kernel, by decide +kernel, by decide +kernel, by decide +kernel⟩⟩
  unfold PlainWord
  decide +kernel

/-- The arcs of the case are arcs about the origin. -/
example : IsArc .ccw (0, 0) 5 (π / 2) (3, 4) (-4, 3) := by
  have hp := Real.pi_pos
  refine arc_of (by norm_num) (by linarith) (by linarith) (by norm_num) ?_ ?_ <;>
    rw [Real.cos_pi_div_two, Real.sin_pi_div_two] <;> simp [Sense.sgn]

end

end NC.Props
