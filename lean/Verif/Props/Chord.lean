import Verif.Props.SimLength
import Verif.Props.Geometry
import Verif.Props.Detour
import Verif.SimDemo

/-!
# C126: an arc is never shorter than its chord
-/

namespace NC.Props
open NC NC.Path NC.Ver NC.AttrPath NC.Spec.Sim NC.Spec.Geo Real

local notation "RF" => realFns

/-- The short arc over a chord that fits into the circle is at least as long as the chord. -/
theorem short_chord {r half : ℝ} (hr : 0 < r) (h0 : 0 ≤ half) (h1 : half ≤ r) : 2 * half ≤ shortAngle RF r half / 180 * π * r := by
  have hp := Real.pi_pos
  have hd : ∀ t : ℝ, t * deg RF * 2 / 180 * π * r = 2 * (t * r) := by
    intro t
    unfold deg realFns
    field_simp
  unfold shortAngle
  rw [hd]
  have key : half ≤ atanDiv RF half ((RF).sqrt |r ^ 2 - half ^ 2|) * r := by
    have z1 : ∀ a b : ℝ, b = 0 → 0 < a → atanDiv RF a b = π / 2 := by
      intro a b h h'
      unfold atanDiv
      rw [if_pos h, if_pos h']
      rfl
    have z2 : ∀ a b : ℝ, b ≠ 0 → atanDiv RF a b = Real.arctan (a / b) := by
      intro a b h
      unfold atanDiv
      rw [if_neg h]
      rfl
    rw [show (RF).sqrt |r ^ 2 - half ^ 2| = √|r ^ 2 - half ^ 2| from rfl]
    have hn : 0 ≤ r ^ 2 - half ^ 2 := by nlinarith
    rw [abs_of_nonneg hn]
    by_cases hs : √(r ^ 2 - half ^ 2) = 0
    · by_cases h2 : 0 < half
      · rw [z1 _ _ hs h2]
        nlinarith [Real.pi_gt_three]
      · have : half = 0 := le_antisymm (not_lt.mp h2) h0
        have h3 := atanDiv_nonneg (a := half) (b := √(r ^ 2 - half ^ 2)) h0 (Real.sqrt_nonneg _)
        have := mul_nonneg h3.1 hr.le
        linarith
    · rw [z2 _ _ hs]
      have hs0 : 0 < √(r ^ 2 - half ^ 2) := lt_of_le_of_ne (Real.sqrt_nonneg _) (Ne.symm hs)
      have hsq : √(r ^ 2 - half ^ 2) ^ 2 = r ^ 2 - half ^ 2 := Real.sq_sqrt hn
      have ht : 0 ≤ half / √(r ^ 2 - half ^ 2) := div_nonneg h0 hs0.le
      have hsin : Real.sin (Real.arctan (half / √(r ^ 2 - half ^ 2))) = half / r := by
        rw [Real.sin_arctan]
        have e : √(1 + (half / √(r ^ 2 - half ^ 2)) ^ 2) = r / √(r ^ 2 - half ^ 2) := by
          rw [show 1 + (half / √(r ^ 2 - half ^ 2)) ^ 2 = (r / √(r ^ 2 - half ^ 2)) ^ 2 by
            rw [div_pow, div_pow, hsq]
            have : r ^ 2 - half ^ 2 ≠ 0 := by rw [← hsq]; positivity
            field_simp
            ring]
          exact Real.sqrt_sq (by positivity)
        rw [e]
        field_simp
      have hle := Real.sin_le (Real.arctan_nonneg.mpr ht)
      rw [hsin, div_le_iff₀ hr] at hle
      exact hle
  linarith

/-- So is every arc over it. -/
theorem angle_chord {r half : ℝ} (hr : 0 < r) (h0 : 0 ≤ half) (h1 : half ≤ r) (long same : Bool) :
    2 * half ≤ arcAngle RF long same r half / 180 * π * r := by
  have hp := Real.pi_gt_three
  have hs := short_chord hr h0 h1
  have hb := shortAngle_bounds (r := r) h0
  unfold arcAngle
  split
  · nlinarith
  · split
    · refine le_trans hs ?_
      have : shortAngle RF r half / 180 ≤ (360 - shortAngle RF r half) / 180 := by linarith [hb.2]
      have hpr : 0 ≤ π * r := by positivity
      nlinarith
    · exact hs

/-- **C126, by the centre.** (`_partial`: the chord fits into the circle, whose radius is not within the tolerance.) -/
theorem C126_centre_partial (xp yp xc yc i j : ℝ) (dir : Nat) (ht : tol ≤ (π - 1) * √(i ^ 2 + j ^ 2))
    (hf : √((xp - xc) ^ 2 + (yp - yc) ^ 2) ≤ 2 * √(i ^ 2 + j ^ 2)) :
    √((xp - xc) ^ 2 + (yp - yc) ^ 2) ≤ arcIJ RF xp yp xc yc i j dir := by
  have hp := Real.pi_gt_three
  have hr : 0 < √(i ^ 2 + j ^ 2) := by
    rcases (Real.sqrt_nonneg (i ^ 2 + j ^ 2)).lt_or_eq with h | h
    · exact h
    · rw [← h, mul_zero] at ht
      exact absurd tol_pos (not_lt.mpr ht)
  rw [arcIJ_eq, if_neg (by rw [tiny_iff (Real.sqrt_nonneg _)]; exact not_lt.mpr ht)]
  have := angle_chord (half := √((xp - xc) ^ 2 + (yp - yc) ^ 2) / 2) hr (by positivity) (by linarith)
    (longArc RF dir (-i) (-j) (xc - (xp + i)) (yc - (yp + j))) (decide (samePoint xp yp xc yc))
  linarith

/-- **C126, by the radius.** (`_partial`: as before.) -/
theorem C126_radius_partial (xp yp xc yc rc : ℝ) (ht : tol ≤ (π - 1) * |rc|) (hf : √((xp - xc) ^ 2 + (yp - yc) ^ 2) ≤ 2 * |rc|) :
    √((xp - xc) ^ 2 + (yp - yc) ^ 2) ≤ arcR RF xp yp xc yc rc := by
  have hp := Real.pi_gt_three
  have hr : 0 < |rc| := by
    rcases (abs_nonneg rc).lt_or_eq with h | h
    · exact h
    · rw [← h, mul_zero] at ht
      exact absurd tol_pos (not_lt.mpr ht)
  unfold arcR
  simp only
  rw [if_neg (by rw [tiny_iff (abs_nonneg _)]; exact not_lt.mpr ht)]
  have := angle_chord (half := dist2 RF xp yp xc yc / 2) hr (by unfold dist2 len2 realFns; positivity)
    (by unfold dist2 len2 realFns; simp only; linarith) (decide (rc < 0)) (decide (samePoint xp yp xc yc))
  have e : dist2 RF xp yp xc yc = √((xp - xc) ^ 2 + (yp - yc) ^ 2) := rfl
  rw [show 2 * (dist2 RF xp yp xc yc / 2) = dist2 RF xp yp xc yc by ring] at this
  rw [← e]
  exact this

/-- The axes of the plane a block moves in. -/
abbrev axesIn (b : Block) (s : St ℝ) : PlaneAxes := planeAxes (planeCode b (planeNum s.plane))

/-- The radius of an arc: that of its centre, or the one programmed if no centre is. -/
def Radius (b : Block) (s s' : St ℝ) (r : ℝ) : Prop :=
  (∃ i j, pos s' (axesIn b s).cu = some i ∧ pos s' (axesIn b s).cv = some j ∧
    (programmed (K := ℝ) b c!"R" = none ∨ (programmed b (axesIn b s).cu = some i ∧ programmed b (axesIn b s).cv = some j)) ∧
    r = √(i ^ 2 + j ^ 2)) ∨
  ∃ q, programmed b c!"R" = some q ∧ (programmed (K := ℝ) b (axesIn b s).cu = none ∨ programmed (K := ℝ) b (axesIn b s).cv = none) ∧ r = |q|

/-- **C126, a block.** The reported length of an arc in any plane is at least the distance of the positions before and after it.
(`_partial`: with a radius that is not within the tolerance and large enough for the arc to reach its end.) -/
theorem C126_block_partial {c : Cfg ℝ} (hc : WF c) (hx : AxesOk c) (hm : c.mtype = .other) (inch : Inch)
    (line : Int) (b : Block) (p : St ℝ × MacroMap ℚ) (hp : Inv p.1) (hb : Plain b) (hne : b ≠ [])
    (hr : NotPending p.1 b) (hA : ArcBlock b p.1 (axesIn b p.1))
    (h : (evaluate RF c inch line b p).2 = .ok ()) {x y : ℝ}
    (hX : pos p.1 (axesIn b p.1).u = some x) (hY : pos p.1 (axesIn b p.1).v = some y) :
    ∃ x' y' r L, pos (evaluate RF c inch line b p).1.1 (axesIn b p.1).u = some x' ∧
      pos (evaluate RF c inch line b p).1.1 (axesIn b p.1).v = some y' ∧
      (evaluate RF c inch line b p).1.1.path.work = some L ∧ (evaluate RF c inch line b p).1.1.path.fast = some 0 ∧
      Radius b p.1 (evaluate RF c inch line b p).1.1 r ∧
      (tol ≤ (π - 1) * r → √((x - x') ^ 2 + (y - y') ^ 2) ≤ 2 * r → √((x - x') ^ 2 + (y - y') ^ 2) ≤ L) := by
  obtain ⟨x', y', e1, e2, e3, k⟩ := C29_planes_partial RF hc hx hm inch line b p hp hb hne hr hA h hX hY
  rcases k with ⟨i, j, k1, k2, k4, k3⟩ | ⟨q, k1, k4, k3⟩
  · exact ⟨x', y', √(i ^ 2 + j ^ 2), _, e1, e2, k3, e3, Or.inl ⟨i, j, k1, k2, k4, rfl⟩, fun ht hf => C126_centre_partial _ _ _ _ _ _ _ ht hf⟩
  · exact ⟨x', y', |q|, _, e1, e2, k3, e3, Or.inr ⟨q, k1, k4, rfl⟩, fun ht hf => C126_radius_partial _ _ _ _ _ ht hf⟩

/-- A block that moves straight, or along an arc that can reach its end and whose radius is not within the tolerance. -/
def FitBlock (b : Block) (s s' : St ℝ) : Prop :=
  (motionCode b s.g = 0 ∨ motionCode b s.g = 1) ∨
  (b ≠ [] ∧ ArcBlock b s (axesIn b s) ∧
    ∀ r, Radius b s s' r → tol ≤ (π - 1) * r ∧
      ∀ x y x' y', pos s (axesIn b s).u = some x → pos s (axesIn b s).v = some y → pos s' (axesIn b s).u = some x' →
        pos s' (axesIn b s).v = some y' → √((x - x') ^ 2 + (y - y') ^ 2) ≤ 2 * r)

/-- Every block of the program, where it stands. -/
def AllFit (c : Cfg ℝ) (inch : Inch) : Prog → St ℝ × MacroMap ℚ → Prop
  | [], _ => True
  | l :: t, p => Plain l.2 ∧ FitBlock l.2 p.1 (evaluate RF c inch l.1 l.2 p).1.1 ∧ AllFit c inch t (evaluate RF c inch l.1 l.2 p).1

/-- A block is at least as long as the distance of its ends in space. -/
theorem fit_block {c : Cfg ℝ} (hc : WF c) (hx : AxesOk c) (hm : c.mtype = .other) (inch : Inch) (line : Int) (b : Block)
    (p : St ℝ × MacroMap ℚ) (hp : Inv p.1) (hr : p.1.autoRapid = false) (hb : Plain b) (hne : b ≠ [])
    (hf : FitBlock b p.1 (evaluate RF c inch line b p).1.1) (h : (evaluate RF c inch line b p).2 = .ok ()) {x y z a : ℝ}
    (hX : pos p.1 c!"X" = some x) (hY : pos p.1 c!"Y" = some y) (hZ : pos p.1 c!"Z" = some z) (hA : p.1.path.total = some a) :
    ∃ x' y' z' L, pos (evaluate RF c inch line b p).1.1 c!"X" = some x' ∧ pos (evaluate RF c inch line b p).1.1 c!"Y" = some y' ∧
      pos (evaluate RF c inch line b p).1.1 c!"Z" = some z' ∧ (evaluate RF c inch line b p).1.1.path.total = some (a + L) ∧
      dist3 RF x y z x' y' z' ≤ L := by
  have hT := C26_path RF c inch line b p hp h
  rcases hf with hcode | ⟨_, hArc, hR⟩
  · obtain ⟨x1, y1, z1, k1, k2, k3, k4, k5⟩ := C71_line_partial RF hc hx hm inch line b p hp hb hne (Or.inl hr) hcode h hX hY hZ
    refine ⟨x1, y1, z1, dist3 RF x y z x1 y1 z1, k1, k2, k3, ?_, le_refl _⟩
    rw [hT, hA]
    rcases hcode with h | h
    · rw [(k4 h).1, (k4 h).2]; simp [addF]
    · rw [(k5 h).1, (k5 h).2]; simp [addF]
  · have hg' : motionCode b p.1.g ∈ ([0, 1, 2, 3] : List Int) := by rcases hArc.code with h | h <;> rw [h] <;> decide
    obtain ⟨_, _, _, _, _, _, _, _, _, _, _, _, _, _, _, _, _, _, _, w3⟩ := plain_motion RF hx inch line p hb hne (Or.inl hr) hg' h
    have hdr : (isDrill (evaluate RF c inch line b p).1.1.g || isDrillQ (evaluate RF c inch line b p).1.1.g) = false := by
      rw [w3]; rcases hArc.code with h | h <;> rw [h] <;> decide
    have hpos := fun a ha hq => C25_position RF hc hx inch line b p hp hb h a ha hq (fun _ => hdr)
    have hstay : ∀ k, k ∈ gcodeParams c → k ≠ c!"Q" ∧ k ≠ c!"L" → programmed (K := ℝ) b k = none →
        pos (evaluate RF c inch line b p).1.1 k = pos p.1 k := by
      intro k hk hq hn
      rw [hpos k hk hq]
      unfold moved
      rw [hn]
    have hflat := hArc.flat
    have hblock := fun (u v : ℝ) (hu : pos p.1 (axesIn b p.1).u = some u) (hv : pos p.1 (axesIn b p.1).v = some v) =>
      C126_block_partial hc hx hm inch line b p hp hb hne (Or.inl hr) hArc h hu hv
    have htot : ∀ L, (evaluate RF c inch line b p).1.1.path.work = some L → (evaluate RF c inch line b p).1.1.path.fast = some 0 →
        (evaluate RF c inch line b p).1.1.path.total = some (a + L) := by
      intro L h1 h2
      rw [hT, hA, h1, h2]
      simp [addF]
    have e : axesIn b p.1 = ⟨c!"X", c!"Z", c!"Y", c!"I", c!"K"⟩ ∨ axesIn b p.1 = ⟨c!"Y", c!"Z", c!"X", c!"J", c!"K"⟩ ∨
        axesIn b p.1 = ⟨c!"X", c!"Y", c!"Z", c!"I", c!"J"⟩ := by
      unfold axesIn planeAxes
      split
      · exact Or.inl rfl
      · split
        · exact Or.inr (Or.inl rfl)
        · exact Or.inr (Or.inr rfl)
    have d3 : ∀ x y z x' y' z', dist3 RF x y z x' y' z' = √((x - x') ^ 2 + (y - y') ^ 2 + (z - z') ^ 2) := fun _ _ _ _ _ _ => rfl
    rcases e with e | e | e
    · obtain ⟨x', z', r, L, k1, k2, k3, k4, k5, k6⟩ := hblock x z (by rw [e]; exact hX) (by rw [e]; exact hZ)
      obtain ⟨t1, t2⟩ := hR r k5
      have t3 := k6 t1 (t2 x z x' z' (by rw [e]; exact hX) (by rw [e]; exact hZ) k1 k2)
      rw [e] at k1 k2 hflat
      refine ⟨x', y, z', L, k1, (hstay c!"Y" (param_mem (by decide)) (by decide) hflat).trans hY, k2, htot L k3 k4, ?_⟩
      rw [d3, show (x - x') ^ 2 + (y - y) ^ 2 + (z - z') ^ 2 = (x - x') ^ 2 + (z - z') ^ 2 by ring]
      exact t3
    · obtain ⟨y', z', r, L, k1, k2, k3, k4, k5, k6⟩ := hblock y z (by rw [e]; exact hY) (by rw [e]; exact hZ)
      obtain ⟨t1, t2⟩ := hR r k5
      have t3 := k6 t1 (t2 y z y' z' (by rw [e]; exact hY) (by rw [e]; exact hZ) k1 k2)
      rw [e] at k1 k2 hflat
      refine ⟨x, y', z', L, (hstay c!"X" (param_mem (by decide)) (by decide) hflat).trans hX, k1, k2, htot L k3 k4, ?_⟩
      rw [d3, show (x - x) ^ 2 + (y - y') ^ 2 + (z - z') ^ 2 = (y - y') ^ 2 + (z - z') ^ 2 by ring]
      exact t3
    · obtain ⟨x', y', r, L, k1, k2, k3, k4, k5, k6⟩ := hblock x y (by rw [e]; exact hX) (by rw [e]; exact hY)
      obtain ⟨t1, t2⟩ := hR r k5
      have t3 := k6 t1 (t2 x y x' y' (by rw [e]; exact hX) (by rw [e]; exact hY) k1 k2)
      rw [e] at k1 k2 hflat
      refine ⟨x', y', z, L, k1, k2, (hstay c!"Z" (param_mem (by decide)) (by decide) hflat).trans hZ, htot L k3 k4, ?_⟩
      rw [d3, show (x - x') ^ 2 + (y - y') ^ 2 + (z - z) ^ 2 = (x - x') ^ 2 + (y - y') ^ 2 by ring]
      exact t3

/-- **C126, a program.** An accepted program of straight moves and arcs takes at least the distance from where it begins to where it ends.
(`_partial`: the arcs can reach their ends and their radii are not within the tolerance.) -/
theorem C126_program_partial {c : Cfg ℝ} (hc : WF c) (hx : AxesOk c) (hm : c.mtype = .other) (ha : c.autoRapid = false) (inch : Inch)
    (q : Prog) (p : St ℝ × MacroMap ℚ) (hq : AllFit c inch q p) (hp : Inv p.1) (hr : p.1.autoRapid = false) {x y z a : ℝ}
    (hX : pos p.1 c!"X" = some x) (hY : pos p.1 c!"Y" = some y) (hZ : pos p.1 c!"Z" = some z)
    (hA : p.1.path.total = some a) (hok : (Sml.run RF c inch q p).2 = .ok ()) :
    ∃ x' y' z' b, pos (Sml.run RF c inch q p).1.1 c!"X" = some x' ∧ pos (Sml.run RF c inch q p).1.1 c!"Y" = some y' ∧
      pos (Sml.run RF c inch q p).1.1 c!"Z" = some z' ∧ (Sml.run RF c inch q p).1.1.path.total = some b ∧
      dist (pt x y z) (pt x' y' z') ≤ b - a := by
  induction q generalizing p x y z a with
  | nil => exact ⟨x, y, z, a, hX, hY, hZ, hA, by rw [dist_self, sub_self]⟩
  | cons l t ih =>
    obtain ⟨q1, q2, q3⟩ := hq
    unfold Sml.run at hok ⊢
    cases ho : (evaluate RF c inch l.1 l.2 p).2 with
    | throw e => rw [ho] at hok; cases hok
    | ub => rw [ho] at hok; cases hok
    | ok u =>
      rw [ho] at hok
      dsimp only at hok ⊢
      have i1 := evaluate_inv RF hc inch l.1 l.2 p hp
      have i2 := eval_autoRapid ha hr (evaluate_eval RF c inch l.1 l.2 p)
      by_cases hne : l.2 = []
      · have e : (evaluate RF c inch l.1 l.2 p).1 = (clearMotions p.1, p.2) := by rw [hne]; rfl
        rw [e] at hok i1 i2 q3 ⊢
        exact ih _ q3 i1 i2 hX hY hZ hA hok
      · obtain ⟨x1, y1, z1, L, k1, k2, k3, k4, k5⟩ := fit_block hc hx hm inch l.1 l.2 p hp hr q1 hne q2 ho hX hY hZ hA
        obtain ⟨x2, y2, z2, b, j1, j2, j3, j4, j5⟩ := ih _ q3 i1 i2 k1 k2 k3 k4 hok
        refine ⟨x2, y2, z2, b, j1, j2, j3, j4, ?_⟩
        have := dist_triangle (pt x y z) (pt x1 y1 z1) (pt x2 y2 z2)
        rw [C29_line] at k5
        linarith

/-- **C126 is violated by an arc that cannot reach its end**: over a distance of 100 with a radius of 1 (PathCalculator.cpp:42-49, 177-184). -/
theorem C126_violated_reach : arcR RF 0 0 100 0 1 < √((0 - 100 : ℝ) ^ 2 + (0 - 0) ^ 2) ∧
    ∀ dir, arcIJ RF 0 0 100 0 1 0 dir < √((0 - 100 : ℝ) ^ 2 + (0 - 0) ^ 2) := by
  have hp := Real.pi_lt_four
  have e : √((0 - 100 : ℝ) ^ 2 + (0 - 0) ^ 2) = 100 := by
    rw [show ((0 - 100 : ℝ) ^ 2 + (0 - 0) ^ 2) = 100 ^ 2 by norm_num]
    exact Real.sqrt_sq (by norm_num)
  rw [e]
  constructor
  · have := (C29_arc_bounds_R 0 0 100 0 1).2
    rw [abs_one] at this
    linarith
  · intro dir
    have := (C29_arc_bounds 0 0 100 0 1 0 dir).2
    have e1 : √((1 : ℝ) ^ 2 + 0 ^ 2) = 1 := by norm_num
    rw [e1] at this
    linarith

/-! ## Concrete cases -/

/-- A quarter of a circle of radius 5. -/
example : tol ≤ (π - 1) * |(5 : ℝ)| ∧ √((0 - 5 : ℝ) ^ 2 + (0 - 5) ^ 2) ≤ 2 * |(5 : ℝ)| := by
  have hp := Real.pi_gt_three
  rw [abs_of_pos (by norm_num)]
  constructor
  · unfold tol; linarith
  · rw [Real.sqrt_le_left (by norm_num)]
    norm_num

/-- A quarter of a circle of radius 5 by its centre, between positions it reaches: the block is an arc and its radius fits. -/
example :
    let b : Block := [SimDemo.w c!"G" c!"3", SimDemo.w c!"X" c!"5", SimDemo.w c!"Y" c!"5", SimDemo.w c!"I" c!"0", SimDemo.w c!"J" c!"5"]
    (words b).filterMap motionWord = [3] ∧ programmed (K := ℚ) b c!"J" = some 5 ∧ programmed (K := ℚ) b c!"Z" = none ∧
      programmed (K := ℚ) b c!"R" = none ∧ ((0 - 5 : ℚ) ^ 2 + (0 - 5) ^ 2 ≤ (2 * 5) ^ 2) := by
  decide +kernel

section
open SimDemo

/-- The functions with the largest angle the arctangent can have. -/
def widest : Fns ℚ := { qf with atan := fun _ => 11 / 7 }

/-- The block is accepted (AttributesPathCalculator.cpp:738-1100 does not compare the radii), and goes on from the end it cannot reach. -/
theorem C126_violated_accepted :
    let b : Block := [w c!"G" c!"2", w c!"X" c!"100", w c!"R" c!"1", w c!"F" c!"100"]
    (evaluate widest mill false 1 b (start mill)).2 = .ok () ∧
      pos (start mill).1 c!"X" = some 0 ∧ pos (evaluate widest mill false 1 b (start mill)).1.1 c!"X" = some 100 ∧
      (evaluate widest mill false 1 b (start mill)).1.1.path.work = some (22 / 7) := by
  decide +kernel

end
end NC.Props
