import Verif.Props.SimTotals
import Verif.Props.Geometry

/-!
# Properties of the simulation of blocks: totals do not decrease

Over the real numbers.
-/

namespace NC.Props
open NC NC.Path NC.Ver NC.AttrPath NC.Spec.Sim Real

local notation "RF" => realFns

/-- A number, if there is one, is not negative. -/
def NonNeg (x : Fl ℝ) : Prop := ∀ y, x = some y → 0 ≤ y

theorem nonNeg_zero : NonNeg (some 0) := by intro y h; cases h; exact le_refl _

theorem nonNeg_some {x : ℝ} (h : 0 ≤ x) : NonNeg (some x) := by intro y e; cases e; exact h

theorem nonNeg_none : NonNeg none := by intro y e; cases e

theorem nonNeg_add {x y : Fl ℝ} (hx : NonNeg x) (hy : NonNeg y) : NonNeg (addF x y) := by
  intro z h
  cases x with
  | none => cases h
  | some a =>
    cases y with
    | none => cases h
    | some b => cases h; exact add_nonneg (hx a rfl) (hy b rfl)

/-- The block's motions are not negative. -/
def MNonNeg (s : St ℝ) : Prop := NonNeg s.path.work ∧ NonNeg s.path.fast

theorem sqrt_nonNeg (x : ℝ) : 0 ≤ realFns.sqrt x := Real.sqrt_nonneg x

theorem pi_nonNeg : 0 ≤ realFns.pi := Real.pi_pos.le

theorem len2_nonNeg (x y : ℝ) : 0 ≤ len2 RF x y := sqrt_nonNeg _

theorem circle2_nonNeg (x y : ℝ) : 0 ≤ circle2 RF x y :=
  mul_nonneg (mul_nonneg (by norm_num) pi_nonNeg) (len2_nonNeg _ _)

theorem archimedes_nonNeg (l : ℝ) {r : ℝ} (hr : 0 ≤ r) : NonNeg (archimedes RF l r) := by
  unfold archimedes
  split
  · exact nonNeg_none
  · rename_i hl
    have hp := Real.pi_pos
    apply nonNeg_some
    show 0 ≤ r / (l * 2 * π) / 2 * (l * 2 * π * √(1 + (l * 2 * π) ^ 2) + Real.log (l * 2 * π + √(1 + (l * 2 * π) ^ 2)))
    have ht : l * 2 * π ≠ 0 := by positivity
    generalize l * 2 * π = t at ht
    have hs : √(1 + t ^ 2) ^ 2 = 1 + t ^ 2 := Real.sq_sqrt (by positivity)
    have h1 : 1 ≤ √(1 + t ^ 2) := by
      rw [Real.one_le_sqrt]; nlinarith [sq_nonneg t]
    rcases lt_or_gt_of_ne ht with h | h
    · have h2 : t + √(1 + t ^ 2) ≤ 1 := by
        nlinarith [Real.sqrt_nonneg (1 + t ^ 2)]
      have h3 : 0 ≤ t + √(1 + t ^ 2) := by
        have := Real.abs_le_sqrt (show t ^ 2 ≤ 1 + t ^ 2 by linarith)
        have := neg_abs_le t
        linarith
      have h4 := Real.log_nonpos h3 h2
      have h5 : t * √(1 + t ^ 2) ≤ 0 := mul_nonpos_of_nonpos_of_nonneg h.le (by linarith)
      have h6 : r / t / 2 ≤ 0 := by
        apply div_nonpos_of_nonpos_of_nonneg _ (by norm_num)
        exact div_nonpos_of_nonneg_of_nonpos hr h.le
      exact mul_nonneg_of_nonpos_of_nonpos h6 (by linarith)
    · have h4 : 0 ≤ Real.log (t + √(1 + t ^ 2)) := Real.log_nonneg (by linarith)
      have h5 : 0 ≤ t * √(1 + t ^ 2) := mul_nonneg h.le (by linarith)
      exact mul_nonneg (by positivity) (by linarith)

theorem cancelBy_nonNeg {c : Cfg ℝ} {g : Int} {s : St ℝ} (h : MNonNeg s) : MNonNeg (cancelBy c g s) := by
  unfold cancelBy
  split
  · exact h
  · exact h

theorem setMotion_nonNeg {g : Int} {x : ℝ} (hx : 0 ≤ x) {s : St ℝ} (h : MNonNeg s) :
    MNonNeg (setMotion g (some x) s) := by
  unfold setMotion
  split
  · exact ⟨h.1, nonNeg_some hx⟩
  · exact ⟨nonNeg_some hx, h.2⟩

theorem linear_nonNeg (c : Cfg ℝ) (v : Vis ℝ) (cur : Cur ℝ) {s : St ℝ} (h : MNonNeg s) :
    MNonNeg (linear RF c v cur s).1 := by
  unfold linear
  have h := cancelBy_nonNeg (c := c) (g := cur.g) h
  generalize cancelBy c cur.g s = s1 at h ⊢
  split
  · unfold linearAbs
    split
    · exact h
    · exact h
    · exact h
    · split
      · exact setMotion_nonNeg (sqrt_nonNeg _) h
      · exact h
  · unfold linearIncr
    split
    · exact h
    · split
      · exact h
      · split
        · exact h
        · exact setMotion_nonNeg (sqrt_nonNeg _) h

theorem spiral_nonNeg (ax : Axes) {s : St ℝ} (w : CW ℝ) (h : MNonNeg s) : MNonNeg (spiral RF ax s w).1.1 := by
  unfold spiral
  dsimp only
  split
  · exact h
  · exact h
  · split
    · refine ⟨?_, h.2⟩
      unfold setWork archimedesQ
      dsimp only
      split
      · exact nonNeg_none
      · exact archimedes_nonNeg _ (len2_nonNeg _ _)
    · exact ⟨archimedes_nonNeg _ (len2_nonNeg _ _), h.2⟩
    · exact h

theorem helixStart_nonNeg (ax : Axes) {s : St ℝ} (w : CW ℝ) (h : MNonNeg s) : MNonNeg (helixStart ax s w).1.1.1 := by
  unfold helixStart
  split
  · split
    · split
      · exact h
      · split
        · exact h
        · exact h
    · exact h
  · exact h

theorem turn_nonNeg {q : Bool} {dz : ℝ} {w : CW ℝ} {t : ℝ} (h : turn RF q dz w = .ok t) : 0 ≤ t := by
  unfold turn at h
  split at h
  · cases h
    split
    · exact div_nonneg (circle2_nonNeg _ _) (by norm_num)
    · exact circle2_nonNeg _ _
  · cases h
    split
    · exact div_nonneg (circle2_nonNeg _ _) (by norm_num)
    · exact circle2_nonNeg _ _
  · cases h

theorem setTurn_nonNeg (q l : Bool) (dz : Option ℝ) {s : St ℝ} (w : CW ℝ) (h : MNonNeg s) :
    MNonNeg (setTurn RF q l dz s w).1.1 := by
  unfold setTurn
  split
  · exact h
  · split
    · rename_i ht
      refine ⟨nonNeg_some ?_, h.2⟩
      split
      · exact div_nonneg (turn_nonNeg ht) (by norm_num)
      · exact turn_nonNeg ht
    · exact h
    · exact h

theorem endHelix_nonNeg {p : CPart ℝ} (h : MNonNeg p.1.1) : MNonNeg (endHelix p).1.1 := by
  unfold endHelix
  split
  · exact h
  · exact h

theorem helixIncr_nonNeg (first : Bool) {s : St ℝ} (w : CW ℝ) (h : MNonNeg s) :
    MNonNeg (helixIncr RF first s w).1.1 := by
  unfold helixIncr
  split
  · split
    · exact setTurn_nonNeg _ _ _ _ h
    · exact endHelix_nonNeg (setTurn_nonNeg _ _ _ _ h)
  · split
    · exact setTurn_nonNeg _ _ _ _ h
    · exact h
  · exact h

theorem helixAbs_nonNeg {s : St ℝ} (w : CW ℝ) (h : MNonNeg s) : MNonNeg (helixAbs RF s w).1.1 := by
  unfold helixAbs
  split
  · split
    · exact setTurn_nonNeg _ _ _ _ h
    · exact endHelix_nonNeg (setTurn_nonNeg _ _ _ _ h)
  · split
    · exact h
    · split
      · split
        · exact h
        · split
          · exact setTurn_nonNeg _ _ _ _ h
          · exact h
      · exact h
  · exact h

theorem helixStep_nonNeg (ax : Axes) (incr first : Bool) {p : CPart ℝ} (h : MNonNeg p.1.1) :
    MNonNeg (helixStep RF ax incr first p).1.1 := by
  unfold helixStep
  split
  · split
    · exact h
    · unfold helixRun
      dsimp only
      split
      · exact h
      · split
        · exact h
        · split
          · exact helixIncr_nonNeg _ _ h
          · exact helixAbs_nonNeg _ h
  · exact h

theorem arcStep_nonNeg (c : Cfg ℝ) (cur : Cur ℝ) (ax : Axes) {p : CPart ℝ} (h : MNonNeg p.1.1) :
    MNonNeg (arcStep RF c cur ax p).1 := by
  unfold arcStep
  split
  · split
    · unfold arc
      dsimp only
      split
      · exact ⟨nonNeg_some (C29_arc_bounds _ _ _ _ _ _ _).1, h.2⟩
      · exact ⟨nonNeg_some (C29_arc_bounds_R _ _ _ _ _).1, h.2⟩
      · exact h
    · exact h
  · exact h
  · exact h
  · exact h

theorem circular_nonNeg (c : Cfg ℝ) (v : Vis ℝ) (cur : Cur ℝ) {s : St ℝ} (h : MNonNeg s) :
    MNonNeg (circular RF c v cur s).1 := by
  unfold circular
  split
  · exact h
  · dsimp only
    have h := cancelBy_nonNeg (c := c) (g := cur.g) h
    split
    · exact h
    · exact h
    · unfold circularFrom
      dsimp only
      split
      · exact arcStep_nonNeg _ _ _ (helixStep_nonNeg _ _ _ (spiral_nonNeg _ _ h))
      · exact arcStep_nonNeg _ _ _ (helixStep_nonNeg _ _ _ (helixStart_nonNeg _ _ h))

theorem motion_nonNeg (c : Cfg ℝ) (v : Vis ℝ) (cur : Cur ℝ) {s : St ℝ} (h : MNonNeg s)
    (hd : (isDrill cur.g || isDrillQ cur.g) = false) : MNonNeg (motion RF c v cur s).1 := by
  rw [Bool.or_eq_false_iff] at hd
  unfold motion
  split
  · exact linear_nonNeg c v cur h
  · split
    · exact circular_nonNeg c v cur h
    · split
      · exact h
      · rw [if_neg (by rw [hd.1, hd.2]; simp)]
        exact h

/-- Does a G word select a drilling cycle? -/
def Drills (d : Dec) : Prop := d.word = c!"G" ∧ ∃ n, code d = some n ∧ (isDrill n || isDrillQ n) = true

/-- The motion code a word selects. -/
def motionOf : Act ℝ → Option Int
  | .code (.motion n) _ => some n
  | _ => none

theorem on_motion (r : Vis ℝ) (x : Act ℝ) : (Act.on r x).g = (motionOf x).or r.g := by
  cases x with
  | code k t => cases k <;> rfl
  | _ => rfl

theorem gKind_motion_eq {n m : Int} (h : gKind n = .motion m) : m = n := by
  unfold gKind at h
  by_cases h1 : n = 17
  · rw [if_pos h1] at h; cases h
  rw [if_neg h1] at h
  by_cases h2 : n = 18
  · rw [if_pos h2] at h; cases h
  rw [if_neg h2] at h
  by_cases h3 : n = 19
  · rw [if_pos h3] at h; cases h
  rw [if_neg h3] at h
  split at h
  · cases h; rfl
  · exact absurd h (modeKind_ne n m)

theorem visitAll_noDrill {c : Cfg ℝ} (hc : AxesOk c) {v : Vis ℝ} {b : Block} (hb : ∀ d ∈ words b, ¬ Drills d)
    (h : visitAll c {} b = .ok v) : ∀ g, v.g = some g → (isDrill g || isDrillQ g) = false := by
  refine visitAll_words (P := fun _ r => ∀ g, r.g = some g → (isDrill g || isDrillQ g) = false) (by rfl) h []
    (by intro g hg; cases hg) ?_ ?_ ?_
  · intro ds r d x hm hp hr g hg
    rw [on_motion] at hg
    by_cases hw : d.word = c!"G"
    · rw [readWord_code_of hc hw] at hr
      rcases readCode_code hr with ⟨_, rfl⟩ | ⟨n, t, h2, rfl⟩
      · exact hp g hg
      · cases hk : gKind n with
        | motion m =>
          rw [hk] at hg
          cases hg
          rw [Bool.eq_false_iff]
          intro e
          rw [gKind_motion_eq hk] at e
          exact hb d hm ⟨hw, n, h2, e⟩
        | _ => rw [hk] at hg; exact hp g hg
    · have h0 := readWord_not_code hw hr
      cases x with
      | code k t => exact absurd rfl (h0 k t)
      | _ => exact hp g hg
  · intro ds r p m hp; exact hp
  · intro ds r hp; exact hp

theorem ready_nonNeg (c : Cfg ℝ) (v : Vis ℝ) (s : St ℝ) :
    MNonNeg (started c v (dwell v (exchanged c v (begun c v s)))) := by
  have hr := ready_fields c v s
  dsimp only at hr
  constructor
  · rw [hr.2.2.2.2.2.2.2.2.2.2.2.1]; exact nonNeg_zero
  · rw [hr.2.2.2.2.2.2.2.2.2.2.2.2.1]; exact nonNeg_zero

theorem ready_noDrill {c : Cfg ℝ} {v : Vis ℝ} {s : St ℝ} (hg : (isDrill s.g || isDrillQ s.g) = false)
    (hv : ∀ g, v.g = some g → (isDrill g || isDrillQ g) = false) :
    (isDrill (current v (started c v (dwell v (exchanged c v (begun c v s))))).g ||
      isDrillQ (current v (started c v (dwell v (exchanged c v (begun c v s))))).g) = false := by
  have hr := ready_fields c v s
  dsimp only at hr
  unfold current
  dsimp only
  cases h : v.g with
  | some g => exact hv g h
  | none =>
    show (isDrill (started c v (dwell v (exchanged c v (begun c v s)))).g || isDrillQ _) = false
    rcases hr.2.1 with e | e
    · rw [e]; exact hg
    · rw [e]; rfl

/-- **C26.** The total path never decreases, whether the block succeeds or fails, as long as no drilling
cycle is active. -/
theorem C26_path_grows_partial {c : Cfg ℝ} (hc : AxesOk c) (inch : Inch) (line : Int) (b : Block)
    (p : St ℝ × MacroMap ℚ) (hg : (isDrill p.1.g || isDrillQ p.1.g) = false) (hb : ∀ d ∈ words b, ¬ Drills d)
    {x y : ℝ} (hx : p.1.path.total = some x)
    (hy : (evaluate RF c inch line b p).1.1.path.total = some y) : x ≤ y := by
  have key : (evaluate RF c inch line b p).1.1.path.total = p.1.path.total ∨
      ∃ z, NonNeg z ∧ (evaluate RF c inch line b p).1.1.path.total = addF p.1.path.total z := by
    have h := evaluate_eval RF c inch line b p
    generalize (evaluate RF c inch line b p).1.1 = s' at h
    generalize (evaluate RF c inch line b p).2 = o at h
    cases h with
    | empty hb => exact Or.inl rfl
    | unread e _ => exact Or.inl rfl
    | unreadUb _ => exact Or.inl rfl
    | alone v t hv ht ha hw =>
      left
      obtain ⟨y, hy⟩ := fetchTool_fields c (storeTool c (begun c v p.1))
      obtain ⟨x, hx⟩ := begun_addTime c v p.1
      unfold copySt
      dsimp only
      rw [hy, hx]; rfl
    | aloneErr v t n hv ht ha hw =>
      left
      obtain ⟨y, hy⟩ := fetchTool_fields c (storeTool c (begun c v p.1))
      obtain ⟨x, hx⟩ := begun_addTime c v p.1
      rw [hy, hx]; rfl
    | badTool v t e hv ht ha hq =>
      left
      obtain ⟨x, hx⟩ := begun_addTime c v p.1
      rw [hx]; rfl
    | badToolUb v t hv ht ha hq =>
      left
      obtain ⟨x, hx⟩ := begun_addTime c v p.1
      rw [hx]; rfl
    | before v hv ht ha hb hr hg hvg =>
      left
      obtain ⟨x, hx⟩ := begun_addTime c v p.1
      obtain ⟨y, hy⟩ := dwell_fields v (begun c v p.1)
      rw [hy, hx]; rfl
    | halt v S M o hb hv ht hS hn hm ho' =>
      left
      have hr := ready_fields c v p.1
      rw [← hS] at hr
      dsimp only at hr
      have hM := motion_only RF c v (current v S) S
      rw [hm] at hM
      obtain ⟨w, f, cy, h1, x, rfl⟩ := hM
      exact hr.2.2.2.2.2.2.2.2.2.2.1
    | done v S M s' o hb' hv ht hS hn hm ha =>
      right
      have hr := ready_fields c v p.1
      rw [← hS] at hr
      dsimp only at hr
      have hD := ready_noDrill (c := c) (v := v) (s := p.1) hg (visitAll_noDrill hc hb hv)
      have hN := ready_nonNeg c v p.1
      rw [← hS] at hN hD
      have hMN := motion_nonNeg c v (current v S) hN hD
      rw [hm] at hMN
      have hM := motion_only RF c v (current v S) S
      rw [hm] at hM
      refine ⟨addF M.path.work M.path.fast, nonNeg_add hMN.1 hMN.2, ?_⟩
      have hT : M.path.total = p.1.path.total := by
        obtain ⟨w, f, cy, h1, x, rfl⟩ := hM
        exact hr.2.2.2.2.2.2.2.2.2.2.1
      have hC : (counted RF c inch (current v S) M).path.total = addF p.1.path.total (addF M.path.work M.path.fast) := by
        rw [← hT]; rfl
      rw [account_eq] at ha
      cases hk : checks c (current v S) (counted RF c inch (current v S) M) with
      | throw e => rw [hk] at ha; cases ha; exact hC
      | ub => rw [hk] at ha; cases ha; exact hC
      | ok u =>
        rw [hk] at ha; cases ha
        have : ∀ t : St ℝ, (savePositions c v t).path = t.path := by
          intro t
          unfold savePositions
          split
          · rfl
          · split <;> rfl
        rw [this]
        exact hC
  rcases key with h | ⟨z, hz, h⟩
  · rw [h, hx] at hy; cases hy; exact le_refl _
  · rw [h, hx] at hy
    cases z with
    | none => cases hy
    | some w =>
      have := hz w rfl
      cases hy
      linarith

theorem fastTime_nonNeg (c : Cfg ℝ) {x : Fl ℝ} (h : NonNeg x) : NonNeg (fastTime c x) := by
  unfold fastTime
  cases x with
  | none => dsimp only; split; exact nonNeg_none; exact nonNeg_zero
  | some w =>
    dsimp only
    split
    · rename_i hw
      unfold calcTime
      split
      · exact nonNeg_none
      · exact nonNeg_some (mul_nonneg (by norm_num) (div_nonneg (h w rfl) hw.2.le))
    · exact nonNeg_zero

theorem workTime_nonNeg (c : Cfg ℝ) (inch : Inch) (cur : Cur ℝ) {x : Fl ℝ} (h : NonNeg x)
    (hs : ¬ (x ≠ some 0 ∧ 0 < cur.f ∧ latheProg c cur.plane ∧ cur.perRev ∧ cur.s < 0)) :
    NonNeg (workTime RF c inch cur x) := by
  unfold workTime
  cases x with
  | none => dsimp only; split; exact nonNeg_none; exact nonNeg_zero
  | some w =>
    dsimp only
    split
    · rename_i hw
      unfold calcTime
      have hw0 := h w rfl
      have hf : 0 ≤ feedPerMinute RF c inch cur w := by
        unfold feedPerMinute
        split
        · rename_i hl
          have hS : 0 ≤ cur.s := by
            by_contra hn
            exact hs ⟨by simpa using hw.1, hw.2, hl.1, hl.2, not_le.mp hn⟩
          split
          · unfold surface
            refine mul_nonneg hw.2.le (div_nonneg (mul_nonneg hS ?_) (mul_nonneg pi_nonNeg hw0))
            split <;> norm_num
          · exact mul_nonneg hw.2.le hS
        · exact hw.2.le
      split
      · exact nonNeg_none
      · exact nonNeg_some (mul_nonneg (by norm_num) (div_nonneg hw0 hf))
    · exact nonNeg_zero

theorem checks_ok {c : Cfg ℝ} {cur : Cur ℝ} {s : St ℝ} (h : checks c cur s = .ok ()) :
    ¬ (s.path.work ≠ some 0 ∧ 0 < cur.f ∧ latheProg c cur.plane ∧ cur.perRev ∧ cur.s < 0) := by
  unfold checks at h
  split_ifs at h with h1 h2 h3
  exact h3

/-- **C26.** The motion of a block that succeeds takes no negative time, as long as no drilling cycle is
active; also on a lathe, with feed per revolution and with constant surface speed. -/
theorem C26_time_grows_partial {c : Cfg ℝ} (hc : AxesOk c) (inch : Inch) (line : Int) (b : Block)
    (p : St ℝ × MacroMap ℚ) (hg : (isDrill p.1.g || isDrillQ p.1.g) = false)
    (hb : ∀ d ∈ words b, ¬ Drills d) (h : (evaluate RF c inch line b p).2 = .ok ()) :
    NonNeg (timeOf (evaluate RF c inch line b p).1.1) := by
  have hE := evaluate_eval RF c inch line b p
  rw [h] at hE
  generalize (evaluate RF c inch line b p).1.1 = s' at hE
  generalize ho : (Out.ok () : Out Exc Unit) = o at hE
  unfold timeOf
  cases hE with
  | empty hb => exact nonNeg_add nonNeg_zero nonNeg_zero
  | unread e _ => cases ho
  | unreadUb _ => cases ho
  | alone v t hv ht ha hw =>
    obtain ⟨y, hy⟩ := fetchTool_fields c (storeTool c (begun c v p.1))
    obtain ⟨x, hx⟩ := begun_addTime c v p.1
    unfold copySt
    dsimp only
    rw [hy, hx]
    exact nonNeg_add nonNeg_zero nonNeg_zero
  | aloneErr v t n hv ht ha hw => cases ho
  | badTool v t e hv ht ha hq => cases ho
  | badToolUb v t hv ht ha hq => cases ho
  | before v hv ht ha hb hr hg hvg =>
    obtain ⟨x, hx⟩ := begun_addTime c v p.1
    obtain ⟨y, hy⟩ := dwell_fields v (begun c v p.1)
    rw [hy, hx]
    exact nonNeg_add nonNeg_zero nonNeg_zero
  | halt v S M o hb hv ht hS hn hm ho' =>
    have hr := ready_fields c v p.1
    rw [← hS] at hr
    dsimp only at hr
    have hM := motion_only RF c v (current v S) S
    rw [hm] at hM
    obtain ⟨w, f, cy, h1, x, rfl⟩ := hM
    show NonNeg (addF S.time.work S.time.fast)
    rw [hr.2.2.2.2.2.2.2.2.2.2.2.2.2.2.2.1, hr.2.2.2.2.2.2.2.2.2.2.2.2.2.2.2.2]
    exact nonNeg_add nonNeg_zero nonNeg_zero
  | done v S M s' o hb' hv ht hS hn hm ha =>
    have hD := ready_noDrill (c := c) (v := v) (s := p.1) hg (visitAll_noDrill hc hb hv)
    have hN := ready_nonNeg c v p.1
    rw [← hS] at hN hD
    have hMN := motion_nonNeg c v (current v S) hN hD
    rw [hm] at hMN
    rw [account_eq] at ha
    cases hk : checks c (current v S) (counted RF c inch (current v S) M) with
    | throw e => rw [hk] at ha; cases ha; cases ho
    | ub => rw [hk] at ha; cases ha; cases ho
    | ok u =>
      rw [hk] at ha; cases ha
      have : ∀ t : St ℝ, (savePositions c v t).time = t.time := by
        intro t
        unfold savePositions
        split
        · rfl
        · split <;> rfl
      rw [this]
      exact nonNeg_add (workTime_nonNeg c inch (current v S) hMN.1 (checks_ok hk)) (fastTime_nonNeg c hMN.2)

end NC.Props
