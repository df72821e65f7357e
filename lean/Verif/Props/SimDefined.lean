import Verif.Props.SimHelix

/-!
# Properties of the simulation of blocks: when a block is well defined
-/

namespace NC.Props
open NC NC.Path NC.Ver NC.AttrPath NC.Spec.Sim

section
variable {K : Type} [Field K] [LinearOrder K] [FloorRing K]

/-! ## Reading -/

omit [FloorRing K] [LinearOrder K] [Field K] in
theorem stodE_defined (s : Str) : stodE s ≠ .ub := by
  unfold stodE stod
  dsimp only
  split_ifs <;> simp

omit [FloorRing K] [LinearOrder K] [Field K] in
theorem stoiE_defined (s : Str) : stoiE s ≠ .ub := by
  unfold stoiE stoi
  dsimp only
  split_ifs <;> simp

omit [FloorRing K] [LinearOrder K] in
theorem readWord_defined (c : Cfg K) (d : Dec) : readWord c d ≠ .ub := by
  unfold readWord
  split_ifs
  · unfold readVal
    split
    · simp
    · cases h : stodE (valText d) with
      | ub => exact absurd h (stodE_defined _)
      | ok q => simp
      | throw e => simp
  · unfold readTool
    split
    · simp
    · split <;> simp
  · unfold readFeed
    split
    · simp
    · cases h : stodE (feedText d) with
      | ub => exact absurd h (stodE_defined _)
      | ok q => simp
      | throw e => simp
  · unfold readFeed
    split
    · simp
    · cases h : stodE (feedText d) with
      | ub => exact absurd h (stodE_defined _)
      | ok q => simp
      | throw e => simp
  · unfold readAux
    split
    · simp
    · rename_i v _
      split
      · simp
      · cases h : stoiE v with
        | ub => exact absurd h (stoiE_defined _)
        | ok q => simp
        | throw e => simp
  · unfold readCode
    split
    · simp
    · rename_i v _
      cases h : stoiE v with
      | ub => exact absurd h (stoiE_defined _)
      | ok q => simp
      | throw e => simp
  · simp

omit [FloorRing K] [LinearOrder K] in
theorem visitAll_defined (c : Cfg K) (r : Vis K) (b : Block) : visitAll c r b ≠ .ub := by
  induction b generalizing r with
  | nil => simp [visitAll]
  | cons a t ih =>
    unfold visitAll
    have ha : visit c r a ≠ .ub := by
      unfold visit
      cases a with
      | dec d =>
        dsimp only
        split
        · simp
        · split
          · simp
          · cases h : readWord c d with
            | ub => exact absurd h (readWord_defined c d)
            | ok q => simp
            | throw e => simp
      | str w x => simp
      | chr w x => simp
    cases h : visit c r a with
    | ub => exact absurd h ha
    | ok r' => exact ih r'
    | throw e => simp

/-! ## Motions -/

omit [FloorRing K] [LinearOrder K] [Field K] in
theorem target_defined {c : Cfg K} {v : Vis K} {a : Str} (prev : K) (h : atTool c v = false ∨ c.exchange.get a ≠ none) :
    ∃ x, target c v a prev = .ok x := by
  unfold target
  by_cases ha : atTool c v = true
  · rw [if_pos ha]
    cases he : c.exchange.get a with
    | some x => exact ⟨x, rfl⟩
    | none =>
      rcases h with h | h
      · rw [h] at ha; cases ha
      · exact absurd he h
  · rw [if_neg ha]
    split
    · exact ⟨_, rfl⟩
    · exact ⟨_, rfl⟩

omit [FloorRing K] in
theorem linear_defined (F : Fns K) {c : Cfg K} {v : Vis K} (cur : Cur K) (s : St K)
    (h : atTool c v = false ∨ ∀ a ∈ ([c!"X", c!"Y", c!"Z"] : List Str), c.exchange.get a ≠ none) :
    (linear F c v cur s).2 ≠ .ub := by
  have ht : ∀ a ∈ ([c!"X", c!"Y", c!"Z"] : List Str), ∀ prev, ∃ x, target c v a prev = .ok x := by
    intro a ha prev
    exact target_defined prev (h.imp id (fun h => h a ha))
  unfold linear
  split
  · unfold linearAbs
    split
    · simp
    · simp
    · simp
    · rename_i xp yp zp _ _ _
      obtain ⟨x, hx⟩ := ht c!"X" (by simp) xp
      obtain ⟨y, hy⟩ := ht c!"Y" (by simp) yp
      obtain ⟨z, hz⟩ := ht c!"Z" (by simp) zp
      rw [hx, hy, hz]
      simp
  · unfold linearIncr
    split_ifs <;> simp

omit [FloorRing K] in
theorem arc_defined (F : Fns K) (c : Cfg K) (cur : Cur K) (ax : Axes) (s : St K) (w : CW K) :
    (arc F c cur ax s w).2 ≠ .ub := by
  unfold arc
  extract_lets w' xp xc yc
  split <;> simp

omit [FloorRing K] in
theorem setTurn_defined {F : Fns K} {quarter last : Bool} {dz : Option K} {s : St K} {w : CW K} (hd : dz ≠ none)
    (hw : w.r ≠ none ∨ (w.i ≠ none ∧ w.j ≠ none)) : (setTurn F quarter last dz s w).2 ≠ .ub := by
  unfold setTurn
  cases dz with
  | none => exact absurd rfl hd
  | some d =>
    have : ∃ t, turn F quarter d w = .ok t := by
      unfold turn
      cases hr : w.r with
      | some r =>
        cases w.i with
        | none => exact ⟨_, rfl⟩
        | some i => cases w.j <;> exact ⟨_, rfl⟩
      | none =>
        rcases hw with hw | ⟨hi, hj⟩
        · exact absurd hr hw
        · cases h1 : w.i with
          | none => exact absurd h1 hi
          | some i =>
            cases h2 : w.j with
            | none => exact absurd h2 hj
            | some j => exact ⟨_, rfl⟩
    obtain ⟨t, ht⟩ := this
    dsimp only
    rw [ht]
    simp

omit [FloorRing K] [LinearOrder K] [Field K] in
theorem endHelix_defined {p : CPart K} (h : p.2 ≠ .ub) : (endHelix p).2 ≠ .ub := by
  unfold endHelix
  split
  · simp
  · exact h

omit [FloorRing K] in
/-- A block of a helix is defined if it says where the third axis goes. -/
theorem helixRun_defined {F : Fns K} {ax : Axes} {incr first : Bool} {s : St K} {w : CW K} (hz : w.z ≠ none)
    (hp : w.zp ≠ none) : (helixRun F ax incr first s w).2 ≠ .ub := by
  unfold helixRun
  extract_lets ip jp kp rp w'
  split
  · simp
  · split
    · simp
    · rename_i _ hr
      have hw : w'.r ≠ none ∨ (w'.i ≠ none ∧ w'.j ≠ none) := by
        by_contra h'
        rw [not_or, not_not, not_and_or, not_not, not_not] at h'
        exact hr ⟨h'.1, h'.2.elim Or.inl (fun h => Or.inr (Or.inl h))⟩
      have hz' : w'.z ≠ none := hz
      have hp' : w'.zp ≠ none := hp
      clear_value w'
      have hdz : dzOf w' ≠ none := by
        unfold dzOf
        cases h1 : w'.zp with
        | none => exact absurd h1 hp'
        | some a =>
          cases h2 : w'.z with
          | none => exact absurd h2 hz'
          | some b => simp
      split
      · unfold helixIncr
        split
        · split
          · exact setTurn_defined hz' hw
          · exact endHelix_defined (setTurn_defined hz' hw)
        · split
          · exact setTurn_defined hz' hw
          · simp
        · simp
      · unfold helixAbs
        split
        · split
          · exact setTurn_defined hdz hw
          · exact endHelix_defined (setTurn_defined hdz hw)
        · rw [if_neg (fun h => hz' h.1)]
          split
          · cases h1 : w'.zp with
            | none => exact absurd h1 hp'
            | some a =>
              dsimp only
              split
              · exact setTurn_defined hdz hw
              · simp
          · simp
        · simp

omit [FloorRing K] in
theorem arcStep_defined {F : Fns K} {c : Cfg K} {cur : Cur K} {ax : Axes} {p : CPart K} (h : p.2 ≠ .ub) :
    (arcStep F c cur ax p).2 ≠ .ub := by
  unfold arcStep
  split
  · split
    · exact arc_defined F c cur ax _ _
    · simp
  · simp
  · simp
  · rename_i h1; exact absurd h1 h

omit [FloorRing K] in
theorem spiral_defined (F : Fns K) (ax : Axes) (s : St K) (w : CW K) :
    (spiral F ax s w).2 ≠ .ub ∧ (spiral F ax s w).1.1.helix = s.helix ∧ (spiral F ax s w).1.2.z = w.z ∧
      (spiral F ax s w).1.2.zp = w.zp := by
  unfold spiral
  extract_lets w'
  have h1 : w'.z = w.z := rfl
  have h2 : w'.zp = w.zp := rfl
  clear_value w'
  split
  · exact ⟨by simp, rfl, h1, h2⟩
  · exact ⟨by simp, rfl, h1, h2⟩
  · split
    · exact ⟨by simp, rfl, h1, h2⟩
    · exact ⟨by simp, rfl, h1, h2⟩
    · exact ⟨by simp, rfl, h1, h2⟩

omit [FloorRing K] in
theorem helixStart_defined (ax : Axes) (s : St K) (w : CW K) :
    (helixStart ax s w).1.2 ≠ .ub ∧ (helixStart ax s w).1.1.2 = w ∧
      ((helixStart ax s w).1.1.1.helix = s.helix ∨ (w.z ≠ none ∧ w.zp ≠ none)) := by
  unfold helixStart
  split
  · rename_i x y z hx hy hz
    split
    · split
      · exact ⟨by simp, rfl, Or.inl rfl⟩
      · rename_i hzp
        split
        · exact ⟨by simp, rfl, Or.inr ⟨by rw [hz]; simp, hzp⟩⟩
        · exact ⟨by simp, rfl, Or.inr ⟨by rw [hz]; simp, hzp⟩⟩
    · exact ⟨by simp, rfl, Or.inl rfl⟩
  · exact ⟨by simp, rfl, Or.inl rfl⟩

omit [FloorRing K] in
/-- An arc or the first block of a helix is always defined, a later block of a helix if it says where the third
axis goes. -/
theorem circular_defined (F : Fns K) (c : Cfg K) (v : Vis K) (cur : Cur K) (s : St K)
    (h : s.helix = .none ∨ (v.vals.get (axesOf cur.plane).a3 ≠ none ∧ s.prev.get (axesOf cur.plane).a3 ≠ none)) :
    (circular F c v cur s).2 ≠ .ub := by
  unfold circular
  split
  · simp
  · extract_lets ax
    split
    · simp
    · simp
    · rename_i xp yp _ _
      unfold circularFrom
      have hs : (cancelBy c cur.g s).helix = s.helix ∧ (cancelBy c cur.g s).prev = s.prev := by
        unfold cancelBy
        split <;> exact ⟨rfl, rfl⟩
      generalize cancelBy c cur.g s = S at hs ⊢
      extract_lets g w
      have hz : w.z = v.vals.get ax.a3 := rfl
      have hzp : w.zp = s.prev.get ax.a3 := by rw [← hs.2]
      clear_value w
      split
      · obtain ⟨s1, s2, s3, s4⟩ := spiral_defined F ax S w
        refine arcStep_defined ?_
        unfold helixStep
        split
        · split
          · simp
          · rename_i hne
            rw [s2, hs.1] at hne
            rcases h with h | h
            · exact absurd h hne
            · exact helixRun_defined (by rw [s3, hz]; exact h.1) (by rw [s4, hzp]; exact h.2)
        · exact s1
      · obtain ⟨s1, s2, s3⟩ := helixStart_defined ax S w
        refine arcStep_defined ?_
        unfold helixStep
        split
        · split
          · simp
          · rename_i hne
            rw [s2]
            rcases s3 with s3 | s3
            · rw [s3, hs.1] at hne
              rcases h with h | h
              · exact absurd h hne
              · exact helixRun_defined (by rw [hz]; exact h.1) (by rw [hzp]; exact h.2)
            · exact helixRun_defined s3.1 s3.2
        · exact s1

variable [IsStrictOrderedRing K]

/-- 46000 bites are few enough to be counted. -/
theorem bites_fit {a q : K} (hq : q ≠ 0) (h : |a| ≤ 46000 * |q|) : fitsInt (floorDiv a q * floorDiv a q + floorDiv a q) := by
  have h1 : |a / q| ≤ 46000 := by
    rw [abs_div, div_le_iff₀ (abs_pos.mpr hq)]
    exact h
  obtain ⟨h2, h3⟩ := abs_le.mp h1
  have h4 : (-46000 : Int) ≤ floorDiv a q := by
    unfold floorDiv
    rw [Int.le_floor]
    push_cast
    exact h2
  have h5 : floorDiv a q ≤ 46000 := by
    have : ((floorDiv a q : Int) : K) ≤ ((46000 : Int) : K) := by
      push_cast
      exact (Int.floor_le _).trans h3
    exact Int.cast_le.mp this
  unfold fitsInt
  constructor
  · nlinarith
  · nlinarith

theorem peck_defined {ε : Type} {depth q lin approach : K} {ret : Ret} (hq : q ≠ 0) (h : |depth| ≤ 46000 * |q|) :
    (peck depth q lin approach ret : Out ε (Fl K × Fl K)) ≠ .ub := by
  unfold peck
  extract_lets n
  rw [if_pos (bites_fit hq h)]
  simp

theorem drillQ_defined {ε : Type} {zp zg r q : K} {d : Depth} {g : Int} {ret : Ret}
    (h : g = 83 → q ≠ 0 ∧ |r| + |zg| ≤ 46000 * |q|) : (drillQ zp zg r q d g ret : Out ε (Fl K × Fl K)) ≠ .ub := by
  unfold drillQ
  split
  · simp
  · split
    · split <;> simp
    · split
      · simp
      · split
        · rename_i h83
          obtain ⟨hq, hl⟩ := h h83
          extract_lets depth
          rw [if_neg hq]
          refine peck_defined hq (le_trans ?_ hl)
          have : depth = zg ∨ depth = |r - zg| := by
            cases d
            · right; rfl
            · left; rfl
          rcases this with h1 | h1 <;> rw [h1]
          · exact le_add_of_nonneg_left (abs_nonneg _)
          · rw [abs_abs]; exact abs_sub _ _
        · simp

theorem drillQIncr_defined {ε : Type} {F : Fns K} {zg r q : K} {g : Int} {ret : Ret}
    (h : g = 83 → q ≠ 0 ∧ |r| + |zg| ≤ 46000 * |q|) : (drillQIncr F zg r q g ret : Out ε (Fl K × Fl K)) ≠ .ub := by
  unfold drillQIncr
  split
  · simp
  · split
    · split <;> simp
    · split
      · split <;> simp
      · split
        · rename_i h83
          obtain ⟨hq, hl⟩ := h h83
          rw [if_neg hq]
          refine peck_defined hq (le_trans ?_ hl)
          rw [abs_abs]
          exact le_add_of_nonneg_left (abs_nonneg _)
        · simp

/-- The level a cycle goes to. -/
def levelOf (c : Cfg K) (z : Option K) : K := if c.depthless then 0 else z.getD 0

theorem drilling_defined (F : Fns K) (c : Cfg K) (v : Vis K) (cur : Cur K) (s : St K)
    (hk : ∀ k, v.vals.get c!"K" = some k → k < 2147483648)
    (hq : isDrillQ cur.g = true → (s.path.holes ≠ 0 ∧ v.vals.get c!"K" = none) ∨ ∃ q, v.vals.get c!"Q" = some q ∧
      (cur.g = 83 → q ≠ 0 ∧ |(v.vals.get c!"R").getD 0| + |levelOf c (v.vals.get (axesOf cur.plane).a3)| ≤ 46000 * |q|))
    (hg : isDrill cur.g = true ∨ isDrillQ cur.g = true) : (drilling F c v cur s).2 ≠ .ub := by
  have h1 : (cyclePart F c v cur s).2 ≠ .ub := by
    unfold cyclePart
    extract_lets ax
    split
    · simp
    · rename_i hnew
      split
      · simp
      · split
        · simp
        · split
          · simp
          · rename_i r hr
            have hc : ∀ zp, cycleOf F c cur zp (if c.depthless then 0 else (v.vals.get ax.a3).getD 0) r (v.vals.get c!"Q") ≠
                .ub := by
              intro zp
              unfold cycleOf
              by_cases hd : isDrill cur.g = true
              · rw [if_pos hd]
                dsimp only
                simp
              · rw [if_neg hd]
                have hdq := hg.resolve_left hd
                rcases hq hdq with h | ⟨q, h, h83⟩
                · exact absurd h hnew
                · rw [h]
                  rw [hr, Option.getD_some] at h83
                  dsimp only
                  split
                  · exact drillQIncr_defined h83
                  · exact drillQ_defined h83
            split
            · simp
            · simp
            · rename_i h; exact absurd h (hc _)
  unfold drilling
  split
  · simp
  · unfold Part.andThen
    split
    · unfold holePart
      extract_lets ax x y k cyc
      split
      · simp
      · simp
      · split
        · simp
        · split
          · simp
          · have hh : holesOf k ≠ .ub := by
              have hk2 : ∀ k', k = some k' → k' < 2147483648 := hk
              clear_value k
              unfold holesOf
              cases k with
              | none => simp
              | some k' =>
                have hk' : some k' = some k' := rfl
                dsimp only
                split
                · rename_i hpos
                  have hlt := hk2 k' hk'
                  rw [if_pos]
                  · simp
                  · unfold fitsInt
                    constructor
                    · have : (0 : Int) ≤ ⌊k'⌋ := Int.floor_nonneg.mpr hpos.le
                      omega
                    · have : ⌊k'⌋ < 2147483648 := by
                        rw [Int.floor_lt]
                        exact_mod_cast hlt
                      omega
                · simp
            split
            · simp
            · simp
            · rename_i h; exact absurd h hh
    · exact h1

/-! ## Blocks -/

/-- The axis across a plane. -/
def acrossOf (n : Int) : Str := if n = 18 then c!"Y" else if n = 19 then c!"X" else c!"Z"

omit [Field K] [LinearOrder K] [FloorRing K] in
theorem axesOf_across (p : Plane) : (axesOf p).a3 = acrossOf (planeNum p) := by cases p <;> rfl

/-- A block that is safe to evaluate where `s` is the state before it. -/
structure Tame (c : Cfg K) (b : Block) (s : St K) : Prop where
  /-- At a tool exchange the tool exchange point is known on all three axes. -/
  exchange : exchanges (timesOf c) b = true → ∀ a ∈ ([c!"X", c!"Y", c!"Z"] : List Str), c.exchange.get a ≠ none
  /-- A helix in progress is continued with a word for the third axis. -/
  helix : s.helix ≠ .none → inGroup 1 b s.g = 2 ∨ inGroup 1 b s.g = 3 →
    programmed (K := K) b (acrossOf (inGroup 2 b (planeNum s.plane))) ≠ none ∧
      s.prev.get (acrossOf (inGroup 2 b (planeNum s.plane))) ≠ none
  /-- A cycle with bites begins with their size, and there are at most 46000 bites. -/
  bites : inGroup 1 b s.g ∈ ([73, 76, 83, 87] : List Int) →
    (s.path.holes ≠ 0 ∧ programmed (K := K) b c!"K" = none) ∨ ∃ q : K, programmed b c!"Q" = some q ∧
      (inGroup 1 b s.g = 83 → q ≠ 0 ∧ |(programmed b c!"R").getD 0| +
        |levelOf c (programmed b (acrossOf (inGroup 2 b (planeNum s.plane))))| ≤ 46000 * |q|)
  /-- The number of holes can be counted. -/
  holes : ∀ k : K, programmed b c!"K" = some k → k < 2147483648

theorem checks_defined (c : Cfg K) (cur : Cur K) (s : St K) : checks c cur s ≠ .ub := by
  unfold checks
  split_ifs <;> simp

/-- **C79, partial.** Evaluating a block from any state is defined, except for a helix continued without the third
axis, a cycle with bites begun without their size or with too many of them, an uncountable number of holes, and a
tool exchange at an incomplete point. -/
theorem C79_block_partial (F : Fns K) {c : Cfg K} (hx : AxesOk c) (inch : Inch) (line : Int) (b : Block)
    (p : St K × MacroMap ℚ) (h : Tame c b p.1) : (evaluate F c inch line b p).2 ≠ .ub := by
  have hE := evaluate_eval F c inch line b p
  generalize (evaluate F c inch line b p).1.1 = s' at hE
  generalize ho : (evaluate F c inch line b p).2 = o at hE
  obtain ⟨s, m⟩ := p
  dsimp only at hE h
  clear ho
  have key : ∀ v S, visitAll c {} b = .ok v → S = started c v (dwell v (exchanged c v (begun c v s))) →
      (motion F c v (current v S) S).2 ≠ .ub := by
    intro v S hv hS
    have hf := ready_fields c v s
    dsimp only at hf
    rw [← hS] at hf
    obtain ⟨f1, f2, _, _, _, f3, _, _, _, f4, _, _, _, _, f5, _⟩ := hf
    have hg : v.g = (groupCodes 1 b).getLast? := visitAll_group hx hv 1 (by decide)
    have hpl : v.plane.map planeNum = (groupCodes 2 b).getLast? := visitAll_group hx hv 2 (by decide)
    have hcg : (current v S).g = inGroup 1 b s.g ∨ (current v S).g = 0 := by
      show v.g.getD S.g = _ ∨ v.g.getD S.g = 0
      unfold inGroup
      rw [← hg]
      cases v.g with
      | some n => left; rfl
      | none => exact f2.imp (fun e => e) (fun e => e)
    have hcp : planeNum (current v S).plane = inGroup 2 b (planeNum s.plane) := by
      show planeNum (v.plane.getD S.plane) = _
      unfold inGroup
      rw [← hpl, f3]
      cases v.plane with
      | some n => rfl
      | none => rfl
    have hthird : (axesOf (current v S).plane).a3 = acrossOf (inGroup 2 b (planeNum s.plane)) := by
      rw [axesOf_across, hcp]
    have hpar : ∀ a ∈ ([c!"X", c!"Y", c!"Z", c!"K", c!"Q", c!"R"] : List Str), v.vals.get a = programmed b a := by
      intro a ha
      refine visitAll_vals hv ?_
      unfold gcodeParams
      simp only [List.mem_cons, List.not_mem_nil, or_false] at ha
      rcases ha with rfl | rfl | rfl | rfl | rfl | rfl <;> simp
    have hp3 : v.vals.get (axesOf (current v S).plane).a3 =
        programmed b (acrossOf (inGroup 2 b (planeNum s.plane))) := by
      rw [hthird]
      refine hpar _ ?_
      unfold acrossOf
      split_ifs <;> simp
    generalize current v S = cur at *
    unfold motion
    split
    · refine linear_defined F cur S ?_
      rw [visitAll_exchanges hx hv]
      cases he : exchanges (timesOf c) b with
      | false => left; rfl
      | true => right; exact h.exchange he
    · rename_i h01
      have hcg' : cur.g = inGroup 1 b s.g := hcg.resolve_right (fun e => h01 (Or.inl e))
      split
      · rename_i h23
        refine circular_defined F c v cur S ?_
        rw [f4]
        by_cases hh : s.helix = .none
        · left; exact hh
        · right
          rw [hp3, hthird, f1.1]
          exact h.helix hh (by rw [← hcg']; exact h23)
      · split
        · simp
        · split
          · rename_i hd
            refine drilling_defined F c v cur S ?_ ?_ hd
            · intro k hk
              rw [hpar c!"K" (by simp)] at hk
              exact h.holes k hk
            · intro hq
              rw [hpar c!"K" (by simp), hpar c!"Q" (by simp), hpar c!"R" (by simp), hp3, hcg', f5]
              refine h.bites ?_
              rw [← hcg']
              unfold isDrillQ at hq
              simpa using hq
          · simp
  cases hE with
  | empty hb => simp
  | unread e _ => simp
  | unreadUb hv => exact absurd hv (visitAll_defined c {} b)
  | alone v t hv ht ha hw => simp
  | aloneErr v t n hv ht ha hw => simp
  | badTool v t e hv ht ha hq => simp
  | badToolUb v t hv ht ha hq => exact absurd hq (stodE_defined t)
  | before v hv ht ha hb hr hgg hvg => simp
  | halt v S M o hb hv ht hS hn hm ho' =>
    have := key v S hv hS
    rw [hm] at this
    cases o with
    | ub => exact absurd rfl this
    | ok b => simp [finish]
    | throw e => simp [finish]
  | done v S M s' o hb hv ht hS hn hm ha =>
    rw [account_eq] at ha
    split at ha
    · cases ha; simp [finish]
    · cases ha; simp [finish]
    · rename_i hub; exact absurd hub (checks_defined _ _ _)

/-! ## Programs -/

omit [FloorRing K] [IsStrictOrderedRing K] in
theorem arc_helix (F : Fns K) (c : Cfg K) (cur : Cur K) (ax : Axes) (s : St K) (w : CW K) :
    (arc F c cur ax s w).1.helix = s.helix := by
  unfold arc
  extract_lets w' xp xc yc
  split <;> rfl

omit [FloorRing K] [IsStrictOrderedRing K] in
theorem arcStep_helix {F : Fns K} {c : Cfg K} {cur : Cur K} {ax : Axes} {p : CPart K} :
    (arcStep F c cur ax p).1.helix = p.1.1.helix := by
  unfold arcStep
  split
  · split
    · exact arc_helix F c cur ax _ _
    · rfl
  · rfl
  · rfl
  · rfl

omit [FloorRing K] [IsStrictOrderedRing K] in
/-- An arc without a word for each axis begins no helix. -/
theorem circular_helix_none (F : Fns K) (c : Cfg K) (v : Vis K) (cur : Cur K) (s : St K) (h : s.helix = .none)
    (hv : ∃ a ∈ ([c!"X", c!"Y", c!"Z"] : List Str), v.vals.get a = none) : (circular F c v cur s).1.helix = .none := by
  unfold circular
  split
  · exact h
  · extract_lets ax
    have hs : (cancelBy c cur.g s).helix = .none := by
      unfold cancelBy
      split <;> exact h
    have hm : v.vals.get ax.a1 = none ∨ v.vals.get ax.a2 = none ∨ v.vals.get ax.a3 = none := by
      obtain ⟨a, ha, hn⟩ := hv
      simp only [List.mem_cons, List.not_mem_nil, or_false] at ha
      have : ∀ p : Plane, v.vals.get (axesOf p).a1 = none ∨ v.vals.get (axesOf p).a2 = none ∨
          v.vals.get (axesOf p).a3 = none := by
        intro p
        rcases ha with rfl | rfl | rfl <;> cases p <;> unfold axesOf <;> simp [hn]
      exact this cur.plane
    split
    · exact hs
    · exact hs
    · generalize cancelBy c cur.g s = S at hs ⊢
      unfold circularFrom
      extract_lets g w
      have hx : w.x = v.vals.get ax.a1 := rfl
      have hy : w.y = v.vals.get ax.a2 := rfl
      have hz : w.z = v.vals.get ax.a3 := rfl
      clear_value w
      have hst : ∀ (first : Bool) (p : CPart K), p.1.1.helix = .none → (helixStep F ax cur.incr first p).1.1.helix = .none := by
        intro first p hp
        unfold helixStep
        split
        · rw [if_pos hp]; exact hp
        · exact hp
      split
      · rw [arcStep_helix]
        refine hst _ _ ?_
        rw [(spiral_defined F ax S w).2.1]
        exact hs
      · rw [arcStep_helix]
        refine hst _ _ ?_
        show (helixStart ax S w).1.1.1.helix = .none
        unfold helixStart
        split
        · rename_i x y z h1 h2 h3
          rw [h1] at hx
          rw [h2] at hy
          rw [h3] at hz
          rcases hm with hm | hm | hm
          · rw [hm] at hx; cases hx
          · rw [hm] at hy; cases hy
          · rw [hm] at hz; cases hz
        · exact hs

omit [FloorRing K] [IsStrictOrderedRing K] in
theorem linear_helix (F : Fns K) (c : Cfg K) (v : Vis K) (cur : Cur K) (s : St K) :
    (linear F c v cur s).1.helix = s.helix := by
  have hs : (cancelBy c cur.g s).helix = s.helix := by
    unfold cancelBy
    split <;> rfl
  have hm : ∀ (g : Int) (x : Fl K) (s : St K), (setMotion g x s).helix = s.helix := by
    intro g x s
    unfold setMotion
    split <;> rfl
  unfold linear
  rw [← hs]
  split
  · unfold linearAbs
    split
    · rfl
    · rfl
    · rfl
    · split
      · exact hm _ _ _
      · rfl
  · unfold linearIncr
    split_ifs
    · rfl
    · rfl
    · rfl
    · exact hm _ _ _

omit [IsStrictOrderedRing K] in
theorem drilling_helix (F : Fns K) (c : Cfg K) (v : Vis K) (cur : Cur K) (s : St K) :
    (drilling F c v cur s).1.helix = s.helix := by
  have h1 : (cyclePart F c v cur s).1.helix = s.helix := by
    unfold cyclePart
    extract_lets ax
    split
    · rfl
    · split
      · rfl
      · split
        · rfl
        · split
          · rfl
          · split <;> rfl
  unfold drilling
  split
  · rfl
  · unfold Part.andThen
    split
    · rw [← h1]
      unfold holePart
      extract_lets ax x y k cyc
      split
      · rfl
      · rfl
      · split
        · rfl
        · split
          · rfl
          · split <;> rfl
    · exact h1

omit [IsStrictOrderedRing K] in
theorem motion_helix_none (F : Fns K) (c : Cfg K) (v : Vis K) (cur : Cur K) (s : St K) (h : s.helix = .none)
    (hv : cur.g = 2 ∨ cur.g = 3 → ∃ a ∈ ([c!"X", c!"Y", c!"Z"] : List Str), v.vals.get a = none) :
    (motion F c v cur s).1.helix = .none := by
  unfold motion
  split
  · rw [linear_helix]; exact h
  · split
    · rename_i h23
      exact circular_helix_none F c v cur s h (hv h23)
    · split
      · exact h
      · split
        · rw [drilling_helix]; exact h
        · exact h

/-- The state after a block whatever becomes of it: no helix is begun, and the motion in force is the block's, the
one before or G0. -/
theorem eval_quiet {F : Fns K} {c : Cfg K} (hx : AxesOk c) {inch : Inch} {b : Block} {s s' : St K} {o : Out Exc Unit}
    (hE : Eval F c inch b s o s') (hh : s.helix = .none)
    (hb : inGroup 1 b s.g = 2 ∨ inGroup 1 b s.g = 3 → ∃ a ∈ ([c!"X", c!"Y", c!"Z"] : List Str), programmed (K := K) b a = none) :
    s'.helix = .none ∧ (s'.g = s.g ∨ s'.g = 0 ∨ s'.g = inGroup 1 b s.g) := by
  have beg : ∀ v : Vis K, (begun c v s).helix = s.helix ∧ (begun c v s).g = s.g := by
    intro v
    obtain ⟨x, hx⟩ := begun_addTime c v s
    rw [hx]
    exact ⟨rfl, rfl⟩
  have sto : ∀ t : St K, (storeTool c t).helix = t.helix ∧ (storeTool c t).g = t.g := fun t => ⟨rfl, rfl⟩
  have fet : ∀ t : St K, (fetchTool c t).helix = t.helix ∧ (fetchTool c t).g = t.g := by
    intro t
    unfold fetchTool exchangeTimes
    dsimp only
    split
    · split <;> exact ⟨rfl, rfl⟩
    · exact ⟨rfl, rfl⟩
  have key : ∀ v S, visitAll c {} b = .ok v → S = started c v (dwell v (exchanged c v (begun c v s))) →
      ((current v S).g = inGroup 1 b s.g ∨ (current v S).g = 0) ∧ (S.g = s.g ∨ S.g = 0) ∧
      (motion F c v (current v S) S).1.helix = .none ∧ (motion F c v (current v S) S).1.g = S.g := by
    intro v S hv hS
    have hf := ready_fields c v s
    dsimp only at hf
    rw [← hS] at hf
    obtain ⟨f1, f2, _, _, _, f3, _, _, _, f4, _, _, _, _, f5, _⟩ := hf
    have hg : v.g = (groupCodes 1 b).getLast? := visitAll_group hx hv 1 (by decide)
    have hcg : (current v S).g = inGroup 1 b s.g ∨ (current v S).g = 0 := by
      show v.g.getD S.g = _ ∨ v.g.getD S.g = 0
      unfold inGroup
      rw [← hg]
      cases v.g with
      | some n => left; rfl
      | none => exact f2.imp (fun e => e) (fun e => e)
    refine ⟨hcg, f2, ?_, ?_⟩
    · refine motion_helix_none F c v (current v S) S (f4.trans hh) ?_
      intro h23
      have hcg' : (current v S).g = inGroup 1 b s.g := by
        rcases hcg with e | e
        · exact e
        · rw [e] at h23; rcases h23 with h23 | h23 <;> cases h23
      rw [hcg'] at h23
      obtain ⟨a, ha, hn⟩ := hb h23
      refine ⟨a, ha, ?_⟩
      rw [visitAll_vals hv, hn]
      unfold gcodeParams
      simp only [List.mem_cons, List.not_mem_nil, or_false] at ha
      rcases ha with rfl | rfl | rfl <;> simp
    · obtain ⟨w, f, cy, h1, x, hM⟩ := motion_only F c v (current v S) S
      rw [hM]
  cases hE with
  | empty hb => exact ⟨hh, Or.inl rfl⟩
  | unread e _ => exact ⟨hh, Or.inl rfl⟩
  | unreadUb hv => exact ⟨hh, Or.inl rfl⟩
  | alone v t hv ht ha hw =>
    exact ⟨(fet _).1.trans ((beg v).1.trans hh), Or.inl ((fet _).2.trans (beg v).2)⟩
  | aloneErr v t n hv ht ha hw =>
    exact ⟨(fet _).1.trans ((beg v).1.trans hh), Or.inl ((fet _).2.trans (beg v).2)⟩
  | badTool v t e hv ht ha hq => exact ⟨(beg v).1.trans hh, Or.inl (beg v).2⟩
  | badToolUb v t hv ht ha hq => exact ⟨(beg v).1.trans hh, Or.inl (beg v).2⟩
  | before v hv ht ha hb hr hgg hvg =>
    obtain ⟨y, hy⟩ := dwell_fields v (begun c v s)
    rw [hy]
    exact ⟨(beg v).1.trans hh, Or.inl (beg v).2⟩
  | halt v S M o hb hv ht hS hn hm ho' =>
    obtain ⟨k1, k2, k3, k4⟩ := key v S hv hS
    rw [hm] at k3 k4
    dsimp only at k3 k4
    exact ⟨k3, by rw [k4]; exact k2.imp id Or.inl⟩
  | done v S M s' o hb hv ht hS hn hm ha =>
    obtain ⟨k1, k2, k3, k4⟩ := key v S hv hS
    rw [hm] at k3 k4
    dsimp only at k3 k4
    have hga : gAfter c (current v S).g = 0 ∨ gAfter c (current v S).g = inGroup 1 b s.g := by
      unfold gAfter
      split
      · left; rfl
      · exact k1.symm
    have hc : (counted F c inch (current v S) M).helix = .none ∧
        (counted F c inch (current v S) M).g = gAfter c (current v S).g := ⟨k3, rfl⟩
    rw [account_eq] at ha
    generalize counted F c inch (current v S) M = C at hc ha
    have res : C.helix = .none ∧ (C.g = s.g ∨ C.g = 0 ∨ C.g = inGroup 1 b s.g) := by
      refine ⟨hc.1, Or.inr ?_⟩
      rw [hc.2]; exact hga
    split at ha
    · cases ha
      unfold savePositions
      split
      · exact res
      · split
        · exact res
        · exact res
    · cases ha; exact res
    · cases ha; exact res

/-- What becomes of each block of a program, evaluated one after the other whatever happens. -/
def blockResults (F : Fns K) (c : Cfg K) (inch : Inch) : Prog → St K × MacroMap ℚ → List (Out Exc Unit)
  | [], _ => []
  | x :: t, p => (evaluate F c inch x.1 x.2 p).2 :: blockResults F c inch t (evaluate F c inch x.1 x.2 p).1

/-- The cycles with bites. -/
def bitten : List Int := [73, 76, 83, 87]

/-- **C79, partial.** A program without cycles with bites and without helices is defined throughout, whatever else
it contains and whether or not blocks are refused. -/
theorem C79_program_partial (F : Fns K) {c : Cfg K} (hx : AxesOk c) (inch : Inch) (prog : Prog) (m : MacroMap ℚ)
    (he : ∀ a ∈ ([c!"X", c!"Y", c!"Z"] : List Str), c.exchange.get a ≠ none)
    (hm : c.motion ∉ bitten) (hq : ∀ x ∈ prog, ∀ n ∈ groupCodes 1 x.2, n ∉ bitten)
    (hk : ∀ x ∈ prog, ∀ k : K, programmed x.2 c!"K" = some k → k < 2147483648)
    (hh : (∀ x ∈ prog, ∃ a ∈ ([c!"X", c!"Y", c!"Z"] : List Str), programmed (K := K) x.2 a = none) ∨
      ((c.motion ≠ 2 ∧ c.motion ≠ 3) ∧ ∀ x ∈ prog, ∀ n ∈ groupCodes 1 x.2, n ≠ 2 ∧ n ≠ 3)) :
    ∀ o ∈ blockResults F c inch prog (initial c, m), o ≠ .ub := by
  have grp : ∀ (P : Int → Prop) (b : Block) (old : Int), (∀ n ∈ groupCodes 1 b, P n) → P old → P (inGroup 1 b old) := by
    intro P b old h h0
    unfold inGroup
    cases hl : (groupCodes 1 b).getLast? with
    | none => exact h0
    | some n => exact h n (List.mem_of_mem_getLast? hl)
  have key : ∀ (prog : Prog) (p : St K × MacroMap ℚ), p.1.helix = .none → p.1.g ∉ bitten →
      (∀ x ∈ prog, ∀ n ∈ groupCodes 1 x.2, n ∉ bitten) →
      (∀ x ∈ prog, ∀ k : K, programmed x.2 c!"K" = some k → k < 2147483648) →
      ((∀ x ∈ prog, ∃ a ∈ ([c!"X", c!"Y", c!"Z"] : List Str), programmed (K := K) x.2 a = none) ∨
      ((p.1.g ≠ 2 ∧ p.1.g ≠ 3) ∧ ∀ x ∈ prog, ∀ n ∈ groupCodes 1 x.2, n ≠ 2 ∧ n ≠ 3)) →
      ∀ o ∈ blockResults F c inch prog p, o ≠ .ub := by
    intro prog
    induction prog with
    | nil => intro p _ _ _ _ _ o ho; cases ho
    | cons x l ih =>
      intro p h1 h2 h3 h4 h5 o ho
      have hmem : x ∈ x :: l := List.mem_cons_self
      rcases List.mem_cons.mp ho with rfl | ho
      · refine C79_block_partial F hx inch x.1 x.2 p ⟨fun _ => he, fun h => absurd h1 h, fun h => ?_, h4 x hmem⟩
        exact absurd h (grp (· ∉ bitten) x.2 p.1.g (h3 x hmem) h2)
      · have hE := evaluate_eval F c inch x.1 x.2 p
        obtain ⟨q1, q2⟩ := eval_quiet hx hE h1 (by
          intro h23
          rcases h5 with h5 | ⟨h5, h6⟩
          · exact h5 x hmem
          · have := grp (fun n => n ≠ 2 ∧ n ≠ 3) x.2 p.1.g (h6 x hmem) h5
            rcases h23 with h | h
            · exact absurd h this.1
            · exact absurd h this.2)
        refine ih _ q1 ?_ (fun y hy => h3 y (List.mem_cons_of_mem _ hy)) (fun y hy => h4 y (List.mem_cons_of_mem _ hy)) ?_ o ho
        · rcases q2 with e | e | e <;> rw [e]
          · exact h2
          · decide
          · exact grp (· ∉ bitten) x.2 p.1.g (h3 x hmem) h2
        · rcases h5 with h5 | ⟨h5, h6⟩
          · left; exact fun y hy => h5 y (List.mem_cons_of_mem _ hy)
          · right
            refine ⟨?_, fun y hy => h6 y (List.mem_cons_of_mem _ hy)⟩
            rcases q2 with e | e | e <;> rw [e]
            · exact h5
            · decide
            · exact grp (fun n => n ≠ 2 ∧ n ≠ 3) x.2 p.1.g (h6 x hmem) h5
  exact key prog (initial c, m) rfl hm hq hk hh

end

section
open SimDemo

/-- `C79_program_partial`: arcs, drilling with repetition and a tool exchange are defined; so is the refused block. -/
example :
    let prog : Prog := [(1, [w c!"G" c!"2", w c!"X" c!"1", w c!"R" c!"5", w c!"F" c!"100"]),
      (2, [w c!"G" c!"91", w c!"G" c!"81", w c!"X" c!"1", wn c!"Z" c!"5", w c!"R" c!"2", w c!"K" c!"3"]),
      (3, [w c!"G" c!"2", w c!"X" c!"1"]), (4, [w c!"T" c!"1", w c!"M" c!"6"])]
    (∀ a ∈ ([c!"X", c!"Y", c!"Z"] : List Str), mill.exchange.get a ≠ none) ∧ mill.motion ∉ bitten ∧
    (∀ x ∈ prog, ∀ n ∈ groupCodes 1 x.2, n ∉ bitten) ∧
    (∀ x ∈ prog, ∃ a ∈ ([c!"X", c!"Y", c!"Z"] : List Str), programmed (K := ℚ) x.2 a = none) ∧
    (blockResults qf mill false prog (start mill)).map (fun o => decide (o = .ok ())) = [true, true, false, true] := by
  decide +kernel

/-- `C79_block_partial`: G83 with bites of 1 mm. -/
example : Tame mill [w c!"G" c!"83", w c!"X" c!"1", wn c!"Z" c!"5", w c!"R" c!"2", w c!"Q" c!"1"] (start mill).1 := by
  refine ⟨fun h => absurd h (by decide +kernel), fun h => absurd rfl h, fun _ => Or.inr ⟨1, by decide +kernel, fun _ => by decide +kernel⟩, ?_⟩
  intro k hk
  have : programmed (K := ℚ) [w c!"G" c!"83", w c!"X" c!"1", wn c!"Z" c!"5", w c!"R" c!"2", w c!"Q" c!"1"] c!"K" = none := by
    decide +kernel
  rw [this] at hk
  cases hk

/-- **C79, violated.** G83 without Q. -/
theorem C79_violated_no_bite :
    (evaluate qf mill false 1 [w c!"G" c!"83", w c!"X" c!"1", wn c!"Z" c!"5", w c!"R" c!"2", w c!"F" c!"100"]
      (start mill)).2 = .ub := by decide +kernel

/-- **C79, violated.** G83 with Q0. -/
theorem C79_violated_zero_bite :
    (evaluate qf mill false 1 [w c!"G" c!"83", w c!"X" c!"1", wn c!"Z" c!"5", w c!"R" c!"2", w c!"Q" c!"0", w c!"F" c!"100"]
      (start mill)).2 = .ub := by decide +kernel

/-- **C79, violated.** More holes than an `int` can count. -/
theorem C79_violated_holes :
    (evaluate qf mill false 1 [w c!"G" c!"91", w c!"G" c!"81", w c!"X" c!"1", wn c!"Z" c!"5", w c!"R" c!"2",
      w c!"K" c!"2147483648", w c!"F" c!"100"] (start mill)).2 = .ub := by decide +kernel

/-- **C79, violated.** A tool exchange with return to the base point where the tool exchange point leaves out an
axis. -/
theorem C79_violated_exchange :
    let c : Cfg ℚ := { mill with exchange := [(c!"Z", 50)] }
    (evaluate qf c false 1 [w c!"T" c!"1", w c!"M" c!"6", w c!"G" c!"28"] (start c)).2 = .ub ∧
    (evaluate qf c false 1 [w c!"T" c!"1", w c!"M" c!"6"] (start c)).2 = .ok () := by decide +kernel

/-- **C79, violated.** An arc after a straight line that ended a helix. -/
theorem C79_violated_after_helix :
    let p := run mill [[w c!"G" c!"2", w c!"X" c!"0", w c!"Y" c!"0", w c!"Z" c!"5", w c!"R" c!"3", w c!"F" c!"100"],
      [w c!"G" c!"1", w c!"X" c!"4"]] (start mill)
    (evaluate qf mill false 1 [w c!"G" c!"2", w c!"X" c!"0", w c!"R" c!"2"] p).2 = .ub := by decide +kernel

end
end NC.Props
