import Verif.SimRepeat
import Verif.Spec.Pieces
import Verif.Props.Similar

/-!
# Straight moves in pieces
-/

namespace NC.Pcs
open NC NC.Path NC.Ver NC.AttrPath NC.Props NC.Spec.Sim NC.Spec.Similar NC.Spec.Moved NC.Spec.Pieces

section
variable {K : Type} [Field K] [LinearOrder K]

/-- The coordinate of the point on the way. -/
def mid (p : Pos K) (t : K) (k : Str) (x : K) : K :=
  if k ∈ threeAxes then
    match p k with
    | some y => y + t * (x - y)
    | none => x
  else x

/-- The words of the block to the point on the way. -/
def midV (p : Pos K) (t : K) (v : Vis K) : Vis K := { v with vals := v.vals.map (fun e => (e.1, mid p t e.1 e.2)) }

omit [LinearOrder K] in
theorem on_mid (p : Pos K) (t : K) (v : Vis K) (x : Act K) (h : ∀ w y, x = .val w y → w ∉ threeAxes) :
    Act.on (midV p t v) x = midV p t (Act.on v x) := by
  cases x with
  | val w y =>
    have e1 : mid p t w y = y := if_neg (h w y rfl)
    show ({ midV p t v with vals := VMap.put (v.vals.map (fun e => (e.1, mid p t e.1 e.2))) w y } : Vis K) =
      midV p t { v with vals := v.vals.put w y }
    unfold midV
    dsimp only
    rw [← Mvd.put_map, e1]
  | code k t => cases k <;> rfl
  | _ => rfl

/-- The outcome of visiting the block to the point on the way. -/
def midO (p : Pos K) (t : K) : Out Exc (Vis K) → Out Exc (Vis K)
  | .ok v => .ok (midV p t v)
  | .throw e => .throw e
  | .ub => .ub

theorem visit_mid {c : Cfg K} {p : Pos K} {t : K} (v : Vis K) {a a' : Attr} (h : Spec.Pieces.Word p t a a') :
    visit c (midV p t v) a' = midO p t (visit c v a) := by
  cases h with
  | axis d d' x y h1 h2 h3 h4 h5 =>
    have h6 : d'.word ∈ threeAxes := by rw [h2]; exact h1
    have r1 := Sml.read_value (Sml.three_param c h1) h3
    have r2 := Sml.read_value (Sml.three_param c h6) h5
    unfold visit
    dsimp only
    rw [if_neg (Sml.three_ne_slash h1), if_neg (Sml.three_ne_slash h6), r1, r2]
    by_cases hs : v.skip = true
    · rw [if_pos hs]; exact if_pos hs
    · rw [if_neg hs]
      refine (if_neg hs).trans ?_
      show Out.ok (Act.on (midV p t v) (.val d'.word _)) = .ok (midV p t (Act.on v (.val d.word x)))
      rw [h2]
      congr 1
      show ({ midV p t v with vals := VMap.put (v.vals.map (fun e => (e.1, mid p t e.1 e.2))) d.word _ } : Vis K) =
        midV p t { v with vals := v.vals.put d.word x }
      unfold midV
      dsimp only
      rw [← Mvd.put_map]
      unfold mid
      rw [if_pos h1, h4]
  | same d hsl hn =>
    unfold visit
    dsimp only
    rw [if_neg hsl, if_neg hsl]
    by_cases hs : v.skip = true
    · rw [if_pos hs]; exact if_pos hs
    · rw [if_neg hs]
      refine (if_neg hs).trans ?_
      cases hr : readWord c d with
      | throw e => rfl
      | ub => rfl
      | ok x =>
        dsimp only
        rw [on_mid p t v x]
        · rfl
        · intro w y hx hw
          subst hx
          exact hn (Mvd.readWord_axis hr hw)

theorem visitAll_mid {c : Cfg K} {p : Pos K} {t : K} {b b' : Block} (h : List.Forall₂ (Spec.Pieces.Word p t) b b') (v : Vis K) :
    visitAll c (midV p t v) b' = midO p t (visitAll c v b) := by
  induction h generalizing v with
  | nil => rfl
  | cons hw _ ih =>
    rename_i a a' l l' hl
    unfold visitAll
    rw [visit_mid v hw]
    cases visit c v a with
    | ok r => exact ih r
    | throw e => rfl
    | ub => rfl

/-- Without strings there is neither pallet exchange nor measurement. -/
theorem visitAll_still {c : Cfg K} [FloorRing K] (hc : AxesOk c) {p : Pos K} {t : K} {b b' : Block} (h : List.Forall₂ (Spec.Pieces.Word p t) b b')
    (hb : Steady b) {r v : Vis K} (h0 : r.pallet = false ∧ r.measure = false) (hv : visitAll c r b = .ok v) :
    v.pallet = false ∧ v.measure = false := by
  induction h generalizing r with
  | nil => cases hv; exact h0
  | @cons a a' l l' hw hl ih =>
    obtain ⟨d, rfl, hsl⟩ : ∃ d, a = .dec d ∧ d.word ≠ c!"/" := by
      cases hw with
      | axis d d' x y h1 => exact ⟨d, rfl, Sml.three_ne_slash h1⟩
      | same d h => exact ⟨d, rfl, h⟩
    have hwd : words (.dec d :: l) = d :: words l := by rw [words, if_neg hsl]
    have hb1 : SteadyWord d := hb d (by rw [hwd]; exact List.mem_cons_self)
    have hb2 : Steady l := fun e he => hb e (by rw [hwd]; exact List.mem_cons_of_mem _ he)
    unfold visitAll visit at hv
    dsimp only at hv
    rw [if_neg hsl] at hv
    by_cases hs : r.skip = true
    · rw [if_pos hs] at hv
      exact ih hb2 h0 hv
    · rw [if_neg hs] at hv
      cases hr : readWord c d with
      | throw e => rw [hr] at hv; cases hv
      | ub => rw [hr] at hv; cases hv
      | ok x =>
        rw [hr] at hv
        have hq := readWord_steady hc hb1 hr
        refine ih hb2 ?_ hv
        cases x with
        | code k t => cases k <;> exact h0
        | aux _ _ _ => cases hq
        | _ => exact h0

/-! ## Positions -/

section
variable [IsStrictOrderedRing K]

/-- A value on the way leaves no trace in the range. -/
theorem widen_mid {r : Rng K} (h : r.lo ≤ r.cur ∧ r.cur ≤ r.hi) {t : K} (h0 : 0 ≤ t) (h1 : t ≤ 1) (x : K) :
    widen (widen r (r.cur + t * (x - r.cur))) x = widen r x := by
  obtain ⟨lo, cur, hi⟩ := r
  dsimp only at h ⊢
  have hle := le_trans h.1 h.2
  have k1 : cur ≤ x → cur + t * (x - cur) ≤ x ∧ cur ≤ cur + t * (x - cur) := by
    intro k
    constructor <;> nlinarith [mul_nonneg h0 (sub_nonneg.mpr k), mul_nonneg (sub_nonneg.mpr h1) (sub_nonneg.mpr k)]
  have k2 : x ≤ cur → x ≤ cur + t * (x - cur) ∧ cur + t * (x - cur) ≤ cur := by
    intro k
    constructor <;> nlinarith [mul_nonneg h0 (sub_nonneg.mpr k), mul_nonneg (sub_nonneg.mpr h1) (sub_nonneg.mpr k)]
  generalize cur + t * (x - cur) = m at k1 k2
  rcases le_total cur x with k | k
  · obtain ⟨a1, a2⟩ := k1 k
    have n1 : ¬ m < lo := not_lt.mpr (le_trans h.1 a2)
    have n2 : ¬ x < lo := not_lt.mpr (le_trans h.1 k)
    unfold widen
    dsimp only
    rw [if_neg n1, if_neg n2]
    by_cases hm : hi < m
    · rw [if_pos hm, if_pos (lt_of_lt_of_le hm a1)]
      dsimp only
      rw [if_neg n2]
      by_cases hx : m < x
      · rw [if_pos hx]
      · rw [if_neg hx, le_antisymm (not_lt.mp hx) a1]
    · rw [if_neg hm]
      dsimp only
      rw [if_neg n2]
  · obtain ⟨a1, a2⟩ := k2 k
    have n1 : ¬ hi < m := not_lt.mpr (le_trans a2 h.2)
    have n2 : ¬ hi < x := not_lt.mpr (le_trans k h.2)
    unfold widen
    dsimp only
    rw [if_neg n1, if_neg n2]
    by_cases hm : m < lo
    · rw [if_pos hm, if_pos (lt_of_le_of_lt a1 hm)]
      dsimp only
      rw [if_neg n2]
      by_cases hx : x < m
      · rw [if_pos hx]
      · rw [if_neg hx, le_antisymm (not_lt.mp hx) a1]
    · rw [if_neg hm]
      dsimp only
      rw [if_neg n2]

end

/-- The ranges contain the positions. -/
def Held (s : St K) : Prop := ∀ a r, s.range.get a = some r → r.lo ≤ r.cur ∧ r.cur ≤ r.hi

theorem widen_held {r : Rng K} (h : r.lo ≤ r.cur ∧ r.cur ≤ r.hi) (x : K) :
    (widen r x).lo ≤ (widen r x).cur ∧ (widen r x).cur ≤ (widen r x).hi := by
  have hle := le_trans h.1 h.2
  unfold widen
  split_ifs with h1 h2
  · exact ⟨le_refl _, le_trans h1.le hle⟩
  · exact ⟨le_trans hle h2.le, le_refl _⟩
  · exact ⟨not_lt.mp h1, not_lt.mp h2⟩

theorem evaluate_held [IsStrictOrderedRing K] [FloorRing K] (F : Fns K) {c : Cfg K} (hc : WF c) (inch : Inch) (line : Int) (b : Block) (p : St K × MacroMap ℚ) (hp : Inv p.1) (h : Held p.1) :
    Held (evaluate F c inch line b p).1.1 := by
  intro a r hr
  rcases evaluate_range F hc inch line b p hp a with e | ⟨x, e⟩
  · rw [e] at hr; exact h a r hr
  · rw [e] at hr
    cases hr
    cases hq : p.1.range.get a with
    | none => exact ⟨le_refl _, le_refl _⟩
    | some q => exact widen_held (h a q hq) x

theorem put_put {V : Type} (m : VMap V) (k : Str) (x y : V) : (m.put k x).put k y = m.put k y := by
  have hd : ∀ (e : Str × V) (l : VMap V) z, VMap.put (e :: l) k z =
      if k < e.1 then (k, z) :: e :: l else if e.1 = k then (k, z) :: l else e :: VMap.put l k z := fun _ _ _ => rfl
  induction m with
  | nil =>
    show VMap.put [(k, x)] k y = [(k, y)]
    rw [hd, if_neg (lt_irrefl _), if_pos rfl]
  | cons e l ih =>
    rw [hd, hd]
    by_cases h1 : k < e.1
    · rw [if_pos h1, if_pos h1, hd, if_neg (lt_irrefl _), if_pos rfl]
    · rw [if_neg h1, if_neg h1]
      by_cases h2 : e.1 = k
      · rw [if_pos h2, if_pos h2, hd, if_neg (lt_irrefl _), if_pos rfl]
      · rw [if_neg h2, if_neg h2, hd, if_neg h1, if_neg h2, ih]

/-- The word leaves the same positions whether or not the point on the way was there before. -/
theorem copyOne_twice {w : Str} {x y : K} {p : VMap K × VMap (Rng K)}
    (h : rangeStep x (some (rangeStep y (p.2.get w))) = rangeStep x (p.2.get w)) :
    copyOne false w x (copyOne false w y p) = copyOne false w x p := by
  have e : ∀ z q, copyOne false w z q = ((q : VMap K × VMap (Rng K)).1.put w z, q.2.put w (rangeStep z (q.2.get w))) := by
    intro z q
    rw [copyOne_eq]
    have : newValue false w z (q.2.get w) = z := by
      unfold newValue movesIncr
      rfl
    rw [this]
  rw [e, e y p, e x p]
  dsimp only
  rw [put_put, put_put, VMap.get_put_self, h]

theorem copyOne_other {w w' : Str} (hne : w ≠ w') (x y : K) (p : VMap K × VMap (Rng K)) :
    copyOne false w x (copyOne false w' y p) = copyOne false w' y (copyOne false w x p) := by
  rw [copyOne_eq, copyOne_eq, copyOne_eq, copyOne_eq]
  dsimp only
  rw [VMap.get_put_ne _ _ hne.symm, VMap.get_put_ne _ _ hne, VMap.put_comm _ _ _ hne, VMap.put_comm _ _ _ hne]

theorem copyBack_other (g : Int) (og : List Str) {v : VMap K} {w : Str} (h : ∀ e ∈ v, e.1 ≠ w) (x : K) (p : VMap K × VMap (Rng K)) :
    copyBack g false og v (copyOne false w x p) = copyOne false w x (copyBack g false og v p) := by
  induction v generalizing p with
  | nil => rfl
  | cons e t ih =>
    unfold copyBack
    by_cases hk : skipped g og e.1 = true
    · rw [if_pos hk, if_pos hk]
      exact ih (fun e he => h e (List.mem_cons_of_mem _ he)) p
    · rw [if_neg hk, if_neg hk, ← ih (fun e he => h e (List.mem_cons_of_mem _ he)), copyOne_other (h e List.mem_cons_self)]

theorem copyBack_twice (g : Int) (og : List Str) (φ : Str → K → K) {v : VMap K} (hv : v.Sorted) (p : VMap K × VMap (Rng K))
    (h : ∀ e ∈ v, rangeStep e.2 (some (rangeStep (φ e.1 e.2) (p.2.get e.1))) = rangeStep e.2 (p.2.get e.1)) :
    copyBack g false og v (copyBack g false og (v.map (fun e => (e.1, φ e.1 e.2))) p) = copyBack g false og v p := by
  induction v generalizing p with
  | nil => rfl
  | cons e t ih =>
    have hs := List.pairwise_cons.mp hv
    have hne : ∀ x ∈ t, x.1 ≠ e.1 := fun x hx => ne_of_gt (hs.1 x hx)
    have hd : ∀ (e : Str × K) (l : VMap K) p, copyBack g false og (e :: l) p =
        copyBack g false og l (if skipped g og e.1 then p else copyOne false e.1 e.2 p) := fun _ _ _ => rfl
    rw [List.map_cons, hd, hd, hd]
    dsimp only
    by_cases hk : skipped g og e.1 = true
    · simp only [if_pos hk]
      exact ih hs.2 p (fun x hx => h x (List.mem_cons_of_mem _ hx))
    · simp only [if_neg hk]
      have hne' : ∀ x ∈ t.map (fun e => (e.1, φ e.1 e.2)), x.1 ≠ e.1 := by
        intro x hx
        obtain ⟨y, hy, rfl⟩ := List.mem_map.mp hx
        exact hne y hy
      rw [← copyBack_other g og hne', copyOne_twice (h e List.mem_cons_self)]
      refine ih hs.2 _ ?_
      intro x hx
      have e1 : (copyOne false e.1 e.2 p).2.get x.1 = p.2.get x.1 := by
        rw [copyOne_eq]
        exact VMap.get_put_ne _ _ (hne x hx).symm
      rw [e1]
      exact h x (List.mem_cons_of_mem _ hx)

/-! ## The block -/

section
variable [FloorRing K]

/-- The state after a straight move of length `L`, before the checks. -/
def went (F : Fns K) (c : Cfg K) (inch : Inch) (cur : Cur K) (L : K) (s : St K) : St K :=
  counted F c inch cur (setMotion cur.g (some L) (cancelBy c cur.g (clearMotions s)))

/-- The length of the straight move. -/
def reach (F : Fns K) (c : Cfg K) (pl : Plane) (v : VMap K) (x y z : K) : K :=
  dist3 F (halve c pl x) y z (halve c pl ((v.get c!"X").getD x)) ((v.get c!"Y").getD y) ((v.get c!"Z").getD z)

/-- A visited block that moves straight to a point and does nothing else. -/
structure Moves (v : Vis K) (s : St K) : Prop where
  tools : v.tools = []
  m6 : v.m6 = false
  other : v.otherG = []
  pallet : v.pallet = false
  measure : v.measure = false
  rapid : s.autoRapid = false
  motion : (current v s).g = 0 ∨ (current v s).g = 1
  place : (current v s).incr = false

theorem evaluate_straight (F : Fns K) (c : Cfg K) (inch : Inch) (line : Int) {b : Block} {v : Vis K} {s : St K} (m : MacroMap ℚ) (hb : b ≠ [])
    (hv : visitAll c {} b = .ok v) (h : Moves v s) {x y z : K} (hx : s.prev.get c!"X" = some x) (hy : s.prev.get c!"Y" = some y)
    (hz : s.prev.get c!"Z" = some z) :
    evaluate F c inch line b (s, m) =
      match checks c (current v s) (went F c inch (current v s) (reach F c (current v s).plane v.vals x y z) s) with
      | .ok () => ((copySt false [] v.vals (went F c inch (current v s) (reach F c (current v s).plane v.vals x y z) s), m), .ok ())
      | .throw e => ((went F c inch (current v s) (reach F c (current v s).plane v.vals x y z) s, m), .throw e)
      | .ub => ((went F c inch (current v s) (reach F c (current v s).plane v.vals x y z) s, m), .ub) := by
  have ht : toolOf v = none := by unfold toolOf; rw [h.tools]; split <;> rfl
  have ha : atTool c v = false := by unfold atTool; rw [ht, h.m6]; simp
  have hba : atBase v = false := by unfold atBase; rw [h.other]; simp
  have hm : mTimes c v (clearMotions s) = clearMotions s := by
    unfold mTimes
    rw [h.m6, h.measure, h.pallet]
    simp
  have hd : dwell v (clearMotions s) = clearMotions s := by
    unfold dwell
    rw [h.other]
    simp
  have hst : startPart c v (clearMotions s) = (clearMotions s, .ok true) := by
    unfold startPart
    rw [ha, hba]
    have e1 : (clearMotions s).autoRapid = false := h.rapid
    dsimp only
    rw [Bool.or_false, if_neg Bool.false_ne_true, if_neg (by rw [e1]; simp), if_neg]
    rintro ⟨_, h2, h3⟩
    have h4 : (current v s).g = -1 := by
      unfold current
      rw [h3]
      exact h2
    rcases h.motion with k | k <;> rw [h4] at k <;> cases k
  have hcur : current v (clearMotions s) = current v s := rfl
  have hc1 : ∀ s' : St K, s'.prev = s.prev → linearAbs F c v (current v s) s' =
      (setMotion (current v s).g (some (reach F c (current v s).plane v.vals x y z)) s', .ok true) := by
    intro s' hs'
    unfold linearAbs target
    rw [hs', hx, hy, hz, ha, hba]
    rfl
  have hcb : (cancelBy c (current v s).g (clearMotions s)).prev = s.prev := by
    unfold cancelBy
    split <;> rfl
  have hmo : motion F c v (current v s) (clearMotions s) =
      (setMotion (current v s).g (some (reach F c (current v s).plane v.vals x y z)) (cancelBy c (current v s).g (clearMotions s)), .ok true) := by
    unfold motion AttrPath.linear
    rw [if_pos h.motion, if_pos (Or.inl h.place), hc1 _ hcb]
  unfold evaluate
  dsimp only
  rw [if_neg hb, hv]
  dsimp only
  unfold evalVis toolPart
  rw [hm, ht]
  dsimp only
  unfold afterTool
  rw [hd, hst]
  unfold Part.andThen
  dsimp only
  unfold moveBlock Part.andThen
  rw [hcur, hmo]
  dsimp only
  rw [account_eq]
  have hs : savePositions c v (went F c inch (current v s) (reach F c (current v s).plane v.vals x y z) s) =
      copySt false [] v.vals (went F c inch (current v s) (reach F c (current v s).plane v.vals x y z) s) := by
    unfold savePositions
    rw [ha, hba, h.other]
    have : (went F c inch (current v s) (reach F c (current v s).plane v.vals x y z) s).incr = false := by
      have : ∀ M : St K, (counted F c inch (current v s) M).incr = (current v s).incr := fun M => rfl
      unfold went
      rw [this, h.place]
    rw [this]
    rfl
  show _ = match checks c (current v s) (went F c inch (current v s) (reach F c (current v s).plane v.vals x y z) s) with
      | .ok () => _
      | .throw e => _
      | .ub => _
  rw [← hs]
  unfold went
  cases checks c (current v s) (counted F c inch (current v s)
    (setMotion (current v s).g (some (reach F c (current v s).plane v.vals x y z)) (cancelBy c (current v s).g (clearMotions s)))) <;> rfl

theorem went_held (F : Fns K) (c : Cfg K) (inch : Inch) (cur : Cur K) (L : K) (s : St K) :
    (went F c inch cur L s).prev = s.prev ∧ (went F c inch cur L s).range = s.range ∧ (went F c inch cur L s).g = gAfter c cur.g ∧
      (went F c inch cur L s).autoRapid = s.autoRapid := by
  have h : ∀ M : St K, (counted F c inch cur M).prev = M.prev ∧ (counted F c inch cur M).range = M.range ∧
      (counted F c inch cur M).g = gAfter c cur.g ∧ (counted F c inch cur M).autoRapid = M.autoRapid := fun M => ⟨rfl, rfl, rfl, rfl⟩
  obtain ⟨h1, h2, h3, h4⟩ := h (setMotion cur.g (some L) (cancelBy c cur.g (clearMotions s)))
  unfold went
  rw [h1, h2, h3, h4]
  unfold setMotion cancelBy
  split <;> split <;> exact ⟨rfl, rfl, rfl, rfl⟩

/-- The feed does not depend on the length. -/
theorem feed_const (F : Fns K) (c : Cfg K) (inch : Inch) {cur : Cur K} (h : cur.perRev = false ∨ cur.css = false) (x y : K) :
    feedPerMinute F c inch cur x = feedPerMinute F c inch cur y := by
  unfold feedPerMinute
  rcases h with h | h
  · rw [h]
    simp
  · rw [h]
    simp

/-- The time of a way with a constant feed. -/
def spent (a f w : K) : Fl K := if w ≠ 0 ∧ 0 < f then mulF 60 (calcTime w a) else some 0

theorem spent_parts (a f t w : K) : addF (spent a f (t * w)) (spent a f ((1 - t) * w)) = spent a f w := by
  have hz : spent a f 0 = some 0 := if_neg (by simp)
  by_cases hw : w = 0
  · rw [hw, mul_zero, mul_zero, hz]
    show some ((0 : K) + 0) = some 0
    rw [add_zero]
  by_cases hf : 0 < f
  · by_cases ha : a = 0
    · have hn : ∀ x : K, x ≠ 0 → spent a f x = none := by
        intro x hx
        unfold spent calcTime
        rw [if_pos ⟨hx, hf⟩, if_pos ha]
        rfl
      rw [hn w hw]
      by_cases ht : t = 0
      · rw [ht, sub_zero, one_mul, zero_mul, hn w hw, hz]
        rfl
      · rw [hn (t * w) (mul_ne_zero ht hw)]
        rfl
    · have hn : ∀ x : K, spent a f x = some (60 * (x / a)) := by
        intro x
        unfold spent calcTime
        by_cases hx : x = 0
        · rw [if_neg (by simp [hx]), hx]
          simp
        · rw [if_pos ⟨hx, hf⟩, if_neg ha]
          rfl
      rw [hn, hn, hn]
      show some (60 * (t * w / a) + 60 * ((1 - t) * w / a)) = some (60 * (w / a))
      congr 1
      field_simp
      ring
  · have hn : ∀ x : K, spent a f x = some 0 := fun x => if_neg (fun h => hf h.2)
    rw [hn, hn, hn]
    show some ((0 : K) + 0) = some 0
    rw [add_zero]

theorem work_spent (F : Fns K) (c : Cfg K) (inch : Inch) {cur : Cur K} (h : cur.perRev = false ∨ cur.css = false) (w : K) :
    workTime F c inch cur (some w) = spent (feedPerMinute F c inch cur 0) cur.f w := by
  unfold workTime spent
  dsimp only
  rw [feed_const F c inch h w 0]

theorem fast_spent (c : Cfg K) (w : K) : fastTime c (some w) = spent c.maxFast c.maxFast w := rfl

theorem addF_group (a b c : Fl K) : addF (addF a b) c = addF a (addF b c) := by
  cases a <;> cases b <;> cases c <;> first | rfl | (show some _ = some _; congr 1; ring)

theorem gAfter_straight (c : Cfg K) {g : Int} (h : g = 0 ∨ g = 1) : gAfter c g = g := by
  unfold gAfter
  rcases h with h | h <;> rw [h] <;> simp

/-- Two straight moves one after the other. -/
theorem went_twice (F : Fns K) (c : Cfg K) (inch : Inch) {cur : Cur K} (hg : cur.g = 0 ∨ cur.g = 1) (hf : cur.perRev = false ∨ cur.css = false)
    (t L : K) (s : St K) (v v' : VMap K)
    (hp : copyBack cur.g false [] v (copyBack cur.g false [] v' (s.prev, s.range)) = copyBack cur.g false [] v (s.prev, s.range)) :
    clearMotions (copySt false [] v (went F c inch cur ((1 - t) * L) (copySt false [] v' (went F c inch cur (t * L) s)))) =
      clearMotions (copySt false [] v (went F c inch cur L s)) := by
  have hL : t * L + (1 - t) * L = L := by ring
  have zf : ∀ x : K, addF (some 0) (some x) = some x := fun x => by show some (0 + x) = some x; rw [zero_add]
  have fz : ∀ x : Fl K, addF x (some 0) = x := by
    intro x
    cases x with
    | none => rfl
    | some x => show some (x + 0) = some x; rw [add_zero]
  have zf' : ∀ x : Fl K, addF (some 0) x = x := by
    intro x
    cases x with
    | none => rfl
    | some x => exact zf x
  have ha : ∀ a : Fl K, addF (addF a (some (t * L))) (some ((1 - t) * L)) = addF a (some L) := by
    intro a
    rw [addF_group]
    show addF a (some (t * L + (1 - t) * L)) = _
    rw [hL]
  have hw : ∀ a : Fl K, addF (addF a (workTime F c inch cur (some (t * L)))) (workTime F c inch cur (some ((1 - t) * L))) =
      addF a (workTime F c inch cur (some L)) := by
    intro a
    rw [addF_group, work_spent F c inch hf, work_spent F c inch hf, work_spent F c inch hf, spent_parts]
  have hq : ∀ a : Fl K, addF (addF a (fastTime c (some (t * L)))) (fastTime c (some ((1 - t) * L))) = addF a (fastTime c (some L)) := by
    intro a
    rw [addF_group, fast_spent, fast_spent, fast_spent, spent_parts]
  have w0 : workTime F c inch cur (some 0) = some 0 := if_neg (by simp)
  have q0 : fastTime c (some 0) = some (0 : K) := if_neg (by simp)
  obtain ⟨pa, ti, prev, tp, tt, range, f, sp, g, pl, ret, incr, css, pr, hx, tool, ar⟩ := s
  obtain ⟨gg, cf, cs, cpl, ci, cc, cr, cp⟩ := cur
  dsimp only at hg hp hf
  have hga := gAfter_straight c hg
  rcases hg with rfl | rfl
  · by_cases hc : ((0 : Int) = 0 ∧ c.cancel0 = true) ∨ ((0 : Int) = 1 ∧ c.cancel1 = true) ∨ ((0 : Int) = 2 ∧ c.cancel2 = true) ∨ ((0 : Int) = 3 ∧ c.cancel3 = true)
    · have hcb : ∀ s : St K, cancelBy c 0 s = cancelCycle s := fun s => if_pos hc
      simp only [went, counted, addTimes, addPath, saveModal, setMotion, hcb, clearMotions, copySt, cancelCycle, if_true, hga, hp,
        zf', fz, w0, q0, ha, hq]
    · have hcb : ∀ s : St K, cancelBy c 0 s = s := fun s => if_neg hc
      simp only [went, counted, addTimes, addPath, saveModal, setMotion, hcb, clearMotions, copySt, cancelCycle, if_true, hga, hp,
        zf', fz, w0, q0, ha, hq]
  · have h10 : ¬ ((1 : Int) = 0) := by decide
    by_cases hc : ((1 : Int) = 0 ∧ c.cancel0 = true) ∨ ((1 : Int) = 1 ∧ c.cancel1 = true) ∨ ((1 : Int) = 2 ∧ c.cancel2 = true) ∨ ((1 : Int) = 3 ∧ c.cancel3 = true)
    · have hcb : ∀ s : St K, cancelBy c 1 s = cancelCycle s := fun s => if_pos hc
      simp only [went, counted, addTimes, addPath, saveModal, setMotion, hcb, clearMotions, copySt, cancelCycle, if_neg h10, hga, hp,
        zf', fz, w0, q0, ha, hw]
    · have hcb : ∀ s : St K, cancelBy c 1 s = s := fun s => if_neg hc
      simp only [went, counted, addTimes, addPath, saveModal, setMotion, hcb, clearMotions, copySt, cancelCycle, if_neg h10, hga, hp,
        zf', fz, w0, q0, ha, hw]

theorem went_lengths (F : Fns K) (c : Cfg K) (inch : Inch) (cur : Cur K) (L : K) (s : St K) :
    (went F c inch cur L s).path.work = (if cur.g = 0 then some 0 else some L) ∧
      (went F c inch cur L s).path.fast = (if cur.g = 0 then some L else some 0) := by
  have h : ∀ M : St K, (counted F c inch cur M).path.work = M.path.work ∧ (counted F c inch cur M).path.fast = M.path.fast := fun M => ⟨rfl, rfl⟩
  obtain ⟨h1, h2⟩ := h (setMotion cur.g (some L) (cancelBy c cur.g (clearMotions s)))
  unfold went
  rw [h1, h2]
  unfold setMotion cancelBy
  by_cases hg : cur.g = 0
  · rw [if_pos hg, if_pos hg, if_pos hg]
    split <;> exact ⟨rfl, rfl⟩
  · rw [if_neg hg, if_neg hg, if_neg hg]
    split <;> exact ⟨rfl, rfl⟩

/-- A part of a move passes the checks if the whole does. -/
theorem checks_part (F : Fns K) (c : Cfg K) (inch : Inch) (cur : Cur K) {L L' : K} (hL : L = 0 → L' = 0) (s s' : St K)
    (h : checks c cur (went F c inch cur L s) = .ok ()) : checks c cur (went F c inch cur L' s') = .ok () := by
  obtain ⟨a1, a2⟩ := went_lengths F c inch cur L s
  obtain ⟨b1, b2⟩ := went_lengths F c inch cur L' s'
  have hw : (went F c inch cur L' s').path.work ≠ some 0 → (went F c inch cur L s).path.work ≠ some 0 := by
    rw [a1, b1]
    split
    · exact id
    · intro k e
      cases e
      exact k (by rw [hL rfl])
  have hq : (went F c inch cur L' s').path.fast ≠ some 0 → (went F c inch cur L s).path.fast ≠ some 0 := by
    rw [a2, b2]
    split
    · intro k e
      cases e
      exact k (by rw [hL rfl])
    · exact id
  unfold checks at h ⊢
  split_ifs at h with h1 h2 h3
  rw [if_neg (fun k => h1 ⟨hw k.1, k.2⟩), if_neg (fun k => h2 ⟨hq k.1, k.2⟩), if_neg (fun k => h3 ⟨hw k.1, k.2⟩)]

theorem current_went (F : Fns K) (c : Cfg K) (inch : Inch) (v : Vis K) (L : K) (w : VMap K) (s : St K)
    (hg : (current v s).g = 0 ∨ (current v s).g = 1) :
    current v (copySt false [] w (went F c inch (current v s) L s)) = current v s := by
  have h : ∀ M : St K, current v (copySt false [] w (counted F c inch (current v s) M)) =
      ⟨v.g.getD (gAfter c (current v s).g), v.f.getD (current v s).f, v.s.getD (current v s).s, v.plane.getD (current v s).plane,
        v.incr.getD (current v s).incr, v.css.getD (current v s).css, v.ret.getD (current v s).ret, v.perRev.getD (current v s).perRev⟩ :=
    fun M => rfl
  unfold went
  rw [h, gAfter_straight c hg]
  unfold current
  dsimp only
  cases v.g <;> cases v.f <;> cases v.s <;> cases v.plane <;> cases v.incr <;> cases v.css <;> cases v.ret <;> cases v.perRev <;> rfl

theorem halve_mid (c : Cfg K) (pl : Plane) (x y t : K) : halve c pl x - halve c pl (x + t * (y - x)) = t * (halve c pl x - halve c pl y) := by
  unfold halve
  split <;> ring

theorem halve_rest (c : Cfg K) (pl : Plane) (x y t : K) :
    halve c pl (x + t * (y - x)) - halve c pl y = (1 - t) * (halve c pl x - halve c pl y) := by
  unfold halve
  split <;> ring

theorem sorted_map {V : Type} (f : Str → V → V) {m : VMap V} (h : m.Sorted) : VMap.Sorted (m.map (fun e => (e.1, f e.1 e.2))) := by
  unfold VMap.Sorted at h ⊢
  exact List.pairwise_map.mpr h

theorem skipped_three {g : Int} (h : g = 0 ∨ g = 1) {a : Str} (ha : a ∈ threeAxes) : skipped g [] a = false := by
  have : ∀ a ∈ threeAxes, skipped 0 [] a = false ∧ skipped 1 [] a = false := by decide
  rcases h with rfl | rfl
  · exact (this a ha).1
  · exact (this a ha).2

variable [IsStrictOrderedRing K]

/-- The square root takes squares out. -/
def Rooted (F : Fns K) : Prop := ∀ t x : K, 0 ≤ t → 0 ≤ x → F.sqrt (t ^ 2 * x) = t * F.sqrt x

theorem len_scaled {F : Fns K} (hF : Rooted F) {t : K} (ht : 0 ≤ t) (x y z : K) : len3 F (t * x) (t * y) (t * z) = t * len3 F x y z := by
  unfold len3
  rw [← hF t _ ht (by positivity)]
  congr 1
  ring

/-- **A block in pieces.** -/
theorem evaluate_pieces {F : Fns K} (hF : Rooted F) {c : Cfg K} (hc : AxesOk c) (inch : Inch) (line line' : Int) {b b' : Block} {t : K} {s : St K}
    (m : MacroMap ℚ) (hp : Inv s) (hh : Held s) (hr : s.autoRapid = false) (hw : Way (pos s) (modalOf s) t b b')
    (h : (evaluate F c inch line b (s, m)).2 = .ok ()) :
    let q := evaluate F c inch line' b' (s, m)
    let q' := evaluate F c inch line b q.1
    q.2 = .ok () ∧ q.1.1.autoRapid = false ∧ q'.2 = .ok () ∧ clearMotions q'.1.1 = clearMotions (evaluate F c inch line b (s, m)).1.1 ∧
      q'.1.2 = (evaluate F c inch line b (s, m)).1.2 ∧ q.1.2 = m := by
  by_cases hb : b = []
  · subst hb
    cases hw.words
    exact ⟨rfl, hr, rfl, rfl, rfl, rfl⟩
  have hb' : b' ≠ [] := by
    intro e
    rw [e] at hw
    cases hw.words
    exact hb rfl
  cases hv : visitAll c {} b with
  | throw e => unfold evaluate at h; dsimp only at h; rw [if_neg hb, hv] at h; cases h
  | ub => unfold evaluate at h; dsimp only at h; rw [if_neg hb, hv] at h; cases h
  | ok v =>
  have hv' : visitAll c {} b' = .ok (midV (pos s) t v) := by
    have := visitAll_mid (c := c) hw.words {}
    rw [hv] at this
    exact this
  obtain ⟨e1, e2, e3⟩ := visitAll_steady hc hw.steady hv
  obtain ⟨e4, e5⟩ := visitAll_still hc hw.words hw.steady (r := {}) ⟨rfl, rfl⟩ hv
  have hcm := current_modal hc hv s
  have hg : (current v s).g = 0 ∨ (current v s).g = 1 := by
    have k : (current v s).g = inGroup 1 b (modalOf s).motion := congrArg Modal.motion hcm
    rw [k]; exact hw.motion
  have hi : (current v s).incr = false := by
    have k : incrNum (current v s).incr = inGroup 3 b (modalOf s).distance := congrArg Modal.distance hcm
    rw [hw.distance] at k
    cases hq : (current v s).incr with
    | false => rfl
    | true => rw [hq] at k; cases k
  have hf : (current v s).perRev = false ∨ (current v s).css = false := by
    have k1 : feedNum (current v s).perRev = inGroup 5 b (modalOf s).feedMode := congrArg Modal.feedMode hcm
    have k2 : speedNum (current v s).css = inGroup 13 b (modalOf s).speedMode := congrArg Modal.speedMode hcm
    rcases hw.feed with k | k
    · left
      rw [k] at k1
      cases hq : (current v s).perRev with
      | false => rfl
      | true => rw [hq] at k1; cases k1
    · right
      rw [k] at k2
      cases hq : (current v s).css with
      | false => rfl
      | true => rw [hq] at k2; cases k2
  have hM : Moves v s := ⟨e1, e2, e3, e4, e5, hr, hg, hi⟩
  have hM' : Moves (midV (pos s) t v) s := ⟨e1, e2, e3, e4, e5, hr, hg, hi⟩
  have hk : ∀ a ∈ threeAxes, ∃ x, pos s a = some x ∧ s.prev.get a = some x := by
    intro a ha
    cases hq : pos s a with
    | none => exact absurd hq (hw.known a ha)
    | some x => exact ⟨x, rfl, by rw [hp.sync a, hq]⟩
  obtain ⟨x, px, hX⟩ := hk c!"X" (by decide)
  obtain ⟨y, py, hY⟩ := hk c!"Y" (by decide)
  obtain ⟨z, pz, hZ⟩ := hk c!"Z" (by decide)
  have hsv : VMap.Sorted v.vals := visitAll_sorted (r := {}) List.Pairwise.nil hv
  -- the numbers of the point on the way
  have hmid : ∀ a ∈ threeAxes, ∀ u, pos s a = some u →
      ((midV (pos s) t v).vals.get a).getD u = u + t * ((v.vals.get a).getD u - u) := by
    intro a ha u hu
    show (VMap.get (v.vals.map (fun e => (e.1, mid (pos s) t e.1 e.2))) a).getD u = _
    rw [Mvd.get_map]
    cases v.vals.get a with
    | none => show u = u + t * (u - u); ring
    | some n =>
      show mid (pos s) t a n = _
      unfold mid
      rw [if_pos ha, hu]
      rfl
  generalize hcur : current v s = cur at *
  have hcur' : current (midV (pos s) t v) s = cur := hcur
  have hL1 : reach F c cur.plane (midV (pos s) t v).vals x y z = t * reach F c cur.plane v.vals x y z := by
    unfold reach dist3
    rw [hmid _ (by decide) x px, hmid _ (by decide) y py, hmid _ (by decide) z pz, halve_mid, ← len_scaled hF hw.from_]
    congr 1 <;> ring
  have hL2 : reach F c cur.plane v.vals (x + t * ((v.vals.get c!"X").getD x - x)) (y + t * ((v.vals.get c!"Y").getD y - y))
      (z + t * ((v.vals.get c!"Z").getD z - z)) = (1 - t) * reach F c cur.plane v.vals x y z := by
    have hd : ∀ (o : Option K) u, o.getD (u + t * (o.getD u - u)) = o.getD u := by
      intro o u
      cases o with
      | none => show u + t * (u - u) = u; ring
      | some n => rfl
    unfold reach dist3
    rw [hd, hd, hd, halve_rest, ← len_scaled hF (sub_nonneg.mpr hw.to_)]
    congr 1 <;> ring
  have E := evaluate_straight F c inch line m hb hv hM hX hY hZ
  have E' := evaluate_straight F c inch line' m hb' hv' hM' hX hY hZ
  rw [hcur] at E
  rw [hcur', hL1] at E'
  generalize hLL : reach F c cur.plane v.vals x y z = L at *
  have hck : checks c cur (went F c inch cur L s) = .ok () := by
    rw [E] at h
    cases hq : checks c cur (went F c inch cur L s) with
    | ok u => rfl
    | throw e => rw [hq] at h; cases h
    | ub => rw [hq] at h; cases h
  have hck1 : checks c cur (went F c inch cur (t * L) s) = .ok () := checks_part F c inch cur (by intro k; rw [k, mul_zero]) s s hck
  rw [hck] at E
  rw [hck1] at E'
  dsimp only at E E'
  obtain ⟨w1, w2, w3, w4⟩ := went_held F c inch cur (t * L) s
  rw [gAfter_straight c hg] at w3
  have h1g : current v (copySt false [] (midV (pos s) t v).vals (went F c inch cur (t * L) s)) = cur := by
    have := current_went F c inch v (t * L) (midV (pos s) t v).vals s (by rw [hcur]; exact hg)
    rw [hcur] at this
    exact this
  have hM1 : Moves v (copySt false [] (midV (pos s) t v).vals (went F c inch cur (t * L) s)) :=
    ⟨e1, e2, e3, e4, e5, w4.trans hr, by rw [h1g]; exact hg, by rw [h1g]; exact hi⟩
  have hprev : ∀ a ∈ threeAxes, ∀ u, pos s a = some u →
      (copySt false [] (midV (pos s) t v).vals (went F c inch cur (t * L) s)).prev.get a = some (u + t * ((v.vals.get a).getD u - u)) := by
    intro a ha u hu
    have k := copyBack_prev (went F c inch cur (t * L) s).g false [] (sorted_map (mid (pos s) t) hsv) (s.prev, s.range) a
    rw [w3, skipped_three hg ha] at k
    show (copyBack (went F c inch cur (t * L) s).g false [] (midV (pos s) t v).vals
      ((went F c inch cur (t * L) s).prev, (went F c inch cur (t * L) s).range)).1.get a = _
    rw [w1, w2, w3]
    refine k.trans ?_
    have k2 := hmid a ha u hu
    cases hq : VMap.get (v.vals.map (fun e => (e.1, mid (pos s) t e.1 e.2))) a with
    | none =>
      have hq' : (midV (pos s) t v).vals.get a = none := hq
      rw [hq'] at k2
      show s.prev.get a = _
      rw [hp.sync a, hu, ← k2]
      rfl
    | some n =>
      have hq' : (midV (pos s) t v).vals.get a = some n := hq
      rw [hq'] at k2
      rw [← k2]
      rfl
  have E2 := evaluate_straight F c inch line m hb hv hM1 (hprev _ (by decide) x px) (hprev _ (by decide) y py) (hprev _ (by decide) z pz)
  rw [h1g, hL2] at E2
  have hck2 : checks c cur (went F c inch cur ((1 - t) * L) (copySt false [] (midV (pos s) t v).vals (went F c inch cur (t * L) s))) = .ok () :=
    checks_part F c inch cur (by intro k; rw [k, mul_zero]) s _ hck
  rw [hck2] at E2
  dsimp only at E2
  intro q q'
  have hq : q = ((copySt false [] (midV (pos s) t v).vals (went F c inch cur (t * L) s), m), .ok ()) := E'
  have hq' : q' = ((copySt false [] v.vals (went F c inch cur ((1 - t) * L) (copySt false [] (midV (pos s) t v).vals (went F c inch cur (t * L) s))), m), .ok ()) := by
    show evaluate F c inch line b q.1 = _
    rw [hq]
    exact E2
  rw [hq, hq', E]
  refine ⟨rfl, w4.trans hr, rfl, ?_, rfl, rfl⟩
  refine went_twice F c inch hg hf t L s v.vals (midV (pos s) t v).vals ?_
  refine copyBack_twice cur.g [] (mid (pos s) t) hsv (s.prev, s.range) ?_
  intro e he
  dsimp only
  by_cases ha : e.1 ∈ threeAxes
  · obtain ⟨u, hu, _⟩ := hk e.1 ha
    cases hrg : s.range.get e.1 with
    | none => unfold pos at hu; rw [hrg] at hu; cases hu
    | some r =>
      have hru : r.cur = u := by
        unfold pos at hu; rw [hrg] at hu; injection hu
      have e0 : mid (pos s) t e.1 e.2 = r.cur + t * (e.2 - r.cur) := by
        unfold mid
        rw [if_pos ha, hu, hru]
      rw [e0]
      exact widen_mid (hh e.1 r hrg) hw.from_ hw.to_ e.2
  · have e0 : mid (pos s) t e.1 e.2 = e.2 := if_neg ha
    rw [e0]
    cases hrg : s.range.get e.1 with
    | none =>
      show widen ⟨e.2, e.2, e.2⟩ e.2 = ⟨e.2, e.2, e.2⟩
      unfold widen
      rw [if_neg (lt_irrefl _), if_neg (lt_irrefl _)]
    | some r =>
      show widen (widen r e.2) e.2 = widen r e.2
      have k := widen_cur_self (widen_held (hh e.1 r hrg) e.2)
      rw [widen_cur] at k
      exact k

end
end
end NC.Pcs
