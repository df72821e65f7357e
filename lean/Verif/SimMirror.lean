import Verif.SimMovedRun
import Verif.SimPieces
import Verif.Spec.Mirror

/-!
# The simulation of a mirrored part
-/

namespace NC.Mir
open NC NC.Path NC.Ver NC.AttrPath NC.Spec.Sim NC.Props
open NC.Spec.Similar (threeAxes)
open NC.Spec.Mirror (Flip)
open NC.Mvd (get_map put_map relative_eq wordsAt Dwells)

section
variable {K : Type} [Field K] [LinearOrder K]

/-! ## Values -/

/-- The values mirrored. -/
def mv (f : Flip) (m : VMap K) : VMap K := m.map (fun e => (e.1, f.onto e.1 e.2))

/-- A range mirrored. -/
def mvr (f : Flip) (a : Str) (r : Rng K) : Rng K := if f.flips a then ⟨-r.hi, -r.cur, -r.lo⟩ else r

/-- The ranges mirrored. -/
def mvR (f : Flip) (m : VMap (Rng K)) : VMap (Rng K) := m.map (fun e => (e.1, mvr f e.1 e.2))

/-- The state for the mirrored part. -/
def mvS (f : Flip) (s : St K) : St K := { s with prev := mv f s.prev, range := mvR f s.range, g := f.motion s.g }

/-- The machine with its points mirrored. -/
def mvC (f : Flip) (c : Cfg K) : Cfg K := { c with base := mv f c.base, exchange := mv f c.exchange, motion := f.motion c.motion }

/-- What the visitor collects from the block of the mirrored part. -/
def mvV (f : Flip) (v : Vis K) : Vis K := { v with vals := mv f v.vals, g := v.g.map f.motion }

/-- The values in force. -/
def mvU (f : Flip) (u : Cur K) : Cur K := { u with g := f.motion u.g }

omit [LinearOrder K] in
theorem get_mv (f : Flip) (m : VMap K) (k : Str) : (mv f m).get k = (m.get k).map (f.onto k) := get_map (fun k x => f.onto k x) m k
omit [LinearOrder K] in
theorem put_mv (f : Flip) (m : VMap K) (k : Str) (x : K) : (mv f m).put k (f.onto k x) = mv f (m.put k x) :=
  put_map (fun k x => f.onto k x) m k x
omit [LinearOrder K] in
theorem get_mvR (f : Flip) (m : VMap (Rng K)) (k : Str) : (mvR f m).get k = (m.get k).map (mvr f k) :=
  get_map (fun k x => mvr f k x) m k
omit [LinearOrder K] in
theorem put_mvR (f : Flip) (m : VMap (Rng K)) (k : Str) (x : Rng K) : (mvR f m).put k (mvr f k x) = mvR f (m.put k x) :=
  put_map (fun k x => mvr f k x) m k x
omit [LinearOrder K] in
theorem mv_nil (f : Flip) (m : VMap K) : mv f m = [] ↔ m = [] := List.map_eq_nil_iff

variable (f : Flip)

omit [LinearOrder K] in
theorem onto_add (a : Str) (x y : K) : f.onto a (x + y) = f.onto a x + f.onto a y := by
  unfold Flip.onto; split <;> ring
omit [LinearOrder K] in
theorem onto_sub (a : Str) (x y : K) : f.onto a (x - y) = f.onto a x - f.onto a y := by
  unfold Flip.onto; split <;> ring
omit [LinearOrder K] in
theorem onto_zero (a : Str) : f.onto a (0 : K) = 0 := by
  unfold Flip.onto; split <;> simp
omit [LinearOrder K] in
theorem onto_sq (a : Str) (x : K) : (f.onto a x) ^ 2 = x ^ 2 := by
  unfold Flip.onto; split <;> ring
omit [LinearOrder K] in
theorem onto_inj (a : Str) (x y : K) : f.onto a x = f.onto a y ↔ x = y := by
  unfold Flip.onto; split <;> simp
omit [LinearOrder K] in
theorem onto_eq_zero (a : Str) (x : K) : f.onto a x = 0 ↔ x = 0 := by
  unfold Flip.onto; split <;> simp
omit [LinearOrder K] in
theorem onto_other {a : Str} (h : f.flips a = false) (x : K) : f.onto a x = x := by
  unfold Flip.onto; rw [h]; rfl
omit [LinearOrder K] in
theorem map_other {a : Str} (h : f.flips a = false) (o : Option K) : o.map (f.onto a) = o := by
  cases o with
  | none => rfl
  | some x => rw [Option.map_some, onto_other f h]
omit [LinearOrder K] in
theorem getD_onto (a : Str) (o : Option K) (x : K) : (o.map (f.onto a)).getD (f.onto a x) = f.onto a (o.getD x) := by
  cases o <;> rfl
omit [LinearOrder K] in
theorem getD_onto0 (a : Str) (o : Option K) : (o.map (f.onto a)).getD 0 = f.onto a (o.getD 0) := by
  cases o
  · exact (onto_zero f a).symm
  · rfl
omit [LinearOrder K] in
theorem orElse_onto (a : Str) (o q : Option K) : (o.map (f.onto a) <|> q.map (f.onto a)) = (o <|> q).map (f.onto a) := by
  cases o <;> rfl

theorem flips_Z : f.flips c!"Z" = false := by unfold Flip.flips; rcases f with ⟨_ | _, _ | _⟩ <;> rfl
theorem flips_K : f.flips c!"K" = false := by unfold Flip.flips; rcases f with ⟨_ | _, _ | _⟩ <;> rfl
theorem flips_R : f.flips c!"R" = false := by unfold Flip.flips; rcases f with ⟨_ | _, _ | _⟩ <;> rfl
theorem flips_Q : f.flips c!"Q" = false := by unfold Flip.flips; rcases f with ⟨_ | _, _ | _⟩ <;> rfl
theorem flips_L : f.flips c!"L" = false := by unfold Flip.flips; rcases f with ⟨_ | _, _ | _⟩ <;> rfl
theorem flips_P : f.flips c!"P" = false := by unfold Flip.flips; rcases f with ⟨_ | _, _ | _⟩ <;> rfl
theorem flips_U : f.flips c!"U" = false := by unfold Flip.flips; rcases f with ⟨_ | _, _ | _⟩ <;> rfl

omit [LinearOrder K] in
theorem onto_X (x : K) : f.onto c!"X" x = if f.x then -x else x := by
  rcases f with ⟨_ | _, _ | _⟩ <;> rfl
omit [LinearOrder K] in
theorem onto_I (x : K) : f.onto c!"I" x = if f.x then -x else x := by
  rcases f with ⟨_ | _, _ | _⟩ <;> rfl
omit [LinearOrder K] in
theorem onto_Y (x : K) : f.onto c!"Y" x = if f.y then -x else x := by
  rcases f with ⟨_ | _, _ | _⟩ <;> rfl
omit [LinearOrder K] in
theorem onto_J (x : K) : f.onto c!"J" x = if f.y then -x else x := by
  rcases f with ⟨_ | _, _ | _⟩ <;> rfl

/-! ## Motions -/

theorem motion_other {n : Int} (h2 : n ≠ 2) (h3 : n ≠ 3) : f.motion n = n := by
  unfold Flip.motion
  rw [if_neg h2, if_neg h3]
  split <;> rfl

theorem motion_cases (n : Int) : (f.motion n = n) ∨ (f.turned = true ∧ n = 2 ∧ f.motion n = 3) ∨ (f.turned = true ∧ n = 3 ∧ f.motion n = 2) := by
  unfold Flip.motion
  cases f.turned with
  | false => exact Or.inl rfl
  | true =>
    rw [if_pos rfl]
    by_cases h2 : n = 2
    · subst h2; exact Or.inr (Or.inl ⟨rfl, rfl, rfl⟩)
    · rw [if_neg h2]
      by_cases h3 : n = 3
      · subst h3; exact Or.inr (Or.inr ⟨rfl, rfl, rfl⟩)
      · rw [if_neg h3]; exact Or.inl rfl

theorem motion_iff {m : Int} (h2 : m ≠ 2) (h3 : m ≠ 3) (n : Int) : f.motion n = m ↔ n = m := by
  rcases motion_cases f n with h | ⟨_, h, h'⟩ | ⟨_, h, h'⟩
  · rw [h]
  · rw [h', h]; omega
  · rw [h', h]; omega

theorem motion_arc (n : Int) : (f.motion n = 2 ∨ f.motion n = 3) ↔ (n = 2 ∨ n = 3) := by
  rcases motion_cases f n with h | ⟨_, h, h'⟩ | ⟨_, h, h'⟩
  · rw [h]
  · rw [h', h]; omega
  · rw [h', h]; omega

theorem motion_drill (n : Int) : isDrill (f.motion n) = isDrill n := by
  rcases motion_cases f n with h | ⟨_, h, h'⟩ | ⟨_, h, h'⟩
  · rw [h]
  · rw [h', h]; decide
  · rw [h', h]; decide

theorem motion_drillQ (n : Int) : isDrillQ (f.motion n) = isDrillQ n := by
  rcases motion_cases f n with h | ⟨_, h, h'⟩ | ⟨_, h, h'⟩
  · rw [h]
  · rw [h', h]; decide
  · rw [h', h]; decide

theorem motion_skipped (n : Int) (og : List Str) (w : Str) : skipped (f.motion n) og w = skipped n og w := by
  unfold skipped
  rw [motion_drill, motion_drillQ]

omit [LinearOrder K] in
theorem motion_after (c : Cfg K) (n : Int) : gAfter (mvC f c) (f.motion n) = f.motion (gAfter c n) := by
  show (if f.motion n = 80 ∧ c.cancelRapid = true then 0 else f.motion n) = f.motion (if n = 80 ∧ c.cancelRapid = true then 0 else n)
  simp only [motion_iff f (show (80 : Int) ≠ 2 by decide) (show (80 : Int) ≠ 3 by decide)]
  split
  · exact (motion_other f (by decide) (by decide)).symm
  · rfl

/-! ## Saving positions -/

/-- Every range is in order. -/
def Ord (m : VMap (Rng K)) : Prop := ∀ a r, m.get a = some r → r.lo ≤ r.cur ∧ r.cur ≤ r.hi

variable [IsStrictOrderedRing K]

theorem widen_mv (a : Str) {r : Rng K} (h : r.lo ≤ r.cur ∧ r.cur ≤ r.hi) (x : K) : widen (mvr f a r) (f.onto a x) = mvr f a (widen r x) := by
  unfold mvr Flip.onto
  cases f.flips a with
  | false => rfl
  | true =>
    rw [if_pos rfl, if_pos rfl, if_pos rfl]
    have hle := le_trans h.1 h.2
    unfold widen
    dsimp only
    simp only [neg_lt_neg_iff]
    by_cases h1 : x < r.lo
    · have h2 : ¬ r.hi < x := not_lt.mpr (le_trans h1.le hle)
      rw [if_pos h1, if_pos h1, if_neg h2]
    · rw [if_neg h1, if_neg h1]
      split <;> rfl

theorem ord_put {m : VMap (Rng K)} (h : Ord m) (k : Str) {r : Rng K} (hr : r.lo ≤ r.cur ∧ r.cur ≤ r.hi) : Ord (m.put k r) := by
  intro a q hq
  rw [VMap.get_put] at hq
  split at hq
  · cases hq; exact hr
  · exact h a q hq

theorem copyOne_ord {incr : Bool} {w : Str} {x : K} {p : VMap K × VMap (Rng K)} (h : Ord p.2) : Ord (copyOne incr w x p).2 := by
  unfold copyOne
  split
  · split
    · rename_i r hr; exact ord_put h _ (Pcs.widen_held (h _ _ hr) _)
    · exact ord_put h _ ⟨le_refl _, le_refl _⟩
  · split
    · rename_i r hr; exact ord_put h _ (Pcs.widen_held (h _ _ hr) _)
    · exact ord_put h _ ⟨le_refl _, le_refl _⟩

omit [LinearOrder K] [IsStrictOrderedRing K] in
theorem mvr_cur (a : Str) (r : Rng K) : (mvr f a r).cur = f.onto a r.cur := by
  unfold mvr Flip.onto; split <;> rfl

omit [LinearOrder K] [IsStrictOrderedRing K] in
theorem mvr_point (a : Str) (x : K) : (⟨f.onto a x, f.onto a x, f.onto a x⟩ : Rng K) = mvr f a ⟨x, x, x⟩ := by
  unfold mvr Flip.onto; split <;> rfl

theorem copyOne_mv (incr : Bool) (w : Str) (x : K) {p : VMap K × VMap (Rng K)} (h : Ord p.2) :
    copyOne incr w (f.onto w x) (mv f p.1, mvR f p.2) = (mv f (copyOne incr w x p).1, mvR f (copyOne incr w x p).2) := by
  unfold copyOne
  dsimp only
  rw [get_mvR]
  by_cases hm : movesIncr incr w = true
  · rw [if_pos hm, if_pos hm]
    cases hg : p.2.get w with
    | none =>
      dsimp only [Option.map_none]
      rw [put_mv, mvr_point, put_mvR]
    | some r =>
      dsimp only [Option.map_some]
      rw [mvr_cur, ← onto_add, put_mv, widen_mv f w (h _ _ hg), put_mvR]
  · rw [if_neg hm, if_neg hm]
    cases hg : p.2.get w with
    | none =>
      dsimp only [Option.map_none]
      rw [put_mv, mvr_point, put_mvR]
    | some r =>
      dsimp only [Option.map_some]
      rw [put_mv, widen_mv f w (h _ _ hg), put_mvR]

theorem copyBack_mv (g : Int) (incr : Bool) (og : List Str) (v : VMap K) {p : VMap K × VMap (Rng K)} (h : Ord p.2) :
    copyBack (f.motion g) incr og (mv f v) (mv f p.1, mvR f p.2) = (mv f (copyBack g incr og v p).1, mvR f (copyBack g incr og v p).2) := by
  induction v generalizing p with
  | nil => rfl
  | cons e t ih =>
    show copyBack (f.motion g) incr og ((e.1, f.onto e.1 e.2) :: mv f t) _ = _
    unfold copyBack
    dsimp only
    rw [motion_skipped]
    split
    · exact ih h
    · rw [copyOne_mv f _ _ _ h]
      exact ih (p := copyOne incr e.1 e.2 p) (copyOne_ord h)

theorem copySt_mv (incr : Bool) (og : List Str) (v : VMap K) {s : St K} (h : Ord s.range) :
    copySt incr og (mv f v) (mvS f s) = mvS f (copySt incr og v s) := by
  have := copyBack_mv f s.g incr og v (p := (s.prev, s.range)) h
  have e1 := congrArg Prod.fst this
  have e2 := congrArg Prod.snd this
  dsimp only at e1 e2
  unfold copySt mvS
  dsimp only
  rw [e1, e2]

/-! ## Straight moves -/

omit [LinearOrder K] [IsStrictOrderedRing K] in
theorem halve_onto (c : Cfg K) (p : Plane) (a : Str) (x : K) : halve c p (f.onto a x) = f.onto a (halve c p x) := by
  unfold halve Flip.onto; split <;> split <;> ring

omit [LinearOrder K] [IsStrictOrderedRing K] in
theorem target_mv (c : Cfg K) (v : Vis K) (a : Str) (x : K) :
    target (mvC f c) (mvV f v) a (f.onto a x) = Out.bind (target c v a x) (fun y => .ok (f.onto a y)) := by
  unfold target
  show (if atTool c v = true then _ else if atBase v = true then _ else _) = _
  by_cases ht : atTool c v = true
  · rw [if_pos ht, if_pos ht]
    show (match (mv f c.exchange).get a with | some x => Out.ok x | none => if atBase v = true then Out.ub else Out.ok (f.onto a x)) = _
    rw [get_mv]
    cases c.exchange.get a with
    | none => dsimp only [Option.map_none]; split <;> rfl
    | some y => rfl
  · rw [if_neg ht, if_neg ht]
    by_cases hb : atBase v = true
    · rw [if_pos hb, if_pos hb]
      show Out.ok (((mv f c.base).get a).getD (f.onto a x)) = _
      rw [get_mv]
      cases c.base.get a <;> rfl
    · rw [if_neg hb, if_neg hb]
      show Out.ok (((mv f v.vals).get a).getD (f.onto a x)) = _
      rw [get_mv]
      cases v.vals.get a <;> rfl

omit [LinearOrder K] [IsStrictOrderedRing K] in
theorem len3_onto (F : Fns K) (a b e : Str) (x y z : K) : len3 F (f.onto a x) (f.onto b y) (f.onto e z) = len3 F x y z := by
  unfold len3; rw [onto_sq, onto_sq, onto_sq]

omit [LinearOrder K] [IsStrictOrderedRing K] in
theorem len2_onto (F : Fns K) (a b : Str) (x y : K) : len2 F (f.onto a x) (f.onto b y) = len2 F x y := by
  unfold len2; rw [onto_sq, onto_sq]

omit [LinearOrder K] [IsStrictOrderedRing K] in
theorem dist2_onto (F : Fns K) (a b : Str) (x y x' y' : K) :
    dist2 F (f.onto a x) (f.onto b y) (f.onto a x') (f.onto b y') = dist2 F x y x' y' := by
  unfold dist2; rw [← onto_sub, ← onto_sub, len2_onto]

omit [LinearOrder K] [IsStrictOrderedRing K] in
theorem setMotion_mv (g : Int) (x : Fl K) (s : St K) : setMotion (f.motion g) x (mvS f s) = mvS f (setMotion g x s) := by
  unfold setMotion
  simp only [motion_iff f (show (0 : Int) ≠ 2 by decide) (show (0 : Int) ≠ 3 by decide)]
  split <;> rfl

omit [LinearOrder K] [IsStrictOrderedRing K] in
theorem cancelBy_mv {c : Cfg K} (hc : c.cancel2 = c.cancel3) (g : Int) (s : St K) : cancelBy (mvC f c) (f.motion g) (mvS f s) = mvS f (cancelBy c g s) := by
  unfold cancelBy
  have e : ((f.motion g = 0 ∧ c.cancel0 = true) ∨ (f.motion g = 1 ∧ c.cancel1 = true) ∨ (f.motion g = 2 ∧ c.cancel2 = true) ∨ (f.motion g = 3 ∧ c.cancel3 = true)) ↔
      ((g = 0 ∧ c.cancel0 = true) ∨ (g = 1 ∧ c.cancel1 = true) ∨ (g = 2 ∧ c.cancel2 = true) ∨ (g = 3 ∧ c.cancel3 = true)) := by
    rw [motion_iff f (show (0 : Int) ≠ 2 by decide) (show (0 : Int) ≠ 3 by decide), motion_iff f (show (1 : Int) ≠ 2 by decide) (show (1 : Int) ≠ 3 by decide),
      hc, ← or_and_right, ← or_and_right, motion_arc]
  by_cases h : (g = 0 ∧ c.cancel0 = true) ∨ (g = 1 ∧ c.cancel1 = true) ∨ (g = 2 ∧ c.cancel2 = true) ∨ (g = 3 ∧ c.cancel3 = true)
  · exact (if_pos (e.mpr h)).trans ((show cancelCycle (mvS f s) = mvS f (cancelCycle s) from rfl).trans (congrArg (mvS f) (if_pos h).symm))
  · exact (if_neg (fun h' => h (e.mp h'))).trans (congrArg (mvS f) (if_neg h).symm)

/-- A part for the mirrored part. -/
def mvP (f : Flip) (p : AttrPath.Part (St K)) : AttrPath.Part (St K) := (mvS f p.1, p.2)

omit [IsStrictOrderedRing K] in
theorem linearAbs_mv (F : Fns K) (c : Cfg K) (v : Vis K) (cur : Cur K) (s : St K) :
    linearAbs F (mvC f c) (mvV f v) (mvU f cur) (mvS f s) = mvP f (linearAbs F c v cur s) := by
  unfold linearAbs
  show (match (mv f s.prev).get c!"X", (mv f s.prev).get c!"Y", (mv f s.prev).get c!"Z" with
    | none, _, _ => _
    | some _, none, _ => _
    | some _, some _, none => _
    | some xp, some yp, some zp => _) = _
  rw [get_mv, get_mv, get_mv]
  cases s.prev.get c!"X" with
  | none => rfl
  | some xp =>
    cases s.prev.get c!"Y" with
    | none => rfl
    | some yp =>
      cases s.prev.get c!"Z" with
      | none => rfl
      | some zp =>
        dsimp only [Option.map_some]
        rw [target_mv f c v, target_mv f c v, target_mv f c v]
        cases target c v c!"X" xp with
        | throw e => rfl
        | ub => rfl
        | ok x =>
          cases target c v c!"Y" yp with
          | throw e => rfl
          | ub => rfl
          | ok y =>
            cases target c v c!"Z" zp with
            | throw e => rfl
            | ub => rfl
            | ok z =>
              dsimp only [Out.bind]
              have e : dist3 F (halve c cur.plane (f.onto c!"X" xp)) (f.onto c!"Y" yp) (f.onto c!"Z" zp) (halve c cur.plane (f.onto c!"X" x)) (f.onto c!"Y" y)
                  (f.onto c!"Z" z) = dist3 F (halve c cur.plane xp) yp zp (halve c cur.plane x) y z := by
                unfold dist3
                rw [halve_onto, halve_onto, ← onto_sub, ← onto_sub, ← onto_sub, len3_onto]
              unfold mvP
              dsimp only
              rw [← setMotion_mv, ← e]
              rfl

omit [IsStrictOrderedRing K] in
theorem known_mv (v : Vis K) (s : St K) (w : Str) : known (mvV f v) (mvS f s) w = known v s w := by
  unfold known
  show (((mv f v.vals).get w).isSome || ((mv f s.prev).get w).isSome) = _
  rw [get_mv, get_mv, Option.isSome_map, Option.isSome_map]

omit [IsStrictOrderedRing K] in
theorem linearIncr_mv (F : Fns K) (c : Cfg K) (v : Vis K) (cur : Cur K) (s : St K) :
    linearIncr F (mvC f c) (mvV f v) (mvU f cur) (mvS f s) = mvP f (linearIncr F c v cur s) := by
  unfold linearIncr
  rw [known_mv, known_mv, known_mv]
  split
  · rfl
  · split
    · rfl
    · split
      · rfl
      · unfold mvP
        dsimp only
        rw [← setMotion_mv]
        have e1 : ∀ a, ((mvV f v).vals.get a).getD 0 = f.onto a ((v.vals.get a).getD 0) := by
          intro a
          show ((mv f v.vals).get a).getD 0 = _
          rw [get_mv, getD_onto0]
        rw [e1, e1, e1]
        have e2 : halve (mvC f c) (mvU f cur).plane (f.onto c!"X" ((v.vals.get c!"X").getD 0)) = f.onto c!"X" (halve c cur.plane ((v.vals.get c!"X").getD 0)) :=
          halve_onto f c cur.plane _ _
        rw [e2, len3_onto]
        rfl

omit [IsStrictOrderedRing K] in
theorem linear_mv (F : Fns K) {c : Cfg K} (hc : c.cancel2 = c.cancel3) (v : Vis K) (cur : Cur K) (s : St K) :
    AttrPath.linear F (mvC f c) (mvV f v) (mvU f cur) (mvS f s) = mvP f (AttrPath.linear F c v cur s) := by
  unfold AttrPath.linear
  have e : cancelBy (mvC f c) (mvU f cur).g (mvS f s) = mvS f (cancelBy c cur.g s) := cancelBy_mv f hc cur.g s
  rw [e]
  by_cases h : cur.incr = false ∨ atTool c v = true ∨ atBase v = true
  · rw [if_pos h]
    exact (if_pos (show (mvU f cur).incr = false ∨ atTool (mvC f c) (mvV f v) = true ∨ atBase (mvV f v) = true from h)).trans (linearAbs_mv f F c v cur _)
  · rw [if_neg h]
    exact (if_neg (show ¬ ((mvU f cur).incr = false ∨ atTool (mvC f c) (mvV f v) = true ∨ atBase (mvV f v) = true) from h)).trans (linearIncr_mv f F c v cur _)

/-! ## Arcs -/

/-- The arc tangent is odd. -/
def OddAtan (F : Fns K) : Prop := ∀ x, F.atan (-x) = -F.atan x

/-- The quadrant seen in a mirror. -/
def mirX (n : Nat) : Nat := if n = 1 then 2 else if n = 2 then 1 else if n = 3 then 4 else if n = 4 then 3 else n
def mirY (n : Nat) : Nat := if n = 1 then 4 else if n = 4 then 1 else if n = 2 then 3 else if n = 3 then 2 else n

theorem quadrant_x (x y : K) : quadrant (-x) y = mirX (quadrant x y) := by
  unfold quadrant mirX
  simp only [Left.neg_pos_iff, Left.neg_neg_iff]
  by_cases h1 : 0 < x <;> by_cases h2 : x < 0 <;> by_cases h3 : 0 < y <;> by_cases h4 : y < 0 <;>
    first
    | exact absurd h2 (lt_asymm h1)
    | exact absurd h4 (lt_asymm h3)
    | simp [h1, h2, h3, h4]

theorem quadrant_y (x y : K) : quadrant x (-y) = mirY (quadrant x y) := by
  unfold quadrant mirY
  simp only [Left.neg_pos_iff, Left.neg_neg_iff]
  by_cases h1 : 0 < x <;> by_cases h2 : x < 0 <;> by_cases h3 : 0 < y <;> by_cases h4 : y < 0 <;>
    first
    | exact absurd h2 (lt_asymm h1)
    | exact absurd h4 (lt_asymm h3)
    | simp [h1, h2, h3, h4]

omit [IsStrictOrderedRing K] in
theorem quadrant_le (x y : K) : quadrant x y ≤ 4 := by
  unfold quadrant; split_ifs <;> omega

theorem four_x {dir p q : Nat} (hd : dir = 2 ∨ dir = 3) (hp : p ≤ 4) (hq : q ≤ 4) : longByFour (5 - dir) (mirX p) (mirX q) = longByFour dir p q := by
  rcases hd with rfl | rfl <;> interval_cases p <;> interval_cases q <;> rfl

theorem four_y {dir p q : Nat} (hd : dir = 2 ∨ dir = 3) (hp : p ≤ 4) (hq : q ≤ 4) : longByFour (5 - dir) (mirY p) (mirY q) = longByFour dir p q := by
  rcases hd with rfl | rfl <;> interval_cases p <;> interval_cases q <;> rfl

theorem opposite_x {p q : Nat} (hp : p ≤ 4) (hq : q ≤ 4) : opposite (mirX p) (mirX q) = opposite p q := by
  interval_cases p <;> interval_cases q <;> rfl

theorem opposite_y {p q : Nat} (hp : p ≤ 4) (hq : q ≤ 4) : opposite (mirY p) (mirY q) = opposite p q := by
  interval_cases p <;> interval_cases q <;> rfl

theorem opposite_zero {p q : Nat} (h : p = 0 ∨ q = 0) : opposite p q = false := by
  rcases h with rfl | rfl
  · rfl
  · unfold opposite; simp

omit [IsStrictOrderedRing K] in
theorem quadrant_zero (y : K) : quadrant 0 y = 0 := by
  unfold quadrant; simp

omit [IsStrictOrderedRing K] in
/-- Between opposite quadrants the angles change sign with the mirrored axis. -/
theorem three_neg {dir p q p' q' : Nat} (hd : dir = 2 ∨ dir = 3) {a b a' b' : K} (ho : opposite p' q' = opposite p q)
    (h : opposite p q = true → a' = -a ∧ b' = -b) [IsStrictOrderedRing K] : longByThree (5 - dir) p' q' a' b' = longByThree dir p q a b := by
  cases hop : opposite p q with
  | false =>
    unfold longByThree
    rw [ho, hop]
    rcases hd with rfl | rfl <;> rfl
  | true =>
    obtain ⟨rfl, rfl⟩ := h hop
    unfold longByThree
    rw [ho, hop]
    rcases hd with rfl | rfl
    · simp
    · simp

variable {F : Fns K} (hF : OddAtan F)

include hF in
omit [IsStrictOrderedRing K] in
theorem atan_x {x : K} (hx : x ≠ 0) (y : K) : atanDiv F y (-x) = -atanDiv F y x := by
  unfold atanDiv
  rw [if_neg hx, if_neg (neg_ne_zero.mpr hx), div_neg, hF]

include hF in
omit [IsStrictOrderedRing K] in
theorem atan_y {x : K} (hx : x ≠ 0) (y : K) : atanDiv F (-y) x = -atanDiv F y x := by
  unfold atanDiv
  rw [if_neg hx, if_neg hx, neg_div, hF]

include hF in
theorem longArc_x {dir : Nat} (hd : dir = 2 ∨ dir = 3) (px py qx qy : K) : longArc F (5 - dir) (-px) py (-qx) qy = longArc F dir px py qx qy := by
  unfold longArc
  rw [quadrant_x, quadrant_x, four_x hd (quadrant_le _ _) (quadrant_le _ _)]
  congr 1
  refine three_neg hd (opposite_x (quadrant_le _ _) (quadrant_le _ _)) ?_
  intro ho
  have hp : px ≠ 0 := by
    rintro rfl
    rw [opposite_zero (Or.inl (quadrant_zero _))] at ho
    cases ho
  have hq : qx ≠ 0 := by
    rintro rfl
    rw [opposite_zero (Or.inr (quadrant_zero _))] at ho
    cases ho
  rw [atan_x hF hp, atan_x hF hq]
  exact ⟨neg_mul _ _, neg_mul _ _⟩

include hF in
theorem longArc_y {dir : Nat} (hd : dir = 2 ∨ dir = 3) (px py qx qy : K) : longArc F (5 - dir) px (-py) qx (-qy) = longArc F dir px py qx qy := by
  unfold longArc
  rw [quadrant_y, quadrant_y, four_y hd (quadrant_le _ _) (quadrant_le _ _)]
  congr 1
  refine three_neg hd (opposite_y (quadrant_le _ _) (quadrant_le _ _)) ?_
  intro ho
  have hp : px ≠ 0 := by
    rintro rfl
    rw [opposite_zero (Or.inl (quadrant_zero _))] at ho
    cases ho
  have hq : qx ≠ 0 := by
    rintro rfl
    rw [opposite_zero (Or.inr (quadrant_zero _))] at ho
    cases ho
  rw [atan_y hF hp, atan_y hF hq]
  exact ⟨neg_mul _ _, neg_mul _ _⟩

include hF in
theorem longArc_onto {g : Int} (hg : g = 2 ∨ g = 3) (px py qx qy : K) :
    longArc F (f.motion g).toNat (f.onto c!"X" px) (f.onto c!"Y" py) (f.onto c!"X" qx) (f.onto c!"Y" qy) = longArc F g.toNat px py qx qy := by
  have hd : g.toNat = 2 ∨ g.toNat = 3 := by omega
  rw [onto_X, onto_X, onto_Y, onto_Y]
  rcases f with ⟨_ | _, _ | _⟩
  · rfl
  · have e : (Flip.motion ⟨false, true⟩ g).toNat = 5 - g.toNat := by rcases hg with rfl | rfl <;> decide
    rw [e]
    exact longArc_y hF hd px py qx qy
  · have e : (Flip.motion ⟨true, false⟩ g).toNat = 5 - g.toNat := by rcases hg with rfl | rfl <;> decide
    rw [e]
    exact longArc_x hF hd px py qx qy
  · have e : (Flip.motion ⟨true, true⟩ g).toNat = 5 - (5 - g.toNat) := by rcases hg with rfl | rfl <;> decide
    rw [e]
    exact (longArc_x hF (by omega) px (-py) qx (-qy)).trans (longArc_y hF hd px py qx qy)

theorem samePoint_onto (a b : Str) (x y x' y' : K) : samePoint (f.onto a x) (f.onto b y) (f.onto a x') (f.onto b y') ↔ samePoint x y x' y' := by
  have h : ∀ (a : Str) (z : K), |f.onto a z| = |z| := by
    intro a z
    unfold Flip.onto; split
    · exact abs_neg z
    · rfl
  unfold samePoint
  rw [← onto_sub, ← onto_sub, h, h]

include hF in
theorem arcIJ_onto {g : Int} (hg : g = 2 ∨ g = 3) (xp yp xc yc i j : K) :
    arcIJ F (f.onto c!"X" xp) (f.onto c!"Y" yp) (f.onto c!"X" xc) (f.onto c!"Y" yc) (f.onto c!"I" i) (f.onto c!"J" j) (f.motion g).toNat =
      arcIJ F xp yp xc yc i j g.toNat := by
  have eI : f.onto c!"I" i = f.onto c!"X" i := by rw [onto_I, onto_X]
  have eJ : f.onto c!"J" j = f.onto c!"Y" j := by rw [onto_J, onto_Y]
  unfold arcIJ
  dsimp only
  rw [eI, eJ]
  simp only [dist2_onto, samePoint_onto, ← onto_add, ← onto_sub, onto_sq]
  rw [Mvd.relative_eq, Mvd.relative_eq, Mvd.relative_eq, Mvd.relative_eq]
  dsimp only
  rw [← onto_sub, ← onto_sub, ← onto_sub, ← onto_sub, longArc_onto f hF hg]

theorem arcR_onto (xp yp xc yc r : K) :
    arcR F (f.onto c!"X" xp) (f.onto c!"Y" yp) (f.onto c!"X" xc) (f.onto c!"Y" yc) r = arcR F xp yp xc yc r := by
  unfold arcR
  dsimp only
  simp only [dist2_onto, samePoint_onto]

/-- The words of a circular move for the mirrored part, in the plane G17. -/
def mvW (f : Flip) (w : CW K) : CW K :=
  { w with xp := f.onto c!"X" w.xp, yp := f.onto c!"Y" w.yp, i := w.i.map (f.onto c!"I"), j := w.j.map (f.onto c!"J"),
           x := w.x.map (f.onto c!"X"), y := w.y.map (f.onto c!"Y") }

/-- The outcome of a step of a circular move for the mirrored part. -/
def mvQ (f : Flip) (p : CPart K) : CPart K := ((mvS f p.1.1, mvW f p.1.2), p.2)

/-- The words of G17. -/
abbrev ax17 : Axes := axesOf .xy

omit [LinearOrder K] [IsStrictOrderedRing K] in
theorem prev_mv (s : St K) (a : Str) : (mvS f s).prev.get a = (s.prev.get a).map (f.onto a) := get_mv f _ a

omit [LinearOrder K] [IsStrictOrderedRing K] in
theorem prev_other (s : St K) {a : Str} (h : f.flips a = false) : (mvS f s).prev.get a = s.prev.get a := by
  rw [prev_mv, map_other f h]

omit [LinearOrder K] [IsStrictOrderedRing K] in
theorem vals_mv (v : Vis K) (a : Str) : (mvV f v).vals.get a = (v.vals.get a).map (f.onto a) := get_mv f _ a

omit [LinearOrder K] [IsStrictOrderedRing K] in
theorem vals_other (v : Vis K) {a : Str} (h : f.flips a = false) : (mvV f v).vals.get a = v.vals.get a := by
  rw [vals_mv, map_other f h]

omit [IsStrictOrderedRing K] in
theorem archimedesL_onto (F : Fns K) (i j l : K) : archimedesL F (f.onto c!"I" i) (f.onto c!"J" j) l = archimedesL F i j l := by
  unfold archimedesL; rw [len2_onto]

omit [IsStrictOrderedRing K] in
theorem archimedesQ_onto (F : Fns K) (i j l : K) : archimedesQ F (f.onto c!"I" i) (f.onto c!"J" j) l = archimedesQ F i j l := by
  unfold archimedesQ; rw [len2_onto]

omit [IsStrictOrderedRing K] in
theorem spiral_mv (F : Fns K) (s : St K) (w : CW K) : spiral F ax17 (mvS f s) (mvW f w) = mvQ f (spiral F ax17 s w) := by
  unfold spiral
  have e1 : ((mvW f w).i <|> (mvS f s).prev.get ax17.p1) = (w.i <|> s.prev.get ax17.p1).map (f.onto c!"I") := by
    rw [prev_mv]; exact orElse_onto f _ _ _
  have e2 : ((mvW f w).j <|> (mvS f s).prev.get ax17.p2) = (w.j <|> s.prev.get ax17.p2).map (f.onto c!"J") := by
    rw [prev_mv]; exact orElse_onto f _ _ _
  rw [e1, e2]
  dsimp only [mvW]
  cases (w.i <|> s.prev.get ax17.p1) with
  | none => rfl
  | some i =>
    cases (w.j <|> s.prev.get ax17.p2) with
    | none => rfl
    | some j =>
      dsimp only [Option.map_some]
      cases w.q with
      | some q =>
        dsimp only
        rw [archimedesQ_onto]; rfl
      | none =>
        cases w.l with
        | none => rfl
        | some l =>
          dsimp only
          rw [archimedesL_onto]; rfl

omit [IsStrictOrderedRing K] in
theorem helixStart_mv (s : St K) (w : CW K) :
    helixStart ax17 (mvS f s) (mvW f w) = (mvQ f (helixStart ax17 s w).1, (helixStart ax17 s w).2) := by
  obtain ⟨xp, yp, zp, i, j, k, r, q, l, x, y, z⟩ := w
  unfold helixStart
  cases x with
  | none => rfl
  | some x =>
    cases y with
    | none => rfl
    | some y =>
      cases z with
      | none => rfl
      | some z =>
        dsimp only [mvW, Option.map_some]
        by_cases hh : s.helix = .none ∧ ((i.isSome ∧ j.isSome ∧ k.isSome) ∨ r.isSome)
        · rw [if_pos hh]
          have hh' : (mvS f s).helix = .none ∧ (((i.map (f.onto c!"I")).isSome ∧ (j.map (f.onto c!"J")).isSome ∧ k.isSome) ∨ r.isSome) := by
            rw [Option.isSome_map, Option.isSome_map]; exact hh
          refine (if_pos hh').trans ?_
          cases zp with
          | none => rfl
          | some zp =>
            refine (if_neg (show ¬ (some zp = none) by simp)).trans ?_
            rw [if_neg (show ¬ (some zp = none) by simp)]
            have key : ((f.onto c!"X" x = f.onto c!"X" xp ∧ f.onto c!"Y" y = f.onto c!"Y" yp) ∨
                (f.onto c!"X" x = 0 ∧ f.onto c!"Y" y = 0)) ↔ ((x = xp ∧ y = yp) ∨ (x = 0 ∧ y = 0)) := by
              rw [onto_inj, onto_inj, onto_eq_zero, onto_eq_zero]
            by_cases hk : (x = xp ∧ y = yp) ∨ (x = 0 ∧ y = 0)
            · refine (if_pos (key.mpr hk)).trans ?_; rw [if_pos hk]; rfl
            · refine (if_neg (fun h => hk (key.mp h))).trans ?_; rw [if_neg hk]; rfl
        · rw [if_neg hh]
          have hh' : ¬ ((mvS f s).helix = .none ∧ (((i.map (f.onto c!"I")).isSome ∧ (j.map (f.onto c!"J")).isSome ∧ k.isSome) ∨ r.isSome)) := by
            rw [Option.isSome_map, Option.isSome_map]; exact hh
          refine (if_neg hh').trans ?_
          rfl

omit [IsStrictOrderedRing K] in
theorem turn_mv (F : Fns K) (quarter : Bool) (dz : K) (w : CW K) : turn F quarter dz (mvW f w) = turn F quarter dz w := by
  unfold turn mvW helixQuarter helix
  dsimp only
  cases w.i with
  | none => cases w.j <;> cases w.r <;> rfl
  | some i =>
    cases w.j with
    | none => cases w.r <;> rfl
    | some j =>
      dsimp only [Option.map_some]
      rw [len2_onto]

omit [IsStrictOrderedRing K] in
theorem setTurn_mv (F : Fns K) (quarter last : Bool) (dz : Option K) (s : St K) (w : CW K) :
    setTurn F quarter last dz (mvS f s) (mvW f w) = mvQ f (setTurn F quarter last dz s w) := by
  unfold setTurn
  cases dz with
  | none => rfl
  | some z =>
    dsimp only
    rw [turn_mv]
    cases turn F quarter z w <;> rfl

omit [IsStrictOrderedRing K] in
theorem endHelix_mv (p : CPart K) : endHelix (mvQ f p) = mvQ f (endHelix p) := by
  obtain ⟨⟨s, w⟩, o⟩ := p
  cases o <;> rfl

omit [LinearOrder K] [IsStrictOrderedRing K] in
theorem map_eq_zero (a : Str) (o : Option K) : o.map (f.onto a) = some 0 ↔ o = some 0 := by
  cases o with
  | none => simp
  | some x => simp [onto_eq_zero]

omit [IsStrictOrderedRing K] in
theorem helixIncr_mv (F : Fns K) (first : Bool) (s : St K) (w : CW K) :
    helixIncr F first (mvS f s) (mvW f w) = mvQ f (helixIncr F first s w) := by
  unfold helixIncr
  show (match s.helix with | .full => _ | .quarter => _ | .none => _) = _
  cases s.helix with
  | full =>
    dsimp only
    rw [setTurn_mv, setTurn_mv, endHelix_mv]
    have key : (((mvW f w).x = none ∨ (mvW f w).x = some 0) ∧ ((mvW f w).y = none ∨ (mvW f w).y = some 0)) ↔
        ((w.x = none ∨ w.x = some 0) ∧ (w.y = none ∨ w.y = some 0)) := by
      show ((w.x.map _ = none ∨ w.x.map _ = some 0) ∧ (w.y.map _ = none ∨ w.y.map _ = some 0)) ↔ _
      rw [map_eq_zero, map_eq_zero, Option.map_eq_none_iff, Option.map_eq_none_iff]
    simp only [key]
    split <;> rfl
  | quarter =>
    dsimp only
    rw [setTurn_mv]
    have key : (first = true ∨ ((mvW f w).x.isSome = true ∧ (mvW f w).i.isSome = true ∧ (mvW f w).j.isSome = true)) ↔
        (first = true ∨ (w.x.isSome = true ∧ w.i.isSome = true ∧ w.j.isSome = true)) := by
      show (first = true ∨ ((w.x.map _).isSome = true ∧ (w.i.map _).isSome = true ∧ (w.j.map _).isSome = true)) ↔ _
      rw [Option.isSome_map, Option.isSome_map, Option.isSome_map]
    simp only [key]
    split <;> rfl
  | none => rfl

omit [IsStrictOrderedRing K] in
theorem helixAbs_mv (F : Fns K) (s : St K) (w : CW K) : helixAbs F (mvS f s) (mvW f w) = mvQ f (helixAbs F s w) := by
  unfold helixAbs
  have e0 : dzOf (mvW f w) = dzOf w := rfl
  rw [e0]
  show (match s.helix with | .full => _ | .quarter => _ | .none => _) = _
  have e1 : (mvW f w).x.getD (mvW f w).xp = f.onto c!"X" (w.x.getD w.xp) := getD_onto f _ _ _
  have e2 : (mvW f w).y.getD (mvW f w).yp = f.onto c!"Y" (w.y.getD w.yp) := getD_onto f _ _ _
  have e3 : (mvW f w).xp = f.onto c!"X" w.xp := rfl
  have e4 : (mvW f w).yp = f.onto c!"Y" w.yp := rfl
  have e5 : (mvW f w).z = w.z := rfl
  have e6 : (mvW f w).zp = w.zp := rfl
  rw [e1, e2, e3, e4, e5, e6]
  simp only [onto_inj, setTurn_mv, endHelix_mv, ne_eq]
  cases s.helix with
  | full =>
    dsimp only
    split <;> rfl
  | quarter =>
    dsimp only
    split
    · rfl
    · split
      · cases w.zp with
        | none => rfl
        | some zp =>
          dsimp only
          split <;> rfl
      · rfl
  | none => rfl

omit [IsStrictOrderedRing K] in
theorem helixRun_mv (F : Fns K) (incr first : Bool) (s : St K) (w : CW K) :
    helixRun F ax17 incr first (mvS f s) (mvW f w) = mvQ f (helixRun F ax17 incr first s w) := by
  unfold helixRun
  have p3 : (mvS f s).prev.get ax17.p3 = s.prev.get ax17.p3 := prev_other f s (flips_K f)
  have pR : (mvS f s).prev.get c!"R" = s.prev.get c!"R" := prev_other f s (flips_R f)
  have p1 : (mvS f s).prev.get ax17.p1 = (s.prev.get ax17.p1).map (f.onto c!"I") := prev_mv f s _
  have p2 : (mvS f s).prev.get ax17.p2 = (s.prev.get ax17.p2).map (f.onto c!"J") := prev_mv f s _
  rw [p1, p2, p3, pR]
  dsimp only
  have k0 : (((mvW f w).r = none ∧ s.prev.get c!"R" = none) ∧ (((mvW f w).i = none ∧ (s.prev.get ax17.p1).map (f.onto c!"I") = none) ∨
      ((mvW f w).j = none ∧ (s.prev.get ax17.p2).map (f.onto c!"J") = none))) ↔
      ((w.r = none ∧ s.prev.get c!"R" = none) ∧ ((w.i = none ∧ s.prev.get ax17.p1 = none) ∨ (w.j = none ∧ s.prev.get ax17.p2 = none))) := by
    show ((w.r = none ∧ _) ∧ ((w.i.map _ = none ∧ _) ∨ (w.j.map _ = none ∧ _))) ↔ _
    simp only [Option.map_eq_none_iff]
  by_cases h : (w.r = none ∧ s.prev.get c!"R" = none) ∧ ((w.i = none ∧ s.prev.get ax17.p1 = none) ∨ (w.j = none ∧ s.prev.get ax17.p2 = none))
  · rw [if_pos h]
    exact if_pos (k0.mpr h)
  · rw [if_neg h]
    refine (if_neg (fun h' => h (k0.mp h'))).trans ?_
    have key : ∀ w2 : CW K, (if (mvW f w2).r = none ∧ ((mvW f w2).i = none ∨ (mvW f w2).j = none ∨ (mvW f w2).k = none) then
        (((mvS f s, mvW f w2), .throw (err .ValueNotSetForEitherEither [ax17.p1, ax17.p2, ax17.p3])) : CPart K)
      else if incr then helixIncr F first (mvS f s) (mvW f w2) else helixAbs F (mvS f s) (mvW f w2)) =
      mvQ f (if w2.r = none ∧ (w2.i = none ∨ w2.j = none ∨ w2.k = none) then
        ((s, w2), .throw (err .ValueNotSetForEitherEither [ax17.p1, ax17.p2, ax17.p3]))
      else if incr then helixIncr F first s w2 else helixAbs F s w2) := by
      intro w2
      have k1 : ((mvW f w2).r = none ∧ ((mvW f w2).i = none ∨ (mvW f w2).j = none ∨ (mvW f w2).k = none)) ↔
          (w2.r = none ∧ (w2.i = none ∨ w2.j = none ∨ w2.k = none)) := by
        show (w2.r = none ∧ (w2.i.map _ = none ∨ w2.j.map _ = none ∨ w2.k = none)) ↔ _
        simp only [Option.map_eq_none_iff]
      simp only [k1]
      split
      · rfl
      · cases incr with
        | true => rw [if_pos rfl, if_pos rfl]; exact helixIncr_mv f F first s w2
        | false => rw [if_neg (by simp), if_neg (by simp)]; exact helixAbs_mv f F s w2
    have e : ({ mvW f w with i := (mvW f w).i <|> (s.prev.get ax17.p1).map (f.onto c!"I"), j := (mvW f w).j <|> (s.prev.get ax17.p2).map (f.onto c!"J"), k := (mvW f w).k <|> s.prev.get ax17.p3, r := (mvW f w).r <|> s.prev.get c!"R" } : CW K) =
        mvW f { w with i := w.i <|> s.prev.get ax17.p1, j := w.j <|> s.prev.get ax17.p2, k := w.k <|> s.prev.get ax17.p3, r := w.r <|> s.prev.get c!"R" } := by
      unfold mvW
      dsimp only
      rw [orElse_onto, orElse_onto]
    have := key { w with i := w.i <|> s.prev.get ax17.p1, j := w.j <|> s.prev.get ax17.p2, k := w.k <|> s.prev.get ax17.p3, r := w.r <|> s.prev.get c!"R" }
    rw [← e] at this
    exact this

omit [LinearOrder K] [IsStrictOrderedRing K] in
theorem arcEnd_onto (incr : Bool) (a : Str) (x : K) (o : Option K) : arcEnd incr (f.onto a x) (o.map (f.onto a)) = f.onto a (arcEnd incr x o) := by
  cases o with
  | none => rfl
  | some y =>
    unfold arcEnd
    cases incr with
    | true => exact (onto_add f a x y).symm
    | false => rfl

include hF in
theorem arc_mv (c : Cfg K) (cur : Cur K) (hg : cur.g = 2 ∨ cur.g = 3) (s : St K) (w : CW K) :
    arc F (mvC f c) (mvU f cur) ax17 (mvS f s) (mvW f w) = mvP f (arc F c cur ax17 s w) := by
  unfold arc
  have p1 : (mvS f s).prev.get ax17.p1 = (s.prev.get ax17.p1).map (f.onto c!"I") := prev_mv f s _
  have p2 : (mvS f s).prev.get ax17.p2 = (s.prev.get ax17.p2).map (f.onto c!"J") := prev_mv f s _
  rw [p1, p2]
  have key : ∀ w2 : CW K,
      (match w2.i.map (f.onto c!"I"), w2.j.map (f.onto c!"J"), w2.r with
        | some i, some j, _ => (setWork (some (arcIJ F (halve c cur.plane (f.onto c!"X" w2.xp)) (f.onto c!"Y" w2.yp)
            (halve c cur.plane (arcEnd cur.incr (f.onto c!"X" w2.xp) (w2.x.map (f.onto c!"X"))))
            (arcEnd cur.incr (f.onto c!"Y" w2.yp) (w2.y.map (f.onto c!"Y"))) (halve c cur.plane i) j (f.motion cur.g).toNat)) (mvS f s), .ok true)
        | _, _, some r => (setWork (some (arcR F (halve c cur.plane (f.onto c!"X" w2.xp)) (f.onto c!"Y" w2.yp)
            (halve c cur.plane (arcEnd cur.incr (f.onto c!"X" w2.xp) (w2.x.map (f.onto c!"X"))))
            (arcEnd cur.incr (f.onto c!"Y" w2.yp) (w2.y.map (f.onto c!"Y"))) r)) (mvS f s), .ok true)
        | _, _, none => (mvS f s, .throw (err .ValueNotSetForEither [ax17.p1, ax17.p2])) : AttrPath.Part (St K)) =
      mvP f (match w2.i, w2.j, w2.r with
        | some i, some j, _ => (setWork (some (arcIJ F (halve c cur.plane w2.xp) w2.yp (halve c cur.plane (arcEnd cur.incr w2.xp w2.x))
            (arcEnd cur.incr w2.yp w2.y) (halve c cur.plane i) j cur.g.toNat)) s, .ok true)
        | _, _, some r => (setWork (some (arcR F (halve c cur.plane w2.xp) w2.yp (halve c cur.plane (arcEnd cur.incr w2.xp w2.x))
            (arcEnd cur.incr w2.yp w2.y) r)) s, .ok true)
        | _, _, none => (s, .throw (err .ValueNotSetForEither [ax17.p1, ax17.p2]))) := by
    intro w2
    rw [arcEnd_onto, arcEnd_onto, halve_onto, halve_onto]
    cases hi : w2.i with
    | none =>
      cases w2.r with
      | none => rfl
      | some r => dsimp only [Option.map_none]; rw [arcR_onto]; rfl
    | some i =>
      cases hj : w2.j with
      | none =>
        cases w2.r with
        | none => rfl
        | some r => dsimp only [Option.map_none, Option.map_some]; rw [arcR_onto]; rfl
      | some j =>
        dsimp only [Option.map_some]
        rw [halve_onto, arcIJ_onto f hF hg]; rfl
  by_cases h : w.r = none ∧ (w.i = none ∨ w.j = none)
  · rw [if_pos h]
    have h' : (mvW f w).r = none ∧ ((mvW f w).i = none ∨ (mvW f w).j = none) := by
      show w.r = none ∧ (w.i.map _ = none ∨ w.j.map _ = none)
      simpa only [Option.map_eq_none_iff] using h
    rw [if_pos h']
    have e : ({ mvW f w with i := (mvW f w).i <|> (s.prev.get ax17.p1).map (f.onto c!"I"), j := (mvW f w).j <|> (s.prev.get ax17.p2).map (f.onto c!"J") } : CW K) =
        mvW f { w with i := w.i <|> s.prev.get ax17.p1, j := w.j <|> s.prev.get ax17.p2 } := by
      unfold mvW
      dsimp only
      rw [orElse_onto, orElse_onto]
    rw [e]
    exact key { w with i := w.i <|> s.prev.get ax17.p1, j := w.j <|> s.prev.get ax17.p2 }
  · rw [if_neg h]
    have h' : ¬ ((mvW f w).r = none ∧ ((mvW f w).i = none ∨ (mvW f w).j = none)) := by
      show ¬ (w.r = none ∧ (w.i.map _ = none ∨ w.j.map _ = none))
      simpa only [Option.map_eq_none_iff] using h
    rw [if_neg h']
    exact key w

end
end NC.Mir
