import Verif.SimModal
import Verif.SimAlt
import Verif.Spec.Moved
import Mathlib.Tactic.Ring

/-!
# The simulation of a part that lies elsewhere
-/

namespace NC.Mvd
open NC NC.Path NC.Ver NC.AttrPath NC.Spec.Sim NC.Props
open NC.Spec.Similar (threeAxes)
open NC.Spec.Moved (Shift)

section
variable {K : Type} [Field K] [LinearOrder K]

/-- The values moved. -/
def mv (d : Str → K) (m : VMap K) : VMap K := m.map (fun e => (e.1, e.2 + d e.1))

/-- A range moved. -/
def mvr (x : K) (r : Rng K) : Rng K := ⟨r.lo + x, r.cur + x, r.hi + x⟩

/-- The ranges moved. -/
def mvR (d : Str → K) (m : VMap (Rng K)) : VMap (Rng K) := m.map (fun e => (e.1, mvr (d e.1) e.2))

/-- The state for the moved part. -/
def mvS (d : Str → K) (s : St K) : St K := { s with prev := mv d s.prev, range := mvR d s.range }

/-- The machine with its points moved. -/
def mvC (d : Str → K) (c : Cfg K) : Cfg K := { c with base := mv d c.base, exchange := mv d c.exchange }

/-- The shift of the words of a block. -/
def blk (d : Str → K) (incr : Bool) (a : Str) : K := if incr then 0 else d a

/-- What the visitor collects from the block of the moved part. -/
def mvV (d : Str → K) (incr : Bool) (v : Vis K) : Vis K := { v with vals := mv (blk d incr) v.vals }

omit [Field K] [LinearOrder K] in
theorem get_map {V : Type} (f : Str → V → V) (m : VMap V) (k : Str) :
    VMap.get (m.map (fun e => (e.1, f e.1 e.2))) k = (VMap.get m k).map (f k) := by
  unfold VMap.get
  induction m with
  | nil => rfl
  | cons e t ih =>
    rw [List.map_cons, List.find?_cons, List.find?_cons]
    dsimp only
    cases h : e.1 == k with
    | true => rw [beq_iff_eq] at h; simp [h]
    | false => exact ih

omit [Field K] [LinearOrder K] in
theorem put_map {V : Type} (f : Str → V → V) (m : VMap V) (k : Str) (x : V) :
    VMap.put (m.map (fun e => (e.1, f e.1 e.2))) k (f k x) = (VMap.put m k x).map (fun e => (e.1, f e.1 e.2)) := by
  induction m with
  | nil => rfl
  | cons e t ih =>
    rw [List.map_cons, VMap.put, VMap.put]
    dsimp only
    split
    · rfl
    · split
      · rfl
      · rw [ih]; rfl

omit [LinearOrder K] in
theorem get_mv (d : Str → K) (m : VMap K) (k : Str) : (mv d m).get k = (m.get k).map (· + d k) := get_map (fun k x => x + d k) m k
omit [LinearOrder K] in
theorem put_mv (d : Str → K) (m : VMap K) (k : Str) (x : K) : (mv d m).put k (x + d k) = mv d (m.put k x) :=
  put_map (fun k x => x + d k) m k x
omit [LinearOrder K] in
theorem get_mvR (d : Str → K) (m : VMap (Rng K)) (k : Str) : (mvR d m).get k = (m.get k).map (mvr (d k)) :=
  get_map (fun k x => mvr (d k) x) m k
omit [LinearOrder K] in
theorem put_mvR (d : Str → K) (m : VMap (Rng K)) (k : Str) (x : Rng K) : (mvR d m).put k (mvr (d k) x) = mvR d (m.put k x) :=
  put_map (fun k x => mvr (d k) x) m k x

omit [LinearOrder K] in
theorem mv_nil (d : Str → K) (m : VMap K) : mv d m = [] ↔ m = [] := List.map_eq_nil_iff

/-- The positions of the three axes are known. -/
def Known (m : VMap (Rng K)) : Prop := ∀ a ∈ threeAxes, m.get a ≠ none

section
variable [IsStrictOrderedRing K] {d : Str → K} (hd : ∀ a, a ∉ threeAxes → d a = 0)

theorem widen_mv (r : Rng K) (x y : K) : widen (mvr y r) (x + y) = mvr y (widen r x) := by
  unfold widen mvr
  dsimp only
  simp only [add_lt_add_iff_right]
  split
  · rfl
  · split <;> rfl

omit [Field K] [LinearOrder K] [IsStrictOrderedRing K] in
theorem movesIncr_iff (incr : Bool) (w : Str) : movesIncr incr w = true ↔ incr = true ∧ w ∈ threeAxes := by
  unfold movesIncr threeAxes
  simp [or_assoc]

theorem known_put {m : VMap (Rng K)} (h : Known m) (k : Str) (r : Rng K) : Known (m.put k r) := by
  intro a ha
  rw [VMap.get_put]
  split
  · simp
  · exact h a ha

theorem copyOne_known {incr : Bool} {w : Str} {x : K} {p : VMap K × VMap (Rng K)} (h : Known p.2) : Known (copyOne incr w x p).2 := by
  unfold copyOne
  split <;> split <;> exact known_put h _ _

include hd in
theorem copyOne_mv {incr : Bool} (w : Str) (x : K) {p : VMap K × VMap (Rng K)} (h : incr = true → Known p.2) :
    copyOne incr w (x + blk d incr w) (mv d p.1, mvR d p.2) = (mv d (copyOne incr w x p).1, mvR d (copyOne incr w x p).2) := by
  unfold copyOne
  dsimp only
  rw [get_mvR]
  by_cases hm : movesIncr incr w = true
  · obtain ⟨rfl, hw⟩ := (movesIncr_iff _ _).mp hm
    rw [if_pos hm, if_pos hm]
    cases hg : p.2.get w with
    | none => exact absurd hg (h rfl w hw)
    | some r =>
      dsimp only [Option.map_some]
      have e : (mvr (d w) r).cur + (x + blk d true w) = (r.cur + x) + d w := by
        unfold mvr blk; simp; ring
      rw [e, put_mv, widen_mv, put_mvR]
  · rw [if_neg hm, if_neg hm]
    have e : blk d incr w = d w := by
      unfold blk
      split
      · rename_i hi
        have : w ∉ threeAxes := fun hw => hm ((movesIncr_iff _ _).mpr ⟨hi, hw⟩)
        exact (hd w this).symm
      · rfl
    rw [e]
    cases hg : p.2.get w with
    | none =>
      dsimp only [Option.map_none]
      rw [put_mv]
      have : (⟨x + d w, x + d w, x + d w⟩ : Rng K) = mvr (d w) ⟨x, x, x⟩ := rfl
      rw [this, put_mvR]
    | some r =>
      dsimp only [Option.map_some]
      rw [put_mv, widen_mv, put_mvR]

include hd in
theorem copyBack_mv (g : Int) {incr : Bool} (og : List Str) (v : VMap K) {p : VMap K × VMap (Rng K)} (h : incr = true → Known p.2) :
    copyBack g incr og (mv (blk d incr) v) (mv d p.1, mvR d p.2) = (mv d (copyBack g incr og v p).1, mvR d (copyBack g incr og v p).2) := by
  induction v generalizing p with
  | nil => rfl
  | cons e t ih =>
    show copyBack g incr og ((e.1, e.2 + blk d incr e.1) :: mv (blk d incr) t) _ = _
    unfold copyBack
    dsimp only
    split
    · exact ih h
    · rw [copyOne_mv hd _ _ h]
      exact ih (p := copyOne incr e.1 e.2 p) (fun hi => copyOne_known (h hi))

include hd in
theorem copySt_mv {incr : Bool} (og : List Str) (v : VMap K) {s : St K} (h : incr = true → Known s.range) :
    copySt incr og (mv (blk d incr) v) (mvS d s) = mvS d (copySt incr og v s) := by
  have := copyBack_mv hd s.g og v (p := (s.prev, s.range)) h
  have e1 := congrArg Prod.fst this
  have e2 := congrArg Prod.snd this
  dsimp only at e1 e2
  unfold copySt mvS
  dsimp only
  rw [e1, e2]

include hd in
/-- The points of the machine are coordinates. -/
theorem copySt_point (og : List Str) (v : VMap K) (s : St K) : copySt false og (mv d v) (mvS d s) = mvS d (copySt false og v s) := by
  have := copySt_mv hd (incr := false) og v (s := s) (by simp)
  have e : blk d false = d := by funext a; rfl
  rwa [e] at this

/-! ## Straight moves -/

omit [LinearOrder K] [IsStrictOrderedRing K] in
theorem halve_sub (c : Cfg K) (p : Plane) (x y z : K) : halve c p (x + z) - halve c p (y + z) = halve c p x - halve c p y := by
  unfold halve; split <;> ring

omit [LinearOrder K] [IsStrictOrderedRing K] in
theorem target_mv (c : Cfg K) (v : Vis K) {incr : Bool} (h : incr = false ∨ atTool c v = true ∨ atBase v = true) (a : Str) (x : K) :
    target (mvC d c) (mvV d incr v) a (x + d a) = Out.bind (target c v a x) (fun y => .ok (y + d a)) := by
  unfold target
  show (if atTool c v = true then _ else if atBase v = true then _ else _) = _
  by_cases ht : atTool c v = true
  · rw [if_pos ht, if_pos ht]
    show (match (mv d c.exchange).get a with | some x => Out.ok x | none => if atBase v = true then Out.ub else Out.ok (x + d a)) = _
    rw [get_mv]
    cases c.exchange.get a with
    | none => dsimp only [Option.map_none]; split <;> rfl
    | some y => rfl
  · rw [if_neg ht, if_neg ht]
    by_cases hb : atBase v = true
    · rw [if_pos hb, if_pos hb]
      show Out.ok (((mv d c.base).get a).getD (x + d a)) = _
      rw [get_mv]
      cases c.base.get a <;> rfl
    · rw [if_neg hb, if_neg hb]
      have hi : incr = false := by
        rcases h with h | h | h
        · exact h
        · exact absurd h ht
        · exact absurd h hb
      subst hi
      show Out.ok (((mv (blk d false) v.vals).get a).getD (x + d a)) = _
      rw [get_mv]
      cases v.vals.get a <;> rfl

omit [LinearOrder K] [IsStrictOrderedRing K] in
theorem dist3_mv (F : Fns K) (c : Cfg K) (p : Plane) (x y z x' y' z' a b e : K) :
    dist3 F (halve c p (x + a)) (y + b) (z + e) (halve c p (x' + a)) (y' + b) (z' + e) =
      dist3 F (halve c p x) y z (halve c p x') y' z' := by
  unfold dist3
  rw [halve_sub, add_sub_add_right_eq_sub, add_sub_add_right_eq_sub]

omit [LinearOrder K] [IsStrictOrderedRing K] in
theorem setMotion_mv (g : Int) (x : Fl K) (s : St K) : setMotion g x (mvS d s) = mvS d (setMotion g x s) := by
  unfold setMotion; split <;> rfl

omit [LinearOrder K] [IsStrictOrderedRing K] in
theorem cancelBy_mv (c : Cfg K) (g : Int) (s : St K) : cancelBy (mvC d c) g (mvS d s) = mvS d (cancelBy c g s) := by
  unfold cancelBy
  by_cases h : (g = 0 ∧ c.cancel0 = true) ∨ (g = 1 ∧ c.cancel1 = true) ∨ (g = 2 ∧ c.cancel2 = true) ∨ (g = 3 ∧ c.cancel3 = true)
  · exact (if_pos h).trans ((show cancelCycle (mvS d s) = mvS d (cancelCycle s) from rfl).trans (congrArg (mvS d) (if_pos h).symm))
  · exact (if_neg h).trans (congrArg (mvS d) (if_neg h).symm)

/-- A part for the moved part. -/
def mvP (d : Str → K) (p : AttrPath.Part (St K)) : AttrPath.Part (St K) := (mvS d p.1, p.2)

omit [IsStrictOrderedRing K] in
theorem linearAbs_mv (F : Fns K) (c : Cfg K) (v : Vis K) (cur : Cur K) {incr : Bool}
    (h : incr = false ∨ atTool c v = true ∨ atBase v = true) (s : St K) :
    linearAbs F (mvC d c) (mvV d incr v) cur (mvS d s) = mvP d (linearAbs F c v cur s) := by
  unfold linearAbs
  show (match (mv d s.prev).get c!"X", (mv d s.prev).get c!"Y", (mv d s.prev).get c!"Z" with
    | none, _, _ => _
    | some _, none, _ => _
    | some _, some _, none => _
    | some xp, some yp, some zp => _) = _
  rw [get_mv, get_mv, get_mv]
  cases s.prev.get c!"X" with
  | none => rfl
  | some xp =>
    cases s.prev.get c!"Y" with
    | none => rfl
    | some yp =>
      cases s.prev.get c!"Z" with
      | none => rfl
      | some zp =>
        dsimp only [Option.map_some]
        rw [target_mv c v h, target_mv c v h, target_mv c v h]
        cases target c v c!"X" xp with
        | throw e => rfl
        | ub => rfl
        | ok x =>
          cases target c v c!"Y" yp with
          | throw e => rfl
          | ub => rfl
          | ok y =>
            cases target c v c!"Z" zp with
            | throw e => rfl
            | ub => rfl
            | ok z =>
              dsimp only [Out.bind]
              have e := dist3_mv F c cur.plane xp yp zp x y z (d c!"X") (d c!"Y") (d c!"Z")
              unfold mvP
              dsimp only
              rw [← setMotion_mv, ← e]
              rfl

omit [IsStrictOrderedRing K] in
theorem known_mv (v : Vis K) (s : St K) (incr : Bool) (w : Str) : known (mvV d incr v) (mvS d s) w = known v s w := by
  unfold known
  show (((mv (blk d incr) v.vals).get w).isSome || ((mv d s.prev).get w).isSome) = _
  rw [get_mv, get_mv, Option.isSome_map, Option.isSome_map]

omit [LinearOrder K] [IsStrictOrderedRing K] in
theorem mv_zero (m : VMap K) : mv (blk d true) m = m := by
  unfold mv blk
  simp

omit [LinearOrder K] [IsStrictOrderedRing K] in
theorem mvV_incr (v : Vis K) : mvV d true v = v := by
  unfold mvV
  rw [mv_zero]

omit [IsStrictOrderedRing K] in
theorem linearIncr_mv (F : Fns K) (c : Cfg K) (v : Vis K) (cur : Cur K) (s : St K) :
    linearIncr F (mvC d c) (mvV d true v) cur (mvS d s) = mvP d (linearIncr F c v cur s) := by
  unfold linearIncr
  rw [known_mv, known_mv, known_mv, mvV_incr]
  split
  · rfl
  · split
    · rfl
    · split
      · rfl
      · unfold mvP
        dsimp only
        rw [← setMotion_mv]
        rfl

omit [IsStrictOrderedRing K] in
theorem linear_mv (F : Fns K) (c : Cfg K) (v : Vis K) (cur : Cur K) (s : St K) :
    linear F (mvC d c) (mvV d cur.incr v) cur (mvS d s) = mvP d (linear F c v cur s) := by
  unfold linear
  rw [cancelBy_mv]
  by_cases h : cur.incr = false ∨ atTool c v = true ∨ atBase v = true
  · rw [if_pos h]
    have h' : cur.incr = false ∨ atTool (mvC d c) (mvV d cur.incr v) = true ∨ atBase (mvV d cur.incr v) = true := h
    rw [if_pos h']
    exact linearAbs_mv F c v cur h _
  · rw [if_neg h]
    have h' : ¬ (cur.incr = false ∨ atTool (mvC d c) (mvV d cur.incr v) = true ∨ atBase (mvV d cur.incr v) = true) := h
    rw [if_neg h']
    have hi : cur.incr = true := by
      push Not at h
      simpa using h.1
    rw [hi]
    exact linearIncr_mv F c v cur _

/-! ## Arcs -/

omit [IsStrictOrderedRing K] in
theorem relative_eq (cx cy x y : K) : relative cx cy x y = (x - cx, y - cy) := by
  unfold relative
  split
  · rfl
  · rename_i h
    push Not at h
    rw [h.1, h.2, sub_zero, sub_zero]

omit [LinearOrder K] [IsStrictOrderedRing K] in
theorem dist2_mv (F : Fns K) (x y x' y' a b : K) : dist2 F (x + a) (y + b) (x' + a) (y' + b) = dist2 F x y x' y' := by
  unfold dist2
  rw [add_sub_add_right_eq_sub, add_sub_add_right_eq_sub]

omit [IsStrictOrderedRing K] in
theorem samePoint_mv (x y x' y' a b : K) : samePoint (x + a) (y + b) (x' + a) (y' + b) ↔ samePoint x y x' y' := by
  unfold samePoint
  rw [add_sub_add_right_eq_sub, add_sub_add_right_eq_sub]

omit [IsStrictOrderedRing K] in
theorem arcIJ_mv (F : Fns K) (xp yp xc yc i j : K) (dir : Nat) (a b : K) :
    arcIJ F (xp + a) (yp + b) (xc + a) (yc + b) i j dir = arcIJ F xp yp xc yc i j dir := by
  unfold arcIJ
  dsimp only
  simp only [relative_eq, dist2_mv, samePoint_mv]
  have e1 : xp + a + i - (xp + a) = xp + i - xp := by ring
  have e2 : yp + b + j - (yp + b) = yp + j - yp := by ring
  have e3 : xp + a - (xp + a + i) = xp - (xp + i) := by ring
  have e4 : yp + b - (yp + b + j) = yp - (yp + j) := by ring
  have e5 : xc + a - (xp + a + i) = xc - (xp + i) := by ring
  have e6 : yc + b - (yp + b + j) = yc - (yp + j) := by ring
  rw [e1, e2, e3, e4, e5, e6]

omit [IsStrictOrderedRing K] in
theorem arcR_mv (F : Fns K) (xp yp xc yc r : K) (a b : K) : arcR F (xp + a) (yp + b) (xc + a) (yc + b) r = arcR F xp yp xc yc r := by
  unfold arcR
  dsimp only
  simp only [dist2_mv, samePoint_mv]

omit [LinearOrder K] [IsStrictOrderedRing K] in
theorem halve_add (c : Cfg K) (p : Plane) (x y : K) : halve c p (x + y) = halve c p x + halve c p y := by
  unfold halve; split <;> ring

/-- The words of a circular move for the moved part. -/
def mvW (d : Str → K) (incr : Bool) (ax : Axes) (w : CW K) : CW K :=
  { w with xp := w.xp + d ax.a1, yp := w.yp + d ax.a2, zp := w.zp.map (· + d ax.a3), x := w.x.map (· + blk d incr ax.a1),
           y := w.y.map (· + blk d incr ax.a2), z := w.z.map (· + blk d incr ax.a3) }

/-- The outcome of a step of a circular move for the moved part. -/
def mvQ (d : Str → K) (incr : Bool) (ax : Axes) (p : CPart K) : CPart K := ((mvS d p.1.1, mvW d incr ax p.1.2), p.2)

/-- The words of the centre are not axes. -/
def Centred (ax : Axes) : Prop := ax.p1 ∉ threeAxes ∧ ax.p2 ∉ threeAxes ∧ ax.p3 ∉ threeAxes

omit [Field K] [LinearOrder K] [IsStrictOrderedRing K] in
theorem centred (p : Plane) : Centred (axesOf p) := by
  unfold Centred; cases p <;> decide

omit [LinearOrder K] [IsStrictOrderedRing K] in
include hd in
theorem prev_other (s : St K) {a : Str} (ha : a ∉ threeAxes) : (mvS d s).prev.get a = s.prev.get a := by
  show (mv d s.prev).get a = _
  rw [get_mv, hd a ha]
  cases s.prev.get a <;> simp

omit [IsStrictOrderedRing K] in
include hd in
theorem spiral_mv (F : Fns K) {ax : Axes} (hx : Centred ax) (incr : Bool) (s : St K) (w : CW K) :
    spiral F ax (mvS d s) (mvW d incr ax w) = mvQ d incr ax (spiral F ax s w) := by
  unfold spiral
  rw [prev_other hd s hx.1, prev_other hd s hx.2.1]
  dsimp only [mvW]
  cases (w.i <|> s.prev.get ax.p1) with
  | none => rfl
  | some i =>
    cases (w.j <|> s.prev.get ax.p2) with
    | none => rfl
    | some j =>
      cases w.q with
      | some q => rfl
      | none => cases w.l <;> rfl

/-- The first block of a helix is not taken for something else. -/
def Apart (d : Str → K) (incr : Bool) (ax : Axes) (w : CW K) : Prop :=
  ∀ x y, w.x = some x → w.y = some y → w.z ≠ none → ((w.i.isSome ∧ w.j.isSome ∧ w.k.isSome) ∨ w.r.isSome) →
    if incr then x = 0 ∧ y = 0 else ¬ (x = 0 ∧ y = 0) ∧ ¬ (x + d ax.a1 = 0 ∧ y + d ax.a2 = 0)

omit [IsStrictOrderedRing K] in
theorem helixStart_mv {incr : Bool} {ax : Axes} (s : St K) {w : CW K} (h : Apart d incr ax w) :
    helixStart ax (mvS d s) (mvW d incr ax w) = (mvQ d incr ax (helixStart ax s w).1, (helixStart ax s w).2) := by
  obtain ⟨xp, yp, zp, i, j, k, r, q, l, x, y, z⟩ := w
  unfold helixStart
  cases x with
  | none => rfl
  | some x =>
    cases y with
    | none => rfl
    | some y =>
      cases z with
      | none => rfl
      | some z =>
        dsimp only [mvW, Option.map_some]
        by_cases hh : s.helix = .none ∧ ((i.isSome ∧ j.isSome ∧ k.isSome) ∨ r.isSome)
        · rw [if_pos hh]
          have hh' : (mvS d s).helix = .none ∧ ((i.isSome ∧ j.isSome ∧ k.isSome) ∨ r.isSome) := hh
          refine (if_pos hh').trans ?_
          have hap := h x y rfl rfl (by simp) hh.2
          cases zp with
          | none => rfl
          | some zp =>
            dsimp only [Option.map_some]
            refine (if_neg (show ¬ (some (zp + d ax.a3) = none) by simp)).trans ?_
            rw [if_neg (show ¬ (some zp = none) by simp)]
            have key : ((x + blk d incr ax.a1 = xp + d ax.a1 ∧ y + blk d incr ax.a2 = yp + d ax.a2) ∨
                (x + blk d incr ax.a1 = 0 ∧ y + blk d incr ax.a2 = 0)) ↔ ((x = xp ∧ y = yp) ∨ (x = 0 ∧ y = 0)) := by
              cases incr with
              | true =>
                rw [if_pos rfl] at hap
                simp [blk, hap.1, hap.2]
              | false =>
                rw [if_neg (by simp)] at hap
                unfold blk
                simp only [Bool.false_eq_true, if_false, add_left_inj]
                tauto
            by_cases hk : (x = xp ∧ y = yp) ∨ (x = 0 ∧ y = 0)
            · refine (if_pos (key.mpr hk)).trans ?_; rw [if_pos hk]; rfl
            · refine (if_neg (fun h => hk (key.mp h))).trans ?_; rw [if_neg hk]; rfl
        · rw [if_neg hh]
          have hh' : ¬ ((mvS d s).helix = .none ∧ ((i.isSome ∧ j.isSome ∧ k.isSome) ∨ r.isSome)) := hh
          refine (if_neg hh').trans ?_
          rfl

omit [IsStrictOrderedRing K] in
theorem setTurn_mv (F : Fns K) (quarter last : Bool) (dz : Option K) (incr : Bool) (ax : Axes) (s : St K) (w : CW K) :
    setTurn F quarter last dz (mvS d s) (mvW d incr ax w) = mvQ d incr ax (setTurn F quarter last dz s w) := by
  unfold setTurn
  cases dz with
  | none => rfl
  | some z =>
    dsimp only
    have e : turn F quarter z (mvW d incr ax w) = turn F quarter z w := rfl
    rw [e]
    cases turn F quarter z w <;> rfl

omit [IsStrictOrderedRing K] in
theorem endHelix_mv (incr : Bool) (ax : Axes) (p : CPart K) : endHelix (mvQ d incr ax p) = mvQ d incr ax (endHelix p) := by
  obtain ⟨⟨s, w⟩, o⟩ := p
  cases o <;> rfl

omit [IsStrictOrderedRing K] in
theorem mapZero (a : Str) (o : Option K) : o.map (· + blk d true a) = o := by
  cases o <;> simp [blk]

omit [IsStrictOrderedRing K] in
theorem helixIncr_mv (F : Fns K) (first : Bool) (ax : Axes) (s : St K) (w : CW K) :
    helixIncr F first (mvS d s) (mvW d true ax w) = mvQ d true ax (helixIncr F first s w) := by
  unfold helixIncr
  have hx : (mvW d true ax w).x = w.x := mapZero _ _
  have hy : (mvW d true ax w).y = w.y := mapZero _ _
  have hz : (mvW d true ax w).z = w.z := mapZero _ _
  rw [hx, hy, hz]
  show (match s.helix with | .full => _ | .quarter => _ | .none => _) = _
  cases s.helix with
  | full =>
    dsimp only
    rw [setTurn_mv, setTurn_mv, endHelix_mv]
    split <;> rfl
  | quarter =>
    dsimp only
    rw [setTurn_mv]
    show (if first = true ∨ (w.x.isSome = true ∧ w.i.isSome = true ∧ w.j.isSome = true) then _ else _) = _
    split <;> rfl
  | none => rfl

omit [IsStrictOrderedRing K] in
theorem dzOf_mv (ax : Axes) (w : CW K) : dzOf (mvW d false ax w) = dzOf w := by
  unfold dzOf mvW
  dsimp only
  cases w.zp with
  | none => rfl
  | some zp =>
    cases w.z with
    | none => rfl
    | some z =>
      dsimp only [Option.map_some]
      unfold blk
      rw [if_neg (by simp), add_sub_add_right_eq_sub]

omit [IsStrictOrderedRing K] in
theorem getD_mv (a : Str) (o : Option K) (x : K) : (o.map (· + blk d false a)).getD (x + d a) = o.getD x + d a := by
  cases o <;> rfl

omit [IsStrictOrderedRing K] in
theorem helixAbs_mv (F : Fns K) (ax : Axes) (s : St K) (w : CW K) :
    helixAbs F (mvS d s) (mvW d false ax w) = mvQ d false ax (helixAbs F s w) := by
  unfold helixAbs
  rw [dzOf_mv]
  show (match s.helix with | .full => _ | .quarter => _ | .none => _) = _
  have e1 : (mvW d false ax w).x.getD (mvW d false ax w).xp = w.x.getD w.xp + d ax.a1 := getD_mv _ _ _
  have e2 : (mvW d false ax w).y.getD (mvW d false ax w).yp = w.y.getD w.yp + d ax.a2 := getD_mv _ _ _
  have e3 : (mvW d false ax w).xp = w.xp + d ax.a1 := rfl
  have e4 : (mvW d false ax w).yp = w.yp + d ax.a2 := rfl
  rw [e1, e2, e3, e4]
  simp only [add_left_inj, setTurn_mv, endHelix_mv, ne_eq]
  cases s.helix with
  | full =>
    dsimp only
    split <;> rfl
  | quarter =>
    dsimp only
    have hz : ((mvW d false ax w).z = none ∧ (mvW d false ax w).zp = none) ↔ (w.z = none ∧ w.zp = none) := by
      unfold mvW; simp
    by_cases h1 : w.z = none ∧ w.zp = none
    · rw [if_pos h1, if_pos (hz.mpr h1)]; rfl
    · rw [if_neg h1, if_neg (fun h => h1 (hz.mp h))]
      split
      · have ep : (mvW d false ax w).zp = w.zp.map (· + d ax.a3) := rfl
        rw [ep]
        cases hp : w.zp with
        | none => rfl
        | some zp =>
          dsimp only [Option.map_some]
          have e5 : (mvW d false ax w).z.getD (zp + d ax.a3) = w.z.getD zp + d ax.a3 := getD_mv _ _ _
          rw [e5]
          simp only [add_left_inj]
          split <;> rfl
      · rfl
  | none => rfl

omit [IsStrictOrderedRing K] in
include hd in
theorem helixRun_mv (F : Fns K) {ax : Axes} (hx : Centred ax) (incr first : Bool) (s : St K) (w : CW K) :
    helixRun F ax incr first (mvS d s) (mvW d incr ax w) = mvQ d incr ax (helixRun F ax incr first s w) := by
  unfold helixRun
  rw [prev_other hd s hx.1, prev_other hd s hx.2.1, prev_other hd s hx.2.2, prev_other hd s (show c!"R" ∉ threeAxes by decide)]
  dsimp only
  by_cases h : (w.r = none ∧ s.prev.get c!"R" = none) ∧ ((w.i = none ∧ s.prev.get ax.p1 = none) ∨ (w.j = none ∧ s.prev.get ax.p2 = none))
  · rw [if_pos h]
    exact if_pos h
  · rw [if_neg h]
    refine (if_neg h).trans ?_
    have key : ∀ w2 : CW K, (if w2.r = none ∧ (w2.i = none ∨ w2.j = none ∨ w2.k = none) then
        (((mvS d s, mvW d incr ax w2), .throw (err .ValueNotSetForEitherEither [ax.p1, ax.p2, ax.p3])) : CPart K)
      else if incr then helixIncr F first (mvS d s) (mvW d incr ax w2) else helixAbs F (mvS d s) (mvW d incr ax w2)) =
      mvQ d incr ax (if w2.r = none ∧ (w2.i = none ∨ w2.j = none ∨ w2.k = none) then
        ((s, w2), .throw (err .ValueNotSetForEitherEither [ax.p1, ax.p2, ax.p3]))
      else if incr then helixIncr F first s w2 else helixAbs F s w2) := by
      intro w2
      split
      · rfl
      · cases incr with
        | true => rw [if_pos rfl, if_pos rfl]; exact helixIncr_mv F first ax s w2
        | false => rw [if_neg (by simp), if_neg (by simp)]; exact helixAbs_mv F ax s w2
    exact key { w with i := w.i <|> s.prev.get ax.p1, j := w.j <|> s.prev.get ax.p2, k := w.k <|> s.prev.get ax.p3, r := w.r <|> s.prev.get c!"R" }

omit [IsStrictOrderedRing K] in
theorem arcEnd_mv (incr : Bool) (a : Str) (x : K) (o : Option K) :
    arcEnd incr (x + d a) (o.map (· + blk d incr a)) = arcEnd incr x o + d a := by
  cases o with
  | none => rfl
  | some y =>
    unfold arcEnd blk
    cases incr with
    | true => simp; ring
    | false => rfl

omit [IsStrictOrderedRing K] in
include hd in
theorem arc_mv (F : Fns K) (c : Cfg K) (cur : Cur K) {ax : Axes} (hx : Centred ax) (s : St K) (w : CW K) :
    arc F (mvC d c) cur ax (mvS d s) (mvW d cur.incr ax w) = mvP d (arc F c cur ax s w) := by
  unfold arc
  rw [prev_other hd s hx.1, prev_other hd s hx.2.1]
  have key : ∀ w2 : CW K,
      (match w2.i, w2.j, w2.r with
        | some i, some j, _ => (setWork (some (arcIJ F (halve c cur.plane (w2.xp + d ax.a1)) (w2.yp + d ax.a2)
            (halve c cur.plane (arcEnd cur.incr (w2.xp + d ax.a1) (w2.x.map (· + blk d cur.incr ax.a1))))
            (arcEnd cur.incr (w2.yp + d ax.a2) (w2.y.map (· + blk d cur.incr ax.a2))) (halve c cur.plane i) j cur.g.toNat)) (mvS d s), .ok true)
        | _, _, some r => (setWork (some (arcR F (halve c cur.plane (w2.xp + d ax.a1)) (w2.yp + d ax.a2)
            (halve c cur.plane (arcEnd cur.incr (w2.xp + d ax.a1) (w2.x.map (· + blk d cur.incr ax.a1))))
            (arcEnd cur.incr (w2.yp + d ax.a2) (w2.y.map (· + blk d cur.incr ax.a2))) r)) (mvS d s), .ok true)
        | _, _, none => (mvS d s, .throw (err .ValueNotSetForEither [ax.p1, ax.p2])) : AttrPath.Part (St K)) =
      mvP d (match w2.i, w2.j, w2.r with
        | some i, some j, _ => (setWork (some (arcIJ F (halve c cur.plane w2.xp) w2.yp (halve c cur.plane (arcEnd cur.incr w2.xp w2.x))
            (arcEnd cur.incr w2.yp w2.y) (halve c cur.plane i) j cur.g.toNat)) s, .ok true)
        | _, _, some r => (setWork (some (arcR F (halve c cur.plane w2.xp) w2.yp (halve c cur.plane (arcEnd cur.incr w2.xp w2.x))
            (arcEnd cur.incr w2.yp w2.y) r)) s, .ok true)
        | _, _, none => (s, .throw (err .ValueNotSetForEither [ax.p1, ax.p2]))) := by
    intro w2
    rw [arcEnd_mv, arcEnd_mv, halve_add, halve_add]
    simp only [arcIJ_mv, arcR_mv]
    cases w2.i <;> cases w2.j <;> cases w2.r <;> rfl
  by_cases h : w.r = none ∧ (w.i = none ∨ w.j = none)
  · rw [if_pos h]
    have h' : (mvW d cur.incr ax w).r = none ∧ ((mvW d cur.incr ax w).i = none ∨ (mvW d cur.incr ax w).j = none) := h
    rw [if_pos h']
    exact key { w with i := w.i <|> s.prev.get ax.p1, j := w.j <|> s.prev.get ax.p2 }
  · rw [if_neg h]
    have h' : ¬ ((mvW d cur.incr ax w).r = none ∧ ((mvW d cur.incr ax w).i = none ∨ (mvW d cur.incr ax w).j = none)) := h
    rw [if_neg h']
    exact key w

omit [IsStrictOrderedRing K] in
include hd in
theorem arcStep_mv (F : Fns K) (c : Cfg K) (cur : Cur K) {ax : Axes} (hx : Centred ax) (p : CPart K) :
    arcStep F (mvC d c) cur ax (mvQ d cur.incr ax p) = mvP d (arcStep F c cur ax p) := by
  obtain ⟨⟨s, w⟩, o⟩ := p
  cases o with
  | throw e => rfl
  | ub => rfl
  | ok b =>
    cases b with
    | false => rfl
    | true =>
      unfold arcStep mvQ
      dsimp only
      by_cases h : s.helix = .none
      · rw [if_pos h]
        refine (if_pos (show (mvS d s).helix = .none from h)).trans ?_
        exact arc_mv hd F c cur hx s w
      · rw [if_neg h]
        refine (if_neg (show ¬ (mvS d s).helix = .none from h)).trans ?_
        rfl

omit [IsStrictOrderedRing K] in
include hd in
theorem helixStep_mv (F : Fns K) {ax : Axes} (hx : Centred ax) (incr first : Bool) (p : CPart K) :
    helixStep F ax incr first (mvQ d incr ax p) = mvQ d incr ax (helixStep F ax incr first p) := by
  obtain ⟨⟨s, w⟩, o⟩ := p
  cases o with
  | throw e => rfl
  | ub => rfl
  | ok b =>
    unfold helixStep mvQ
    dsimp only
    by_cases h : s.helix = .none
    · rw [if_pos h]
      exact if_pos (show (mvS d s).helix = .none from h)
    · rw [if_neg h]
      refine (if_neg (show ¬ (mvS d s).helix = .none from h)).trans ?_
      exact helixRun_mv hd F hx incr first s w

/-- The words of a circular block. -/
def wordsAt (v : Vis K) (ax : Axes) (xp yp : K) (s : St K) : CW K :=
  ⟨xp, yp, s.prev.get ax.a3, v.vals.get ax.p1, v.vals.get ax.p2, v.vals.get ax.p3, v.vals.get c!"R", v.vals.get c!"Q", v.vals.get c!"L",
    v.vals.get ax.a1, v.vals.get ax.a2, v.vals.get ax.a3⟩

omit [LinearOrder K] [IsStrictOrderedRing K] in
include hd in
theorem vals_other (v : Vis K) (incr : Bool) {a : Str} (ha : a ∉ threeAxes) : (mvV d incr v).vals.get a = v.vals.get a := by
  show (mv (blk d incr) v.vals).get a = _
  rw [get_mv]
  have : blk d incr a = 0 := by unfold blk; split <;> simp [hd a ha]
  rw [this]
  cases v.vals.get a <;> simp

omit [IsStrictOrderedRing K] in
include hd in
theorem wordsAt_mv (v : Vis K) (incr : Bool) {ax : Axes} (hx : Centred ax) (xp yp : K) (s : St K) :
    wordsAt (mvV d incr v) ax (xp + d ax.a1) (yp + d ax.a2) (mvS d s) = mvW d incr ax (wordsAt v ax xp yp s) := by
  unfold wordsAt
  rw [vals_other hd v incr hx.1, vals_other hd v incr hx.2.1, vals_other hd v incr hx.2.2,
    vals_other hd v incr (show c!"R" ∉ threeAxes by decide), vals_other hd v incr (show c!"Q" ∉ threeAxes by decide),
    vals_other hd v incr (show c!"L" ∉ threeAxes by decide)]
  have e1 : ∀ a, (mvV d incr v).vals.get a = (v.vals.get a).map (· + blk d incr a) := fun a => get_mv _ _ _
  have e2 : (mvS d s).prev.get ax.a3 = (s.prev.get ax.a3).map (· + d ax.a3) := get_mv _ _ _
  rw [e1 ax.a1, e1 ax.a2, e1 ax.a3, e2]
  rfl

omit [IsStrictOrderedRing K] in
include hd in
theorem circularFrom_mv (F : Fns K) (c : Cfg K) (v : Vis K) (cur : Cur K) {ax : Axes} (hx : Centred ax) (xp yp : K) (s : St K)
    (h : Apart d cur.incr ax (wordsAt v ax xp yp s)) :
    circularFrom F (mvC d c) (mvV d cur.incr v) cur ax (xp + d ax.a1) (yp + d ax.a2) (mvS d s) =
      mvP d (circularFrom F c v cur ax xp yp s) := by
  have e : ∀ (c : Cfg K) (v : Vis K) (xp yp : K) (s : St K), circularFrom F c v cur ax xp yp s =
      if (wordsAt v ax xp yp s).q.isSome ∨ (wordsAt v ax xp yp s).l.isSome then
        arcStep F c cur ax (helixStep F ax cur.incr false (spiral F ax s (wordsAt v ax xp yp s)))
      else arcStep F c cur ax (helixStep F ax cur.incr (helixStart ax s (wordsAt v ax xp yp s)).2 (helixStart ax s (wordsAt v ax xp yp s)).1) :=
    fun _ _ _ _ _ => rfl
  rw [e, e, wordsAt_mv hd v cur.incr hx, spiral_mv hd F hx, helixStart_mv s h, helixStep_mv hd F hx, helixStep_mv hd F hx, arcStep_mv hd F c cur hx,
    arcStep_mv hd F c cur hx]
  generalize wordsAt v ax xp yp s = w
  by_cases hq : w.q.isSome = true ∨ w.l.isSome = true
  · rw [if_pos hq]
    exact if_pos (show (mvW d cur.incr ax w).q.isSome = true ∨ (mvW d cur.incr ax w).l.isSome = true from hq)
  · rw [if_neg hq]
    exact if_neg (show ¬ ((mvW d cur.incr ax w).q.isSome = true ∨ (mvW d cur.incr ax w).l.isSome = true) from hq)

/-- The block does not begin a helix that is taken for something else. -/
def Clear (d : Str → K) (v : Vis K) (cur : Cur K) : Prop :=
  ∀ x y, v.vals.get (axesOf cur.plane).a1 = some x → v.vals.get (axesOf cur.plane).a2 = some y → v.vals.get (axesOf cur.plane).a3 ≠ none →
    (((v.vals.get c!"I").isSome ∧ (v.vals.get c!"J").isSome ∧ (v.vals.get c!"K").isSome) ∨ (v.vals.get c!"R").isSome) →
    if cur.incr then x = 0 ∧ y = 0 else ¬ (x = 0 ∧ y = 0) ∧ ¬ (x + d (axesOf cur.plane).a1 = 0 ∧ y + d (axesOf cur.plane).a2 = 0)

omit [IsStrictOrderedRing K] in
theorem apart_of {v : Vis K} {cur : Cur K} (h : Clear d v cur) (xp yp : K) (s : St K) :
    Apart d cur.incr (axesOf cur.plane) (wordsAt v (axesOf cur.plane) xp yp s) := by
  intro x y hx hy hz hr
  refine h x y hx hy hz ?_
  revert hr
  unfold wordsAt
  dsimp only
  cases cur.plane <;> (unfold axesOf; dsimp only; tauto)

omit [IsStrictOrderedRing K] in
include hd in
theorem circular_mv (F : Fns K) (c : Cfg K) (v : Vis K) (cur : Cur K) (s : St K) (h : Clear d v cur) :
    circular F (mvC d c) (mvV d cur.incr v) cur (mvS d s) = mvP d (circular F c v cur s) := by
  unfold circular
  have hn : (mvV d cur.incr v).vals = [] ↔ v.vals = [] := mv_nil _ _
  by_cases h0 : v.g = none ∧ v.vals = []
  · rw [if_pos h0]
    refine (if_pos (show (mvV d cur.incr v).g = none ∧ (mvV d cur.incr v).vals = [] from ⟨h0.1, hn.mpr h0.2⟩)).trans ?_
    rfl
  · rw [if_neg h0]
    refine (if_neg (show ¬ ((mvV d cur.incr v).g = none ∧ (mvV d cur.incr v).vals = []) from fun h => h0 ⟨h.1, hn.mp h.2⟩)).trans ?_
    dsimp only
    have e2 : ∀ a, (mvS d s).prev.get a = (s.prev.get a).map (· + d a) := fun a => get_mv _ _ _
    rw [e2, e2, cancelBy_mv]
    cases h1 : s.prev.get (axesOf cur.plane).a1 with
    | none => rfl
    | some xp =>
      cases h2 : s.prev.get (axesOf cur.plane).a2 with
      | none => rfl
      | some yp => exact circularFrom_mv hd F c v cur (centred _) xp yp _ (apart_of h _ _ _)

/-! ## Drilling -/

variable [FloorRing K]

omit [IsStrictOrderedRing K] in
include hd in
theorem cyclePart_mv (F : Fns K) (c : Cfg K) (v : Vis K) (cur : Cur K) (s : St K) (h : d (axesOf cur.plane).a3 = 0) :
    cyclePart F (mvC d c) (mvV d cur.incr v) cur (mvS d s) = mvP d (cyclePart F c v cur s) := by
  unfold cyclePart
  dsimp only
  have e1 : (mvV d cur.incr v).vals.get (axesOf cur.plane).a3 = v.vals.get (axesOf cur.plane).a3 := by
    show (mv (blk d cur.incr) v.vals).get _ = _
    rw [get_mv]
    have : blk d cur.incr (axesOf cur.plane).a3 = 0 := by unfold blk; split <;> simp [h]
    rw [this]
    cases v.vals.get (axesOf cur.plane).a3 <;> simp
  have e2 : (mvS d s).prev.get (axesOf cur.plane).a3 = s.prev.get (axesOf cur.plane).a3 := by
    show (mv d s.prev).get _ = _
    rw [get_mv, h]
    cases s.prev.get (axesOf cur.plane).a3 <;> simp
  rw [vals_other hd v _ (show c!"K" ∉ threeAxes by decide), vals_other hd v _ (show c!"R" ∉ threeAxes by decide),
    vals_other hd v _ (show c!"Q" ∉ threeAxes by decide), e1, e2]
  by_cases h0 : s.path.holes ≠ 0 ∧ v.vals.get c!"K" = none
  · rw [if_pos h0]
    exact if_pos (show (mvS d s).path.holes ≠ 0 ∧ v.vals.get c!"K" = none from h0)
  · rw [if_neg h0]
    refine (if_neg (show ¬ ((mvS d s).path.holes ≠ 0 ∧ v.vals.get c!"K" = none) from h0)).trans ?_
    cases s.prev.get (axesOf cur.plane).a3 with
    | none => rfl
    | some zp =>
      dsimp only
      by_cases h1 : v.vals.get (axesOf cur.plane).a3 = none ∧ c.depthless = false
      · rw [if_pos h1]
        exact if_pos (show v.vals.get (axesOf cur.plane).a3 = none ∧ (mvC d c).depthless = false from h1)
      · rw [if_neg h1]
        refine (if_neg (show ¬ (v.vals.get (axesOf cur.plane).a3 = none ∧ (mvC d c).depthless = false) from h1)).trans ?_
        cases v.vals.get c!"R" with
        | none => rfl
        | some r =>
          dsimp only
          have e3 : cycleOf F (mvC d c) cur zp (if (mvC d c).depthless = true then 0 else (v.vals.get (axesOf cur.plane).a3).getD 0) r (v.vals.get c!"Q") =
            cycleOf F c cur zp (if c.depthless = true then 0 else (v.vals.get (axesOf cur.plane).a3).getD 0) r (v.vals.get c!"Q") := rfl
          rw [e3]
          cases cycleOf F c cur zp (if c.depthless = true then 0 else (v.vals.get (axesOf cur.plane).a3).getD 0) r (v.vals.get c!"Q") <;> rfl

omit [IsStrictOrderedRing K] in
theorem hole_mv (F : Fns K) (x y x' y' a b : K) (c : Fl K × Fl K) : hole F (x + a) (y + b) (x' + a) (y' + b) c = hole F x y x' y' c := by
  unfold hole; rw [dist2_mv]

omit [IsStrictOrderedRing K] in
include hd in
theorem holePart_mv (F : Fns K) (v : Vis K) (cur : Cur K) (s : St K) :
    holePart F (mvV d cur.incr v) cur (mvS d s) = mvP d (holePart F v cur s) := by
  unfold holePart
  dsimp only
  rw [vals_other hd v _ (show c!"K" ∉ threeAxes by decide)]
  have e2 : ∀ a, (mvS d s).prev.get a = (s.prev.get a).map (· + d a) := fun a => get_mv _ _ _
  have e1 : ∀ a, (mvV d cur.incr v).vals.get a = (v.vals.get a).map (· + blk d cur.incr a) := fun a => get_mv _ _ _
  rw [e2, e2]
  cases s.prev.get (axesOf cur.plane).a1 with
  | none => rfl
  | some xp =>
    cases s.prev.get (axesOf cur.plane).a2 with
    | none => rfl
    | some yp =>
      dsimp only [Option.map_some]
      cases hi : cur.incr with
      | false =>
        rw [if_pos rfl, if_pos rfl, ← hi, e1, e1, hi, getD_mv, getD_mv, hole_mv]
        rfl
      | true =>
        rw [mvV_incr]
        by_cases hk : v.vals.get c!"K" = some 0
        · simp only [Bool.true_eq_false, if_false, hk, if_true]; rfl
        · simp only [Bool.true_eq_false, if_false, hk]
          cases holesOf (v.vals.get c!"K") <;> rfl

omit [IsStrictOrderedRing K] in
theorem andThen_mv {p : AttrPath.Part (St K)} {k k' : St K → AttrPath.Part (St K)} (h : ∀ s, k' (mvS d s) = mvP d (k s)) :
    (mvP d p).andThen k' = mvP d (p.andThen k) := by
  obtain ⟨s, o⟩ := p
  cases o with
  | throw e => rfl
  | ub => rfl
  | ok b =>
    cases b with
    | false => rfl
    | true => exact h s

omit [IsStrictOrderedRing K] in
include hd in
theorem drilling_mv (F : Fns K) (c : Cfg K) (v : Vis K) (cur : Cur K) (s : St K) (h : d (axesOf cur.plane).a3 = 0) :
    drilling F (mvC d c) (mvV d cur.incr v) cur (mvS d s) = mvP d (drilling F c v cur s) := by
  unfold drilling
  have hn : (mvV d cur.incr v).vals = [] ↔ v.vals = [] := mv_nil _ _
  by_cases h0 : v.g = none ∧ v.vals = []
  · rw [if_pos h0]
    refine (if_pos (show (mvV d cur.incr v).g = none ∧ (mvV d cur.incr v).vals = [] from ⟨h0.1, hn.mpr h0.2⟩)).trans ?_
    rfl
  · rw [if_neg h0]
    refine (if_neg (show ¬ ((mvV d cur.incr v).g = none ∧ (mvV d cur.incr v).vals = []) from fun h => h0 ⟨h.1, hn.mp h.2⟩)).trans ?_
    rw [cyclePart_mv hd F c v cur s h]
    exact andThen_mv (fun s => holePart_mv hd F v cur s)

/-- The depth axis of a cycle in force is not moved. -/
def Deep (d : Str → K) (cur : Cur K) : Prop := (isDrill cur.g = true ∨ isDrillQ cur.g = true) → d (axesOf cur.plane).a3 = 0

omit [IsStrictOrderedRing K] in
include hd in
theorem motion_mv (F : Fns K) (c : Cfg K) (v : Vis K) (cur : Cur K) (s : St K) (h : (cur.g = 2 ∨ cur.g = 3) → Clear d v cur) (hz : Deep d cur) :
    motion F (mvC d c) (mvV d cur.incr v) cur (mvS d s) = mvP d (motion F c v cur s) := by
  unfold motion
  split
  · exact linear_mv F c v cur s
  · split
    · rename_i h2
      exact circular_mv hd F c v cur s (h h2)
    · split
      · rfl
      · split
        · rename_i h4
          exact drilling_mv hd F c v cur s (hz h4)
        · rfl

/-! ## A block -/

include hd in
theorem savePositions_mv (c : Cfg K) (v : Vis K) (s : St K) (h : s.incr = true → Known s.range) :
    savePositions (mvC d c) (mvV d s.incr v) (mvS d s) = mvS d (savePositions c v s) := by
  unfold savePositions
  by_cases ht : atTool c v = true
  · rw [if_pos ht]
    refine (if_pos (show atTool (mvC d c) (mvV d s.incr v) = true from ht)).trans ?_
    exact copySt_point hd _ _ _
  · rw [if_neg ht]
    refine (if_neg (show ¬ atTool (mvC d c) (mvV d s.incr v) = true from ht)).trans ?_
    by_cases hb : atBase v = true
    · rw [if_pos hb]
      refine (if_pos (show atBase (mvV d s.incr v) = true from hb)).trans ?_
      exact copySt_point hd _ _ _
    · rw [if_neg hb]
      refine (if_neg (show ¬ atBase (mvV d s.incr v) = true from hb)).trans ?_
      exact copySt_mv hd _ _ h

include hd in
theorem account_mv (F : Fns K) (c : Cfg K) (inch : Inch) (v : Vis K) (cur : Cur K) (s : St K) (h : cur.incr = true → Known s.range) :
    account F (mvC d c) inch (mvV d cur.incr v) cur (mvS d s) = mvP d (account F c inch v cur s) := by
  unfold account
  dsimp only
  have e : addTimes F (mvC d c) inch cur (addPath (saveModal (mvC d c) cur (mvS d s))) =
    mvS d (addTimes F c inch cur (addPath (saveModal c cur s))) := rfl
  rw [e]
  generalize hs : addTimes F c inch cur (addPath (saveModal c cur s)) = s2
  have h1 : s2.incr = cur.incr := by rw [← hs]; rfl
  have h2 : s2.range = s.range := by rw [← hs]; rfl
  have e2 : checks (mvC d c) cur (mvS d s2) = checks c cur s2 := rfl
  rw [e2]
  cases checks c cur s2 with
  | ok u =>
    dsimp only
    rw [← h1, savePositions_mv hd c v s2 (by rw [h1, h2]; exact h)]
    rfl
  | throw e => rfl
  | ub => rfl

/-- No dwell is given by X. -/
def Dwells (v : Vis K) : Prop := (c!"04" ∈ v.otherG ∨ c!"4" ∈ v.otherG) → v.vals.get c!"X" = none

omit [LinearOrder K] [IsStrictOrderedRing K] [FloorRing K] in
include hd in
theorem dwell_mv (v : Vis K) (incr : Bool) (s : St K) (h : Dwells v) : dwell (mvV d incr v) (mvS d s) = mvS d (dwell v s) := by
  unfold dwell
  by_cases h0 : c!"04" ∈ v.otherG ∨ c!"4" ∈ v.otherG
  · rw [if_pos h0]
    refine (if_pos (show c!"04" ∈ (mvV d incr v).otherG ∨ c!"4" ∈ (mvV d incr v).otherG from h0)).trans ?_
    have hX : (mvV d incr v).vals.get c!"X" = none := by
      show (mv (blk d incr) v.vals).get _ = _
      rw [get_mv, h h0]; rfl
    have e1 : ∀ s, dwellWord (mvV d incr v) c!"X" (mvS d s) = mvS d (dwellWord v c!"X" s) := by
      intro s; unfold dwellWord; rw [hX, h h0]
    have e2 : ∀ a, a ∉ threeAxes → ∀ s, dwellWord (mvV d incr v) a (mvS d s) = mvS d (dwellWord v a s) := by
      intro a ha s
      unfold dwellWord
      rw [vals_other hd v incr ha]
      cases v.vals.get a <;> rfl
    rw [e1, e2 _ (by decide), e2 _ (by decide)]
  · rw [if_neg h0]
    exact if_neg (show ¬ (c!"04" ∈ (mvV d incr v).otherG ∨ c!"4" ∈ (mvV d incr v).otherG) from h0)

omit [FloorRing K] in
include hd in
theorem beforeMotion_mv (v : Vis K) (s : St K) (h : v.incr.getD s.incr = true → Known s.range) :
    beforeMotion (mvV d (v.incr.getD s.incr) v) (mvS d s) = mvS d (beforeMotion v s) := by
  exact copySt_mv hd (incr := v.incr.getD s.incr) v.otherG v.vals
    (s := { s with plane := v.plane.getD s.plane, incr := v.incr.getD s.incr, css := v.css.getD s.css, ret := v.ret.getD s.ret }) h

/-- The state after what goes before a motion is that of the block. -/
theorem startPart_fields (c : Cfg K) (v : Vis K) (s : St K) (h : (startPart c v s).2 = .ok true) :
    (startPart c v s).1.incr = s.incr ∧ (startPart c v s).1.range = s.range ∧ (startPart c v s).1.plane = s.plane ∧
      ((startPart c v s).1.g = s.g ∨ (startPart c v s).1.g = 0) := by
  rw [startPart_eq] at h ⊢
  split at h
  · cases h
  · rename_i h1
    rw [if_neg h1]
    have hg := started_g c v s
    refine ⟨?_, ?_, ?_, hg⟩ <;>
    · unfold started
      dsimp only
      split
      · rfl
      · split <;> rfl

include hd in
theorem startPart_mv (c : Cfg K) (v : Vis K) (s : St K) (h : v.incr.getD s.incr = true → Known s.range) :
    startPart (mvC d c) (mvV d (v.incr.getD s.incr) v) (mvS d s) = mvP d (startPart c v s) := by
  have hn : (mvV d (v.incr.getD s.incr) v).vals ≠ [] ↔ v.vals ≠ [] := not_congr (mv_nil _ _)
  unfold startPart
  dsimp only
  have e : (if (atTool (mvC d c) (mvV d (v.incr.getD s.incr) v) || atBase (mvV d (v.incr.getD s.incr) v)) = true then { mvS d s with g := 0 } else mvS d s) =
      mvS d (if (atTool c v || atBase v) = true then { s with g := 0 } else s) := by
    by_cases ht : (atTool c v || atBase v) = true
    · rw [if_pos ht]
      exact if_pos (show (atTool (mvC d c) (mvV d (v.incr.getD s.incr) v) || atBase (mvV d (v.incr.getD s.incr) v)) = true from ht)
    · rw [if_neg ht]
      exact if_neg (show ¬ (atTool (mvC d c) (mvV d (v.incr.getD s.incr) v) || atBase (mvV d (v.incr.getD s.incr) v)) = true from ht)
  rw [e]
  generalize hs : (if (atTool c v || atBase v) = true then { s with g := 0 } else s) = s2
  have hi : s2.incr = s.incr := by rw [← hs]; split <;> rfl
  have hr : s2.range = s.range := by rw [← hs]; split <;> rfl
  rw [← hi] at h ⊢
  rw [← hr] at h
  by_cases h1 : s2.autoRapid = true ∧ v.vals ≠ []
  · rw [if_pos h1]
    refine (if_pos (show (mvS d s2).autoRapid = true ∧ _ from ⟨h1.1, ?_⟩)).trans ?_
    · exact fun h => h1.2 ((mv_nil _ _).mp h)
    · rfl
  · rw [if_neg h1]
    have h1' : ¬ ((mvS d s2).autoRapid = true ∧ (mvV d (v.incr.getD s2.incr) v).vals ≠ []) :=
      fun h => h1 ⟨h.1, fun h2 => h.2 ((mv_nil _ _).mpr h2)⟩
    refine (if_neg h1').trans ?_
    by_cases h2 : (!atTool c v && !atBase v) = true ∧ s2.g = -1 ∧ v.g = none
    · rw [if_pos h2]
      refine (if_pos (show (!atTool (mvC d c) (mvV d (v.incr.getD s2.incr) v) && !atBase (mvV d (v.incr.getD s2.incr) v)) = true ∧
        (mvS d s2).g = -1 ∧ (mvV d (v.incr.getD s2.incr) v).g = none from h2)).trans ?_
      rw [beforeMotion_mv hd v s2 h]
      rfl
    · rw [if_neg h2]
      exact if_neg (show ¬ ((!atTool (mvC d c) (mvV d (v.incr.getD s2.incr) v) && !atBase (mvV d (v.incr.getD s2.incr) v)) = true ∧
        (mvS d s2).g = -1 ∧ (mvV d (v.incr.getD s2.incr) v).g = none) from h2)

theorem motion_range (F : Fns K) (c : Cfg K) (v : Vis K) (cur : Cur K) (s : St K) : (motion F c v cur s).1.range = s.range :=
  (motion_only F c v cur s).samePos.2

include hd in
theorem moveBlock_mv (F : Fns K) (c : Cfg K) (inch : Inch) (v : Vis K) (s : St K) (hk : v.incr.getD s.incr = true → Known s.range)
    (h : ((current v s).g = 2 ∨ (current v s).g = 3) → Clear d v (current v s)) (hz : Deep d (current v s)) :
    moveBlock F (mvC d c) inch (mvV d (v.incr.getD s.incr) v) (mvS d s) = mvP d (moveBlock F c inch v s) := by
  unfold moveBlock
  have e : current (mvV d (v.incr.getD s.incr) v) (mvS d s) = current v s := rfl
  rw [e]
  have hm := motion_mv hd F c v (current v s) s h hz
  have e2 : (current v s).incr = v.incr.getD s.incr := rfl
  rw [e2] at hm
  rw [hm]
  have hr := motion_range F c v (current v s) s
  generalize motion F c v (current v s) s = p at hr ⊢
  obtain ⟨s2, o⟩ := p
  cases o with
  | throw e => rfl
  | ub => rfl
  | ok b =>
    cases b with
    | false => rfl
    | true => exact account_mv hd F c inch v (current v s) s2 (by dsimp only at hr; rw [hr]; exact hk)

end
end
end NC.Mvd
