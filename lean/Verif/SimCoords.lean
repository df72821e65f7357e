import Verif.SimMovedRun
import Verif.Spec.Coords
import Verif.Props.SimDefined

/-!
# The simulation of a program by coordinates in the place of distances
-/

namespace NC.Cds
open NC NC.Path NC.Ver NC.AttrPath NC.Spec.Sim NC.Props
open NC.Mvd (mv get_mv put_mv mv_nil wordsAt Dwells)
open NC.Spec.Similar (threeAxes)

theorem gKind_distances {n : Int} (h : gKind n = .incr true) : n = 91 := by
  by_contra hn
  have : ∀ {p : Prop} [Decidable p] {a b : GKind}, a ≠ .incr true → b ≠ .incr true → (if p then a else b) ≠ .incr true := by
    intro p _ a b h1 h2
    split
    · exact h1
    · exact h2
  revert h
  unfold gKind modeKind
  rw [if_neg hn]
  refine this (by decide) (this (by decide) (this (by decide) (this (by simp) ?_)))
  exact this (by decide) (this (by decide) (this (by decide) (this (by decide) (this (by decide) (this (by decide) (this (by decide) (by decide)))))))

section
variable {K : Type} [Field K] [LinearOrder K]

/-- The state by coordinates. -/
def ab (s : St K) : St K := { s with incr := false }

/-- What the visitor collects from the block by coordinates. -/
def abV (e : Str → K) (v : Vis K) : Vis K := { v with vals := mv e v.vals, incr := v.incr.map (fun _ => false) }

/-- The values in force. -/
def abC (cur : Cur K) : Cur K := { cur with incr := false }

/-- A part by coordinates. -/
def abP (p : AttrPath.Part (St K)) : AttrPath.Part (St K) := (ab p.1, p.2)

/-- What is added to the words: nothing, or the place the tool comes from. -/
structure At (incr : Bool) (e : Str → K) (s : St K) : Prop where
  other : ∀ a, a ∉ threeAxes → e a = 0
  here : incr = true → ∀ a ∈ threeAxes, s.prev.get a = some (e a) ∧ ∃ r, s.range.get a = some r ∧ r.cur = e a
  none : incr = false → ∀ a, e a = 0

omit [LinearOrder K] in
theorem At.same {incr : Bool} {e : Str → K} {s s' : St K} (h : At incr e s) (h1 : s'.prev = s.prev) (h2 : s'.range = s.range) : At incr e s' := by
  refine ⟨h.other, ?_, h.none⟩
  rw [h1, h2]
  exact h.here

/-! ## Positions -/

theorem copyOne_ab {incr : Bool} {e : Str → K} {w : Str} (x : K) {p : VMap K × VMap (Rng K)} (h0 : w ∉ threeAxes → e w = 0)
    (h1 : incr = true → w ∈ threeAxes → ∃ r, p.2.get w = some r ∧ r.cur = e w) (h2 : incr = false → e w = 0) :
    copyOne false w (x + e w) p = copyOne incr w x p := by
  unfold copyOne
  have hf : movesIncr false w = false := rfl
  rw [hf]
  by_cases hm : movesIncr incr w = true
  · obtain ⟨hi, hw⟩ := (Mvd.movesIncr_iff _ _).mp hm
    obtain ⟨r, hr, hc⟩ := h1 hi hw
    rw [if_pos hm, if_neg (by simp), hr]
    dsimp only
    rw [hc, add_comm]
  · rw [if_neg hm, if_neg (by simp)]
    have : e w = 0 := by
      cases incr with
      | false => exact h2 rfl
      | true => exact h0 (fun hw => hm ((Mvd.movesIncr_iff _ _).mpr ⟨rfl, hw⟩))
    rw [this, add_zero]

theorem copyBack_ab (g : Int) {incr : Bool} (og : List Str) {e : Str → K} (h0 : ∀ a, a ∉ threeAxes → e a = 0) (h2 : incr = false → ∀ a, e a = 0)
    {v : VMap K} (hv : v.Sorted) (p : VMap K × VMap (Rng K))
    (h : incr = true → ∀ x ∈ v, x.1 ∈ threeAxes → ∃ r, p.2.get x.1 = some r ∧ r.cur = e x.1) :
    copyBack g false og (mv e v) p = copyBack g incr og v p := by
  induction v generalizing p with
  | nil => rfl
  | cons x t ih =>
    have hs := List.pairwise_cons.mp hv
    show copyBack g false og ((x.1, x.2 + e x.1) :: mv e t) p = _
    unfold copyBack
    dsimp only
    by_cases hk : skipped g og x.1 = true
    · rw [if_pos hk, if_pos hk]
      exact ih hs.2 p (fun hi y hy => h hi y (List.mem_cons_of_mem _ hy))
    · rw [if_neg hk, if_neg hk, copyOne_ab x.2 (h0 x.1) (fun hi => h hi x List.mem_cons_self) (fun hi => h2 hi x.1)]
      refine ih hs.2 _ ?_
      intro hi y hy ha
      obtain ⟨r, hr, hc⟩ := h hi y (List.mem_cons_of_mem _ hy) ha
      have hne : y.1 ≠ x.1 := by
        intro h1
        have := hs.1 y hy
        rw [h1] at this
        exact lt_irrefl _ this
      refine ⟨r, ?_, hc⟩
      rw [← hr]
      unfold copyOne
      split <;> split <;> exact (VMap.get_put _ _ _ _).trans (if_neg (Ne.symm hne))

theorem copySt_ab {incr : Bool} (og : List Str) {e : Str → K} {v : VMap K} (hv : v.Sorted) {s : St K} (h : At incr e s) :
    copySt false og (mv e v) (ab s) = ab (copySt incr og v s) := by
  have := copyBack_ab s.g og h.other h.none hv (s.prev, s.range) (fun hi x _ hx => (h.here hi x.1 hx).2)
  unfold copySt
  show ({ ab s with prev := (copyBack s.g false og (mv e v) (s.prev, s.range)).1, range := (copyBack s.g false og (mv e v) (s.prev, s.range)).2 } : St K) = _
  rw [this]
  rfl

theorem copySt_point (og : List Str) (v : VMap K) (s : St K) : copySt false og v (ab s) = ab (copySt false og v s) := rfl

/-! ## The motions by coordinates do not look at the mode -/

omit [Field K] in
theorem cancelBy_ab (c : Cfg K) [Field K] (g : Int) (s : St K) : cancelBy c g (ab s) = ab (cancelBy c g s) := by
  unfold cancelBy
  split <;> rfl

omit [LinearOrder K] in
theorem setMotion_ab (g : Int) (x : Fl K) (s : St K) : setMotion g x (ab s) = ab (setMotion g x s) := by
  unfold setMotion; split <;> rfl

theorem linearAbs_ab (F : Fns K) (c : Cfg K) (v : Vis K) (cur : Cur K) (s : St K) :
    linearAbs F c v cur (ab s) = abP (linearAbs F c v cur s) := by
  unfold linearAbs
  show (match s.prev.get c!"X", s.prev.get c!"Y", s.prev.get c!"Z" with
    | none, _, _ => _
    | some _, none, _ => _
    | some _, some _, none => _
    | some xp, some yp, some zp => _) = _
  cases s.prev.get c!"X" with
  | none => rfl
  | some xp =>
    cases s.prev.get c!"Y" with
    | none => rfl
    | some yp =>
      cases s.prev.get c!"Z" with
      | none => rfl
      | some zp =>
        dsimp only
        cases target c v c!"X" xp with
        | throw e => rfl
        | ub => rfl
        | ok x =>
          cases target c v c!"Y" yp with
          | throw e => rfl
          | ub => rfl
          | ok y =>
            cases target c v c!"Z" zp with
            | throw e => rfl
            | ub => rfl
            | ok z =>
              dsimp only
              rw [setMotion_ab]
              rfl

/-- A circular part by coordinates. -/
def abQ (p : CPart K) : CPart K := ((ab p.1.1, p.1.2), p.2)

theorem spiral_ab (F : Fns K) (ax : Axes) (s : St K) (w : CW K) : spiral F ax (ab s) w = abQ (spiral F ax s w) := by
  unfold spiral
  dsimp only [ab]
  cases (w.i <|> s.prev.get ax.p1) with
  | none => rfl
  | some i =>
    cases (w.j <|> s.prev.get ax.p2) with
    | none => rfl
    | some j =>
      cases w.q with
      | some q => rfl
      | none => cases w.l <;> rfl

/-- The words of a circular move by coordinates. -/
def abW (e : Str → K) (ax : Axes) (w : CW K) : CW K :=
  { w with x := w.x.map (· + e ax.a1), y := w.y.map (· + e ax.a2), z := w.z.map (· + e ax.a3) }

omit [LinearOrder K] in
theorem arcEnd_ab {incr : Bool} {e x : K} (h1 : incr = true → x = e) (h2 : incr = false → e = 0) (o : Option K) :
    arcEnd false x (o.map (· + e)) = arcEnd incr x o := by
  cases o with
  | none => rfl
  | some y =>
    unfold arcEnd
    cases incr with
    | false => simp [h2 rfl]
    | true => rw [h1 rfl]; simp [add_comm]

/-- The place the tool comes from, on the axes of the plane. -/
structure From (incr : Bool) (e : Str → K) (ax : Axes) (w : CW K) : Prop where
  x : incr = true → w.xp = e ax.a1
  y : incr = true → w.yp = e ax.a2
  none : incr = false → ∀ a, e a = 0

theorem arc_ab (F : Fns K) (c : Cfg K) (cur : Cur K) (ax : Axes) {e : Str → K} (s : St K) {w : CW K} (h : From cur.incr e ax w) :
    arc F c (abC cur) ax (ab s) (abW e ax w) = abP (arc F c cur ax s w) := by
  unfold arc
  have key : ∀ w2 : CW K, From cur.incr e ax w2 →
      (match w2.i, w2.j, w2.r with
        | some i, some j, _ => (setWork (some (arcIJ F (halve c cur.plane w2.xp) w2.yp
            (halve c cur.plane (arcEnd false w2.xp (w2.x.map (· + e ax.a1))))
            (arcEnd false w2.yp (w2.y.map (· + e ax.a2))) (halve c cur.plane i) j cur.g.toNat)) (ab s), .ok true)
        | _, _, some r => (setWork (some (arcR F (halve c cur.plane w2.xp) w2.yp
            (halve c cur.plane (arcEnd false w2.xp (w2.x.map (· + e ax.a1))))
            (arcEnd false w2.yp (w2.y.map (· + e ax.a2))) r)) (ab s), .ok true)
        | _, _, none => (ab s, .throw (err .ValueNotSetForEither [ax.p1, ax.p2])) : AttrPath.Part (St K)) =
      abP (match w2.i, w2.j, w2.r with
        | some i, some j, _ => (setWork (some (arcIJ F (halve c cur.plane w2.xp) w2.yp (halve c cur.plane (arcEnd cur.incr w2.xp w2.x))
            (arcEnd cur.incr w2.yp w2.y) (halve c cur.plane i) j cur.g.toNat)) s, .ok true)
        | _, _, some r => (setWork (some (arcR F (halve c cur.plane w2.xp) w2.yp (halve c cur.plane (arcEnd cur.incr w2.xp w2.x))
            (arcEnd cur.incr w2.yp w2.y) r)) s, .ok true)
        | _, _, none => (s, .throw (err .ValueNotSetForEither [ax.p1, ax.p2]))) := by
    intro w2 h2
    rw [arcEnd_ab h2.x (fun hi => h2.none hi _), arcEnd_ab h2.y (fun hi => h2.none hi _)]
    cases w2.i <;> cases w2.j <;> cases w2.r <;> rfl
  by_cases h0 : w.r = none ∧ (w.i = none ∨ w.j = none)
  · rw [if_pos h0]
    have h' : (abW e ax w).r = none ∧ ((abW e ax w).i = none ∨ (abW e ax w).j = none) := h0
    rw [if_pos h']
    exact key { w with i := w.i <|> s.prev.get ax.p1, j := w.j <|> s.prev.get ax.p2 } ⟨h.x, h.y, h.none⟩
  · rw [if_neg h0]
    have h' : ¬ ((abW e ax w).r = none ∧ ((abW e ax w).i = none ∨ (abW e ax w).j = none)) := h0
    rw [if_neg h']
    exact key w h

omit [LinearOrder K] in
theorem mv_zero {e : Str → K} (h : ∀ a, e a = 0) (m : VMap K) : mv e m = m := by
  unfold mv
  simp [h]

omit [LinearOrder K] in
theorem abW_zero {e : Str → K} (h : ∀ a, e a = 0) (ax : Axes) (w : CW K) : abW e ax w = w := by
  unfold abW
  simp [h]

theorem arcStep_ab (F : Fns K) (c : Cfg K) (cur : Cur K) (ax : Axes) {e : Str → K} {p : CPart K} (h : From cur.incr e ax p.1.2) :
    arcStep F c (abC cur) ax ((ab p.1.1, abW e ax p.1.2), p.2) = abP (arcStep F c cur ax p) := by
  obtain ⟨⟨s, w⟩, o⟩ := p
  cases o with
  | throw e => rfl
  | ub => rfl
  | ok b =>
    cases b with
    | false => rfl
    | true =>
      unfold arcStep
      dsimp only
      by_cases h0 : s.helix = .none
      · rw [if_pos h0]
        refine (if_pos (show (ab s).helix = .none from h0)).trans ?_
        exact arc_ab F c cur ax s h
      · rw [if_neg h0]
        refine (if_neg (show ¬ (ab s).helix = .none from h0)).trans ?_
        rfl

omit [LinearOrder K] in
theorem vals_other {e : Str → K} (he : ∀ a, a ∉ threeAxes → e a = 0) (v : Vis K) {a : Str} (ha : a ∉ threeAxes) :
    (abV e v).vals.get a = v.vals.get a := by
  show (mv e v.vals).get a = _
  rw [get_mv, he a ha]
  cases v.vals.get a <;> simp

omit [LinearOrder K] in
theorem wordsAt_ab {e : Str → K} (he : ∀ a, a ∉ threeAxes → e a = 0) (v : Vis K) {ax : Axes} (hx : Mvd.Centred ax) (xp yp : K) (s : St K) :
    wordsAt (abV e v) ax xp yp (ab s) = abW e ax (wordsAt v ax xp yp s) := by
  unfold wordsAt
  rw [vals_other he v hx.1, vals_other he v hx.2.1, vals_other he v hx.2.2,
    vals_other he v (show c!"R" ∉ threeAxes by decide), vals_other he v (show c!"Q" ∉ threeAxes by decide),
    vals_other he v (show c!"L" ∉ threeAxes by decide)]
  have e1 : ∀ a, (abV e v).vals.get a = (v.vals.get a).map (· + e a) := fun a => get_mv _ _ _
  rw [e1 ax.a1, e1 ax.a2, e1 ax.a3]
  rfl

/-- The words with the places kept. -/
theorem spiral_words (F : Fns K) (ax : Axes) (s : St K) (w : CW K) (e : Str → K) :
    spiral F ax s (abW e ax w) = (((spiral F ax s w).1.1, abW e ax (spiral F ax s w).1.2), (spiral F ax s w).2) ∧
      (spiral F ax s w).1.2.xp = w.xp ∧ (spiral F ax s w).1.2.yp = w.yp := by
  unfold spiral
  dsimp only [abW]
  cases (w.i <|> s.prev.get ax.p1) with
  | none => exact ⟨rfl, rfl, rfl⟩
  | some i =>
    cases (w.j <|> s.prev.get ax.p2) with
    | none => exact ⟨rfl, rfl, rfl⟩
    | some j =>
      cases w.q with
      | some q => exact ⟨rfl, rfl, rfl⟩
      | none => cases w.l <;> exact ⟨rfl, rfl, rfl⟩

theorem helixStart_flat (ax : Axes) (s : St K) {w : CW K} (h : w.x = none ∨ w.y = none ∨ w.z = none) :
    helixStart ax s w = (((s, w), .ok true), false) := by
  obtain ⟨xp, yp, zp, i, j, k, r, q, l, x, y, z⟩ := w
  unfold helixStart
  cases x <;> cases y <;> cases z <;> first | rfl | simp at h

theorem helixStep_none (F : Fns K) (ax : Axes) (incr first : Bool) {p : CPart K} (h : p.1.1.helix = .none) :
    helixStep F ax incr first p = p := by
  obtain ⟨⟨s, w⟩, o⟩ := p
  unfold helixStep
  cases o with
  | throw e => rfl
  | ub => rfl
  | ok b => exact if_pos h

/-- Not all axes are given. -/
def Open (v : Vis K) : Prop := ∃ a ∈ threeAxes, v.vals.get a = none

theorem circularFrom_eq (F : Fns K) (c : Cfg K) (v : Vis K) (cur : Cur K) (ax : Axes) (xp yp : K) (s : St K) :
    circularFrom F c v cur ax xp yp s =
      if (wordsAt v ax xp yp s).q.isSome ∨ (wordsAt v ax xp yp s).l.isSome then
        arcStep F c cur ax (helixStep F ax cur.incr false (spiral F ax s (wordsAt v ax xp yp s)))
      else arcStep F c cur ax (helixStep F ax cur.incr (helixStart ax s (wordsAt v ax xp yp s)).2 (helixStart ax s (wordsAt v ax xp yp s)).1) := rfl

theorem circularFrom_ab (F : Fns K) (c : Cfg K) (v : Vis K) (cur : Cur K) (pl : Plane) {e : Str → K} (he : ∀ a, a ∉ threeAxes → e a = 0) (xp yp : K)
    (s : St K) (h : From cur.incr e (axesOf pl) (wordsAt v (axesOf pl) xp yp s)) (hh : s.helix = .none) (ho : Open v) :
    circularFrom F c (abV e v) (abC cur) (axesOf pl) xp yp (ab s) = abP (circularFrom F c v cur (axesOf pl) xp yp s) := by
  rw [circularFrom_eq, circularFrom_eq, wordsAt_ab he v (Mvd.centred pl)]
  have hm : (wordsAt v (axesOf pl) xp yp s).x = none ∨ (wordsAt v (axesOf pl) xp yp s).y = none ∨ (wordsAt v (axesOf pl) xp yp s).z = none := by
    obtain ⟨a, ha, hn⟩ := ho
    show v.vals.get (axesOf pl).a1 = none ∨ v.vals.get (axesOf pl).a2 = none ∨ v.vals.get (axesOf pl).a3 = none
    simp only [threeAxes, List.mem_cons, List.not_mem_nil, or_false] at ha
    rcases ha with rfl | rfl | rfl <;> cases pl <;> unfold axesOf <;> simp [hn]
  generalize wordsAt v (axesOf pl) xp yp s = w at h hm ⊢
  generalize axesOf pl = ax at h ⊢
  have hm' : (abW e ax w).x = none ∨ (abW e ax w).y = none ∨ (abW e ax w).z = none := by
    unfold abW
    simpa using hm
  rw [helixStart_flat ax s hm, helixStart_flat ax (ab s) hm']
  by_cases hq : w.q.isSome = true ∨ w.l.isSome = true
  · rw [if_pos hq]
    refine (if_pos (show (abW e ax w).q.isSome = true ∨ (abW e ax w).l.isSome = true from hq)).trans ?_
    have h1 := (spiral_defined F ax s w).2.1
    have h2 := (spiral_defined F ax (ab s) (abW e ax w)).2.1
    rw [helixStep_none F ax _ _ (h1.trans hh), helixStep_none F ax _ _ (h2.trans hh), spiral_ab, (spiral_words F ax s w e).1]
    refine arcStep_ab F c cur ax (p := spiral F ax s w) ⟨?_, ?_, h.none⟩
    · rw [(spiral_words F ax s w e).2.1]; exact h.x
    · rw [(spiral_words F ax s w e).2.2]; exact h.y
  · rw [if_neg hq]
    refine (if_neg (show ¬ ((abW e ax w).q.isSome = true ∨ (abW e ax w).l.isSome = true) from hq)).trans ?_
    rw [helixStep_none F ax _ _ hh, helixStep_none F ax _ _ (show (ab s).helix = .none from hh)]
    exact arcStep_ab F c cur ax (p := ((s, w), .ok true)) h

theorem circular_ab (F : Fns K) (c : Cfg K) (v : Vis K) (cur : Cur K) {e : Str → K} (s : St K) (h : At cur.incr e s) (hh : s.helix = .none)
    (ho : Open v) : circular F c (abV e v) (abC cur) (ab s) = abP (circular F c v cur s) := by
  unfold circular
  have hn : (abV e v).vals = [] ↔ v.vals = [] := mv_nil _ _
  by_cases h0 : v.g = none ∧ v.vals = []
  · rw [if_pos h0]
    refine (if_pos (show (abV e v).g = none ∧ (abV e v).vals = [] from ⟨h0.1, hn.mpr h0.2⟩)).trans ?_
    rfl
  · rw [if_neg h0]
    refine (if_neg (show ¬ ((abV e v).g = none ∧ (abV e v).vals = []) from fun h => h0 ⟨h.1, hn.mp h.2⟩)).trans ?_
    dsimp only
    have hp : (ab s).prev = s.prev := rfl
    have hc : (abC cur).plane = cur.plane := rfl
    have hg : (abC cur).g = cur.g := rfl
    have three : (axesOf cur.plane).a1 ∈ threeAxes ∧ (axesOf cur.plane).a2 ∈ threeAxes := by
      cases cur.plane <;> decide
    rw [hp, hc, hg, cancelBy_ab]
    cases h1 : s.prev.get (axesOf cur.plane).a1 with
    | none => rfl
    | some xp =>
      cases h2 : s.prev.get (axesOf cur.plane).a2 with
      | none => rfl
      | some yp =>
        dsimp only
        have hs : (cancelBy c cur.g s).helix = .none := by
          unfold cancelBy
          split <;> exact hh
        refine circularFrom_ab F c v cur cur.plane h.other xp yp (cancelBy c cur.g s) ⟨?_, ?_, h.none⟩ hs ho
        · intro hi
          have := (h.here hi _ three.1).1
          rw [h1] at this
          exact Option.some.inj this
        · intro hi
          have := (h.here hi _ three.2).1
          rw [h2] at this
          exact Option.some.inj this

omit [LinearOrder K] in
theorem halve_sub (c : Cfg K) (p : Plane) (x y : K) : halve c p x - halve c p y = halve c p (x - y) := by
  unfold halve; split <;> ring

theorem linear_ab (F : Fns K) (c : Cfg K) (v : Vis K) (cur : Cur K) {e : Str → K} (s : St K) (h : At cur.incr e s) :
    linear F c (abV e v) (abC cur) (ab s) = abP (linear F c v cur s) := by
  have hs : (cancelBy c cur.g s).prev = s.prev := by
    unfold cancelBy
    split <;> rfl
  have hr : (cancelBy c cur.g s).range = s.range := by
    unfold cancelBy
    split <;> rfl
  have h' := h.same hs hr
  unfold linear
  rw [if_pos (Or.inl (show (abC cur).incr = false from rfl))]
  show linearAbs F c (abV e v) (abC cur) (cancelBy c cur.g (ab s)) = _
  rw [cancelBy_ab, linearAbs_ab]
  generalize cancelBy c cur.g s = S at h'
  by_cases hc : cur.incr = false ∨ atTool c v = true ∨ atBase v = true
  · rw [if_pos hc]
    congr 1
    unfold linearAbs
    have ht : ∀ a x, target c (abV e v) a x = target c v a x := by
      intro a x
      unfold target
      show (if atTool c v = true then _ else if atBase v = true then _ else _) = _
      by_cases h1 : atTool c v = true
      · rw [if_pos h1, if_pos h1]; rfl
      · rw [if_neg h1, if_neg h1]
        by_cases h2 : atBase v = true
        · rw [if_pos h2, if_pos h2]
        · rw [if_neg h2, if_neg h2]
          have hi : cur.incr = false := by
            rcases hc with h | h | h
            · exact h
            · exact absurd h h1
            · exact absurd h h2
          have : (abV e v).vals = v.vals := mv_zero (h.none hi) _
          rw [this]
    simp only [ht]
    rfl
  · rw [if_neg hc]
    push Not at hc
    obtain ⟨h1, h2, h3⟩ := hc
    have hi : cur.incr = true := by simpa using h1
    obtain ⟨x1, _⟩ := h'.here hi c!"X" (by decide)
    obtain ⟨y1, _⟩ := h'.here hi c!"Y" (by decide)
    obtain ⟨z1, _⟩ := h'.here hi c!"Z" (by decide)
    congr 1
    unfold linearAbs linearIncr
    have hk : ∀ a, S.prev.get a = some (e a) → known v S a = true := by
      intro a ha
      unfold known
      rw [ha]
      simp
    rw [hk _ x1, hk _ y1, hk _ z1, x1, y1, z1]
    have ht : ∀ a, target c (abV e v) a (e a) = .ok (e a + (v.vals.get a).getD 0) := by
      intro a
      unfold target
      show (if atTool c v = true then _ else if atBase v = true then _ else _) = _
      rw [if_neg h2, if_neg h3]
      show Out.ok (((mv e v.vals).get a).getD (e a)) = _
      rw [get_mv]
      cases v.vals.get a with
      | none => simp
      | some x => simp [add_comm]
    dsimp only
    rw [ht, ht, ht]
    dsimp only
    simp only [Bool.true_eq_false, if_false]
    have hd : ∀ x y z x' y' z' : K, dist3 F (halve c cur.plane x) y z (halve c cur.plane (x + x')) (y + y') (z + z') =
        len3 F (halve c cur.plane x') y' z' := by
      intro x y z x' y' z'
      unfold dist3 len3
      rw [halve_sub]
      congr 1
      have : halve c cur.plane (x - (x + x')) = - halve c cur.plane x' := by
        unfold halve; split <;> ring
      rw [this]
      ring
    have hp : (abC cur).plane = cur.plane := rfl
    have hg : (abC cur).g = cur.g := rfl
    rw [hp, hg, hd]

section
variable [FloorRing K]

theorem andThen_ab {p : AttrPath.Part (St K)} {k k' : St K → AttrPath.Part (St K)} (h : ∀ s, k' (ab s) = abP (k s)) :
    (abP p).andThen k' = abP (p.andThen k) := by
  obtain ⟨s, o⟩ := p
  cases o with
  | throw e => rfl
  | ub => rfl
  | ok b =>
    cases b with
    | false => rfl
    | true => exact h s

theorem drilling_ab (F : Fns K) (c : Cfg K) (v : Vis K) (cur : Cur K) {e : Str → K} (s : St K) (hi : cur.incr = false) (he : ∀ a, e a = 0) :
    drilling F c (abV e v) (abC cur) (ab s) = abP (drilling F c v cur s) := by
  have hv : abV e v = { v with incr := v.incr.map (fun _ => false) } := by
    unfold abV
    rw [mv_zero he]
  have hc : abC cur = cur := by
    obtain ⟨g, f, sp, pl, i, cs, re, pr⟩ := cur
    simp only at hi
    subst hi
    rfl
  rw [hv, hc]
  show (if v.g = none ∧ v.vals = [] then _ else _) = _
  unfold drilling
  split
  · rfl
  · have h1 : cyclePart F c { v with incr := v.incr.map (fun _ => false) } cur (ab s) = abP (cyclePart F c v cur s) := by
      unfold cyclePart
      dsimp only
      have hp : (ab s).path = s.path := rfl
      have hq : (ab s).prev = s.prev := rfl
      rw [hp, hq]
      split
      · rfl
      · cases s.prev.get (axesOf cur.plane).a3 with
        | none => rfl
        | some zp =>
          dsimp only
          split
          · rfl
          · cases v.vals.get c!"R" with
            | none => rfl
            | some r =>
              dsimp only
              generalize cycleOf F c cur zp _ r _ = o
              cases o <;> rfl
    rw [h1]
    refine andThen_ab ?_
    intro s
    unfold holePart
    dsimp only
    have hq : (ab s).prev = s.prev := rfl
    rw [hq]
    cases s.prev.get (axesOf cur.plane).a1 with
    | none => rfl
    | some xp =>
      cases s.prev.get (axesOf cur.plane).a2 with
      | none => rfl
      | some yp =>
        dsimp only
        rw [if_pos hi, if_pos hi]
        rfl

theorem motion_ab (F : Fns K) (c : Cfg K) (v : Vis K) (cur : Cur K) {e : Str → K} (s : St K) (h : At cur.incr e s) (hh : s.helix = .none)
    (ho : cur.g = 2 ∨ cur.g = 3 → Open v) (hd : cur.incr = true → ¬ (isDrill cur.g = true ∨ isDrillQ cur.g = true)) :
    motion F c (abV e v) (abC cur) (ab s) = abP (motion F c v cur s) := by
  unfold motion
  show (if cur.g = 0 ∨ cur.g = 1 then _ else if cur.g = 2 ∨ cur.g = 3 then _ else if cur.g = 80 then _
    else if isDrill cur.g = true ∨ isDrillQ cur.g = true then _ else _) = _
  split
  · exact linear_ab F c v cur s h
  · split
    · rename_i h2
      exact circular_ab F c v cur s h hh (ho h2)
    · split
      · rfl
      · split
        · rename_i h4
          have hi : cur.incr = false := by
            cases hc : cur.incr with
            | false => rfl
            | true => exact absurd h4 (hd hc)
          exact drilling_ab F c v cur s hi (h.none hi)
        · rfl

/-! ## A block -/

theorem savePositions_ab (c : Cfg K) (v : Vis K) (hv : v.vals.Sorted) {e : Str → K} (s : St K) (h : At s.incr e s) :
    savePositions c (abV e v) (ab s) = ab (savePositions c v s) := by
  unfold savePositions
  show (if atTool c v = true then _ else if atBase v = true then _ else _) = _
  split
  · rfl
  · split
    · rfl
    · exact copySt_ab v.otherG hv h

theorem account_ab (F : Fns K) (c : Cfg K) (inch : Inch) (v : Vis K) (hv : v.vals.Sorted) (cur : Cur K) {e : Str → K} (s : St K) (h : At cur.incr e s) :
    account F c inch (abV e v) (abC cur) (ab s) = abP (account F c inch v cur s) := by
  unfold account
  dsimp only
  have e1 : addTimes F c inch (abC cur) (addPath (saveModal c (abC cur) (ab s))) =
    ab (addTimes F c inch cur (addPath (saveModal c cur s))) := rfl
  rw [e1]
  generalize hs : addTimes F c inch cur (addPath (saveModal c cur s)) = s2
  have h1 : s2.incr = cur.incr := by rw [← hs]; rfl
  have h2 : s2.prev = s.prev := by rw [← hs]; rfl
  have h3 : s2.range = s.range := by rw [← hs]; rfl
  have e2 : checks c (abC cur) (ab s2) = checks c cur s2 := rfl
  rw [e2]
  cases checks c cur s2 with
  | ok u =>
    dsimp only
    rw [savePositions_ab c v hv s2 (by rw [h1]; exact h.same h2 h3)]
    rfl
  | throw e => rfl
  | ub => rfl

omit [FloorRing K] [LinearOrder K] in
theorem dwell_ab {e : Str → K} (he : ∀ a, a ∉ threeAxes → e a = 0) (v : Vis K) (s : St K) (h : Dwells v ∨ ∀ a, e a = 0) :
    dwell (abV e v) (ab s) = ab (dwell v s) := by
  unfold dwell
  show (if c!"04" ∈ v.otherG ∨ c!"4" ∈ v.otherG then _ else _) = _
  split
  · rename_i h0
    have e2 : ∀ a, (abV e v).vals.get a = v.vals.get a → ∀ s, dwellWord (abV e v) a (ab s) = ab (dwellWord v a s) := by
      intro a ha s
      unfold dwellWord
      rw [ha]
      cases v.vals.get a <;> rfl
    have hX : (abV e v).vals.get c!"X" = v.vals.get c!"X" := by
      show (mv e v.vals).get _ = _
      rcases h with h | h
      · rw [get_mv, h h0]; rfl
      · rw [mv_zero h]
    rw [e2 _ hX, e2 _ (vals_other he v (by decide)), e2 _ (vals_other he v (by decide))]
  · rfl

omit [FloorRing K] in
theorem beforeMotion_ab (v : Vis K) (hv : v.vals.Sorted) {e : Str → K} (s : St K) (h : At (v.incr.getD s.incr) e s) :
    beforeMotion (abV e v) (ab s) = ab (beforeMotion v s) := by
  have hf : (abV e v).incr.getD (ab s).incr = false := by
    show (v.incr.map (fun _ => false)).getD false = false
    cases v.incr <;> rfl
  have := copySt_ab (incr := v.incr.getD s.incr) v.otherG hv
    (s := { s with plane := v.plane.getD s.plane, incr := v.incr.getD s.incr, css := v.css.getD s.css, ret := v.ret.getD s.ret }) (h.same rfl rfl)
  unfold beforeMotion
  dsimp only
  rw [hf]
  exact this

omit [FloorRing K] in
theorem startPart_ab (c : Cfg K) (v : Vis K) (hv : v.vals.Sorted) {e : Str → K} (s : St K) (h : At (v.incr.getD s.incr) e s) :
    startPart c (abV e v) (ab s) = abP (startPart c v s) := by
  have hn : (abV e v).vals = [] ↔ v.vals = [] := mv_nil _ _
  unfold startPart
  dsimp only
  have e1 : (if (atTool c (abV e v) || atBase (abV e v)) = true then { ab s with g := 0 } else ab s) =
      ab (if (atTool c v || atBase v) = true then { s with g := 0 } else s) := by
    show (if (atTool c v || atBase v) = true then _ else _) = _
    split <;> rfl
  rw [e1]
  generalize hs : (if (atTool c v || atBase v) = true then { s with g := 0 } else s) = s2
  have hi : s2.incr = s.incr := by rw [← hs]; split <;> rfl
  have hp : s2.prev = s.prev := by rw [← hs]; split <;> rfl
  have hr : s2.range = s.range := by rw [← hs]; split <;> rfl
  have h2 : At (v.incr.getD s2.incr) e s2 := by rw [hi]; exact h.same hp hr
  by_cases h1 : s2.autoRapid = true ∧ v.vals ≠ []
  · rw [if_pos h1]
    refine (if_pos (show (ab s2).autoRapid = true ∧ _ from ⟨h1.1, ?_⟩)).trans ?_
    · exact fun h => h1.2 (hn.mp h)
    · rfl
  · rw [if_neg h1]
    refine (if_neg (show ¬ ((ab s2).autoRapid = true ∧ (abV e v).vals ≠ []) from fun h => h1 ⟨h.1, fun h2 => h.2 (hn.mpr h2)⟩)).trans ?_
    by_cases h3 : (!atTool c v && !atBase v) = true ∧ s2.g = -1 ∧ v.g = none
    · rw [if_pos h3]
      refine (if_pos (show (!atTool c (abV e v) && !atBase (abV e v)) = true ∧ (ab s2).g = -1 ∧ (abV e v).g = none from h3)).trans ?_
      rw [beforeMotion_ab v hv s2 h2]
      rfl
    · rw [if_neg h3]
      exact if_neg (show ¬ ((!atTool c (abV e v) && !atBase (abV e v)) = true ∧ (ab s2).g = -1 ∧ (abV e v).g = none) from h3)

/-- What goes before a motion keeps. -/
theorem startPart_kept (c : Cfg K) (v : Vis K) (s : St K) (h : (startPart c v s).2 = .ok true) :
    (startPart c v s).1.incr = s.incr ∧ (startPart c v s).1.range = s.range ∧ (startPart c v s).1.prev = s.prev ∧
      ((startPart c v s).1.g = s.g ∨ (startPart c v s).1.g = 0) ∧ (startPart c v s).1.helix = s.helix := by
  rw [startPart_eq] at h ⊢
  split at h
  · cases h
  · rename_i h1
    rw [if_neg h1]
    have hg := started_g c v s
    refine ⟨?_, ?_, ?_, hg, ?_⟩ <;>
    · unfold started
      dsimp only
      split
      · rfl
      · split <;> rfl

/-- What is asked of the block. -/
structure Fits (e : Str → K) (v : Vis K) (s : St K) : Prop where
  sorted : v.vals.Sorted
  place : At (v.incr.getD s.incr) e s
  helix : s.helix = .none
  dwell : Dwells v ∨ ∀ a, e a = 0
  flat : ∀ g, g = s.g ∨ g = 0 → v.g.getD g = 2 ∨ v.g.getD g = 3 → Open v
  still : v.incr.getD s.incr = true → ∀ g, g = s.g ∨ g = 0 → ¬ (isDrill (v.g.getD g) = true ∨ isDrillQ (v.g.getD g) = true)
  tool : toolOf v ≠ none → v.incr.map (fun _ => false) = v.incr

theorem moveBlock_ab (F : Fns K) (c : Cfg K) (inch : Inch) (v : Vis K) (hv : v.vals.Sorted) {e : Str → K} (s : St K) (h : At (v.incr.getD s.incr) e s)
    (hh : s.helix = .none) (ho : v.g.getD s.g = 2 ∨ v.g.getD s.g = 3 → Open v)
    (hd : v.incr.getD s.incr = true → ¬ (isDrill (v.g.getD s.g) = true ∨ isDrillQ (v.g.getD s.g) = true)) :
    moveBlock F c inch (abV e v) (ab s) = abP (moveBlock F c inch v s) := by
  unfold moveBlock
  have e1 : current (abV e v) (ab s) = abC (current v s) := by
    unfold current abV ab abC
    dsimp only
    cases v.incr <;> rfl
  rw [e1]
  have hm := motion_ab F c v (current v s) s h hh ho hd
  rw [hm]
  have hr := (motion_only F c v (current v s) s).samePos
  generalize motion F c v (current v s) s = p at hr ⊢
  obtain ⟨s2, o⟩ := p
  cases o with
  | throw e => rfl
  | ub => rfl
  | ok b =>
    cases b with
    | false => rfl
    | true => exact account_ab F c inch v hv (current v s) s2 (h.same hr.1 hr.2)

theorem afterTool_ab (F : Fns K) (c : Cfg K) (inch : Inch) (v : Vis K) {e : Str → K} (s : St K) (hf : Fits e v s) :
    afterTool F c inch (abV e v) (ab s) = abP (afterTool F c inch v s) := by
  unfold afterTool
  rw [dwell_ab hf.place.other v s hf.dwell]
  obtain ⟨x, hx⟩ := dwell_fields v s
  have e1 : (dwell v s).incr = s.incr := by rw [hx]; rfl
  have e2 : (dwell v s).range = s.range := by rw [hx]; rfl
  have e3 : (dwell v s).g = s.g := by rw [hx]; rfl
  have e4 : (dwell v s).prev = s.prev := by rw [hx]; rfl
  have e5 : (dwell v s).helix = s.helix := by rw [hx]; rfl
  have h2 : At (v.incr.getD (dwell v s).incr) e (dwell v s) := by rw [e1]; exact hf.place.same e4 e2
  rw [startPart_ab c v hf.sorted (dwell v s) h2]
  have hg := startPart_kept c v (dwell v s)
  generalize startPart c v (dwell v s) = p at hg ⊢
  obtain ⟨s2, o⟩ := p
  cases o with
  | throw e => rfl
  | ub => rfl
  | ok b =>
    cases b with
    | false => rfl
    | true =>
      obtain ⟨g1, g2, g3, g4, g5⟩ := hg rfl
      dsimp only at g1 g2 g3 g4 g5
      show moveBlock F c inch _ (ab s2) = abP (moveBlock F c inch v s2)
      rw [e1] at g1
      rw [e3] at g4
      refine moveBlock_ab F c inch v hf.sorted s2 ?_ (g5.trans (e5.trans hf.helix)) (hf.flat _ g4) ?_
      · rw [g1]; exact hf.place.same (g3.trans e4) (g2.trans e2)
      · rw [g1]; exact fun hi => hf.still hi _ g4

/-! ## The T word -/

omit [FloorRing K] [LinearOrder K] in
theorem mTimes_ab (c : Cfg K) (v : Vis K) (e : Str → K) (s : St K) : mTimes c (abV e v) (ab s) = ab (mTimes c v s) := by
  unfold mTimes exchangeTimes
  dsimp only
  have key : ∀ (b : Prop) [Decidable b] (x : K) (s : St K), (if b then addTime x (ab s) else ab s) = ab (if b then addTime x s else s) := by
    intro b _ x s
    split <;> rfl
  have e1 : (if ¬ c.toolExchanges = true ∧ (abV e v).m6 = true then
      (if c.autoMeasure = true then addTime c.measureTime (addTime c.exchangeTime (ab s)) else addTime c.exchangeTime (ab s))
      else ab s) = ab (if ¬ c.toolExchanges = true ∧ v.m6 = true then
      (if c.autoMeasure = true then addTime c.measureTime (addTime c.exchangeTime s) else addTime c.exchangeTime s) else s) := by
    show (if ¬ c.toolExchanges = true ∧ v.m6 = true then _ else _) = _
    split
    · split <;> rfl
    · rfl
  rw [e1, key, key]
  rfl

omit [FloorRing K] [LinearOrder K] in
theorem fetchTool_ab (c : Cfg K) (s : St K) : fetchTool c (ab s) = ab (fetchTool c s) := by
  unfold fetchTool exchangeTimes
  dsimp only
  split
  · split <;> rfl
  · rfl

omit [FloorRing K] in
theorem tAlone_ab (c : Cfg K) (v : Vis K) (hv : v.vals.Sorted) {e : Str → K} (s : St K) (h : At (v.incr.getD s.incr) e s)
    (hi : v.incr.map (fun _ => false) = v.incr) : tAlone c (abV e v) (ab s) = abP (tAlone c v s) := by
  unfold tAlone
  show (if atTool c v = true then _ else _) = _
  split
  · rfl
  · have e1 : tWithG (abV e v) = tWithG v := by
      unfold tWithG
      show (v.g <|> v.plane.map planeNum <|> v.ret.map retNum <|> (v.incr.map (fun _ => false)).map (fun b => if b then 91 else 90)) = _
      rw [hi]
    rw [e1]
    cases hn : tWithG v with
    | some n => rfl
    | none =>
      dsimp only
      rw [Mvd.tWithG_incr hn] at h
      have := copySt_ab (incr := s.incr) v.otherG hv (s := s) h
      show (copySt false v.otherG (mv e v.vals) (ab s), _) = _
      rw [this]
      rfl

/-- The state and the variables. -/
def abPP (p : AttrPath.Part (St K × MacroMap ℚ)) : AttrPath.Part (St K × MacroMap ℚ) := ((ab p.1.1, p.1.2), p.2)

omit [FloorRing K] [LinearOrder K] in
theorem fetch_kept (c : Cfg K) (s : St K) : (fetchTool c s).incr = s.incr ∧ (fetchTool c s).range = s.range ∧ (fetchTool c s).prev = s.prev ∧
    (fetchTool c s).g = s.g ∧ (fetchTool c s).helix = s.helix := by
  unfold fetchTool exchangeTimes
  dsimp only
  split_ifs <;> exact ⟨rfl, rfl, rfl, rfl, rfl⟩

omit [FloorRing K] in
theorem toolPart_ab (c : Cfg K) (line : Int) (v : Vis K) (hv : v.vals.Sorted) {e : Str → K} (p : St K × MacroMap ℚ)
    (h : At (v.incr.getD p.1.incr) e p.1) (hi : toolOf v ≠ none → v.incr.map (fun _ => false) = v.incr) :
    toolPart c line (abV e v) (ab p.1, p.2) = abPP (toolPart c line v p) := by
  unfold toolPart
  have e1 : toolOf (abV e v) = toolOf v := rfl
  rw [e1]
  cases hn : toolOf v with
  | none => rfl
  | some t =>
    have hi' := hi (by rw [hn]; simp)
    dsimp only
    show (if c.toolExchanges = true ∨ v.m6 = true then _ else _) = _
    split
    · cases stodE t with
      | throw e => rfl
      | ub => rfl
      | ok q =>
        dsimp only
        have e2 : fetchTool c { storeTool c (ab p.1) with tool := t } = ab (fetchTool c { storeTool c p.1 with tool := t }) :=
          fetchTool_ab c { storeTool c p.1 with tool := t }
        rw [e2]
        obtain ⟨f1, f2, f3, _⟩ := fetch_kept c { storeTool c p.1 with tool := t }
        rw [tAlone_ab c v hv _ (by rw [f1]; exact h.same f3 f2) hi']
        rfl
    · have e2 : fetchTool c (storeTool c (ab p.1)) = ab (fetchTool c (storeTool c p.1)) := fetchTool_ab c (storeTool c p.1)
      rw [e2]
      obtain ⟨f1, f2, f3, _⟩ := fetch_kept c (storeTool c p.1)
      rw [tAlone_ab c v hv _ (by rw [f1]; exact h.same f3 f2) hi']
      rfl

omit [FloorRing K] in
/-- What the part of the T word keeps. -/
theorem toolPart_kept (c : Cfg K) (line : Int) (v : Vis K) (p : St K × MacroMap ℚ) (h : (toolPart c line v p).2 = .ok true) :
    (toolPart c line v p).1.1.incr = p.1.incr ∧ (toolPart c line v p).1.1.range = p.1.range ∧ (toolPart c line v p).1.1.prev = p.1.prev ∧
      (toolPart c line v p).1.1.g = p.1.g ∧ (toolPart c line v p).1.1.helix = p.1.helix := by
  have ht : ∀ s : St K, (tAlone c v s).2 = .ok true → (tAlone c v s).1 = s := by
    intro s
    unfold tAlone
    split
    · intro _; rfl
    · split <;> intro h <;> cases h
  unfold toolPart at h ⊢
  cases hn : toolOf v with
  | none => exact ⟨rfl, rfl, rfl, rfl, rfl⟩
  | some t =>
    rw [hn] at h
    dsimp only at h ⊢
    split at h
    · rename_i h1
      rw [if_pos h1]
      cases hs : stodE t with
      | throw e => rw [hs] at h; cases h
      | ub => rw [hs] at h; cases h
      | ok q =>
        rw [hs] at h
        dsimp only at h ⊢
        rw [ht _ h]
        exact fetch_kept c _
    · rename_i h1
      rw [if_neg h1]
      dsimp only at h ⊢
      rw [ht _ h]
      exact fetch_kept c _

theorem evalVis_ab (F : Fns K) (c : Cfg K) (inch : Inch) (line : Int) (v : Vis K) {e : Str → K} (p : St K × MacroMap ℚ) (hf : Fits e v p.1) :
    evalVis F c inch line (abV e v) (ab p.1, p.2) =
      ((ab (evalVis F c inch line v p).1.1, (evalVis F c inch line v p).1.2), (evalVis F c inch line v p).2) := by
  unfold evalVis
  dsimp only
  rw [mTimes_ab]
  obtain ⟨x, hx⟩ := AttrPath.mTimes_fields c v p.1
  have hi : (mTimes c v p.1).incr = p.1.incr := by rw [hx]; rfl
  have hr : (mTimes c v p.1).range = p.1.range := by rw [hx]; rfl
  have hp : (mTimes c v p.1).prev = p.1.prev := by rw [hx]; rfl
  have hg : (mTimes c v p.1).g = p.1.g := by rw [hx]; rfl
  have hh : (mTimes c v p.1).helix = p.1.helix := by rw [hx]; rfl
  have ht := toolPart_ab c line v hf.sorted (mTimes c v p.1, p.2) (by dsimp only; rw [hi]; exact hf.place.same hp hr) hf.tool
  dsimp only at ht
  rw [ht]
  have hfl := toolPart_kept c line v (mTimes c v p.1, p.2)
  generalize toolPart c line v (mTimes c v p.1, p.2) = t at hfl ⊢
  obtain ⟨⟨s2, m⟩, o⟩ := t
  cases o with
  | throw e => rfl
  | ub => rfl
  | ok b =>
    cases b with
    | false => rfl
    | true =>
      obtain ⟨g1, g2, g3, g4, g5⟩ := hfl rfl
      dsimp only at g1 g2 g3 g4 g5
      rw [hi] at g1
      rw [hr] at g2
      rw [hp] at g3
      rw [hg] at g4
      rw [hh] at g5
      have := afterTool_ab F c inch v s2
        ⟨hf.sorted, by rw [g1]; exact hf.place.same g3 g2, g5.trans hf.helix, hf.dwell, by rw [g4]; exact hf.flat,
          by rw [g1, g4]; exact hf.still, hf.tool⟩
      show ((((afterTool F c inch _ (ab s2)).1, m), finish (afterTool F c inch _ (ab s2)).2) : _ × _) = _
      rw [this]
      rfl

/-! ## What the visitor collects -/

/-- The outcome by coordinates. -/
def abO (e : Str → K) : Out Exc (Vis K) → Out Exc (Vis K)
  | .ok v => .ok (abV e v)
  | .throw e => .throw e
  | .ub => .ub

omit [FloorRing K] [LinearOrder K] in
theorem on_ab {e : Str → K} (he : ∀ a, a ∉ threeAxes → e a = 0) (v : Vis K) (x : Act K) (h : ∀ w y, x = .val w y → w ∉ threeAxes)
    (h2 : ∀ t, x ≠ .code (.incr true) t) : Act.on (abV e v) x = abV e (Act.on v x) := by
  cases x with
  | val w y =>
    have e1 : y = y + e w := by rw [he w (h w y rfl)]; simp
    show ({ abV e v with vals := (mv e v.vals).put w y } : Vis K) = abV e { v with vals := v.vals.put w y }
    unfold abV
    dsimp only
    rw [← put_mv, ← e1]
  | code k t =>
    cases k with
    | incr b =>
      cases b with
      | false => rfl
      | true => exact absurd rfl (h2 t)
    | plane p => rfl
    | motion n => rfl
    | perRev b => rfl
    | css b => rfl
    | ret x => rfl
    | other => rfl
  | nothing => rfl
  | tool t => rfl
  | feed y => rfl
  | spindle y => rfl
  | aux a p m => rfl

omit [FloorRing K] [LinearOrder K] in
/-- A G word with a number is read. -/
theorem read_code {c : Cfg K} (hc : AxesOk c) {d : Dec} (hg : d.word = c!"G") {n : Int} (h : code d = some n) :
    ∃ t, readWord c d = .ok (.code (gKind n) t) := by
  rw [readWord_code_of hc hg]
  unfold readCode
  unfold code at h
  cases hv : d.value with
  | none => rw [hv] at h; cases h
  | some v =>
    rw [hv] at h
    dsimp only at h ⊢
    unfold stoiE
    cases hs : stoi v with
    | throw e => rw [hs] at h; cases h
    | ub => rw [hs] at h; cases h
    | ok m =>
      rw [hs] at h
      cases h
      exact ⟨_, rfl⟩

/-- The place `p` is what is added. -/
def Adds (incr : Bool) (p : Pos K) (e : Str → K) : Prop := ∀ a ∈ threeAxes, ∀ y, p a = some y → e a = if incr then y else 0

omit [FloorRing K] in
theorem visit_ab {c : Cfg K} (hc : AxesOk c) {incr : Bool} {p : Pos K} {e : Str → K} (he : ∀ a, a ∉ threeAxes → e a = 0) (hp : Adds incr p e)
    (v : Vis K) {a a' : Attr} (h : Spec.Coords.Word p incr a a') : visit c (abV e v) a' = abO e (visit c v a) := by
  cases h with
  | axis d d' x y h1 h2 h3 h4 h5 =>
    have h6 : d'.word ∈ threeAxes := by rw [h2]; exact h1
    have r1 := Sml.read_value (Sml.three_param c h1) h3
    have r2 := Sml.read_value (Sml.three_param c h6) h5
    unfold visit
    dsimp only
    rw [if_neg (Sml.three_ne_slash h1), if_neg (Sml.three_ne_slash h6), r1, r2]
    by_cases hs : v.skip = true
    · rw [if_pos hs]; exact if_pos hs
    · rw [if_neg hs]
      refine (if_neg hs).trans ?_
      show Out.ok (Act.on (abV e v) (.val d'.word _)) = .ok (abV e (Act.on v (.val d.word x)))
      rw [h2]
      congr 1
      show ({ abV e v with vals := (mv e v.vals).put d.word _ } : Vis K) = abV e { v with vals := v.vals.put d.word x }
      unfold abV
      dsimp only
      rw [← put_mv, hp d.word h1 y h4]
      cases incr <;> simp [add_comm]
  | mode d d' h1 h2 h3 h4 =>
    obtain ⟨t, r1⟩ := read_code (K := K) hc h1 h2
    obtain ⟨t', r2⟩ := read_code (K := K) hc h3 h4
    unfold visit
    dsimp only
    rw [if_neg (show ¬ d'.word = c!"/" by rw [h3]; decide), if_neg (show ¬ d.word = c!"/" by rw [h1]; decide), r1, r2]
    by_cases hs : v.skip = true
    · rw [if_pos hs]; exact if_pos hs
    · rw [if_neg hs]
      refine (if_neg hs).trans ?_
      rfl
  | same a hn hm =>
    cases a with
    | dec d =>
      unfold visit
      dsimp only
      by_cases hsl : d.word = c!"/"
      · rw [if_pos hsl, if_pos hsl]; rfl
      · rw [if_neg hsl, if_neg hsl]
        by_cases hs : v.skip = true
        · rw [if_pos hs]; exact if_pos hs
        · rw [if_neg hs]
          refine (if_neg hs).trans ?_
          cases hr : readWord c d with
          | throw e => rfl
          | ub => rfl
          | ok x =>
            dsimp only
            rw [on_ab he v x]
            · rfl
            · intro w y hx hw
              subst hx
              exact hn (Mvd.readWord_axis hr hw)
            · intro t hx
              subst hx
              by_cases hg : d.word = c!"G"
              · rw [readWord_code_of hc hg] at hr
                rcases readCode_code hr with ⟨_, h2⟩ | ⟨n, t', h1, h2⟩
                · cases h2
                · injection h2 with h3 h4
                  refine hm ⟨d, rfl, hg, ?_⟩
                  rw [h1]
                  congr 1
                  exact gKind_distances h3.symm
              · exact absurd rfl (readWord_not_code hg hr _ _)
    | str w s => rfl
    | chr w s => rfl

omit [FloorRing K] in
theorem visitAll_ab {c : Cfg K} (hc : AxesOk c) {incr : Bool} {p : Pos K} {e : Str → K} (he : ∀ a, a ∉ threeAxes → e a = 0) (hp : Adds incr p e)
    {b b' : Block} (h : List.Forall₂ (Spec.Coords.Word p incr) b b') (v : Vis K) : visitAll c (abV e v) b' = abO e (visitAll c v b) := by
  induction h generalizing v with
  | nil => rfl
  | cons hw _ ih =>
    rename_i a a' l l' hl
    unfold visitAll
    rw [visit_ab hc he hp v hw]
    cases visit c v a with
    | ok r => exact ih r
    | throw e => rfl
    | ub => rfl

/-! ## The link with what is written -/

omit [FloorRing K] in
theorem tools_word {c : Cfg K} (hc : AxesOk c) {v : Vis K} {b : Block} (h : visitAll c {} b = .ok v) (hn : v.tools ≠ []) : ∃ d ∈ words b, d.word = c!"T" := by
  have := visitAll_words (P := fun ds r => r.tools ≠ [] → ∃ d ∈ ds, d.word = c!"T") (by rfl) h [] (by simp) ?_ ?_ ?_
  · exact this hn
  · intro ds r d x _ hp hr hin
    have lift : r.tools ≠ [] → ∃ e ∈ ds ++ [d], e.word = c!"T" := by
      intro h
      obtain ⟨e, h1, h2⟩ := hp h
      exact ⟨e, List.mem_append_left _ h1, h2⟩
    cases x with
    | tool t =>
      refine ⟨d, List.mem_append_right _ (List.mem_singleton.mpr rfl), ?_⟩
      by_contra hd
      unfold readWord at hr
      split_ifs at hr
      · unfold readVal at hr
        split at hr
        · cases hr
        · cases hq : stodE (valText d) <;> rw [hq] at hr <;> cases hr
      · unfold readFeed at hr
        split at hr
        · cases hr
        · cases hq : stodE (feedText d) <;> rw [hq] at hr <;> cases hr
      · unfold readFeed at hr
        split at hr
        · cases hr
        · cases hq : stodE (feedText d) <;> rw [hq] at hr <;> cases hr
      · unfold readAux at hr
        cases hq : d.value with
        | none => rw [hq] at hr; cases hr
        | some w =>
          rw [hq] at hr
          dsimp only at hr
          split at hr
          · cases hr
          · cases hs : stoiE w <;> rw [hs] at hr <;> cases hr
      · unfold readCode at hr
        cases hq : d.value with
        | none => rw [hq] at hr; cases hr
        | some w =>
          rw [hq] at hr
          dsimp only at hr
          cases hs : stoiE w <;> rw [hs] at hr <;> cases hr
      · cases hr
    | code k t => cases k <;> exact lift hin
    | nothing => exact lift hin
    | val w y => exact lift hin
    | feed y => exact lift hin
    | spindle y => exact lift hin
    | aux a p m => exact lift hin
  · intro ds r p m hp; exact hp
  · intro ds r hp; exact hp

/-- What is added to the words of a block that begins in a state. -/
def addend (incr : Bool) (s : St K) (a : Str) : K := if incr = true ∧ a ∈ threeAxes then (s.prev.get a).getD 0 else 0

omit [FloorRing K] in
theorem at_addend {incr : Bool} {s : St K} (i : Inv s) (hp : Placed s) : At incr (addend incr s) s := by
  refine ⟨?_, ?_, ?_⟩
  · intro a ha
    exact if_neg (fun h => ha h.2)
  · intro hi a ha
    have e : addend incr s a = (s.prev.get a).getD 0 := if_pos ⟨hi, ha⟩
    have h1 := hp a ha
    have h2 := i.sync a
    unfold pos at h2
    cases hx : s.prev.get a with
    | none => exact absurd hx h1
    | some x =>
      rw [hx] at e h2
      refine ⟨by rw [e]; rfl, ?_⟩
      cases hr : s.range.get a with
      | none => rw [hr] at h2; cases h2
      | some r =>
        rw [hr] at h2
        refine ⟨r, rfl, ?_⟩
        rw [e]
        exact (Option.some.inj h2).symm
  · intro hi a
    exact if_neg (fun h => by rw [hi] at h; exact absurd h.1 (by simp))

omit [FloorRing K] in
theorem adds_addend {incr : Bool} {s : St K} (i : Inv s) : Adds incr (pos s) (addend incr s) := by
  intro a ha y hy
  unfold addend
  rw [i.sync, hy]
  cases incr with
  | true => simp [ha]
  | false => simp

theorem evaluate_ab (F : Fns K) {c : Cfg K} (hc : AxesOk c) (inch : Inch) (line : Int) {b b' : Block} (p : St K × MacroMap ℚ)
    (hb : Spec.Coords.Blocks (pos p.1) (incremental b p.1.incr) p.1.g b b') (i : Inv p.1) (hp : Placed p.1) (hh : p.1.helix = .none) :
    evaluate F c inch line b' (ab p.1, p.2) =
      ((ab (evaluate F c inch line b p).1.1, (evaluate F c inch line b p).1.2), (evaluate F c inch line b p).2) := by
  unfold evaluate
  dsimp only
  by_cases h0 : b = []
  · subst h0
    have : b' = [] := by cases hb.words; rfl
    rw [if_pos this, if_pos rfl]
    rfl
  · have : b' ≠ [] := by
      rintro rfl
      apply h0
      cases hb.words
      rfl
    rw [if_neg h0, if_neg this]
    have ha := at_addend (incr := incremental b p.1.incr) i hp
    have hv := visitAll_ab hc ha.other (adds_addend i) hb.words {}
    have e0 : abV (addend (incremental b p.1.incr) p.1) ({} : Vis K) = {} := rfl
    rw [e0] at hv
    rw [hv]
    cases h : visitAll c {} b with
    | throw e => rfl
    | ub => rfl
    | ok v =>
      have hin : v.incr.getD p.1.incr = incremental b p.1.incr := by
        unfold incremental
        rw [visitAll_incr hc h]
      have hg : v.g = (groupCodes 1 b).getLast? := visitAll_group hc h 1 (by decide)
      have hgg : ∀ g, g = p.1.g ∨ g = 0 → v.g.getD g = inGroup 1 b p.1.g ∨ v.g.getD g = 0 := by
        intro g hx
        unfold inGroup
        rw [← hg]
        cases v.g with
        | some n => left; rfl
        | none => exact hx
      refine evalVis_ab F c inch line v (clearMotions p.1, p.2) ?_
      refine ⟨visitAll_sorted (show VMap.Sorted (({} : Vis K).vals) from List.Pairwise.nil) h, ?_, hh, ?_, ?_, ?_, ?_⟩
      · show At (v.incr.getD p.1.incr) _ _
        rw [hin]
        exact ha.same rfl rfl
      · cases hi : incremental b p.1.incr with
        | false => right; rw [hi] at ha; exact ha.none rfl
        | true =>
          left
          intro ho
          rw [visitAll_vals h (Sml.three_param c (by decide))]
          exact (Mvd.programmed_none b _).mpr (hb.dwell hi (Mvd.otherG_dwell hc h ho))
      · intro g hx h23
        have : v.g.getD g = inGroup 1 b p.1.g := by
          rcases hgg g hx with h | h
          · exact h
          · rw [h] at h23; rcases h23 with h | h <;> cases h
        rw [this] at h23
        obtain ⟨a, ha, hn⟩ := hb.flat h23
        refine ⟨a, ha, ?_⟩
        rw [visitAll_vals h (Sml.three_param c ha)]
        exact (Mvd.programmed_none b _).mpr hn
      · intro hi g hx
        have hi' : incremental b p.1.incr = true := by rw [← hin]; exact hi
        rw [Mvd.drill_cycle]
        rcases hgg g hx with h | h
        · rw [h]; exact hb.still hi'
        · rw [h]; exact Mvd.cycles_zero
      · intro ht
        have hn : v.tools ≠ [] := by
          intro h1
          apply ht
          unfold toolOf
          rw [h1]
          split <;> rfl
        have h91 := hb.tool (tools_word hc h hn)
        cases hq : v.incr with
        | none => rfl
        | some q =>
          cases q with
          | false => rfl
          | true =>
            exfalso
            have e : v.incr.map incrNum = (groupCodes 3 b).getLast? := visitAll_group hc h 3 (by decide)
            rw [hq] at e
            have hm : (91 : Int) ∈ groupCodes 3 b := List.mem_of_getLast? e.symm
            unfold groupCodes at hm
            obtain ⟨d, hd, hd2⟩ := List.mem_filterMap.mp hm
            unfold groupWord at hd2
            by_cases hw : d.word = c!"G"
            · rw [if_pos hw] at hd2
              exact h91 d hd ⟨hw, (Option.eq_some_of_filter_eq_some hd2)⟩
            · rw [if_neg hw] at hd2; cases hd2

omit [FloorRing K] in
theorem visitAll_start {c : Cfg K} (r : Vis K) (b : Block) : visitAll { c with incr := false } r b = visitAll c r b := by
  induction b generalizing r with
  | nil => rfl
  | cons a t ih =>
    unfold visitAll
    have : visit { c with incr := false } r a = visit c r a := rfl
    rw [this]
    cases visit c r a with
    | ok r => exact ih r
    | throw e => rfl
    | ub => rfl

theorem evaluate_start (F : Fns K) {c : Cfg K} (inch : Inch) (line : Int) (b : Block) (p : St K × MacroMap ℚ) :
    evaluate F { c with incr := false } inch line b p = evaluate F c inch line b p := by
  unfold evaluate
  rw [visitAll_start]
  rfl

end
end
end NC.Cds
