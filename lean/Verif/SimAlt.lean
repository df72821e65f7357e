import Verif.AttrPathProofs

/-! # States that differ only in the total time and in words which are never read

Two runs of the simulation are compared: from a state, and from the same state with another total time and other
recorded values of words such as P. -/

namespace NC.AttrPath
open NC NC.Path NC.Ver

/-- The recorded words that `evaluate` reads. -/
def readBack : List Str := [c!"X", c!"Y", c!"Z", c!"I", c!"J", c!"K", c!"R"]

/-- The tables agree apart from the words in `D`. -/
def Agree {V : Type} (D : List Str) (m m' : VMap V) : Prop := ∀ w, w ∉ D → m'.get w = m.get w

theorem Agree.refl {V : Type} (D : List Str) (m : VMap V) : Agree D m m := fun _ _ => rfl

theorem Agree.put {V : Type} {D : List Str} {m m' : VMap V} (h : Agree D m m') (k : Str) (v v' : V) (hv : k ∉ D → v' = v) :
    Agree D (m.put k v) (m'.put k v') := by
  intro w hw
  rw [VMap.get_put, VMap.get_put]
  by_cases e : k = w
  · subst e; rw [if_pos rfl, if_pos rfl, hv hw]
  · rw [if_neg e, if_neg e, h w hw]

section
variable {K : Type} [Field K] [LinearOrder K]

omit [LinearOrder K] in
/-- The state with other tables and a larger total time. -/
def alt (x : K) (pr : VMap K) (rg : VMap (Rng K)) (s : St K) : St K :=
  { s with time := { s.time with total := addF s.time.total (some x) }, prev := pr, range := rg }

omit [LinearOrder K] in
theorem addF_right (t a b : Fl K) : addF (addF t a) b = addF (addF t b) a := by
  rw [addF_assoc, addF_comm a b, addF_assoc]

omit [LinearOrder K] in
theorem addTime_alt (x : K) (pr : VMap K) (rg : VMap (Rng K)) (y : K) (s : St K) :
    addTime y (alt x pr rg s) = alt x pr rg (addTime y s) := by
  unfold addTime alt bump
  simp only [addF_right _ (some x) (some y)]

omit [LinearOrder K] in
theorem exchangeTimes_alt (x : K) (pr : VMap K) (rg : VMap (Rng K)) (c : Cfg K) (s : St K) :
    exchangeTimes c (alt x pr rg s) = alt x pr rg (exchangeTimes c s) := by
  unfold exchangeTimes
  dsimp only
  rw [addTime_alt, addTime_alt]
  split <;> rfl

omit [LinearOrder K] in
theorem mTimes_alt (x : K) (pr : VMap K) (rg : VMap (Rng K)) (c : Cfg K) (v : Vis K) (s : St K) :
    mTimes c v (alt x pr rg s) = alt x pr rg (mTimes c v s) := by
  unfold mTimes
  dsimp only
  rw [exchangeTimes_alt]
  have e : ∀ (q : Prop) [Decidable q] (a b : St K), (if q then alt x pr rg a else alt x pr rg b) = alt x pr rg (if q then a else b) := by
    intro q _ a b; split <;> rfl
  rw [e, addTime_alt, e, addTime_alt, e]

omit [LinearOrder K] in
theorem fetchTool_alt (x : K) (pr : VMap K) (rg : VMap (Rng K)) (c : Cfg K) (s : St K) :
    fetchTool c (alt x pr rg s) = alt x pr rg (fetchTool c s) := by
  unfold fetchTool
  dsimp only
  have e : ({ alt x pr rg s with path := { (alt x pr rg s).path with toolId := (alt x pr rg s).tool }, time := { (alt x pr rg s).time with toolId := (alt x pr rg s).tool } } : St K) =
      alt x pr rg { s with path := { s.path with toolId := s.tool }, time := { s.time with toolId := s.tool } } := rfl
  rw [e, exchangeTimes_alt]
  split <;> rfl

omit [LinearOrder K] in
theorem dwell_alt (x : K) (pr : VMap K) (rg : VMap (Rng K)) (v : Vis K) (s : St K) :
    dwell v (alt x pr rg s) = alt x pr rg (dwell v s) := by
  have e : ∀ w (s : St K), dwellWord v w (alt x pr rg s) = alt x pr rg (dwellWord v w s) := by
    intro w s
    unfold dwellWord
    split
    · rw [addTime_alt]
    · rfl
  unfold dwell
  rw [e, e, e]
  split <;> rfl

/-! ## Positions -/

variable {D : List Str}

theorem copyOne_agree (incr : Bool) (w : Str) (y : K) {p p' : VMap K × VMap (Rng K)} (h1 : Agree D p.1 p'.1)
    (h2 : Agree D p.2 p'.2) :
    Agree D (copyOne incr w y p).1 (copyOne incr w y p').1 ∧ Agree D (copyOne incr w y p).2 (copyOne incr w y p').2 := by
  by_cases hw : w ∈ D
  · unfold copyOne
    split <;> split <;> split <;> exact ⟨h1.put _ _ _ (fun h => absurd hw h), h2.put _ _ _ (fun h => absurd hw h)⟩
  · unfold copyOne
    rw [h2 w hw]
    split <;> split <;> exact ⟨h1.put _ _ _ (fun _ => rfl), h2.put _ _ _ (fun _ => rfl)⟩

theorem copyBack_agree (g : Int) (incr : Bool) (og : List Str) (v : VMap K) {p p' : VMap K × VMap (Rng K)}
    (h1 : Agree D p.1 p'.1) (h2 : Agree D p.2 p'.2) :
    Agree D (copyBack g incr og v p).1 (copyBack g incr og v p').1 ∧
      Agree D (copyBack g incr og v p).2 (copyBack g incr og v p').2 := by
  induction v generalizing p p' with
  | nil => exact ⟨h1, h2⟩
  | cons e t ih =>
    unfold copyBack
    split
    · exact ih h1 h2
    · exact ih (copyOne_agree incr e.1 e.2 h1 h2).1 (copyOne_agree incr e.1 e.2 h1 h2).2

/-- The second run's state belongs to the first run's. -/
def AltOf (D : List Str) (x : K) (s s' : St K) : Prop :=
  ∃ pr rg, Agree D s.prev pr ∧ Agree D s.range rg ∧ s' = alt x pr rg s

theorem copySt_alt {x : K} {s s' : St K} (h : AltOf D x s s') (incr : Bool) (og : List Str) (v : VMap K) :
    AltOf D x (copySt incr og v s) (copySt incr og v s') := by
  obtain ⟨pr, rg, h1, h2, rfl⟩ := h
  obtain ⟨q1, q2⟩ := copyBack_agree (p := (s.prev, s.range)) (p' := (pr, rg)) s.g incr og v h1 h2
  exact ⟨_, _, q1, q2, rfl⟩

/-! ## Motions -/

section
variable (hD : ∀ w ∈ readBack, w ∉ D) {x : K} {pr : VMap K} {rg : VMap (Rng K)} {s : St K} (h1 : Agree D s.prev pr)

/-- A part applied to the other state. -/
def altPart (x : K) (pr : VMap K) (rg : VMap (Rng K)) (p : Part (St K)) : Part (St K) := (alt x pr rg p.1, p.2)

omit [LinearOrder K] in
theorem setMotion_alt (g : Int) (l : Fl K) (s : St K) : setMotion g l (alt x pr rg s) = alt x pr rg (setMotion g l s) := by
  unfold setMotion; split <;> rfl

omit [LinearOrder K] in
theorem cancelBy_alt (c : Cfg K) (g : Int) (s : St K) : cancelBy c g (alt x pr rg s) = alt x pr rg (cancelBy c g s) := by
  unfold cancelBy; split <;> rfl

omit [LinearOrder K] in
theorem cancelBy_prev (c : Cfg K) (g : Int) (s : St K) : (cancelBy c g s).prev = s.prev := by
  unfold cancelBy; split <;> rfl

include hD h1

theorem linearAbs_alt (F : Fns K) (c : Cfg K) (v : Vis K) (cur : Cur K) :
    linearAbs F c v cur (alt x pr rg s) = altPart x pr rg (linearAbs F c v cur s) := by
  unfold linearAbs
  rw [show (alt x pr rg s).prev = pr from rfl, h1 _ (hD c!"X" (by decide)), h1 _ (hD c!"Y" (by decide)),
    h1 _ (hD c!"Z" (by decide))]
  split <;> try rfl
  split
  · rw [setMotion_alt]; rfl
  · rfl

theorem linearIncr_alt (F : Fns K) (c : Cfg K) (v : Vis K) (cur : Cur K) :
    linearIncr F c v cur (alt x pr rg s) = altPart x pr rg (linearIncr F c v cur s) := by
  have e : ∀ w ∈ readBack, known v (alt x pr rg s) w = known v s w := by
    intro w hw
    unfold known
    rw [show (alt x pr rg s).prev = pr from rfl, h1 _ (hD w hw)]
  unfold linearIncr
  rw [e c!"X" (by decide), e c!"Y" (by decide), e c!"Z" (by decide), setMotion_alt]
  split <;> try rfl
  split <;> try rfl
  split <;> rfl

theorem linear_alt (F : Fns K) (c : Cfg K) (v : Vis K) (cur : Cur K) :
    linear F c v cur (alt x pr rg s) = altPart x pr rg (linear F c v cur s) := by
  unfold linear
  rw [cancelBy_alt, linearAbs_alt hD (by rw [cancelBy_prev]; exact h1), linearIncr_alt hD (by rw [cancelBy_prev]; exact h1)]
  split <;> rfl

end

/-- A circular part applied to the other state. -/
def altC (x : K) (pr : VMap K) (rg : VMap (Rng K)) (p : CPart K) : CPart K := ((alt x pr rg p.1.1, p.1.2), p.2)

theorem axes_readBack (p : Plane) : (axesOf p).a1 ∈ readBack ∧ (axesOf p).a2 ∈ readBack ∧ (axesOf p).a3 ∈ readBack ∧
    (axesOf p).p1 ∈ readBack ∧ (axesOf p).p2 ∈ readBack ∧ (axesOf p).p3 ∈ readBack := by
  cases p <;> decide

section
variable {x : K} {pr : VMap K} {rg : VMap (Rng K)}

theorem setTurn_alt (F : Fns K) (quarter last : Bool) (dz : Option K) (s : St K) (w : CW K) :
    setTurn F quarter last dz (alt x pr rg s) w = altC x pr rg (setTurn F quarter last dz s w) := by
  unfold setTurn
  split
  · rfl
  · split <;> rfl

theorem endHelix_alt (p : CPart K) : endHelix (altC x pr rg p) = altC x pr rg (endHelix p) := by
  unfold endHelix
  rw [show (altC x pr rg p).2 = p.2 from rfl]
  split <;> rfl

theorem helixIncr_alt (F : Fns K) (first : Bool) (s : St K) (w : CW K) :
    helixIncr F first (alt x pr rg s) w = altC x pr rg (helixIncr F first s w) := by
  unfold helixIncr
  rw [show (alt x pr rg s).helix = s.helix from rfl]
  split
  · rw [setTurn_alt, setTurn_alt, endHelix_alt]; split <;> rfl
  · rw [setTurn_alt]; split <;> rfl
  · rfl

theorem helixAbs_alt (F : Fns K) (s : St K) (w : CW K) :
    helixAbs F (alt x pr rg s) w = altC x pr rg (helixAbs F s w) := by
  unfold helixAbs
  rw [show (alt x pr rg s).helix = s.helix from rfl]
  split
  · rw [setTurn_alt, setTurn_alt, endHelix_alt]; split <;> rfl
  · rw [setTurn_alt]
    split
    · rfl
    · split
      · split
        · rfl
        · split <;> rfl
      · rfl
  · rfl

theorem helixStart_alt (ax : Axes) (s : St K) (w : CW K) :
    helixStart ax (alt x pr rg s) w = (altC x pr rg (helixStart ax s w).1, (helixStart ax s w).2) := by
  unfold helixStart
  rw [show (alt x pr rg s).helix = s.helix from rfl]
  split
  · split
    · split
      · rfl
      · split <;> rfl
    · rfl
  · rfl

theorem helixStart_prev (ax : Axes) (s : St K) (w : CW K) : (helixStart ax s w).1.1.1.prev = s.prev := by
  unfold helixStart
  split
  · split
    · split
      · rfl
      · split <;> rfl
    · rfl
  · rfl

theorem spiral_prev (F : Fns K) (ax : Axes) (s : St K) (w : CW K) : (spiral F ax s w).1.1.prev = s.prev := by
  unfold spiral
  extract_lets w'
  clear_value w'
  split
  · rfl
  · rfl
  · split <;> rfl

theorem setTurn_prev (F : Fns K) (quarter last : Bool) (dz : Option K) (s : St K) (w : CW K) :
    (setTurn F quarter last dz s w).1.1.prev = s.prev := by
  unfold setTurn
  split
  · rfl
  · split <;> rfl

theorem endHelix_prev (p : CPart K) : (endHelix p).1.1.prev = p.1.1.prev := by
  unfold endHelix; split <;> rfl

theorem helixRun_prev (F : Fns K) (ax : Axes) (incr first : Bool) (s : St K) (w : CW K) :
    (helixRun F ax incr first s w).1.1.prev = s.prev := by
  unfold helixRun
  extract_lets ip jp kp rp w'
  split
  · rfl
  · split
    · rfl
    · split
      · unfold helixIncr
        split
        · split
          · rw [setTurn_prev]
          · rw [endHelix_prev, setTurn_prev]
        · split
          · rw [setTurn_prev]
          · rfl
        · rfl
      · unfold helixAbs
        split
        · split
          · rw [setTurn_prev]
          · rw [endHelix_prev, setTurn_prev]
        · split
          · rfl
          · split
            · split
              · rfl
              · split
                · rw [setTurn_prev]
                · rfl
            · rfl
        · rfl

theorem helixStep_prev (F : Fns K) (ax : Axes) (incr first : Bool) (p : CPart K) :
    (helixStep F ax incr first p).1.1.prev = p.1.1.prev := by
  unfold helixStep
  split
  · split
    · rfl
    · rw [helixRun_prev]
  · rfl

variable (hD : ∀ w ∈ readBack, w ∉ D)
include hD

theorem spiral_alt (F : Fns K) (p : Plane) {s : St K} (h1 : Agree D s.prev pr) (w : CW K) :
    spiral F (axesOf p) (alt x pr rg s) w = altC x pr rg (spiral F (axesOf p) s w) := by
  obtain ⟨a1, a2, a3, p1, p2, p3⟩ := axes_readBack p
  unfold spiral
  rw [show (alt x pr rg s).prev = pr from rfl, h1 _ (hD _ p1), h1 _ (hD _ p2)]
  extract_lets w'
  clear_value w'
  split
  · rfl
  · rfl
  · split <;> rfl

theorem helixRun_alt (F : Fns K) (p : Plane) (incr first : Bool) {s : St K} (h1 : Agree D s.prev pr) (w : CW K) :
    helixRun F (axesOf p) incr first (alt x pr rg s) w = altC x pr rg (helixRun F (axesOf p) incr first s w) := by
  obtain ⟨a1, a2, a3, p1, p2, p3⟩ := axes_readBack p
  unfold helixRun
  rw [show (alt x pr rg s).prev = pr from rfl, h1 _ (hD _ p1), h1 _ (hD _ p2), h1 _ (hD _ p3), h1 _ (hD c!"R" (by decide))]
  extract_lets ip jp kp rp w'
  rw [helixIncr_alt, helixAbs_alt]
  split
  · rfl
  · split
    · rfl
    · split <;> rfl

theorem helixStep_alt (F : Fns K) (p : Plane) (incr first : Bool) {q : CPart K} (h1 : Agree D q.1.1.prev pr) :
    helixStep F (axesOf p) incr first (altC x pr rg q) = altC x pr rg (helixStep F (axesOf p) incr first q) := by
  unfold helixStep
  rw [show (altC x pr rg q).2 = q.2 from rfl]
  split
  · rw [show (altC x pr rg q).1.1 = alt x pr rg q.1.1 from rfl, show (altC x pr rg q).1.2 = q.1.2 from rfl,
      helixRun_alt hD F p incr first h1, show (alt x pr rg q.1.1).helix = q.1.1.helix from rfl]
    split <;> rfl
  · rfl

theorem arc_alt (F : Fns K) (c : Cfg K) (cur : Cur K) (p : Plane) {s : St K} (h1 : Agree D s.prev pr) (w : CW K) :
    arc F c cur (axesOf p) (alt x pr rg s) w = altPart x pr rg (arc F c cur (axesOf p) s w) := by
  obtain ⟨a1, a2, a3, p1, p2, p3⟩ := axes_readBack p
  unfold arc
  rw [show (alt x pr rg s).prev = pr from rfl, h1 _ (hD _ p1), h1 _ (hD _ p2)]
  extract_lets w' xp xc yc
  clear_value w'
  split <;> rfl

theorem arcStep_alt (F : Fns K) (c : Cfg K) (cur : Cur K) (p : Plane) {q : CPart K} (h1 : Agree D q.1.1.prev pr) :
    arcStep F c cur (axesOf p) (altC x pr rg q) = altPart x pr rg (arcStep F c cur (axesOf p) q) := by
  unfold arcStep
  rw [show (altC x pr rg q).2 = q.2 from rfl]
  split
  · rw [show (altC x pr rg q).1.1 = alt x pr rg q.1.1 from rfl, show (altC x pr rg q).1.2 = q.1.2 from rfl,
      arc_alt hD F c cur p h1, show (alt x pr rg q.1.1).helix = q.1.1.helix from rfl]
    split <;> rfl
  · rfl
  · rfl
  · rfl

theorem circularFrom_alt (F : Fns K) (c : Cfg K) (v : Vis K) (cur : Cur K) (p : Plane) (xp yp : K) {s : St K}
    (h1 : Agree D s.prev pr) :
    circularFrom F c v cur (axesOf p) xp yp (alt x pr rg s) = altPart x pr rg (circularFrom F c v cur (axesOf p) xp yp s) := by
  obtain ⟨a1, a2, a3, p1, p2, p3⟩ := axes_readBack p
  unfold circularFrom
  rw [show (alt x pr rg s).prev = pr from rfl, h1 _ (hD _ a3)]
  extract_lets g w h h'
  clear_value w
  have e : h = (altC x pr rg h'.1, h'.2) := helixStart_alt _ _ _
  rw [spiral_alt hD F p h1, helixStep_alt hD F p _ _ (by rw [spiral_prev]; exact h1),
    arcStep_alt hD F c cur p (by rw [helixStep_prev, spiral_prev]; exact h1), e,
    helixStep_alt hD F p _ _ (by rw [helixStart_prev]; exact h1),
    arcStep_alt hD F c cur p (by rw [helixStep_prev, helixStart_prev]; exact h1)]
  split <;> rfl

theorem circular_alt (F : Fns K) (c : Cfg K) (v : Vis K) (cur : Cur K) {s : St K} (h1 : Agree D s.prev pr) :
    circular F c v cur (alt x pr rg s) = altPart x pr rg (circular F c v cur s) := by
  obtain ⟨a1, a2, a3, p1, p2, p3⟩ := axes_readBack cur.plane
  unfold circular
  dsimp only
  rw [show (alt x pr rg s).prev = pr from rfl, h1 _ (hD _ a1), h1 _ (hD _ a2), cancelBy_alt]
  split
  · rfl
  · split
    · rfl
    · rfl
    · rw [circularFrom_alt hD F c v cur cur.plane _ _ (by rw [cancelBy_prev]; exact h1)]

variable [FloorRing K]

theorem cyclePart_alt (F : Fns K) (c : Cfg K) (v : Vis K) (cur : Cur K) {s : St K} (h1 : Agree D s.prev pr) :
    cyclePart F c v cur (alt x pr rg s) = altPart x pr rg (cyclePart F c v cur s) := by
  obtain ⟨a1, a2, a3, p1, p2, p3⟩ := axes_readBack cur.plane
  unfold cyclePart
  dsimp only
  rw [show (alt x pr rg s).prev = pr from rfl, h1 _ (hD _ a3), show (alt x pr rg s).path = s.path from rfl]
  split
  · rfl
  · split
    · rfl
    · split
      · rfl
      · split
        · rfl
        · split <;> rfl

omit hD in
theorem cyclePart_prev (F : Fns K) (c : Cfg K) (v : Vis K) (cur : Cur K) (s : St K) :
    (cyclePart F c v cur s).1.prev = s.prev := by
  unfold cyclePart
  dsimp only
  split
  · rfl
  · split
    · rfl
    · split
      · rfl
      · split
        · rfl
        · split <;> rfl

theorem holePart_alt (F : Fns K) (v : Vis K) (cur : Cur K) {s : St K} (h1 : Agree D s.prev pr) :
    holePart F v cur (alt x pr rg s) = altPart x pr rg (holePart F v cur s) := by
  obtain ⟨a1, a2, a3, p1, p2, p3⟩ := axes_readBack cur.plane
  unfold holePart
  dsimp only
  rw [show (alt x pr rg s).prev = pr from rfl, h1 _ (hD _ a1), h1 _ (hD _ a2), show (alt x pr rg s).path = s.path from rfl]
  split
  · rfl
  · rfl
  · split
    · rfl
    · split
      · rfl
      · split <;> rfl

omit [LinearOrder K] [FloorRing K] hD in
theorem andThen_alt {p : Part (St K)} {k k' : St K → Part (St K)} (hk : k' (alt x pr rg p.1) = altPart x pr rg (k p.1)) :
    (altPart x pr rg p).andThen k' = altPart x pr rg (p.andThen k) := by
  unfold Part.andThen
  rw [show (altPart x pr rg p).2 = p.2 from rfl, show (altPart x pr rg p).1 = alt x pr rg p.1 from rfl, hk]
  split <;> rfl

theorem motion_alt (F : Fns K) (c : Cfg K) (v : Vis K) (cur : Cur K) {s : St K} (h1 : Agree D s.prev pr) :
    motion F c v cur (alt x pr rg s) = altPart x pr rg (motion F c v cur s) := by
  unfold motion
  rw [linear_alt hD h1, circular_alt hD F c v cur h1]
  split
  · rfl
  · split
    · rfl
    · split
      · rfl
      · split
        · unfold drilling
          rw [cyclePart_alt hD F c v cur h1, andThen_alt (holePart_alt hD F v cur (by rw [cyclePart_prev]; exact h1))]
          split <;> rfl
        · rfl

/-! ## Whole blocks -/

/-- Related states and the same outcome. -/
def Both (D : List Str) (x : K) (p p' : Part (St K)) : Prop := AltOf D x p.1 p'.1 ∧ p'.2 = p.2

omit [FloorRing K] hD in
theorem Both.andThen {p p' : Part (St K)} (h : Both D x p p') {k k' : St K → Part (St K)}
    (hk : ∀ s s', AltOf D x s s' → Both D x (k s) (k' s')) : Both D x (p.andThen k) (p'.andThen k') := by
  unfold Part.andThen
  rw [h.2]
  split
  · exact hk _ _ h.1
  · exact h

omit [FloorRing K] hD in
theorem counted_alt (F : Fns K) (c : Cfg K) (inch : Inch) (cur : Cur K) (s : St K) :
    addTimes F c inch cur (addPath (saveModal c cur (alt x pr rg s))) =
      alt x pr rg (addTimes F c inch cur (addPath (saveModal c cur s))) := by
  unfold addTimes addPath saveModal alt
  dsimp only
  rw [addF_right _ (some x)]

omit [FloorRing K] hD in
theorem account_alt (F : Fns K) (c : Cfg K) (inch : Inch) (v : Vis K) (cur : Cur K) {s s' : St K} (h : AltOf D x s s') :
    Both D x (account F c inch v cur s) (account F c inch v cur s') := by
  obtain ⟨pr, rg, h1, h2, rfl⟩ := h
  unfold account
  dsimp only
  rw [counted_alt]
  generalize hS : addTimes F c inch cur (addPath (saveModal c cur s)) = S
  have e1 : S.prev = s.prev := by rw [← hS]; rfl
  have e2 : S.range = s.range := by rw [← hS]; rfl
  have hA : AltOf D x S (alt x pr rg S) := ⟨pr, rg, by rw [e1]; exact h1, by rw [e2]; exact h2, rfl⟩
  rw [show checks c cur (alt x pr rg S) = checks c cur S from rfl]
  split
  · refine ⟨?_, rfl⟩
    unfold savePositions
    split
    · exact copySt_alt hA _ _ _
    · split
      · exact copySt_alt hA _ _ _
      · exact copySt_alt hA _ _ _
  · exact ⟨hA, rfl⟩
  · exact ⟨hA, rfl⟩

theorem moveBlock_alt (F : Fns K) (c : Cfg K) (inch : Inch) (v : Vis K) {s s' : St K} (h : AltOf D x s s') :
    Both D x (moveBlock F c inch v s) (moveBlock F c inch v s') := by
  obtain ⟨pr, rg, h1, h2, rfl⟩ := h
  unfold moveBlock
  rw [show current v (alt x pr rg s) = current v s from rfl, motion_alt hD F c v _ h1]
  refine Both.andThen ?_ (fun _ _ h => account_alt F c inch v _ h)
  obtain ⟨e1, e2⟩ := (motion_only F c v (current v s) s).samePos
  exact ⟨⟨pr, rg, by rw [e1]; exact h1, by rw [e2]; exact h2, rfl⟩, rfl⟩

omit hD in
theorem startPart_alt (c : Cfg K) (v : Vis K) {s s' : St K} (h : AltOf D x s s') :
    Both D x (startPart c v s) (startPart c v s') := by
  obtain ⟨pr, rg, h1, h2, rfl⟩ := h
  rw [startPart_eq, startPart_eq, show (alt x pr rg s).autoRapid = s.autoRapid from rfl, show (alt x pr rg s).g = s.g from rfl]
  split
  · refine ⟨?_, rfl⟩
    unfold beforeMotion
    exact copySt_alt (s := { s with plane := v.plane.getD s.plane, incr := v.incr.getD s.incr, css := v.css.getD s.css, ret := v.ret.getD s.ret }) ⟨pr, rg, h1, h2, rfl⟩ _ _ _
  · refine ⟨⟨pr, rg, ?_, ?_, ?_⟩, rfl⟩
    · rw [(started_pos c v s).1]; exact h1
    · rw [(started_pos c v s).2]; exact h2
    · unfold started
      rw [show (alt x pr rg s).autoRapid = s.autoRapid from rfl]
      split
      · rfl
      · split <;> rfl

theorem afterTool_alt (F : Fns K) (c : Cfg K) (inch : Inch) (v : Vis K) {s s' : St K} (h : AltOf D x s s') :
    Both D x (afterTool F c inch v s) (afterTool F c inch v s') := by
  obtain ⟨pr, rg, h1, h2, rfl⟩ := h
  unfold afterTool
  refine Both.andThen (startPart_alt c v ⟨pr, rg, ?_, ?_, dwell_alt ..⟩) (fun _ _ h => moveBlock_alt hD F c inch v h)
  · rw [(dwell_pos v s).1]; exact h1
  · rw [(dwell_pos v s).2]; exact h2

omit [FloorRing K] hD in
theorem tAlone_alt (c : Cfg K) (v : Vis K) {s s' : St K} (h : AltOf D x s s') :
    Both D x (tAlone c v s) (tAlone c v s') := by
  have hi : s'.incr = s.incr := by obtain ⟨pr, rg, h1, h2, rfl⟩ := h; rfl
  unfold tAlone
  rw [hi]
  split
  · exact ⟨h, rfl⟩
  · split
    · exact ⟨h, rfl⟩
    · exact ⟨copySt_alt h _ _ _, rfl⟩

omit [FloorRing K] hD in
theorem fetch_alt (c : Cfg K) {s s' : St K} (h : AltOf D x s s') : AltOf D x (fetchTool c s) (fetchTool c s') := by
  obtain ⟨pr, rg, h1, h2, rfl⟩ := h
  exact ⟨pr, rg, by rw [(fetchTool_pos c s).1]; exact h1, by rw [(fetchTool_pos c s).2]; exact h2, fetchTool_alt ..⟩

omit [FloorRing K] hD in
theorem store_alt (c : Cfg K) {s s' : St K} (h : AltOf D x s s') : AltOf D x (storeTool c s) (storeTool c s') := by
  obtain ⟨pr, rg, h1, h2, rfl⟩ := h
  exact ⟨pr, rg, by rw [(storeTool_pos c s).1]; exact h1, by rw [(storeTool_pos c s).2]; exact h2, rfl⟩

omit [FloorRing K] hD in
theorem tool_alt (t : Str) {s s' : St K} (h : AltOf D x s s') : AltOf D x { s with tool := t } { s' with tool := t } := by
  obtain ⟨pr, rg, h1, h2, rfl⟩ := h
  exact ⟨pr, rg, h1, h2, rfl⟩

omit [FloorRing K] hD in
theorem toolPart_alt (c : Cfg K) (line : Int) (v : Vis K) (m : MacroMap ℚ) {s s' : St K} (h : AltOf D x s s') :
    AltOf D x (toolPart c line v (s, m)).1.1 (toolPart c line v (s', m)).1.1 ∧
      (toolPart c line v (s', m)).1.2 = (toolPart c line v (s, m)).1.2 ∧
      (toolPart c line v (s', m)).2 = (toolPart c line v (s, m)).2 := by
  unfold toolPart
  split
  · exact ⟨h, rfl, rfl⟩
  · split
    · split
      · obtain ⟨q1, q2⟩ := tAlone_alt c v (fetch_alt c (tool_alt _ (store_alt c h)))
        exact ⟨q1, rfl, q2⟩
      · exact ⟨tool_alt _ (store_alt c h), rfl, rfl⟩
      · exact ⟨tool_alt _ (store_alt c h), rfl, rfl⟩
    · obtain ⟨q1, q2⟩ := tAlone_alt c v (fetch_alt c (store_alt c h))
      exact ⟨q1, rfl, q2⟩

/-- The second run does the same as the first. -/
theorem evaluate_alt (F : Fns K) (c : Cfg K) (inch : Inch) (line : Int) (b : Block) (m : MacroMap ℚ) {s s' : St K}
    (h : AltOf D x s s') :
    AltOf D x (evaluate F c inch line b (s, m)).1.1 (evaluate F c inch line b (s', m)).1.1 ∧
      (evaluate F c inch line b (s', m)).1.2 = (evaluate F c inch line b (s, m)).1.2 ∧
      (evaluate F c inch line b (s', m)).2 = (evaluate F c inch line b (s, m)).2 := by
  have hc : AltOf D x (clearMotions s) (clearMotions s') := by
    obtain ⟨pr, rg, h1, h2, rfl⟩ := h
    exact ⟨pr, rg, h1, h2, rfl⟩
  unfold evaluate
  dsimp only
  split
  · exact ⟨hc, rfl, rfl⟩
  · split
    · rename_i v hv
      have hm : AltOf D x (mTimes c v (clearMotions s)) (mTimes c v (clearMotions s')) := by
        obtain ⟨pr, rg, h1, h2, e⟩ := hc
        obtain ⟨y, hy⟩ := mTimes_fields c v (clearMotions s)
        refine ⟨pr, rg, ?_, ?_, by rw [e, mTimes_alt]⟩
        · rw [hy]; exact h1
        · rw [hy]; exact h2
      obtain ⟨q1, q2, q3⟩ := toolPart_alt c line v m hm
      unfold evalVis
      dsimp only
      rw [q3]
      split
      · obtain ⟨r1, r2⟩ := afterTool_alt hD F c inch v q1
        exact ⟨r1, q2, by rw [r2]⟩
      · exact ⟨q1, q2, rfl⟩
    · exact ⟨hc, rfl, rfl⟩
    · exact ⟨hc, rfl, rfl⟩

end
end
end NC.AttrPath
