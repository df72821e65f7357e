import Verif.SimRates

/-!
# What was counted before, in the calculator

Two runs are compared which differ in totals and bounds only.
-/

namespace NC.Bks
open NC NC.Path NC.Ver NC.AttrPath NC.Spec.Sim NC.Props

/-- What was counted before: amounts to be added to the totals; the totals of the tools, the tools they belong to, and the ranges. -/
structure Ledger (K : Type) where
  p : Fl K
  t : Fl K
  toolP : Fl K
  idP : Str
  toolT : Fl K
  idT : Str
  tPath : VMap (Fl K)
  tTime : VMap (Fl K)
  range : VMap (Rng K)

section
variable {K : Type} [Field K] [LinearOrder K]

/-- The state with another past. -/
def lg (u : Ledger K) (s : St K) : St K :=
  { s with path := ⟨addF u.p s.path.total, s.path.work, s.path.fast, u.toolP, u.idP, s.path.cycle, s.path.holes⟩,
           time := ⟨addF u.t s.time.total, s.time.work, s.time.fast, u.toolT, u.idT⟩,
           tPath := u.tPath, tTime := u.tTime, range := u.range }

/-- A part with another past. -/
def lgP (u : Ledger K) (p : AttrPath.Part (St K)) : AttrPath.Part (St K) := (lg u p.1, p.2)

/-- A circular part with another past. -/
def lgQ (u : Ledger K) (p : CPart K) : CPart K := ((lg u p.1.1, p.1.2), p.2)

end

section
variable {K : Type} [Field K] [LinearOrder K]
variable (u : Ledger K)

theorem cancelBy_lg (c : Cfg K) (g : Int) (s : St K) : cancelBy c g (lg u s) = lg u (cancelBy c g s) := by
  unfold cancelBy; split <;> rfl

theorem setMotion_lg (g : Int) (x : Fl K) (s : St K) : setMotion g x (lg u s) = lg u (setMotion g x s) := by
  unfold setMotion; split <;> rfl

theorem linearAbs_lg (F : Fns K) (c : Cfg K) (v : Vis K) (cur : Cur K) (s : St K) :
    linearAbs F c v cur (lg u s) = lgP u (linearAbs F c v cur s) := by
  unfold linearAbs
  show (match s.prev.get c!"X", s.prev.get c!"Y", s.prev.get c!"Z" with
    | none, _, _ => _
    | some _, none, _ => _
    | some _, some _, none => _
    | some xp, some yp, some zp => _) = _
  cases s.prev.get c!"X" with
  | none => rfl
  | some xp =>
    cases s.prev.get c!"Y" with
    | none => rfl
    | some yp =>
      cases s.prev.get c!"Z" with
      | none => rfl
      | some zp =>
        dsimp only
        cases target c v c!"X" xp with
        | throw e => rfl
        | ub => rfl
        | ok x =>
          cases target c v c!"Y" yp with
          | throw e => rfl
          | ub => rfl
          | ok y =>
            cases target c v c!"Z" zp with
            | throw e => rfl
            | ub => rfl
            | ok z =>
              dsimp only
              rw [setMotion_lg]
              rfl

theorem linearIncr_lg (F : Fns K) (c : Cfg K) (v : Vis K) (cur : Cur K) (s : St K) :
    linearIncr F c v cur (lg u s) = lgP u (linearIncr F c v cur s) := by
  unfold linearIncr
  have hk : ∀ a, known v (lg u s) a = known v s a := fun _ => rfl
  rw [hk, hk, hk, setMotion_lg]
  split
  · rfl
  · split
    · rfl
    · split <;> rfl

theorem linear_lg (F : Fns K) (c : Cfg K) (v : Vis K) (cur : Cur K) (s : St K) :
    AttrPath.linear F c v cur (lg u s) = lgP u (AttrPath.linear F c v cur s) := by
  unfold AttrPath.linear
  rw [cancelBy_lg, linearAbs_lg, linearIncr_lg]
  split <;> rfl

theorem spiral_lg (F : Fns K) (ax : Axes) (s : St K) (w : CW K) : spiral F ax (lg u s) w = lgQ u (spiral F ax s w) := by
  unfold spiral
  dsimp only
  rw [show (lg u s).prev = s.prev from rfl]
  cases (w.i <|> s.prev.get ax.p1) with
  | none => rfl
  | some i =>
    cases (w.j <|> s.prev.get ax.p2) with
    | none => rfl
    | some j =>
      cases w.q with
      | some q => rfl
      | none => cases w.l <;> rfl

theorem setTurn_lg (F : Fns K) (quarter last : Bool) (dz : Option K) (s : St K) (w : CW K) :
    setTurn F quarter last dz (lg u s) w = lgQ u (setTurn F quarter last dz s w) := by
  unfold setTurn
  cases dz with
  | none => rfl
  | some dz =>
    dsimp only
    cases turn F quarter dz w <;> rfl

theorem endHelix_lg (p : CPart K) : endHelix (lgQ u p) = lgQ u (endHelix p) := by
  obtain ⟨⟨s, w⟩, o⟩ := p
  cases o <;> rfl

theorem helixIncr_lg (F : Fns K) (first : Bool) (s : St K) (w : CW K) : helixIncr F first (lg u s) w = lgQ u (helixIncr F first s w) := by
  unfold helixIncr
  rw [show (lg u s).helix = s.helix from rfl, setTurn_lg, setTurn_lg, setTurn_lg, endHelix_lg]
  cases s.helix with
  | none => rfl
  | full => dsimp only; split <;> rfl
  | quarter => dsimp only; split <;> rfl

theorem helixAbs_lg (F : Fns K) (s : St K) (w : CW K) : helixAbs F (lg u s) w = lgQ u (helixAbs F s w) := by
  unfold helixAbs
  rw [show (lg u s).helix = s.helix from rfl, setTurn_lg, setTurn_lg, setTurn_lg, endHelix_lg]
  cases s.helix with
  | none => rfl
  | full => dsimp only; split <;> rfl
  | quarter =>
    dsimp only
    split
    · rfl
    · split
      · cases w.zp with
        | none => rfl
        | some zp => dsimp only; split <;> rfl
      · rfl

theorem helixRun_lg (F : Fns K) (ax : Axes) (incr first : Bool) (s : St K) (w : CW K) :
    helixRun F ax incr first (lg u s) w = lgQ u (helixRun F ax incr first s w) := by
  unfold helixRun
  dsimp only
  rw [show (lg u s).prev = s.prev from rfl, helixIncr_lg, helixAbs_lg]
  split
  · rfl
  · split
    · rfl
    · split <;> rfl

theorem helixStart_lg (ax : Axes) (s : St K) (w : CW K) :
    helixStart ax (lg u s) w = (lgQ u (helixStart ax s w).1, (helixStart ax s w).2) := by
  unfold helixStart
  rw [show (lg u s).helix = s.helix from rfl]
  cases w.x with
  | none => rfl
  | some x =>
    cases w.y with
    | none => rfl
    | some y =>
      cases w.z with
      | none => rfl
      | some z =>
        dsimp only
        split
        · split
          · rfl
          · split <;> rfl
        · rfl

theorem helixStep_lg (F : Fns K) (ax : Axes) (incr first : Bool) (p : CPart K) :
    helixStep F ax incr first (lgQ u p) = lgQ u (helixStep F ax incr first p) := by
  obtain ⟨⟨s, w⟩, o⟩ := p
  cases o with
  | throw e => rfl
  | ub => rfl
  | ok b =>
    show (if s.helix = .none then _ else helixRun F ax incr first (lg u s) w) = lgQ u (if s.helix = .none then _ else helixRun F ax incr first s w)
    rw [helixRun_lg]
    split <;> rfl

theorem arc_lg (F : Fns K) (c : Cfg K) (cur : Cur K) (ax : Axes) (s : St K) (w : CW K) :
    arc F c cur ax (lg u s) w = lgP u (arc F c cur ax s w) := by
  unfold arc
  rw [show (lg u s).prev = s.prev from rfl]
  dsimp only
  generalize (if w.r = none ∧ (w.i = none ∨ w.j = none) then
      { w with i := w.i <|> s.prev.get ax.p1, j := w.j <|> s.prev.get ax.p2 } else w) = w2
  cases w2.i <;> cases w2.j <;> cases w2.r <;> rfl

theorem arcStep_lg (F : Fns K) (c : Cfg K) (cur : Cur K) (ax : Axes) (p : CPart K) :
    arcStep F c cur ax (lgQ u p) = lgP u (arcStep F c cur ax p) := by
  obtain ⟨⟨s, w⟩, o⟩ := p
  cases o with
  | throw e => rfl
  | ub => rfl
  | ok b =>
    cases b with
    | false => rfl
    | true =>
      show (if s.helix = .none then arc F c cur ax (lg u s) w else _) = lgP u (if s.helix = .none then arc F c cur ax s w else _)
      rw [arc_lg]
      split <;> rfl

theorem circularFrom_lg (F : Fns K) (c : Cfg K) (v : Vis K) (cur : Cur K) (ax : Axes) (xp yp : K) (s : St K) :
    circularFrom F c v cur ax xp yp (lg u s) = lgP u (circularFrom F c v cur ax xp yp s) := by
  unfold circularFrom
  dsimp only
  rw [show (lg u s).prev = s.prev from rfl, spiral_lg, helixStart_lg]
  dsimp only
  rw [helixStep_lg, helixStep_lg, arcStep_lg, arcStep_lg]
  split <;> rfl

theorem circular_lg (F : Fns K) (c : Cfg K) (v : Vis K) (cur : Cur K) (s : St K) :
    circular F c v cur (lg u s) = lgP u (circular F c v cur s) := by
  unfold circular
  rw [show (lg u s).prev = s.prev from rfl, cancelBy_lg]
  split
  · rfl
  · dsimp only
    cases s.prev.get (axesOf cur.plane).a1 with
    | none => rfl
    | some xp =>
      cases s.prev.get (axesOf cur.plane).a2 with
      | none => rfl
      | some yp =>
        dsimp only
        rw [circularFrom_lg]

section
variable [FloorRing K]

theorem andThen_lg {p : AttrPath.Part (St K)} {k k' : St K → AttrPath.Part (St K)} (h : ∀ s, k' (lg u s) = lgP u (k s)) :
    (lgP u p).andThen k' = lgP u (p.andThen k) := by
  obtain ⟨s, o⟩ := p
  cases o with
  | throw e => rfl
  | ub => rfl
  | ok b =>
    cases b with
    | false => rfl
    | true => exact h s

theorem cyclePart_lg (F : Fns K) (c : Cfg K) (v : Vis K) (cur : Cur K) (s : St K) :
    cyclePart F c v cur (lg u s) = lgP u (cyclePart F c v cur s) := by
  unfold cyclePart
  dsimp only
  rw [show (lg u s).path.holes = s.path.holes from rfl, show (lg u s).prev = s.prev from rfl]
  split
  · rfl
  · cases s.prev.get (axesOf cur.plane).a3 with
    | none => rfl
    | some zp =>
      dsimp only
      split
      · rfl
      · cases v.vals.get c!"R" with
        | none => rfl
        | some r =>
          dsimp only
          generalize cycleOf F c cur zp _ r _ = o
          cases o <;> rfl

theorem holePart_lg (F : Fns K) (v : Vis K) (cur : Cur K) (s : St K) : holePart F v cur (lg u s) = lgP u (holePart F v cur s) := by
  unfold holePart
  dsimp only
  rw [show (lg u s).path.cycle = s.path.cycle from rfl, show (lg u s).prev = s.prev from rfl]
  cases s.prev.get (axesOf cur.plane).a1 with
  | none => rfl
  | some xp =>
    cases s.prev.get (axesOf cur.plane).a2 with
    | none => rfl
    | some yp =>
      dsimp only
      split
      · rfl
      · split
        · rfl
        · cases holesOf (v.vals.get c!"K") <;> rfl

theorem drilling_lg (F : Fns K) (c : Cfg K) (v : Vis K) (cur : Cur K) (s : St K) :
    drilling F c v cur (lg u s) = lgP u (drilling F c v cur s) := by
  unfold drilling
  split
  · rfl
  · rw [cyclePart_lg]
    exact andThen_lg u (holePart_lg u F v cur)


/-- The motion has nothing to do with the past. -/
theorem motion_lg (F : Fns K) (c : Cfg K) (v : Vis K) (cur : Cur K) (s : St K) : motion F c v cur (lg u s) = lgP u (motion F c v cur s) := by
  unfold motion
  rw [linear_lg, circular_lg, drilling_lg]
  split
  · rfl
  · split
    · rfl
    · split
      · rfl
      · split <;> rfl

end
end

/-! ## A block -/

section
variable {K : Type} [Field K] [LinearOrder K]

/-- Ranges with the same positions. -/
def SameCur (r r' : VMap (Rng K)) : Prop := ∀ a, (r'.get a).map Rng.cur = (r.get a).map Rng.cur

variable (P T : Fl K)

/-- The states differ in their past only; the totals by `P` and `T`. -/
def Bk (s s' : St K) : Prop := ∃ u : Ledger K, s' = lg u s ∧ u.p = P ∧ u.t = T ∧ SameCur s.range u.range

def BkP (p p' : AttrPath.Part (St K)) : Prop := Bk P T p.1 p'.1 ∧ p'.2 = p.2

omit [LinearOrder K] in
theorem addF_assoc (a b c : Fl K) : addF (addF a b) c = addF a (addF b c) := by
  cases a <;> cases b <;> cases c <;> simp [addF, add_assoc]

variable {P T}

theorem addTime_bk {s s' : St K} (h : Bk P T s s') (x : K) : Bk P T (addTime x s) (addTime x s') := by
  obtain ⟨u, rfl, h1, h2, h3⟩ := h
  refine ⟨u, ?_, h1, h2, h3⟩
  unfold addTime lg bump
  dsimp only
  rw [addF_assoc]

theorem exchangeTimes_bk (c : Cfg K) {s s' : St K} (h : Bk P T s s') : Bk P T (exchangeTimes c s) (exchangeTimes c s') := by
  unfold exchangeTimes
  dsimp only
  split
  · exact addTime_bk (addTime_bk h _) _
  · exact addTime_bk h _

theorem mTimes_bk (c : Cfg K) (v : Vis K) {s s' : St K} (h : Bk P T s s') : Bk P T (mTimes c v s) (mTimes c v s') := by
  unfold mTimes
  dsimp only
  have h1 : Bk P T (if ¬ c.toolExchanges = true ∧ v.m6 = true then exchangeTimes c s else s) (if ¬ c.toolExchanges = true ∧ v.m6 = true then exchangeTimes c s' else s') := by
    split
    · exact exchangeTimes_bk c h
    · exact h
  revert h1
  generalize (if ¬ c.toolExchanges = true ∧ v.m6 = true then exchangeTimes c s else s) = S
  generalize (if ¬ c.toolExchanges = true ∧ v.m6 = true then exchangeTimes c s' else s') = S'
  intro h1
  split_ifs
  · exact addTime_bk (addTime_bk h1 _) _
  · exact addTime_bk h1 _
  · exact addTime_bk h1 _
  · exact h1

theorem dwellWord_bk (v : Vis K) (w : Str) {s s' : St K} (h : Bk P T s s') : Bk P T (dwellWord v w s) (dwellWord v w s') := by
  unfold dwellWord
  cases v.vals.get w with
  | none => exact h
  | some x => exact addTime_bk h x

theorem dwell_bk (v : Vis K) {s s' : St K} (h : Bk P T s s') : Bk P T (dwell v s) (dwell v s') := by
  unfold dwell
  split
  · exact dwellWord_bk v _ (dwellWord_bk v _ (dwellWord_bk v _ h))
  · exact h

theorem storeTool_bk (c : Cfg K) {s s' : St K} (h : Bk P T s s') : Bk P T (storeTool c s) (storeTool c s') := by
  obtain ⟨u, rfl, h1, h2, h3⟩ := h
  exact ⟨{ u with tPath := (storeTool c (lg u s)).tPath, tTime := (storeTool c (lg u s)).tTime }, rfl, h1, h2, h3⟩

theorem tool_bk {s s' : St K} (h : Bk P T s s') (t : Str) : Bk P T { s with tool := t } { s' with tool := t } := by
  obtain ⟨u, rfl, h1, h2, h3⟩ := h
  exact ⟨u, rfl, h1, h2, h3⟩

theorem fetchTool_bk (c : Cfg K) {s s' : St K} (h : Bk P T s s') : Bk P T (fetchTool c s) (fetchTool c s') := by
  unfold fetchTool
  dsimp only
  have h1 : Bk P T { s with path := { s.path with toolId := s.tool }, time := { s.time with toolId := s.tool } }
      { s' with path := { s'.path with toolId := s'.tool }, time := { s'.time with toolId := s'.tool } } := by
    obtain ⟨u, rfl, h1, h2, h3⟩ := h
    exact ⟨{ u with idP := s.tool, idT := s.tool }, rfl, h1, h2, h3⟩
  have h2 : Bk P T (if c.toolExchanges = true then exchangeTimes c { s with path := { s.path with toolId := s.tool }, time := { s.time with toolId := s.tool } } else { s with path := { s.path with toolId := s.tool }, time := { s.time with toolId := s.tool } })
      (if c.toolExchanges = true then exchangeTimes c { s' with path := { s'.path with toolId := s'.tool }, time := { s'.time with toolId := s'.tool } } else { s' with path := { s'.path with toolId := s'.tool }, time := { s'.time with toolId := s'.tool } }) := by
    split
    · exact exchangeTimes_bk c h1
    · exact h1
  revert h2
  generalize (if c.toolExchanges = true then exchangeTimes c { s with path := { s.path with toolId := s.tool }, time := { s.time with toolId := s.tool } } else _ : St K) = S
  generalize (if c.toolExchanges = true then exchangeTimes c { s' with path := { s'.path with toolId := s'.tool }, time := { s'.time with toolId := s'.tool } } else _ : St K) = S'
  rintro ⟨u, rfl, h1, h2, h3⟩
  exact ⟨{ u with toolP := ((lg u S).tPath.get (lg u S).tool).getD (some 0), toolT := ((lg u S).tTime.get (lg u S).tool).getD (some 0) }, rfl, h1, h2, h3⟩

theorem put_cur {r r' : VMap (Rng K)} (h : SameCur r r') (k : Str) {x y : Rng K} (hx : y.cur = x.cur) : SameCur (r.put k x) (r'.put k y) := by
  intro a
  rw [VMap.get_put, VMap.get_put]
  split
  · simp [hx]
  · exact h a

theorem widen_cur (r : Rng K) (x : K) : (widen r x).cur = x := by
  unfold widen
  split_ifs <;> rfl

theorem copyOne_bk (incr : Bool) (w : Str) (x : K) (prev : VMap K) {r r' : VMap (Rng K)} (h : SameCur r r') :
    (copyOne incr w x (prev, r')).1 = (copyOne incr w x (prev, r)).1 ∧ SameCur (copyOne incr w x (prev, r)).2 (copyOne incr w x (prev, r')).2 := by
  have hw := h w
  unfold copyOne
  dsimp only
  cases h1 : r.get w with
  | none =>
    rw [h1] at hw
    cases h2 : r'.get w with
    | some y => rw [h2] at hw; cases hw
    | none =>
      dsimp only
      split <;> exact ⟨rfl, put_cur h w rfl⟩
  | some y =>
    rw [h1] at hw
    cases h2 : r'.get w with
    | none => rw [h2] at hw; cases hw
    | some y' =>
      rw [h2] at hw
      have hc : y'.cur = y.cur := Option.some.inj hw
      dsimp only
      rw [hc]
      split
      · exact ⟨rfl, put_cur h w (by rw [widen_cur, widen_cur])⟩
      · exact ⟨rfl, put_cur h w (by rw [widen_cur, widen_cur])⟩

theorem copyBack_bk (g : Int) (incr : Bool) (og : List Str) (v : VMap K) (prev : VMap K) {r r' : VMap (Rng K)} (h : SameCur r r') :
    (copyBack g incr og v (prev, r')).1 = (copyBack g incr og v (prev, r)).1 ∧
      SameCur (copyBack g incr og v (prev, r)).2 (copyBack g incr og v (prev, r')).2 := by
  induction v generalizing prev r r' with
  | nil => exact ⟨rfl, h⟩
  | cons e v ih =>
    unfold copyBack
    split
    · exact ih prev h
    · obtain ⟨h1, h2⟩ := copyOne_bk incr e.1 e.2 prev h
      have e1 : copyOne incr e.1 e.2 (prev, r') = ((copyOne incr e.1 e.2 (prev, r)).1, (copyOne incr e.1 e.2 (prev, r')).2) := by
        rw [← h1]
      rw [e1]
      exact ih (copyOne incr e.1 e.2 (prev, r)).1 h2

theorem copySt_bk (incr : Bool) (og : List Str) (v : VMap K) {s s' : St K} (h : Bk P T s s') : Bk P T (copySt incr og v s) (copySt incr og v s') := by
  obtain ⟨u, rfl, h1, h2, h3⟩ := h
  obtain ⟨e1, e2⟩ := copyBack_bk s.g incr og v s.prev h3
  refine ⟨{ u with range := (copyBack s.g incr og v (s.prev, u.range)).2 }, ?_, h1, h2, e2⟩
  unfold copySt lg
  dsimp only
  rw [e1]

theorem tAlone_bk (c : Cfg K) (v : Vis K) {s s' : St K} (h : Bk P T s s') : BkP P T (tAlone c v s) (tAlone c v s') := by
  unfold tAlone
  split
  · exact ⟨h, rfl⟩
  · cases tWithG v with
    | some n => exact ⟨h, rfl⟩
    | none =>
      have hi : s'.incr = s.incr := by obtain ⟨u, rfl, _⟩ := h; rfl
      rw [hi]
      exact ⟨copySt_bk _ _ _ h, rfl⟩

theorem toolPart_bk (c : Cfg K) (line : Int) (v : Vis K) {s s' : St K} (h : Bk P T s s') (m m' : MacroMap ℚ) :
    Bk P T (toolPart c line v (s, m)).1.1 (toolPart c line v (s', m')).1.1 ∧ (toolPart c line v (s', m')).2 = (toolPart c line v (s, m)).2 := by
  unfold toolPart
  cases toolOf v with
  | none => exact ⟨h, rfl⟩
  | some t =>
    dsimp only
    split
    · cases stodE t with
      | ok q => exact tAlone_bk c v (fetchTool_bk c (tool_bk (storeTool_bk c h) t))
      | throw e => exact ⟨tool_bk (storeTool_bk c h) t, rfl⟩
      | ub => exact ⟨tool_bk (storeTool_bk c h) t, rfl⟩
    · exact tAlone_bk c v (fetchTool_bk c (storeTool_bk c h))

theorem startPart_bk (c : Cfg K) (v : Vis K) {s s' : St K} (h : Bk P T s s') : BkP P T (startPart c v s) (startPart c v s') := by
  unfold startPart
  dsimp only
  have h1 : Bk P T (if (atTool c v || atBase v) = true then { s with g := 0 } else s) (if (atTool c v || atBase v) = true then { s' with g := 0 } else s') := by
    split
    · obtain ⟨u, rfl, h1, h2, h3⟩ := h
      exact ⟨u, rfl, h1, h2, h3⟩
    · exact h
  revert h1
  generalize (if (atTool c v || atBase v) = true then { s with g := 0 } else s : St K) = S
  generalize (if (atTool c v || atBase v) = true then { s' with g := 0 } else s' : St K) = S'
  rintro ⟨u, rfl, h1, h2, h3⟩
  rw [show (lg u S).autoRapid = S.autoRapid from rfl, show (lg u S).g = S.g from rfl]
  split
  · exact ⟨⟨u, rfl, h1, h2, h3⟩, rfl⟩
  · split
    · refine ⟨?_, rfl⟩
      unfold beforeMotion
      dsimp only
      exact copySt_bk _ _ _ ⟨u, rfl, h1, h2, h3⟩
    · exact ⟨⟨u, rfl, h1, h2, h3⟩, rfl⟩

theorem savePositions_bk (c : Cfg K) (v : Vis K) {s s' : St K} (h : Bk P T s s') : Bk P T (savePositions c v s) (savePositions c v s') := by
  have hi : s'.incr = s.incr := by obtain ⟨u, rfl, _⟩ := h; rfl
  unfold savePositions
  rw [hi]
  split
  · exact copySt_bk _ _ _ h
  · split <;> exact copySt_bk _ _ _ h

section
variable [FloorRing K]

theorem account_bk (F : Fns K) (c : Cfg K) (inch : Inch) (v : Vis K) (cur : Cur K) {s s' : St K} (h : Bk P T s s') :
    BkP P T (account F c inch v cur s) (account F c inch v cur s') := by
  have h1 : Bk P T (addTimes F c inch cur (addPath (saveModal c cur s))) (addTimes F c inch cur (addPath (saveModal c cur s'))) := by
    obtain ⟨u, rfl, h1, h2, h3⟩ := h
    refine ⟨⟨u.p, u.t, addF u.toolP (addF s.path.work s.path.fast), s.tool, addF u.toolT (addF (workTime F c inch cur s.path.work) (fastTime c s.path.fast)), s.tool, u.tPath, u.tTime, u.range⟩, ?_, h1, h2, h3⟩
    unfold addTimes addPath saveModal lg
    dsimp only
    rw [addF_assoc, addF_assoc]
  have h2 : (addTimes F c inch cur (addPath (saveModal c cur s'))).path.work = (addTimes F c inch cur (addPath (saveModal c cur s))).path.work ∧
      (addTimes F c inch cur (addPath (saveModal c cur s'))).path.fast = (addTimes F c inch cur (addPath (saveModal c cur s))).path.fast := by
    obtain ⟨u, e, _⟩ := h1
    rw [e]
    exact ⟨rfl, rfl⟩
  unfold account
  dsimp only
  revert h1 h2
  generalize addTimes F c inch cur (addPath (saveModal c cur s)) = S
  generalize addTimes F c inch cur (addPath (saveModal c cur s')) = S'
  intro h1 h2
  have h3 : checks c cur S' = checks c cur S := by
    unfold checks
    rw [h2.1, h2.2]
  rw [h3]
  cases checks c cur S with
  | ok u => exact ⟨savePositions_bk c v h1, rfl⟩
  | throw e => exact ⟨h1, rfl⟩
  | ub => exact ⟨h1, rfl⟩

theorem andThen_bk {p p' : AttrPath.Part (St K)} (hp : BkP P T p p') {k k' : St K → AttrPath.Part (St K)}
    (h : ∀ s s', Bk P T s s' → BkP P T (k s) (k' s')) : BkP P T (p.andThen k) (p'.andThen k') := by
  obtain ⟨s, o⟩ := p
  obtain ⟨s', o'⟩ := p'
  obtain ⟨h1, h2⟩ := hp
  dsimp only at h1 h2
  cases h2
  cases o with
  | throw e => exact ⟨h1, rfl⟩
  | ub => exact ⟨h1, rfl⟩
  | ok b =>
    cases b with
    | false => exact ⟨h1, rfl⟩
    | true => exact h s s' h1

theorem motion_bk (F : Fns K) (c : Cfg K) (v : Vis K) (cur : Cur K) {s s' : St K} (h : Bk P T s s') :
    BkP P T (motion F c v cur s) (motion F c v cur s') := by
  obtain ⟨u, rfl, h1, h2, h3⟩ := h
  rw [motion_lg]
  refine ⟨⟨u, rfl, h1, h2, ?_⟩, rfl⟩
  obtain ⟨_, _, _, _, _, hm⟩ := motion_only F c v cur s
  rw [hm]
  exact h3

theorem moveBlock_bk (F : Fns K) (c : Cfg K) (inch : Inch) (v : Vis K) {s s' : St K} (h : Bk P T s s') :
    BkP P T (moveBlock F c inch v s) (moveBlock F c inch v s') := by
  have hc : current v s' = current v s := by obtain ⟨u, rfl, _⟩ := h; rfl
  unfold moveBlock
  rw [hc]
  exact andThen_bk (motion_bk F c v _ h) fun _ _ h => account_bk F c inch v _ h

theorem afterTool_bk (F : Fns K) (c : Cfg K) (inch : Inch) (v : Vis K) {s s' : St K} (h : Bk P T s s') :
    BkP P T (afterTool F c inch v s) (afterTool F c inch v s') :=
  andThen_bk (startPart_bk c v (dwell_bk v h)) fun _ _ h => moveBlock_bk F c inch v h

theorem evalVis_bk (F : Fns K) (c : Cfg K) (inch : Inch) (line : Int) (v : Vis K) {s s' : St K} (h : Bk P T s s') (m m' : MacroMap ℚ) :
    Bk P T (evalVis F c inch line v (s, m)).1.1 (evalVis F c inch line v (s', m')).1.1 ∧
      (evalVis F c inch line v (s', m')).2 = (evalVis F c inch line v (s, m)).2 := by
  unfold evalVis
  dsimp only
  obtain ⟨h1, h2⟩ := toolPart_bk c line v (mTimes_bk c v h) m m'
  revert h1 h2
  generalize toolPart c line v (mTimes c v s, m) = p
  generalize toolPart c line v (mTimes c v s', m') = p'
  obtain ⟨⟨S, M⟩, o⟩ := p
  obtain ⟨⟨S', M'⟩, o'⟩ := p'
  intro h1 h2
  dsimp only at h1 h2
  subst h2
  cases o' with
  | throw e => exact ⟨h1, rfl⟩
  | ub => exact ⟨h1, rfl⟩
  | ok z =>
    cases z with
    | false => exact ⟨h1, rfl⟩
    | true =>
      obtain ⟨w1, w2⟩ := afterTool_bk F c inch v h1
      exact ⟨w1, congrArg finish w2⟩

/-- **A block.** What was counted before has no influence. -/
theorem evaluate_bk (F : Fns K) (c : Cfg K) (inch : Inch) (line : Int) (b : Block) {s s' : St K} (h : Bk P T (clearMotions s) (clearMotions s'))
    (m m' : MacroMap ℚ) :
    Bk P T (evaluate F c inch line b (s, m)).1.1 (evaluate F c inch line b (s', m')).1.1 ∧
      (evaluate F c inch line b (s', m')).2 = (evaluate F c inch line b (s, m)).2 := by
  unfold evaluate
  dsimp only
  split
  · exact ⟨h, rfl⟩
  · cases visitAll c {} b with
    | ok v => exact evalVis_bk F c inch line v h m m'
    | throw e => exact ⟨h, rfl⟩
    | ub => exact ⟨h, rfl⟩

end
end
end NC.Bks
