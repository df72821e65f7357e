import Verif.Spec.Rates
import Verif.SimRepeat

/-!
# Feeds, speeds and the times of the machine, in the calculator

Two runs are compared which differ in feeds, speeds and times only.
-/

namespace NC.Rts
open NC NC.Path NC.Ver NC.AttrPath NC.Spec.Sim NC.Props

/-- What belongs to time in a state. -/
structure Clock (K : Type) where
  f : K
  s : K
  time : TimeRes K
  tTime : VMap (Fl K)

/-- What belongs to time in the settings of a machine. -/
structure Pace (K : Type) where
  maxFast : K
  exchange : K
  pallet : K
  measure : K

section
variable {K : Type}

/-- The state with another clock. -/
def ot (u : Clock K) (s : St K) : St K := { s with f := u.f, s := u.s, time := u.time, tTime := u.tTime }

/-- The clock of a state. -/
def clock (s : St K) : Clock K := ⟨s.f, s.s, s.time, s.tTime⟩

/-- The machine with other times. -/
def ct (n : Pace K) (c : Cfg K) : Cfg K :=
  { c with maxFast := n.maxFast, exchangeTime := n.exchange, palletTime := n.pallet, measureTime := n.measure }

/-- The visited words with other rates. -/
def vt (a b : Option K) (v : Vis K) : Vis K := { v with f := a, s := b }

/-- What is in force, with other rates. -/
def kt (x y : K) (cur : Cur K) : Cur K := { cur with f := x, s := y }

/-- A part with another clock. -/
def otP (u : Clock K) (p : AttrPath.Part (St K)) : AttrPath.Part (St K) := (ot u p.1, p.2)

/-- A circular part with another clock. -/
def otQ (u : Clock K) (p : CPart K) : CPart K := ((ot u p.1.1, p.1.2), p.2)

end

section
variable {K : Type} [Field K] [LinearOrder K]
variable (u : Clock K)

theorem cancelBy_ot (c : Cfg K) (g : Int) (s : St K) : cancelBy c g (ot u s) = ot u (cancelBy c g s) := by
  unfold cancelBy; split <;> rfl

theorem setMotion_ot (g : Int) (x : Fl K) (s : St K) : setMotion g x (ot u s) = ot u (setMotion g x s) := by
  unfold setMotion; split <;> rfl

theorem linearAbs_ot (F : Fns K) (c : Cfg K) (v : Vis K) (cur : Cur K) (s : St K) :
    linearAbs F c v cur (ot u s) = otP u (linearAbs F c v cur s) := by
  unfold linearAbs
  show (match s.prev.get c!"X", s.prev.get c!"Y", s.prev.get c!"Z" with
    | none, _, _ => _
    | some _, none, _ => _
    | some _, some _, none => _
    | some xp, some yp, some zp => _) = _
  cases s.prev.get c!"X" with
  | none => rfl
  | some xp =>
    cases s.prev.get c!"Y" with
    | none => rfl
    | some yp =>
      cases s.prev.get c!"Z" with
      | none => rfl
      | some zp =>
        dsimp only
        cases target c v c!"X" xp with
        | throw e => rfl
        | ub => rfl
        | ok x =>
          cases target c v c!"Y" yp with
          | throw e => rfl
          | ub => rfl
          | ok y =>
            cases target c v c!"Z" zp with
            | throw e => rfl
            | ub => rfl
            | ok z =>
              dsimp only
              rw [setMotion_ot]
              rfl

theorem linearIncr_ot (F : Fns K) (c : Cfg K) (v : Vis K) (cur : Cur K) (s : St K) :
    linearIncr F c v cur (ot u s) = otP u (linearIncr F c v cur s) := by
  unfold linearIncr
  have hk : ∀ a, known v (ot u s) a = known v s a := fun _ => rfl
  rw [hk, hk, hk, setMotion_ot]
  split
  · rfl
  · split
    · rfl
    · split <;> rfl

theorem linear_ot (F : Fns K) (c : Cfg K) (v : Vis K) (cur : Cur K) (s : St K) :
    AttrPath.linear F c v cur (ot u s) = otP u (AttrPath.linear F c v cur s) := by
  unfold AttrPath.linear
  rw [cancelBy_ot, linearAbs_ot, linearIncr_ot]
  split <;> rfl

theorem spiral_ot (F : Fns K) (ax : Axes) (s : St K) (w : CW K) : spiral F ax (ot u s) w = otQ u (spiral F ax s w) := by
  unfold spiral
  dsimp only [ot]
  cases (w.i <|> s.prev.get ax.p1) with
  | none => rfl
  | some i =>
    cases (w.j <|> s.prev.get ax.p2) with
    | none => rfl
    | some j =>
      cases w.q with
      | some q => rfl
      | none => cases w.l <;> rfl

theorem setTurn_ot (F : Fns K) (quarter last : Bool) (dz : Option K) (s : St K) (w : CW K) :
    setTurn F quarter last dz (ot u s) w = otQ u (setTurn F quarter last dz s w) := by
  unfold setTurn
  cases dz with
  | none => rfl
  | some dz =>
    dsimp only
    cases turn F quarter dz w <;> rfl

theorem endHelix_ot (p : CPart K) : endHelix (otQ u p) = otQ u (endHelix p) := by
  obtain ⟨⟨s, w⟩, o⟩ := p
  cases o <;> rfl

theorem helixIncr_ot (F : Fns K) (first : Bool) (s : St K) (w : CW K) : helixIncr F first (ot u s) w = otQ u (helixIncr F first s w) := by
  unfold helixIncr
  rw [show (ot u s).helix = s.helix from rfl, setTurn_ot, setTurn_ot, setTurn_ot, endHelix_ot]
  cases s.helix with
  | none => rfl
  | full => dsimp only; split <;> rfl
  | quarter => dsimp only; split <;> rfl

theorem helixAbs_ot (F : Fns K) (s : St K) (w : CW K) : helixAbs F (ot u s) w = otQ u (helixAbs F s w) := by
  unfold helixAbs
  rw [show (ot u s).helix = s.helix from rfl, setTurn_ot, setTurn_ot, setTurn_ot, endHelix_ot]
  cases s.helix with
  | none => rfl
  | full => dsimp only; split <;> rfl
  | quarter =>
    dsimp only
    split
    · rfl
    · split
      · cases w.zp with
        | none => rfl
        | some zp => dsimp only; split <;> rfl
      · rfl

theorem helixRun_ot (F : Fns K) (ax : Axes) (incr first : Bool) (s : St K) (w : CW K) :
    helixRun F ax incr first (ot u s) w = otQ u (helixRun F ax incr first s w) := by
  unfold helixRun
  dsimp only
  rw [show (ot u s).prev = s.prev from rfl, helixIncr_ot, helixAbs_ot]
  split
  · rfl
  · split
    · rfl
    · split <;> rfl

theorem helixStart_ot (ax : Axes) (s : St K) (w : CW K) :
    helixStart ax (ot u s) w = (otQ u (helixStart ax s w).1, (helixStart ax s w).2) := by
  unfold helixStart
  rw [show (ot u s).helix = s.helix from rfl]
  cases w.x with
  | none => rfl
  | some x =>
    cases w.y with
    | none => rfl
    | some y =>
      cases w.z with
      | none => rfl
      | some z =>
        dsimp only
        split
        · split
          · rfl
          · split <;> rfl
        · rfl

theorem helixStep_ot (F : Fns K) (ax : Axes) (incr first : Bool) (p : CPart K) :
    helixStep F ax incr first (otQ u p) = otQ u (helixStep F ax incr first p) := by
  obtain ⟨⟨s, w⟩, o⟩ := p
  cases o with
  | throw e => rfl
  | ub => rfl
  | ok b =>
    show (if s.helix = .none then _ else helixRun F ax incr first (ot u s) w) = otQ u (if s.helix = .none then _ else helixRun F ax incr first s w)
    rw [helixRun_ot]
    split <;> rfl

theorem arc_ot (F : Fns K) (c : Cfg K) (cur : Cur K) (ax : Axes) (s : St K) (w : CW K) :
    arc F c cur ax (ot u s) w = otP u (arc F c cur ax s w) := by
  unfold arc
  rw [show (ot u s).prev = s.prev from rfl]
  dsimp only
  generalize (if w.r = none ∧ (w.i = none ∨ w.j = none) then
      { w with i := w.i <|> s.prev.get ax.p1, j := w.j <|> s.prev.get ax.p2 } else w) = w2
  cases w2.i <;> cases w2.j <;> cases w2.r <;> rfl

theorem arcStep_ot (F : Fns K) (c : Cfg K) (cur : Cur K) (ax : Axes) (p : CPart K) :
    arcStep F c cur ax (otQ u p) = otP u (arcStep F c cur ax p) := by
  obtain ⟨⟨s, w⟩, o⟩ := p
  cases o with
  | throw e => rfl
  | ub => rfl
  | ok b =>
    cases b with
    | false => rfl
    | true =>
      show (if s.helix = .none then arc F c cur ax (ot u s) w else _) = otP u (if s.helix = .none then arc F c cur ax s w else _)
      rw [arc_ot]
      split <;> rfl

theorem circularFrom_ot (F : Fns K) (c : Cfg K) (v : Vis K) (cur : Cur K) (ax : Axes) (xp yp : K) (s : St K) :
    circularFrom F c v cur ax xp yp (ot u s) = otP u (circularFrom F c v cur ax xp yp s) := by
  unfold circularFrom
  dsimp only
  rw [show (ot u s).prev = s.prev from rfl, spiral_ot, helixStart_ot]
  dsimp only
  rw [helixStep_ot, helixStep_ot, arcStep_ot, arcStep_ot]
  split <;> rfl

theorem circular_ot (F : Fns K) (c : Cfg K) (v : Vis K) (cur : Cur K) (s : St K) :
    circular F c v cur (ot u s) = otP u (circular F c v cur s) := by
  unfold circular
  rw [show (ot u s).prev = s.prev from rfl, cancelBy_ot]
  split
  · rfl
  · dsimp only
    cases s.prev.get (axesOf cur.plane).a1 with
    | none => rfl
    | some xp =>
      cases s.prev.get (axesOf cur.plane).a2 with
      | none => rfl
      | some yp =>
        dsimp only
        rw [circularFrom_ot]

section
variable [FloorRing K]

theorem andThen_ot {p : AttrPath.Part (St K)} {k k' : St K → AttrPath.Part (St K)} (h : ∀ s, k' (ot u s) = otP u (k s)) :
    (otP u p).andThen k' = otP u (p.andThen k) := by
  obtain ⟨s, o⟩ := p
  cases o with
  | throw e => rfl
  | ub => rfl
  | ok b =>
    cases b with
    | false => rfl
    | true => exact h s

theorem cyclePart_ot (F : Fns K) (c : Cfg K) (v : Vis K) (cur : Cur K) (s : St K) :
    cyclePart F c v cur (ot u s) = otP u (cyclePart F c v cur s) := by
  unfold cyclePart
  dsimp only
  rw [show (ot u s).path = s.path from rfl, show (ot u s).prev = s.prev from rfl]
  split
  · rfl
  · cases s.prev.get (axesOf cur.plane).a3 with
    | none => rfl
    | some zp =>
      dsimp only
      split
      · rfl
      · cases v.vals.get c!"R" with
        | none => rfl
        | some r =>
          dsimp only
          generalize cycleOf F c cur zp _ r _ = o
          cases o <;> rfl

theorem holePart_ot (F : Fns K) (v : Vis K) (cur : Cur K) (s : St K) : holePart F v cur (ot u s) = otP u (holePart F v cur s) := by
  unfold holePart
  dsimp only
  rw [show (ot u s).path = s.path from rfl, show (ot u s).prev = s.prev from rfl]
  cases s.prev.get (axesOf cur.plane).a1 with
  | none => rfl
  | some xp =>
    cases s.prev.get (axesOf cur.plane).a2 with
    | none => rfl
    | some yp =>
      dsimp only
      split
      · rfl
      · split
        · rfl
        · cases holesOf (v.vals.get c!"K") <;> rfl

theorem drilling_ot (F : Fns K) (c : Cfg K) (v : Vis K) (cur : Cur K) (s : St K) :
    drilling F c v cur (ot u s) = otP u (drilling F c v cur s) := by
  unfold drilling
  split
  · rfl
  · rw [cyclePart_ot]
    exact andThen_ot u (holePart_ot u F v cur)

/-- The motion has nothing to do with rates and times. -/
theorem motion_ot (F : Fns K) (c : Cfg K) (n : Pace K) (v : Vis K) (a b : Option K) (cur : Cur K) (x y : K) (s : St K) :
    motion F (ct n c) (vt a b v) (kt x y cur) (ot u s) = otP u (motion F c v cur s) := by
  have h : motion F (ct n c) (vt a b v) (kt x y cur) (ot u s) = motion F c v cur (ot u s) := rfl
  rw [h]
  unfold motion
  rw [linear_ot, circular_ot, drilling_ot]
  split
  · rfl
  · split
    · rfl
    · split
      · rfl
      · split <;> rfl

end
end

/-! ## A block -/

section
variable {K : Type} [Field K] [LinearOrder K]
variable (R : K → K → Prop)

/-- States that differ in their clocks, with rates related by `R`. -/
def Same (s s' : St K) : Prop := ∃ u, s' = ot u s ∧ R s.f u.f ∧ R s.s u.s

/-- Parts that differ in their clocks. -/
def SameP (p p' : AttrPath.Part (St K)) : Prop := Same R p.1 p'.1 ∧ p'.2 = p.2

/-- Words visited that differ in rates. -/
def SameV (v v' : Vis K) : Prop := ∃ a b, v' = vt a b v ∧ Option.Rel R v.f a ∧ Option.Rel R v.s b

/-- Results of the visitor. -/
def SameVO : Out Exc (Vis K) → Out Exc (Vis K) → Prop
  | .ok v, .ok v' => SameV R v v'
  | .throw e, .throw e' => e' = e
  | .ub, .ub => True
  | _, _ => False

variable {R}

theorem on_same {v v' : Vis K} (h : SameV R v v') (x : Act K) (hr : ∀ x, R x x) : SameV R (Act.on v x) (Act.on v' x) := by
  obtain ⟨a, b, rfl, h1, h2⟩ := h
  cases x with
  | feed y => exact ⟨some y, b, rfl, .some (hr y), h2⟩
  | spindle y => exact ⟨a, some y, rfl, h1, .some (hr y)⟩
  | code k t => cases k <;> exact ⟨a, b, rfl, h1, h2⟩
  | _ => exact ⟨a, b, rfl, h1, h2⟩

theorem visit_same {c : Cfg K} (hc : AxesOk c) (n : Pace K) {P : ℚ → ℚ → Prop} (hP : ∀ q q', P q q' → R (q : K) (q' : K)) (hr : ∀ x, R x x)
    {a a' : Attr} (h : Spec.Rates.Word P a a') {v v' : Vis K} (hv : SameV R v v') : SameVO R (visit c v a) (visit (ct n c) v' a') := by
  have hs : v'.skip = v.skip := by
    obtain ⟨a, b, rfl, _⟩ := hv
    rfl
  cases h with
  | same a =>
    cases a with
    | dec d =>
      unfold visit
      dsimp only
      rw [hs]
      split
      · obtain ⟨a, b, rfl, h1, h2⟩ := hv
        exact ⟨a, b, rfl, h1, h2⟩
      · split
        · exact hv
        · rw [show readWord (ct n c) d = readWord c d from rfl]
          cases readWord c d with
          | ok x => exact on_same hv x hr
          | throw e => rfl
          | ub => trivial
    | str w s => exact on_same hv _ hr
    | chr w s => exact hv
  | rate d d' q q' h1 h2 h3 h4 h5 =>
    have hne : d.word ≠ c!"/" := by
      intro h
      rw [h] at h1
      exact absurd h1 (by decide)
    unfold visit
    dsimp only
    rw [if_neg hne, if_neg (show ¬ d'.word = c!"/" by rw [h2]; exact hne), hs]
    split
    · exact hv
    · simp only [List.mem_cons, List.not_mem_nil, or_false] at h1
      rw [show readWord (ct n c) d' = readWord c d' from rfl]
      obtain ⟨a, b, rfl, k1, k2⟩ := hv
      rcases h1 with h1 | h1
      · rw [(Rpt.read_rate hc h3).1 h1, (Rpt.read_rate hc h4).1 (h2.trans h1)]
        exact ⟨some (q' : K), b, rfl, .some (hP _ _ h5), k2⟩
      · rw [(Rpt.read_rate hc h3).2 h1, (Rpt.read_rate hc h4).2 (h2.trans h1)]
        exact ⟨a, some (q' : K), rfl, k1, .some (hP _ _ h5)⟩

theorem visitAll_same {c : Cfg K} (hc : AxesOk c) (n : Pace K) {P : ℚ → ℚ → Prop} (hP : ∀ q q', P q q' → R (q : K) (q' : K)) (hr : ∀ x, R x x)
    {b b' : Block} (h : List.Forall₂ (Spec.Rates.Word P) b b') {v v' : Vis K} (hv : SameV R v v') :
    SameVO R (visitAll c v b) (visitAll (ct n c) v' b') := by
  induction h generalizing v v' with
  | nil => exact hv
  | cons ha _ ih =>
    unfold visitAll
    have := visit_same hc n hP hr ha hv
    revert this
    generalize visit c v _ = o
    generalize visit (ct n c) v' _ = o'
    intro this
    cases o <;> cases o'
    case ok.ok => exact ih this
    all_goals first | exact this | exact this.elim

/-! The parts before the motion. -/

theorem exchangeTimes_ot (c : Cfg K) (n : Pace K) (u : Clock K) (s : St K) :
    ∃ t, exchangeTimes (ct n c) (ot u s) = ot { u with time := t } (exchangeTimes c s) := by
  unfold exchangeTimes
  dsimp only
  rw [show (ct n c).autoMeasure = c.autoMeasure from rfl]
  split <;> exact ⟨_, rfl⟩

theorem mTimes_ot (c : Cfg K) (n : Pace K) (v : Vis K) (a b : Option K) (u : Clock K) (s : St K) :
    ∃ t, mTimes (ct n c) (vt a b v) (ot u s) = ot { u with time := t } (mTimes c v s) := by
  unfold mTimes exchangeTimes
  dsimp only
  rw [show (ct n c).autoMeasure = c.autoMeasure from rfl, show (ct n c).toolExchanges = c.toolExchanges from rfl,
    show (vt a b v).m6 = v.m6 from rfl, show (vt a b v).measure = v.measure from rfl, show (vt a b v).pallet = v.pallet from rfl]
  split_ifs <;> exact ⟨_, rfl⟩

theorem fetchTool_ot (c : Cfg K) (n : Pace K) (u : Clock K) (s : St K) :
    ∃ t, fetchTool (ct n c) (ot u s) = ot { u with time := t } (fetchTool c s) := by
  unfold fetchTool exchangeTimes
  dsimp only
  rw [show (ct n c).autoMeasure = c.autoMeasure from rfl, show (ct n c).toolExchanges = c.toolExchanges from rfl]
  split_ifs <;> exact ⟨_, rfl⟩

theorem tAlone_ot (c : Cfg K) (n : Pace K) (v : Vis K) (a b : Option K) (u : Clock K) (s : St K) :
    tAlone (ct n c) (vt a b v) (ot u s) = otP u (tAlone c v s) := by
  unfold tAlone
  rw [show atTool (ct n c) (vt a b v) = atTool c v from rfl, show tWithG (vt a b v) = tWithG v from rfl]
  split
  · rfl
  · cases tWithG v <;> rfl

theorem toolPart_ot (c : Cfg K) (n : Pace K) (line : Int) (v : Vis K) (a b : Option K) (u : Clock K) (s : St K) (m : MacroMap ℚ) :
    ∃ t tt, toolPart (ct n c) line (vt a b v) (ot u s, m) =
      ((ot ⟨u.f, u.s, t, tt⟩ (toolPart c line v (s, m)).1.1, (toolPart c line v (s, m)).1.2), (toolPart c line v (s, m)).2) := by
  unfold toolPart
  rw [show toolOf (vt a b v) = toolOf v from rfl]
  cases toolOf v with
  | none => exact ⟨_, _, rfl⟩
  | some tl =>
    dsimp only
    have e1 : ∃ tt, storeTool (ct n c) (ot u s) = ot ⟨u.f, u.s, u.time, tt⟩ (storeTool c s) := ⟨_, rfl⟩
    obtain ⟨tt, e1⟩ := e1
    rw [show (ct n c).toolExchanges = c.toolExchanges from rfl, show (vt a b v).m6 = v.m6 from rfl, e1]
    split
    · cases stodE tl with
      | throw e => exact ⟨_, _, rfl⟩
      | ub => exact ⟨_, _, rfl⟩
      | ok q =>
        dsimp only
        obtain ⟨t, e2⟩ := fetchTool_ot c n ⟨u.f, u.s, u.time, tt⟩ { storeTool c s with tool := tl }
        refine ⟨t, tt, ?_⟩
        have e3 : ({ ot ⟨u.f, u.s, u.time, tt⟩ (storeTool c s) with tool := tl } : St K) =
            ot ⟨u.f, u.s, u.time, tt⟩ { storeTool c s with tool := tl } := rfl
        rw [e3, e2, tAlone_ot]
        rfl
    · obtain ⟨t, e2⟩ := fetchTool_ot c n ⟨u.f, u.s, u.time, tt⟩ (storeTool c s)
      refine ⟨t, tt, ?_⟩
      rw [e2, tAlone_ot]
      rfl

theorem dwell_ot (v : Vis K) (a b : Option K) (u : Clock K) (s : St K) : ∃ t, dwell (vt a b v) (ot u s) = ot { u with time := t } (dwell v s) := by
  unfold dwell dwellWord
  rw [show (vt a b v).otherG = v.otherG from rfl, show (vt a b v).vals = v.vals from rfl]
  cases v.vals.get c!"X" <;> cases v.vals.get c!"U" <;> cases v.vals.get c!"P" <;> dsimp only <;> split_ifs <;> exact ⟨_, rfl⟩

theorem startPart_ot (c : Cfg K) (n : Pace K) (v : Vis K) (a b : Option K) (u : Clock K) (s : St K) :
    startPart (ct n c) (vt a b v) (ot u s) = otP u (startPart c v s) := by
  unfold startPart
  rw [show atTool (ct n c) (vt a b v) = atTool c v from rfl, show atBase (vt a b v) = atBase v from rfl,
    show (vt a b v).vals = v.vals from rfl, show (vt a b v).g = v.g from rfl]
  have e : (if (atTool c v || atBase v) = true then { ot u s with g := 0 } else ot u s : St K) =
      ot u (if (atTool c v || atBase v) = true then { s with g := 0 } else s) := by
    split <;> rfl
  dsimp only
  rw [e]
  generalize (if (atTool c v || atBase v) = true then { s with g := 0 } else s : St K) = S
  show (if S.autoRapid = true ∧ v.vals ≠ [] then _ else if (!atTool c v && !atBase v) = true ∧ S.g = -1 ∧ v.g = none then _ else _) = _
  split
  · rfl
  · split <;> rfl

theorem savePositions_ot (c : Cfg K) (n : Pace K) (v : Vis K) (a b : Option K) (u : Clock K) (s : St K) :
    savePositions (ct n c) (vt a b v) (ot u s) = ot u (savePositions c v s) := by
  unfold savePositions
  rw [show atTool (ct n c) (vt a b v) = atTool c v from rfl, show atBase (vt a b v) = atBase v from rfl]
  split
  · rfl
  · split <;> rfl

/-- What `R` must tell about rates. -/
structure Telling (R : K → K → Prop) : Prop where
  neg : ∀ x y, R x y → (y < 0 ↔ x < 0)
  pos : ∀ x y, R x y → (0 < y ↔ 0 < x)

theorem checks_ot (hR : Telling R) (c : Cfg K) (n : Pace K) (hn : R c.maxFast n.maxFast) (cur : Cur K) {x y : K} (hx : R cur.f x) (hy : R cur.s y)
    (s s' : St K) (hp : s'.path = s.path) : checks (ct n c) (kt x y cur) s' = checks c cur s := by
  unfold checks
  rw [hp]
  show (if s.path.work ≠ some 0 ∧ x < 0 then _ else if s.path.fast ≠ some 0 ∧ n.maxFast < 0 then _
    else if s.path.work ≠ some 0 ∧ 0 < x ∧ latheProg c cur.plane = true ∧ cur.perRev = true ∧ y < 0 then _ else _) = _
  have h1 := hR.neg _ _ hx
  have h2 := hR.neg _ _ hy
  have h3 := hR.neg _ _ hn
  have h4 := hR.pos _ _ hx
  simp only [h1, h2, h3, h4]

section
variable [FloorRing K]

theorem current_ot {v : Vis K} {a b : Option K} {u : Clock K} {s : St K} (h1 : Option.Rel R v.f a) (h2 : Option.Rel R v.s b) (h3 : R s.f u.f)
    (h4 : R s.s u.s) : ∃ x y, current (vt a b v) (ot u s) = kt x y (current v s) ∧ R (current v s).f x ∧ R (current v s).s y := by
  refine ⟨a.getD u.f, b.getD u.s, rfl, ?_, ?_⟩
  · unfold current
    generalize v.f = w at h1
    cases h1 with
    | some h => exact h
    | none => exact h3
  · unfold current
    generalize v.s = w at h2
    cases h2 with
    | some h => exact h
    | none => exact h4

theorem account_ot (hR : Telling R) (F : Fns K) (c : Cfg K) (n : Pace K) (hn : R c.maxFast n.maxFast) (inch : Inch) (v : Vis K) (a b : Option K)
    (cur : Cur K) {x y : K} (hx : R cur.f x) (hy : R cur.s y) (u : Clock K) (s : St K) :
    ∃ t, account F (ct n c) inch (vt a b v) (kt x y cur) (ot u s) = otP ⟨x, y, t, u.tTime⟩ (account F c inch v cur s) ∧
      t = (addTimes F (ct n c) inch (kt x y cur) (addPath (saveModal (ct n c) (kt x y cur) (ot u s)))).time := by
  refine ⟨_, ?_, rfl⟩
  unfold account
  dsimp only
  have e1 : addTimes F (ct n c) inch (kt x y cur) (addPath (saveModal (ct n c) (kt x y cur) (ot u s))) =
      ot ⟨x, y, (addTimes F (ct n c) inch (kt x y cur) (addPath (saveModal (ct n c) (kt x y cur) (ot u s)))).time, u.tTime⟩
        (addTimes F c inch cur (addPath (saveModal c cur s))) := rfl
  have e2 := checks_ot hR c n hn cur hx hy (addTimes F c inch cur (addPath (saveModal c cur s)))
    (addTimes F (ct n c) inch (kt x y cur) (addPath (saveModal (ct n c) (kt x y cur) (ot u s)))) rfl
  rw [e2]
  generalize (addTimes F (ct n c) inch (kt x y cur) (addPath (saveModal (ct n c) (kt x y cur) (ot u s)))).time = t at e1 ⊢
  rw [e1]
  cases checks c cur (addTimes F c inch cur (addPath (saveModal c cur s))) with
  | throw e => rfl
  | ub => rfl
  | ok z => 
    dsimp only
    rw [savePositions_ot]
    rfl

theorem moveBlock_same (hR : Telling R) (F : Fns K) (c : Cfg K) (n : Pace K) (hn : R c.maxFast n.maxFast) (inch : Inch) {v v' : Vis K}
    (hv : SameV R v v') {s s' : St K} (hs : Same R s s') : SameP R (moveBlock F c inch v s) (moveBlock F (ct n c) inch v' s') := by
  obtain ⟨a, b, rfl, h1, h2⟩ := hv
  obtain ⟨u, rfl, h3, h4⟩ := hs
  obtain ⟨x, y, e, hx, hy⟩ := current_ot h1 h2 h3 h4
  have hm := motion_only F c v (current v s) s
  have hf : (motion F c v (current v s) s).1.f = s.f ∧ (motion F c v (current v s) s).1.s = s.s := by
    obtain ⟨w1, w2, w3, w4, w5, hm⟩ := hm
    rw [hm]
    exact ⟨rfl, rfl⟩
  unfold moveBlock
  rw [e, motion_ot]
  generalize motion F c v (current v s) s = p at hf ⊢
  obtain ⟨S, o⟩ := p
  dsimp only at hf
  rw [← hf.1] at h3
  rw [← hf.2] at h4
  cases o with
  | throw e => exact ⟨⟨u, rfl, h3, h4⟩, rfl⟩
  | ub => exact ⟨⟨u, rfl, h3, h4⟩, rfl⟩
  | ok z =>
    cases z with
    | false => exact ⟨⟨u, rfl, h3, h4⟩, rfl⟩
    | true =>
      obtain ⟨t, e2, _⟩ := account_ot hR F c n hn inch v a b (current v s) hx hy u S
      show SameP R (account F c inch v (current v s) S) (account F (ct n c) inch (vt a b v) (kt x y (current v s)) (ot u S))
      rw [e2]
      have hk : (account F c inch v (current v s) S).1.f = (current v s).f ∧ (account F c inch v (current v s) S).1.s = (current v s).s := by
        unfold account savePositions
        dsimp only
        split
        · dsimp only
          split_ifs <;> exact ⟨rfl, rfl⟩
        · exact ⟨rfl, rfl⟩
        · exact ⟨rfl, rfl⟩
      exact ⟨⟨_, rfl, by rw [hk.1]; exact hx, by rw [hk.2]; exact hy⟩, rfl⟩

theorem andThen_same {p p' : AttrPath.Part (St K)} (hp : SameP R p p') {k k' : St K → AttrPath.Part (St K)}
    (h : ∀ s s', Same R s s' → SameP R (k s) (k' s')) : SameP R (p.andThen k) (p'.andThen k') := by
  obtain ⟨s, o⟩ := p
  obtain ⟨s', o'⟩ := p'
  obtain ⟨h1, h2⟩ := hp
  dsimp only at h1 h2
  cases h2
  cases o with
  | throw e => exact ⟨h1, rfl⟩
  | ub => exact ⟨h1, rfl⟩
  | ok b =>
    cases b with
    | false => exact ⟨h1, rfl⟩
    | true => exact h s s' h1

theorem startPart_clock (c : Cfg K) (v : Vis K) (s : St K) : clock (startPart c v s).1 = clock s := by
  unfold startPart
  dsimp only
  generalize hS : (if (atTool c v || atBase v) = true then { s with g := 0 } else s : St K) = S
  have : clock S = clock s := by
    rw [← hS]
    split <;> rfl
  rw [← this]
  split
  · rfl
  · split <;> rfl

theorem dwell_rates (v : Vis K) (s : St K) : (dwell v s).f = s.f ∧ (dwell v s).s = s.s ∧ (dwell v s).tTime = s.tTime := by
  unfold dwell dwellWord
  split
  · cases v.vals.get c!"X" <;> cases v.vals.get c!"U" <;> cases v.vals.get c!"P" <;> exact ⟨rfl, rfl, rfl⟩
  · exact ⟨rfl, rfl, rfl⟩

theorem mTimes_rates (c : Cfg K) (v : Vis K) (s : St K) : (mTimes c v s).f = s.f ∧ (mTimes c v s).s = s.s ∧ (mTimes c v s).tTime = s.tTime := by
  unfold mTimes exchangeTimes
  dsimp only
  split_ifs <;> exact ⟨rfl, rfl, rfl⟩

theorem startPart_same (c : Cfg K) (n : Pace K) {v v' : Vis K} (hv : SameV R v v') {s s' : St K} (hs : Same R s s') :
    SameP R (startPart c v (dwell v s)) (startPart (ct n c) v' (dwell v' s')) := by
  obtain ⟨a, b, rfl, h1, h2⟩ := hv
  obtain ⟨u, rfl, h3, h4⟩ := hs
  obtain ⟨t, e⟩ := dwell_ot v a b u s
  rw [e, startPart_ot]
  have hk := startPart_clock c v (dwell v s)
  obtain ⟨d1, d2, _⟩ := dwell_rates v s
  have k1 : (startPart c v (dwell v s)).1.f = s.f := (congrArg Clock.f hk).trans d1
  have k2 : (startPart c v (dwell v s)).1.s = s.s := (congrArg Clock.s hk).trans d2
  exact ⟨⟨_, rfl, by rw [k1]; exact h3, by rw [k2]; exact h4⟩, rfl⟩

theorem afterTool_same (hR : Telling R) (F : Fns K) (c : Cfg K) (n : Pace K) (hn : R c.maxFast n.maxFast) (inch : Inch) {v v' : Vis K}
    (hv : SameV R v v') {s s' : St K} (hs : Same R s s') : SameP R (afterTool F c inch v s) (afterTool F (ct n c) inch v' s') :=
  andThen_same (startPart_same c n hv hs) fun _ _ h => moveBlock_same hR F c n hn inch hv h

theorem toolPart_rates (c : Cfg K) (line : Int) (v : Vis K) (p : St K × MacroMap ℚ) :
    (toolPart c line v p).1.1.f = p.1.f ∧ (toolPart c line v p).1.1.s = p.1.s := by
  have ha : ∀ S : St K, (tAlone c v S).1.f = S.f ∧ (tAlone c v S).1.s = S.s := by
    intro S
    unfold tAlone
    split
    · exact ⟨rfl, rfl⟩
    · cases tWithG v <;> exact ⟨rfl, rfl⟩
  have hf : ∀ S : St K, (fetchTool c S).f = S.f ∧ (fetchTool c S).s = S.s := by
    intro S
    unfold fetchTool exchangeTimes
    dsimp only
    split_ifs <;> exact ⟨rfl, rfl⟩
  unfold toolPart
  cases toolOf v with
  | none => exact ⟨rfl, rfl⟩
  | some t =>
    dsimp only
    split
    · cases stodE t with
      | throw e => exact ⟨rfl, rfl⟩
      | ub => exact ⟨rfl, rfl⟩
      | ok q =>
        dsimp only
        rw [(ha _).1, (ha _).2, (hf _).1, (hf _).2]
        exact ⟨rfl, rfl⟩
    · dsimp only
      rw [(ha _).1, (ha _).2, (hf _).1, (hf _).2]
      exact ⟨rfl, rfl⟩

theorem evalVis_same (hR : Telling R) (F : Fns K) (c : Cfg K) (n : Pace K) (hn : R c.maxFast n.maxFast) (inch : Inch) (line : Int) {v v' : Vis K}
    (hv : SameV R v v') {s s' : St K} (hs : Same R s s') (m : MacroMap ℚ) :
    Same R (evalVis F c inch line v (s, m)).1.1 (evalVis F (ct n c) inch line v' (s', m)).1.1 ∧
      (evalVis F (ct n c) inch line v' (s', m)).1.2 = (evalVis F c inch line v (s, m)).1.2 ∧
      (evalVis F (ct n c) inch line v' (s', m)).2 = (evalVis F c inch line v (s, m)).2 := by
  have hv0 := hv
  obtain ⟨a, b, rfl, h1, h2⟩ := hv
  obtain ⟨u, rfl, h3, h4⟩ := hs
  unfold evalVis
  dsimp only
  obtain ⟨t, e⟩ := mTimes_ot c n v a b u s
  obtain ⟨r1, r2, _⟩ := mTimes_rates c v s
  rw [e]
  obtain ⟨t2, tt, e2⟩ := toolPart_ot c n line v a b { u with time := t } (mTimes c v s) m
  obtain ⟨q1, q2⟩ := toolPart_rates c line v (mTimes c v s, m)
  rw [e2]
  have hS : Same R (toolPart c line v (mTimes c v s, m)).1.1 (ot ⟨u.f, u.s, t2, tt⟩ (toolPart c line v (mTimes c v s, m)).1.1) :=
    ⟨_, rfl, by rw [q1]; show R (mTimes c v s).f u.f; rw [r1]; exact h3, by rw [q2]; show R (mTimes c v s).s u.s; rw [r2]; exact h4⟩
  generalize toolPart c line v (mTimes c v s, m) = p at hS ⊢
  obtain ⟨⟨S, m2⟩, o⟩ := p
  dsimp only at hS ⊢
  cases o with
  | throw e => exact ⟨hS, rfl, rfl⟩
  | ub => exact ⟨hS, rfl, rfl⟩
  | ok z =>
    cases z with
    | false => exact ⟨hS, rfl, rfl⟩
    | true =>
      obtain ⟨w1, w2⟩ := afterTool_same hR F c n hn inch hv0 hS
      exact ⟨w1, rfl, congrArg finish w2⟩

/-- **A block.** The simulations with other rates and other times of the machine differ in the clock only. -/
theorem evaluate_same (hR : Telling R) (hr : ∀ x, R x x) {P : ℚ → ℚ → Prop} (hP : ∀ q q', P q q' → R (q : K) (q' : K)) (F : Fns K) {c : Cfg K}
    (hc : AxesOk c) (n : Pace K) (hn : R c.maxFast n.maxFast) (inch : Inch) (line : Int) {b b' : Block}
    (hb : List.Forall₂ (Spec.Rates.Word P) b b') {s s' : St K} (hs : Same R s s') (m : MacroMap ℚ) :
    Same R (evaluate F c inch line b (s, m)).1.1 (evaluate F (ct n c) inch line b' (s', m)).1.1 ∧
      (evaluate F (ct n c) inch line b' (s', m)).1.2 = (evaluate F c inch line b (s, m)).1.2 ∧
      (evaluate F (ct n c) inch line b' (s', m)).2 = (evaluate F c inch line b (s, m)).2 := by
  have hs' : Same R (clearMotions s) (clearMotions s') := by
    obtain ⟨u, rfl, h3, h4⟩ := hs
    exact ⟨clock (clearMotions (ot u s)), rfl, h3, h4⟩
  unfold evaluate
  dsimp only
  have hn0 : b' = [] ↔ b = [] := by
    cases hb <;> simp
  have hv := visitAll_same (c := c) hc n hP hr hb (v := {}) (v' := {}) ⟨none, none, rfl, .none, .none⟩
  by_cases h0 : b = []
  · rw [if_pos h0, if_pos (hn0.mpr h0)]
    exact ⟨hs', rfl, rfl⟩
  · rw [if_neg h0, if_neg (fun h => h0 (hn0.mp h))]
    revert hv
    generalize visitAll c {} b = o
    generalize visitAll (ct n c) {} b' = o'
    intro hv
    cases o <;> cases o'
    case ok.ok => exact evalVis_same hR F c n hn inch line hv hs' m
    case throw.throw => exact ⟨hs', rfl, by rw [show _ = _ from hv]⟩
    case ub.ub => exact ⟨hs', rfl, rfl⟩
    all_goals exact hv.elim

end
end

/-! ## Times -/

section
variable {K : Type} [Field K] [LinearOrder K] [IsStrictOrderedRing K]

open NC.Spec.Rates (NotLonger AsHigh)

omit [Field K] [IsStrictOrderedRing K] in
theorem notLonger_refl (x : Option K) : NotLonger x x := by
  cases x with
  | none => trivial
  | some x => exact le_refl x

theorem notLonger_add {a a' b b' : Fl K} (h : NotLonger a a') (g : NotLonger b b') : NotLonger (addF a b) (addF a' b') := by
  cases a <;> cases a' <;> cases b <;> cases b' <;> first | trivial | exact h.elim | exact g.elim | exact add_le_add h g

/-- The clock of the second state is not later. -/
structure Later (s s' : St K) : Prop where
  total : NotLonger s.time.total s'.time.total
  tool : NotLonger s.time.toolTotal s'.time.toolTotal
  work : NotLonger s.time.work s'.time.work
  fast : NotLonger s.time.fast s'.time.fast
  tools : ∀ t, Option.Rel NotLonger (s.tTime.get t) (s'.tTime.get t)

/-- No time of the second machine is longer. -/
structure Slower (c : Cfg K) (n : Pace K) : Prop where
  fast : AsHigh c.maxFast n.maxFast
  exchange : n.exchange ≤ c.exchangeTime
  pallet : n.pallet ≤ c.palletTime
  measure : n.measure ≤ c.measureTime

theorem addTime_later {s s' : St K} (h : Later s s') {x y : K} (hx : y ≤ x) : Later (addTime x s) (addTime y s') :=
  ⟨notLonger_add h.total hx, h.tool, h.work, h.fast, h.tools⟩

theorem exchangeTimes_later {c : Cfg K} {n : Pace K} (hn : Slower c n) {s s' : St K} (h : Later s s') :
    Later (exchangeTimes c s) (exchangeTimes (ct n c) s') := by
  unfold exchangeTimes
  dsimp only
  rw [show (ct n c).autoMeasure = c.autoMeasure from rfl]
  split
  · exact addTime_later (addTime_later h hn.exchange) hn.measure
  · exact addTime_later h hn.exchange

theorem mTimes_later {c : Cfg K} {n : Pace K} (hn : Slower c n) (v : Vis K) (a b : Option K) {s s' : St K} (h : Later s s') :
    Later (mTimes c v s) (mTimes (ct n c) (vt a b v) s') := by
  have h1 : Later (if ¬ c.toolExchanges = true ∧ v.m6 = true then exchangeTimes c s else s)
      (if ¬ c.toolExchanges = true ∧ v.m6 = true then exchangeTimes (ct n c) s' else s') := by
    split
    · exact exchangeTimes_later hn h
    · exact h
  have h2 : ∀ {s s' : St K}, Later s s' → Later (if ¬ c.autoMeasure = true ∧ v.measure = true then addTime c.measureTime s else s)
      (if ¬ c.autoMeasure = true ∧ v.measure = true then addTime n.measure s' else s') := by
    intro s s' h
    split
    · exact addTime_later h hn.measure
    · exact h
  have h3 : ∀ {s s' : St K}, Later s s' → Later (if v.pallet = true then addTime c.palletTime s else s)
      (if v.pallet = true then addTime n.pallet s' else s') := by
    intro s s' h
    split
    · exact addTime_later h hn.pallet
    · exact h
  exact h3 (h2 h1)

theorem put_rel {m m' : VMap (Fl K)} (h : ∀ t, Option.Rel NotLonger (m.get t) (m'.get t)) (k : Str) {x x' : Fl K} (hx : NotLonger x x') (t : Str) :
    Option.Rel NotLonger ((m.put k x).get t) ((m'.put k x').get t) := by
  rw [VMap.get_put, VMap.get_put]
  split
  · exact .some hx
  · exact h t

theorem storeTool_later {c : Cfg K} {n : Pace K} {s s' : St K} (ht : s'.tool = s.tool) (h : Later s s') :
    Later (storeTool c s) (storeTool (ct n c) s') := by
  refine ⟨h.total, h.tool, h.work, h.fast, ?_⟩
  intro t
  unfold storeTool
  dsimp only
  rw [ht]
  split
  · exact put_rel h.tools _ h.tool t
  · exact h.tools t

theorem fetchTool_later {c : Cfg K} {n : Pace K} (hn : Slower c n) {s s' : St K} (ht : s'.tool = s.tool) (h : Later s s') :
    Later (fetchTool c s) (fetchTool (ct n c) s') := by
  unfold fetchTool
  dsimp only
  rw [show (ct n c).toolExchanges = c.toolExchanges from rfl]
  have h1 : Later { s with path := { s.path with toolId := s.tool }, time := { s.time with toolId := s.tool } }
      { s' with path := { s'.path with toolId := s'.tool }, time := { s'.time with toolId := s'.tool } } :=
    ⟨h.total, h.tool, h.work, h.fast, h.tools⟩
  have h2 : Later (if c.toolExchanges = true then
        exchangeTimes c { s with path := { s.path with toolId := s.tool }, time := { s.time with toolId := s.tool } }
      else { s with path := { s.path with toolId := s.tool }, time := { s.time with toolId := s.tool } })
      (if c.toolExchanges = true then
        exchangeTimes (ct n c) { s' with path := { s'.path with toolId := s'.tool }, time := { s'.time with toolId := s'.tool } }
      else { s' with path := { s'.path with toolId := s'.tool }, time := { s'.time with toolId := s'.tool } }) := by
    split
    · exact exchangeTimes_later hn h1
    · exact h1
  have ht2 : (if c.toolExchanges = true then
        exchangeTimes (ct n c) { s' with path := { s'.path with toolId := s'.tool }, time := { s'.time with toolId := s'.tool } }
      else { s' with path := { s'.path with toolId := s'.tool }, time := { s'.time with toolId := s'.tool } } : St K).tool =
      (if c.toolExchanges = true then
        exchangeTimes c { s with path := { s.path with toolId := s.tool }, time := { s.time with toolId := s.tool } }
      else { s with path := { s.path with toolId := s.tool }, time := { s.time with toolId := s.tool } } : St K).tool := by
    have e1 : ∀ (c : Cfg K) (s : St K), (exchangeTimes c s).tool = s.tool := by
      intro c s
      unfold exchangeTimes
      dsimp only
      split <;> rfl
    split
    · rw [e1, e1]; exact ht
    · exact ht
  refine ⟨h2.total, ?_, h2.work, h2.fast, h2.tools⟩
  dsimp only
  rw [ht2]
  have := h2.tools (if c.toolExchanges = true then
        exchangeTimes c { s with path := { s.path with toolId := s.tool }, time := { s.time with toolId := s.tool } }
      else { s with path := { s.path with toolId := s.tool }, time := { s.time with toolId := s.tool } } : St K).tool
  revert this
  generalize VMap.get _ _ = o
  generalize VMap.get _ _ = o'
  intro this
  cases this with
  | some h => exact h
  | none => exact le_refl (0 : K)

theorem tAlone_clock (c : Cfg K) (v : Vis K) (s : St K) : clock (tAlone c v s).1 = clock s := by
  unfold tAlone
  split
  · rfl
  · cases tWithG v <;> rfl

theorem Later.clock {s s' S S' : St K} (h : Later s s') (h1 : Rts.clock S = Rts.clock s) (h2 : Rts.clock S' = Rts.clock s') : Later S S' := by
  have e1 : S.time = s.time := congrArg Clock.time h1
  have e2 : S.tTime = s.tTime := congrArg Clock.tTime h1
  have e3 : S'.time = s'.time := congrArg Clock.time h2
  have e4 : S'.tTime = s'.tTime := congrArg Clock.tTime h2
  refine ⟨?_, ?_, ?_, ?_, ?_⟩
  · rw [e1, e3]; exact h.total
  · rw [e1, e3]; exact h.tool
  · rw [e1, e3]; exact h.work
  · rw [e1, e3]; exact h.fast
  · rw [e2, e4]; exact h.tools

theorem toolPart_later {c : Cfg K} {n : Pace K} (hn : Slower c n) (line : Int) (v : Vis K) (a b : Option K) {s s' : St K} (m : MacroMap ℚ)
    (ht : s'.tool = s.tool) (h : Later s s') : Later (toolPart c line v (s, m)).1.1 (toolPart (ct n c) line (vt a b v) (s', m)).1.1 := by
  unfold toolPart
  rw [show toolOf (vt a b v) = toolOf v from rfl]
  cases toolOf v with
  | none => exact h
  | some tl =>
    dsimp only
    rw [show (ct n c).toolExchanges = c.toolExchanges from rfl, show (vt a b v).m6 = v.m6 from rfl]
    have hs := storeTool_later (c := c) (n := n) ht h
    have hst : Later { storeTool c s with tool := tl } { storeTool (ct n c) s' with tool := tl } :=
      ⟨hs.total, hs.tool, hs.work, hs.fast, hs.tools⟩
    split
    · cases stodE tl with
      | throw e => exact hst
      | ub => exact hst
      | ok q => exact (fetchTool_later (s := { storeTool c s with tool := tl }) (s' := { storeTool (ct n c) s' with tool := tl }) hn rfl hst).clock (tAlone_clock c v _) (tAlone_clock (ct n c) (vt a b v) _)
    · exact (fetchTool_later hn (show (storeTool (ct n c) s').tool = (storeTool c s).tool from ht) hs).clock (tAlone_clock c v _)
        (tAlone_clock (ct n c) (vt a b v) _)

theorem dwell_later (v : Vis K) (a b : Option K) {s s' : St K} (h : Later s s') : Later (dwell v s) (dwell (vt a b v) s') := by
  have hw : ∀ (w : Str) {s s' : St K}, Later s s' → Later (dwellWord v w s) (dwellWord (vt a b v) w s') := by
    intro w s s' h
    unfold dwellWord
    rw [show (vt a b v).vals = v.vals from rfl]
    cases v.vals.get w with
    | none => exact h
    | some x => exact addTime_later h (le_refl x)
  unfold dwell
  rw [show (vt a b v).otherG = v.otherG from rfl]
  split
  · exact hw _ (hw _ (hw _ h))
  · exact h

/-- Not below zero. -/
def NotNeg (x : Fl K) : Prop := ∀ y, x = some y → 0 ≤ y

theorem calcTime_later {w f f' : K} (hw : 0 ≤ w) (hf : 0 ≤ f) (h1 : f ≤ f') (h2 : f = 0 → f' = 0) :
    NotLonger (mulF 60 (calcTime w f)) (mulF 60 (calcTime w f')) := by
  unfold calcTime
  by_cases h0 : f = 0
  · rw [if_pos h0, if_pos (h2 h0)]
    trivial
  · have hp : 0 < f := lt_of_le_of_ne hf (Ne.symm h0)
    rw [if_neg h0, if_neg (ne_of_gt (lt_of_lt_of_le hp h1))]
    exact mul_le_mul_of_nonneg_left (div_le_div_of_nonneg_left hw hp h1) (by norm_num)

theorem fastTime_later {c : Cfg K} {n : Pace K} (hn : AsHigh c.maxFast n.maxFast) {w : Fl K} (hw : NotNeg w) :
    NotLonger (fastTime c w) (fastTime (ct n c) w) := by
  have hp : 0 < n.maxFast ↔ 0 < c.maxFast := by
    rcases hn with h | ⟨h1, h2⟩
    · rw [h]
    · exact ⟨fun _ => h1, fun _ => lt_of_lt_of_le h1 h2⟩
  cases w with
  | none =>
    show NotLonger (if 0 < c.maxFast then none else some 0) (if 0 < n.maxFast then none else some 0)
    by_cases h : 0 < c.maxFast
    · rw [if_pos h, if_pos (hp.mpr h)]; trivial
    · rw [if_neg h, if_neg (fun g => h (hp.mp g))]; exact le_refl (0 : K)
  | some w =>
    show NotLonger (if w ≠ 0 ∧ 0 < c.maxFast then _ else _) (if w ≠ 0 ∧ 0 < n.maxFast then _ else _)
    by_cases h : w ≠ 0 ∧ 0 < c.maxFast
    · rw [if_pos h, if_pos ⟨h.1, hp.mpr h.2⟩]
      refine calcTime_later (hw w rfl) (le_of_lt h.2) ?_ (fun h0 => absurd h0 (ne_of_gt h.2))
      rcases hn with h | h
      · exact le_of_eq h.symm
      · exact h.2
    · rw [if_neg h, if_neg (fun g => h ⟨g.1, hp.mp g.2⟩)]
      exact le_refl (0 : K)

theorem workTime_later {F : Fns K} (hF : 0 < F.pi) {c : Cfg K} {n : Pace K} (inch : Inch) {cur : Cur K} {x y : K} (hx : AsHigh cur.f x)
    (hy : AsHigh cur.s y) {w : Fl K} (hw : NotNeg w)
    (hs : ¬ (w ≠ some 0 ∧ 0 < cur.f ∧ latheProg c cur.plane = true ∧ cur.perRev = true ∧ cur.s < 0)) :
    NotLonger (workTime F c inch cur w) (workTime F (ct n c) inch (kt x y cur) w) := by
  have hp : 0 < x ↔ 0 < cur.f := by
    rcases hx with h | ⟨h1, h2⟩
    · rw [h]
    · exact ⟨fun _ => h1, fun _ => lt_of_lt_of_le h1 h2⟩
  cases w with
  | none =>
    show NotLonger (if 0 < cur.f then none else some 0) (if 0 < x then none else some 0)
    by_cases h : 0 < cur.f
    · rw [if_pos h, if_pos (hp.mpr h)]; trivial
    · rw [if_neg h, if_neg (fun g => h (hp.mp g))]; exact le_refl (0 : K)
  | some w =>
    show NotLonger (if w ≠ 0 ∧ 0 < cur.f then _ else _) (if w ≠ 0 ∧ 0 < x then _ else _)
    by_cases h : w ≠ 0 ∧ 0 < cur.f
    · rw [if_pos h, if_pos ⟨h.1, hp.mpr h.2⟩]
      have hw0 : 0 < w := lt_of_le_of_ne (hw w rfl) (Ne.symm h.1)
      have hfx : cur.f ≤ x := by
        rcases hx with h | h
        · exact le_of_eq h.symm
        · exact h.2
      have hsy : cur.s ≤ y := by
        rcases hy with h | h
        · exact le_of_eq h.symm
        · exact h.2
      have key : ∀ k : K, 0 < k → 0 ≤ cur.s → 0 ≤ cur.f * (cur.s * k) ∧ cur.f * (cur.s * k) ≤ x * (y * k) ∧
          (cur.f * (cur.s * k) = 0 → x * (y * k) = 0) := by
        intro k hk h0
        have p1 : 0 ≤ cur.s * k := mul_nonneg h0 (le_of_lt hk)
        refine ⟨mul_nonneg (le_of_lt h.2) p1, mul_le_mul hfx (mul_le_mul_of_nonneg_right hsy (le_of_lt hk)) p1 (le_of_lt (hp.mpr h.2)), ?_⟩
        intro hz
        have hs0 : cur.s = 0 := by
          rcases mul_eq_zero.mp hz with q | q
          · exact absurd q (ne_of_gt h.2)
          · rcases mul_eq_zero.mp q with q | q
            · exact q
            · exact absurd q (ne_of_gt hk)
        rcases hy with q | q
        · rw [q, hs0]; ring
        · rw [hs0] at q; exact absurd q.1 (lt_irrefl _)
      unfold feedPerMinute
      show NotLonger (mulF 60 (calcTime w (if latheProg c cur.plane = true ∧ cur.perRev = true then
          if cur.css = true then cur.f * surface F inch cur.s w else cur.f * cur.s else cur.f)))
        (mulF 60 (calcTime w (if latheProg c cur.plane = true ∧ cur.perRev = true then
          if cur.css = true then x * surface F inch y w else x * y else x)))
      split
      · rename_i hl
        have h0 : 0 ≤ cur.s := by
          by_contra hneg
          exact hs ⟨by simpa using h.1, h.2, hl.1, hl.2, not_le.mp hneg⟩
        split
        · have hk : 0 < (if inch = true then (12 : K) else 1000) / (F.pi * w) := by
            refine div_pos ?_ (mul_pos hF hw0)
            split <;> norm_num
          obtain ⟨k1, k2, k3⟩ := key _ hk h0
          have e : ∀ z : K, surface F inch z w = z * ((if inch = true then (12 : K) else 1000) / (F.pi * w)) := by
            intro z
            unfold surface
            rw [mul_div_assoc]
          rw [e, e]
          exact calcTime_later (le_of_lt hw0) k1 k2 k3
        · obtain ⟨k1, k2, k3⟩ := key 1 one_pos h0
          simp only [mul_one] at k1 k2 k3
          exact calcTime_later (le_of_lt hw0) k1 k2 k3
      · exact calcTime_later (le_of_lt hw0) (le_of_lt h.2) hfx (fun q => absurd q (ne_of_gt h.2))
    · rw [if_neg h, if_neg (fun g => h ⟨g.1, hp.mp g.2⟩)]
      exact le_refl (0 : K)

section
variable [FloorRing K]

theorem account_later {F : Fns K} (hF : 0 < F.pi) {c : Cfg K} {n : Pace K} (hn : Slower c n) (inch : Inch) (v : Vis K) (a b : Option K) {cur : Cur K}
    {x y : K} (hx : AsHigh cur.f x) (hy : AsHigh cur.s y) {s s' : St K} (hp : s'.path = s.path) (h : Later s s')
    (hok : (account F c inch v cur s).2 = .ok true) (hw : NotNeg s.path.work) (hq : NotNeg s.path.fast)
    (hok' : (account F (ct n c) inch (vt a b v) (kt x y cur) s').2 = .ok true) :
    Later (account F c inch v cur s).1 (account F (ct n c) inch (vt a b v) (kt x y cur) s').1 := by
  have save : ∀ (c : Cfg K) (v : Vis K) (S : St K), clock (savePositions c v S) = clock S := by
    intro c v S
    unfold savePositions
    split
    · rfl
    · split <;> rfl
  have hw' := workTime_later (n := n) hF inch hx hy hw (c := c)
  have hq' := fastTime_later hn.fast hq
  unfold account at hok hok' ⊢
  dsimp only at hok hok' ⊢
  have hc1 : checks c cur (addTimes F c inch cur (addPath (saveModal c cur s))) = .ok () := by
    generalize checks c cur _ = o at hok
    cases o with
    | ok u => rfl
    | throw e => cases hok
    | ub => cases hok
  have hc2 : checks (ct n c) (kt x y cur) (addTimes F (ct n c) inch (kt x y cur) (addPath (saveModal (ct n c) (kt x y cur) s'))) = .ok () := by
    generalize checks (ct n c) _ _ = o at hok'
    cases o with
    | ok u => rfl
    | throw e => cases hok'
    | ub => cases hok'
  rw [hc1, hc2]
  dsimp only
  have hs : ¬ (s.path.work ≠ some 0 ∧ 0 < cur.f ∧ latheProg c cur.plane = true ∧ cur.perRev = true ∧ cur.s < 0) := by
    intro hbad
    unfold checks at hc1
    have hwk : (addTimes F c inch cur (addPath (saveModal c cur s))).path.work = s.path.work := rfl
    have hfk : (addTimes F c inch cur (addPath (saveModal c cur s))).path.fast = s.path.fast := rfl
    rw [hwk, hfk] at hc1
    split_ifs at hc1
  have k1 := hw' hs
  refine Later.clock ?_ (save c v _) (save (ct n c) (vt a b v) _)
  unfold addTimes addPath saveModal
  dsimp only
  rw [hp]
  have hsum := notLonger_add k1 hq'
  exact ⟨notLonger_add h.total hsum, notLonger_add h.tool hsum, k1, hq', h.tools⟩

omit [IsStrictOrderedRing K] in
theorem telling_high : Telling (AsHigh (K := K)) := by
  constructor
  · intro x y h
    rcases h with h | h
    · rw [h]
    · exact ⟨fun g => absurd (lt_of_lt_of_le h.1 h.2) (not_lt.mpr (le_of_lt g)), fun g => absurd h.1 (not_lt.mpr (le_of_lt g))⟩
  · intro x y h
    rcases h with h | h
    · rw [h]
    · exact ⟨fun _ => h.1, fun _ => lt_of_lt_of_le h.1 h.2⟩

omit [IsStrictOrderedRing K] in
theorem account_lengths (F : Fns K) (c : Cfg K) (inch : Inch) (v : Vis K) (cur : Cur K) (s : St K) :
    (account F c inch v cur s).1.path.work = s.path.work ∧ (account F c inch v cur s).1.path.fast = s.path.fast := by
  unfold account savePositions
  dsimp only
  split
  · dsimp only
    split_ifs <;> exact ⟨rfl, rfl⟩
  · exact ⟨rfl, rfl⟩
  · exact ⟨rfl, rfl⟩

omit [IsStrictOrderedRing K] in
theorem account_true {F : Fns K} {c : Cfg K} {inch : Inch} {v : Vis K} {cur : Cur K} {s : St K}
    (h : finish (account F c inch v cur s).2 = .ok ()) : (account F c inch v cur s).2 = .ok true := by
  unfold account at h ⊢
  dsimp only at h ⊢
  cases hc : checks c cur (addTimes F c inch cur (addPath (saveModal c cur s))) with
  | ok u => rfl
  | throw e => rw [hc] at h; cases h
  | ub => rw [hc] at h; cases h

theorem moveBlock_later {F : Fns K} (hF : 0 < F.pi) {c : Cfg K} {n : Pace K} (hn : Slower c n) (inch : Inch) {v v' : Vis K}
    (hv : SameV AsHigh v v') {s s' : St K} (hs : Same AsHigh s s') (h : Later s s') (hok : finish (moveBlock F c inch v s).2 = .ok ())
    (hw : NotNeg (moveBlock F c inch v s).1.path.work) (hq : NotNeg (moveBlock F c inch v s).1.path.fast) :
    Later (moveBlock F c inch v s).1 (moveBlock F (ct n c) inch v' s').1 := by
  have hsame := (moveBlock_same telling_high F c n hn.fast inch hv hs).2
  obtain ⟨a, b, rfl, h1, h2⟩ := hv
  obtain ⟨u, rfl, h3, h4⟩ := hs
  obtain ⟨x, y, e, hx, hy⟩ := current_ot h1 h2 h3 h4
  have hm := motion_only F c v (current v s) s
  have hf : clock (motion F c v (current v s) s).1 = clock s := by
    obtain ⟨w1, w2, w3, w4, w5, hm⟩ := hm
    rw [hm]
    rfl
  unfold moveBlock at hok hw hq hsame ⊢
  rw [e, motion_ot] at hsame ⊢
  generalize motion F c v (current v s) s = p at hf hok hw hq hsame ⊢
  obtain ⟨S, o⟩ := p
  dsimp only at hf
  have hS : Later S (ot u S) := h.clock hf rfl
  cases o with
  | throw e => exact hS
  | ub => exact hS
  | ok z =>
    cases z with
    | false => exact hS
    | true =>
      change finish (account F c inch v (current v s) S).2 = .ok () at hok
      change (account F (ct n c) inch (vt a b v) (kt x y (current v s)) (ot u S)).2 = (account F c inch v (current v s) S).2 at hsame
      change NotNeg (account F c inch v (current v s) S).1.path.work at hw
      change NotNeg (account F c inch v (current v s) S).1.path.fast at hq
      show Later (account F c inch v (current v s) S).1 (account F (ct n c) inch (vt a b v) (kt x y (current v s)) (ot u S)).1
      obtain ⟨l1, l2⟩ := account_lengths F c inch v (current v s) S
      rw [l1] at hw
      rw [l2] at hq
      have ht := account_true hok
      exact account_later hF hn inch v a b hx hy rfl hS ht hw hq (hsame.trans ht)

theorem afterTool_later {F : Fns K} (hF : 0 < F.pi) {c : Cfg K} {n : Pace K} (hn : Slower c n) (inch : Inch) {v v' : Vis K}
    (hv : SameV AsHigh v v') {s s' : St K} (hs : Same AsHigh s s') (h : Later s s') (hok : finish (afterTool F c inch v s).2 = .ok ())
    (hw : NotNeg (afterTool F c inch v s).1.path.work) (hq : NotNeg (afterTool F c inch v s).1.path.fast) :
    Later (afterTool F c inch v s).1 (afterTool F (ct n c) inch v' s').1 := by
  have hp := startPart_same c n hv hs
  have hd : Later (startPart c v (dwell v s)).1 (startPart (ct n c) v' (dwell v' s')).1 := by
    obtain ⟨a, b, rfl, _⟩ := hv
    exact (dwell_later v a b h).clock (startPart_clock c v _) (startPart_clock (ct n c) (vt a b v) _)
  unfold afterTool at hok hw hq ⊢
  generalize startPart c v (dwell v s) = p at hp hd hok hw hq ⊢
  generalize startPart (ct n c) v' (dwell v' s') = p' at hp hd ⊢
  obtain ⟨S, o⟩ := p
  obtain ⟨S', o'⟩ := p'
  obtain ⟨p1, p2⟩ := hp
  dsimp only at p1 p2 hd
  cases p2
  cases o with
  | throw e => exact hd
  | ub => exact hd
  | ok z =>
    cases z with
    | false => exact hd
    | true => exact moveBlock_later hF hn inch hv p1 hd hok hw hq

theorem evalVis_later {F : Fns K} (hF : 0 < F.pi) {c : Cfg K} {n : Pace K} (hn : Slower c n) (inch : Inch) (line : Int) {v v' : Vis K}
    (hv : SameV AsHigh v v') {s s' : St K} (hs : Same AsHigh s s') (m : MacroMap ℚ) (h : Later s s')
    (hok : (evalVis F c inch line v (s, m)).2 = .ok ()) (hw : NotNeg (evalVis F c inch line v (s, m)).1.1.path.work)
    (hq : NotNeg (evalVis F c inch line v (s, m)).1.1.path.fast) :
    Later (evalVis F c inch line v (s, m)).1.1 (evalVis F (ct n c) inch line v' (s', m)).1.1 := by
  have hv0 := hv
  obtain ⟨a, b, rfl, h1, h2⟩ := hv
  obtain ⟨u, rfl, h3, h4⟩ := hs
  have hl1 := mTimes_later hn v a b h
  unfold evalVis at hok hw hq ⊢
  dsimp only at hok hw hq ⊢
  obtain ⟨t, e⟩ := mTimes_ot c n v a b u s
  obtain ⟨r1, r2, _⟩ := mTimes_rates c v s
  rw [e] at hl1 ⊢
  have hl2 := toolPart_later hn line v a b m (s := mTimes c v s) (s' := ot { u with time := t } (mTimes c v s)) rfl hl1
  obtain ⟨t2, tt, e2⟩ := toolPart_ot c n line v a b { u with time := t } (mTimes c v s) m
  obtain ⟨q1, q2⟩ := toolPart_rates c line v (mTimes c v s, m)
  rw [e2] at hl2 ⊢
  have hS : Same AsHigh (toolPart c line v (mTimes c v s, m)).1.1 (ot ⟨u.f, u.s, t2, tt⟩ (toolPart c line v (mTimes c v s, m)).1.1) :=
    ⟨_, rfl, by rw [q1]; show AsHigh (mTimes c v s).f u.f; rw [r1]; exact h3,
      by rw [q2]; show AsHigh (mTimes c v s).s u.s; rw [r2]; exact h4⟩
  generalize toolPart c line v (mTimes c v s, m) = p at hS hl2 hok hw hq ⊢
  obtain ⟨⟨S, m2⟩, o⟩ := p
  dsimp only at hS hl2 hok hw hq ⊢
  cases o with
  | throw e => exact hl2
  | ub => exact hl2
  | ok z =>
    cases z with
    | false => exact hl2
    | true => exact afterTool_later hF hn inch hv0 hS hl2 hok hw hq

/-- **A block.** With rates as high or higher and a machine that is no slower, a block takes no longer. -/
theorem evaluate_later {F : Fns K} (hF : 0 < F.pi) {c : Cfg K} (hc : AxesOk c) {n : Pace K} (hn : Slower c n) (inch : Inch) (line : Int) {b b' : Block}
    (hb : List.Forall₂ (Spec.Rates.Word Spec.Rates.Higher) b b') {s s' : St K} (hs : Same AsHigh s s') (m : MacroMap ℚ) (h : Later s s')
    (hok : (evaluate F c inch line b (s, m)).2 = .ok ()) (hw : NotNeg (evaluate F c inch line b (s, m)).1.1.path.work)
    (hq : NotNeg (evaluate F c inch line b (s, m)).1.1.path.fast) :
    Later (evaluate F c inch line b (s, m)).1.1 (evaluate F (ct n c) inch line b' (s', m)).1.1 := by
  have hs' : Same AsHigh (clearMotions s) (clearMotions s') := by
    obtain ⟨u, rfl, h3, h4⟩ := hs
    exact ⟨clock (clearMotions (ot u s)), rfl, h3, h4⟩
  have hl : Later (clearMotions s) (clearMotions s') := ⟨h.total, h.tool, le_refl (0 : K), le_refl (0 : K), h.tools⟩
  unfold evaluate at hok hw hq ⊢
  dsimp only at hok hw hq ⊢
  have hn0 : b' = [] ↔ b = [] := by
    cases hb <;> simp
  have hP : ∀ q q' : ℚ, Spec.Rates.Higher q q' → AsHigh (q : K) (q' : K) := by
    intro q q' h
    exact Or.inr ⟨by exact_mod_cast h.1, by exact_mod_cast h.2⟩
  have hv := visitAll_same (R := AsHigh) (c := c) hc n hP (fun x => Or.inl rfl) hb (v := {}) (v' := {}) ⟨none, none, rfl, .none, .none⟩
  by_cases h0 : b = []
  · rw [if_pos h0, if_pos (hn0.mpr h0)]
    exact hl
  · rw [if_neg h0] at hok hw hq ⊢
    rw [if_neg (fun h => h0 (hn0.mp h))]
    revert hv hok hw hq
    generalize visitAll c {} b = o
    generalize visitAll (ct n c) {} b' = o'
    intro hok hw hq hv
    cases o <;> cases o'
    case ok.ok => exact evalVis_later hF hn inch line hv hs' m hl hok hw hq
    case throw.throw => exact hl
    case ub.ub => exact hl
    all_goals exact hv.elim

end
end
end NC.Rts
