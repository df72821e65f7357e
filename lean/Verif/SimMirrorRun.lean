import Verif.SimMirror

/-!
# The simulation of programs for a mirrored part
-/

namespace NC.Mir
open NC NC.Path NC.Ver NC.AttrPath NC.Spec.Sim NC.Props
open NC.Spec.Similar (threeAxes)
open NC.Spec.Moved (Dwell)
open NC.Spec.Mirror (Flip Arcs Blocks)
open NC.Mvd (wordsAt Dwells plane_xy otherG_dwell programmed_none copyBack_fresh)

section
variable {K : Type} [Field K] [LinearOrder K] [IsStrictOrderedRing K] (f : Flip) {F : Fns K} (hF : OddAtan F)

include hF in
theorem arcStep_mv (c : Cfg K) (cur : Cur K) (hg : cur.g = 2 ∨ cur.g = 3) (p : CPart K) :
    arcStep F (mvC f c) (mvU f cur) ax17 (mvQ f p) = mvP f (arcStep F c cur ax17 p) := by
  obtain ⟨⟨s, w⟩, o⟩ := p
  cases o with
  | throw e => rfl
  | ub => rfl
  | ok b =>
    cases b with
    | false => rfl
    | true =>
      unfold arcStep mvQ
      dsimp only
      by_cases h : s.helix = .none
      · rw [if_pos h]
        refine (if_pos (show (mvS f s).helix = .none from h)).trans ?_
        exact arc_mv f hF c cur hg s w
      · rw [if_neg h]
        refine (if_neg (show ¬ (mvS f s).helix = .none from h)).trans ?_
        rfl

omit [IsStrictOrderedRing K] in
theorem helixStep_mv (F : Fns K) (incr first : Bool) (p : CPart K) :
    helixStep F ax17 incr first (mvQ f p) = mvQ f (helixStep F ax17 incr first p) := by
  obtain ⟨⟨s, w⟩, o⟩ := p
  cases o with
  | throw e => rfl
  | ub => rfl
  | ok b =>
    unfold helixStep mvQ
    dsimp only
    by_cases h : s.helix = .none
    · rw [if_pos h]
      exact if_pos (show (mvS f s).helix = .none from h)
    · rw [if_neg h]
      refine (if_neg (show ¬ (mvS f s).helix = .none from h)).trans ?_
      exact helixRun_mv f F incr first s w

omit [IsStrictOrderedRing K] in
theorem wordsAt_mv (v : Vis K) (xp yp : K) (s : St K) :
    wordsAt (mvV f v) ax17 (f.onto c!"X" xp) (f.onto c!"Y" yp) (mvS f s) = mvW f (wordsAt v ax17 xp yp s) := by
  unfold wordsAt
  have e3 : (mvV f v).vals.get ax17.p3 = v.vals.get ax17.p3 := vals_other f v (flips_K f)
  have ez : (mvV f v).vals.get ax17.a3 = v.vals.get ax17.a3 := vals_other f v (flips_Z f)
  have ep : (mvS f s).prev.get ax17.a3 = s.prev.get ax17.a3 := prev_other f s (flips_Z f)
  have e1 : (mvV f v).vals.get ax17.p1 = (v.vals.get ax17.p1).map (f.onto c!"I") := vals_mv f v _
  have e2 : (mvV f v).vals.get ax17.p2 = (v.vals.get ax17.p2).map (f.onto c!"J") := vals_mv f v _
  have ex : (mvV f v).vals.get ax17.a1 = (v.vals.get ax17.a1).map (f.onto c!"X") := vals_mv f v _
  have ey : (mvV f v).vals.get ax17.a2 = (v.vals.get ax17.a2).map (f.onto c!"Y") := vals_mv f v _
  rw [e3, ez, ep, e1, e2, ex, ey, vals_other f v (flips_R f), vals_other f v (flips_Q f), vals_other f v (flips_L f)]
  rfl

include hF in
theorem circularFrom_mv (c : Cfg K) (v : Vis K) (cur : Cur K) (hg : cur.g = 2 ∨ cur.g = 3) (xp yp : K) (s : St K) :
    circularFrom F (mvC f c) (mvV f v) (mvU f cur) ax17 (f.onto c!"X" xp) (f.onto c!"Y" yp) (mvS f s) =
      mvP f (circularFrom F c v cur ax17 xp yp s) := by
  have e : ∀ (c : Cfg K) (v : Vis K) (cur : Cur K) (xp yp : K) (s : St K), circularFrom F c v cur ax17 xp yp s =
      if (wordsAt v ax17 xp yp s).q.isSome ∨ (wordsAt v ax17 xp yp s).l.isSome then
        arcStep F c cur ax17 (helixStep F ax17 cur.incr false (spiral F ax17 s (wordsAt v ax17 xp yp s)))
      else arcStep F c cur ax17 (helixStep F ax17 cur.incr (helixStart ax17 s (wordsAt v ax17 xp yp s)).2 (helixStart ax17 s (wordsAt v ax17 xp yp s)).1) :=
    fun _ _ _ _ _ _ => rfl
  rw [e, e, wordsAt_mv f v, spiral_mv f F, helixStart_mv f s, helixStep_mv f F, helixStep_mv f F, arcStep_mv f hF c cur hg,
    arcStep_mv f hF c cur hg]
  generalize wordsAt v ax17 xp yp s = w
  by_cases hq : w.q.isSome = true ∨ w.l.isSome = true
  · rw [if_pos hq]
    exact if_pos (show (mvW f w).q.isSome = true ∨ (mvW f w).l.isSome = true from hq)
  · rw [if_neg hq]
    exact if_neg (show ¬ ((mvW f w).q.isSome = true ∨ (mvW f w).l.isSome = true) from hq)

omit [LinearOrder K] [IsStrictOrderedRing K] in
theorem empty_iff (v : Vis K) : ((mvV f v).g = none ∧ (mvV f v).vals = []) ↔ (v.g = none ∧ v.vals = []) := by
  show (v.g.map f.motion = none ∧ mv f v.vals = []) ↔ _
  rw [Option.map_eq_none_iff, mv_nil]

include hF in
theorem circular_mv {c : Cfg K} (hc : c.cancel2 = c.cancel3) (v : Vis K) (cur : Cur K) (hg : cur.g = 2 ∨ cur.g = 3) (hp : cur.plane = .xy) (s : St K) :
    circular F (mvC f c) (mvV f v) (mvU f cur) (mvS f s) = mvP f (circular F c v cur s) := by
  have e : ∀ (c : Cfg K) (v : Vis K) (cur : Cur K) (s : St K), cur.plane = .xy → circular F c v cur s =
      if v.g = none ∧ v.vals = [] then (s, .ok false)
      else
        match s.prev.get c!"X", s.prev.get c!"Y" with
        | none, _ => (cancelBy c cur.g s, .throw (err .MissingPreviousValue [c!"X"]))
        | some _, none => (cancelBy c cur.g s, .throw (err .MissingPreviousValue [c!"Y"]))
        | some xp, some yp => circularFrom F c v cur ax17 xp yp (cancelBy c cur.g s) := by
    intro c v cur s h
    unfold circular
    rw [h]
    rfl
  rw [e _ _ (mvU f cur) _ hp, e c v cur s hp]
  by_cases h0 : v.g = none ∧ v.vals = []
  · rw [if_pos h0, if_pos ((empty_iff f v).mpr h0)]
    rfl
  · rw [if_neg h0, if_neg (fun h => h0 ((empty_iff f v).mp h))]
    have e2 : cancelBy (mvC f c) (mvU f cur).g (mvS f s) = mvS f (cancelBy c cur.g s) := cancelBy_mv f hc cur.g s
    rw [prev_mv, prev_mv, e2]
    cases s.prev.get c!"X" with
    | none => rfl
    | some xp =>
      cases s.prev.get c!"Y" with
      | none => rfl
      | some yp => exact circularFrom_mv f hF c v cur hg xp yp _

/-! ## Drilling -/

variable [FloorRing K]

omit [IsStrictOrderedRing K] in
theorem drills_same (zp zg r : K) (d : Depth) (g : Int) (ret : Ret) : drill zp zg r d (f.motion g) ret = drill zp zg r d g ret := by
  rcases motion_cases f g with h | ⟨_, h, h'⟩ | ⟨_, h, h'⟩
  · rw [h]
  · rw [h', h]; rfl
  · rw [h', h]; rfl

omit [IsStrictOrderedRing K] in
theorem cycleOf_mv (F : Fns K) (c : Cfg K) (cur : Cur K) (hg : isDrill cur.g = true ∨ isDrillQ cur.g = true) (zp zg r : K) (q : Option K) :
    cycleOf F (mvC f c) (mvU f cur) zp zg r q = cycleOf F c cur zp zg r q := by
  have e : mvU f cur = cur := by
    unfold mvU
    rw [motion_other f]
    · rintro h; rw [h] at hg; revert hg; decide
    · rintro h; rw [h] at hg; revert hg; decide
  rw [e]
  rfl

omit [IsStrictOrderedRing K] in
theorem cyclePart_mv (F : Fns K) (c : Cfg K) (v : Vis K) (cur : Cur K) (hg : isDrill cur.g = true ∨ isDrillQ cur.g = true) (hp : cur.plane = .xy) (s : St K) :
    cyclePart F (mvC f c) (mvV f v) (mvU f cur) (mvS f s) = mvP f (cyclePart F c v cur s) := by
  unfold cyclePart
  have hp' : (mvU f cur).plane = .xy := hp
  rw [hp, hp']
  dsimp only
  have e1 : (mvV f v).vals.get (axesOf .xy).a3 = v.vals.get (axesOf .xy).a3 := vals_other f v (flips_Z f)
  have e2 : (mvS f s).prev.get (axesOf .xy).a3 = s.prev.get (axesOf .xy).a3 := prev_other f s (flips_Z f)
  rw [vals_other f v (flips_K f), vals_other f v (flips_R f), vals_other f v (flips_Q f), e1, e2]
  by_cases h0 : s.path.holes ≠ 0 ∧ v.vals.get c!"K" = none
  · rw [if_pos h0]
    exact if_pos (show (mvS f s).path.holes ≠ 0 ∧ v.vals.get c!"K" = none from h0)
  · rw [if_neg h0]
    refine (if_neg (show ¬ ((mvS f s).path.holes ≠ 0 ∧ v.vals.get c!"K" = none) from h0)).trans ?_
    cases s.prev.get (axesOf .xy).a3 with
    | none => rfl
    | some zp =>
      dsimp only
      by_cases h1 : v.vals.get (axesOf .xy).a3 = none ∧ c.depthless = false
      · rw [if_pos h1]
        exact if_pos (show v.vals.get (axesOf .xy).a3 = none ∧ (mvC f c).depthless = false from h1)
      · rw [if_neg h1]
        refine (if_neg (show ¬ (v.vals.get (axesOf .xy).a3 = none ∧ (mvC f c).depthless = false) from h1)).trans ?_
        cases v.vals.get c!"R" with
        | none => rfl
        | some r =>
          dsimp only
          have e3 : cycleOf F (mvC f c) (mvU f cur) zp (if (mvC f c).depthless = true then 0 else (v.vals.get (axesOf .xy).a3).getD 0) r (v.vals.get c!"Q") =
            cycleOf F c cur zp (if c.depthless = true then 0 else (v.vals.get (axesOf .xy).a3).getD 0) r (v.vals.get c!"Q") :=
            cycleOf_mv f F c cur hg _ _ _ _
          rw [e3]
          cases cycleOf F c cur zp (if c.depthless = true then 0 else (v.vals.get (axesOf .xy).a3).getD 0) r (v.vals.get c!"Q") <;> rfl

omit [IsStrictOrderedRing K] in
theorem holePart_mv (F : Fns K) (v : Vis K) (cur : Cur K) (hp : cur.plane = .xy) (s : St K) :
    holePart F (mvV f v) (mvU f cur) (mvS f s) = mvP f (holePart F v cur s) := by
  unfold holePart
  have hp' : (mvU f cur).plane = .xy := hp
  have hi' : (mvU f cur).incr = cur.incr := rfl
  rw [hp, hp', hi']
  dsimp only
  have ex : (mvV f v).vals.get (axesOf .xy).a1 = (v.vals.get (axesOf .xy).a1).map (f.onto c!"X") := vals_mv f v _
  have ey : (mvV f v).vals.get (axesOf .xy).a2 = (v.vals.get (axesOf .xy).a2).map (f.onto c!"Y") := vals_mv f v _
  have px : (mvS f s).prev.get (axesOf .xy).a1 = (s.prev.get (axesOf .xy).a1).map (f.onto c!"X") := prev_mv f s _
  have py : (mvS f s).prev.get (axesOf .xy).a2 = (s.prev.get (axesOf .xy).a2).map (f.onto c!"Y") := prev_mv f s _
  rw [vals_other f v (flips_K f), ex, ey, px, py]
  cases s.prev.get (axesOf .xy).a1 with
  | none => rfl
  | some xp =>
    cases s.prev.get (axesOf .xy).a2 with
    | none => rfl
    | some yp =>
      dsimp only [Option.map_some]
      rw [getD_onto, getD_onto, getD_onto0, getD_onto0]
      have hh : ∀ cy, hole F (f.onto c!"X" xp) (f.onto c!"Y" yp) (f.onto c!"X" ((v.vals.get (axesOf .xy).a1).getD xp))
          (f.onto c!"Y" ((v.vals.get (axesOf .xy).a2).getD yp)) cy = hole F xp yp ((v.vals.get (axesOf .xy).a1).getD xp) ((v.vals.get (axesOf .xy).a2).getD yp) cy := by
        intro cy; unfold hole; rw [dist2_onto]
      have hn : ∀ cy, holeIncr F (f.onto c!"X" ((v.vals.get (axesOf .xy).a1).getD 0)) (f.onto c!"Y" ((v.vals.get (axesOf .xy).a2).getD 0)) cy =
          holeIncr F ((v.vals.get (axesOf .xy).a1).getD 0) ((v.vals.get (axesOf .xy).a2).getD 0) cy := by
        intro cy; unfold holeIncr; rw [len2_onto]
      simp only [hh, hn]
      split
      · rfl
      · split
        · rfl
        · cases holesOf (v.vals.get c!"K") <;> rfl

omit [IsStrictOrderedRing K] [FloorRing K] [LinearOrder K] in
theorem andThen_mv {p : AttrPath.Part (St K)} {k k' : St K → AttrPath.Part (St K)} (h : k' (mvS f p.1) = mvP f (k p.1)) :
    (mvP f p).andThen k' = mvP f (p.andThen k) := by
  obtain ⟨s, o⟩ := p
  cases o with
  | throw e => rfl
  | ub => rfl
  | ok b =>
    cases b with
    | false => rfl
    | true => exact h

omit [IsStrictOrderedRing K] in
theorem drilling_mv (F : Fns K) (c : Cfg K) (v : Vis K) (cur : Cur K) (hg : isDrill cur.g = true ∨ isDrillQ cur.g = true) (hp : cur.plane = .xy) (s : St K) :
    drilling F (mvC f c) (mvV f v) (mvU f cur) (mvS f s) = mvP f (drilling F c v cur s) := by
  unfold drilling
  by_cases h0 : v.g = none ∧ v.vals = []
  · rw [if_pos h0, if_pos ((empty_iff f v).mpr h0)]
    rfl
  · rw [if_neg h0, if_neg (fun h => h0 ((empty_iff f v).mp h)), cyclePart_mv f F c v cur hg hp s]
    exact andThen_mv f (holePart_mv f F v cur hp _)

include hF in
theorem motion_mv {c : Cfg K} (hc : c.cancel2 = c.cancel3) (v : Vis K) (cur : Cur K) (hp : cur.plane = .xy) (s : St K) :
    motion F (mvC f c) (mvV f v) (mvU f cur) (mvS f s) = mvP f (motion F c v cur s) := by
  unfold motion
  have e0 : ((mvU f cur).g = 0 ∨ (mvU f cur).g = 1) ↔ (cur.g = 0 ∨ cur.g = 1) := by
    show (f.motion cur.g = 0 ∨ f.motion cur.g = 1) ↔ _
    rw [motion_iff f (by decide) (by decide), motion_iff f (by decide) (by decide)]
  have e2 : ((mvU f cur).g = 2 ∨ (mvU f cur).g = 3) ↔ (cur.g = 2 ∨ cur.g = 3) := motion_arc f cur.g
  have e8 : (mvU f cur).g = 80 ↔ cur.g = 80 := motion_iff f (by decide) (by decide) cur.g
  have ed : (isDrill (mvU f cur).g = true ∨ isDrillQ (mvU f cur).g = true) ↔ (isDrill cur.g = true ∨ isDrillQ cur.g = true) := by
    show (isDrill (f.motion cur.g) = true ∨ isDrillQ (f.motion cur.g) = true) ↔ _
    rw [motion_drill, motion_drillQ]
  simp only [e0, e2, e8, ed]
  split
  · exact linear_mv f F hc v cur s
  · split
    · rename_i h
      exact circular_mv f hF hc v cur h hp s
    · split
      · rfl
      · split
        · rename_i h
          exact drilling_mv f F c v cur h hp s
        · rfl

/-! ## A block -/

omit [FloorRing K] in
theorem savePositions_mv (c : Cfg K) (v : Vis K) (s : St K) (h : Ord s.range) :
    savePositions (mvC f c) (mvV f v) (mvS f s) = mvS f (savePositions c v s) := by
  unfold savePositions
  by_cases ht : atTool c v = true
  · rw [if_pos ht]
    refine (if_pos (show atTool (mvC f c) (mvV f v) = true from ht)).trans ?_
    exact copySt_mv f _ _ _ h
  · rw [if_neg ht]
    refine (if_neg (show ¬ atTool (mvC f c) (mvV f v) = true from ht)).trans ?_
    by_cases hb : atBase v = true
    · rw [if_pos hb]
      refine (if_pos (show atBase (mvV f v) = true from hb)).trans ?_
      exact copySt_mv f _ _ _ h
    · rw [if_neg hb]
      refine (if_neg (show ¬ atBase (mvV f v) = true from hb)).trans ?_
      exact copySt_mv f _ _ _ h

theorem account_mv (F : Fns K) (c : Cfg K) (inch : Inch) (v : Vis K) (cur : Cur K) (s : St K) (h : Ord s.range) :
    account F (mvC f c) inch (mvV f v) (mvU f cur) (mvS f s) = mvP f (account F c inch v cur s) := by
  unfold account
  dsimp only
  have e : addTimes F (mvC f c) inch (mvU f cur) (addPath (saveModal (mvC f c) (mvU f cur) (mvS f s))) =
      mvS f (addTimes F c inch cur (addPath (saveModal c cur s))) := by
    have eg : saveModal (mvC f c) (mvU f cur) (mvS f s) = mvS f (saveModal c cur s) := by
      unfold saveModal mvS
      dsimp only
      rw [show gAfter (mvC f c) (mvU f cur).g = f.motion (gAfter c cur.g) from motion_after f c cur.g]
      rfl
    rw [eg]
    rfl
  rw [e]
  generalize hs : addTimes F c inch cur (addPath (saveModal c cur s)) = s2
  have h2 : s2.range = s.range := by rw [← hs]; rfl
  have e2 : checks (mvC f c) (mvU f cur) (mvS f s2) = checks c cur s2 := rfl
  rw [e2]
  cases checks c cur s2 with
  | ok u =>
    dsimp only
    rw [savePositions_mv f c v s2 (by rw [h2]; exact h)]
    rfl
  | throw e => rfl
  | ub => rfl

omit [LinearOrder K] [IsStrictOrderedRing K] [FloorRing K] in
theorem dwell_mv (v : Vis K) (s : St K) (h : f.x = true → Dwells v) : dwell (mvV f v) (mvS f s) = mvS f (dwell v s) := by
  unfold dwell
  by_cases h0 : c!"04" ∈ v.otherG ∨ c!"4" ∈ v.otherG
  · rw [if_pos h0]
    refine (if_pos (show c!"04" ∈ (mvV f v).otherG ∨ c!"4" ∈ (mvV f v).otherG from h0)).trans ?_
    have key : ∀ a, (mvV f v).vals.get a = v.vals.get a → ∀ s, dwellWord (mvV f v) a (mvS f s) = mvS f (dwellWord v a s) := by
      intro a ha s
      unfold dwellWord
      rw [ha]
      cases v.vals.get a <;> rfl
    have hX : (mvV f v).vals.get c!"X" = v.vals.get c!"X" := by
      cases hx : f.x with
      | true => rw [vals_mv, h hx h0]; rfl
      | false => exact vals_other f v (by rcases f with ⟨_ | _, _ | _⟩ <;> first | rfl | cases hx)
    rw [key _ hX, key _ (vals_other f v (flips_U f)), key _ (vals_other f v (flips_P f))]
  · rw [if_neg h0]
    exact if_neg (show ¬ (c!"04" ∈ (mvV f v).otherG ∨ c!"4" ∈ (mvV f v).otherG) from h0)

omit [FloorRing K] in
theorem beforeMotion_mv (v : Vis K) (s : St K) (h : Ord s.range) : beforeMotion (mvV f v) (mvS f s) = mvS f (beforeMotion v s) :=
  copySt_mv f (v.incr.getD s.incr) v.otherG v.vals
    (s := { s with plane := v.plane.getD s.plane, incr := v.incr.getD s.incr, css := v.css.getD s.css, ret := v.ret.getD s.ret }) h

omit [FloorRing K] in
theorem startPart_mv (c : Cfg K) (v : Vis K) (s : St K) (h : Ord s.range) : startPart (mvC f c) (mvV f v) (mvS f s) = mvP f (startPart c v s) := by
  have z : f.motion 0 = 0 := motion_other f (by decide) (by decide)
  have z' : ∀ s : St K, ({ mvS f s with g := 0 } : St K) = mvS f { s with g := 0 } := by
    intro s; unfold mvS; rw [z]
  unfold startPart
  dsimp only
  have e : (if (atTool (mvC f c) (mvV f v) || atBase (mvV f v)) = true then { mvS f s with g := 0 } else mvS f s) =
      mvS f (if (atTool c v || atBase v) = true then { s with g := 0 } else s) := by
    by_cases ht : (atTool c v || atBase v) = true
    · rw [if_pos ht]
      exact (if_pos (show (atTool (mvC f c) (mvV f v) || atBase (mvV f v)) = true from ht)).trans (z' s)
    · rw [if_neg ht]
      exact if_neg (show ¬ (atTool (mvC f c) (mvV f v) || atBase (mvV f v)) = true from ht)
  rw [e]
  generalize hs : (if (atTool c v || atBase v) = true then { s with g := 0 } else s) = s2
  have hr : s2.range = s.range := by rw [← hs]; split <;> rfl
  rw [← hr] at h
  have hn : ((mvS f s2).autoRapid = true ∧ (mvV f v).vals ≠ []) ↔ (s2.autoRapid = true ∧ v.vals ≠ []) := by
    show (s2.autoRapid = true ∧ mv f v.vals ≠ []) ↔ _
    rw [Ne, mv_nil]
  have hb : ((!atTool (mvC f c) (mvV f v) && !atBase (mvV f v)) = true ∧ (mvS f s2).g = -1 ∧ (mvV f v).g = none) ↔
      ((!atTool c v && !atBase v) = true ∧ s2.g = -1 ∧ v.g = none) := by
    show ((!atTool c v && !atBase v) = true ∧ f.motion s2.g = -1 ∧ v.g.map f.motion = none) ↔ _
    rw [motion_iff f (by decide) (by decide), Option.map_eq_none_iff]
  by_cases h1 : s2.autoRapid = true ∧ v.vals ≠ []
  · rw [if_pos h1, if_pos (hn.mpr h1)]
    show ((({ mvS f { s2 with autoRapid := false } with g := 0 } : St K), Out.ok true) : AttrPath.Part (St K)) = _
    rw [z']
    rfl
  · rw [if_neg h1, if_neg (fun h => h1 (hn.mp h))]
    by_cases h2 : (!atTool c v && !atBase v) = true ∧ s2.g = -1 ∧ v.g = none
    · rw [if_pos h2, if_pos (hb.mpr h2), beforeMotion_mv f v s2 h]
      rfl
    · rw [if_neg h2, if_neg (fun h => h2 (hb.mp h))]
      rfl

include hF in
theorem moveBlock_mv {c : Cfg K} (hc : c.cancel2 = c.cancel3) (inch : Inch) (v : Vis K) (s : St K) (hk : Ord s.range) (hp : v.plane.getD s.plane = .xy) :
    moveBlock F (mvC f c) inch (mvV f v) (mvS f s) = mvP f (moveBlock F c inch v s) := by
  unfold moveBlock
  have e : current (mvV f v) (mvS f s) = mvU f (current v s) := by
    unfold current mvU
    dsimp only
    congr 1
    show (v.g.map f.motion).getD (f.motion s.g) = f.motion (v.g.getD s.g)
    cases v.g <;> rfl
  rw [e, motion_mv f hF hc v (current v s) hp s]
  have hr := Mvd.motion_range F c v (current v s) s
  refine andThen_mv f (account_mv f F c inch v (current v s) _ ?_)
  rw [hr]
  exact hk

include hF in
theorem afterTool_mv {c : Cfg K} (hc : c.cancel2 = c.cancel3) (inch : Inch) (v : Vis K) (s : St K) (hk : Ord s.range)
    (hd : f.x = true → Dwells v) (hp : v.plane.getD s.plane = .xy) :
    afterTool F (mvC f c) inch (mvV f v) (mvS f s) = mvP f (afterTool F c inch v s) := by
  unfold afterTool
  rw [dwell_mv f v s hd]
  obtain ⟨x, hx⟩ := dwell_fields v s
  have e2 : (dwell v s).range = s.range := by rw [hx]; rfl
  have e4 : (dwell v s).plane = s.plane := by rw [hx]; rfl
  rw [startPart_mv f c v (dwell v s) (by rw [e2]; exact hk)]
  have hg := Mvd.startPart_fields c v (dwell v s)
  generalize startPart c v (dwell v s) = p at hg ⊢
  obtain ⟨s2, o⟩ := p
  cases o with
  | throw e => rfl
  | ub => rfl
  | ok b =>
    cases b with
    | false => rfl
    | true =>
      obtain ⟨_, g2, g3, _⟩ := hg rfl
      dsimp only at g2 g3
      exact moveBlock_mv f hF hc inch v s2 (by rw [g2, e2]; exact hk) (by rw [g3, e4]; exact hp)

/-! ## The T word -/

omit [LinearOrder K] [IsStrictOrderedRing K] [FloorRing K] in
theorem mTimes_mv (c : Cfg K) (v : Vis K) (s : St K) : mTimes (mvC f c) (mvV f v) (mvS f s) = mvS f (mTimes c v s) := by
  unfold mTimes exchangeTimes
  dsimp only
  have key : ∀ (b : Prop) [Decidable b] (x : K) (s : St K), (if b then addTime x (mvS f s) else mvS f s) = mvS f (if b then addTime x s else s) := by
    intro b _ x s
    split <;> rfl
  have e1 : (if ¬ (mvC f c).toolExchanges = true ∧ (mvV f v).m6 = true then
      (if (mvC f c).autoMeasure = true then addTime (mvC f c).measureTime (addTime (mvC f c).exchangeTime (mvS f s)) else addTime (mvC f c).exchangeTime (mvS f s))
      else mvS f s) = mvS f (if ¬ c.toolExchanges = true ∧ v.m6 = true then
      (if c.autoMeasure = true then addTime c.measureTime (addTime c.exchangeTime s) else addTime c.exchangeTime s) else s) := by
    by_cases h : ¬ c.toolExchanges = true ∧ v.m6 = true
    · rw [if_pos h]
      refine (if_pos h).trans ?_
      exact key (c.autoMeasure = true) c.measureTime (addTime c.exchangeTime s)
    · rw [if_neg h]
      exact if_neg h
  rw [e1, key, key]
  rfl

omit [LinearOrder K] [IsStrictOrderedRing K] [FloorRing K] in
theorem fetchTool_mv (c : Cfg K) (s : St K) : fetchTool (mvC f c) (mvS f s) = mvS f (fetchTool c s) := by
  unfold fetchTool exchangeTimes
  dsimp only
  by_cases h : c.toolExchanges = true
  · rw [if_pos h, if_pos (show (mvC f c).toolExchanges = true from h)]
    by_cases h2 : c.autoMeasure = true
    · rw [if_pos h2, if_pos (show (mvC f c).autoMeasure = true from h2)]; rfl
    · rw [if_neg h2, if_neg (show ¬ (mvC f c).autoMeasure = true from h2)]; rfl
  · rw [if_neg h, if_neg (show ¬ (mvC f c).toolExchanges = true from h)]; rfl

/-- The outcome without the message: a message may name G2 or G3. -/
def soft {α : Type} : Out Exc α → Out Unit α
  | .ok a => .ok a
  | .throw _ => .throw ()
  | .ub => .ub

/-- The states are mirrored and the outcomes agree. -/
def Mirrored (f : Flip) (p p' : (St K × MacroMap ℚ) × Out Exc Bool) : Prop :=
  p'.1.1 = mvS f p.1.1 ∧ p'.1.2 = p.1.2 ∧ soft p'.2 = soft p.2

omit [FloorRing K] in
theorem tAlone_mv (c : Cfg K) (v : Vis K) (s : St K) (h : Ord s.range) :
    (tAlone (mvC f c) (mvV f v) (mvS f s)).1 = mvS f (tAlone c v s).1 ∧ soft (tAlone (mvC f c) (mvV f v) (mvS f s)).2 = soft (tAlone c v s).2 := by
  unfold tAlone
  by_cases ht : atTool c v = true
  · rw [if_pos ht, if_pos (show atTool (mvC f c) (mvV f v) = true from ht)]
    exact ⟨rfl, rfl⟩
  · rw [if_neg ht, if_neg (show ¬ atTool (mvC f c) (mvV f v) = true from ht)]
    have e : tWithG (mvV f v) = none ↔ tWithG v = none := by
      unfold tWithG mvV
      dsimp only
      cases v.g <;> simp
    cases hn : tWithG v with
    | some n =>
      cases hn' : tWithG (mvV f v) with
      | none => rw [e.mp hn'] at hn; cases hn
      | some n' => exact ⟨rfl, rfl⟩
    | none =>
      rw [e.mpr hn]
      dsimp only
      exact ⟨copySt_mv f _ _ _ h, rfl⟩

omit [FloorRing K] in
theorem toolPart_mv (c : Cfg K) (line : Int) (v : Vis K) (p : St K × MacroMap ℚ) (h : Ord p.1.range) :
    Mirrored f (toolPart c line v p) (toolPart (mvC f c) line (mvV f v) (mvS f p.1, p.2)) := by
  unfold toolPart
  have e : toolOf (mvV f v) = toolOf v := rfl
  rw [e]
  cases toolOf v with
  | none => exact ⟨rfl, rfl, rfl⟩
  | some t =>
    dsimp only
    by_cases hx : c.toolExchanges = true ∨ v.m6 = true
    · rw [if_pos hx, if_pos (show (mvC f c).toolExchanges = true ∨ (mvV f v).m6 = true from hx)]
      cases stodE t with
      | throw e => exact ⟨rfl, rfl, rfl⟩
      | ub => exact ⟨rfl, rfl, rfl⟩
      | ok q =>
        dsimp only
        have e1 : fetchTool (mvC f c) { storeTool (mvC f c) (mvS f p.1) with tool := t } = mvS f (fetchTool c { storeTool c p.1 with tool := t }) :=
          fetchTool_mv f c { storeTool c p.1 with tool := t }
        rw [e1]
        have e3 : (fetchTool c { storeTool c p.1 with tool := t }).range = p.1.range := (Mvd.fetch_fields c { storeTool c p.1 with tool := t }).2
        have := tAlone_mv f c v (fetchTool c { storeTool c p.1 with tool := t }) (by rw [e3]; exact h)
        exact ⟨this.1, rfl, this.2⟩
    · rw [if_neg hx, if_neg (show ¬ ((mvC f c).toolExchanges = true ∨ (mvV f v).m6 = true) from hx)]
      have e1 : fetchTool (mvC f c) (storeTool (mvC f c) (mvS f p.1)) = mvS f (fetchTool c (storeTool c p.1)) :=
        fetchTool_mv f c (storeTool c p.1)
      rw [e1]
      have e3 : (fetchTool c (storeTool c p.1)).range = p.1.range := (Mvd.fetch_fields c (storeTool c p.1)).2
      have := tAlone_mv f c v (fetchTool c (storeTool c p.1)) (by rw [e3]; exact h)
      exact ⟨this.1, rfl, this.2⟩

theorem soft_finish {o o' : Out Exc Bool} (h : soft o' = soft o) : soft (finish o') = soft (finish o) := by
  cases o <;> cases o' <;> first | rfl | cases h

include hF in
theorem evalVis_mv {c : Cfg K} (hc : c.cancel2 = c.cancel3) (inch : Inch) (line : Int) (v : Vis K) (p : St K × MacroMap ℚ)
    (hk : Ord p.1.range) (hd : f.x = true → Dwells v) (hp : v.plane.getD p.1.plane = .xy) :
    (evalVis F (mvC f c) inch line (mvV f v) (mvS f p.1, p.2)).1.1 = mvS f (evalVis F c inch line v p).1.1 ∧
      (evalVis F (mvC f c) inch line (mvV f v) (mvS f p.1, p.2)).1.2 = (evalVis F c inch line v p).1.2 ∧
      soft (evalVis F (mvC f c) inch line (mvV f v) (mvS f p.1, p.2)).2 = soft (evalVis F c inch line v p).2 := by
  unfold evalVis
  dsimp only
  rw [mTimes_mv]
  obtain ⟨x, hx⟩ := AttrPath.mTimes_fields c v p.1
  have hr : (mTimes c v p.1).range = p.1.range := by rw [hx]; rfl
  have hpl : (mTimes c v p.1).plane = p.1.plane := by rw [hx]; rfl
  have ht := toolPart_mv f c line v (mTimes c v p.1, p.2) (by dsimp only; rw [hr]; exact hk)
  have hfl := Mvd.toolPart_fields c line v (mTimes c v p.1, p.2)
  dsimp only at ht
  generalize toolPart (mvC f c) line (mvV f v) (mvS f (mTimes c v p.1), p.2) = t' at ht ⊢
  generalize toolPart c line v (mTimes c v p.1, p.2) = t at ht hfl ⊢
  obtain ⟨⟨s2, m⟩, o⟩ := t
  obtain ⟨⟨s2', m'⟩, o'⟩ := t'
  obtain ⟨h1, h2, h3⟩ := ht
  dsimp only at h1 h2 h3
  subst h1 h2
  cases o with
  | throw e =>
    cases o' with
    | throw e' => exact ⟨rfl, rfl, rfl⟩
    | ub => cases h3
    | ok b => cases h3
  | ub =>
    cases o' with
    | throw e' => cases h3
    | ub => exact ⟨rfl, rfl, rfl⟩
    | ok b => cases h3
  | ok b =>
    cases o' with
    | throw e' => cases h3
    | ub => cases h3
    | ok b' =>
      have hb : b' = b := Out.ok.inj h3
      subst hb
      cases b' with
      | false => exact ⟨rfl, rfl, rfl⟩
      | true =>
        obtain ⟨_, g2, g3, _⟩ := hfl rfl
        dsimp only at g2 g3
        rw [hr] at g2
        rw [hpl] at g3
        have := afterTool_mv f hF hc inch v s2 (by rw [g2]; exact hk) hd (by rw [g3]; exact hp)
        dsimp only
        rw [this]
        exact ⟨rfl, rfl, rfl⟩

/-! ## What the visitor collects -/

/-- The outcome for the mirrored part. -/
def mvO (f : Flip) : Out Exc (Vis K) → Out Exc (Vis K)
  | .ok v => .ok (mvV f v)
  | .throw e => .throw e
  | .ub => .ub

omit [LinearOrder K] [IsStrictOrderedRing K] [FloorRing K] in
theorem on_mv (v : Vis K) (x : Act K) (h : ∀ w y, x = .val w y → f.flips w = false) (hg : ∀ n t, x = .code (.motion n) t → f.motion n = n) :
    Act.on (mvV f v) x = mvV f (Act.on v x) := by
  cases x with
  | val w y =>
    show ({ mvV f v with vals := (mv f v.vals).put w y } : Vis K) = mvV f { v with vals := v.vals.put w y }
    have := put_mv f v.vals w y
    rw [onto_other f (h w y rfl)] at this
    rw [this]
    rfl
  | code k t =>
    cases k with
    | motion n =>
      show ({ mvV f v with g := some n } : Vis K) = mvV f { v with g := some n }
      unfold mvV
      dsimp only [Option.map_some]
      rw [hg n t rfl]
    | plane p => rfl
    | perRev b => rfl
    | css b => rfl
    | ret x => rfl
    | incr b => rfl
    | other => rfl
  | nothing => rfl
  | tool t => rfl
  | feed y => rfl
  | spindle y => rfl
  | aux a p m => rfl

theorem flips_mem {f : Flip} {a : Str} (h : f.flips a = true) : a ∈ ([c!"X", c!"Y", c!"I", c!"J"] : List Str) := by
  unfold Flip.flips at h
  simp only [Bool.or_eq_true, Bool.and_eq_true, decide_eq_true_eq] at h
  rcases h with ⟨_, h | h⟩ | ⟨_, h | h⟩ <;> rw [h] <;> decide

omit [LinearOrder K] [IsStrictOrderedRing K] [FloorRing K] in
theorem flips_param (c : Cfg K) {f : Flip} {a : Str} (h : f.flips a = true) : a ∈ gcodeParams c := by
  have := flips_mem h
  simp only [List.mem_cons, List.not_mem_nil, or_false] at this
  rcases this with rfl | rfl | rfl | rfl <;> simp [gcodeParams]

theorem flips_ne_slash {f : Flip} {a : Str} (h : f.flips a = true) : a ≠ c!"/" := by
  rintro rfl
  have := flips_mem h
  revert this
  decide

omit [FloorRing K] [IsStrictOrderedRing K] in
theorem visit_mv {c : Cfg K} (hc : AxesOk c) (v : Vis K) {a a' : Attr} (h : Spec.Mirror.Word K f a a') :
    visit (mvC f c) (mvV f v) a' = mvO f (visit c v a) := by
  show visit c (mvV f v) a' = _
  cases h with
  | place e e' x h1 h2 h3 h4 =>
    have h5 : f.flips e'.word = true := by rw [h2]; exact h1
    have r1 := Sml.read_value (flips_param c h1) h3
    have r2 := Sml.read_value (flips_param c h5) h4
    unfold visit
    dsimp only
    rw [if_neg (flips_ne_slash h1), if_neg (flips_ne_slash h5), r1, r2]
    by_cases hs : v.skip = true
    · rw [if_pos hs]; exact if_pos hs
    · rw [if_neg hs]
      refine (if_neg hs).trans ?_
      show Out.ok (Act.on (mvV f v) (.val e'.word _)) = .ok (mvV f (Act.on v (.val e.word x)))
      rw [h2]
      congr 1
      show ({ mvV f v with vals := (mv f v.vals).put e.word (-x) } : Vis K) = mvV f { v with vals := v.vals.put e.word x }
      have := put_mv f v.vals e.word x
      unfold Flip.onto at this
      rw [if_pos h1] at this
      rw [this]
      rfl
  | arc e e' n h1 h2 h3 h4 h5 =>
    obtain ⟨t, r1⟩ := Sml.read_code hc h1 h3
    obtain ⟨t', r2⟩ := Sml.read_code hc h2 h4
    unfold visit
    dsimp only
    rw [if_neg (show ¬ e.word = c!"/" by rw [h1]; decide), if_neg (show ¬ e'.word = c!"/" by rw [h2]; decide), r1, r2]
    by_cases hs : v.skip = true
    · rw [if_pos hs]; exact if_pos hs
    · rw [if_neg hs]
      refine (if_neg hs).trans ?_
      have g1 : ∀ n : Int, n = 2 ∨ n = 3 → gKind n = .motion n := by
        rintro n (rfl | rfl) <;> decide
      rw [g1 n h5, g1 _ ((motion_arc f n).mpr h5)]
      rfl
  | same a hn ha =>
    cases a with
    | dec e =>
      unfold visit
      dsimp only
      by_cases hsl : e.word = c!"/"
      · rw [if_pos hsl, if_pos hsl]; rfl
      · rw [if_neg hsl, if_neg hsl]
        by_cases hs : v.skip = true
        · rw [if_pos hs]; exact if_pos hs
        · rw [if_neg hs]
          refine (if_neg hs).trans ?_
          cases hr : readWord c e with
          | throw e => rfl
          | ub => rfl
          | ok x =>
            dsimp only
            rw [on_mv f v x]
            · rfl
            · intro w y hx
              subst hx
              cases hw : f.flips w with
              | false => rfl
              | true =>
                have h1 := readWord_value hr (flips_param c hw)
                have h2 : valOf w (.val w y : Act K) = some y := by unfold valOf; simp
                rw [h2] at h1
                by_cases hx : e.word = w
                · rw [if_pos hx] at h1
                  have := hn e rfl (by rw [hx]; exact hw)
                  unfold value at h1
                  rw [this] at h1
                  cases h1
                · rw [if_neg hx] at h1; cases h1
            · intro n t hx
              subst hx
              rcases motion_cases f n with h | ⟨ht, h, _⟩ | ⟨ht, h, _⟩
              · exact h
              all_goals
                exfalso
                refine ha ht ⟨e, rfl, ?_, ?_⟩
                · by_contra hg
                  exact readWord_not_code hg hr _ _ rfl
                · have hg : e.word = c!"G" := by
                    by_contra hg
                    exact readWord_not_code hg hr _ _ rfl
                  rw [readWord_code_of hc hg] at hr
                  unfold readCode at hr
                  unfold code
                  cases hv : e.value with
                  | none => rw [hv] at hr; cases hr
                  | some q =>
                    rw [hv] at hr
                    dsimp only at hr ⊢
                    cases hs : stoiE q with
                    | throw e => rw [hs] at hr; cases hr
                    | ub => rw [hs] at hr; cases hr
                    | ok k =>
                      rw [hs] at hr
                      have hr2 : Act.code (gKind k) (otherText q e) = (.code (.motion n) t : Act K) := Out.ok.inj hr
                      obtain ⟨hk, _⟩ : gKind k = .motion n ∧ otherText q e = t := by
                        injection hr2 with h1 h2
                        exact ⟨h1, h2⟩
                      have hkn : k = n := by
                        unfold gKind at hk
                        split at hk
                        · cases hk
                        · split at hk
                          · cases hk
                          · split at hk
                            · cases hk
                            · split at hk
                              · exact GKind.motion.inj hk
                              · unfold modeKind at hk
                                split_ifs at hk
                      unfold stoiE at hs
                      cases hst : stoi q with
                      | throw e => rw [hst] at hs; cases hs
                      | ub => rw [hst] at hs; cases hs
                      | ok j =>
                        rw [hst] at hs
                        have : j = k := Out.ok.inj hs
                        dsimp only
                        rw [this, hkn, h]
                        simp
    | str w s => rfl
    | chr w s => rfl

omit [FloorRing K] [IsStrictOrderedRing K] in
theorem visitAll_mv {c : Cfg K} (hc : AxesOk c) {b b' : Block} (h : List.Forall₂ (Spec.Mirror.Word K f) b b') (v : Vis K) :
    visitAll (mvC f c) (mvV f v) b' = mvO f (visitAll c v b) := by
  induction h generalizing v with
  | nil => rfl
  | cons hw _ ih =>
    rename_i a a' l l' hl
    unfold visitAll
    rw [visit_mv f hc v hw]
    cases visit c v a with
    | ok r => exact ih r
    | throw e => rfl
    | ub => rfl

include hF in
theorem evaluate_mv {c : Cfg K} (hc : AxesOk c) (hcc : c.cancel2 = c.cancel3) (inch : Inch) (line : Int) {b b' : Block} (p : St K × MacroMap ℚ)
    (hb : Blocks K f b b') (hk : Ord p.1.range) (hp : p.1.plane = .xy) :
    (evaluate F (mvC f c) inch line b' (mvS f p.1, p.2)).1.1 = mvS f (evaluate F c inch line b p).1.1 ∧
      (evaluate F (mvC f c) inch line b' (mvS f p.1, p.2)).1.2 = (evaluate F c inch line b p).1.2 ∧
      soft (evaluate F (mvC f c) inch line b' (mvS f p.1, p.2)).2 = soft (evaluate F c inch line b p).2 := by
  unfold evaluate
  dsimp only
  by_cases h0 : b = []
  · subst h0
    have : b' = [] := by cases hb.words; rfl
    rw [if_pos this, if_pos rfl]
    exact ⟨rfl, rfl, rfl⟩
  · have : b' ≠ [] := by
      rintro rfl
      apply h0
      cases hb.words
      rfl
    rw [if_neg h0, if_neg this]
    have hv := visitAll_mv f hc hb.words {}
    have e0 : mvV f ({} : Vis K) = {} := rfl
    rw [e0] at hv
    rw [hv]
    cases h : visitAll c {} b with
    | throw e => exact ⟨rfl, rfl, rfl⟩
    | ub => exact ⟨rfl, rfl, rfl⟩
    | ok v =>
      refine evalVis_mv f hF hcc inch line v (clearMotions p.1, p.2) hk ?_ (plane_xy hc h hb.plane hp)
      intro hx ho
      rw [visitAll_vals h (Sml.three_param c (by decide))]
      exact (programmed_none b _).mpr (hb.dwell hx (otherG_dwell hc h ho))

/-! ## The plane after a block -/

theorem evaluate_plane (F : Fns K) {c : Cfg K} (hc : AxesOk c) (inch : Inch) (line : Int) {b : Block} (p : St K × MacroMap ℚ)
    (hb : ∀ n ∈ groupCodes 2 b, n = 17) (hp : p.1.plane = .xy) (hok : (evaluate F c inch line b p).2 = .ok ()) :
    (evaluate F c inch line b p).1.1.plane = .xy := by
  have he := evaluate_eval F c inch line b p
  rw [hok] at he
  generalize (evaluate F c inch line b p).1.1 = s' at *
  generalize ho : (Out.ok () : Out Exc Unit) = o at *
  cases he with
  | empty hb => exact hp
  | unread e h => cases ho
  | unreadUb h => cases ho
  | alone v t hv ht ha hn =>
    obtain ⟨x, hx⟩ := begun_addTime c v p.1
    rw [hx]
    have e : ∀ s : St K, (copySt (fetchTool c s).incr v.otherG v.vals (fetchTool c s)).plane = s.plane := by
      intro s
      unfold copySt fetchTool exchangeTimes
      dsimp only
      split_ifs <;> rfl
    rw [e]
    exact hp
  | aloneErr v t n => cases ho
  | badTool v t e => cases ho
  | badToolUb v t => cases ho
  | before v hv ht ha hb2 hn hg2 hvg =>
    obtain ⟨x, hx⟩ := begun_addTime c v p.1
    obtain ⟨y, hy⟩ := dwell_fields v (begun c v p.1)
    rw [hy, hx]
    exact plane_xy hc hv hb hp
  | halt v S M o hb2 hv ht hS hn hm hno =>
    have hr := ready_fields c v p.1
    rw [← hS] at hr
    dsimp only at hr
    have hM := motion_only F c v (current v S) S
    rw [hm] at hM
    obtain ⟨_, _, _, _, _, hM⟩ := hM
    dsimp only at hM
    rw [hM]
    exact hr.2.2.2.2.2.1.trans hp
  | done v S M s2 o hb2 hv ht hS hn hm ha =>
    have hr := ready_fields c v p.1
    rw [← hS] at hr
    dsimp only at hr
    have fields : s'.plane = (current v S).plane := by
      rw [account_eq] at ha
      cases hck : checks c (current v S) (counted F c inch (current v S) M) with
      | throw e => rw [hck] at ha; cases ha; cases ho
      | ub => rw [hck] at ha; cases ha; cases ho
      | ok u =>
        rw [hck] at ha; cases ha
        unfold savePositions
        split
        · rfl
        · split <;> rfl
    rw [fields]
    exact plane_xy hc hv hb (hr.2.2.2.2.2.1.trans hp)

/-! ## The start -/

omit [FloorRing K] in
theorem initial_mv (c : Cfg K) : initial (mvC f c) = mvS f (initial c) := by
  have key : ∀ s : St K, s.prev = [] → s.range = [] → copySt c.incr [] (mv f c.base) (mvS f s) = mvS f (copySt c.incr [] c.base s) := by
    intro s _ h2
    refine copySt_mv f _ _ _ ?_
    rw [h2]
    intro a r h
    cases h
  exact key ⟨.empty, .empty, [], [], [], [], -1, startS c, c.motion, c.plane, c.ret, c.incr, false, c.perRev, .none, [], false⟩ rfl rfl

end
end NC.Mir
