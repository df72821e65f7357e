import Verif.Props.SimLength
import Verif.Props.SimModal

/-!
# C25, C29 and C71 for lathes and for blocks with any modal G codes
-/

namespace NC.Props
open NC NC.Path NC.Ver NC.AttrPath NC.Spec.Sim

section
variable {K : Type} [Field K] [LinearOrder K] [FloorRing K]

/-- **C25.** Also with feeds, speeds, cycles and all modal codes, each axis and centre word is where the block
says; the depth of a drilling cycle is not a position. -/
theorem C25_position_modal (F : Fns K) {c : Cfg K} (hx : AxesOk c) (inch : Inch) (line : Int) (b : Block)
    (p : St K × MacroMap ℚ) (hp : Inv p.1) (hb : Steady b) (h : (evaluate F c inch line b p).2 = .ok ())
    (a : Str) (ha : a ∈ addresses c.axes) (hq : a ≠ c!"Q" ∧ a ≠ c!"L")
    (hz : a = c!"Z" → (isDrill (evaluate F c inch line b p).1.1.g || isDrillQ (evaluate F c inch line b p).1.1.g) = false) :
    pos (evaluate F c inch line b p).1.1 a =
      moved (incremental b p.1.incr) (programmed b) (pos p.1) a := by
  unfold moved
  rcases eval_positions hp.good (evaluate_eval F c inch line b p) with ⟨h', _⟩ | ⟨_, h1, h'⟩ | ⟨_, v, hv, h'⟩
  · exact absurd h h'
  · subst h1
    unfold pos
    rw [h'.2]
    rfl
  · have h2 := congrArg Prod.snd h'
    dsimp only at h2
    obtain ⟨e1, e2, e3⟩ := visitAll_steady hx hb hv
    have ht : toolOf v = none := by unfold toolOf; rw [e1]; split <;> rfl
    have hs : source c v p.1 = (v.vals, v.incr.getD p.1.incr) := by
      unfold source atTool atBase
      rw [ht, e2, e3]
      simp
    rw [hs] at h2
    unfold pos
    rw [h2, copyBack_range _ _ _ (visitAll_sorted (show VMap.Sorted (({} : Vis K).vals) from List.Pairwise.nil) hv),
      visitAll_vals hv ha, e3, skipped_nil]
    cases hpr : programmed (K := K) b a with
    | none => rfl
    | some x =>
      dsimp only
      rw [if_neg (by
        simp only [Bool.or_eq_true, Bool.and_eq_true, decide_eq_true_eq, not_or, not_and]
        refine ⟨⟨?_, hq.1⟩, hq.2⟩
        intro e
        have := hz e
        rw [Bool.or_eq_false_iff] at this
        rw [this.1, this.2]
        simp), getMap_rangeStep, newValue_cur, visitAll_incr hx hv]
      unfold incremental
      split <;> rfl

/-- X words are diameters: a lathe, or a mill-turn centre in G18, that does not multiply them itself. -/
def diametric (c : Cfg K) (plane : Int) : Bool :=
  !c.diameter2x && (decide (c.mtype = .lathe) || (decide (c.mtype = .millturn) && decide (plane = 18)))

omit [LinearOrder K] [FloorRing K] in
theorem halve_place (c : Cfg K) (pl : Plane) (x : K) : halve c pl x = place (diametric c (planeNum pl)) x := by
  unfold halve place diametric latheProg
  have : decide (planeNum pl = 18) = decide (pl = .xz) := by cases pl <;> rfl
  rw [this]
  cases c.diameter2x <;> cases c.mtype <;> cases pl <;> rfl

omit [LinearOrder K] [FloorRing K] in
theorem place_add (d : Bool) (x y : K) : place d (x + y) = place d x + place d y := by
  cases d
  · rfl
  · exact add_div x y 2

/-- **C71, turning.** The reported motion of a straight move is the distance between the positions before and after the
block, where X words of a lathe are diameters, whatever other modal codes are given. -/
theorem C71_turning_partial (F : Fns K) {c : Cfg K} (hx : AxesOk c) (inch : Inch)
    (line : Int) (b : Block) (p : St K × MacroMap ℚ) (hp : Inv p.1) (hb : Steady b) (hne : b ≠ [])
    (hr : Settled p.1 b) {m : Modal K} (hm : m = (modalOf p.1).after b) (hg : m.motion = 0 ∨ m.motion = 1)
    (h : (evaluate F c inch line b p).2 = .ok ()) {x y z : K} (hX : pos p.1 c!"X" = some x)
    (hY : pos p.1 c!"Y" = some y) (hZ : pos p.1 c!"Z" = some z) :
    ∃ x' y' z', pos (evaluate F c inch line b p).1.1 c!"X" = some x' ∧
      pos (evaluate F c inch line b p).1.1 c!"Y" = some y' ∧ pos (evaluate F c inch line b p).1.1 c!"Z" = some z' ∧
      (m.motion = 0 → (evaluate F c inch line b p).1.1.path.fast =
          some (dist3 F (place (diametric c m.plane) x) y z (place (diametric c m.plane) x') y' z') ∧
        (evaluate F c inch line b p).1.1.path.work = some 0) ∧
      (m.motion = 1 → (evaluate F c inch line b p).1.1.path.work =
          some (dist3 F (place (diametric c m.plane) x) y z (place (diametric c m.plane) x') y' z') ∧
        (evaluate F c inch line b p).1.1.path.fast = some 0) := by
  have hg1 : inGroup 1 b p.1.g ≠ -1 := by
    rw [hm] at hg
    change inGroup 1 b p.1.g = 0 ∨ inGroup 1 b p.1.g = 1 at hg
    rcases hg with h | h <;> rw [h] <;> decide
  obtain ⟨v, S, M, hv, hat, hab, ho, g1, g2, g3, g4, g5, g6, g7, g8, g9, g10, g11, hres⟩ :=
    steady_block F hx inch line p hp.good hb hne hr hg1 h
  rw [← hm] at g10
  have cg : (current v S).g = m.motion := congrArg Modal.motion g10
  have cp : planeNum (current v S).plane = m.plane := congrArg Modal.plane g10
  have hmo : motion F c v (current v S) S = linear F c v (current v S) S := by
    unfold motion; rw [cg, if_pos hg]
  have hdone : ∃ o, motion F c v (current v S) S = (M, .ok o) ∧
      (evaluate F c inch line b p).1.1 = savePositions c v (counted F c inch (current v S) M) := by
    rcases hres with ⟨m1, m2, m3⟩ | ⟨m1, m3, m4, m5, m6, m7⟩
    · exact ⟨true, m1, m3⟩
    · exfalso
      rw [hmo] at m1
      exact linear_goes F c v _ S (by rw [m1])
  obtain ⟨o, m1, m3⟩ := hdone
  have w12 : (evaluate F c inch line b p).1.1.path.work = M.path.work ∧
      (evaluate F c inch line b p).1.1.path.fast = M.path.fast := by
    rw [m3, (savePositions_modal c v _).2.1]; exact ⟨rfl, rfl⟩
  have w3 : (evaluate F c inch line b p).1.1.g = m.motion := by
    have := congrArg Modal.motion (savePositions_modal c v (counted F c inch (current v S) M)).1
    rw [← m3, counted_modal, g10, settle_other (by rcases hg with h | h <;> rw [h] <;> decide)] at this
    exact this
  have hdr : (isDrill (evaluate F c inch line b p).1.1.g || isDrillQ (evaluate F c inch line b p).1.1.g) = false := by
    rw [w3]; rcases hg with h | h <;> rw [h] <;> decide
  have hpos := fun a ha hq => C25_position_modal F hx inch line b p hp hb h a ha hq (fun _ => hdr)
  have pX := hpos c!"X" (param_mem (by decide)) (by decide)
  have pY := hpos c!"Y" (param_mem (by decide)) (by decide)
  have pZ := hpos c!"Z" (param_mem (by decide)) (by decide)
  have vX := visitAll_vals hv (param_mem (c := c) (a := c!"X") (by decide))
  have vY := visitAll_vals hv (param_mem (c := c) (a := c!"Y") (by decide))
  have vZ := visitAll_vals hv (param_mem (c := c) (a := c!"Z") (by decide))
  have sX : S.prev.get c!"X" = some x := by rw [g1.1, hp.sync, hX]
  have sY : S.prev.get c!"Y" = some y := by rw [g1.1, hp.sync, hY]
  have sZ : S.prev.get c!"Z" = some z := by rw [g1.1, hp.sync, hZ]
  have hin : (current v S).incr = incremental b p.1.incr := by
    have e := congrArg Modal.distance g10
    have e2 := congrArg Modal.distance (current_modal hx hv p.1)
    rw [← hm] at e2
    change incrNum (current v S).incr = m.distance at e
    change incrNum (v.incr.getD p.1.incr) = m.distance at e2
    rw [← e2] at e
    have inj : ∀ a b : Bool, incrNum a = incrNum b → a = b := by decide
    rw [inj _ _ e, visitAll_incr hx hv]; rfl
  unfold moved at pX pY pZ
  rw [hX] at pX
  rw [hY] at pY
  rw [hZ] at pZ
  have hset : ∀ (s : St K) (l : K), s.path.work = some 0 → s.path.fast = some 0 →
      (m.motion = 0 → (setMotion (current v S).g (some l) s).path.fast = some l ∧
        (setMotion (current v S).g (some l) s).path.work = some 0) ∧
      (m.motion = 1 → (setMotion (current v S).g (some l) s).path.work = some l ∧
        (setMotion (current v S).g (some l) s).path.fast = some 0) := by
    intro s l e1 e2
    rw [cg]
    unfold setMotion
    constructor
    · intro e; rw [if_pos e]; exact ⟨rfl, e1⟩
    · intro e; rw [if_neg (by rw [e]; decide)]; exact ⟨rfl, e2⟩
  have hcan : ∃ T, cancelBy c (current v S).g S = T ∧ T.prev = S.prev ∧ T.path.work = some 0 ∧ T.path.fast = some 0 := by
    refine ⟨_, rfl, ?_⟩
    unfold cancelBy
    split
    · exact ⟨rfl, g3, g4⟩
    · exact ⟨rfl, g3, g4⟩
  obtain ⟨T, hT, t1, t2, t3⟩ := hcan
  rw [hmo] at m1
  unfold linear at m1
  rw [hT, hat, hab, hin] at m1
  simp only [Bool.false_eq_true, or_false] at m1
  by_cases hi : incremental b p.1.incr = false
  · rw [if_pos hi] at m1
    rw [hi] at pX pY pZ
    unfold linearAbs at m1
    rw [t1, sX, sY, sZ] at m1
    unfold target at m1
    rw [hat, hab, vX, vY, vZ] at m1
    simp only [Bool.false_eq_true, if_false, halve_place, cp] at m1
    refine ⟨(programmed b c!"X").getD x, (programmed b c!"Y").getD y, (programmed b c!"Z").getD z, ?_, ?_, ?_, ?_⟩
    · rw [pX]; cases programmed (K := K) b c!"X" <;> simp
    · rw [pY]; cases programmed (K := K) b c!"Y" <;> simp
    · rw [pZ]; cases programmed (K := K) b c!"Z" <;> simp
    · have := congrArg Prod.fst m1
      dsimp only at this
      rw [w12.1, w12.2, ← this]
      exact hset T _ t2 t3
  · have hi' : incremental b p.1.incr = true := by simpa using hi
    rw [if_neg hi] at m1
    rw [hi'] at pX pY pZ
    unfold linearIncr at m1
    have k : ∀ a, (S.prev.get a).isSome = true → known v T a = true := by
      intro a ha; unfold known; rw [t1, ha]; simp
    rw [k _ (by rw [sX]; rfl), k _ (by rw [sY]; rfl), k _ (by rw [sZ]; rfl), vX, vY, vZ] at m1
    simp only [Bool.true_eq_false, if_false, halve_place, cp] at m1
    refine ⟨x + (programmed b c!"X").getD 0, y + (programmed b c!"Y").getD 0, z + (programmed b c!"Z").getD 0, ?_, ?_, ?_, ?_⟩
    · rw [pX]; cases programmed (K := K) b c!"X" <;> simp
    · rw [pY]; cases programmed (K := K) b c!"Y" <;> simp
    · rw [pZ]; cases programmed (K := K) b c!"Z" <;> simp
    · have := congrArg Prod.fst m1
      dsimp only at this
      rw [w12.1, w12.2, ← this, place_add]
      generalize place (diametric c m.plane) x = u at *
      generalize place (diametric c m.plane) ((programmed b c!"X").getD (0 : K)) = du at *
      have hd : dist3 F u y z (u + du) (y + (programmed b c!"Y").getD 0) (z + (programmed b c!"Z").getD 0) =
          len3 F du ((programmed b c!"Y").getD 0) ((programmed b c!"Z").getD 0) := by
        unfold dist3 len3
        congr 1
        ring
      rw [hd]
      exact hset T _ t2 t3

/-- A block that moves along an arc in its plane, with any modal codes: not a helix or spiral, and not without words. -/
structure SteadyArc (K : Type) [Field K] (b : Block) (m : Modal K) (s : St K) (ax : PlaneAxes) : Prop where
  code : m.motion = 2 ∨ m.motion = 3
  words : groupCodes 1 b ≠ [] ∨ programmed (K := K) b ax.u ≠ none ∨ programmed (K := K) b ax.v ≠ none
  flat : programmed (K := K) b ax.across = none
  noSpiral : programmed (K := K) b c!"Q" = none ∧ programmed (K := K) b c!"L" = none
  noHelix : s.helix = .none

/-- **C29, turning.** In each plane an arc is computed in the same way from the positions before and after the block on
the axes of the plane and from the words of the centre that belong to them; on a lathe the words of the first
axis of the plane and of its centre are diameters. -/
theorem C29_turning_partial (F : Fns K) {c : Cfg K} (hx : AxesOk c) (inch : Inch)
    (line : Int) (b : Block) (p : St K × MacroMap ℚ) (hp : Inv p.1) (hb : Steady b) (hne : b ≠ [])
    (hr : Settled p.1 b) {m : Modal K} (hm : m = (modalOf p.1).after b) {ax : PlaneAxes} (hax : ax = planeAxes m.plane)
    (hA : SteadyArc K b m p.1 ax) (h : (evaluate F c inch line b p).2 = .ok ()) {x y : K}
    (hX : pos p.1 ax.u = some x) (hY : pos p.1 ax.v = some y) {d : Bool} (hd : d = diametric c m.plane) :
    ∃ x' y', pos (evaluate F c inch line b p).1.1 ax.u = some x' ∧ pos (evaluate F c inch line b p).1.1 ax.v = some y' ∧
      (evaluate F c inch line b p).1.1.path.fast = some 0 ∧
      ((∃ i j, pos (evaluate F c inch line b p).1.1 ax.cu = some i ∧ pos (evaluate F c inch line b p).1.1 ax.cv = some j ∧
          (programmed (K := K) b c!"R" = none ∨ (programmed b ax.cu = some i ∧ programmed b ax.cv = some j)) ∧
          (evaluate F c inch line b p).1.1.path.work =
            some (arcIJ F (place d x) y (place d x') y' (place d i) j m.motion.toNat)) ∨
       (∃ r, programmed b c!"R" = some r ∧ (programmed (K := K) b ax.cu = none ∨ programmed (K := K) b ax.cv = none) ∧
          (evaluate F c inch line b p).1.1.path.work = some (arcR F (place d x) y (place d x') y' r))) := by
  have hg := hA.code
  have hg1 : inGroup 1 b p.1.g ≠ -1 := by
    rw [hm] at hg
    change inGroup 1 b p.1.g = 2 ∨ inGroup 1 b p.1.g = 3 at hg
    rcases hg with h | h <;> rw [h] <;> decide
  obtain ⟨v, S, M, hv, hat, hab, ho, g1, g2, g3, g4, g5, g6, g7, g8, g9, g10, g11, hres⟩ :=
    steady_block F hx inch line p hp.good hb hne hr hg1 h
  have hm0 := hm
  rw [← hm] at g10
  have cg : (current v S).g = m.motion := congrArg Modal.motion g10
  have cp : planeNum (current v S).plane = m.plane := congrArg Modal.plane g10
  have hmo : motion F c v (current v S) S = circular F c v (current v S) S := by
    unfold motion
    rw [cg, if_neg (by rcases hg with h | h <;> rw [h] <;> decide), if_pos hg]
  have a12 := axesOf_planeAxes (current v S).plane
  rw [cp, ← hax] at a12
  obtain ⟨a1, a2, a3, a4, a5⟩ := a12
  have hin : (current v S).incr = incremental b p.1.incr := by
    have e := congrArg Modal.distance g10
    have e2 := congrArg Modal.distance (current_modal hx hv p.1)
    rw [← hm] at e2
    change incrNum (current v S).incr = m.distance at e
    change incrNum (v.incr.getD p.1.incr) = m.distance at e2
    rw [← e2] at e
    have inj : ∀ a b : Bool, incrNum a = incrNum b → a = b := by decide
    rw [inj _ _ e, visitAll_incr hx hv]; rfl
  have hnb : ¬ (v.g = none ∧ v.vals = []) := by
    rw [visitAll_bare hx hv]
    rintro ⟨n1, n2⟩
    have mu : ax.u ∈ addresses c.axes := param_mem (by rw [a1]; cases (current v S).plane <;> decide)
    have mv : ax.v ∈ addresses c.axes := param_mem (by rw [a2]; cases (current v S).plane <;> decide)
    rcases hA.words with hw | hw | hw
    · exact hw n1
    · exact hw (n2 _ mu)
    · exact hw (n2 _ mv)
  have hdone : motion F c v (current v S) S = (M, .ok true) ∧
      (evaluate F c inch line b p).1.1 = savePositions c v (counted F c inch (current v S) M) := by
    rcases hres with ⟨m1, m2, m3⟩ | ⟨m1, m3, m4, m5, m6, m7⟩
    · exact ⟨m1, m3⟩
    · exact absurd ⟨m5, m6⟩ hnb
  obtain ⟨m1, m3⟩ := hdone
  have w12 : (evaluate F c inch line b p).1.1.path.work = M.path.work ∧
      (evaluate F c inch line b p).1.1.path.fast = M.path.fast := by
    rw [m3, (savePositions_modal c v _).2.1]; exact ⟨rfl, rfl⟩
  have w3 : (evaluate F c inch line b p).1.1.g = m.motion := by
    have := congrArg Modal.motion (savePositions_modal c v (counted F c inch (current v S) M)).1
    rw [← m3, counted_modal, g10, settle_other (by rcases hg with h | h <;> rw [h] <;> decide)] at this
    exact this
  have hdr : (isDrill (evaluate F c inch line b p).1.1.g || isDrillQ (evaluate F c inch line b p).1.1.g) = false := by
    rw [w3]; rcases hg with h | h <;> rw [h] <;> decide
  have hpos := fun a ha hq => C25_position_modal F hx inch line b p hp hb h a ha hq (fun _ => hdr)
  have hvals := fun a ha => visitAll_vals (a := a) hv (param_mem (c := c) ha)
  have hpl : ∀ x : K, halve c (current v S).plane x = place d x := by
    intro x; rw [halve_place, cp, hd]
  have m1' : (axesOf (current v S).plane).a1 ∈ ([c!"X", c!"Y", c!"Z"] : List Str) := by
    cases (current v S).plane <;> decide
  have m2' : (axesOf (current v S).plane).a2 ∈ ([c!"X", c!"Y", c!"Z"] : List Str) := by
    cases (current v S).plane <;> decide
  have m3' : (axesOf (current v S).plane).a3 ∈ ([c!"X", c!"Y", c!"Z"] : List Str) := by
    cases (current v S).plane <;> decide
  have m4' : (axesOf (current v S).plane).p1 ∈ ([c!"I", c!"J", c!"K"] : List Str) := by
    cases (current v S).plane <;> decide
  have m5' : (axesOf (current v S).plane).p2 ∈ ([c!"I", c!"J", c!"K"] : List Str) := by
    cases (current v S).plane <;> decide
  rw [← a1] at m1'
  rw [← a2] at m2'
  rw [← a3] at m3'
  rw [← a4] at m4'
  rw [← a5] at m5'
  have sub1 : ∀ a ∈ ([c!"X", c!"Y", c!"Z"] : List Str), a ∈ ([c!"X", c!"Y", c!"Z", c!"I", c!"J", c!"K", c!"R", c!"Q", c!"L", c!"P", c!"U"] : List Str) ∧ a ≠ c!"Q" ∧ a ≠ c!"L" ∧ (a = c!"X" ∨ a = c!"Y" ∨ a = c!"Z") := by
    decide
  have sub2 : ∀ a ∈ ([c!"I", c!"J", c!"K"] : List Str), a ∈ ([c!"X", c!"Y", c!"Z", c!"I", c!"J", c!"K", c!"R", c!"Q", c!"L", c!"P", c!"U"] : List Str) ∧ a ≠ c!"Q" ∧ a ≠ c!"L" ∧ ¬ (a = c!"X" ∨ a = c!"Y" ∨ a = c!"Z") := by
    decide
  have v1 := hvals ax.u (sub1 _ m1').1
  have v2 := hvals ax.v (sub1 _ m2').1
  have v3 := hvals ax.across (sub1 _ m3').1
  have v4 := hvals ax.cu (sub2 _ m4').1
  have v5 := hvals ax.cv (sub2 _ m5').1
  have vR := hvals c!"R" (by decide)
  have vQ := hvals c!"Q" (by decide)
  have vL := hvals c!"L" (by decide)
  have q1 := hpos ax.u (param_mem (sub1 _ m1').1) ⟨(sub1 _ m1').2.1, (sub1 _ m1').2.2.1⟩
  have q2 := hpos ax.v (param_mem (sub1 _ m2').1) ⟨(sub1 _ m2').2.1, (sub1 _ m2').2.2.1⟩
  have q4 := hpos ax.cu (param_mem (sub2 _ m4').1) ⟨(sub2 _ m4').2.1, (sub2 _ m4').2.2.1⟩
  have q5 := hpos ax.cv (param_mem (sub2 _ m5').1) ⟨(sub2 _ m5').2.1, (sub2 _ m5').2.2.1⟩
  unfold moved at q1 q2 q4 q5
  have e1 : ∀ i : Bool, (i = true ∧ (ax.u = c!"X" ∨ ax.u = c!"Y" ∨ ax.u = c!"Z")) ↔ i = true :=
    fun i => ⟨fun e => e.1, fun e => ⟨e, (sub1 _ m1').2.2.2⟩⟩
  have e2 : ∀ i : Bool, (i = true ∧ (ax.v = c!"X" ∨ ax.v = c!"Y" ∨ ax.v = c!"Z")) ↔ i = true :=
    fun i => ⟨fun e => e.1, fun e => ⟨e, (sub1 _ m2').2.2.2⟩⟩
  simp only [e1] at q1
  simp only [e2] at q2
  have e4 := (sub2 _ m4').2.2.2
  have e5 := (sub2 _ m5').2.2.2
  simp only [e4, and_false, if_false] at q4
  simp only [e5, and_false, if_false] at q5
  have z1 : S.prev.get ax.u = some x := by rw [g1.1, hp.sync, hX]
  have z2 : S.prev.get ax.v = some y := by rw [g1.1, hp.sync, hY]
  rw [hmo] at m1
  have key := circular_arc (by rw [← a1]; exact z1) (by rw [← a2]; exact z2) hnb (by rw [← a3, v3]; exact hA.flat)
    (by rw [vQ]; exact hA.noSpiral.1) (by rw [vL]; exact hA.noSpiral.2) (by rw [g2]; exact hA.noHelix) m1
  simp only [hpl] at key
  rw [← a1, ← a2, ← a4, ← a5, v1, v2, v4, v5, vR, hin, cg, g1.1, hp.sync, hp.sync, ← w12.1, ← w12.2, g4] at key
  obtain ⟨kf, kw⟩ := key
  refine ⟨arcEnd (incremental b p.1.incr) x (programmed b ax.u), arcEnd (incremental b p.1.incr) y (programmed b ax.v),
    ?_, ?_, kf, ?_⟩
  · rw [q1, hX]
    cases programmed (K := K) b ax.u with
    | none => rfl
    | some t => unfold arcEnd; dsimp only; split <;> rfl
  · rw [q2, hY]
    cases programmed (K := K) b ax.v with
    | none => rfl
    | some t => unfold arcEnd; dsimp only; split <;> rfl
  · rcases kw with ⟨i, j, k1, k2, k3⟩ | ⟨r, k1, k2, k3⟩
    · left
      refine ⟨i, j, ?_, ?_, ?_, k3⟩
      · rw [q4]
        rcases k1 with k | ⟨_, k, k'⟩
        · rw [k]
        · rw [k]; exact k'
      · rw [q5]
        rcases k2 with k | ⟨_, k, k'⟩
        · rw [k]
        · rw [k]; exact k'
      · rcases k1 with k | ⟨k, _, _⟩
        · rcases k2 with k' | ⟨k', _, _⟩
          · exact Or.inr ⟨k, k'⟩
          · exact Or.inl k'
        · exact Or.inl k
    · exact Or.inr ⟨r, k1, k2, k3⟩

end

/-! ## Examples and violations -/

section
open SimDemo

/-- A lathe whose X words are diameters. -/
def lathe : Cfg ℚ := { mill with mtype := .lathe, plane := .xz }

example : diametric lathe 18 = true ∧ diametric mill 18 = false ∧ Steady feedCut ∧
    (evaluate qf lathe false 1 feedCut (start lathe)).2 = .ok () ∧
    ((modalOf (start lathe).1).after feedCut).motion = 1 ∧
    pos (start lathe).1 c!"X" = some 0 ∧ pos (start lathe).1 c!"Y" = some 0 ∧ pos (start lathe).1 c!"Z" = some 10 ∧
    (evaluate qf lathe false 1 feedCut (start lathe)).1.1.path.work = some 15 := by
  refine ⟨by decide, by decide, feedCut_steady, ?_, ?_, ?_, ?_, ?_, ?_⟩ <;> decide +kernel

/-- An arc of a lathe in G18. -/
def turnArc : Block := [w c!"G" c!"2", w c!"I" c!"10", w c!"K" c!"0", w c!"F" c!"100"]

example : Steady turnArc ∧ SteadyArc ℚ turnArc ((modalOf (start lathe).1).after turnArc) (start lathe).1 (planeAxes 18) ∧
    ((modalOf (start lathe).1).after turnArc).plane = 18 ∧
    (evaluate qf lathe false 1 turnArc (start lathe)).2 = .ok () ∧
    (evaluate qf lathe false 1 turnArc (start lathe)).1.1.path.work = some (arcIJ qf 0 10 0 10 (10 / 2) 0 2) := by
  refine ⟨steady_of (by decide), ⟨Or.inl (by decide +kernel), Or.inl (by decide), by decide +kernel, by decide +kernel, by decide +kernel⟩,
    ?_, ?_, ?_⟩ <;> decide +kernel

/-- **C71 violated.** On a lathe in G19 the diameter X is taken as it is and Y is halved instead: a circle of radius
5 around a centre 5 away in Y is as long as one of radius 5/2. -/
theorem C71_violated_lathe_G19 :
    (evaluate qf lathe false 1 [w c!"G" c!"19", w c!"G" c!"2", w c!"J" c!"5", w c!"K" c!"0", w c!"F" c!"100"] (start lathe)).2 = .ok () ∧
    (evaluate qf lathe false 1 [w c!"G" c!"19", w c!"G" c!"2", w c!"J" c!"5", w c!"K" c!"0", w c!"F" c!"100"]
      (start lathe)).1.1.path.work = some (arcIJ qf 0 10 0 10 (5 / 2) 0 2) ∧
    arcIJ qf 0 10 0 10 (5 / 2) 0 2 = 2 * qf.pi * (5 / 2 : ℚ) := by
  and_intros <;> decide +kernel

end
end NC.Props
