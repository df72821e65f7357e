import Verif.Props.Sim
import Verif.Props.Geometry
import Verif.Props.SimCases

/-!
# Properties of the simulation of blocks: lengths between positions
-/

namespace NC.Props
open NC NC.Path NC.Ver NC.AttrPath NC.Spec.Sim

section
variable {K : Type} [Field K] [LinearOrder K] [FloorRing K]

/-- The motion a word selects. -/
def motionAct : Act K → Option Int
  | .code (.motion n) _ => some n
  | _ => none

/-- The plane a word selects. -/
def planeOfAct : Act K → Option Plane
  | .code (.plane p) _ => some p
  | _ => none

omit [Field K] [LinearOrder K] [FloorRing K] in
theorem on_motionAct (r : Vis K) (x : Act K) : (Act.on r x).g = (motionAct x).or r.g := by
  cases x with
  | code k t => cases k <;> rfl
  | _ => rfl

omit [Field K] [LinearOrder K] [FloorRing K] in
theorem on_plane (r : Vis K) (x : Act K) : (Act.on r x).plane = (planeOfAct x).or r.plane := by
  cases x with
  | code k t => cases k <;> rfl
  | _ => rfl

omit [LinearOrder K] [FloorRing K] in
theorem readWord_motion {c : Cfg K} (hc : AxesOk c) {d : Dec} (hp : PlainWord d) {x : Act K}
    (h : readWord c d = .ok x) : motionAct x = motionWord d ∧ (planeOfAct x).map planeNum = planeWord d := by
  unfold motionWord planeWord
  by_cases hg : d.word = c!"G"
  · rw [readWord_code_of hc hg] at h
    obtain ⟨n, hn, h1⟩ := hp.2.2 hg
    rcases readCode_code h with ⟨h2, rfl⟩ | ⟨m, t, h2, rfl⟩
    · rw [h1] at h2; cases h2
    · rw [h1] at h2
      cases h2
      rw [h1]
      simp only [List.mem_cons, List.not_mem_nil, or_false] at hn
      rw [hg]
      rcases hn with rfl | rfl | rfl | rfl | rfl | rfl | rfl | rfl | rfl <;> exact ⟨rfl, rfl⟩
  · rw [if_neg (fun e => hg e.1), if_neg (fun e => hg e.1)]
    have h0 := readWord_not_code hg h
    cases x with
    | code k t => exact absurd rfl (h0 k t)
    | _ => exact ⟨rfl, rfl⟩

omit [LinearOrder K] [FloorRing K] in
theorem visitAll_motion {c : Cfg K} (hc : AxesOk c) {v : Vis K} {b : Block} (hb : Plain b)
    (h : visitAll c {} b = .ok v) :
    v.g = ((words b).filterMap motionWord).getLast? ∧
      v.plane.map planeNum = ((words b).filterMap planeWord).getLast? := by
  have := visitAll_words (P := fun ds r => r.g = (ds.filterMap motionWord).getLast? ∧
      r.plane.map planeNum = (ds.filterMap planeWord).getLast?) (by rfl) h [] ⟨rfl, rfl⟩ ?_ ?_ ?_
  · exact this
  · intro ds r d x hm hp hr
    obtain ⟨h1, h2⟩ := readWord_motion hc (hb d hm) hr
    have e1 : List.filterMap motionWord [d] = (motionWord d).toList := by
      rw [List.filterMap_cons]; cases motionWord d <;> rfl
    have e2 : List.filterMap planeWord [d] = (planeWord d).toList := by
      rw [List.filterMap_cons]; cases planeWord d <;> rfl
    rw [on_motionAct, on_plane, List.filterMap_append, List.filterMap_append, e1, e2, getLast?_snoc_or, getLast?_snoc_or,
      ← hp.1, ← hp.2, h1, ← h2]
    refine ⟨rfl, ?_⟩
    cases planeOfAct x <;> rfl
  · intro ds r p m hp; exact hp
  · intro ds r hp; exact hp

/-- The block has a motion of its own, or no rapid positioning is pending. -/
def NotPending (s : St K) (b : Block) : Prop := s.autoRapid = false ∨ (words b).filterMap motionWord ≠ []

/-- A block that just moves is computed by `motion`. -/
theorem plain_motion (F : Fns K) {c : Cfg K} (hx : AxesOk c) (inch : Inch) (line : Int) {b : Block}
    (p : St K × MacroMap ℚ) (hb : Plain b) (hne : b ≠ [])
    (hr : NotPending p.1 b) (hg : motionCode b p.1.g ∈ ([0, 1, 2, 3] : List Int))
    (h : (evaluate F c inch line b p).2 = .ok ()) :
    ∃ v S M o, visitAll c {} b = .ok v ∧ v.tools = [] ∧ v.m6 = false ∧ v.otherG = [] ∧
      SamePos p.1 S ∧ S.incr = p.1.incr ∧ S.plane = p.1.plane ∧ S.helix = p.1.helix ∧
      S.path.work = some 0 ∧ S.path.fast = some 0 ∧
      (current v S).g = motionCode b p.1.g ∧ planeNum (current v S).plane = planeCode b (planeNum p.1.plane) ∧
      motion F c v (current v S) S = (M, .ok o) ∧
      (evaluate F c inch line b p).1.1.path.work = M.path.work ∧
      (evaluate F c inch line b p).1.1.path.fast = M.path.fast ∧
      (evaluate F c inch line b p).1.1.g = motionCode b p.1.g := by
  have hE := evaluate_eval F c inch line b p
  rw [h] at hE
  generalize (evaluate F c inch line b p).1.1 = s' at hE ⊢
  generalize ho : (Out.ok () : Out Exc Unit) = o at hE
  have hvis : ∀ v, visitAll c {} b = .ok v → toolOf v = none ∧ v.tools = [] ∧ v.m6 = false ∧ v.otherG = [] ∧
      v.g = ((words b).filterMap motionWord).getLast? ∧
      v.plane.map planeNum = ((words b).filterMap planeWord).getLast? := by
    intro v hv
    obtain ⟨e1, e2, e3⟩ := visitAll_plain hx hb hv
    obtain ⟨e4, e5⟩ := visitAll_motion hx hb hv
    refine ⟨?_, e1, e2, e3, e4, e5⟩
    unfold toolOf; rw [e1]; split <;> rfl
  have hat : ∀ v, toolOf v = none → v.m6 = false → atTool c v = false := by
    intro v h1 h2
    unfold atTool; rw [h1, h2]; simp
  have hS : ∀ v S, visitAll c {} b = .ok v → S = started c v (dwell v (exchanged c v (begun c v p.1))) →
      SamePos p.1 S ∧ S.incr = p.1.incr ∧ S.plane = p.1.plane ∧ S.helix = p.1.helix ∧
      S.path.work = some 0 ∧ S.path.fast = some 0 ∧ (current v S).g = motionCode b p.1.g ∧
      planeNum (current v S).plane = planeCode b (planeNum p.1.plane) := by
    intro v S hv hS
    obtain ⟨h0, h1, h2, h3, h4, h5⟩ := hvis v hv
    have hf := ready_fields c v p.1
    dsimp only at hf
    rw [← hS] at hf
    obtain ⟨f1, f2, f3, _, _, f4, _, _, _, f5, _, f6, f7, _⟩ := hf
    refine ⟨f1, f3, f4, f5, f6, f7, ?_, ?_⟩
    · show v.g.getD S.g = _
      unfold motionCode
      rw [h4]
      cases hl : ((words b).filterMap motionWord).getLast? with
      | some n => rfl
      | none =>
        have hnil := List.getLast?_eq_none_iff.mp hl
        have har : p.1.autoRapid = false := by
          rcases hr with h | h
          · exact h
          · exact absurd hnil h
        show S.g = p.1.g
        rw [hS]
        have e1 : exchanged c v (begun c v p.1) = begun c v p.1 := by unfold exchanged; rw [h0]
        rw [e1]
        obtain ⟨y, hy⟩ := dwell_fields v (begun c v p.1)
        obtain ⟨z, hz⟩ := begun_addTime c v p.1
        have e2 : (dwell v (begun c v p.1)).autoRapid = false := by rw [hy, hz]; exact har
        have e3 : (dwell v (begun c v p.1)).g = p.1.g := by rw [hy, hz]; rfl
        unfold started atBase
        rw [hat v h0 h2, h3, e2]
        simp
        exact e3
    · show planeNum (v.plane.getD S.plane) = _
      unfold planeCode
      rw [← h5, f4]
      cases v.plane <;> rfl
  cases hE with
  | empty hb' => exact absurd hb' hne
  | unread e _ => cases ho
  | unreadUb _ => cases ho
  | alone v t hv ht ha hw => rw [(hvis v hv).1] at ht; cases ht
  | aloneErr v t n hv ht ha hw => cases ho
  | badTool v t e hv ht ha hq => cases ho
  | badToolUb v t hv ht ha hq => cases ho
  | before v hv ht ha hba hr' hgg hvg =>
    have : motionCode b p.1.g = -1 := by
      unfold motionCode
      rw [← (hvis v hv).2.2.2.2.1, hvg, hgg]; rfl
    rw [this] at hg
    exact absurd hg (by decide)
  | halt v S M o' hb' hv ht hSS hn hm ho' =>
    obtain ⟨_, h1, h2, h3, h4, _⟩ := hvis v hv
    obtain ⟨g1, g2, g3, g4, g5, g6, g7, g8⟩ := hS v S hv hSS
    rcases finish_ok ho.symm with h | h
    · exact absurd h ho'
    · subst h
      have hgood : Good (current v S).g := by
        rw [g7]
        revert hg
        generalize motionCode b p.1.g = n
        intro hn'
        unfold Good
        simp only [List.mem_cons, List.not_mem_nil, or_false] at hn'
        rcases hn' with rfl | rfl | rfl | rfl <;> simp
      obtain ⟨m1, m2, m3, m4⟩ := motion_false hgood hm
      refine ⟨v, S, _, false, hv, h1, h2, h3, g1, g2, g3, g4, g5, g6, g7, g8, hm, rfl, rfl, ?_⟩
      rw [m1]
      rw [← g7]
      show S.g = v.g.getD S.g
      rw [m2]; rfl
  | done v S M s' o' hb' hv ht hSS hn hm ha =>
    obtain ⟨_, h1, h2, h3, _⟩ := hvis v hv
    obtain ⟨g1, g2, g3, g4, g5, g6, g7, g8⟩ := hS v S hv hSS
    refine ⟨v, S, M, true, hv, h1, h2, h3, g1, g2, g3, g4, g5, g6, g7, g8, hm, ?_⟩
    have hgA : gAfter c (current v S).g = motionCode b p.1.g := by
      rw [g7]
      unfold gAfter
      rw [if_neg]
      rintro ⟨e, _⟩
      rw [e] at hg
      exact absurd hg (by decide)
    rw [account_eq] at ha
    split at ha
    · cases ha
      unfold savePositions
      split
      · exact ⟨rfl, rfl, hgA⟩
      · split <;> exact ⟨rfl, rfl, hgA⟩
    · cases ha; cases ho
    · cases ha; cases ho

omit [LinearOrder K] [FloorRing K] in
theorem param_mem {c : Cfg K} {a : Str} (h : a ∈ ([c!"X", c!"Y", c!"Z", c!"I", c!"J", c!"K", c!"R", c!"Q", c!"L", c!"P", c!"U"] : List Str)) :
    a ∈ gcodeParams c := List.mem_append_left _ h

omit [LinearOrder K] [FloorRing K] in
theorem halve_other {c : Cfg K} (hm : c.mtype = .other) (pl : Plane) (x : K) : halve c pl x = x := by
  unfold halve latheProg
  rw [hm]
  simp

/-- **C71.** The reported motion of a straight move is the distance between the positions before and after the
block, and it is rapid for G0 and work for G1, whether the words are coordinates or distances. -/
theorem C71_line_partial (F : Fns K) {c : Cfg K} (hc : WF c) (hx : AxesOk c) (hm : c.mtype = .other) (inch : Inch)
    (line : Int) (b : Block) (p : St K × MacroMap ℚ) (hp : Inv p.1) (hb : Plain b) (hne : b ≠ [])
    (hr : NotPending p.1 b) (hg : motionCode b p.1.g = 0 ∨ motionCode b p.1.g = 1)
    (h : (evaluate F c inch line b p).2 = .ok ()) {x y z : K} (hX : pos p.1 c!"X" = some x)
    (hY : pos p.1 c!"Y" = some y) (hZ : pos p.1 c!"Z" = some z) :
    ∃ x' y' z', pos (evaluate F c inch line b p).1.1 c!"X" = some x' ∧
      pos (evaluate F c inch line b p).1.1 c!"Y" = some y' ∧ pos (evaluate F c inch line b p).1.1 c!"Z" = some z' ∧
      (motionCode b p.1.g = 0 → (evaluate F c inch line b p).1.1.path.fast = some (dist3 F x y z x' y' z') ∧
        (evaluate F c inch line b p).1.1.path.work = some 0) ∧
      (motionCode b p.1.g = 1 → (evaluate F c inch line b p).1.1.path.work = some (dist3 F x y z x' y' z') ∧
        (evaluate F c inch line b p).1.1.path.fast = some 0) := by
  have hg' : motionCode b p.1.g ∈ ([0, 1, 2, 3] : List Int) := by rcases hg with h | h <;> rw [h] <;> decide
  obtain ⟨v, S, M, o, hv, h1, h2, h3, g1, g2, g3, g4, g5, g6, g7, g8, hmo, w1, w2, w3⟩ :=
    plain_motion F hx inch line p hb hne hr hg' h
  have hdr : (isDrill (evaluate F c inch line b p).1.1.g || isDrillQ (evaluate F c inch line b p).1.1.g) = false := by
    rw [w3]; rcases hg with h | h <;> rw [h] <;> decide
  have hpos := fun a ha hq => C25_position F hc hx inch line b p hp hb h a ha hq (fun _ => hdr)
  have pX := hpos c!"X" (param_mem (by decide)) (by decide)
  have pY := hpos c!"Y" (param_mem (by decide)) (by decide)
  have pZ := hpos c!"Z" (param_mem (by decide)) (by decide)
  have vX := visitAll_vals hv (param_mem (c := c) (a := c!"X") (by decide))
  have vY := visitAll_vals hv (param_mem (c := c) (a := c!"Y") (by decide))
  have vZ := visitAll_vals hv (param_mem (c := c) (a := c!"Z") (by decide))
  have sX : S.prev.get c!"X" = some x := by rw [g1.1, hp.sync, hX]
  have sY : S.prev.get c!"Y" = some y := by rw [g1.1, hp.sync, hY]
  have sZ : S.prev.get c!"Z" = some z := by rw [g1.1, hp.sync, hZ]
  have hat : atTool c v = false := by unfold atTool toolOf; rw [h1, h2]; simp
  have hab : atBase v = false := by unfold atBase; rw [h3]; simp
  have hin : (current v S).incr = incremental b p.1.incr := by
    show v.incr.getD S.incr = _
    rw [visitAll_incr hx hv, g2]; rfl
  unfold moved at pX pY pZ
  rw [hX] at pX
  rw [hY] at pY
  rw [hZ] at pZ
  have hset : ∀ (s : St K) (l : K), s.path.work = some 0 → s.path.fast = some 0 →
      (motionCode b p.1.g = 0 → (setMotion (current v S).g (some l) s).path.fast = some l ∧
        (setMotion (current v S).g (some l) s).path.work = some 0) ∧
      (motionCode b p.1.g = 1 → (setMotion (current v S).g (some l) s).path.work = some l ∧
        (setMotion (current v S).g (some l) s).path.fast = some 0) := by
    intro s l e1 e2
    rw [g7]
    unfold setMotion
    constructor
    · intro e; rw [if_pos e]; exact ⟨rfl, e1⟩
    · intro e; rw [if_neg (by rw [e]; decide)]; exact ⟨rfl, e2⟩
  have hcan : ∃ T, cancelBy c (current v S).g S = T ∧ T.prev = S.prev ∧ T.path.work = some 0 ∧ T.path.fast = some 0 := by
    refine ⟨_, rfl, ?_⟩
    unfold cancelBy
    split
    · exact ⟨rfl, g5, g6⟩
    · exact ⟨rfl, g5, g6⟩
  obtain ⟨T, hT, t1, t2, t3⟩ := hcan
  unfold motion at hmo
  rw [g7, if_pos hg] at hmo
  unfold linear at hmo
  rw [hT, hat, hab, hin] at hmo
  simp only [Bool.false_eq_true, or_false] at hmo
  by_cases hi : incremental b p.1.incr = false
  · rw [if_pos hi] at hmo
    rw [hi] at pX pY pZ
    unfold linearAbs at hmo
    rw [t1, sX, sY, sZ] at hmo
    unfold target at hmo
    rw [hat, hab, vX, vY, vZ] at hmo
    simp only [Bool.false_eq_true, if_false, halve_other hm] at hmo
    refine ⟨(programmed b c!"X").getD x, (programmed b c!"Y").getD y, (programmed b c!"Z").getD z, ?_, ?_, ?_, ?_⟩
    · rw [pX]; cases programmed (K := K) b c!"X" <;> simp
    · rw [pY]; cases programmed (K := K) b c!"Y" <;> simp
    · rw [pZ]; cases programmed (K := K) b c!"Z" <;> simp
    · have := congrArg Prod.fst hmo
      dsimp only at this
      rw [w1, w2, ← this]
      exact hset T _ t2 t3
  · have hi' : incremental b p.1.incr = true := by simpa using hi
    rw [if_neg hi] at hmo
    rw [hi'] at pX pY pZ
    unfold linearIncr at hmo
    have k : ∀ a, (S.prev.get a).isSome = true → known v T a = true := by
      intro a ha; unfold known; rw [t1, ha]; simp
    rw [k _ (by rw [sX]; rfl), k _ (by rw [sY]; rfl), k _ (by rw [sZ]; rfl), vX, vY, vZ] at hmo
    simp only [Bool.true_eq_false, if_false, halve_other hm] at hmo
    refine ⟨x + (programmed b c!"X").getD 0, y + (programmed b c!"Y").getD 0, z + (programmed b c!"Z").getD 0, ?_, ?_, ?_, ?_⟩
    · rw [pX]; cases programmed (K := K) b c!"X" <;> simp
    · rw [pY]; cases programmed (K := K) b c!"Y" <;> simp
    · rw [pZ]; cases programmed (K := K) b c!"Z" <;> simp
    · have := congrArg Prod.fst hmo
      dsimp only at this
      rw [w1, w2, ← this]
      have hd : dist3 F x y z (x + (programmed b c!"X").getD 0) (y + (programmed b c!"Y").getD 0) (z + (programmed b c!"Z").getD 0) =
          len3 F ((programmed b c!"X").getD 0) ((programmed b c!"Y").getD 0) ((programmed b c!"Z").getD 0) := by
        unfold dist3 len3
        congr 1
        ring
      rw [hd]
      exact hset T _ t2 t3

/-! ## Arcs -/

omit [FloorRing K] [LinearOrder K] [Field K] in
theorem axesOf_planeAxes (pl : Plane) :
    (planeAxes (planeNum pl)).u = (axesOf pl).a1 ∧ (planeAxes (planeNum pl)).v = (axesOf pl).a2 ∧
    (planeAxes (planeNum pl)).across = (axesOf pl).a3 ∧ (planeAxes (planeNum pl)).cu = (axesOf pl).p1 ∧
    (planeAxes (planeNum pl)).cv = (axesOf pl).p2 := by
  cases pl <;> exact ⟨rfl, rfl, rfl, rfl, rfl⟩

/-- A block that moves along an arc in its plane: not a helix or spiral, and not without words. -/
structure ArcBlock (b : Block) (s : St K) (ax : PlaneAxes) : Prop where
  code : motionCode b s.g = 2 ∨ motionCode b s.g = 3
  words : (words b).filterMap motionWord ≠ [] ∨ programmed (K := K) b ax.u ≠ none ∨ programmed (K := K) b ax.v ≠ none
  flat : programmed (K := K) b ax.across = none
  noSpiral : programmed (K := K) b c!"Q" = none ∧ programmed (K := K) b c!"L" = none
  noHelix : s.helix = .none

/-- What `circular` computes for an arc in the plane. -/
theorem circular_arc {F : Fns K} {c : Cfg K} {v : Vis K} {cur : Cur K} {s M : St K} {o : Bool}
    {x y : K} (hx : s.prev.get (axesOf cur.plane).a1 = some x) (hy : s.prev.get (axesOf cur.plane).a2 = some y)
    (hv : ¬ (v.g = none ∧ v.vals = [])) (hz : v.vals.get (axesOf cur.plane).a3 = none)
    (hq : v.vals.get c!"Q" = none) (hl : v.vals.get c!"L" = none) (hh : s.helix = .none)
    (h : circular F c v cur s = (M, .ok o)) :
    M.path.fast = s.path.fast ∧
    ((∃ i j, (v.vals.get (axesOf cur.plane).p1 = some i ∨
          (v.vals.get c!"R" = none ∧ v.vals.get (axesOf cur.plane).p1 = none ∧ s.prev.get (axesOf cur.plane).p1 = some i)) ∧
        (v.vals.get (axesOf cur.plane).p2 = some j ∨
          (v.vals.get c!"R" = none ∧ v.vals.get (axesOf cur.plane).p2 = none ∧ s.prev.get (axesOf cur.plane).p2 = some j)) ∧
        M.path.work = some (arcIJ F (halve c cur.plane x) y (halve c cur.plane (arcEnd cur.incr x (v.vals.get (axesOf cur.plane).a1)))
          (arcEnd cur.incr y (v.vals.get (axesOf cur.plane).a2)) (halve c cur.plane i) j cur.g.toNat)) ∨
      (∃ r, v.vals.get c!"R" = some r ∧
        (v.vals.get (axesOf cur.plane).p1 = none ∨ v.vals.get (axesOf cur.plane).p2 = none) ∧
        M.path.work = some (arcR F (halve c cur.plane x) y (halve c cur.plane (arcEnd cur.incr x (v.vals.get (axesOf cur.plane).a1)))
          (arcEnd cur.incr y (v.vals.get (axesOf cur.plane).a2)) r))) := by
  obtain ⟨T, hT, t1, t2, t3⟩ : ∃ T, cancelBy c cur.g s = T ∧ T.prev = s.prev ∧ T.helix = .none ∧ T.path.fast = s.path.fast := by
    refine ⟨_, rfl, ?_⟩
    unfold cancelBy
    split
    · exact ⟨rfl, hh, rfl⟩
    · exact ⟨rfl, hh, rfl⟩
  unfold circular at h
  rw [if_neg hv] at h
  dsimp only at h
  rw [hx, hy] at h
  dsimp only at h
  rw [hT] at h
  unfold circularFrom at h
  dsimp only at h
  have hql : ¬ ((v.vals.get c!"Q").isSome ∨ (v.vals.get c!"L").isSome) := by rw [hq, hl]; simp
  rw [if_neg hql] at h
  have hst : ∀ w : CW K, w.z = none → helixStart (axesOf cur.plane) T w = (((T, w), .ok true), false) := by
    intro w hw
    unfold helixStart
    rw [hw]
    cases w.x <;> cases w.y <;> rfl
  rw [hst _ hz] at h
  unfold helixStep at h
  dsimp only at h
  rw [if_pos t2] at h
  unfold arcStep at h
  dsimp only at h
  rw [if_pos t2] at h
  unfold arc at h
  simp only [t1] at h
  cases hr : v.vals.get c!"R" with
  | some r =>
    rw [hr] at h
    simp only [reduceCtorEq, false_and, if_false] at h
    cases hi : v.vals.get (axesOf cur.plane).p1 with
    | none =>
      rw [hi] at h
      dsimp only at h
      cases h
      exact ⟨t3, Or.inr ⟨r, rfl, Or.inl rfl, rfl⟩⟩
    | some i =>
      cases hj : v.vals.get (axesOf cur.plane).p2 with
      | none =>
        rw [hi, hj] at h
        dsimp only at h
        cases h
        exact ⟨t3, Or.inr ⟨r, rfl, Or.inr rfl, rfl⟩⟩
      | some j =>
        rw [hi, hj] at h
        dsimp only at h
        cases h
        exact ⟨t3, Or.inl ⟨i, j, Or.inl rfl, Or.inl rfl, rfl⟩⟩
  | none =>
    rw [hr] at h
    have key : ∀ (i j : Option K) (M : St K) (P : Prop),
        ((match i, j, (none : Option K) with
          | some i, some j, _ => (setWork (some (arcIJ F (halve c cur.plane x) y (halve c cur.plane (arcEnd cur.incr x (v.vals.get (axesOf cur.plane).a1)))
              (arcEnd cur.incr y (v.vals.get (axesOf cur.plane).a2)) (halve c cur.plane i) j cur.g.toNat)) T, .ok true)
          | _, _, some r => (setWork (some (arcR F (halve c cur.plane x) y (halve c cur.plane (arcEnd cur.incr x (v.vals.get (axesOf cur.plane).a1)))
              (arcEnd cur.incr y (v.vals.get (axesOf cur.plane).a2)) r)) T, .ok true)
          | _, _, none => (T, .throw (err .ValueNotSetForEither [(axesOf cur.plane).p1, (axesOf cur.plane).p2])))
          : AttrPath.Part (St K)) = (M, .ok o) →
        (∀ i' j', i = some i' → j = some j' → M = setWork (some (arcIJ F (halve c cur.plane x) y (halve c cur.plane (arcEnd cur.incr x (v.vals.get (axesOf cur.plane).a1)))
              (arcEnd cur.incr y (v.vals.get (axesOf cur.plane).a2)) (halve c cur.plane i') j' cur.g.toNat)) T → P) → P := by
      intro i j M P h1 h2
      cases i with
      | none => cases h1
      | some i =>
        cases j with
        | none => cases h1
        | some j => cases h1; exact h2 i j rfl rfl rfl
    cases hi : v.vals.get (axesOf cur.plane).p1 with
    | none =>
      rw [hi] at h
      simp only [true_and, true_or, if_true] at h
      refine key _ _ _ _ h ?_
      intro i j e1 e2 e3
      rw [e3]
      refine ⟨t3, Or.inl ⟨i, j, Or.inr ⟨rfl, rfl, e1⟩, ?_, rfl⟩⟩
      cases hj : v.vals.get (axesOf cur.plane).p2 with
      | none => rw [hj] at e2; exact Or.inr ⟨rfl, rfl, e2⟩
      | some j' => rw [hj] at e2; exact Or.inl e2
    | some i' =>
      cases hj : v.vals.get (axesOf cur.plane).p2 with
      | none =>
        rw [hi, hj] at h
        simp only [true_and, or_true, if_true] at h
        refine key _ _ _ _ h ?_
        intro i j e1 e2 e3
        rw [e3]
        exact ⟨t3, Or.inl ⟨i, j, Or.inl e1, Or.inr ⟨rfl, rfl, e2⟩, rfl⟩⟩
      | some j' =>
        rw [hi, hj] at h
        simp only [reduceCtorEq, or_self, and_false, if_false] at h
        refine key (some i') (some j') _ _ h ?_
        intro i j e1 e2 e3
        rw [e3]
        exact ⟨t3, Or.inl ⟨i, j, Or.inl e1, Or.inl e2, rfl⟩⟩

/-- **C29, planes.** In each plane an arc is computed in the same way from the positions before and after the
block on the axes of the plane and from the words of the centre that belong to them: G17 from X, Y, I, J, G18
from X, Z, I, K and G19 from Y, Z, J, K.  The centre given before counts if neither a centre nor R is given. -/
theorem C29_planes_partial (F : Fns K) {c : Cfg K} (hc : WF c) (hx : AxesOk c) (hm : c.mtype = .other) (inch : Inch)
    (line : Int) (b : Block) (p : St K × MacroMap ℚ) (hp : Inv p.1) (hb : Plain b) (hne : b ≠ [])
    (hr : NotPending p.1 b) (hA : ArcBlock b p.1 (planeAxes (planeCode b (planeNum p.1.plane))))
    (h : (evaluate F c inch line b p).2 = .ok ()) {x y : K}
    (hX : pos p.1 (planeAxes (planeCode b (planeNum p.1.plane))).u = some x)
    (hY : pos p.1 (planeAxes (planeCode b (planeNum p.1.plane))).v = some y) :
    ∃ x' y', pos (evaluate F c inch line b p).1.1 (planeAxes (planeCode b (planeNum p.1.plane))).u = some x' ∧
      pos (evaluate F c inch line b p).1.1 (planeAxes (planeCode b (planeNum p.1.plane))).v = some y' ∧
      (evaluate F c inch line b p).1.1.path.fast = some 0 ∧
      ((∃ i j, pos (evaluate F c inch line b p).1.1 (planeAxes (planeCode b (planeNum p.1.plane))).cu = some i ∧
          pos (evaluate F c inch line b p).1.1 (planeAxes (planeCode b (planeNum p.1.plane))).cv = some j ∧
          (programmed (K := K) b c!"R" = none ∨ (programmed b (planeAxes (planeCode b (planeNum p.1.plane))).cu = some i ∧
            programmed b (planeAxes (planeCode b (planeNum p.1.plane))).cv = some j)) ∧
          (evaluate F c inch line b p).1.1.path.work = some (arcIJ F x y x' y' i j (motionCode b p.1.g).toNat)) ∨
       (∃ r, programmed b c!"R" = some r ∧
          (programmed (K := K) b (planeAxes (planeCode b (planeNum p.1.plane))).cu = none ∨
            programmed (K := K) b (planeAxes (planeCode b (planeNum p.1.plane))).cv = none) ∧
          (evaluate F c inch line b p).1.1.path.work = some (arcR F x y x' y' r))) := by
  have hg' : motionCode b p.1.g ∈ ([0, 1, 2, 3] : List Int) := by rcases hA.code with h | h <;> rw [h] <;> decide
  obtain ⟨v, S, M, o, hv, h1, h2, h3, g1, g2, g3, g4, g5, g6, g7, g8, hmo, w1, w2, w3⟩ :=
    plain_motion F hx inch line p hb hne hr hg' h
  have hdr : (isDrill (evaluate F c inch line b p).1.1.g || isDrillQ (evaluate F c inch line b p).1.1.g) = false := by
    rw [w3]; rcases hA.code with h | h <;> rw [h] <;> decide
  have hpos := fun a ha hq => C25_position F hc hx inch line b p hp hb h a ha hq (fun _ => hdr)
  have hvals := fun a ha => visitAll_vals (a := a) hv (param_mem (c := c) ha)
  have hin : (current v S).incr = incremental b p.1.incr := by
    show v.incr.getD S.incr = _
    rw [visitAll_incr hx hv, g2]; rfl
  obtain ⟨a1, a2, a3, a4, a5⟩ := axesOf_planeAxes (current v S).plane
  rw [g8] at a1 a2 a3 a4 a5
  have hA' := hA
  rw [a1] at hX
  rw [a2] at hY
  rw [a1, a2, a4, a5]
  have m1 : (axesOf (current v S).plane).a1 ∈ ([c!"X", c!"Y", c!"Z"] : List Str) := by
    cases (current v S).plane <;> decide
  have m2 : (axesOf (current v S).plane).a2 ∈ ([c!"X", c!"Y", c!"Z"] : List Str) := by
    cases (current v S).plane <;> decide
  have m3 : (axesOf (current v S).plane).a3 ∈ ([c!"X", c!"Y", c!"Z"] : List Str) := by
    cases (current v S).plane <;> decide
  have m4 : (axesOf (current v S).plane).p1 ∈ ([c!"I", c!"J", c!"K"] : List Str) := by
    cases (current v S).plane <;> decide
  have m5 : (axesOf (current v S).plane).p2 ∈ ([c!"I", c!"J", c!"K"] : List Str) := by
    cases (current v S).plane <;> decide
  have sub1 : ∀ a ∈ ([c!"X", c!"Y", c!"Z"] : List Str), a ∈ ([c!"X", c!"Y", c!"Z", c!"I", c!"J", c!"K", c!"R", c!"Q", c!"L", c!"P", c!"U"] : List Str) ∧ a ≠ c!"Q" ∧ a ≠ c!"L" ∧ (a = c!"X" ∨ a = c!"Y" ∨ a = c!"Z") := by
    decide
  have sub2 : ∀ a ∈ ([c!"I", c!"J", c!"K"] : List Str), a ∈ ([c!"X", c!"Y", c!"Z", c!"I", c!"J", c!"K", c!"R", c!"Q", c!"L", c!"P", c!"U"] : List Str) ∧ a ≠ c!"Q" ∧ a ≠ c!"L" ∧ ¬ (a = c!"X" ∨ a = c!"Y" ∨ a = c!"Z") := by
    decide
  generalize hax : axesOf (current v S).plane = ax at *
  have v1 := hvals ax.a1 (sub1 _ m1).1
  have v2 := hvals ax.a2 (sub1 _ m2).1
  have v3 := hvals ax.a3 (sub1 _ m3).1
  have v4 := hvals ax.p1 (sub2 _ m4).1
  have v5 := hvals ax.p2 (sub2 _ m5).1
  have vR := hvals c!"R" (by decide)
  have vQ := hvals c!"Q" (by decide)
  have vL := hvals c!"L" (by decide)
  have q1 := hpos ax.a1 (param_mem (sub1 _ m1).1) ⟨(sub1 _ m1).2.1, (sub1 _ m1).2.2.1⟩
  have q2 := hpos ax.a2 (param_mem (sub1 _ m2).1) ⟨(sub1 _ m2).2.1, (sub1 _ m2).2.2.1⟩
  have q4 := hpos ax.p1 (param_mem (sub2 _ m4).1) ⟨(sub2 _ m4).2.1, (sub2 _ m4).2.2.1⟩
  have q5 := hpos ax.p2 (param_mem (sub2 _ m5).1) ⟨(sub2 _ m5).2.1, (sub2 _ m5).2.2.1⟩
  unfold moved at q1 q2 q4 q5
  have e1 : ∀ i : Bool, (i = true ∧ (ax.a1 = c!"X" ∨ ax.a1 = c!"Y" ∨ ax.a1 = c!"Z")) ↔ i = true :=
    fun i => ⟨fun e => e.1, fun e => ⟨e, (sub1 _ m1).2.2.2⟩⟩
  have e2 : ∀ i : Bool, (i = true ∧ (ax.a2 = c!"X" ∨ ax.a2 = c!"Y" ∨ ax.a2 = c!"Z")) ↔ i = true :=
    fun i => ⟨fun e => e.1, fun e => ⟨e, (sub1 _ m2).2.2.2⟩⟩
  simp only [e1] at q1
  simp only [e2] at q2
  have e4 := (sub2 _ m4).2.2.2
  have e5 := (sub2 _ m5).2.2.2
  simp only [e4, and_false, if_false] at q4
  simp only [e5, and_false, if_false] at q5
  have z1 : S.prev.get ax.a1 = some x := by rw [g1.1, hp.sync, hX]
  have z2 : S.prev.get ax.a2 = some y := by rw [g1.1, hp.sync, hY]
  have hnv : ¬ (v.g = none ∧ v.vals = []) := by
    rintro ⟨n1, n2⟩
    rw [n2] at v1 v2
    rw [(visitAll_motion hx hb hv).1] at n1
    rcases hA.words with hw | hw | hw
    · exact hw (List.getLast?_eq_none_iff.mp n1)
    · rw [a1] at hw; exact hw v1.symm
    · rw [a2] at hw; exact hw v2.symm
  unfold motion at hmo
  rw [if_neg (by rw [g7]; rcases hA.code with h | h <;> rw [h] <;> decide), if_pos (by rw [g7]; exact hA.code)] at hmo
  have hfl := hA.flat
  rw [a3] at hfl
  have key := circular_arc (by rw [hax]; exact z1) (by rw [hax]; exact z2) hnv (by rw [hax, v3]; exact hfl)
    (by rw [vQ]; exact hA.noSpiral.1) (by rw [vL]; exact hA.noSpiral.2) (by rw [g4]; exact hA.noHelix) hmo
  simp only [halve_other hm] at key
  rw [hax, v1, v2, v4, v5, vR, hin, g7, g1.1, hp.sync, hp.sync, ← w1, ← w2, g6] at key
  obtain ⟨kf, kw⟩ := key
  refine ⟨arcEnd (incremental b p.1.incr) x (programmed b ax.a1), arcEnd (incremental b p.1.incr) y (programmed b ax.a2),
    ?_, ?_, kf, ?_⟩
  · rw [q1, hX]
    cases programmed (K := K) b ax.a1 with
    | none => rfl
    | some t => unfold arcEnd; dsimp only; split <;> rfl
  · rw [q2, hY]
    cases programmed (K := K) b ax.a2 with
    | none => rfl
    | some t => unfold arcEnd; dsimp only; split <;> rfl
  · rcases kw with ⟨i, j, k1, k2, k3⟩ | ⟨r, k1, k2, k3⟩
    · left
      refine ⟨i, j, ?_, ?_, ?_, k3⟩
      · rw [q4]
        rcases k1 with k | ⟨_, k, k'⟩
        · rw [k]
        · rw [k]; exact k'
      · rw [q5]
        rcases k2 with k | ⟨_, k, k'⟩
        · rw [k]
        · rw [k]; exact k'
      · rcases k1 with k | ⟨k, _, _⟩
        · rcases k2 with k' | ⟨k', _, _⟩
          · exact Or.inr ⟨k, k'⟩
          · exact Or.inl k'
        · exact Or.inl k
    · exact Or.inr ⟨r, k1, k2, k3⟩

/-! ## C68 -/

/-- **C68.** A straight move by distances (G91) and one to coordinates (G90) that lead from the same place to
the same place report the same motion. -/
theorem C68_line_partial (F : Fns K) {c : Cfg K} (hc : WF c) (hx : AxesOk c) (hm : c.mtype = .other) (inch : Inch)
    (line line' : Int) (b b' : Block) (p : St K × MacroMap ℚ) (hp : Inv p.1) (hb : Plain b) (hb' : Plain b')
    (hne : b ≠ []) (hne' : b' ≠ []) (hr : NotPending p.1 b) (hr' : NotPending p.1 b')
    (hg : motionCode b p.1.g = 0 ∨ motionCode b p.1.g = 1) (hsame : motionCode b' p.1.g = motionCode b p.1.g)
    (h : (evaluate F c inch line b p).2 = .ok ()) (h' : (evaluate F c inch line' b' p).2 = .ok ()) {x y z : K}
    (hX : pos p.1 c!"X" = some x) (hY : pos p.1 c!"Y" = some y) (hZ : pos p.1 c!"Z" = some z)
    (heq : ∀ a ∈ ([c!"X", c!"Y", c!"Z"] : List Str), moved (K := K) (incremental b p.1.incr) (programmed b) (pos p.1) a =
      moved (incremental b' p.1.incr) (programmed b') (pos p.1) a) :
    (evaluate F c inch line b p).1.1.path.work = (evaluate F c inch line' b' p).1.1.path.work ∧
    (evaluate F c inch line b p).1.1.path.fast = (evaluate F c inch line' b' p).1.1.path.fast := by
  have hg' : motionCode b' p.1.g = 0 ∨ motionCode b' p.1.g = 1 := by rw [hsame]; exact hg
  obtain ⟨x1, y1, z1, hx1, hy1, hz1, k0, k1⟩ := C71_line_partial F hc hx hm inch line b p hp hb hne hr hg h hX hY hZ
  obtain ⟨x2, y2, z2, hx2, hy2, hz2, l0, l1⟩ := C71_line_partial F hc hx hm inch line' b' p hp hb' hne' hr' hg' h' hX hY hZ
  have hin : ∀ (b : Block) (line : Int), Plain b → b ≠ [] → NotPending p.1 b →
      (motionCode b p.1.g = 0 ∨ motionCode b p.1.g = 1) → (evaluate F c inch line b p).2 = .ok () →
      ∀ a ∈ ([c!"X", c!"Y", c!"Z"] : List Str), pos (evaluate F c inch line b p).1.1 a =
        moved (incremental b p.1.incr) (programmed b) (pos p.1) a := by
    intro b line hb hne hr hg h a ha
    have hg4 : motionCode b p.1.g ∈ ([0, 1, 2, 3] : List Int) := by rcases hg with h | h <;> rw [h] <;> decide
    obtain ⟨_, _, _, _, _, _, _, _, _, _, _, _, _, _, _, _, _, _, _, w3⟩ := plain_motion F hx inch line p hb hne hr hg4 h
    have sub1 : ∀ a ∈ ([c!"X", c!"Y", c!"Z"] : List Str), a ∈ ([c!"X", c!"Y", c!"Z", c!"I", c!"J", c!"K", c!"R", c!"Q", c!"L", c!"P", c!"U"] : List Str) ∧ a ≠ c!"Q" ∧ a ≠ c!"L" := by
      decide
    exact C25_position F hc hx inch line b p hp hb h a (param_mem (sub1 a ha).1) (sub1 a ha).2
      (fun _ => by rw [w3]; rcases hg with h | h <;> rw [h] <;> decide)
  have e : ∀ a ∈ ([c!"X", c!"Y", c!"Z"] : List Str),
      pos (evaluate F c inch line b p).1.1 a = pos (evaluate F c inch line' b' p).1.1 a := by
    intro a ha
    rw [hin b line hb hne hr hg h a ha, hin b' line' hb' hne' hr' hg' h' a ha, heq a ha]
  have ex := e c!"X" (by decide)
  have ey := e c!"Y" (by decide)
  have ez := e c!"Z" (by decide)
  rw [hx1, hx2] at ex
  rw [hy1, hy2] at ey
  rw [hz1, hz2] at ez
  cases ex
  cases ey
  cases ez
  rcases hg with hg | hg
  · rw [(k0 hg).1, (k0 hg).2, (l0 (hsame.trans hg)).1, (l0 (hsame.trans hg)).2]
    exact ⟨rfl, rfl⟩
  · rw [(k1 hg).1, (k1 hg).2, (l1 (hsame.trans hg)).1, (l1 (hsame.trans hg)).2]
    exact ⟨rfl, rfl⟩

end

/-! ## Lengths in the plane -/

section
open Spec.Geo

local notation "RF" => realFns

/-- **C71.** The reported motion of a straight move is the Euclidean distance between the positions before and
after the block. -/
theorem C71_euclidean_partial {c : Cfg ℝ} (hc : WF c) (hx : AxesOk c) (hm : c.mtype = .other) (inch : Inch)
    (line : Int) (b : Block) (p : St ℝ × MacroMap ℚ) (hp : Inv p.1) (hb : Plain b) (hne : b ≠ [])
    (hr : NotPending p.1 b) (hg : motionCode b p.1.g = 1)
    (h : (evaluate RF c inch line b p).2 = .ok ()) {x y z x' y' z' : ℝ} (hX : pos p.1 c!"X" = some x)
    (hY : pos p.1 c!"Y" = some y) (hZ : pos p.1 c!"Z" = some z)
    (hX' : pos (evaluate RF c inch line b p).1.1 c!"X" = some x')
    (hY' : pos (evaluate RF c inch line b p).1.1 c!"Y" = some y')
    (hZ' : pos (evaluate RF c inch line b p).1.1 c!"Z" = some z') :
    (evaluate RF c inch line b p).1.1.path.work = some (dist (pt x y z) (pt x' y' z')) := by
  obtain ⟨x1, y1, z1, e1, e2, e3, _, k⟩ :=
    C71_line_partial RF hc hx hm inch line b p hp hb hne hr (Or.inr hg) h hX hY hZ
  rw [e1] at hX'
  rw [e2] at hY'
  rw [e3] at hZ'
  cases hX'
  cases hY'
  cases hZ'
  rw [(k hg).1, C29_line]

/-- **C71.** The reported motion of an arc with a centre, in any plane, is radius times angle of the arc of G2 or
G3 from the position before to the position after the block, if it is at most half a turn or its ends lie inside
different quadrants, and apart from the tolerance. -/
theorem C71_arc_partial {c : Cfg ℝ} (hc : WF c) (hx : AxesOk c) (hm : c.mtype = .other) (inch : Inch)
    (line : Int) (b : Block) (p : St ℝ × MacroMap ℚ) (hp : Inv p.1) (hb : Plain b) (hne : b ≠ [])
    (hr : NotPending p.1 b) (hA : ArcBlock b p.1 (planeAxes (planeCode b (planeNum p.1.plane))))
    (hR : programmed (K := ℝ) b c!"R" = none)
    (h : (evaluate RF c inch line b p).2 = .ok ()) {x y x' y' i j r φ : ℝ} {s : Sense}
    (hX : pos p.1 (planeAxes (planeCode b (planeNum p.1.plane))).u = some x)
    (hY : pos p.1 (planeAxes (planeCode b (planeNum p.1.plane))).v = some y)
    (hX' : pos (evaluate RF c inch line b p).1.1 (planeAxes (planeCode b (planeNum p.1.plane))).u = some x')
    (hY' : pos (evaluate RF c inch line b p).1.1 (planeAxes (planeCode b (planeNum p.1.plane))).v = some y')
    (hI : pos (evaluate RF c inch line b p).1.1 (planeAxes (planeCode b (planeNum p.1.plane))).cu = some i)
    (hJ : pos (evaluate RF c inch line b p).1.1 (planeAxes (planeCode b (planeNum p.1.plane))).cv = some j)
    (hs : motionCode b p.1.g = s.code) (harc : IsArc s (x + i, y + j) r φ (x, y) (x', y'))
    (ht : tol ≤ (Real.pi - 1) * r) (hd : tol ≤ |x - x'| ∨ tol ≤ |y - y'|)
    (hq : φ ≤ Real.pi ∨ DifferentQuadrants (-i, -j) (x' - (x + i), y' - (y + j))) :
    (evaluate RF c inch line b p).1.1.path.work = some (r * φ) := by
  obtain ⟨x1, y1, e1, e2, _, k⟩ := C29_planes_partial RF hc hx hm inch line b p hp hb hne hr hA h hX hY
  rw [e1] at hX'
  rw [e2] at hY'
  cases hX'
  cases hY'
  rcases k with ⟨i1, j1, k1, k2, _, k3⟩ | ⟨r1, k1, _⟩
  · rw [hI] at k1
    rw [hJ] at k2
    cases k1
    cases k2
    rw [k3, hs]
    have := (C64_arc_exact_iff_partial harc ht hd).mpr (by
      have q1 : (x - (x + i)) = -i := by ring
      have q2 : (y - (y + j)) = -j := by ring
      rw [q1, q2]
      exact hq)
    have q1 : x + i - x = i := by ring
    have q2 : y + j - y = j := by ring
    rw [q1, q2] at this
    rw [← this]
    rfl
  · rw [hR] at k1; cases k1

/-- **C71.** A block that ends where it began is a full circle. -/
theorem C71_full_circle_partial {c : Cfg ℝ} (hc : WF c) (hx : AxesOk c) (hm : c.mtype = .other) (inch : Inch)
    (line : Int) (b : Block) (p : St ℝ × MacroMap ℚ) (hp : Inv p.1) (hb : Plain b) (hne : b ≠ [])
    (hr : NotPending p.1 b) (hA : ArcBlock b p.1 (planeAxes (planeCode b (planeNum p.1.plane))))
    (hR : programmed (K := ℝ) b c!"R" = none)
    (h : (evaluate RF c inch line b p).2 = .ok ()) {x y i j : ℝ}
    (hX : pos p.1 (planeAxes (planeCode b (planeNum p.1.plane))).u = some x)
    (hY : pos p.1 (planeAxes (planeCode b (planeNum p.1.plane))).v = some y)
    (hX' : pos (evaluate RF c inch line b p).1.1 (planeAxes (planeCode b (planeNum p.1.plane))).u = some x)
    (hY' : pos (evaluate RF c inch line b p).1.1 (planeAxes (planeCode b (planeNum p.1.plane))).v = some y)
    (hI : pos (evaluate RF c inch line b p).1.1 (planeAxes (planeCode b (planeNum p.1.plane))).cu = some i)
    (hJ : pos (evaluate RF c inch line b p).1.1 (planeAxes (planeCode b (planeNum p.1.plane))).cv = some j)
    (ht : tol ≤ (Real.pi - 1) * √(i ^ 2 + j ^ 2)) :
    (evaluate RF c inch line b p).1.1.path.work = some (2 * Real.pi * √(i ^ 2 + j ^ 2)) := by
  obtain ⟨x1, y1, e1, e2, _, k⟩ := C29_planes_partial RF hc hx hm inch line b p hp hb hne hr hA h hX hY
  rw [e1] at hX'
  rw [e2] at hY'
  cases hX'
  cases hY'
  rcases k with ⟨i1, j1, k1, k2, _, k3⟩ | ⟨r1, k1, _⟩
  · rw [hI] at k1
    rw [hJ] at k2
    cases k1
    cases k2
    rw [k3, C29_full_circle_partial _ _ _ _ _ ht]
  · rw [hR] at k1; cases k1

end

/-! ## Cases -/

section
open SimDemo

/-- `C71_line_partial` and `C68_line_partial`: from (3, 4, 10) by (-9, 12, 8), in G91 and in G90. -/
example :
    let p := run mill [[w c!"G" c!"1", w c!"X" c!"3", w c!"Y" c!"4", w c!"F" c!"100"]] (start mill)
    let b : Block := [w c!"G" c!"91", wn c!"X" c!"9", w c!"Y" c!"12", w c!"Z" c!"8"]
    let b' : Block := [w c!"G" c!"90", wn c!"X" c!"6", w c!"Y" c!"16", w c!"Z" c!"18"]
    (evaluate qf mill false 1 b p).1.1.path.work = some 17 ∧ (evaluate qf mill false 1 b' p).1.1.path.work = some 17 ∧
    (evaluate qf mill false 1 b p).2 = .ok () ∧ p.1.autoRapid = false ∧ motionCode b p.1.g = 1 ∧
    (∀ a ∈ ([c!"X", c!"Y", c!"Z"] : List Str), moved (K := ℚ) (incremental b p.1.incr) (programmed b) (pos p.1) a =
      moved (incremental b' p.1.incr) (programmed b') (pos p.1) a) := by
  decide +kernel

/-- `C29_planes_partial`: a full circle in each plane; its centre is given by the words of the plane. -/
example :
    (evaluate qf mill false 1 [w c!"G" c!"17", w c!"G" c!"2", w c!"I" c!"3", w c!"J" c!"4", w c!"F" c!"100"]
      (start mill)).1.1.path.work = some (2 * (22 / 7) * 5) ∧
    (evaluate qf mill false 1 [w c!"G" c!"18", w c!"G" c!"2", w c!"I" c!"3", w c!"K" c!"4", w c!"F" c!"100"]
      (start mill)).1.1.path.work = some (2 * (22 / 7) * 5) ∧
    (evaluate qf mill false 1 [w c!"G" c!"19", w c!"G" c!"2", w c!"J" c!"3", w c!"K" c!"4", w c!"F" c!"100"]
      (start mill)).1.1.path.work = some (2 * (22 / 7) * 5) ∧
    (evaluate qf mill false 1 [w c!"G" c!"18", w c!"G" c!"2", w c!"I" c!"3", w c!"J" c!"4", w c!"F" c!"100"]
      (start mill)).2 ≠ .ok () := by
  decide +kernel

/-- `ArcBlock` is met. -/
example : ArcBlock (K := ℚ) [w c!"G" c!"18", w c!"G" c!"2", w c!"I" c!"3", w c!"K" c!"4", w c!"F" c!"100"] (start mill).1
    (planeAxes (planeCode [w c!"G" c!"18", w c!"G" c!"2", w c!"I" c!"3", w c!"K" c!"4", w c!"F" c!"100"] 17)) :=
  ⟨by decide +kernel, by decide +kernel, by decide +kernel, by decide +kernel, by decide +kernel⟩

end
end NC.Props
