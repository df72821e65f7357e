import Verif.Props.SimTurn
import Verif.Props.DrillQ
import Verif.Props.SimReset
import Verif.SimDemo

/-!
# C70: the holes of a drilling cycle, and C62 for blocks
-/

namespace NC.Props
open NC NC.Path NC.Ver NC.AttrPath NC.Spec.Sim

section
variable {K : Type} [Field K] [LinearOrder K] [FloorRing K]

/-- The block drills: one of the cycles is in force, and the block names it or gives a value. -/
structure DrillBlock (axes : List Str) (b : Block) (m : Modal K) : Prop where
  code : isDrill m.motion = true ∨ isDrillQ m.motion = true
  words : ¬ Bare K axes b

/-- The number of holes of a K word: its whole part if it is positive, otherwise one. -/
def repeats (k : Option K) : Nat :=
  match k with
  | none => 1
  | some k => if 0 < k then ⌊k⌋.toNat else 1

/-- The return mode of a code. -/
def retOfCode (n : Int) : Ret := if n = 98 then .g98 else .g99

/-- The distances computed for a cycle with the codes in force. -/
def cycleBy (F : Fns K) (c : Cfg K) (m : Modal K) (z d r : K) (q : Option K) : Out Exc (Fl K × Fl K) :=
  if isDrill m.motion then
    let e := if m.distance = 91 then drillIncr d r m.motion (retOfCode m.retract)
      else drill z d r c.depth m.motion (retOfCode m.retract)
    .ok (some e.1, some e.2)
  else
    match q with
    | none => .ub
    | some q => if m.distance = 91 then drillQIncr F d r q m.motion (retOfCode m.retract)
        else drillQ z d r q c.depth m.motion (retOfCode m.retract)

theorem cycleOf_by (F : Fns K) (c : Cfg K) (cur : Cur K) (z d r : K) (q : Option K) :
    cycleOf F c cur z d r q = cycleBy F c (modalOfCur cur) z d r q := by
  unfold cycleOf cycleBy
  have e1 : retOfCode (modalOfCur cur).retract = cur.ret := by
    show retOfCode (retNum cur.ret) = _
    cases cur.ret <;> rfl
  have e2 : ((modalOfCur cur).distance = 91) = (cur.incr = true) := by
    show (incrNum cur.incr = 91) = _
    cases cur.incr <;> simp [incrNum]
  rw [e1]
  simp only [e2]
  rfl

omit [LinearOrder K] [FloorRing K] in
theorem addHoles_some (w q : K) (n : Nat) : ∀ a b : K,
    addHoles (some w, some q) n (some a, some b) = (some (a + n * w), some (b + n * q)) := by
  induction n with
  | zero => intro a b; simp [addHoles]
  | succ n ih =>
    intro a b
    show addHoles (some w, some q) n (some (a + w), some (b + q)) = _
    rw [ih]
    congr 2 <;> push_cast <;> ring

/-- What a drilling block does. -/
structure Holes (F : Fns K) (c : Cfg K) (b : Block) (m : Modal K) (p s' : St K) (x y x' y' : K)
    (d : Fl K × Fl K) : Prop where
  cycle : s'.path.cycle = d
  holes : s'.path.holes = (p.path.holes + 1) % 4294967296
  kept : p.path.holes ≠ 0 → programmed (K := K) b c!"K" = none → d = p.path.cycle
  fresh : (p.path.holes = 0 ∨ programmed (K := K) b c!"K" ≠ none) → ∃ z r,
    pos p (planeAxes m.plane).across = some z ∧ programmed b c!"R" = some r ∧
    (c.depthless = false → programmed (K := K) b (planeAxes m.plane).across ≠ none) ∧
    cycleBy F c m z (if c.depthless then 0 else (programmed b (planeAxes m.plane).across).getD 0) r
      (programmed b c!"Q") = .ok d
  none : programmed (K := K) b c!"K" = some 0 →
    s'.path.work = some 0 ∧ s'.path.fast = some (dist2 F x y x' y')
  once : programmed (K := K) b c!"K" ≠ some 0 → m.distance ≠ 91 →
    s'.path.work = d.1 ∧ s'.path.fast = addF d.2 (some (dist2 F x y x' y'))
  many : programmed (K := K) b c!"K" ≠ some 0 → m.distance = 91 → ∀ w q, d = (some w, some q) →
    s'.path.work = some (repeats (programmed (K := K) b c!"K") * w) ∧
    s'.path.fast = some (repeats (programmed (K := K) b c!"K") * (q + dist2 F x y x' y'))

omit [FloorRing K] in
theorem cyclePart_some {F : Fns K} [FloorRing K] {c : Cfg K} {v : Vis K} {cur : Cur K} {s s1 : St K} {o : Bool}
    (h : cyclePart F c v cur s = (s1, .ok o)) : o = true ∧ (∃ d, s1 = { s with path := { s.path with cycle := d } } ∧
      (s.path.holes ≠ 0 ∧ v.vals.get c!"K" = none ∧ d = s.path.cycle ∨
        (s.path.holes = 0 ∨ v.vals.get c!"K" ≠ none) ∧ ∃ z r, s.prev.get (axesOf cur.plane).a3 = some z ∧
          v.vals.get c!"R" = some r ∧ (c.depthless = false → v.vals.get (axesOf cur.plane).a3 ≠ none) ∧
          cycleOf F c cur z (if c.depthless then 0 else (v.vals.get (axesOf cur.plane).a3).getD 0) r (v.vals.get c!"Q") =
            .ok d)) := by
  unfold cyclePart at h
  dsimp only at h
  by_cases h1 : s.path.holes ≠ 0 ∧ v.vals.get c!"K" = none
  · rw [if_pos h1] at h
    cases h
    exact ⟨rfl, _, rfl, .inl ⟨h1.1, h1.2, rfl⟩⟩
  · rw [if_neg h1] at h
    have h1' : s.path.holes = 0 ∨ v.vals.get c!"K" ≠ none := by
      by_cases h0 : s.path.holes = 0
      · exact .inl h0
      · exact .inr (fun e => h1 ⟨h0, e⟩)
    cases hz : s.prev.get (axesOf cur.plane).a3 with
    | none => rw [hz] at h; cases h
    | some z =>
      rw [hz] at h
      dsimp only at h
      by_cases h2 : v.vals.get (axesOf cur.plane).a3 = none ∧ c.depthless = false
      · rw [if_pos h2] at h; cases h
      · rw [if_neg h2] at h
        cases hr : v.vals.get c!"R" with
        | none => rw [hr] at h; cases h
        | some r =>
          rw [hr] at h
          dsimp only at h
          split at h
          · rename_i d hd
            cases h
            exact ⟨rfl, d, rfl, .inr ⟨h1', z, r, rfl, rfl, fun e e' => h2 ⟨e', e⟩, hd⟩⟩
          · cases h
          · cases h

omit [FloorRing K] in
theorem moved_arcEnd {b : Block} {incr : Bool} {p : St K} {a : Str} {x : K} (ha : a = c!"X" ∨ a = c!"Y" ∨ a = c!"Z")
    (hx : pos p a = some x) : moved incr (programmed b) (pos p) a = some (arcEnd incr x (programmed b a)) := by
  unfold moved
  cases programmed (K := K) b a with
  | none => exact hx
  | some t =>
    dsimp only
    unfold arcEnd
    cases incr with
    | true => rw [if_pos ⟨rfl, ha⟩, hx]; rfl
    | false => rw [if_neg (by simp)]; rfl

/-- What a drilling block does, in terms of the words of the block and the state before it. -/
theorem drill_block (F : Fns K) {c : Cfg K} (hx : AxesOk c) (inch : Inch) (line : Int) {b : Block}
    (p : St K × MacroMap ℚ) (hp : Inv p.1) (hb : Steady b) (hne : b ≠ []) (hr : Settled p.1 b)
    {m : Modal K} (hm : m = (modalOf p.1).after b) (hd : DrillBlock c.axes b m)
    (h : (evaluate F c inch line b p).2 = .ok ()) {x y : K}
    (hX : pos p.1 (planeAxes m.plane).u = some x) (hY : pos p.1 (planeAxes m.plane).v = some y) :
    ∃ x' y' d, moved (incremental b p.1.incr) (programmed b) (pos p.1) (planeAxes m.plane).u = some x' ∧
      moved (incremental b p.1.incr) (programmed b) (pos p.1) (planeAxes m.plane).v = some y' ∧
      modalOf (evaluate F c inch line b p).1.1 = m ∧
      (evaluate F c inch line b p).1.1.path.total = addF p.1.path.total
        (addF (evaluate F c inch line b p).1.1.path.work (evaluate F c inch line b p).1.1.path.fast) ∧
      Holes F c b m p.1 (evaluate F c inch line b p).1.1 x y x' y' d := by
  have hg := hd.code
  have hgc : m.motion ≠ 0 ∧ m.motion ≠ 1 ∧ m.motion ≠ 2 ∧ m.motion ≠ 3 ∧ m.motion ≠ 80 ∧ m.motion ≠ -1 := by
    refine ⟨?_, ?_, ?_, ?_, ?_, ?_⟩ <;> intro e <;> rw [e] at hg <;> revert hg <;> decide
  have hg1 : inGroup 1 b p.1.g ≠ -1 := by
    have := hgc.2.2.2.2.2
    rw [hm] at this
    exact this
  obtain ⟨v, S, M, hv, hat, hab, ho, g1, g2, g3, g4, g5, g6, g7, g8, g9, g10, g11, hres⟩ :=
    steady_block F hx inch line p hp.good hb hne hr hg1 h
  rw [← hm] at g10
  have cg : (current v S).g = m.motion := congrArg Modal.motion g10
  have cp : planeNum (current v S).plane = m.plane := congrArg Modal.plane g10
  have hnb : ¬ (v.g = none ∧ v.vals = []) := by
    rw [visitAll_bare hx hv]; exact hd.words
  have hmo : motion F c v (current v S) S = (cyclePart F c v (current v S) S).andThen (holePart F v (current v S)) := by
    unfold motion
    rw [cg, if_neg (by simp only [not_or]; exact ⟨hgc.1, hgc.2.1⟩), if_neg (by simp only [not_or]; exact ⟨hgc.2.2.1, hgc.2.2.2.1⟩),
      if_neg hgc.2.2.2.2.1, if_pos hg]
    unfold drilling
    rw [if_neg hnb]
  have hdone : motion F c v (current v S) S = (M, .ok true) ∧
      (evaluate F c inch line b p).1.1 = savePositions c v (counted F c inch (current v S) M) := by
    rcases hres with ⟨m1, m2, m3⟩ | ⟨m1, m3, m4, m5, m6, m7⟩
    · exact ⟨m1, m3⟩
    · exact absurd ⟨m5, m6⟩ hnb
  obtain ⟨m1, m3⟩ := hdone
  have hin : (current v S).incr = incremental b p.1.incr := by
    have e := congrArg Modal.distance g10
    have e2 := congrArg Modal.distance (current_modal hx hv p.1)
    rw [← hm] at e2
    change incrNum (current v S).incr = m.distance at e
    change incrNum (v.incr.getD p.1.incr) = m.distance at e2
    rw [← e2] at e
    have inj : ∀ a b : Bool, incrNum a = incrNum b → a = b := by decide
    rw [inj _ _ e, visitAll_incr hx hv]; rfl
  have hdist : (m.distance = 91) = ((current v S).incr = true) := by
    have e := congrArg Modal.distance g10
    change incrNum (current v S).incr = m.distance at e
    rw [← e]
    cases (current v S).incr <;> simp [incrNum]
  have a12 := axesOf_planeAxes (current v S).plane
  rw [cp] at a12
  obtain ⟨a1, a2, a3, a4, a5⟩ := a12
  rw [hmo] at m1
  generalize hcy : cyclePart F c v (current v S) S = cy at m1
  obtain ⟨s1, o1⟩ := cy
  have ho1 : o1 = .ok true := by
    by_contra hn
    rw [andThen_stop hn] at m1
    cases m1
    exact hn rfl
  subst ho1
  rw [andThen_go] at m1
  obtain ⟨_, d, hs1, hc1⟩ := cyclePart_some hcy
  have hvals := fun a ha => visitAll_vals (a := a) hv (param_mem (c := c) ha)
  have ma1 : (axesOf (current v S).plane).a1 ∈ ([c!"X", c!"Y", c!"Z", c!"I", c!"J", c!"K", c!"R", c!"Q", c!"L", c!"P", c!"U"] : List Str) ∧
      ((axesOf (current v S).plane).a1 = c!"X" ∨ (axesOf (current v S).plane).a1 = c!"Y" ∨ (axesOf (current v S).plane).a1 = c!"Z") := by
    cases (current v S).plane <;> decide
  have ma2 : (axesOf (current v S).plane).a2 ∈ ([c!"X", c!"Y", c!"Z", c!"I", c!"J", c!"K", c!"R", c!"Q", c!"L", c!"P", c!"U"] : List Str) ∧
      ((axesOf (current v S).plane).a2 = c!"X" ∨ (axesOf (current v S).plane).a2 = c!"Y" ∨ (axesOf (current v S).plane).a2 = c!"Z") := by
    cases (current v S).plane <;> decide
  have ma3 : (axesOf (current v S).plane).a3 ∈ ([c!"X", c!"Y", c!"Z", c!"I", c!"J", c!"K", c!"R", c!"Q", c!"L", c!"P", c!"U"] : List Str) := by
    cases (current v S).plane <;> decide
  have v1 := hvals _ ma1.1
  have v2 := hvals _ ma2.1
  have v3 := hvals _ ma3
  have vR := hvals c!"R" (by decide)
  have vQ := hvals c!"Q" (by decide)
  have vK := hvals c!"K" (by decide)
  have z1 : S.prev.get (axesOf (current v S).plane).a1 = some x := by rw [g1.1, hp.sync, ← a1, hX]
  have z2 : S.prev.get (axesOf (current v S).plane).a2 = some y := by rw [g1.1, hp.sync, ← a2, hY]
  have w12 : (evaluate F c inch line b p).1.1.path = (counted F c inch (current v S) M).path := by
    rw [m3, (savePositions_modal c v _).2.1]
  have w3 : modalOf (evaluate F c inch line b p).1.1 = m := by
    rw [m3, (savePositions_modal c v _).1, counted_modal, g10, settle_other hgc.2.2.2.2.1]
  have hneg : ∀ x y x' y' : K, dist2 F x y (x + x') (y + y') = len2 F x' y' := by
    intro x y x' y'
    unfold dist2 len2
    congr 1
    ring
  refine ⟨arcEnd (incremental b p.1.incr) x (programmed b (planeAxes m.plane).u),
    arcEnd (incremental b p.1.incr) y (programmed b (planeAxes m.plane).v), d, ?_, ?_, w3, ?_, ?_⟩
  · exact moved_arcEnd (by rw [a1]; exact ma1.2) hX
  · exact moved_arcEnd (by rw [a2]; exact ma2.2) hY
  · rw [w12]
    have : M.path.total = S.path.total := by
      unfold holePart at m1
      rw [hs1] at m1
      dsimp only at m1
      rw [z1, z2] at m1
      dsimp only at m1
      split at m1
      · cases m1; rfl
      · split at m1
        · cases m1; rfl
        · split at m1 <;> cases m1
          rfl
    show addF M.path.total (addF M.path.work M.path.fast) = addF p.1.path.total (addF M.path.work M.path.fast)
    rw [this, g7]
  · have hx1 : s1.prev = S.prev := by rw [hs1]
    have hpath : s1.path = { S.path with cycle := d } := by rw [hs1]
    unfold holePart at m1
    dsimp only at m1
    rw [hx1, z1, z2, hpath, v1, v2, vK, ← a1, ← a2, hin] at m1
    dsimp only at m1
    rw [g3, g4] at m1
    have hMp : ∀ e : Fl K × Fl K, M = countHole e s1 → M.path.cycle = d ∧
        M.path.holes = (p.1.path.holes + 1) % 4294967296 ∧ M.path.work = e.1 ∧ M.path.fast = e.2 := by
      intro e he
      rw [he]
      unfold countHole
      dsimp only
      rw [hpath]
      dsimp only
      rw [g6]
      exact ⟨rfl, rfl, rfl, rfl⟩
    have hwork : (evaluate F c inch line b p).1.1.path.work = M.path.work := by rw [w12]; rfl
    have hfast : (evaluate F c inch line b p).1.1.path.fast = M.path.fast := by rw [w12]; rfl
    have hcyc : (evaluate F c inch line b p).1.1.path.cycle = M.path.cycle := by rw [w12]; rfl
    have hhol : (evaluate F c inch line b p).1.1.path.holes = M.path.holes := by rw [w12]; rfl
    have hm2 : ∃ e, M = countHole e s1 ∧
        (programmed (K := K) b c!"K" = some 0 → e = (some 0, some (dist2 F x y
          (arcEnd (incremental b p.1.incr) x (programmed b (planeAxes m.plane).u))
          (arcEnd (incremental b p.1.incr) y (programmed b (planeAxes m.plane).v))))) ∧
        (programmed (K := K) b c!"K" ≠ some 0 → incremental b p.1.incr = false → e = (d.1, addF d.2 (some (dist2 F x y
          (arcEnd (incremental b p.1.incr) x (programmed b (planeAxes m.plane).u))
          (arcEnd (incremental b p.1.incr) y (programmed b (planeAxes m.plane).v)))))) ∧
        (programmed (K := K) b c!"K" ≠ some 0 → incremental b p.1.incr = true →
          e = addHoles (d.1, addF d.2 (some (dist2 F x y
          (arcEnd (incremental b p.1.incr) x (programmed b (planeAxes m.plane).u))
          (arcEnd (incremental b p.1.incr) y (programmed b (planeAxes m.plane).v)))))
            (repeats (programmed (K := K) b c!"K")) (some 0, some 0)) := by
      have len0 : ∀ ic : Bool, ic = true → dist2 F x y (arcEnd ic x (programmed b (planeAxes m.plane).u))
          (arcEnd ic y (programmed b (planeAxes m.plane).v)) =
          len2 F ((programmed b (planeAxes m.plane).u).getD 0) ((programmed b (planeAxes m.plane).v).getD 0) := by
        intro ic hic
        subst hic
        rw [← hneg x y]
        congr 1
        · cases programmed (K := K) b (planeAxes m.plane).u with
          | none => exact (add_zero _).symm
          | some t => rfl
        · cases programmed (K := K) b (planeAxes m.plane).v with
          | none => exact (add_zero _).symm
          | some t => rfl
      have len1 : ∀ ic : Bool, ic = false → arcEnd ic x (programmed b (planeAxes m.plane).u) =
            (programmed b (planeAxes m.plane).u).getD x ∧ arcEnd ic y (programmed b (planeAxes m.plane).v) =
            (programmed b (planeAxes m.plane).v).getD y := by
        intro ic hic
        subst hic
        constructor
        · cases programmed (K := K) b (planeAxes m.plane).u <;> rfl
        · cases programmed (K := K) b (planeAxes m.plane).v <;> rfl
      cases hic : incremental b p.1.incr with
      | false =>
        rw [hic, if_pos rfl] at m1
        cases m1
        refine ⟨_, rfl, ?_, ?_, ?_⟩
        · intro hk
          rw [if_pos hk, (len1 false rfl).1, (len1 false rfl).2]
          show ((some 0, some (0 + _)) : Fl K × Fl K) = _
          rw [zero_add]
        · intro hk _
          rw [if_neg hk, (len1 false rfl).1, (len1 false rfl).2]
          rfl
        · intro _ h0; cases h0
      | true =>
        rw [hic, if_neg (by decide)] at m1
        rw [len0 true rfl]
        by_cases hk : programmed (K := K) b c!"K" = some 0
        · rw [if_pos hk, if_pos hk] at m1
          cases m1
          refine ⟨_, rfl, ?_, fun h0 => absurd hk h0, fun h0 => absurd hk h0⟩
          intro _
          show ((some 0, some (0 + _)) : Fl K × Fl K) = _
          rw [zero_add]
        · rw [if_neg hk, if_neg hk] at m1
          have hrep : ∀ n, holesOf (programmed (K := K) b c!"K") = .ok n → n = repeats (programmed (K := K) b c!"K") := by
            intro n hn
            unfold repeats
            cases hkk : programmed (K := K) b c!"K" with
            | none => rw [hkk] at hn; cases hn; rfl
            | some k =>
              rw [hkk] at hn
              unfold holesOf at hn
              dsimp only at hn ⊢
              by_cases h0 : 0 < k
              · rw [if_pos h0] at hn ⊢
                split at hn <;> cases hn
                rfl
              · rw [if_neg h0] at hn ⊢
                cases hn; rfl
          cases hho : holesOf (programmed (K := K) b c!"K") with
          | ok n =>
            rw [hho] at m1
            cases m1
            refine ⟨_, rfl, fun h0 => absurd h0 hk, fun _ h0 => Bool.noConfusion h0, fun _ _ => ?_⟩
            rw [hrep n hho]
            rfl
          | throw e => rw [hho] at m1; cases m1
          | ub => rw [hho] at m1; cases m1
    obtain ⟨e, hMe, k1, k2, k3⟩ := hm2
    obtain ⟨t1, t2, t3, t4⟩ := hMp e hMe
    rw [hin] at hdist
    refine ⟨by rw [hcyc, t1], by rw [hhol, t2], ?_, ?_, ?_, ?_, ?_⟩
    · intro n1 n2
      rcases hc1 with ⟨_, _, h3⟩ | ⟨h3, _⟩
      · rw [h3, g5]
      · rcases h3 with h3 | h3
        · rw [g6] at h3; exact absurd h3 n1
        · rw [vK] at h3; exact absurd n2 h3
    · intro n1
      rcases hc1 with ⟨h2, h3, _⟩ | ⟨_, z, r, h4, h5, h6, h7⟩
      · rw [g6] at h2
        rw [vK] at h3
        rcases n1 with n1 | n1
        · exact absurd n1 h2
        · exact absurd h3 n1
      · rw [a3]
        refine ⟨z, r, ?_, ?_, ?_, ?_⟩
        · rw [← hp.sync, ← g1.1, h4]
        · rw [← vR, h5]
        · intro e; rw [← v3]; exact h6 e
        · rw [cycleOf_by, g10, v3, vQ] at h7
          exact h7
    · intro hk
      have := k1 hk
      rw [hwork, hfast, t3, t4, this]
      exact ⟨rfl, rfl⟩
    · intro hk hi
      have := k2 hk (Bool.eq_false_iff.mpr (by rw [ne_eq, hdist] at hi; exact hi))
      rw [hwork, hfast, t3, t4, this]
      exact ⟨rfl, rfl⟩
    · intro hk hi w q hwq
      have := k3 hk (by rw [← hdist]; exact hi)
      rw [hwork, hfast, t3, t4, this, hwq]
      show (addHoles (some w, some (q + _)) _ _).1 = _ ∧ (addHoles (some w, some (q + _)) _ _).2 = _
      rw [addHoles_some, zero_add, zero_add]
      exact ⟨rfl, rfl⟩

/-- In G17 the hole is where the tool is after the block. -/
theorem drill_spot (F : Fns K) {c : Cfg K} (hx : AxesOk c) (inch : Inch) (line : Int) {b : Block}
    (p : St K × MacroMap ℚ) (hp : Inv p.1) (hb : Steady b) (h : (evaluate F c inch line b p).2 = .ok ()) :
    pos (evaluate F c inch line b p).1.1 c!"X" = moved (incremental b p.1.incr) (programmed b) (pos p.1) c!"X" ∧
    pos (evaluate F c inch line b p).1.1 c!"Y" = moved (incremental b p.1.incr) (programmed b) (pos p.1) c!"Y" :=
  ⟨C25_position_modal F hx inch line b p hp hb h c!"X" (param_mem (by decide)) (by decide) (fun e => by cases e),
   C25_position_modal F hx inch line b p hp hb h c!"Y" (param_mem (by decide)) (by decide) (fun e => by cases e)⟩

/-- **C70.** Each further hole of a cycle adds the work distance of the first hole, and in rapid its rapid distance and
the distance from hole to hole. -/
theorem C70_next_hole_partial (F : Fns K) {c : Cfg K} (hx : AxesOk c) (inch : Inch) (line : Int) {b : Block}
    (p : St K × MacroMap ℚ) (hp : Inv p.1) (hb : Steady b) (hne : b ≠ []) (hr : Settled p.1 b)
    {m : Modal K} (hm : m = (modalOf p.1).after b) (hd : DrillBlock c.axes b m) (h17 : m.plane = 17)
    (h : (evaluate F c inch line b p).2 = .ok ()) {x y : K} (hX : pos p.1 c!"X" = some x) (hY : pos p.1 c!"Y" = some y)
    (hh : p.1.path.holes ≠ 0) (hk : programmed (K := K) b c!"K" = none) {w q : K} (hc : p.1.path.cycle = (some w, some q)) :
    ∃ x' y', pos (evaluate F c inch line b p).1.1 c!"X" = some x' ∧ pos (evaluate F c inch line b p).1.1 c!"Y" = some y' ∧
      (evaluate F c inch line b p).1.1.path.work = some w ∧
      (evaluate F c inch line b p).1.1.path.fast = some (q + dist2 F x y x' y') ∧
      (evaluate F c inch line b p).1.1.path.cycle = (some w, some q) := by
  have e : planeAxes m.plane = ⟨c!"X", c!"Y", c!"Z", c!"I", c!"J"⟩ := by rw [h17]; rfl
  obtain ⟨x', y', d, h1, h2, h3, h4, H⟩ := drill_block F hx inch line p hp hb hne hr hm hd h
    (by rw [e]; exact hX) (by rw [e]; exact hY)
  rw [e] at h1 h2
  obtain ⟨s1, s2⟩ := drill_spot F hx inch line p hp hb h
  have hdd := (H.kept hh hk).trans hc
  have hk0 : programmed (K := K) b c!"K" ≠ some 0 := by rw [hk]; exact fun h => by cases h
  refine ⟨x', y', s1.trans h1, s2.trans h2, ?_, ?_, H.cycle.trans hdd⟩
  · by_cases h91 : m.distance = 91
    · rw [(H.many hk0 h91 w q hdd).1, hk]
      show some (((1 : Nat) : K) * w) = _
      rw [Nat.cast_one, one_mul]
    · rw [(H.once hk0 h91).1, hdd]
  · by_cases h91 : m.distance = 91
    · rw [(H.many hk0 h91 w q hdd).2, hk]
      show some (((1 : Nat) : K) * _) = _
      rw [Nat.cast_one, one_mul]
    · rw [(H.once hk0 h91).2, hdd]
      rfl

/-- **C70.** With K0 the tool is only positioned: no work motion, and in rapid the distance to the position. -/
theorem C70_position_only (F : Fns K) {c : Cfg K} (hx : AxesOk c) (inch : Inch) (line : Int) {b : Block}
    (p : St K × MacroMap ℚ) (hp : Inv p.1) (hb : Steady b) (hne : b ≠ []) (hr : Settled p.1 b)
    {m : Modal K} (hm : m = (modalOf p.1).after b) (hd : DrillBlock c.axes b m) (h17 : m.plane = 17)
    (h : (evaluate F c inch line b p).2 = .ok ()) {x y : K} (hX : pos p.1 c!"X" = some x) (hY : pos p.1 c!"Y" = some y)
    (hk : programmed (K := K) b c!"K" = some 0) :
    ∃ x' y', pos (evaluate F c inch line b p).1.1 c!"X" = some x' ∧ pos (evaluate F c inch line b p).1.1 c!"Y" = some y' ∧
      (evaluate F c inch line b p).1.1.path.work = some 0 ∧
      (evaluate F c inch line b p).1.1.path.fast = some (dist2 F x y x' y') := by
  have e : planeAxes m.plane = ⟨c!"X", c!"Y", c!"Z", c!"I", c!"J"⟩ := by rw [h17]; rfl
  obtain ⟨x', y', d, h1, h2, h3, h4, H⟩ := drill_block F hx inch line p hp hb hne hr hm hd h
    (by rw [e]; exact hX) (by rw [e]; exact hY)
  rw [e] at h1 h2
  obtain ⟨s1, s2⟩ := drill_spot F hx inch line p hp hb h
  exact ⟨x', y', s1.trans h1, s2.trans h2, (H.none hk).1, (H.none hk).2⟩

/-- **C70.** The first hole of a cycle, and one with K, is refused unless the reference level is given and, where it is
not fixed by the machine, the depth. -/
theorem C70_levels_needed (F : Fns K) {c : Cfg K} (hx : AxesOk c) (inch : Inch) (line : Int) {b : Block}
    (p : St K × MacroMap ℚ) (hp : Inv p.1) (hb : Steady b) (hne : b ≠ []) (hr : Settled p.1 b)
    {m : Modal K} (hm : m = (modalOf p.1).after b) (hd : DrillBlock c.axes b m) (h17 : m.plane = 17)
    (h : (evaluate F c inch line b p).2 = .ok ()) {x y : K} (hX : pos p.1 c!"X" = some x) (hY : pos p.1 c!"Y" = some y)
    (hh : p.1.path.holes = 0 ∨ programmed (K := K) b c!"K" ≠ none) :
    programmed (K := K) b c!"R" ≠ none ∧ (c.depthless = false → programmed (K := K) b c!"Z" ≠ none) := by
  have e : planeAxes m.plane = ⟨c!"X", c!"Y", c!"Z", c!"I", c!"J"⟩ := by rw [h17]; rfl
  obtain ⟨x', y', d, h1, h2, h3, h4, H⟩ := drill_block F hx inch line p hp hb hne hr hm hd h
    (by rw [e]; exact hX) (by rw [e]; exact hY)
  obtain ⟨z, r, _, f2, f3, _⟩ := H.fresh hh
  rw [e] at f3
  exact ⟨by rw [f2]; exact Option.some_ne_none r, f3⟩

/-- A hole whose cycle is computed anew: with the levels given as absolute values, the block's motion is
that of the cycle with these levels and the way to the hole. -/
theorem first_hole (F : Fns K) {c : Cfg K} (hx : AxesOk c) (inch : Inch) (line : Int) {b : Block}
    (p : St K × MacroMap ℚ) (hp : Inv p.1) (hb : Steady b) (hne : b ≠ []) (hr : Settled p.1 b)
    {m : Modal K} (hm : m = (modalOf p.1).after b) (hd : DrillBlock c.axes b m) (h17 : m.plane = 17)
    (h : (evaluate F c inch line b p).2 = .ok ()) {x y z r l : K} (hX : pos p.1 c!"X" = some x) (hY : pos p.1 c!"Y" = some y)
    (hZ : pos p.1 c!"Z" = some z) (hh : p.1.path.holes = 0) (hk : programmed (K := K) b c!"K" = none)
    (hR : programmed b c!"R" = some r) (hL : programmed b c!"Z" = some l) (hcl : c.depthless = false) {w q : K}
    (hcy : cycleBy F c m z l r (programmed b c!"Q") = .ok (some w, some q)) :
    ∃ x' y', pos (evaluate F c inch line b p).1.1 c!"X" = some x' ∧ pos (evaluate F c inch line b p).1.1 c!"Y" = some y' ∧
      (evaluate F c inch line b p).1.1.path.work = some w ∧
      (evaluate F c inch line b p).1.1.path.fast = some (q + dist2 F x y x' y') ∧
      (evaluate F c inch line b p).1.1.path.cycle = (some w, some q) ∧
      (evaluate F c inch line b p).1.1.path.holes = 1 := by
  have e : planeAxes m.plane = ⟨c!"X", c!"Y", c!"Z", c!"I", c!"J"⟩ := by rw [h17]; rfl
  obtain ⟨x', y', d, h1, h2, h3, h4, H⟩ := drill_block F hx inch line p hp hb hne hr hm hd h
    (by rw [e]; exact hX) (by rw [e]; exact hY)
  obtain ⟨s1, s2⟩ := drill_spot F hx inch line p hp hb h
  obtain ⟨z', r', f1, f2, f3, f4⟩ := H.fresh (.inl hh)
  rw [e] at h1 h2 f1 f3 f4
  dsimp only at f1 f3 f4
  rw [hZ] at f1
  rw [hR] at f2
  cases f1; cases f2
  rw [hcl, hL] at f4
  change cycleBy F c m z l r (programmed b c!"Q") = _ at f4
  rw [hcy] at f4
  have hdd : d = (some w, some q) := by cases f4; rfl
  have hk0 : programmed (K := K) b c!"K" ≠ some 0 := by rw [hk]; exact fun h => by cases h
  refine ⟨x', y', s1.trans h1, s2.trans h2, ?_, ?_, H.cycle.trans hdd, by rw [H.holes, hh]⟩
  · by_cases h91 : m.distance = 91
    · rw [(H.many hk0 h91 w q hdd).1, hk]
      show some (((1 : Nat) : K) * w) = _
      rw [Nat.cast_one, one_mul]
    · rw [(H.once hk0 h91).1, hdd]
  · by_cases h91 : m.distance = 91
    · rw [(H.many hk0 h91 w q hdd).2, hk]
      show some (((1 : Nat) : K) * _) = _
      rw [Nat.cast_one, one_mul]
    · rw [(H.once hk0 h91).2, hdd]
      rfl

/-- **C70.** With G91 and K n the block counts n holes, each with the distances of the cycle and the way to it. -/
theorem C70_repeat_partial (F : Fns K) {c : Cfg K} (hx : AxesOk c) (inch : Inch) (line : Int) {b : Block}
    (p : St K × MacroMap ℚ) (hp : Inv p.1) (hb : Steady b) (hne : b ≠ []) (hr : Settled p.1 b)
    {m : Modal K} (hm : m = (modalOf p.1).after b) (hd : DrillBlock c.axes b m) (h17 : m.plane = 17) (h91 : m.distance = 91)
    (h : (evaluate F c inch line b p).2 = .ok ()) {x y r l : K} (hX : pos p.1 c!"X" = some x) (hY : pos p.1 c!"Y" = some y)
    {n : Nat} (hn : 0 < (n : K)) (hfl : ⌊(n : K)⌋ = n) (hk : programmed (K := K) b c!"K" = some (n : K))
    (hR : programmed b c!"R" = some r) (hL : programmed b c!"Z" = some l) (hcl : c.depthless = false)
    (hg : isDrill m.motion = true) :
    (evaluate F c inch line b p).1.1.path.work = some (n * (drillIncr l r m.motion (retOfCode m.retract)).1) ∧
    (evaluate F c inch line b p).1.1.path.fast = some (n * ((drillIncr l r m.motion (retOfCode m.retract)).2 +
      len2 F ((programmed b c!"X").getD 0) ((programmed b c!"Y").getD 0))) := by
  have e : planeAxes m.plane = ⟨c!"X", c!"Y", c!"Z", c!"I", c!"J"⟩ := by rw [h17]; rfl
  obtain ⟨x', y', d, h1, h2, h3, h4, H⟩ := drill_block F hx inch line p hp hb hne hr hm hd h
    (by rw [e]; exact hX) (by rw [e]; exact hY)
  obtain ⟨z', r', f1, f2, f3, f4⟩ := H.fresh (.inr (by rw [hk]; exact fun h => by cases h))
  rw [e] at h1 h2 f4
  dsimp only at h1 h2 f4
  rw [hR] at f2
  cases f2
  rw [hcl, hL] at f4
  unfold cycleBy at f4
  rw [if_pos hg] at f4
  dsimp only at f4
  rw [if_pos h91] at f4
  have hdd : d = (some (drillIncr l r m.motion (retOfCode m.retract)).1, some (drillIncr l r m.motion (retOfCode m.retract)).2) := by
    cases f4; rfl
  have hk0 : programmed (K := K) b c!"K" ≠ some 0 := by
    rw [hk]; intro h0; exact hn.ne' (Option.some.inj h0)
  have hin : incremental b p.1.incr = true := by
    by_contra hn
    have e2 : m.distance = incrNum (incremental b p.1.incr) := by
      obtain ⟨v, S, M, hv, _⟩ := steady_block F hx inch line p hp.good hb hne hr (by
        have := hd.code
        rw [hm] at this
        change isDrill (inGroup 1 b p.1.g) = true ∨ isDrillQ (inGroup 1 b p.1.g) = true at this
        intro e; rw [e] at this; revert this; decide) h
      have e2 := congrArg Modal.distance (current_modal hx hv p.1)
      rw [← hm] at e2
      rw [← e2]
      show incrNum (v.incr.getD p.1.incr) = _
      rw [visitAll_incr hx hv]; rfl
    rw [Bool.eq_false_iff.mpr hn, h91] at e2
    exact absurd e2 (by decide)
  rw [hin, moved_arcEnd (.inl rfl) hX] at h1
  rw [hin, moved_arcEnd (.inr (.inl rfl)) hY] at h2
  cases h1; cases h2
  have hlen : dist2 F x y (arcEnd true x (programmed b c!"X")) (arcEnd true y (programmed b c!"Y")) =
      len2 F ((programmed b c!"X").getD 0) ((programmed b c!"Y").getD 0) := by
    have hneg : ∀ x y x' y' : K, dist2 F x y (x + x') (y + y') = len2 F x' y' := by
      intro x y x' y'
      unfold dist2 len2
      congr 1
      ring
    rw [← hneg x y]
    congr 1
    · cases programmed (K := K) b c!"X" with
      | none => exact (add_zero _).symm
      | some t => rfl
    · cases programmed (K := K) b c!"Y" with
      | none => exact (add_zero _).symm
      | some t => rfl
  have hrep : repeats (programmed (K := K) b c!"K") = n := by
    rw [hk]
    show (if 0 < (n : K) then ⌊(n : K)⌋.toNat else 1) = n
    rw [if_pos hn, hfl]
    rfl
  have := H.many hk0 h91 _ _ hdd
  rw [hrep, hlen] at this
  exact this

/-- The distance from hole to hole along the blocks of a pattern, from a place in the plane. -/
def legs (F : Fns K) : List Block → Bool → K → K → K
  | [], _, _, _ => 0
  | b :: t, i, x, y =>
    let x' := arcEnd (incremental b i) x (programmed b c!"X")
    let y' := arcEnd (incremental b i) y (programmed b c!"Y")
    dist2 F x y x' y' + legs F t (incremental b i) x' y'

/-- A block of a hole pattern: it gives values, but no other motion than a cycle, no plane and no K. -/
structure PatternBlock (axes : List Str) (b : Block) : Prop where
  steady : Steady b
  some : b ≠ []
  words : ¬ Bare K axes b
  cycle : ∀ g ∈ groupCodes 1 b, isDrill g = true ∨ isDrillQ g = true
  plane : groupCodes 2 b = []
  single : programmed (K := K) b c!"K" = none

/-- **C70.** A hole pattern of n blocks after the first hole adds n times the distances of the cycle and the way from
hole to hole to the total, for all patterns. -/
theorem C70_pattern_partial (F : Fns K) {c : Cfg K} (hw : WF c) (hx : AxesOk c) (ha : c.autoRapid = false) (inch : Inch)
    (prog : Prog) : ∀ (p : St K × MacroMap ℚ), Inv p.1 → p.1.autoRapid = false →
    (∀ e ∈ prog, PatternBlock (K := K) c.axes e.2) →
    (isDrill p.1.g = true ∨ isDrillQ p.1.g = true) → p.1.plane = .xy → AllOk F c inch prog p →
    ∀ {x y w q t : K}, pos p.1 c!"X" = some x → pos p.1 c!"Y" = some y → p.1.path.cycle = (some w, some q) →
    p.1.path.holes ≠ 0 → p.1.path.holes + prog.length ≤ 4294967295 → p.1.path.total = some t →
    (final F c inch prog p).1.path.total =
      some (t + (prog.length : K) * (w + q) + legs F (prog.map (·.2)) p.1.incr x y) := by
  induction prog with
  | nil =>
    intro p _ _ _ _ _ _ x y w q t _ _ _ _ _ ht
    show p.1.path.total = _
    rw [ht]
    simp [legs]
  | cons e prog ih =>
    intro p hp har hb hg hpl hok x y w q t hX hY hcy hh hlen ht
    obtain ⟨hok1, hok2⟩ := hok
    have hB := hb e List.mem_cons_self
    have hm : ((modalOf p.1).after e.2).plane = 17 := by
      show inGroup 2 e.2 (planeNum p.1.plane) = 17
      unfold inGroup; rw [hB.plane, hpl]; rfl
    have hmo : isDrill ((modalOf p.1).after e.2).motion = true ∨ isDrillQ ((modalOf p.1).after e.2).motion = true := by
      show isDrill (inGroup 1 e.2 p.1.g) = true ∨ isDrillQ (inGroup 1 e.2 p.1.g) = true
      unfold inGroup
      cases hl : (groupCodes 1 e.2).getLast? with
      | none => exact hg
      | some g => exact hB.cycle g (List.mem_of_getLast? hl)
    have hset : Settled p.1 e.2 := .inl har
    have eax : planeAxes ((modalOf p.1).after e.2).plane = ⟨c!"X", c!"Y", c!"Z", c!"I", c!"J"⟩ := by rw [hm]; rfl
    obtain ⟨x', y', d, h1, h2, h3, h4, H⟩ := drill_block F hx inch e.1 p hp hB.steady hB.some hset rfl ⟨hmo, hB.words⟩ hok1
      (by rw [eax]; exact hX) (by rw [eax]; exact hY)
    rw [eax] at h1 h2
    dsimp only at h1 h2
    obtain ⟨x2, y2, n1, n2, n3, n4, n5⟩ := C70_next_hole_partial F hx inch e.1 p hp hB.steady hB.some hset rfl
      ⟨hmo, hB.words⟩ hm hok1 hX hY hh hB.single hcy
    obtain ⟨s1, s2⟩ := drill_spot F hx inch e.1 p hp hB.steady hok1
    rw [moved_arcEnd (.inl rfl) hX] at s1
    rw [moved_arcEnd (.inr (.inl rfl)) hY] at s2
    have hx2 : x2 = arcEnd (incremental e.2 p.1.incr) x (programmed e.2 c!"X") := by
      rw [n1] at s1; exact Option.some.inj s1
    have hy2 : y2 = arcEnd (incremental e.2 p.1.incr) y (programmed e.2 c!"Y") := by
      rw [n2] at s2; exact Option.some.inj s2
    rw [n3, n4, ht] at h4
    change _ = some (t + (w + (q + dist2 F x y x2 y2))) at h4
    have hlen' : p.1.path.holes + (prog.length + 1) ≤ 4294967295 := hlen
    have hho : (evaluate F c inch e.1 e.2 p).1.1.path.holes = p.1.path.holes + 1 := by
      rw [H.holes, Nat.mod_eq_of_lt (by omega)]
    have hmotion : (evaluate F c inch e.1 e.2 p).1.1.g = ((modalOf p.1).after e.2).motion := congrArg Modal.motion h3
    have hplane : (evaluate F c inch e.1 e.2 p).1.1.plane = .xy := by
      have := congrArg Modal.plane h3
      rw [hm] at this
      change planeNum (evaluate F c inch e.1 e.2 p).1.1.plane = 17 at this
      revert this
      cases (evaluate F c inch e.1 e.2 p).1.1.plane <;> decide
    have hincr : (evaluate F c inch e.1 e.2 p).1.1.incr = incremental e.2 p.1.incr := by
      have := congrArg Modal.distance h3
      change incrNum (evaluate F c inch e.1 e.2 p).1.1.incr = _ at this
      obtain ⟨v, S, M, hv, _⟩ := steady_block F hx inch e.1 p hp.good hB.steady hB.some hset (by
        intro e'
        change isDrill (inGroup 1 e.2 p.1.g) = true ∨ isDrillQ (inGroup 1 e.2 p.1.g) = true at hmo
        rw [e'] at hmo; revert hmo; decide) hok1
      have e2 := congrArg Modal.distance (current_modal hx hv p.1)
      rw [← e2] at this
      change _ = incrNum (v.incr.getD p.1.incr) at this
      have inj : ∀ a b : Bool, incrNum a = incrNum b → a = b := by decide
      rw [inj _ _ this, visitAll_incr hx hv]; rfl
    have key := ih (evaluate F c inch e.1 e.2 p).1 (evaluate_inv F hw inch e.1 e.2 p hp)
      (eval_autoRapid ha har (evaluate_eval F c inch e.1 e.2 p)) (fun e' he' => hb e' (List.mem_cons_of_mem _ he'))
      (by rw [hmotion]; exact hmo) hplane hok2 n1 n2 n5 (by rw [hho]; omega) (by rw [hho]; omega) h4
    show (final F c inch prog (evaluate F c inch e.1 e.2 p).1).1.path.total = _
    rw [key, hincr, hx2, hy2]
    congr 1
    show _ = t + ((prog.length + 1 : Nat) : K) * (w + q) + (dist2 F x y _ _ + legs F (prog.map (·.2)) _ _ _)
    push_cast
    ring

end

section
variable {K : Type} [Field K] [LinearOrder K] [IsStrictOrderedRing K] [FloorRing K]
open Spec.Drill

/-- **C70 and C62.** The first hole of plain drilling and boring (G81, G82, G85, G86, G88, G89) with absolute levels: the
tool goes to the hole, visits the levels of the cycle and nothing else. With G98 not for a reference level below zero
under an initial level above zero. -/
theorem C70_first_hole_partial (F : Fns K) {c : Cfg K} (hx : AxesOk c) (inch : Inch) (line : Int) {b : Block}
    (p : St K × MacroMap ℚ) (hp : Inv p.1) (hb : Steady b) (hne : b ≠ []) (hr : Settled p.1 b)
    {m : Modal K} (hm : m = (modalOf p.1).after b) (hd : DrillBlock c.axes b m) (h17 : m.plane = 17)
    (h : (evaluate F c inch line b p).2 = .ok ()) {x y z r l : K} (hX : pos p.1 c!"X" = some x) (hY : pos p.1 c!"Y" = some y)
    (hZ : pos p.1 c!"Z" = some z) (hh : p.1.path.holes = 0) (hk : programmed (K := K) b c!"K" = none)
    (hR : programmed b c!"R" = some r) (hL : programmed b c!"Z" = some l) (hcl : c.depthless = false)
    (h90 : m.distance ≠ 91) (hdp : c.depth = .absolute) (hg : boring m.motion = true) (h1 : r ≤ z) (h2 : l ≤ r)
    (h98 : m.retract = 98 → ¬ (0 < z ∧ r < 0)) :
    ∃ x' y', pos (evaluate F c inch line b p).1.1 c!"X" = some x' ∧ pos (evaluate F c inch line b p).1.1 c!"Y" = some y' ∧
      (evaluate F c inch line b p).1.1.path.work = some (work r l) ∧
      (evaluate F c inch line b p).1.1.path.fast = some (rapid (decide (m.retract = 98)) z r l + dist2 F x y x' y') := by
  have hcy : cycleBy F c m z l r (programmed b c!"Q") = .ok (some (work r l), some (rapid (decide (m.retract = 98)) z r l)) := by
    unfold cycleBy
    have hdr : isDrill m.motion = true := by
      unfold boring at hg
      unfold isDrill
      simp only [List.mem_cons, List.not_mem_nil, or_false, decide_eq_true_eq] at hg ⊢
      omega
    rw [if_pos hdr]
    dsimp only
    rw [if_neg h90, hdp]
    congr 3
    · exact C62_work hg h1 h2
    · unfold retOfCode
      by_cases h8 : m.retract = 98
      · rw [if_pos h8, decide_eq_true h8]
        exact (C62_rapid_g98_iff_partial hg h1 h2).mpr (h98 h8)
      · rw [if_neg h8, decide_eq_false h8]
        exact C62_rapid_g99 hg h1 h2
  obtain ⟨x', y', q1, q2, q3, q4, _⟩ := first_hole F hx inch line p hp hb hne hr hm hd h17 h hX hY hZ hh hk hR hL hcl hcy
  exact ⟨x', y', q1, q2, q3, q4⟩

/-- **C70 and C62.** The first hole of tapping (G74, G84), with all levels. -/
theorem C70_first_tap_partial (F : Fns K) {c : Cfg K} (hx : AxesOk c) (inch : Inch) (line : Int) {b : Block}
    (p : St K × MacroMap ℚ) (hp : Inv p.1) (hb : Steady b) (hne : b ≠ []) (hr : Settled p.1 b)
    {m : Modal K} (hm : m = (modalOf p.1).after b) (hd : DrillBlock c.axes b m) (h17 : m.plane = 17)
    (h : (evaluate F c inch line b p).2 = .ok ()) {x y z r l : K} (hX : pos p.1 c!"X" = some x) (hY : pos p.1 c!"Y" = some y)
    (hZ : pos p.1 c!"Z" = some z) (hh : p.1.path.holes = 0) (hk : programmed (K := K) b c!"K" = none)
    (hR : programmed b c!"R" = some r) (hL : programmed b c!"Z" = some l) (hcl : c.depthless = false)
    (h90 : m.distance ≠ 91) (hdp : c.depth = .absolute) (hg : tapping m.motion = true) :
    ∃ x' y', pos (evaluate F c inch line b p).1.1 c!"X" = some x' ∧ pos (evaluate F c inch line b p).1.1 c!"Y" = some y' ∧
      (evaluate F c inch line b p).1.1.path.work = some (tapWork r l) ∧
      (evaluate F c inch line b p).1.1.path.fast = some (tapRapid (decide (m.retract = 98)) z r + dist2 F x y x' y') := by
  have hcy : cycleBy F c m z l r (programmed b c!"Q") = .ok (some (tapWork r l), some (tapRapid (decide (m.retract = 98)) z r)) := by
    unfold cycleBy
    have hdr : isDrill m.motion = true := by
      unfold tapping at hg
      unfold isDrill
      simp only [List.mem_cons, List.not_mem_nil, or_false, decide_eq_true_eq] at hg ⊢
      omega
    rw [if_pos hdr]
    dsimp only
    rw [if_neg h90, hdp, C62_tapping z r l hg]
    unfold retOfCode
    by_cases h8 : m.retract = 98
    · rw [if_pos h8, decide_eq_true h8]; rfl
    · rw [if_neg h8, decide_eq_false h8]; rfl
  obtain ⟨x', y', q1, q2, q3, q4, _⟩ := first_hole F hx inch line p hp hb hne hr hm hd h17 h hX hY hZ hh hk hR hL hcl hcy
  exact ⟨x', y', q1, q2, q3, q4⟩

/-- **C70 and C62.** The first hole of fine boring (G76), with all levels. -/
theorem C70_first_fine_partial (F : Fns K) {c : Cfg K} (hx : AxesOk c) (inch : Inch) (line : Int) {b : Block}
    (p : St K × MacroMap ℚ) (hp : Inv p.1) (hb : Steady b) (hne : b ≠ []) (hr : Settled p.1 b)
    {m : Modal K} (hm : m = (modalOf p.1).after b) (hd : DrillBlock c.axes b m) (h17 : m.plane = 17)
    (h : (evaluate F c inch line b p).2 = .ok ()) {x y z r l q : K} (hX : pos p.1 c!"X" = some x) (hY : pos p.1 c!"Y" = some y)
    (hZ : pos p.1 c!"Z" = some z) (hh : p.1.path.holes = 0) (hk : programmed (K := K) b c!"K" = none)
    (hR : programmed b c!"R" = some r) (hL : programmed b c!"Z" = some l) (hQ : programmed b c!"Q" = some q)
    (hcl : c.depthless = false)
    (h90 : m.distance ≠ 91) (hdp : c.depth = .absolute) (hg : m.motion = 76) :
    ∃ x' y', pos (evaluate F c inch line b p).1.1 c!"X" = some x' ∧ pos (evaluate F c inch line b p).1.1 c!"Y" = some y' ∧
      (evaluate F c inch line b p).1.1.path.work = some (fineWork r l) ∧
      (evaluate F c inch line b p).1.1.path.fast =
        some (fineRapid (decide (m.retract = 98)) z r l q + dist2 F x y x' y') := by
  have hcy : cycleBy F c m z l r (programmed b c!"Q") =
      .ok (some (fineWork r l), some (fineRapid (decide (m.retract = 98)) z r l q)) := by
    unfold cycleBy
    rw [hg, if_neg (by decide), hQ]
    dsimp only
    rw [if_neg h90, hdp, C62_fine]
    unfold retOfCode
    by_cases h8 : m.retract = 98
    · rw [if_pos h8, decide_eq_true h8]; rfl
    · rw [if_neg h8, decide_eq_false h8]; rfl
  obtain ⟨x', y', q1, q2, q3, q4, _⟩ := first_hole F hx inch line p hp hb hne hr hm hd h17 h hX hY hZ hh hk hR hL hcl hcy
  exact ⟨x', y', q1, q2, q3, q4⟩

end

section
open NC.SimDemo

/-- Drill a hole with F. -/
def firstHole : Block := [w c!"G" c!"81", w c!"G" c!"99", w c!"X" c!"30", w c!"Y" c!"40", wn c!"Z" c!"20", w c!"R" c!"2", w c!"F" c!"100"]

/-- A further hole. -/
def nextHole : Block := [w c!"X" c!"60", w c!"Y" c!"80"]

/-- After the first hole. -/
def drilled : St ℚ × MacroMap ℚ := run mill [firstHole] (start mill)

theorem firstHole_steady : Steady firstHole := steady_of (by decide)
theorem nextHole_steady : Steady nextHole := steady_of (by decide)

theorem nextHole_pattern : PatternBlock (K := ℚ) mill.axes nextHole := by
  refine ⟨nextHole_steady, by decide, ?_, by decide, by decide, by decide +kernel⟩
  rintro ⟨_, h⟩
  have := h c!"X" (by decide)
  revert this
  decide +kernel

example : DrillBlock mill.axes firstHole ((modalOf (start mill).1).after firstHole) ∧
    Settled (start mill).1 firstHole ∧ ((modalOf (start mill).1).after firstHole) = ⟨81, 17, 90, 94, 99, 97, 100, -1⟩ ∧
    (evaluate qf mill false 1 firstHole (start mill)).2 = .ok () ∧ pos (start mill).1 c!"Z" = some 10 ∧
    (start mill).1.path.holes = 0 ∧ programmed firstHole c!"R" = some (2 : ℚ) ∧ boring 81 = true ∧
    drilled.1.path.work = some 22 ∧ drilled.1.path.fast = some (30 + 50) ∧ drilled.1.path.cycle = (some 22, some 30) := by
  refine ⟨⟨.inl (by decide +kernel), ?_⟩, ?_⟩
  · rintro ⟨h, _⟩
    revert h
    decide
  · and_intros
    · exact .inl (by decide +kernel)
    all_goals decide +kernel

example : AllOk qf mill false [(1, nextHole), (2, nextHole)] drilled ∧ drilled.1.path.holes = 1 ∧
    drilled.1.plane = .xy ∧ drilled.1.autoRapid = false ∧ isDrill drilled.1.g = true ∧
    drilled.1.path.total = some 102 ∧ legs qf [nextHole, nextHole] drilled.1.incr 30 40 = 50 ∧
    (final qf mill false [(1, nextHole), (2, nextHole)] drilled).1.path.total = some (102 + 2 * 52 + 50) := by
  refine ⟨⟨?_, ?_, trivial⟩, ?_⟩
  · decide +kernel
  · decide +kernel
  · and_intros <;> decide +kernel

/-- Three holes in a row. -/
def row : Block := [w c!"G" c!"91", w c!"G" c!"81", w c!"G" c!"99", w c!"X" c!"10", wn c!"Z" c!"20", wn c!"R" c!"8",
  w c!"K" c!"3", w c!"F" c!"100"]

example : Steady row ∧ ((modalOf (start mill).1).after row).distance = 91 ∧
    programmed row c!"K" = some ((3 : Nat) : ℚ) ∧ ⌊((3 : Nat) : ℚ)⌋ = (3 : Nat) ∧
    (evaluate qf mill false 1 row (start mill)).2 = .ok () ∧
    drillIncr (-20 : ℚ) (-8) 81 .g99 = (20, 28) ∧
    (evaluate qf mill false 1 row (start mill)).1.1.path.work = some (3 * 20) ∧
    (evaluate qf mill false 1 row (start mill)).1.1.path.fast = some (3 * (28 + 10)) := by
  refine ⟨steady_of (by decide), by decide +kernel, by decide +kernel, Int.floor_natCast 3, ?_⟩
  and_intros <;> decide +kernel

example : (evaluate qf mill false 1 (w c!"K" c!"0" :: nextHole ++ [wn c!"Z" c!"20", w c!"R" c!"2"]) drilled).2 = .ok () ∧
    (evaluate qf mill false 1 (w c!"K" c!"0" :: nextHole ++ [wn c!"Z" c!"20", w c!"R" c!"2"]) drilled).1.1.path.fast = some 50 := by
  and_intros <;> decide +kernel

/-- **C70 violated.** A new depth for a further hole is ignored: Z-50 in place of Z-20 changes nothing. -/
theorem C70_violated_depth :
    (run mill [firstHole, [w c!"X" c!"60", w c!"Y" c!"80", wn c!"Z" c!"50"]] (start mill)).1.path.work = some 22 ∧
    Spec.Drill.work (2 : ℚ) (-50) = 52 := by
  and_intros <;> decide +kernel

/-- **C70 violated.** Another cycle without G80 keeps the distances of the one before: a tapping cycle counts as
drilling. -/
theorem C70_violated_cycle :
    (run mill [firstHole, [w c!"G" c!"84", w c!"X" c!"60", w c!"Y" c!"80", wn c!"Z" c!"20", w c!"R" c!"2"]] (start mill)).1.path.work = some 22 ∧
    Spec.Drill.tapWork (2 : ℚ) (-20) = 44 := by
  and_intros <;> decide +kernel

/-- **C70 violated.** In absolute mode K3 counts one hole. -/
theorem C70_violated_K :
    (run mill [firstHole ++ [w c!"K" c!"3"]] (start mill)).1.path.work = some 22 := by
  decide +kernel

/-- **C70 violated.** After three holes of a row with G91 the position is that of the first one. -/
theorem C70_violated_row :
    pos (run mill [[w c!"G" c!"91", w c!"G" c!"81", w c!"G" c!"99", w c!"X" c!"10", wn c!"Z" c!"20", wn c!"R" c!"8", w c!"K" c!"3", w c!"F" c!"100"]]
      (start mill)).1 c!"X" = some 10 ∧
    (run mill [[w c!"G" c!"91", w c!"G" c!"81", w c!"G" c!"99", w c!"X" c!"10", wn c!"Z" c!"20", wn c!"R" c!"8", w c!"K" c!"3", w c!"F" c!"100"]]
      (start mill)).1.path.work = some 60 := by
  and_intros <;> decide +kernel

/-- **C70 violated.** On a lathe the way to the hole is taken from the diameters: X40 is twice as far as it is. -/
theorem C70_violated_lathe :
    diametric lathe 17 = true ∧
    (run lathe [[w c!"G" c!"17", w c!"G" c!"81", w c!"G" c!"99", w c!"X" c!"40", wn c!"Z" c!"20", w c!"R" c!"2", w c!"F" c!"100"]]
      (start lathe)).1.path.fast = some (30 + 40) := by
  and_intros <;> decide +kernel

/-- **C70 violated.** In G18 the second axis of the plane is taken as if it were the depth: after a hole at Z30 the position
is still the one before. -/
theorem C70_violated_G18 :
    pos (run mill [[w c!"G" c!"18", w c!"G" c!"81", w c!"X" c!"40", w c!"Z" c!"30", wn c!"Y" c!"20", w c!"R" c!"2", w c!"F" c!"100"]]
      (start mill)).1 c!"Z" = some 10 := by
  decide +kernel

end
end NC.Props
