import Verif.Props.SimTurn

/-!
# C60 for blocks: turns and quarters of a helix
-/

namespace NC.Props
open NC NC.Path NC.Ver NC.AttrPath NC.Spec.Sim

section
variable {K : Type} [Field K] [LinearOrder K] [FloorRing K]

/-- A block that begins a helix: G2 or G3 with absolute words for all three axes, and a centre or radius. -/
structure HelixBlock (b : Block) (m : Modal K) (s : St K) (ax : PlaneAxes) (third : Str) (x' y' z' : K) : Prop where
  code : m.motion = 2 ∨ m.motion = 3
  absolute : m.distance ≠ 91
  fresh : s.helix = .none
  noSpiral : programmed (K := K) b c!"Q" = none ∧ programmed (K := K) b c!"L" = none
  u : programmed b ax.u = some x'
  v : programmed b ax.v = some y'
  across : programmed b ax.across = some z'
  centre : (programmed (K := K) b ax.cu ≠ none ∧ programmed (K := K) b ax.cv ≠ none ∧ programmed (K := K) b third ≠ none) ∨
    programmed (K := K) b c!"R" ≠ none

/-- The address of the centre across the plane. -/
def thirdOf (n : Int) : Str := if n = 18 then c!"J" else if n = 19 then c!"I" else c!"K"

/-- The length of one turn or quarter by centre or, if there is none, by radius. -/
def turnLength (F : Fns K) (quarter : Bool) (dz : K) (i j r : Option K) : Option K :=
  match i, j, r with
  | some i, some j, _ => some (if quarter then helixQuarter F dz i j else helix F dz i j)
  | _, _, some r => some (if quarter then helixQuarterR F dz r else helixR F dz r)
  | _, _, none => none

omit [FloorRing K] in
theorem setTurn_ok {F : Fns K} {quarter last : Bool} {dz : Option K} {s M : St K} {w w' : CW K} {o : Bool}
    (h : setTurn F quarter last dz s w = ((M, w'), .ok o)) : o = false ∧ ∃ d t, dz = some d ∧
      turnLength F quarter d w.i w.j w.r = some t ∧ M = setWork (some (if last then helixLast t else t)) s ∧ w' = w := by
  unfold setTurn at h
  cases dz with
  | none => cases h
  | some d =>
    dsimp only at h
    unfold turn at h
    unfold turnLength
    cases hi : w.i with
    | none =>
      cases hr : w.r with
      | none => rw [hi, hr] at h; cases h
      | some r => rw [hi, hr] at h; cases h; exact ⟨rfl, d, _, rfl, rfl, rfl, rfl⟩
    | some i =>
      cases hj : w.j with
      | none =>
        cases hr : w.r with
        | none => rw [hi, hj, hr] at h; cases h
        | some r => rw [hi, hj, hr] at h; cases h; exact ⟨rfl, d, _, rfl, rfl, rfl, rfl⟩
      | some j => rw [hi, hj] at h; cases h; exact ⟨rfl, d, _, rfl, rfl, rfl, rfl⟩

omit [FloorRing K] in
theorem orElse_get (a b : Option K) : (a <|> b) = a.or b := by cases a <;> rfl

/-- The circular part for the first block of a helix. -/
theorem circular_helix {F : Fns K} {c : Cfg K} {v : Vis K} {cur : Cur K} {s M : St K} {o : Bool} {x y x' y' z' : K}
    {ax : Axes} (hax : ax = axesOf cur.plane)
    (hX : s.prev.get ax.a1 = some x) (hY : s.prev.get ax.a2 = some y) (hi : cur.incr = false)
    (hQ : v.vals.get c!"Q" = none) (hL : v.vals.get c!"L" = none) (hh : s.helix = .none)
    (h1 : v.vals.get ax.a1 = some x') (h2 : v.vals.get ax.a2 = some y') (h3 : v.vals.get ax.a3 = some z')
    (hc : (v.vals.get ax.p1 ≠ none ∧ v.vals.get ax.p2 ≠ none ∧ v.vals.get ax.p3 ≠ none) ∨ v.vals.get c!"R" ≠ none)
    (h : circular F c v cur s = (M, .ok o)) :
    ∃ z, s.prev.get ax.a3 = some z ∧
      (x' = x → y' = y → (∃ t, turnLength F false (z - z') ((v.vals.get ax.p1).or (s.prev.get ax.p1))
          ((v.vals.get ax.p2).or (s.prev.get ax.p2)) ((v.vals.get c!"R").or (s.prev.get c!"R")) = some t ∧
          M.path.work = some t) ∧ M.path.fast = s.path.fast ∧ M.helix = .full) ∧
      (x' ≠ x → y' ≠ y → ¬ (x' = 0 ∧ y' = 0) → z' ≠ z →
        (∃ t, turnLength F true (z - z') ((v.vals.get ax.p1).or (s.prev.get ax.p1))
          ((v.vals.get ax.p2).or (s.prev.get ax.p2)) ((v.vals.get c!"R").or (s.prev.get c!"R")) = some t ∧
          M.path.work = some t) ∧ M.path.fast = s.path.fast ∧ M.helix = .quarter) := by
  unfold circular at h
  rw [if_neg (by
    rintro ⟨_, e⟩
    rw [e] at h1
    cases h1)] at h
  dsimp only at h
  rw [← hax, hX, hY] at h
  dsimp only at h
  have hcb : ∀ t : St K, (cancelBy c cur.g t).prev = t.prev ∧ (cancelBy c cur.g t).helix = t.helix ∧
      (cancelBy c cur.g t).path.fast = t.path.fast := by
    intro t; unfold cancelBy; split <;> exact ⟨rfl, rfl, rfl⟩
  obtain ⟨b1, b2, b3⟩ := hcb s
  generalize cancelBy c cur.g s = S at h b1 b2 b3
  unfold circularFrom at h
  extract_lets g w hs at h
  have wq : w.q = none := hQ
  have wl : w.l = none := hL
  have wx : w.x = some x' := h1
  have wy : w.y = some y' := h2
  have wz : w.z = some z' := h3
  have wxp : w.xp = x := rfl
  have wyp : w.yp = y := rfl
  have wzp : w.zp = S.prev.get ax.a3 := rfl
  have wi : w.i = v.vals.get ax.p1 := rfl
  have wj : w.j = v.vals.get ax.p2 := rfl
  have wk : w.k = v.vals.get ax.p3 := rfl
  have wr : w.r = v.vals.get c!"R" := rfl
  clear_value w
  rw [if_neg (by rw [wq, wl]; simp)] at h
  have hcond : S.helix = .none ∧ ((w.i.isSome = true ∧ w.j.isSome = true ∧ w.k.isSome = true) ∨ w.r.isSome = true) := by
    refine ⟨b2.trans hh, ?_⟩
    rw [wi, wj, wk, wr]
    simp only [Option.isSome_iff_ne_none]
    exact hc
  cases hz : S.prev.get ax.a3 with
  | none =>
    have : hs = (((S, w), .throw (err .MissingPreviousValue [ax.a3])), false) := by
      show helixStart ax S w = _
      unfold helixStart
      rw [wx, wy, wz]
      dsimp only
      rw [if_pos hcond, if_pos (by rw [wzp, hz])]
    rw [this] at h
    cases h
  | some z =>
    rw [hz] at wzp
    have hst0 : ∀ (q : Bool), (q = false → x' = x ∧ y' = y) → (q = true → x' ≠ x ∧ ¬ (x' = 0 ∧ y' = 0)) →
        hs = ((({ S with helix := if q then .quarter else .full }, w), .ok true), q) := by
      intro q c1 c2
      show helixStart ax S w = _
      unfold helixStart
      rw [wx, wy, wz]
      dsimp only
      rw [if_pos hcond, if_neg (by rw [wzp]; simp), wxp, wyp]
      cases q with
      | false => rw [if_pos (.inl (c1 rfl))]; rfl
      | true =>
        rw [if_neg (by
          rintro (⟨e, _⟩ | e)
          · exact (c2 rfl).1 e
          · exact (c2 rfl).2 e)]
        rfl
    have run : ∀ q : Bool, hs = ((({ S with helix := if q then .quarter else .full }, w), .ok true), q) →
        (∀ w' : CW K, w'.xp = x → w'.yp = y → w'.x = some x' → w'.y = some y' → w'.z = some z' → w'.zp = some z →
          helixAbs F { S with helix := if q then .quarter else .full } w' =
          setTurn F q false (some (z - z')) { S with helix := if q then .quarter else .full } w') →
        (∃ t, turnLength F q (z - z') ((v.vals.get ax.p1).or (s.prev.get ax.p1))
          ((v.vals.get ax.p2).or (s.prev.get ax.p2)) ((v.vals.get c!"R").or (s.prev.get c!"R")) = some t ∧
          M.path.work = some t) ∧ M.path.fast = s.path.fast ∧ M.helix = (if q then .quarter else .full) := by
      intro q hq habs
      rw [hq] at h
      unfold helixStep at h
      dsimp only at h
      rw [if_neg (by cases q <;> decide)] at h
      unfold helixRun at h
      dsimp only at h
      split at h
      · cases h
      · split at h
        · cases h
        · rw [hi, if_neg (by decide)] at h
          generalize hW : CW.mk w.xp w.yp w.zp _ _ _ _ w.q w.l w.x w.y w.z = W at h
          rw [habs W (by rw [← hW]; exact wxp) (by rw [← hW]; exact wyp) (by rw [← hW]; exact wx) (by rw [← hW]; exact wy)
            (by rw [← hW]; exact wz) (by rw [← hW]; exact wzp)] at h
          subst hW
          generalize hst : setTurn F q false _ _ _ = st at h
          obtain ⟨⟨M', w'⟩, o'⟩ := st
          cases o' with
          | ok o' =>
            obtain ⟨q1, d, t, q2, q3, q4, q5⟩ := setTurn_ok hst
            subst q1
            cases q2
            unfold arcStep at h
            dsimp only at h
            cases h
            dsimp only at q3
            simp only [orElse_get] at q3
            rw [b1, wi, wj, wr] at q3
            refine ⟨⟨t, q3, ?_⟩, ?_, ?_⟩
            · rw [q4]; rfl
            · rw [q4]; exact b3
            · rw [q4]; rfl
          | throw e => cases h
          | ub => cases h
    refine ⟨z, by rw [← b1]; exact hz, ?_, ?_⟩
    · intro e1 e2
      refine run false (hst0 false (fun _ => ⟨e1, e2⟩) (fun e => by cases e)) ?_
      intro w' f1 f2 f3 f4 f5 f6
      unfold helixAbs dzOf
      dsimp only
      rw [f1, f2, f3, f4, f5, f6]
      exact if_pos ⟨e1.symm, e2.symm⟩
    · intro e1 e2 e3 e4
      refine run true (hst0 true (fun e => by cases e) (fun _ => ⟨e1, e3⟩)) ?_
      intro w' f1 f2 f3 f4 f5 f6
      unfold helixAbs dzOf
      dsimp only
      rw [f1, f2, f3, f4, f5, f6]
      show (if some z' = none ∧ some z = none then _ else if x ≠ x' ∧ y ≠ y' then
        (if z ≠ z' then _ else _) else _) = _
      rw [if_neg (fun e => Option.some_ne_none _ e.1), if_pos ⟨fun e => e1 e.symm, fun e => e2 e.symm⟩,
        if_pos (fun e => e4 e.symm)]

/-- The length of a turn or quarter with the words of the block, if it gives its centre or if there is no centre
before it. -/
theorem turnLength_words {F : Fns K} {q : Bool} {dz t : K} {i j r ip jp rp : Option K} (hr : r ≠ none ∨ (i ≠ none ∧ j ≠ none))
    (h : turnLength F q dz (i.or ip) (j.or jp) (r.or rp) = some t) :
    (∀ a b, i = some a → j = some b → t = if q then helixQuarter F dz a b else helix F dz a b) ∧
    (∀ a, r = some a → (i = none ∧ ip = none ∨ j = none ∧ jp = none) → t = if q then helixQuarterR F dz a else helixR F dz a) := by
  constructor
  · rintro a b rfl rfl
    exact (Option.some.inj h).symm
  · rintro a rfl hn
    rcases hn with ⟨rfl, rfl⟩ | ⟨rfl, rfl⟩
    · exact (Option.some.inj h).symm
    · cases i <;> cases ip <;> exact (Option.some.inj h).symm

/-- **C60, blocks.** A block with absolute words that begins a helix: if it ends above or below its start in the plane,
its work motion is the length of one turn with its pitch; if both coordinates in the plane change, that of a
quarter. Centre words count from the start, otherwise the radius counts, if no centre is left from before. -/
theorem C60_blocks_partial (F : Fns K) {c : Cfg K} (hx : AxesOk c) (inch : Inch) (line : Int) {b : Block}
    (p : St K × MacroMap ℚ) (hp : Inv p.1) (hb : Steady b) (hne : b ≠ []) (hr : Settled p.1 b)
    {m : Modal K} (hm : m = (modalOf p.1).after b) {ax : PlaneAxes} (hax : ax = planeAxes m.plane) {x y z x' y' z' : K}
    (hH : HelixBlock b m p.1 ax (thirdOf m.plane) x' y' z')
    (h : (evaluate F c inch line b p).2 = .ok ())
    (hX : pos p.1 ax.u = some x) (hY : pos p.1 ax.v = some y) (hZ : pos p.1 ax.across = some z)
    {quarter : Bool} (hq : quarter = false → x' = x ∧ y' = y)
    (hq' : quarter = true → x' ≠ x ∧ y' ≠ y ∧ ¬ (x' = 0 ∧ y' = 0) ∧ z' ≠ z) :
    (evaluate F c inch line b p).1.1.path.fast = some 0 ∧
    ((evaluate F c inch line b p).1.1.helix = if quarter then .quarter else .full) ∧
    (∀ i j, programmed b ax.cu = some i → programmed b ax.cv = some j →
      (evaluate F c inch line b p).1.1.path.work =
        some (if quarter then helixQuarter F (z - z') i j else helix F (z - z') i j)) ∧
    (∀ r, programmed b c!"R" = some r →
      ((programmed (K := K) b ax.cu = none ∧ pos p.1 ax.cu = none) ∨ (programmed (K := K) b ax.cv = none ∧ pos p.1 ax.cv = none)) →
      (evaluate F c inch line b p).1.1.path.work =
        some (if quarter then helixQuarterR F (z - z') r else helixR F (z - z') r)) := by
  have hg := hH.code
  have hg1 : inGroup 1 b p.1.g ≠ -1 := by
    rw [hm] at hg
    change inGroup 1 b p.1.g = 2 ∨ inGroup 1 b p.1.g = 3 at hg
    rcases hg with h | h <;> rw [h] <;> decide
  obtain ⟨v, S, M, hv, hat, hab, ho, g1, g2, g3, g4, g5, g6, g7, g8, g9, g10, g11, hres⟩ :=
    steady_block F hx inch line p hp.good hb hne hr hg1 h
  rw [← hm] at g10
  have cg : (current v S).g = m.motion := congrArg Modal.motion g10
  have cp : planeNum (current v S).plane = m.plane := congrArg Modal.plane g10
  have hmo : motion F c v (current v S) S = circular F c v (current v S) S := by
    unfold motion
    rw [cg, if_neg (by rcases hg with h | h <;> rw [h] <;> decide), if_pos hg]
  have hinc : (current v S).incr = false := by
    have e := congrArg Modal.distance g10
    change incrNum (current v S).incr = m.distance at e
    have := hH.absolute
    rw [← e] at this
    revert this
    cases (current v S).incr <;> simp [incrNum]
  have a12 := axesOf_planeAxes (current v S).plane
  rw [cp, ← hax] at a12
  obtain ⟨a1, a2, a3, a4, a5⟩ := a12
  have a6 : thirdOf m.plane = (axesOf (current v S).plane).p3 := by
    rw [← cp]; cases (current v S).plane <;> rfl
  have hvals := fun a ha => visitAll_vals (a := a) hv (param_mem (c := c) ha)
  have mem : ∀ a ∈ ([(axesOf (current v S).plane).a1, (axesOf (current v S).plane).a2, (axesOf (current v S).plane).a3,
      (axesOf (current v S).plane).p1, (axesOf (current v S).plane).p2, (axesOf (current v S).plane).p3] : List Str),
      a ∈ ([c!"X", c!"Y", c!"Z", c!"I", c!"J", c!"K", c!"R", c!"Q", c!"L", c!"P", c!"U"] : List Str) := by
    cases (current v S).plane <;> decide
  have v1 := hvals _ (mem (axesOf (current v S).plane).a1 (by simp))
  have v2 := hvals _ (mem (axesOf (current v S).plane).a2 (by simp))
  have v3 := hvals _ (mem (axesOf (current v S).plane).a3 (by simp))
  have v4 := hvals _ (mem (axesOf (current v S).plane).p1 (by simp))
  have v5 := hvals _ (mem (axesOf (current v S).plane).p2 (by simp))
  have v6 := hvals _ (mem (axesOf (current v S).plane).p3 (by simp))
  have vR := hvals c!"R" (by decide)
  have vQ := hvals c!"Q" (by decide)
  have vL := hvals c!"L" (by decide)
  have hdone : motion F c v (current v S) S = (M, .ok true) ∧
      (evaluate F c inch line b p).1.1 = savePositions c v (counted F c inch (current v S) M) := by
    rcases hres with ⟨m1, m2, m3⟩ | ⟨m1, m3, m4, m5, m6, m7⟩
    · exact ⟨m1, m3⟩
    · exfalso
      rw [m6, ← a1, hH.u] at v1
      cases v1
  obtain ⟨m1, m3⟩ := hdone
  rw [hmo] at m1
  have sp : ∀ a, S.prev.get a = pos p.1 a := by intro a; rw [g1.1, hp.sync]
  obtain ⟨z0, k1, k2, k3⟩ := circular_helix (x := x) (y := y) (x' := x') (y' := y') (z' := z') rfl
    (by rw [sp, ← a1, hX]) (by rw [sp, ← a2, hY]) hinc (by rw [vQ]; exact hH.noSpiral.1) (by rw [vL]; exact hH.noSpiral.2)
    (by rw [g2]; exact hH.fresh) (by rw [v1, ← a1, hH.u]) (by rw [v2, ← a2, hH.v]) (by rw [v3, ← a3, hH.across])
    (by rw [v4, v5, v6, vR, ← a4, ← a5, ← a6]; exact hH.centre) m1
  rw [sp, ← a3, hZ] at k1
  cases k1
  simp only [sp] at k2 k3
  rw [v4, v5, vR, ← a4, ← a5] at k2 k3
  have w12 : (evaluate F c inch line b p).1.1.path.work = M.path.work ∧
      (evaluate F c inch line b p).1.1.path.fast = M.path.fast := by
    rw [m3, (savePositions_modal c v _).2.1]; exact ⟨rfl, rfl⟩
  have wh : (evaluate F c inch line b p).1.1.helix = M.helix := by
    rw [m3, (savePositions_modal c v _).2.2.2]; rfl
  have fin : ∀ q : Bool, (∃ t, turnLength F q (z - z') ((programmed b ax.cu).or (pos p.1 ax.cu))
      ((programmed b ax.cv).or (pos p.1 ax.cv)) ((programmed b c!"R").or (pos p.1 c!"R")) = some t ∧ M.path.work = some t) →
      (∀ i j, programmed b ax.cu = some i → programmed b ax.cv = some j →
        M.path.work = some (if q then helixQuarter F (z - z') i j else helix F (z - z') i j)) ∧
      (∀ r, programmed b c!"R" = some r →
        ((programmed (K := K) b ax.cu = none ∧ pos p.1 ax.cu = none) ∨ (programmed (K := K) b ax.cv = none ∧ pos p.1 ax.cv = none)) →
        M.path.work = some (if q then helixQuarterR F (z - z') r else helixR F (z - z') r)) := by
    rintro q ⟨t, t1, t2⟩
    have hro : programmed (K := K) b c!"R" ≠ none ∨ (programmed (K := K) b ax.cu ≠ none ∧ programmed (K := K) b ax.cv ≠ none) := by
      rcases hH.centre with ⟨e1, e2, _⟩ | e
      · exact .inr ⟨e1, e2⟩
      · exact .inl e
    obtain ⟨f1, f2⟩ := turnLength_words hro t1
    refine ⟨fun i j hi hj => ?_, fun r hr hn => ?_⟩
    · rw [t2, f1 i j hi hj]
    · rw [t2, f2 r hr hn]
  rw [w12.1, w12.2, wh]
  cases quarter with
  | false =>
    obtain ⟨n1, n2, n3⟩ := k2 (hq rfl).1 (hq rfl).2
    obtain ⟨f1, f2⟩ := fin false n1
    exact ⟨n2.trans g4, n3, f1, f2⟩
  | true =>
    obtain ⟨e1, e2, e3, e4⟩ := hq' rfl
    obtain ⟨n1, n2, n3⟩ := k3 e1 e2 e3 e4
    obtain ⟨f1, f2⟩ := fin true n1
    exact ⟨n2.trans g4, n3, f1, f2⟩

end

section
open NC.SimDemo

/-- A full turn of a helix, from the base point down by 5. -/
def helixTurn : Block := [w c!"G" c!"2", w c!"X" c!"0", w c!"Y" c!"0", w c!"Z" c!"7", w c!"I" c!"4", w c!"J" c!"0", w c!"K" c!"0",
  w c!"F" c!"100"]

example : Steady helixTurn ∧
    HelixBlock helixTurn ((modalOf (start mill).1).after helixTurn) (start mill).1 (planeAxes 17) (thirdOf 17) 0 0 7 ∧
    (evaluate qf mill false 1 helixTurn (start mill)).2 = .ok () ∧ pos (start mill).1 c!"X" = some 0 ∧
    pos (start mill).1 c!"Y" = some 0 ∧ pos (start mill).1 c!"Z" = some 10 ∧
    (evaluate qf mill false 1 helixTurn (start mill)).1.1.path.work = some (helix qf (10 - 7) 4 0) ∧
    helix qf (10 - 7) 4 0 = (220 / 7 : ℚ) := by
  refine ⟨steady_of (by decide), ⟨.inl ?_, ?_, ?_, ?_, ?_, ?_, ?_, .inl ?_⟩, ?_⟩
  · decide +kernel
  · decide +kernel
  · decide +kernel
  · and_intros <;> decide +kernel
  · decide +kernel
  · decide +kernel
  · decide +kernel
  · and_intros <;> decide +kernel
  · and_intros <;> decide +kernel

/-- A quarter of a helix. -/
def helixPart : Block := [w c!"G" c!"2", w c!"X" c!"4", w c!"Y" c!"4", w c!"Z" c!"9", w c!"R" c!"4", w c!"F" c!"100"]

example : Steady helixPart ∧
    HelixBlock helixPart ((modalOf (start mill).1).after helixPart) (start mill).1 (planeAxes 17) (thirdOf 17) 4 4 9 ∧
    pos (start mill).1 c!"I" = none ∧ (evaluate qf mill false 1 helixPart (start mill)).2 = .ok () ∧
    (evaluate qf mill false 1 helixPart (start mill)).1.1.path.work = some (helixQuarterR qf (10 - 9) 4) := by
  refine ⟨steady_of (by decide), ⟨.inl ?_, ?_, ?_, ?_, ?_, ?_, ?_, .inr ?_⟩, ?_⟩
  · decide +kernel
  · decide +kernel
  · decide +kernel
  · and_intros <;> decide +kernel
  · decide +kernel
  · decide +kernel
  · decide +kernel
  · decide +kernel
  · and_intros <;> decide +kernel

/-- **C60 violated.** A helix in progress is only forgotten by a circular move: after a full turn and straight moves the
next arc reads a Z word that is not there (undefined). -/
theorem C60_violated_arc_after :
    (evaluate qf mill false 3 [w c!"G" c!"2", w c!"X" c!"20", w c!"Y" c!"0", w c!"I" c!"5", w c!"J" c!"0"]
      (run mill [helixTurn, [w c!"G" c!"1", w c!"X" c!"10"]] (start mill))).2 = .ub := by
  decide +kernel

/-- **C60 violated.** A quarter that ends at the origin counts as half a turn: R4 over X0 Y0 from X4 Y4. -/
theorem C60_violated_origin :
    (evaluate qf mill false 2 [w c!"G" c!"2", w c!"X" c!"0", w c!"Y" c!"0", w c!"Z" c!"9", w c!"R" c!"4", w c!"F" c!"100"]
      (run mill [[w c!"G" c!"0", w c!"X" c!"4", w c!"Y" c!"4"]] (start mill))).1.1.path.work =
      some (helixLast (helixR qf (10 - 9) 4)) := by
  decide +kernel

/-- **C60 violated.** After an arc with I and J a helix by radius is computed with that centre: R9 as if it were R5. -/
theorem C60_violated_old_centre :
    (evaluate qf mill false 2 [w c!"G" c!"2", w c!"X" c!"0", w c!"Y" c!"0", wn c!"Z" c!"2", w c!"R" c!"9"]
      (run mill [[w c!"G" c!"2", w c!"I" c!"3", w c!"J" c!"4", w c!"F" c!"100"]] (start mill))).1.1.path.work =
      some (2 * qf.pi * 13) ∧ helixR qf (10 - (-2)) 9 = 2 * qf.pi * 15 := by
  and_intros <;> decide +kernel

end
end NC.Props
