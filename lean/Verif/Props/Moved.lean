import Verif.SimMovedRun
import Verif.SimDemo
import Verif.Props.Similar

/-!
# C117: a part that lies elsewhere on the table
-/

namespace NC.Mvd
open NC NC.Path NC.Ver NC.AttrPath NC.Spec.Sim NC.Props
open NC.Spec.Similar (threeAxes)
open NC.Spec.Moved (Shift)

section
variable {K : Type} [Field K] [LinearOrder K] [IsStrictOrderedRing K] [FloorRing K]

/-- The least and the greatest coordinate an axis has had. -/
def bounds (s : St K) (a : Str) : Option (K × K) := (s.range.get a).map (fun r => (r.lo, r.hi))

/-- What is seen of the simulation of the part at its other place: all positions and all bounds are moved; the lengths, the times, the
totals of all tools and the modes are the same. -/
structure SeenAt (S : Shift K) (s s' : St K) : Prop where
  places : ∀ a, pos s' a = (pos s a).map (· + S.by' a)
  reach : ∀ a, bounds s' a = (bounds s a).map (fun x => (x.1 + S.by' a, x.2 + S.by' a))
  path : s'.path = s.path
  time : s'.time = s.time
  toolPaths : s'.tPath = s.tPath
  toolTimes : s'.tTime = s.tTime
  feed : s'.f = s.f
  speed : s'.s = s.s
  motion : s'.g = s.g
  plane : s'.plane = s.plane
  incr : s'.incr = s.incr
  tool : s'.tool = s.tool

/-- The points of a machine whose table is moved with the part. -/
def shifted (S : Shift K) (m : VMap K) : VMap K := m.map (fun e => (e.1, e.2 + S.by' e.1))

/-- Everything the simulation knows, of the part at both places. -/
structure Elsewhere (S : Shift K) (s s' : St K) : Prop where
  seen : SeenAt S s s'
  modes : s'.ret = s.ret ∧ s'.css = s.css ∧ s'.perRev = s.perRev ∧ s'.helix = s.helix ∧ s'.autoRapid = s.autoRapid

omit [FloorRing K] [IsStrictOrderedRing K] in
theorem elsewhere_mv (S : Shift K) (s : St K) : Elsewhere S s (mvS S.by' s) := by
  have hr : ∀ a, (mvS S.by' s).range.get a = (s.range.get a).map (mvr (S.by' a)) := fun a => get_mvR _ _ a
  refine ⟨⟨?_, ?_, rfl, rfl, rfl, rfl, rfl, rfl, rfl, rfl, rfl, rfl⟩, rfl, rfl, rfl, rfl, rfl⟩
  · intro a
    unfold pos
    rw [hr]
    cases s.range.get a <;> rfl
  · intro a
    unfold bounds
    rw [hr]
    cases s.range.get a <;> rfl

omit [LinearOrder K] [FloorRing K] [IsStrictOrderedRing K] in
theorem sorted_mv {V : Type} (f : Str → V → V) {m : VMap V} (h : m.Sorted) : VMap.Sorted (m.map (fun e => (e.1, f e.1 e.2))) := by
  unfold VMap.Sorted
  rw [List.pairwise_map]
  exact h

omit [FloorRing K] [IsStrictOrderedRing K] in
theorem mv_of {S : Shift K} {s s' : St K} (h : Elsewhere S s s') (i : Inv s) (i' : Inv s') :
    s' = mvS S.by' s := by
  obtain ⟨⟨a1, a2, a3, a4, a5, a6, a7, a8, a9, a10, a11, a12⟩, b1, b2, b3, b4, b5⟩ := h
  have e1 : s'.prev = mv S.by' s.prev := by
    refine VMap.ext i'.prev (sorted_mv (fun k x => x + S.by' k) i.prev) ?_
    intro k
    rw [i'.sync, a1, ← i.sync]
    exact (get_mv _ _ _).symm
  have e2 : s'.range = mvR S.by' s.range := by
    refine VMap.ext i'.range (sorted_mv (fun k x => mvr (S.by' k) x) i.range) ?_
    intro k
    have h1 := a1 k
    have h2 := a2 k
    refine Eq.trans ?_ (get_mvR _ _ _).symm
    unfold pos at h1
    unfold bounds at h2
    cases hx : s.range.get k with
    | none =>
      rw [hx] at h1
      cases hy : s'.range.get k with
      | none => rfl
      | some r => rw [hy] at h1; cases h1
    | some r =>
      rw [hx] at h1 h2
      cases hy : s'.range.get k with
      | none => rw [hy] at h1; cases h1
      | some r' =>
        rw [hy] at h1 h2
        obtain ⟨l, u, m⟩ := r
        obtain ⟨l', u', m'⟩ := r'
        simp only [Option.map_some, Option.some.injEq, Prod.mk.injEq] at h1 h2
        obtain ⟨rfl, rfl⟩ := h2
        subst h1
        rfl
  obtain ⟨pa, ti, prev, tp, tt, range, f, sp, g, pl, ret, incr, css, pr, hx, tool, ar⟩ := s'
  simp only at a3 a4 a5 a6 a7 a8 a9 a10 a11 a12 b1 b2 b3 b4 b5 e1 e2
  subst a3 a4 a5 a6 a7 a8 a9 a10 a11 a12 b1 b2 b3 b4 b5 e1 e2
  rfl

end
end NC.Mvd

namespace NC.Props
open NC NC.Path NC.Ver NC.AttrPath NC.Spec.Sim NC.Mvd
open NC.Spec.Similar (threeAxes)
open NC.Spec.Moved (Shift Blocks Told Program Level cycles)

section
variable {K : Type} [Field K] [LinearOrder K] [IsStrictOrderedRing K] [FloorRing K] {S : Shift K}

omit [FloorRing K] [IsStrictOrderedRing K] in
theorem known_of {s : St K} (i : Inv s) (h : Placed s) : Known s.range := by
  intro a ha hn
  refine h a ha ?_
  rw [i.sync]
  unfold pos
  rw [hn]
  rfl

/-- **C117, a block.** The block of the part at its other place is accepted or refused as the block itself is, with the same
message, the same lengths, times and totals and the same variables; every position and every bound is moved with the part.  This
holds for straight moves, arcs, helices, spirals, cycles, dwells, tool exchanges and returns to the base point, on mills and
lathes.  (`_partial`: helices end off the origin and are not given in G91, and cycles are not moved in depth; see the
violations below.) -/
theorem C117_block_partial (F : Fns K) {c : Cfg K} (hc : AxesOk c) (inch : Inch) (line : Int) {b b' : Block} {s s' : St K}
    (m : MacroMap ℚ) (hb : Blocks S (incremental b s.incr) b b') (hl : Level S [(line, b)] s.g (s.plane = .xy)) (i : Inv s) (i' : Inv s') (hp : Placed s)
    (h : Elsewhere S s s') :
    let c' : Cfg K := { c with base := shifted S c.base, exchange := shifted S c.exchange }
    let x := evaluate F c inch line b (s, m)
    let x' := evaluate F c' inch line b' (s', m)
    x'.2 = x.2 ∧ x'.1.2 = x.1.2 ∧ Elsewhere S x.1.1 x'.1.1 := by
  intro c' x x'
  have e := mv_of h i i'
  have hf : Flat S.by' b s := by
    rcases hl with ⟨h1, h2⟩ | ⟨h1, h2, h3⟩
    · exact Or.inl ⟨h1 _ List.mem_cons_self, h2⟩
    · exact Or.inr ⟨h1, h2 _ List.mem_cons_self, h3⟩
  have := evaluate_mv F hc inch line (s, m) hb hf (known_of i hp)
  have hx : x' = ((mvS S.by' x.1.1, x.1.2), x.2) := by
    show evaluate F c' inch line b' (s', m) = _
    rw [e]
    exact this
  rw [hx]
  exact ⟨rfl, rfl, elsewhere_mv S _⟩

theorem program_mv (F : Fns K) {c : Cfg K} (hw : WF c) (hc : AxesOk c) (inch : Inch) {incr : Bool} {q q' : Prog}
    (hq : Program S incr q q') (s : St K) (m : MacroMap ℚ) (hi : s.incr = incr) (i : Inv s) (hp : Placed s)
    (hl : Level S q s.g (s.plane = .xy)) :
    Sml.run F (mvC S.by' c) inch q' (mvS S.by' s, m) =
      ((mvS S.by' (Sml.run F c inch q (s, m)).1.1, (Sml.run F c inch q (s, m)).1.2), (Sml.run F c inch q (s, m)).2) := by
  induction hq generalizing s m with
  | nil => rfl
  | @cons incr line b b' q q' hb hT hq ih =>
    subst hi
    have hf : Flat S.by' b s := by
      rcases hl with ⟨h1, h2⟩ | ⟨h1, h2, h3⟩
      · exact Or.inl ⟨h1 _ List.mem_cons_self, h2⟩
      · exact Or.inr ⟨h1, h2 _ List.mem_cons_self, h3⟩
    have he := evaluate_mv F hc inch line (s, m) hb hf (known_of i hp)
    dsimp only at he
    unfold Sml.run
    dsimp only
    rw [he]
    dsimp only
    cases ho : (evaluate F c inch line b (s, m)).2 with
    | throw e => rfl
    | ub => rfl
    | ok u =>
      dsimp only
      have hm := evaluate_modes hc (inch := inch) (line := line) (p := (s, m)) i hT ho
      have i2 := evaluate_inv F hw inch line b (s, m) i
      have p2 := evaluate_placed F c inch line b (s, m) i hp
      refine ih (evaluate F c inch line b (s, m)).1.1 (evaluate F c inch line b (s, m)).1.2 hm.1 i2 p2 ?_
      rcases hl with ⟨h1, h2⟩ | ⟨h1, h2, h3⟩
      · exact Or.inl ⟨fun x hx => h1 x (List.mem_cons_of_mem _ hx), hm.2.1 (h1 _ List.mem_cons_self) h2⟩
      · exact Or.inr ⟨h1, fun x hx => h2 x (List.mem_cons_of_mem _ hx), hm.2.2 (h2 _ List.mem_cons_self) h3⟩

/-- **C117, a program.** The program of the part at its other place stops at the same block with the same message or not at all, and in
the end everything but the positions is the same; they are moved with the part.  Prefixes show the same for every block in
between.  (`_partial` as for a block.) -/
theorem C117_program_partial (F : Fns K) {c : Cfg K} (hw : WF c) (hc : AxesOk c) (inch : Inch) {q q' : Prog} {s s' : St K}
    (m : MacroMap ℚ) (hq : Program S s.incr q q') (hl : Level S q s.g (s.plane = .xy)) (i : Inv s) (i' : Inv s')
    (hp : Placed s) (h : Elsewhere S s s') :
    let c' : Cfg K := { c with base := shifted S c.base, exchange := shifted S c.exchange }
    let x := Sml.run F c inch q (s, m)
    let x' := Sml.run F c' inch q' (s', m)
    x'.2 = x.2 ∧ x'.1.2 = x.1.2 ∧ Elsewhere S x.1.1 x'.1.1 := by
  intro c' x x'
  have e := mv_of h i i'
  have hx : x' = ((mvS S.by' x.1.1, x.1.2), x.2) := by
    show Sml.run F c' inch q' (s', m) = _
    rw [e]
    exact program_mv F hw hc inch hq s m rfl i hp hl
  rw [hx]
  exact ⟨rfl, rfl, elsewhere_mv S _⟩

/-- **C117, from the start.** The same for the whole simulation, on the machine whose points are moved with the part: it
stops at the same block with the same message or not at all, the lengths, times and totals of the tools are the same, and the
positions and their bounds are moved.  (`_partial` as for a block.) -/
theorem C117_start_partial (F : Fns K) {c : Cfg K} (hw : WF c) (hc : AxesOk c) (hx : ∀ a ∈ threeAxes, c.base.get a ≠ none) (inch : Inch)
    {q q' : Prog} (m : MacroMap ℚ) (hq : Program S c.incr q q') (hl : Level S q c.motion (c.plane = .xy)) :
    let c' : Cfg K := { c with base := shifted S c.base, exchange := shifted S c.exchange }
    let x := Sml.run F c inch q (initial c, m)
    let x' := Sml.run F c' inch q' (initial c', m)
    x'.2 = x.2 ∧ x'.1.2 = x.1.2 ∧ SeenAt S x.1.1 x'.1.1 := by
  intro c' x x'
  have e : initial c' = mvS S.by' (initial c) := initial_mv S.only hw.base
  have hx' : x' = ((mvS S.by' x.1.1, x.1.2), x.2) := by
    show Sml.run F c' inch q' (initial c', m) = _
    rw [e]
    exact program_mv F hw hc inch hq (initial c) m rfl (initial_inv hw) (initial_placed hw hx) hl
  rw [hx']
  exact ⟨rfl, rfl, (elsewhere_mv S _).seen⟩

end

section
open NC.SimDemo

/-- 100 to the right and 50 to the back. -/
def aside : Shift ℚ where
  by' a := if a = c!"X" then 100 else if a = c!"Y" then 50 else 0
  only := by
    intro a ha
    rw [if_neg, if_neg]
    · rintro rfl; revert ha; decide
    · rintro rfl; revert ha; decide

/-- A part: a straight move, a quarter of a circle, a hole and another one at a distance. -/
def partAt : Prog :=
  [(1, [w c!"G" c!"1", w c!"X" c!"10", w c!"F" c!"100"]),
   (2, [w c!"G" c!"3", w c!"X" c!"20", w c!"Y" c!"10", w c!"I" c!"0", w c!"J" c!"10"]),
   (3, [w c!"G" c!"81", w c!"X" c!"5", w c!"Y" c!"5", wn c!"Z" c!"5", w c!"R" c!"2"]),
   (4, [w c!"G" c!"91", w c!"X" c!"30"])]

/-- The same part aside. -/
def partAside : Prog :=
  [(1, [w c!"G" c!"1", w c!"X" c!"110", w c!"F" c!"100"]),
   (2, [w c!"G" c!"3", w c!"X" c!"120", w c!"Y" c!"60", w c!"I" c!"0", w c!"J" c!"10"]),
   (3, [w c!"G" c!"81", w c!"X" c!"105", w c!"Y" c!"55", wn c!"Z" c!"5", w c!"R" c!"2"]),
   (4, [w c!"G" c!"91", w c!"X" c!"30"])]

/-- Words that are not moved. -/
theorem same_word {incr : Bool} {a v : Str} (h : a ∉ threeAxes) : Spec.Moved.Word aside incr (w a v) (w a v) :=
  .same _ (by rintro ⟨d, h1, h2, _⟩; cases h1; exact h h2)

theorem moved_word {incr : Bool} {a v v' : Str} (x : ℚ) (h : a ∈ threeAxes) (h1 : Spec.Sim.value { word := a, value := some v : Dec } = some x)
    (h2 : Spec.Sim.value { word := a, value := some v' : Dec } = some (if incr then x else x + aside.by' a)) :
    Spec.Moved.Word aside incr (w a v) (w a v') := .axis _ _ x h rfl h1 h2

/-- The hypotheses hold for the part. -/
example : Program aside mill.incr partAt partAside ∧ Level aside partAt mill.motion (mill.plane = .xy) := by
  refine ⟨?_, Or.inr ⟨by decide +kernel, by decide +kernel, rfl⟩⟩
  have noDwell : ∀ b : Block, ((words b).all fun d => !(d.word == c!"G" && code d == some 4)) = true → ¬ Spec.Moved.Dwell b := by
    rintro b hb ⟨d, h1, h2, h3⟩
    have := List.all_eq_true.mp hb d h1
    rw [h2, h3] at this
    revert this; decide
  refine .cons ⟨?_, fun h => absurd h (noDwell _ (by decide)), fun h => absurd (h.1 c!"Z" (by decide)) (by decide)⟩ (by unfold Told; decide +kernel)
    (.cons ⟨?_, fun h => absurd h (noDwell _ (by decide)), fun h => absurd (h.1 c!"Z" (by decide)) (by decide)⟩ (by unfold Told; decide +kernel)
    (.cons ⟨?_, fun h => absurd h (noDwell _ (by decide)), fun _ => ⟨by decide, by unfold Spec.Moved.OffOrigin; decide +kernel, by unfold Spec.Moved.OffOrigin; decide +kernel⟩⟩ (by unfold Told; decide +kernel)
    (.cons ⟨?_, fun h => absurd h (noDwell _ (by decide)), fun h => absurd (h.1 c!"Z" (by decide)) (by decide)⟩ (by unfold Told; decide +kernel) (.nil _))))
  · exact .cons (same_word (by decide)) (.cons (moved_word 10 (by decide) (by decide +kernel) (by decide +kernel)) (.cons (same_word (by decide)) .nil))
  · exact .cons (same_word (by decide)) (.cons (moved_word 20 (by decide) (by decide +kernel) (by decide +kernel))
      (.cons (moved_word 10 (by decide) (by decide +kernel) (by decide +kernel)) (.cons (same_word (by decide)) (.cons (same_word (by decide)) .nil))))
  · exact .cons (same_word (by decide)) (.cons (moved_word 5 (by decide) (by decide +kernel) (by decide +kernel))
      (.cons (moved_word 5 (by decide) (by decide +kernel) (by decide +kernel))
      (.cons (.axis _ _ (-5) (by decide) rfl (by decide +kernel) (by decide +kernel)) (.cons (same_word (by decide)) .nil))))
  · exact .cons (same_word (by decide)) (.cons (moved_word 30 (by decide) (by decide +kernel) (by decide +kernel)) .nil)

/-- And it is simulated without error. -/
example : (Sml.run qf mill false partAt (initial mill, [])).2 = .ok () := by decide +kernel

/-- The path of the last block of a program. -/
def lastPath (q : List Block) : Fl ℚ × Fl ℚ := ((SimDemo.run mill q (start mill)).1.path.work, (SimDemo.run mill q (start mill)).1.path.fast)

/-- **C117 is violated by a helix that ends at the origin.** From X16 Y16 to X0 Y0 it is half of a turn; from X26 Y16 to X10 Y0 it is
a quarter (AttributesPathCalculator.cpp:933). -/
theorem C117_violated_origin :
    lastPath [[w c!"G" c!"0", w c!"X" c!"16", w c!"Y" c!"16", w c!"Z" c!"0"],
      [w c!"G" c!"2", w c!"X" c!"0", w c!"Y" c!"0", wn c!"Z" c!"3", w c!"R" c!"16", w c!"F" c!"100"]] ≠
    lastPath [[w c!"G" c!"0", w c!"X" c!"26", w c!"Y" c!"16", w c!"Z" c!"0"],
      [w c!"G" c!"2", w c!"X" c!"10", w c!"Y" c!"0", wn c!"Z" c!"3", w c!"R" c!"16", w c!"F" c!"100"]] := by
  decide +kernel

/-- **C117 is violated by a helix in G91.** The same distances from X16 Y16 are a whole turn, since they are compared with the
coordinates, and from X26 Y16 a quarter. -/
theorem C117_violated_distances :
    lastPath [[w c!"G" c!"0", w c!"X" c!"16", w c!"Y" c!"16", w c!"Z" c!"0"],
      [w c!"G" c!"91", w c!"G" c!"2", w c!"X" c!"16", w c!"Y" c!"16", wn c!"Z" c!"3", w c!"R" c!"16", w c!"F" c!"100"]] ≠
    lastPath [[w c!"G" c!"0", w c!"X" c!"26", w c!"Y" c!"16", w c!"Z" c!"0"],
      [w c!"G" c!"91", w c!"G" c!"2", w c!"X" c!"16", w c!"Y" c!"16", wn c!"Z" c!"3", w c!"R" c!"16", w c!"F" c!"100"]] := by
  decide +kernel

/-- **C117 is violated by the depth of cycles.** A hole from Z10 over R-2 to Z-5 has 23 of rapid moves; 20 higher, from Z30 over R18 to
Z15, it has 27 (PathCalculator.cpp:407-509). -/
theorem C117_violated_depth :
    lastPath [[w c!"G" c!"0", w c!"X" c!"0", w c!"Y" c!"0", w c!"Z" c!"10"],
      [w c!"G" c!"81", w c!"X" c!"0", w c!"Y" c!"0", wn c!"Z" c!"5", wn c!"R" c!"2", w c!"F" c!"100"]] = (some 3, some 23) ∧
    lastPath [[w c!"G" c!"0", w c!"X" c!"0", w c!"Y" c!"0", w c!"Z" c!"30"],
      [w c!"G" c!"81", w c!"X" c!"0", w c!"Y" c!"0", w c!"Z" c!"15", w c!"R" c!"18", w c!"F" c!"100"]] = (some 3, some 27) := by
  decide +kernel

end
end NC.Props
