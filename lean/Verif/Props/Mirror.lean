import Verif.SimMirrorRun
import Verif.SimDemo
import Verif.Props.Moved
import Verif.Props.Pieces

/-!
# C123: a mirrored part
-/

namespace NC.Mir
open NC NC.Path NC.Ver NC.AttrPath NC.Spec.Sim NC.Props NC.Mvd
open NC.Spec.Mirror (Flip)

section
variable {K : Type} [Field K] [LinearOrder K] [IsStrictOrderedRing K] [FloorRing K]

/-- What is seen of the simulation of the mirrored part: the positions along the mirrored axes change sign, the least coordinate
becomes the greatest; the lengths, the times, the totals of all tools and the modes are the same, G2 and G3 exchanged. -/
structure SeenIn (f : Flip) (s s' : St K) : Prop where
  places : ∀ a, pos s' a = (pos s a).map (f.onto a)
  reach : ∀ a, bounds s' a = (bounds s a).map (fun x => if f.flips a then (-x.2, -x.1) else x)
  path : s'.path = s.path
  time : s'.time = s.time
  toolPaths : s'.tPath = s.tPath
  toolTimes : s'.tTime = s.tTime
  feed : s'.f = s.f
  speed : s'.s = s.s
  motion : s'.g = f.motion s.g
  plane : s'.plane = s.plane
  incr : s'.incr = s.incr
  tool : s'.tool = s.tool

/-- The points of a machine mirrored with the part. -/
def reflected (f : Flip) (m : VMap K) : VMap K := m.map (fun e => (e.1, f.onto e.1 e.2))

/-- Everything the simulation knows, of the part and of the mirrored part. -/
structure Opposite (f : Flip) (s s' : St K) : Prop where
  seen : SeenIn f s s'
  modes : s'.ret = s.ret ∧ s'.css = s.css ∧ s'.perRev = s.perRev ∧ s'.helix = s.helix ∧ s'.autoRapid = s.autoRapid

omit [FloorRing K] [IsStrictOrderedRing K] in
theorem opposite_mv (f : Flip) (s : St K) : Opposite f s (mvS f s) := by
  have hr : ∀ a, (mvS f s).range.get a = (s.range.get a).map (mvr f a) := fun a => get_mvR _ _ a
  refine ⟨⟨?_, ?_, rfl, rfl, rfl, rfl, rfl, rfl, rfl, rfl, rfl, rfl⟩, rfl, rfl, rfl, rfl, rfl⟩
  · intro a
    unfold pos
    rw [hr]
    cases s.range.get a with
    | none => rfl
    | some r =>
      unfold mvr Flip.onto
      cases f.flips a <;> rfl
  · intro a
    unfold bounds
    rw [hr]
    cases s.range.get a with
    | none => rfl
    | some r =>
      unfold mvr
      cases f.flips a <;> rfl

omit [FloorRing K] [IsStrictOrderedRing K] in
theorem mv_of {f : Flip} {s s' : St K} (h : Opposite f s s') (i : Inv s) (i' : Inv s') : s' = mvS f s := by
  obtain ⟨⟨a1, a2, a3, a4, a5, a6, a7, a8, a9, a10, a11, a12⟩, b1, b2, b3, b4, b5⟩ := h
  have e1 : s'.prev = mv f s.prev := by
    refine VMap.ext i'.prev (sorted_mv (fun k x => f.onto k x) i.prev) ?_
    intro k
    rw [i'.sync, a1, ← i.sync]
    exact (get_mv _ _ _).symm
  have e2 : s'.range = mvR f s.range := by
    refine VMap.ext i'.range (sorted_mv (fun k x => mvr f k x) i.range) ?_
    intro k
    have h1 := a1 k
    have h2 := a2 k
    refine Eq.trans ?_ (get_mvR _ _ _).symm
    unfold pos at h1
    unfold bounds at h2
    cases hx : s.range.get k with
    | none =>
      rw [hx] at h1
      cases hy : s'.range.get k with
      | none => rfl
      | some r => rw [hy] at h1; cases h1
    | some r =>
      rw [hx] at h1 h2
      cases hy : s'.range.get k with
      | none => rw [hy] at h1; cases h1
      | some r' =>
        rw [hy] at h1 h2
        obtain ⟨l, u, m⟩ := r
        obtain ⟨l', u', m'⟩ := r'
        unfold Flip.onto at h1
        unfold mvr
        simp only [Option.map_some, Option.some.injEq] at h1 h2 ⊢
        cases hf : f.flips k with
        | true =>
          rw [hf, if_pos rfl] at h1 h2
          simp only [Prod.mk.injEq] at h2
          obtain ⟨rfl, rfl⟩ := h2
          subst h1
          rfl
        | false =>
          rw [hf, if_neg (by decide)] at h1 h2
          simp only [Prod.mk.injEq] at h2
          obtain ⟨rfl, rfl⟩ := h2
          subst h1
          rfl
  obtain ⟨pa, ti, prev, tp, tt, range, f', sp, g, pl, ret, incr, css, pr, hx, tool, ar⟩ := s'
  simp only at a3 a4 a5 a6 a7 a8 a9 a10 a11 a12 b1 b2 b3 b4 b5 e1 e2
  subst a3 a4 a5 a6 a7 a8 a9 a10 a11 a12 b1 b2 b3 b4 b5 e1 e2
  rfl

/-- The same verdict: both are accepted, both are refused or both crash. -/
def SameVerdict {α : Type} : Out Exc α → Out Exc α → Prop
  | .ok a, .ok b => a = b
  | .throw _, .throw _ => True
  | .ub, .ub => True
  | _, _ => False

omit [FloorRing K] [IsStrictOrderedRing K] [LinearOrder K] [Field K] in
theorem verdict_of {α : Type} {x y : Out Exc α} (h : soft y = soft x) : SameVerdict x y := by
  cases x <;> cases y <;> simp_all [soft, SameVerdict]

end
end NC.Mir

namespace NC.Props
open NC NC.Path NC.Ver NC.AttrPath NC.Spec.Sim NC.Mir
open NC.Spec.Mirror (Flip Blocks Program)

section
variable {K : Type} [Field K] [LinearOrder K] [IsStrictOrderedRing K] [FloorRing K]

/-- The bounds of an axis contain its position. -/
def Bounded (s : St K) : Prop := ∀ a r, s.range.get a = some r → r.lo ≤ r.cur ∧ r.cur ≤ r.hi

/-- **C123, a block.** The block of the mirrored part is accepted or refused as the block itself is, with the same lengths, times and
totals and the same variables; every position and every bound is mirrored.  This holds for straight moves, arcs by centre and by
radius, helices, spirals, cycles, dwells and tool exchanges in the plane G17, for every odd arctangent, mirrored
at one axis (G2 for G3) or at both. -/
theorem C123_block {F : Fns K} (hF : OddAtan F) {c : Cfg K} (hc : AxesOk c) (hcc : c.cancel2 = c.cancel3) (inch : Inch) (line : Int) {f : Flip}
    {b b' : Block} {s s' : St K} (m : MacroMap ℚ) (hb : Blocks K f b b') (hp : s.plane = .xy) (i : Inv s) (i' : Inv s') (hs : Bounded s)
    (h : Opposite f s s') :
    let c' : Cfg K := { c with base := reflected f c.base, exchange := reflected f c.exchange, motion := f.motion c.motion }
    let x := evaluate F c inch line b (s, m)
    let x' := evaluate F c' inch line b' (s', m)
    SameVerdict x.2 x'.2 ∧ x'.1.2 = x.1.2 ∧ Opposite f x.1.1 x'.1.1 := by
  intro c' x x'
  have e := Mir.mv_of h i i'
  obtain ⟨h1, h2, h3⟩ := Mir.evaluate_mv f hF hc hcc inch line (s, m) hb hs hp
  have hx : x' = evaluate F (mvC f c) inch line b' (mvS f s, m) := by
    show evaluate F c' inch line b' (s', m) = _
    rw [e]
    rfl
  rw [hx]
  refine ⟨verdict_of h3, h2, ?_⟩
  rw [h1]
  exact opposite_mv f _

theorem program_mirror {F : Fns K} (hF : OddAtan F) {c : Cfg K} (hw : WF c) (hc : AxesOk c) (hcc : c.cancel2 = c.cancel3) (inch : Inch)
    {f : Flip} {q q' : Prog} (hq : Program K f q q') (s : St K) (m : MacroMap ℚ) (hp : s.plane = .xy) (i : Inv s) (hs : Bounded s) :
    (Sml.run F (mvC f c) inch q' (mvS f s, m)).1.1 = mvS f (Sml.run F c inch q (s, m)).1.1 ∧
      (Sml.run F (mvC f c) inch q' (mvS f s, m)).1.2 = (Sml.run F c inch q (s, m)).1.2 ∧
      soft (Sml.run F (mvC f c) inch q' (mvS f s, m)).2 = soft (Sml.run F c inch q (s, m)).2 := by
  induction hq generalizing s m with
  | nil => exact ⟨rfl, rfl, rfl⟩
  | @cons x x' q q' hx _ ih =>
    obtain ⟨line, b⟩ := x
    obtain ⟨line', b'⟩ := x'
    obtain ⟨rfl, hb⟩ := hx
    dsimp only at hb
    obtain ⟨h1, h2, h3⟩ := Mir.evaluate_mv f hF hc hcc inch line' (s, m) hb hs hp
    dsimp only at h1 h2 h3
    unfold Sml.run
    dsimp only
    generalize hy : evaluate F (mvC f c) inch line' b' (mvS f s, m) = y at *
    generalize hz : evaluate F c inch line' b (s, m) = z at *
    obtain ⟨⟨y1, y2⟩, y3⟩ := y
    obtain ⟨⟨z1, z2⟩, z3⟩ := z
    dsimp only at h1 h2 h3 ⊢
    subst h1 h2
    cases z3 with
    | throw e => cases y3 <;> first | exact ⟨rfl, rfl, rfl⟩ | cases h3
    | ub => cases y3 <;> first | exact ⟨rfl, rfl, rfl⟩ | cases h3
    | ok u =>
      cases y3 with
      | throw e => cases h3
      | ub => cases h3
      | ok u' =>
        dsimp only
        have i2 := evaluate_inv F hw inch line' b (s, m) i
        have s2 := Pcs.evaluate_held F hw inch line' b (s, m) i hs
        have p2 := Mir.evaluate_plane F hc inch line' (b := b) (s, m) hb.plane hp (by rw [hz])
        rw [hz] at i2 s2 p2
        exact ih z1 y2 p2 i2 s2

/-- **C123, a program.** The program of the mirrored part stops at the same block or not at all, and in the end everything but the
positions along the mirrored axes is the same. Prefixes show the same for every block in between. -/
theorem C123_program {F : Fns K} (hF : OddAtan F) {c : Cfg K} (hw : WF c) (hc : AxesOk c) (hcc : c.cancel2 = c.cancel3) (inch : Inch) {f : Flip}
    {q q' : Prog} {s s' : St K} (m : MacroMap ℚ) (hq : Program K f q q') (hp : s.plane = .xy) (i : Inv s) (i' : Inv s') (hs : Bounded s)
    (h : Opposite f s s') :
    let c' : Cfg K := { c with base := reflected f c.base, exchange := reflected f c.exchange, motion := f.motion c.motion }
    let x := Sml.run F c inch q (s, m)
    let x' := Sml.run F c' inch q' (s', m)
    SameVerdict x.2 x'.2 ∧ x'.1.2 = x.1.2 ∧ Opposite f x.1.1 x'.1.1 := by
  intro c' x x'
  have e := Mir.mv_of h i i'
  obtain ⟨h1, h2, h3⟩ := program_mirror hF hw hc hcc inch hq s m hp i hs
  have hx : x' = Sml.run F (mvC f c) inch q' (mvS f s, m) := by
    show Sml.run F c' inch q' (s', m) = _
    rw [e]
    rfl
  rw [hx]
  refine ⟨verdict_of h3, h2, ?_⟩
  rw [h1]
  exact opposite_mv f _

end

/-- The arctangent is odd. -/
theorem odd_real : OddAtan realFns := fun x => Real.arctan_neg x

/-- **C123, from the start.** The same for the whole simulation with the true functions, on the machine whose points are mirrored with
the part and which starts in G17. -/
theorem C123_start {c : Cfg ℝ} (hw : WF c) (hc : AxesOk c) (hcc : c.cancel2 = c.cancel3) (hp : c.plane = .xy) (inch : Inch) {f : Flip} {q q' : Prog}
    (m : MacroMap ℚ) (hq : Program ℝ f q q') :
    let c' : Cfg ℝ := { c with base := reflected f c.base, exchange := reflected f c.exchange, motion := f.motion c.motion }
    let x := Sml.run realFns c inch q (initial c, m)
    let x' := Sml.run realFns c' inch q' (initial c', m)
    SameVerdict x.2 x'.2 ∧ x'.1.2 = x.1.2 ∧ SeenIn f x.1.1 x'.1.1 := by
  intro c' x x'
  have hi : Bounded (initial c) := by
    intro a r hr
    have k : (initial c).range.get a = _ := copyBack_range c.motion c.incr [] hw.base ([], []) a
    rw [k] at hr
    cases hq : c.base.get a with
    | none => rw [hq] at hr; cases hr
    | some x =>
      rw [hq] at hr
      dsimp only at hr
      split at hr
      · cases hr
      · cases hr
        exact ⟨le_refl _, le_refl _⟩
  obtain ⟨h1, h2, h3⟩ := program_mirror odd_real hw hc hcc inch hq (initial c) m hp (initial_inv hw) hi
  have hx : x' = Sml.run realFns (mvC f c) inch q' (mvS f (initial c), m) := by
    show Sml.run realFns c' inch q' (initial c', m) = _
    rw [← Mir.initial_mv f c]
    rfl
  rw [hx]
  refine ⟨verdict_of h3, h2, ?_⟩
  rw [h1]
  exact (opposite_mv f _).seen

section
open NC.SimDemo

/-- A part: a straight move, a quarter of a circle, one by its radius and a hole. -/
def leftPart : Prog :=
  [(1, [w c!"G" c!"1", w c!"X" c!"10", w c!"F" c!"100"]),
   (2, [w c!"G" c!"3", w c!"X" c!"20", w c!"Y" c!"10", w c!"I" c!"0", w c!"J" c!"10"]),
   (3, [w c!"G" c!"2", w c!"X" c!"30", w c!"Y" c!"20", w c!"R" c!"10"]),
   (4, [w c!"G" c!"81", w c!"X" c!"5", w c!"Y" c!"5", wn c!"Z" c!"5", w c!"R" c!"2"])]

/-- The same part for the other hand. -/
def rightPart : Prog :=
  [(1, [w c!"G" c!"1", wn c!"X" c!"10", w c!"F" c!"100"]),
   (2, [w c!"G" c!"2", wn c!"X" c!"20", w c!"Y" c!"10", w c!"I" c!"0", w c!"J" c!"10"]),
   (3, [w c!"G" c!"3", wn c!"X" c!"30", w c!"Y" c!"20", w c!"R" c!"10"]),
   (4, [w c!"G" c!"81", wn c!"X" c!"5", w c!"Y" c!"5", wn c!"Z" c!"5", w c!"R" c!"2"])]

/-- Words that are the same in the mirror. -/
theorem mirror_same {a v : Str} {s : Option Char} (h : Flip.flips ⟨true, false⟩ a = false) (h2 : a ≠ c!"G" ∨ (code { word := a, value := some v, sign := s : Dec } ≠ some 2 ∧ code { word := a, value := some v, sign := s : Dec } ≠ some 3)) :
    Spec.Mirror.Word ℚ ⟨true, false⟩ (.dec { word := a, value := some v, sign := s }) (.dec { word := a, value := some v, sign := s }) := by
  refine .same _ ?_ ?_
  · rintro d hd hf
    cases hd
    rw [h] at hf
    cases hf
  · rintro _ ⟨d, hd, hg, hn⟩
    cases hd
    rcases h2 with h2 | ⟨h2, h3⟩
    · exact h2 hg
    · rcases hn with hn | hn
      · exact h2 hn
      · exact h3 hn

theorem mirror_place {a v v' : Str} {s s' : Option Char} (x : ℚ) (h : Flip.flips ⟨true, false⟩ a = true)
    (h1 : Spec.Sim.value { word := a, value := some v, sign := s : Dec } = some x)
    (h2 : Spec.Sim.value { word := a, value := some v', sign := s' : Dec } = some (-x)) :
    Spec.Mirror.Word ℚ ⟨true, false⟩ (.dec { word := a, value := some v, sign := s }) (.dec { word := a, value := some v', sign := s' }) :=
  .place _ _ x h rfl h1 h2

/-- The hypotheses hold for the part. -/
example : Program ℚ ⟨true, false⟩ leftPart rightPart := by
  have noDwell : ∀ b : Block, ((words b).all fun d => !(d.word == c!"G" && code d == some 4)) = true → ¬ Spec.Moved.Dwell b := by
    rintro b hb ⟨d, h1, h2, h3⟩
    have := List.all_eq_true.mp hb d h1
    rw [h2, h3] at this
    revert this; decide
  refine .cons ⟨rfl, ?_, fun _ h => absurd h (noDwell _ (by decide)), by decide⟩
    (.cons ⟨rfl, ?_, fun _ h => absurd h (noDwell _ (by decide)), by decide⟩
    (.cons ⟨rfl, ?_, fun _ h => absurd h (noDwell _ (by decide)), by decide⟩
    (.cons ⟨rfl, ?_, fun _ h => absurd h (noDwell _ (by decide)), by decide⟩ .nil)))
  · exact .cons (mirror_same (by decide) (by decide)) (.cons (mirror_place 10 (by decide) (by decide +kernel) (by decide +kernel)) (.cons (mirror_same (by decide) (by decide)) .nil))
  · exact .cons (.arc _ _ 3 rfl rfl (by decide) (by decide) (by decide)) (.cons (mirror_place 20 (by decide) (by decide +kernel) (by decide +kernel))
      (.cons (mirror_same (by decide) (by decide)) (.cons (mirror_place 0 (by decide) (by decide +kernel) (by decide +kernel)) (.cons (mirror_same (by decide) (by decide)) .nil))))
  · exact .cons (.arc _ _ 2 rfl rfl (by decide) (by decide) (by decide)) (.cons (mirror_place 30 (by decide) (by decide +kernel) (by decide +kernel))
      (.cons (mirror_same (by decide) (by decide)) (.cons (mirror_same (by decide) (by decide)) .nil)))
  · exact .cons (mirror_same (by decide) (by decide)) (.cons (mirror_place 5 (by decide) (by decide +kernel) (by decide +kernel))
      (.cons (mirror_same (by decide) (by decide)) (.cons (mirror_same (by decide) (by decide)) (.cons (mirror_same (by decide) (by decide)) .nil))))

/-- The machine and the functions meet the rest, and the part is simulated without error. -/
example : OddAtan qf ∧ mill.cancel2 = mill.cancel3 ∧ mill.plane = .xy ∧ (Sml.run qf mill false leftPart (initial mill, [])).2 = .ok () :=
  ⟨fun _ => by simp [qf], rfl, rfl, by decide +kernel⟩

end
end NC.Props
