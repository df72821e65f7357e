import Verif.SimSimilar
import Verif.SimDemo
import Verif.Effect
import Verif.RotatorProofs
import Verif.PipeDemo
import Verif.Props.SimCases
import Mathlib.Analysis.SpecialFunctions.Sqrt

/-!
# C101, C102: programs of similar parts

Turned, mirrored, moved and scaled programs, and programs in other units.
-/

namespace NC.Sml
open NC NC.Path NC.Ver NC.AttrPath NC.Spec.Sim NC.Spec.Similar NC.Props

section
variable {K : Type} [Field K] [LinearOrder K] [IsStrictOrderedRing K] [FloorRing K] {T : Similarity K}

/-- The blocks of a program up to the first that fails. -/
def run (F : Fns K) (c : Cfg K) (inch : Inch) : Prog → St K × MacroMap ℚ → (St K × MacroMap ℚ) × Out Exc Unit
  | [], p => (p, .ok ())
  | x :: t, p =>
    match (evaluate F c inch x.1 x.2 p).2 with
    | .ok () => run F c inch t (evaluate F c inch x.1 x.2 p).1
    | o => ((evaluate F c inch x.1 x.2 p).1, o)

/-- What is seen of the simulation of the similar part: its positions, the lengths of the last motion and of all
of them, and the times. -/
structure Seen (T : Similarity K) (s s' : St K) : Prop where
  places : ∀ a ∈ threeAxes, pos s' (T.onto a) = (pos s a).map (T.coordinate a)
  work : s'.path.work = T.length s.path.work
  fast : s'.path.fast = T.length s.path.fast
  total : s'.path.total = T.length s.path.total
  tool : s'.path.toolTotal = T.length s.path.toolTotal
  time : s'.time = s.time

/-- The modal values of the similar part: the feed is scaled, the plane may be another, the rest is the same. -/
structure Modes (T : Similarity K) (s s' : St K) : Prop where
  feed : (s.f < 0 ∧ s'.f < 0) ∨ (0 ≤ s.f ∧ s'.f = T.scale * s.f)
  speed : s'.s = s.s
  motion : s'.g = s.g
  ret : s'.ret = s.ret
  incr : s'.incr = s.incr
  css : s'.css = s.css
  perRev : s'.perRev = s.perRev
  helix : s'.helix = s.helix
  tool : s'.tool = s.tool
  toolIds : s'.path.toolId = s.path.toolId
  cycle : s'.path.cycle = (T.length s.path.cycle.1, T.length s.path.cycle.2)
  holes : s'.path.holes = s.path.holes
  times : s'.tTime = s.tTime
  autoRapid : s'.autoRapid = s.autoRapid

/-- Everything the simulation knows, of both parts; no arc or cycle is in force and the positions are known. -/
structure Matching (T : Similarity K) (s s' : St K) : Prop where
  seen : Seen T s s'
  modes : Modes T s s'
  known : ∀ a ∈ threeAxes, (pos s a).isSome = true
  straight : s.g ∈ ([-1, 0, 1, 80] : List Int)

theorem rel_of {s s' : St K} (h : Matching T s s') (i : Inv s) (i' : Inv s') : Rel T s s' := by
  obtain ⟨⟨a1, a2, a3, a4, a5, a6⟩, ⟨b1, b2, b3, b4, b5, b6, b7, b8, b9, b10, b11, b12, b13, b14⟩, h3, h4⟩ := h
  refine ⟨?_, ?_, b1, ?_, h4⟩
  · obtain ⟨pa, ti, prev, tp, tt, range, f, sp, g, pl, ret, incr, css, pr, hx, tool, ar⟩ := s'
    obtain ⟨q1, q2, q3, q4, q5, q6, q7⟩ := pa
    simp only at a2 a3 a4 a5 a6 b2 b3 b4 b5 b6 b7 b8 b9 b10 b11 b12 b13 b14
    subst a2 a3 a4 a5 a6 b2 b3 b4 b5 b6 b7 b8 b9 b10 b11 b12 b13 b14
    rfl
  · intro a ha
    rw [i'.sync, i.sync]
    exact a1 a ha
  · intro a ha
    rw [i.sync]
    exact h3 a ha

theorem alike_of {s s' : St K} (h : Rel T s s') (i : Inv s) (i' : Inv s') : Matching T s s' := by
  have e := h.eq
  refine ⟨⟨?_, ?_, ?_, ?_, ?_, ?_⟩, ⟨h.feed, ?_, ?_, ?_, ?_, ?_, ?_, ?_, ?_, ?_, ?_, ?_, ?_, ?_⟩, ?_, h.g⟩
  · intro a ha
    rw [← i'.sync, ← i.sync]
    exact h.places a ha
  all_goals first
    | (rw [e]; rfl)
    | (intro a ha; rw [← i.sync]; exact h.known a ha)

end
end NC.Sml

namespace NC.Props
open NC NC.Path NC.Ver NC.AttrPath NC.Spec.Sim NC.Spec.Similar NC.Sml

section
variable {K : Type} [Field K] [LinearOrder K] [IsStrictOrderedRing K] [FloorRing K] {T : Similarity K}

/-- **C101, a block.** A straight block of the similar part, on a machine with the scaled rapid feed, is accepted or
refused as the block itself is, and the states afterwards are again those of similar parts: the positions are the
images, the lengths are scaled and the times are the same.  (`_partial`: no arcs, cycles, tool exchanges and lathes.) -/
theorem C101_block_partial {F : Fns K} (hF : ∀ x, 0 ≤ x → F.sqrt (T.scale ^ 2 * x) = T.scale * F.sqrt x) {c : Cfg K} (hw : WF c)
    (hc : AxesOk c) (hm : c.mtype = .other) {base exch : VMap K} (hb : base.Sorted) (he : exch.Sorted) (inch inch' : Inch)
    (line line' : Int) {b b' : Block} {p p' : St K × MacroMap ℚ} (hs : Straight b)
    (hbb : List.Forall₂ (Word T (incremental b p.1.incr)) b b') (i : Inv p.1) (i' : Inv p'.1) (h : Matching T p.1 p'.1) :
    let c' : Cfg K := { c with maxFast := T.scale * c.maxFast, base := base, exchange := exch }
    (evaluate F c' inch' line' b' p').2 = (evaluate F c inch line b p).2 ∧
      Matching T (evaluate F c inch line b p).1.1 (evaluate F c' inch' line' b' p').1.1 := by
  intro c'
  have hw' : WF c' := ⟨hb, he, hw.motion⟩
  obtain ⟨h1, h2⟩ := evaluate_rel (base := base) (exch := exch) hF hc hm inch inch' line line' hbb hs (rel_of h i i') i.sync i'.sync
  exact ⟨h1, alike_of h2 (evaluate_inv F hw inch line b p i) (evaluate_inv F hw' inch' line' b' p' i')⟩

omit [IsStrictOrderedRing K] [FloorRing K] in
theorem linear_goes (F : Fns K) (c : Cfg K) (v : Vis K) (cur : Cur K) (s : St K) : (AttrPath.linear F c v cur s).2 ≠ .ok false := by
  unfold AttrPath.linear
  split
  · unfold linearAbs
    split
    · simp
    · simp
    · simp
    · split <;> simp
  · unfold linearIncr
    split
    · simp
    · split
      · simp
      · split <;> simp

omit [IsStrictOrderedRing K] in
/-- The distance mode after a straight block that does not fail. -/
theorem evaluate_incremental {F : Fns K} {c : Cfg K} (hc : AxesOk c) {inch : Inch} {line : Int} {b : Block} (hs : Straight b)
    {p : St K × MacroMap ℚ} (hg : p.1.g ∈ ([-1, 0, 1, 80] : List Int)) (h : (evaluate F c inch line b p).2 = .ok ()) :
    (evaluate F c inch line b p).1.1.incr = incremental b p.1.incr := by
  have he := evaluate_eval F c inch line b p
  rw [h] at he
  have hin : ∀ v, visitAll c {} b = .ok v → v.incr.getD p.1.incr = incremental b p.1.incr := by
    intro v hv
    unfold incremental
    rw [visitAll_incr hc hv]
  generalize (evaluate F c inch line b p).1.1 = s' at *
  generalize ho : (Out.ok () : Out Exc Unit) = o at *
  cases he with
  | empty hb => subst hb; rfl
  | unread e h => cases ho
  | unreadUb h => cases ho
  | alone v t hv ht ha hn =>
    rw [← hin v hv]
    have e : v.incr = none := by
      unfold tWithG at hn
      cases hq : v.incr with
      | none => rfl
      | some x => rw [hq] at hn; revert hn; cases v.g <;> cases v.plane <;> cases v.ret <;> (intro h; cases h)
    rw [e]
    obtain ⟨x, hx⟩ := begun_addTime c v p.1
    rw [hx]
    show (copySt _ _ _ (fetchTool c _)).incr = p.1.incr
    unfold copySt fetchTool exchangeTimes
    dsimp only
    split_ifs <;> rfl
  | aloneErr v t n => cases ho
  | badTool v t e => cases ho
  | badToolUb v t => cases ho
  | before v hv ht ha hb2 hn hg2 hvg =>
    rw [← hin v hv]
    obtain ⟨x, hx⟩ := begun_addTime c v p.1
    obtain ⟨y, hy⟩ := dwell_fields v (begun c v p.1)
    rw [hy, hx]
    rfl
  | halt v S M o hb hv ht hS hn hm hno =>
    exfalso
    have hr := ready_fields c v p.1
    rw [← hS] at hr
    dsimp only at hr
    have hof : o = .ok false := by
      cases o with
      | ok x => cases x with
        | false => rfl
        | true => exact absurd rfl hno
      | throw e => cases ho
      | ub => cases ho
    subst hof
    have hvg : v.g = none ∨ ∃ n ∈ ([0, 1, 80] : List Int), v.g = some n := by
      have e' : v.g = (groupCodes 1 b).getLast? := visitAll_group hc hv 1 (by decide)
      cases hl : (groupCodes 1 b).getLast? with
      | none => left; rw [e', hl]
      | some n => right; exact ⟨n, hs n (List.mem_of_getLast? hl), by rw [e', hl]⟩
    have hcg : (current v S).g = 0 ∨ (current v S).g = 1 ∨ (current v S).g = 80 := by
      show v.g.getD S.g = 0 ∨ v.g.getD S.g = 1 ∨ v.g.getD S.g = 80
      rcases hvg with hvg | ⟨n, hn', hvg⟩
      · rw [hvg]
        show S.g = 0 ∨ S.g = 1 ∨ S.g = 80
        rcases hr.2.1 with h | h
        · simp only [List.mem_cons, List.not_mem_nil, or_false] at hg
          rcases hg with h2 | h2
          · exfalso
            cases ha : atTool c v with
            | false => exact hn ⟨ha, by rw [h, h2]⟩ hvg
            | true =>
              have : S.g = 0 := by
                rw [hS]
                unfold started
                split
                · rfl
                · rw [ha]; rfl
              rw [this] at h
              rw [← h] at h2
              cases h2
          · rw [h]; exact h2
        · left; exact h
      · rw [hvg]
        simpa using hn'
    unfold motion at hm
    rcases hcg with h | h | h
    · rw [if_pos (Or.inl h)] at hm
      exact linear_goes F c v (current v S) S (by rw [hm])
    · rw [if_pos (Or.inr h)] at hm
      exact linear_goes F c v (current v S) S (by rw [hm])
    · rw [if_neg (by rw [h]; decide), if_neg (by rw [h]; decide), if_pos h] at hm
      cases hm
  | done v S M s2 o hb hv ht hS hn hm ha =>
    rw [← hin v hv]
    have hr := ready_fields c v p.1
    rw [← hS] at hr
    dsimp only at hr
    have hcur : (current v S).incr = v.incr.getD p.1.incr := by
      show v.incr.getD S.incr = _
      rw [hr.2.2.1]
    rw [← hcur]
    rw [account_eq] at ha
    cases hck : checks c (current v S) (counted F c inch (current v S) M) with
    | throw e => rw [hck] at ha; cases ha; cases ho
    | ub => rw [hck] at ha; cases ha; cases ho
    | ok u =>
      rw [hck] at ha; cases ha
      unfold savePositions
      split
      · rfl
      · split <;> rfl

/-- **C101, a program.** The program of a similar part is simulated with similar results: it fails at the same block
with the same error or not at all, and in the end the positions are the images, the lengths are scaled and the times
are the same.  Prefixes of the programs show the same for every block in between.  (`_partial`: no arcs, cycles,
tool exchanges and lathes.) -/
theorem C101_program_partial {F : Fns K} (hF : ∀ x, 0 ≤ x → F.sqrt (T.scale ^ 2 * x) = T.scale * F.sqrt x) {c : Cfg K} (hw : WF c)
    (hc : AxesOk c) (hm : c.mtype = .other) {base exch : VMap K} (hb : base.Sorted) (he : exch.Sorted) (inch inch' : Inch)
    {p p' : St K × MacroMap ℚ} {q q' : Prog} (hq : Program T p.1.incr q q') (i : Inv p.1) (i' : Inv p'.1) (h : Matching T p.1 p'.1) :
    let c' : Cfg K := { c with maxFast := T.scale * c.maxFast, base := base, exchange := exch }
    (Sml.run F c' inch' q' p').2 = (Sml.run F c inch q p).2 ∧
      Matching T (Sml.run F c inch q p).1.1 (Sml.run F c' inch' q' p').1.1 := by
  intro c'
  have hw' : WF c' := ⟨hb, he, hw.motion⟩
  generalize hin : p.1.incr = incr at hq
  induction hq generalizing p p' with
  | nil => exact ⟨rfl, h⟩
  | @cons incr line line' b b' q q' hs hbb hq ih =>
    subst hin
    obtain ⟨h1, h2⟩ := C101_block_partial hF hw hc hm hb he inch inch' line line' hs hbb i i' h
    have j := evaluate_inv F hw inch line b p i
    have j' := evaluate_inv F hw' inch' line' b' p' i'
    unfold Sml.run
    dsimp only
    rw [h1]
    cases ho : (evaluate F c inch line b p).2 with
    | ok u => exact ih j j' h2 (evaluate_incremental hc hs h.straight ho)
    | throw e => exact ⟨rfl, h2⟩
    | ub => exact ⟨rfl, h2⟩

/-- **C101, from the start.** The same for the whole simulation, if the base points are those of the similar parts. -/
theorem C101_start_partial {F : Fns K} (hF : ∀ x, 0 ≤ x → F.sqrt (T.scale ^ 2 * x) = T.scale * F.sqrt x) {c : Cfg K} (hw : WF c)
    (hc : AxesOk c) (hm : c.mtype = .other) (hg : c.motion ∈ ([-1, 0, 1] : List Int)) {base exch : VMap K} (hb : base.Sorted)
    (he : exch.Sorted) (hx : ∀ a ∈ threeAxes, ∃ x, c.base.get a = some x ∧ base.get (T.onto a) = some (T.coordinate a x))
    (inch inch' : Inch) (m m' : MacroMap ℚ) {q q' : Prog} (hq : Program T c.incr q q') :
    let c' : Cfg K := { c with maxFast := T.scale * c.maxFast, base := base, exchange := exch }
    (Sml.run F c' inch' q' (initial c', m')).2 = (Sml.run F c inch q (initial c, m)).2 ∧
      Seen T (Sml.run F c inch q (initial c, m)).1.1 (Sml.run F c' inch' q' (initial c', m')).1.1 := by
  intro c'
  have hw' : WF c' := ⟨hb, he, hw.motion⟩
  have i : Inv (initial c) := initial_inv hw
  have i' : Inv (initial c') := initial_inv hw'
  have hgg : c.motion ∈ ([-1, 0, 1, 80] : List Int) := by
    simp only [List.mem_cons, List.not_mem_nil, or_false] at hg ⊢
    tauto
  have val : ∀ (bm : VMap K), bm.Sorted → ∀ a ∈ threeAxes, ∀ x, bm.get a = some x →
      (copyBack c.motion c.incr [] bm (([] : VMap K), ([] : VMap (Rng K)))).1.get a = some x := by
    intro bm hbm a ha x hx
    rw [copyBack_prev _ _ _ hbm, hx, skipped_calm hgg (fun t ht => by cases ht) ha]
    show some (newValue c.incr a x none) = some x
    unfold newValue
    cases movesIncr c.incr a <;> rfl
  have hpos : ∀ a ∈ threeAxes, ∃ x, pos (initial c) a = some x ∧ pos (initial c') (T.onto a) = some (T.coordinate a x) := by
    intro a ha
    obtain ⟨x, h1, h2⟩ := hx a ha
    refine ⟨x, ?_, ?_⟩
    · rw [← i.sync]
      exact val c.base hw.base a ha x h1
    · rw [← i'.sync]
      exact val base hb (T.onto a) (onto_mem T ha) _ h2
  have hst : Matching T (initial c) (initial c') := by
    have z : T.length (some 0) = some 0 := length_zero
    refine ⟨⟨?_, z.symm, z.symm, z.symm, z.symm, rfl⟩,
      ⟨Or.inl ⟨by show (-1 : K) < 0; norm_num, by show (-1 : K) < 0; norm_num⟩, rfl, rfl, rfl, rfl, rfl, rfl, rfl, rfl, rfl, ?_, rfl, rfl, rfl⟩, ?_, hgg⟩
    · intro a ha
      obtain ⟨x, h1, h2⟩ := hpos a ha
      rw [h1, h2]; rfl
    · show ((some 0, some 0) : Fl K × Fl K) = (T.length (some 0), T.length (some 0))
      rw [z]
    · intro a ha
      obtain ⟨x, h1, _⟩ := hpos a ha
      rw [h1]; rfl
  have := C101_program_partial (p := (initial c, m)) (p' := (initial c', m')) hF hw hc hm hb he inch inch' hq i i' hst
  exact ⟨this.1, this.2.seen⟩

end

/-! ## Programs turned by the tool -/

section
open NC.Rotator NC.Spec.Rotate NC.Gram

/-- A quarter, half or three quarter turn about an axis. -/
def turned (o : Opt) : Similarity ℚ where
  onto w := (tw o w).1
  back w := (tw o w).2
  shift _ := 0
  scale := 1
  axes := by cases o <;> decide
  positive := one_pos

/-- A word as written in a straight program: coordinates, centres and feeds have a number, there is no tool exchange,
no special code and no arc. -/
def Straightly (d : Dec) : Prop :=
  Shape d ∧ (d.word ∈ ([c!"X", c!"Y", c!"Z", c!"I", c!"J", c!"K", c!"F"] : List Str) → ¬ Spec.Survive.Bare d) ∧ d.word ≠ c!"T" ∧
    isM6 d = false ∧ (d.word = c!"G" → (∀ n, code d = some n → n ∉ special) ∧ d.value ≠ some c!"2" ∧ d.value ≠ some c!"3")

theorem number_amount {d : Dec} (h : Shape d) (hb : ¬ Spec.Survive.Bare d) : Spec.Sim.number d = some (Spec.Variables.amount d) := by
  have ht : d.sign.toList ++ d.value.getD [] ++ d.dot.toList ++ d.value2.getD [] = AttrPath.valText d := by
    unfold AttrPath.valText
    cases d.sign <;> cases d.value <;> cases d.dot <;> cases d.value2 <;> rfl
  have hv : d.value.isSome = true ∨ d.dot.isSome = true := by
    cases h1 : d.value with
    | some v => left; rfl
    | none =>
      right
      cases h2 : d.value2 with
      | none => exact absurd ⟨h1, h2⟩ hb
      | some v => rw [(h.value2 v h2).2.2]; rfl
  unfold Spec.Sim.number
  rw [if_pos hv, ht, ← Pipe.plainText_eq h, Pipe.stod_amount h hb]

theorem rate_amount {d : Dec} (h : Shape d) (hb : ¬ Spec.Survive.Bare d) : rateOf d = some (Spec.Variables.amount { d with sign := none }) := by
  have h0 : Shape { d with sign := none } := ⟨h.assign, fun c hc => (by cases hc), h.openB, h.mac, h.value, h.dot, h.value2, h.closeB⟩
  have := number_amount h0 hb
  unfold Spec.Sim.number at this
  unfold rateOf
  have ht : d.value.getD [] ++ (if d.dot.isSome then d.dot.toList ++ d.value2.getD [] else []) =
      ([] : Str) ++ d.value.getD [] ++ d.dot.toList ++ d.value2.getD [] := by
    cases hd : d.dot with
    | some c => simp
    | none =>
      cases h2 : d.value2 with
      | none => simp
      | some v =>
        have := (h.value2 v h2).2.2
        rw [hd] at this
        cases this
  rw [ht]
  exact this

theorem amount_unsigned (d : Dec) : 0 ≤ Spec.Variables.amount { d with sign := none } := by
  unfold Spec.Variables.amount
  dsimp only
  rw [if_neg (by simp)]
  positivity

theorem amount_turned (d : Dec) (w : Str) (n : Bool) :
    Spec.Variables.amount { d with word := w, sign := if n then flipSign d.sign else d.sign } = if n then -Spec.Variables.amount d else Spec.Variables.amount d := by
  unfold Spec.Variables.amount flipSign
  cases n <;> by_cases hs : d.sign = some '-' <;> simp [hs]

theorem shape_turned {d : Dec} (h : Shape d) (w : Str) (n : Bool) : Shape { d with word := w, sign := if n then flipSign d.sign else d.sign } := by
  refine ⟨h.assign, ?_, h.openB, h.mac, h.value, h.dot, h.value2, h.closeB⟩
  intro c hc
  unfold flipSign at hc
  dsimp only at hc
  cases n with
  | false => exact h.sign c hc
  | true =>
    simp only [if_true] at hc
    split at hc
    · cases hc
    · cases hc; left; rfl

theorem turn_word (o : Opt) (incr : Bool) {d : Dec} (h : Straightly d) :
    Word (turned o) incr (.dec d) (.dec (visitDec (table o) d)) := by
  obtain ⟨hs, hn, hT, h6, hG⟩ := h
  have coords : ∀ u ∈ threeAxes, u ∈ coordWords := by decide
  by_cases hx : d.word ∈ threeAxes
  · have hne : ∀ u ∈ threeAxes, u ≠ c!"P" := by decide
    have hb := hn (by
      have : ∀ u ∈ threeAxes, u ∈ ([c!"X", c!"Y", c!"Z", c!"I", c!"J", c!"K", c!"F"] : List Str) := by decide
      exact this _ hx)
    have hval : ∀ e : Dec, e.word ≠ c!"P" → Shape e → ¬ Spec.Survive.Bare e → Spec.Sim.value (K := ℚ) e = some (Spec.Variables.amount e) := by
      intro e h1 h2 h3
      unfold Spec.Sim.value
      rw [number_amount h2 h3]
      show some (if e.word = c!"P" ∧ e.dot = none then _ else _) = _
      rw [if_neg (fun h => h1 h.1)]
      rfl
    rw [visitDec_coord o (coords _ hx)]
    refine Word.axis d _ (Spec.Variables.amount d) hx rfl (hval d (hne _ hx) hs hb) ?_
    have hx' : (tw o d.word).1 ∈ threeAxes := onto_mem (turned o) hx
    rw [hval _ (hne _ hx') (shape_turned hs _ _) hb, amount_turned]
    unfold Similarity.coordinate Similarity.distance
    show some (if (tw o d.word).2 = true then _ else _) = some (if incr = true then 1 * (if (tw o d.word).2 = true then _ else _) else
      1 * (if (tw o d.word).2 = true then _ else _) + 0)
    rw [one_mul, add_zero]
    cases incr <;> rfl
  · by_cases hi : d.word ∈ ([c!"I", c!"J", c!"K"] : List Str)
    · have sub : ∀ u ∈ ([c!"I", c!"J", c!"K"] : List Str), u ∈ coordWords ∧
          u ∈ ([c!"X", c!"Y", c!"Z", c!"I", c!"J", c!"K", c!"F"] : List Str) ∧ (tw o u).1 ∈ ([c!"I", c!"J", c!"K"] : List Str) := by
        cases o <;> decide
      obtain ⟨s1, s2, s3⟩ := sub _ hi
      have hb := hn s2
      rw [visitDec_coord o s1]
      refine Word.centre d _ hi s3 ?_ ?_
      · rw [number_amount hs hb]; simp
      · rw [number_amount (shape_turned hs _ _) hb]; simp
    · have hc : d.word ∉ coordWords := by
        simp only [threeAxes, coordWords, List.mem_cons, List.not_mem_nil, or_false, not_or] at hx hi ⊢
        tauto
      by_cases hF : d.word = c!"F"
      · rw [visitDec_other o hc (by rw [hF]; decide)]
        have hb := hn (by rw [hF]; decide)
        exact Word.feed d d _ _ hF hF (rate_amount hs hb) (amount_unsigned d) (rate_amount hs hb) (one_mul _).symm
      · have stays : Word (turned o) incr (.dec d) (.dec d) := by
          refine Word.stays d ⟨hx, hT, hF, h6, fun hg => ⟨(hG hg).1, ?_⟩⟩
          cases hd : d.dot with
          | none => left; rfl
          | some c => right; rw [hs.dot c hd]
        by_cases hg : d.word = c!"G"
        · unfold visitDec
          rw [if_neg hc, if_pos hg]
          cases hv : d.value with
          | none => exact stays
          | some v =>
            dsimp only
            by_cases hm : v ∈ [c!"17", c!"18", c!"19", c!"2", c!"3"]
            · rw [if_pos hm]
              have h2 := (hG hg).2
              rw [hv] at h2
              have hm' : v ∈ [c!"17", c!"18", c!"19"] := by
                simp only [List.mem_cons, List.not_mem_nil, or_false] at hm ⊢
                rcases hm with h | h | h | h | h
                · exact Or.inl h
                · exact Or.inr (Or.inl h)
                · exact Or.inr (Or.inr h)
                · exact absurd (by rw [h]) h2.1
                · exact absurd (by rw [h]) h2.2
              have key : ∀ u ∈ [c!"17", c!"18", c!"19"], ∃ e, (table o).find? (fun e => e.1 == (c!"G", u)) = some e ∧
                  ∃ n ∈ ([17, 18, 19] : List Int), ∃ n' ∈ ([17, 18, 19] : List Int), stoi u = .ok n ∧ stoi (intStr e.2.2) = .ok n' := by
                cases o <;> decide +kernel
              obtain ⟨e, he, n, hn1, n', hn2, e1, e2⟩ := key v hm'
              rw [he]
              refine Word.plane d _ n n' hg hg ?_ ?_ hn1 hn2
              · unfold code; rw [hv]; dsimp only; rw [e1]
              · unfold code; dsimp only; rw [e2]
            · rw [if_neg hm]
              exact stays
        · rw [visitDec_other o hc hg]
          exact stays

theorem turn_program (o : Opt) {q : Prog} (hs : ∀ x ∈ q, Straight x.2) (ht : ∀ x ∈ q, ∀ d, Attr.dec d ∈ x.2 → Straightly d) (incr : Bool) :
    Program (turned o) incr q (q.map (fun x => (x.1, rotate o x.2))) := by
  induction q generalizing incr with
  | nil => exact Program.nil incr
  | cons x q ih =>
    obtain ⟨line, b⟩ := x
    refine Program.cons (hs _ List.mem_cons_self) ?_ (ih (fun y hy => hs y (List.mem_cons_of_mem _ hy)) (fun y hy => ht y (List.mem_cons_of_mem _ hy)) _)
    have h := ht _ List.mem_cons_self
    generalize incremental b incr = i
    unfold rotate
    clear ih hs ht
    dsimp only at h
    induction b with
    | nil => exact List.Forall₂.nil
    | cons a b ih =>
      refine List.Forall₂.cons ?_ (ih (fun d hd => h d (List.mem_cons_of_mem _ hd)))
      cases a with
      | dec d => exact turn_word o i (h d List.mem_cons_self)
      | str w v => exact Word.str w v
      | chr w v => exact Word.chr w v

/-- The point the machine is at. -/
def place3 (s : St ℚ) : Pt := ⟨pos s c!"X", pos s c!"Y", pos s c!"Z"⟩

/-- **C101, the tool's own turns.** A straight program that the tool has turned by RotateAxes runs on a machine that
starts in the origin exactly like the original: it fails at the same block or not at all, takes the same time, goes the
same way, and ends in the point turned by the same quarters.  (`_partial`: no arcs, cycles, tool exchanges and
lathes.) -/
theorem C101_turned_partial (o : Opt) (F : Fns ℚ) {c : Cfg ℚ} (hw : WF c) (hc : AxesOk c) (hm : c.mtype = .other)
    (hg : c.motion ∈ ([-1, 0, 1] : List Int)) (h0 : ∀ a ∈ threeAxes, c.base.get a = some 0) (inch : Inch) (m : MacroMap ℚ) {q : Prog}
    (hs : ∀ x ∈ q, Straight x.2) (ht : ∀ x ∈ q, ∀ d, Attr.dec d ∈ x.2 → Straightly d) :
    let r := Sml.run F c inch q (initial c, m)
    let r' := Sml.run F c inch (q.map (fun x => (x.1, rotate o x.2))) (initial c, m)
    r'.2 = r.2 ∧ place3 r'.1.1 = (quarter (axisOf o))^[turns o] (place3 r.1.1) ∧ r'.1.1.time = r.1.1.time ∧
      r'.1.1.path.total = r.1.1.path.total ∧ r'.1.1.path.work = r.1.1.path.work ∧ r'.1.1.path.fast = r.1.1.path.fast := by
  intro r r'
  have hz : ∀ a x, (turned o).coordinate a x = if (tw o a).2 then -x else x := by
    intro a x
    show 1 * (if (tw o a).2 = true then -x else x) + 0 = _
    rw [one_mul, add_zero]
  have hl : ∀ x : Option ℚ, (turned o).length x = x := by
    intro x
    unfold Similarity.length
    cases x with
    | none => rfl
    | some y => exact congrArg some (one_mul y)
  have key := C101_start_partial (T := turned o) (F := F) (by intro x _; show F.sqrt (1 ^ 2 * x) = 1 * F.sqrt x; simp) hw hc hm hg
    (base := c.base) (exch := c.exchange) hw.base hw.exchange (by
      intro a ha
      refine ⟨0, h0 a ha, ?_⟩
      rw [h0 _ (onto_mem (turned o) ha), hz]
      simp) inch inch m m (turn_program o hs ht c.incr)
  have hcc : ({ c with maxFast := (turned o).scale * c.maxFast, base := c.base, exchange := c.exchange } : Cfg ℚ) = c := by
    show ({ c with maxFast := 1 * c.maxFast, base := c.base, exchange := c.exchange } : Cfg ℚ) = c
    rw [one_mul]
  dsimp only at key
  rw [hcc] at key
  obtain ⟨k1, k2⟩ := key
  refine ⟨k1, ?_, k2.time, ?_, ?_, ?_⟩
  · have hX := k2.places c!"X" (by decide)
    have hY := k2.places c!"Y" (by decide)
    have hZ := k2.places c!"Z" (by decide)
    have nn : ∀ c : Option ℚ, neg (neg c) = c := by intro c; cases c <;> simp [neg]
    have conv : ∀ a, (pos r.1.1 a).map ((turned o).coordinate a) = if (tw o a).2 then neg (pos r.1.1 a) else pos r.1.1 a := by
      intro a
      have : (turned o).coordinate a = fun x => if (tw o a).2 then -x else x := funext (hz a)
      rw [this]
      unfold neg
      cases (tw o a).2 <;> simp
    have hX := hX.trans (conv _)
    have hY := hY.trans (conv _)
    have hZ := hZ.trans (conv _)
    unfold place3
    clear conv k2 hl hcc k1 hz
    cases o <;>
    · simp only [turned, tw, table, List.find?] at hX hY hZ
      simp at hX hY hZ
      simp only [axisOf, turns, Function.iterate_succ, Function.iterate_zero, Function.comp, id, quarter, nn]
      first
        | exact Pt.mk.injEq .. ▸ ⟨hX, hY, hZ⟩
        | exact Pt.mk.injEq .. ▸ ⟨hX, hZ, hY⟩
        | exact Pt.mk.injEq .. ▸ ⟨hZ, hY, hX⟩
        | exact Pt.mk.injEq .. ▸ ⟨hY, hX, hZ⟩
  · rw [← hl r.1.1.path.total]; exact k2.total
  · rw [← hl r.1.1.path.work]; exact k2.work
  · rw [← hl r.1.1.path.fast]; exact k2.fast

end

/-! ## Examples for C101 -/

section
open NC.SimDemo NC.Rotator NC.Spec.Rotate NC.Gram

/-- A word with a fraction. -/
def wd (a v f : Str) : Attr := .dec { word := a, value := some v, dot := some '.', value2 := some f }

/-- Any scale will do with the real root. -/
example (T : Similarity ℝ) : ∀ x, 0 ≤ x → Real.sqrt (T.scale ^ 2 * x) = T.scale * Real.sqrt x := by
  intro x hx
  rw [Real.sqrt_mul (sq_nonneg _), Real.sqrt_sq T.positive.le]

/-- X and Y exchanged, Y mirrored, 5 / 2 times as large, Z raised by 4. -/
def bigger : Similarity ℚ where
  onto w := if w = c!"X" then c!"Y" else if w = c!"Y" then c!"X" else w
  back w := decide (w = c!"Y")
  shift w := if w = c!"Z" then 4 else 0
  scale := 5 / 2
  axes := by decide
  positive := by norm_num

/-- A small part. -/
def small : Prog := [(1, [w c!"G" c!"1", w c!"X" c!"6", w c!"Y" c!"8", w c!"F" c!"100"]), (2, [w c!"G" c!"91", w c!"Z" c!"2"])]

/-- The same part, larger and turned over. -/
def large : Prog := [(7, [w c!"G" c!"1", w c!"Y" c!"15", wn c!"X" c!"20", w c!"F" c!"250"]), (8, [w c!"G" c!"91", w c!"Z" c!"5"])]

theorem stays_w {a v : Str} (h1 : a ∉ threeAxes) (h2 : a ≠ c!"T") (h3 : a ≠ c!"F") (h4 : isM6 { word := a, value := some v } = false)
    (h5 : ∀ n, code { word := a, value := some v } = some n → n ∉ special) (incr : Bool) (T : Similarity ℚ) :
    Word T incr (w a v) (w a v) := Word.stays _ ⟨h1, h2, h3, h4, fun _ => ⟨h5, Or.inl rfl⟩⟩

theorem small_large : Program bigger false small large := by
  have g1 : ∀ i, Word bigger i (w c!"G" c!"1") (w c!"G" c!"1") := fun i => by
    refine stays_w (by decide) (by decide) (by decide) (by decide) ?_ i _
    intro n hn
    have : code { word := c!"G", value := some c!"1" } = some 1 := by decide
    rw [this] at hn; cases hn; decide
  have g91 : ∀ i, Word bigger i (w c!"G" c!"91") (w c!"G" c!"91") := fun i => by
    refine stays_w (by decide) (by decide) (by decide) (by decide) ?_ i _
    intro n hn
    have : code { word := c!"G", value := some c!"91" } = some 91 := by decide
    rw [this] at hn; cases hn; decide
  have i1 : incremental [w c!"G" c!"1", w c!"X" c!"6", w c!"Y" c!"8", w c!"F" c!"100"] false = false := by decide
  refine Program.cons (by unfold Straight; decide) ?_ ?_
  · rw [i1]
    refine List.Forall₂.cons (g1 _) (List.Forall₂.cons ?_ (List.Forall₂.cons ?_ (List.Forall₂.cons ?_ List.Forall₂.nil)))
    · exact Word.axis _ _ 6 (by decide) (by decide) (by decide +kernel) (by decide +kernel)
    · exact Word.axis _ _ 8 (by decide) (by decide) (by decide +kernel) (by decide +kernel)
    · exact Word.feed _ _ 100 250 (by decide) (by decide) (by decide +kernel) (by decide) (by decide +kernel) (by decide +kernel)
  · rw [i1]
    have i2 : incremental [w c!"G" c!"91", w c!"Z" c!"2"] false = true := by decide
    refine Program.cons (by unfold Straight; decide) ?_ (Program.nil _)
    rw [i2]
    refine List.Forall₂.cons (g91 _) (List.Forall₂.cons ?_ List.Forall₂.nil)
    exact Word.axis _ _ 2 (by decide) (by decide) (by decide +kernel) (by decide +kernel)

/-- The hypotheses of the theorems: the small part starts in (0, 0, 10) and the large one in (0, 0, 29); the small part
takes 7.2 seconds, and so does the large one. -/
example : Program bigger mill.incr small large ∧ WF mill ∧ AxesOk mill ∧ mill.mtype = .other ∧ mill.motion ∈ ([-1, 0, 1] : List Int) ∧
    (∀ a ∈ threeAxes, ∃ x, mill.base.get a = some x ∧
      VMap.get [(c!"X", 0), (c!"Y", 0), (c!"Z", 29)] (bigger.onto a) = some (bigger.coordinate a x)) := by
  refine ⟨small_large, mill_wf, mill_axes, rfl, by decide, ?_⟩
  intro a ha
  simp only [threeAxes, List.mem_cons, List.not_mem_nil, or_false] at ha
  rcases ha with rfl | rfl | rfl
  · exact ⟨0, by decide +kernel, by decide +kernel⟩
  · exact ⟨0, by decide +kernel, by decide +kernel⟩
  · exact ⟨10, by decide +kernel, by decide +kernel⟩

/-- What comes out: 12 long and 30 long, in the same time. -/
example : let c' := { SimDemo.mill with maxFast := 1500, base := [(c!"X", 0), (c!"Y", 0), (c!"Z", 29)] }
    (Sml.run qf mill false small (initial mill, [])).1.1.path.total = some 12 ∧
    (Sml.run qf c' false large (initial c', [])).1.1.path.total = some 30 ∧
    (Sml.run qf mill false small (initial mill, [])).1.1.time.total = some (36 / 5) ∧
    (Sml.run qf c' false large (initial c', [])).1.1.time.total = some (36 / 5) := by decide +kernel

/-- The mill with its base point in the origin. -/
def zeroed : Cfg ℚ := { SimDemo.mill with base := [(c!"X", 0), (c!"Y", 0), (c!"Z", 0)] }

theorem straightly_w {a v : Str} (h1 : v ≠ [] ∧ ∀ c ∈ v, isDig c = true) (h2 : a ≠ c!"T") (h3 : isM6 { word := a, value := some v } = false)
    (h4 : a = c!"G" → (∀ n, code { word := a, value := some v } = some n → n ∉ special) ∧ v ≠ c!"2" ∧ v ≠ c!"3") :
    Straightly { word := a, value := some v } := by
  refine ⟨⟨fun c hc => (by cases hc), fun c hc => (by cases hc), fun c hc => (by cases hc), fun c hc => (by cases hc), ?_, fun c hc => (by cases hc),
    fun c hc => (by cases hc), fun c hc => (by cases hc)⟩, ?_, h2, h3, fun hg => ⟨(h4 hg).1, ?_, ?_⟩⟩
  · intro u hu; cases hu; exact h1
  · intro _ hb; cases hb.1
  · intro h; cases h; exact (h4 hg).2.1 rfl
  · intro h; cases h; exact (h4 hg).2.2 rfl

/-- The small part may be turned. -/
example : WF zeroed ∧ AxesOk zeroed ∧ (∀ a ∈ threeAxes, zeroed.base.get a = some 0) ∧ (∀ x ∈ small, Straight x.2) ∧
    ∀ x ∈ small, ∀ d, Attr.dec d ∈ x.2 → Straightly d := by
  refine ⟨⟨by unfold VMap.Sorted; decide, by unfold VMap.Sorted; decide, by decide⟩, by unfold AxesOk; decide, by decide +kernel,
    by unfold Straight; decide, ?_⟩
  intro x hx d hd
  simp only [small, List.mem_cons, List.not_mem_nil, or_false] at hx
  have g1 : code { word := c!"G", value := some c!"1" } = some 1 := by decide
  have g91 : code { word := c!"G", value := some c!"91" } = some 91 := by decide
  rcases hx with rfl | rfl
  · simp only [w, List.mem_cons, List.not_mem_nil, or_false, Attr.dec.injEq] at hd
    rcases hd with rfl | rfl | rfl | rfl
    · refine straightly_w (by decide) (by decide) (by decide) (fun _ => ⟨?_, by decide, by decide⟩)
      intro n hn; rw [g1] at hn; cases hn; decide
    all_goals exact straightly_w (by decide) (by decide) (by decide) (fun h => absurd h (by decide))
  · simp only [w, List.mem_cons, List.not_mem_nil, or_false, Attr.dec.injEq] at hd
    rcases hd with rfl | rfl
    · refine straightly_w (by decide) (by decide) (by decide) (fun _ => ⟨?_, by decide, by decide⟩)
      intro n hn; rw [g91] at hn; cases hn; decide
    · exact straightly_w (by decide) (by decide) (by decide) (fun h => absurd h (by decide))

end

/-! ## C102 -/

section
variable {K : Type} [Field K] [LinearOrder K] [IsStrictOrderedRing K] [FloorRing K]

/-- Millimetres to inches. -/
def inches : Similarity K where
  onto := id
  back _ := false
  shift _ := 0
  scale := 5 / 127
  axes := by decide
  positive := by norm_num

/-- **C102.** A straight program in inches, with G20 for G21, on a machine whose rapid feed and base point are also given
in inches, takes the time of the program in millimetres, goes the same way and ends in the same place.  (`_partial`:
the settings are never converted by the code, see the violations; no arcs, cycles, tool exchanges and lathes.) -/
theorem C102_settings_partial {F : Fns K} (hF : ∀ x, 0 ≤ x → F.sqrt ((5 / 127) ^ 2 * x) = 5 / 127 * F.sqrt x) {c : Cfg K} (hw : WF c)
    (hc : AxesOk c) (hm : c.mtype = .other) (hg : c.motion ∈ ([-1, 0, 1] : List Int)) {base exch : VMap K} (hb : base.Sorted)
    (he : exch.Sorted) (hx : ∀ a ∈ threeAxes, ∃ x, c.base.get a = some x ∧ base.get a = some (5 / 127 * x)) (m m' : MacroMap ℚ)
    {q q' : Prog} (hq : Program (inches (K := K)) c.incr q q') :
    let c' : Cfg K := { c with maxFast := 5 / 127 * c.maxFast, base := base, exchange := exch }
    let r := Sml.run F c false q (initial c, m)
    let r' := Sml.run F c' true q' (initial c', m')
    r'.2 = r.2 ∧ r'.1.1.time = r.1.1.time ∧ r'.1.1.path.total = r.1.1.path.total.map (5 / 127 * ·) ∧
      ∀ a ∈ threeAxes, pos r'.1.1 a = (pos r.1.1 a).map (5 / 127 * ·) := by
  intro c' r r'
  have hz : ∀ a, (inches (K := K)).coordinate a = fun x => 5 / 127 * x := by
    intro a
    funext x
    show 5 / 127 * (if false = true then -x else x) + 0 = 5 / 127 * x
    simp
  obtain ⟨k1, k2⟩ := C101_start_partial (T := inches (K := K)) hF hw hc hm hg hb he (by
    intro a ha
    obtain ⟨x, h1, h2⟩ := hx a ha
    refine ⟨x, h1, ?_⟩
    rw [hz]
    exact h2) false true m m' hq
  refine ⟨k1, k2.time, k2.total, ?_⟩
  intro a ha
  have := k2.places a ha
  rw [hz] at this
  exact this

end

section
open NC.SimDemo NC.Pipe

/-- The same program in millimetres and in inches. -/
example : Program (inches (K := ℚ)) false [(1, [w c!"G" c!"21", w c!"X" c!"127", w c!"F" c!"254"])]
    [(1, [w c!"G" c!"20", w c!"X" c!"5", w c!"F" c!"10"])] := by
  have i1 : incremental [w c!"G" c!"21", w c!"X" c!"127", w c!"F" c!"254"] false = false := by decide
  refine Program.cons (by unfold Straight; decide) ?_ (Program.nil _)
  rw [i1]
  refine List.Forall₂.cons ?_ (List.Forall₂.cons ?_ (List.Forall₂.cons ?_ List.Forall₂.nil))
  · exact Word.units _ _ 21 20 (by decide) (by decide) (by decide) (by decide) rfl rfl (by decide) (by decide)
  · exact Word.axis _ _ 127 (by decide) (by decide) (by decide +kernel) (by decide +kernel)
  · exact Word.feed _ _ 254 10 (by decide) (by decide) (by decide +kernel) (by decide) (by decide +kernel) (by decide +kernel)

/-- **C102 is violated by the time of rapid moves.** At 600 mm a minute, 254 mm take 25.4 seconds and ten inches one: the rapid feed is
taken as it is written in the settings (AttributesPathCalculator.cpp:1330-1331). -/
theorem C102_violated_time :
    (Sml.run qf mill false [(1, [w c!"G" c!"21", w c!"G" c!"0", w c!"X" c!"254"])] (initial mill, [])).1.1.time.total = some (127 / 5) ∧
    (Sml.run qf mill true [(1, [w c!"G" c!"20", w c!"G" c!"0", w c!"X" c!"10"])] (initial mill, [])).1.1.time.total = some 1 := by
  decide +kernel

/-- **C102 is violated by a change of units.** After X254 in millimetres, X10 in inches is the same point; the
simulation counts a way of 244. -/
theorem C102_violated_change :
    let p := Sml.run qf mill false [(1, [w c!"G" c!"21", w c!"G" c!"0", w c!"X" c!"254"])] (initial mill, [])
    (evaluate qf mill true 2 [w c!"G" c!"20", w c!"X" c!"10"] p.1).1.1.path.fast = some 244 := by
  decide +kernel

/-- The demonstration machine with 500 mm in X. -/
def narrow : Setup := { demo with limits := { demo.limits with axes := [(c!"X", (-500, 500))] } }

/-- **C102 is violated by the travel limits.** 508 mm are refused and 20 inches, the same, are accepted. -/
theorem C102_violated_limit :
    (parse narrow serverOptions 1 c!"G21G0X508." (fresh narrow)).2 =
      .ok (false, some (Gram.outText (Message.makeMessage .ValueOutOfRange narrow.lang [c!"X", c!"508.000000", c!"-500.000000", c!"500.000000"]))) ∧
    (parse narrow serverOptions 1 c!"G20G0X20." (fresh narrow)).2 = .ok (true, none) := by
  decide +kernel

end

end NC.Props
