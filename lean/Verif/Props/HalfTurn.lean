import Verif.Props.Mirror
import Verif.Props.Sense
import Verif.Rotator
import Verif.Effect
import Verif.Spec.HalfTurn

/-!
# C135: a program turned by half a turn is simulated alike
-/

namespace NC.Props
open NC NC.Path NC.Ver NC.AttrPath NC.Gram NC.Rotator NC.Spec.Sim NC.Mir NC.Spec.HalfTurn NC.Spec.Variables
open NC.Spec.Mirror (Flip Blocks Program)

/-- Both axes of the table. -/
def both : Flip := ⟨true, true⟩

theorem both_flips (a : Str) : both.flips a = decide (a ∈ level) := by
  simp only [Flip.flips, both, level, Bool.true_and, List.mem_cons, List.not_mem_nil, or_false]
  by_cases h1 : a = c!"X" <;> by_cases h2 : a = c!"I" <;> by_cases h3 : a = c!"Y" <;> by_cases h4 : a = c!"J" <;> simp [h1, h2, h3, h4]

theorem both_turned : both.turned = false := rfl

/-- The table of half a turn about Z changes signs of the places in the plane and nothing else. -/
theorem halfTurn_dec (d : Dec) :
    visitDec (table .z180) d = if d.word ∈ level then { d with sign := flipSign d.sign } else d := by
  obtain ⟨w, asg, s, ob, mac, v, dot, v2, cb⟩ := d
  unfold visitDec
  by_cases h : w ∈ coordWords
  · simp only [coordWords, List.mem_cons, List.not_mem_nil, or_false] at h
    rcases h with rfl | rfl | rfl | rfl | rfl | rfl <;> rfl
  · have hl : w ∉ level := by
      intro hm
      apply h
      simp only [level, List.mem_cons, List.not_mem_nil, or_false] at hm
      rcases hm with rfl | rfl | rfl | rfl <;> decide
    simp only [h, hl, if_false]
    split
    · rename_i hw
      subst hw
      cases v with
      | none => rfl
      | some v =>
        dsimp only
        split
        · rename_i hv
          simp only [List.mem_cons, List.not_mem_nil, or_false] at hv
          rcases hv with rfl | rfl | rfl | rfl | rfl <;> rfl
        · rfl
    · rfl

theorem dec_of_words : ∀ {b : Block} {d : Dec}, d ∈ Spec.Sim.words b → Attr.dec d ∈ b
  | [], _, h => nomatch h
  | .str _ _ :: _, _, h => List.mem_cons_of_mem _ (dec_of_words h)
  | .chr _ _ :: _, _, h => List.mem_cons_of_mem _ (dec_of_words h)
  | .dec e :: t, d, h => by
    unfold Spec.Sim.words at h
    split at h
    · cases h
    · rcases List.mem_cons.mp h with rfl | h
      · exact List.mem_cons_self
      · exact List.mem_cons_of_mem _ (dec_of_words h)

theorem shape_flip {d : Dec} (h : Shape d) : Shape { d with sign := flipSign d.sign } := by
  refine ⟨h.assign, ?_, h.openB, h.mac, h.value, h.dot, h.value2, h.closeB⟩
  intro c hc
  unfold flipSign at hc
  split at hc
  · cases hc
  · cases hc; exact .inl rfl

theorem number_shape {d : Dec} (h : Shape d) (hb : ¬ Spec.Survive.Bare d) : number d = some (amount d) := by
  have e := Pipe.stod_amount h hb
  rw [Pipe.plainText_eq h] at e
  have hs : d.value.isSome ∨ d.dot.isSome := by
    cases hv : d.value with
    | some v => exact .inl rfl
    | none =>
      cases hv2 : d.value2 with
      | none => exact absurd ⟨hv, hv2⟩ hb
      | some v => rw [(h.value2 v hv2).2.2]; exact .inr rfl
  unfold number
  rw [if_pos hs]
  have e2 : d.sign.toList ++ d.value.getD [] ++ d.dot.toList ++ d.value2.getD [] = valText d := by
    unfold AttrPath.valText AttrPath.chrText AttrPath.strText
    cases d.sign <;> cases d.value <;> cases d.dot <;> cases d.value2 <;> rfl
  rw [e2, e]

theorem amount_flip (d : Dec) : amount { d with sign := flipSign d.sign } = - amount d := by
  unfold amount flipSign
  by_cases h : d.sign = some '-' <;> simp [h]

section
variable {K : Type} [Field K] [LinearOrder K] [IsStrictOrderedRing K] [FloorRing K]

omit [LinearOrder K] [IsStrictOrderedRing K] [FloorRing K] in
/-- The rotated block is the block of the part mirrored at both axes. -/
theorem halfTurn_blocks {b : Block} (h : Turnable b) : Blocks K both b (rotate .z180 b) := by
  refine ⟨?_, ?_, h.plane⟩
  · unfold rotate
    rw [List.forall₂_map_right_iff, List.forall₂_same]
    intro a ha
    cases a with
    | str w v => exact .same _ (by rintro d hd; cases hd) (by rw [both_turned]; intro q; cases q)
    | chr w v => exact .same _ (by rintro d hd; cases hd) (by rw [both_turned]; intro q; cases q)
    | dec d =>
      show Spec.Mirror.Word K both (.dec d) (.dec (visitDec (table .z180) d))
      rw [halfTurn_dec]
      by_cases hl : d.word ∈ level
      · rw [if_pos hl]
        have hb : ¬ Spec.Survive.Bare d := by
          rintro ⟨h1, h2⟩
          rcases h.given d ha hl with q | q
          · exact q h1
          · exact q h2
        have hw : d.word ≠ c!"P" := by
          intro q; rw [q] at hl; revert hl; decide
        refine .place d _ ((amount d : ℚ) : K) (by rw [both_flips]; simpa using hl) rfl ?_ ?_
        · unfold Spec.Sim.value
          rw [number_shape (h.shape d ha) hb]
          simp [hw]
        · unfold Spec.Sim.value
          rw [number_shape (shape_flip (h.shape d ha)) hb, amount_flip]
          simp [hw]
      · rw [if_neg hl]
        exact .same _ (by rintro d' hd hf; cases hd; rw [both_flips] at hf; exact absurd (by simpa using hf) hl)
          (by rw [both_turned]; intro q; cases q)
  · intro _ hd
    have hx := h.dwell hd
    unfold programmed
    have : (words b).filter (fun d => d.word = c!"X") = [] := by
      rw [List.filter_eq_nil_iff]
      intro d hdm hq
      refine hx d ?_ (by simpa using hq)
      exact dec_of_words hdm
    rw [this]
    rfl

/-- The rotated program. -/
def halfTurned (q : Prog) : Prog := q.map (fun x => (x.1, rotate .z180 x.2))

omit [LinearOrder K] [IsStrictOrderedRing K] [FloorRing K] in
theorem halfTurn_program {q : Prog} (h : ∀ x ∈ q, Turnable x.2) : Program K both q (halfTurned q) := by
  unfold Program halfTurned
  rw [List.forall₂_map_right_iff, List.forall₂_same]
  exact fun x hx => ⟨rfl, halfTurn_blocks (h x hx)⟩

end

/-- A machine whose starting and exchange points lie on the axis of the turn. -/
def Centred (c : Cfg ℝ) : Prop :=
  (∀ e ∈ c.base, e.1 ∈ level → e.2 = 0) ∧ (∀ e ∈ c.exchange, e.1 ∈ level → e.2 = 0)

theorem reflected_centred {v : VMap ℝ} (h : ∀ e ∈ v, e.1 ∈ level → e.2 = 0) : reflected both v = v := by
  unfold reflected
  conv_rhs => rw [← List.map_id v]
  refine List.map_congr_left fun e he => ?_
  unfold Flip.onto
  rw [both_flips]
  by_cases hl : e.1 ∈ level
  · simp [hl, ← h e he hl]
    exact Prod.ext rfl (by simp [h e he hl])
  · simp [hl]

/-- **C135, the turned part.** On a machine that starts in G17 on the axis of the turn, the program rotated by half a turn about Z is simulated
like the program: it stops at the same block or not at all, leaves the same variables, path, times and totals per tool, and ends at the
opposite point of the plane at the same height. -/
theorem C135_turned_partial {c : Cfg ℝ} (hw : WF c) (hc : AxesOk c) (hcc : c.cancel2 = c.cancel3) (hp : c.plane = .xy) (h0 : Centred c)
    (inch : Inch) {q : Prog} (m : MacroMap ℚ) (hq : ∀ x ∈ q, Turnable x.2) :
    let x := Sml.run realFns c inch q (initial c, m)
    let x' := Sml.run realFns c inch (halfTurned q) (initial c, m)
    SameVerdict x.2 x'.2 ∧ x'.1.2 = x.1.2 ∧
      x'.1.1.path = x.1.1.path ∧ x'.1.1.time = x.1.1.time ∧ x'.1.1.tPath = x.1.1.tPath ∧ x'.1.1.tTime = x.1.1.tTime ∧
      (∀ a, pos x'.1.1 a = (pos x.1.1 a).map (Spec.HalfTurn.opposite a)) ∧
      ∀ a, Mvd.bounds x'.1.1 a = (Mvd.bounds x.1.1 a).map (fun r => if a ∈ level then (-r.2, -r.1) else r) := by
  intro x x'
  have k := C123_start hw hc hcc hp inch m (halfTurn_program (K := ℝ) hq)
  have hm : both.motion c.motion = c.motion := rfl
  rw [reflected_centred h0.1, reflected_centred h0.2, hm] at k
  obtain ⟨h1, h2, h3⟩ := k
  refine ⟨h1, h2, h3.path, h3.time, h3.toolPaths, h3.toolTimes, ?_, ?_⟩
  · intro a
    rw [h3.places a]
    congr 1
    funext y
    unfold Flip.onto Spec.HalfTurn.opposite
    rw [both_flips]
    by_cases hl : a ∈ level <;> simp [hl]
  · intro a
    rw [h3.reach a]
    congr 1
    funext y
    rw [both_flips]
    by_cases hl : a ∈ level <;> simp [hl]

section
open NC.SimDemo

/-- **C135 fails, arcs in G18.** Half a turn about Z shows an arc in the plane ZX from behind; the rotated program keeps G2, and the arc is
counted with a quarter of the circle instead of three quarters. -/
theorem C135_violated_G18 :
    let b : Block := [w c!"G" c!"18", w c!"G" c!"2", wn c!"X" c!"3", w c!"Z" c!"3", wn c!"I" c!"3", wn c!"K" c!"3"]
    let a : Block := [w c!"G" c!"1", w c!"X" c!"3", w c!"Y" c!"3", w c!"Z" c!"3", w c!"F" c!"100"]
    let x := Sml.run quarters mill false [(1, a), (2, b)] (initial mill, [])
    let x' := Sml.run quarters mill false (halfTurned [(1, a), (2, b)]) (initial mill, [])
    x.2 = .ok () ∧ x'.2 = .ok () ∧ ∃ l, x'.1.1.path.work = some l ∧ 0 < l ∧ x.1.1.path.work = some (3 * l) := by
  refine ⟨by decide +kernel, by decide +kernel, ((Sml.run quarters mill false (halfTurned
    [(1, [w c!"G" c!"1", w c!"X" c!"3", w c!"Y" c!"3", w c!"Z" c!"3", w c!"F" c!"100"]),
     (2, [w c!"G" c!"18", w c!"G" c!"2", wn c!"X" c!"3", w c!"Z" c!"3", wn c!"I" c!"3", wn c!"K" c!"3"])])
    (initial mill, [])).1.1.path.work).getD 0, by decide +kernel, by decide +kernel, by decide +kernel⟩

/-- **C135 fails, dwells.** A dwell written with X is taken for a place: rotated, it waits a negative time. -/
theorem C135_violated_dwell :
    rotate .z180 [w c!"G" c!"4", w c!"X" c!"2"] = [w c!"G" c!"4", wn c!"X" c!"2"] ∧
    (Sml.run qf mill false [(1, [w c!"G" c!"4", w c!"X" c!"2"])] (initial mill, [])).1.1.time.total = some (2 + 1 / 5) ∧
    (Sml.run qf mill false (halfTurned [(1, [w c!"G" c!"4", w c!"X" c!"2"])]) (initial mill, [])).1.1.time.total = some (-2 + 1 / 5) := by
  decide +kernel

/-- The blocks of the part of C123 can be turned. -/
example : ∀ x ∈ leftPart, Turnable x.2 := by
  have noDwell : ∀ b : Block, ((words b).all fun d => !(d.word == c!"G" && code d == some 4)) = true → ¬ Spec.Moved.Dwell b := by
    rintro b hb ⟨d, h1, h2, h3⟩
    have := List.all_eq_true.mp hb d h1
    rw [h2, h3] at this
    revert this; decide
  have shp : ∀ {a v : Str} {s : Option Char}, (v ≠ [] ∧ ∀ c ∈ v, isDig c = true) → s = none ∨ s = some '-' →
      Shape { word := a, value := some v, sign := s : Dec } := by
    intro a v s h1 h3
    refine ⟨nofun, ?_, nofun, nofun, ?_, nofun, nofun, nofun⟩
    · rintro c hc
      rcases h3 with rfl | rfl
      · cases hc
      · cases hc; exact .inl rfl
    · rintro u hu
      cases hu
      exact h1
  have key : ∀ b : Block, (∀ a ∈ b, ∃ u v s, a = Attr.dec { word := u, value := some v, sign := s } ∧ (v ≠ [] ∧ ∀ c ∈ v, isDig c = true) ∧ (s = none ∨ s = some '-')) →
      ((words b).all fun d => !(d.word == c!"G" && code d == some 4)) = true → (∀ n ∈ groupCodes 2 b, n = 17) → Turnable b := by
    intro b h1 h2 h3
    refine ⟨?_, ?_, fun h => absurd h (noDwell b h2), h3⟩
    · intro d hd
      obtain ⟨u, v, s, e, k1, k2⟩ := h1 _ hd
      cases e
      exact shp k1 k2
    · intro d hd _
      obtain ⟨u, v, s, e, _⟩ := h1 _ hd
      cases e
      exact .inl (by simp)
  intro x hx
  simp only [leftPart, List.mem_cons, List.not_mem_nil, or_false] at hx
  rcases hx with rfl | rfl | rfl | rfl <;>
  · refine key _ ?_ (by decide) (by decide)
    intro a ha
    simp only [List.mem_cons, List.not_mem_nil, or_false] at ha
    rcases ha with rfl | rfl | rfl | rfl | rfl <;> exact ⟨_, _, _, rfl, by decide, by decide⟩

/-- A machine on the axis of the turn. -/
example : (∀ e ∈ mill.base, e.1 ∈ level → e.2 = 0) ∧ (∀ e ∈ mill.exchange, e.1 ∈ level → e.2 = 0) ∧ ∃ e ∈ mill.base, e.2 ≠ 0 := by
  decide +kernel

end
end NC.Props
