import Verif.SimModal
import Verif.SimAlt
import Verif.Spec.Similar
import Mathlib.Tactic.IntervalCases
import Mathlib.Tactic.FieldSimp

/-!
# The simulation of similar programs

Related states: the second one belongs to the similar part.
-/

namespace NC.Sml
open NC NC.Path NC.Ver NC.AttrPath NC.Spec.Sim NC.Spec.Similar NC.Props

section
variable {K : Type} [Field K] [LinearOrder K]

/-! ## The axes -/

theorem onto_mem (T : Similarity K) {a : Str} (h : a ∈ threeAxes) : T.onto a ∈ threeAxes :=
  T.axes.mem_iff.mp (List.mem_map_of_mem h)

theorem onto_inj (T : Similarity K) {a b : Str} (ha : a ∈ threeAxes) (hb : b ∈ threeAxes) (h : T.onto a = T.onto b) : a = b :=
  List.inj_on_of_nodup_map (T.axes.nodup_iff.mpr (by decide)) ha hb h

theorem onto_surj (T : Similarity K) {b : Str} (hb : b ∈ threeAxes) : ∃ a ∈ threeAxes, T.onto a = b := by
  have := T.axes.mem_iff.mpr hb
  obtain ⟨a, ha, h⟩ := List.mem_map.mp this
  exact ⟨a, ha, h⟩

/-- A sum over the axes. -/
theorem sum_axes (T : Similarity K) {g h : Str → K} (e : ∀ a ∈ threeAxes, g (T.onto a) = h a) :
    g c!"X" + g c!"Y" + g c!"Z" = h c!"X" + h c!"Y" + h c!"Z" := by
  have h1 : ((threeAxes.map T.onto).map g).sum = (threeAxes.map g).sum := (T.axes.map g).sum_eq
  have h2 : (threeAxes.map T.onto).map g = threeAxes.map h := by
    rw [List.map_map]
    exact List.map_congr_left e
  rw [h2] at h1
  simp only [threeAxes, List.map_cons, List.map_nil, List.sum_cons, List.sum_nil, add_zero, ← add_assoc] at h1
  exact h1.symm

/-- What a word becomes. -/
def act (T : Similarity K) (incr : Bool) (a : Str) (x : K) : K := if incr then T.distance a x else T.coordinate a x

/-- The values of the words of a similar block. -/
def Values (T : Similarity K) (incr : Bool) (m m' : VMap K) : Prop :=
  (∀ a ∈ threeAxes, m'.get (T.onto a) = (m.get a).map (act T incr a)) ∧ (m = [] ↔ m' = [])

/-- The feed of a similar block. -/
def FeedO (T : Similarity K) (f f' : Option K) : Prop :=
  (f = none ∧ f' = none) ∨ ∃ x, f = some x ∧ 0 ≤ x ∧ f' = some (T.scale * x)

/-- The texts of the special codes. -/
def bad : List Str := [c!"4", c!"04", c!"28", c!"10", c!"50.1", c!"51.1", c!"52", c!"53", c!"68", c!"68.2", c!"68.3", c!"68.4", c!"92"]

/-- No tool, no tool exchange, no special code. -/
structure Calmly (v : Vis K) : Prop where
  tools : v.tools = []
  m6 : v.m6 = false
  codes : ∀ t ∈ v.otherG, t ∉ bad

/-- What the visitor collects from a similar block. -/
def VisIm (T : Similarity K) (incr : Bool) (v v' : Vis K) : Prop :=
  Calmly v ∧ ∃ vals f pl og, v' = { v with vals := vals, f := f, plane := pl, otherG := og } ∧ Values T incr v.vals vals ∧ FeedO T v.f f ∧
    ∀ t ∈ og, t ∉ bad

/-- The outcomes of reading similar blocks. -/
def OutIm (T : Similarity K) (incr : Bool) : Out Exc (Vis K) → Out Exc (Vis K) → Prop
  | .ok v, .ok v' => VisIm T incr v v'
  | .throw e, .throw e' => e = e'
  | .ub, .ub => True
  | _, _ => False

theorem bad_prefix : ∀ t ∈ bad, (∀ k < 5, t[k]? = some '.' → ∃ n ∈ special, stoi (t.take k) = .ok n) ∧ ∃ n ∈ special, stoi t = .ok n := by
  decide

theorem otherText_good {d : Dec} {v : Str} (hv : d.value = some v) {n : Int} (hn : stoi v = .ok n) (hs : n ∉ special)
    (hd : d.dot = none ∨ d.dot = some '.') : otherText v d ∉ bad := by
  intro hb
  unfold otherText at hb
  have plain : v ∉ bad := fun h => by
    obtain ⟨m, hm, h1⟩ := (bad_prefix v h).2
    rw [h1] at hn; cases hn; exact hs hm
  rcases hd with hd | hd
  · rw [hd] at hb; exact plain hb
  · rw [hd] at hb
    cases h2 : d.value2 with
    | none => rw [h2] at hb; exact plain hb
    | some v2 =>
      rw [h2] at hb
      dsimp only at hb
      have hl : (v ++ '.' :: v2).length ≤ 4 := by
        have : ∀ t ∈ bad, t.length ≤ 4 := by decide
        exact this _ hb
      have hk : v.length < 5 := by rw [List.length_append] at hl; omega
      obtain ⟨m, hm, h1⟩ := (bad_prefix _ hb).1 v.length hk (by simp)
      rw [List.take_left] at h1
      rw [h1] at hn; cases hn; exact hs hm

/-- What a word that stays may tell the visitor. -/
def OkAct : Act K → Prop
  | .nothing => True
  | .val w _ => w ∉ threeAxes
  | .tool _ => False
  | .feed _ => False
  | .spindle _ => True
  | .aux a _ _ => a = false
  | .code .other t => t ∉ bad
  | .code _ _ => True

theorem code_of {d : Dec} {v : Str} (hv : d.value = some v) {n : Int} (hn : stoi v = .ok n) : code d = some n := by
  unfold code; rw [hv]; dsimp only; rw [hn]

theorem stoiE_ok {v : Str} {n : Int} (h : stoiE v = .ok n) : stoi v = .ok n := by
  unfold stoiE at h
  cases hs : stoi v with
  | ok m => rw [hs] at h; cases h; rfl
  | throw e => rw [hs] at h; cases h
  | ub => rw [hs] at h; cases h

theorem stays_act {c : Cfg K} {d : Dec} (h : Stays d) {x : Act K} (hr : readWord c d = .ok x) : OkAct x := by
  obtain ⟨h1, h2, h3, h4, h5⟩ := h
  unfold readWord at hr
  by_cases hp : d.word ∈ gcodeParams c
  · rw [if_pos hp] at hr
    unfold readVal at hr
    split at hr
    · cases hr; trivial
    · cases hs : stodE (valText d) with
      | ok q => rw [hs] at hr; cases hr; exact h1
      | throw e => rw [hs] at hr; cases hr
      | ub => rw [hs] at hr; cases hr
  rw [if_neg hp, if_neg h2, if_neg h3] at hr
  by_cases hS : d.word = c!"S"
  · rw [if_pos hS] at hr
    unfold readFeed at hr
    split at hr
    · cases hr; trivial
    · cases hs : stodE (feedText d) with
      | ok q => rw [hs] at hr; cases hr; trivial
      | throw e => rw [hs] at hr; cases hr
      | ub => rw [hs] at hr; cases hr
  rw [if_neg hS] at hr
  by_cases hM : d.word = c!"M"
  · rw [if_pos hM] at hr
    unfold readAux at hr
    cases hv : d.value with
    | none => rw [hv] at hr; cases hr; trivial
    | some v =>
      rw [hv] at hr
      dsimp only at hr
      split at hr
      · cases hr; trivial
      · rename_i hd
        cases hs : stoiE v with
        | throw e => rw [hs] at hr; cases hr
        | ub => rw [hs] at hr; cases hr
        | ok n =>
          rw [hs] at hr; cases hr
          show decide (n = 6) = false
          rw [decide_eq_false_iff_not]
          rintro rfl
          have hc := code_of hv (stoiE_ok hs)
          have e1 : d.dot = none := by cases hq : d.dot with
            | none => rfl
            | some p => exact absurd (Or.inl (by rw [hq]; rfl)) hd
          have e2 : d.value2 = none := by cases hq : d.value2 with
            | none => rfl
            | some p => exact absurd (Or.inr (by rw [hq]; rfl)) hd
          unfold isM6 at h4
          rw [hM, hc, e1, e2] at h4
          simp at h4
  rw [if_neg hM] at hr
  by_cases hG : d.word = c!"G"
  · rw [if_pos hG] at hr
    unfold readCode at hr
    cases hv : d.value with
    | none => rw [hv] at hr; cases hr; trivial
    | some v =>
      rw [hv] at hr
      dsimp only at hr
      cases hs : stoiE v with
      | throw e => rw [hs] at hr; cases hr
      | ub => rw [hs] at hr; cases hr
      | ok n =>
        rw [hs] at hr; cases hr
        have := otherText_good hv (stoiE_ok hs) ((h5 hG).1 n (code_of hv (stoiE_ok hs))) (h5 hG).2
        unfold OkAct
        split <;> first | trivial | (rename_i e; cases e; assumption) | simp_all
  · rw [if_neg hG] at hr; cases hr; trivial

/-! ## Reading the words -/

theorem read_value {c : Cfg K} {d : Dec} {x : K} (hp : d.word ∈ gcodeParams c) (hv : value d = some x) :
    readWord c d = .ok (.val d.word x) := by
  have ht : d.sign.toList ++ d.value.getD [] ++ d.dot.toList ++ d.value2.getD [] = AttrPath.valText d := by
    unfold AttrPath.valText
    cases d.sign <;> cases d.value <;> cases d.dot <;> cases d.value2 <;> rfl
  unfold readWord
  rw [if_pos hp]
  unfold readVal
  unfold value at hv
  obtain ⟨q, hq, rfl⟩ := Option.map_eq_some_iff.mp hv
  unfold Spec.Sim.number at hq
  split at hq
  · rename_i hb
    rw [if_neg (by rintro ⟨h1, h2⟩; rw [h1, h2] at hb; simp at hb)]
    rw [ht] at hq
    unfold stodE
    cases hs : stod (AttrPath.valText d) with
    | ok r => rw [hs] at hq; cases hq; rfl
    | throw e => rw [hs] at hq; cases hq
    | ub => rw [hs] at hq; cases hq
  · cases hq

theorem read_feed {c : Cfg K} (hc : AxesOk c) {d : Dec} {f : ℚ} (hw : d.word = c!"F") (hf : rateOf d = some f) :
    readWord c d = .ok (.feed (f : K)) := by
  have ht : d.value.getD [] ++ (if d.dot.isSome then d.dot.toList ++ d.value2.getD [] else []) = feedText d := by
    unfold feedText
    cases d.value <;> cases d.dot <;> cases d.value2 <;> rfl
  unfold readWord
  rw [if_neg (by rw [hw]; exact code_ne_param hc (by decide)), if_neg (by rw [hw]; decide), if_pos hw]
  unfold readFeed
  unfold rateOf at hf
  split at hf
  · rename_i hb
    rw [if_neg (by rintro ⟨h1, h2⟩; rw [h1, h2] at hb; simp at hb)]
    rw [ht] at hf
    unfold stodE
    cases hs : stod (feedText d) with
    | ok r => rw [hs] at hf; cases hf; rfl
    | throw e => rw [hs] at hf; cases hf
    | ub => rw [hs] at hf; cases hf
  · cases hf

theorem read_code {c : Cfg K} (hc : AxesOk c) {d : Dec} {n : Int} (hw : d.word = c!"G") (hn : code d = some n) :
    ∃ t, readWord c d = .ok (.code (gKind n) t) := by
  rw [readWord_code_of hc hw]
  unfold readCode
  unfold code at hn
  cases hv : d.value with
  | none => rw [hv] at hn; cases hn
  | some v =>
    rw [hv] at hn
    dsimp only at hn ⊢
    unfold stoiE
    cases hs : stoi v with
    | ok m => rw [hs] at hn; cases hn; exact ⟨_, rfl⟩
    | throw e => rw [hs] at hn; cases hn
    | ub => rw [hs] at hn; cases hn

theorem plane_kind {n : Int} (h : n ∈ ([17, 18, 19] : List Int)) : ∃ p, gKind n = .plane p := by
  simp only [List.mem_cons, List.not_mem_nil, or_false] at h
  rcases h with rfl | rfl | rfl
  · exact ⟨.xy, rfl⟩
  · exact ⟨.xz, rfl⟩
  · exact ⟨.yz, rfl⟩

/-! ## Visiting -/

variable {T : Similarity K} {incr : Bool}

theorem Values.axis {m m' : VMap K} (h : Values T incr m m') {a : Str} (ha : a ∈ threeAxes) (x : K) :
    Values T incr (m.put a x) (m'.put (T.onto a) (act T incr a x)) := by
  refine ⟨fun b hb => ?_, by simp [VMap.put_ne_nil]⟩
  rw [VMap.get_put, VMap.get_put]
  by_cases e : a = b
  · subst e; rw [if_pos rfl, if_pos rfl]; rfl
  · rw [if_neg e, if_neg (fun q => e (onto_inj T ha hb q)), h.1 b hb]

theorem Values.other {m m' : VMap K} (h : Values T incr m m') {a a' : Str} (ha : a ∉ threeAxes) (ha' : a' ∉ threeAxes)
    (x x' : K) : Values T incr (m.put a x) (m'.put a' x') := by
  refine ⟨fun b hb => ?_, by simp [VMap.put_ne_nil]⟩
  have e1 : a ≠ b := fun e => ha (e ▸ hb)
  have e2 : a' ≠ T.onto b := fun e => ha' (by rw [e]; exact onto_mem T hb)
  rw [VMap.get_put, VMap.get_put, if_neg e1, if_neg e2, h.1 b hb]

theorem three_ne_slash {a : Str} (h : a ∈ threeAxes) : a ≠ c!"/" := by
  rintro rfl; revert h; decide

theorem three_param (c : Cfg K) {a : Str} (h : a ∈ threeAxes) : a ∈ gcodeParams c := by
  simp only [threeAxes, List.mem_cons, List.not_mem_nil, or_false] at h
  rcases h with rfl | rfl | rfl <;> simp [gcodeParams]

theorem on_stays {v v' : Vis K} (h : VisIm T incr v v') {x : Act K} (hx : OkAct x) : VisIm T incr (Act.on v x) (Act.on v' x) := by
  obtain ⟨hc, vals, f, pl, og, rfl, hv, hf, hog⟩ := h
  obtain ⟨c1, c2, c3⟩ := hc
  cases x with
  | nothing => exact ⟨⟨c1, c2, c3⟩, vals, f, pl, og, rfl, hv, hf, hog⟩
  | val w y => exact ⟨⟨c1, c2, c3⟩, _, f, pl, og, rfl, hv.other hx hx y y, hf, hog⟩
  | tool t => exact hx.elim
  | feed y => exact hx.elim
  | spindle y => exact ⟨⟨c1, c2, c3⟩, vals, f, pl, og, rfl, hv, hf, hog⟩
  | aux a p m =>
    have : a = false := hx
    subst this
    exact ⟨⟨c1, by show (v.m6 || false) = false; rw [c2]; rfl, c3⟩, vals, f, pl, og, rfl, hv, hf, hog⟩
  | code k t =>
    cases k with
    | plane p => exact ⟨⟨c1, c2, c3⟩, vals, f, some p, og, rfl, hv, hf, hog⟩
    | motion n => exact ⟨⟨c1, c2, c3⟩, vals, f, pl, og, rfl, hv, hf, hog⟩
    | perRev b => exact ⟨⟨c1, c2, c3⟩, vals, f, pl, og, rfl, hv, hf, hog⟩
    | css b => exact ⟨⟨c1, c2, c3⟩, vals, f, pl, og, rfl, hv, hf, hog⟩
    | ret r => exact ⟨⟨c1, c2, c3⟩, vals, f, pl, og, rfl, hv, hf, hog⟩
    | incr b => exact ⟨⟨c1, c2, c3⟩, vals, f, pl, og, rfl, hv, hf, hog⟩
    | other =>
      refine ⟨⟨c1, c2, ?_⟩, vals, f, pl, og ++ [t], rfl, hv, hf, ?_⟩
      · intro u hu
        rcases List.mem_append.mp hu with hu | hu
        · exact c3 u hu
        · rw [List.mem_singleton.mp hu]; exact hx
      · intro u hu
        rcases List.mem_append.mp hu with hu | hu
        · exact hog u hu
        · rw [List.mem_singleton.mp hu]; exact hx

variable [IsStrictOrderedRing K]

theorem visit_image {c : Cfg K} (hc : AxesOk c) {v v' : Vis K} (h : VisIm T incr v v') {a a' : Attr} (hw : Word T incr a a') :
    OutIm T incr (visit c v a) (visit c v' a') := by
  have hsk : v'.skip = v.skip := by obtain ⟨_, _, _, _, _, rfl, _⟩ := h; rfl
  have skipAll : v.skip = true → ∀ d d' : Dec, d.word ≠ c!"/" → d'.word ≠ c!"/" →
      OutIm T incr (visit c v (.dec d)) (visit c v' (.dec d')) := by
    intro hs d d' h1 h2
    unfold visit
    dsimp only
    rw [if_neg h1, if_neg h2, hsk, if_pos hs, if_pos hs]
    exact h
  have go : ∀ (d d' : Dec) (x x' : Act K), d.word ≠ c!"/" → d'.word ≠ c!"/" → readWord c d = .ok x → readWord c d' = .ok x' →
      VisIm T incr (Act.on v x) (Act.on v' x') → OutIm T incr (visit c v (.dec d)) (visit c v' (.dec d')) := by
    intro d d' x x' h1 h2 h3 h4 h5
    cases hs : v.skip with
    | true => exact skipAll hs d d' h1 h2
    | false =>
      unfold visit
      dsimp only
      rw [if_neg h1, if_neg h2, hsk, hs, if_neg (by decide), if_neg (by decide), h3, h4]
      exact h5
  cases hw with
  | axis d d' x h1 h2 h3 h4 =>
    have h5 : d'.word ∈ threeAxes := by rw [h2]; exact onto_mem T h1
    refine go d d' _ _ (three_ne_slash h1) (three_ne_slash h5) (read_value (three_param c h1) h3) (read_value (three_param c h5) h4) ?_
    obtain ⟨hc, vals, f, pl, og, rfl, hv, hf, hog⟩ := h
    refine ⟨⟨hc.1, hc.2, hc.3⟩, _, f, pl, og, rfl, ?_, hf, hog⟩
    rw [h2]
    exact hv.axis h1 x
  | feed d d' f f' h1 h2 h3 h4 h5 h6 =>
    refine go d d' _ _ (by rw [h1]; decide) (by rw [h2]; decide) (read_feed hc h1 h3) (read_feed hc h2 h5) ?_
    obtain ⟨hc, vals, f0, pl, og, rfl, hv, hf, hog⟩ := h
    exact ⟨⟨hc.1, hc.2, hc.3⟩, vals, _, pl, og, rfl, hv, Or.inr ⟨_, rfl, by exact_mod_cast h4, by rw [h6]⟩, hog⟩
  | plane d d' n n' h1 h2 h3 h4 h5 h6 =>
    obtain ⟨t, e1⟩ := read_code hc h1 h3
    obtain ⟨t', e2⟩ := read_code hc h2 h4
    obtain ⟨p, hp⟩ := plane_kind h5
    obtain ⟨p', hp'⟩ := plane_kind h6
    refine go d d' _ _ (by rw [h1]; decide) (by rw [h2]; decide) e1 e2 ?_
    obtain ⟨hc, vals, f, pl, og, rfl, hv, hf, hog⟩ := h
    rw [hp, hp']
    exact ⟨⟨hc.1, hc.2, hc.3⟩, vals, f, some p', og, rfl, hv, hf, hog⟩
  | units d d' n n' h1 h2 h3 h4 d1 d2 h5 h6 =>
    have key : ∀ (e : Dec) (m : Int), e.word = c!"G" → code e = some m → e.dot = none → m ∈ ([20, 21] : List Int) →
        ∃ t, readWord c e = .ok (.code .other t) ∧ t ∉ bad := by
      intro e m e1 e2 e3 e4
      obtain ⟨t, ht⟩ := read_code hc e1 e2
      have hk : gKind m = .other ∧ m ∉ special := by
        simp only [List.mem_cons, List.not_mem_nil, or_false] at e4
        rcases e4 with rfl | rfl <;> decide
      rw [hk.1] at ht
      have hst : Stays e := by
        refine ⟨by rw [e1]; decide, by rw [e1]; decide, by rw [e1]; decide, by unfold isM6; rw [e1]; rfl, fun _ => ⟨?_, Or.inl e3⟩⟩
        intro k hk2
        rw [e2] at hk2
        cases hk2
        exact hk.2
      exact ⟨t, ht, stays_act hst ht⟩
    obtain ⟨t, e1, b1⟩ := key d n h1 h3 d1 h5
    obtain ⟨t', e2, b2⟩ := key d' n' h2 h4 d2 h6
    refine go d d' _ _ (by rw [h1]; decide) (by rw [h2]; decide) e1 e2 ?_
    obtain ⟨hc, vals, f, pl, og, rfl, hv, hf, hog⟩ := h
    refine ⟨⟨hc.1, hc.2, ?_⟩, vals, f, pl, og ++ [t'], rfl, hv, hf, ?_⟩
    · intro u hu
      rcases List.mem_append.mp hu with hu | hu
      · exact hc.3 u hu
      · rw [List.mem_singleton.mp hu]; exact b1
    · intro u hu
      rcases List.mem_append.mp hu with hu | hu
      · exact hog u hu
      · rw [List.mem_singleton.mp hu]; exact b2
  | centre d d' h1 h2 h3 h4 =>
    have key : ∀ e : Dec, e.word ∈ ([c!"I", c!"J", c!"K"] : List Str) → Spec.Sim.number e ≠ none →
        e.word ≠ c!"/" ∧ e.word ∉ threeAxes ∧ ∃ x, readWord c e = .ok (.val e.word x) := by
      intro e he hn
      obtain ⟨q, hq⟩ := Option.ne_none_iff_exists'.mp hn
      have hv : ∃ x, value (K := K) e = some x := by unfold value; rw [hq]; exact ⟨_, rfl⟩
      obtain ⟨x, hx⟩ := hv
      refine ⟨?_, ?_, x, read_value ?_ hx⟩
      · intro h; rw [h] at he; revert he; decide
      · intro h
        simp only [threeAxes, List.mem_cons, List.not_mem_nil, or_false] at h
        rcases h with h | h | h <;> · rw [h] at he; revert he; decide
      · simp only [List.mem_cons, List.not_mem_nil, or_false] at he
        rcases he with h | h | h <;> simp [gcodeParams, h]
    obtain ⟨a1, a2, x, a3⟩ := key d h1 h3
    obtain ⟨b1, b2, y, b3⟩ := key d' h2 h4
    refine go d d' _ _ a1 b1 a3 b3 ?_
    obtain ⟨hc, vals, f, pl, og, rfl, hv, hf, hog⟩ := h
    exact ⟨⟨hc.1, hc.2, hc.3⟩, _, f, pl, og, rfl, hv.other a2 b2 x y, hf, hog⟩
  | stays d hd =>
    by_cases hsl : d.word = c!"/"
    · unfold visit
      dsimp only
      rw [if_pos hsl, if_pos hsl]
      obtain ⟨hc, vals, f, pl, og, rfl, hv, hf, hog⟩ := h
      exact ⟨⟨hc.1, hc.2, hc.3⟩, vals, f, pl, og, rfl, hv, hf, hog⟩
    · cases hr : readWord c d with
      | ok x => exact go d d x x hsl hsl hr hr (on_stays h (stays_act hd hr))
      | throw e =>
        cases hs : v.skip with
        | true => exact skipAll hs d d hsl hsl
        | false =>
          unfold visit
          dsimp only
          rw [if_neg hsl, if_neg hsl, hsk, hs, if_neg (by decide), if_neg (by decide), hr]
          rfl
      | ub =>
        cases hs : v.skip with
        | true => exact skipAll hs d d hsl hsl
        | false =>
          unfold visit
          dsimp only
          rw [if_neg hsl, if_neg hsl, hsk, hs, if_neg (by decide), if_neg (by decide), hr]
          trivial
  | str w s => exact on_stays h (x := .aux false _ _) rfl
  | chr w s => exact h

theorem visitAll_image {c : Cfg K} (hc : AxesOk c) {b b' : Block} (hb : List.Forall₂ (Word T incr) b b') {v v' : Vis K}
    (h : VisIm T incr v v') : OutIm T incr (visitAll c v b) (visitAll c v' b') := by
  induction hb generalizing v v' with
  | nil => exact h
  | cons hw _ ih =>
    rename_i a a' l l' hl
    have := visit_image hc h hw
    unfold visitAll
    cases h1 : visit c v a with
    | ok r =>
      cases h2 : visit c v' a' with
      | ok r' => rw [h1, h2] at this; exact ih this
      | throw e => rw [h1, h2] at this; exact this.elim
      | ub => rw [h1, h2] at this; exact this.elim
    | throw e =>
      cases h2 : visit c v' a' with
      | ok r' => rw [h1, h2] at this; exact this.elim
      | throw e => rw [h1, h2] at this; exact this
      | ub => rw [h1, h2] at this; exact this.elim
    | ub =>
      cases h2 : visit c v' a' with
      | ok r' => rw [h1, h2] at this; exact this.elim
      | throw e => rw [h1, h2] at this; exact this.elim
      | ub => rw [h1, h2] at this; exact this

omit [IsStrictOrderedRing K] in
theorem visIm_empty : VisIm T incr ({} : Vis K) {} :=
  ⟨⟨rfl, rfl, fun t ht => by cases ht⟩, [], none, none, [], rfl, ⟨fun _ _ => rfl, Iff.rfl⟩, Or.inl ⟨rfl, rfl⟩, fun t ht => by cases ht⟩

/-! ## States -/

/-- The path of the similar part. -/
def pathIm (T : Similarity K) (p : PathRes K) : PathRes K :=
  ⟨T.length p.total, T.length p.work, T.length p.fast, T.length p.toolTotal, p.toolId, (T.length p.cycle.1, T.length p.cycle.2), p.holes⟩

/-- The state of the similar part. -/
def img (T : Similarity K) (pr : VMap K) (rg : VMap (Rng K)) (tp : VMap (Fl K)) (f : K) (pl : Plane) (s : St K) : St K :=
  { s with path := pathIm T s.path, prev := pr, range := rg, tPath := tp, f := f, plane := pl }

/-- The machine of the similar part. -/
def machineIm (T : Similarity K) (base exch : VMap K) (c : Cfg K) : Cfg K :=
  { c with maxFast := T.scale * c.maxFast, base := base, exchange := exch }

/-- The positions of the similar part. -/
def Places (T : Similarity K) (m m' : VMap K) : Prop := ∀ a ∈ threeAxes, m'.get (T.onto a) = (m.get a).map (T.coordinate a)

/-- The feed of the similar part; unset ones are negative. -/
def Feed (T : Similarity K) (f f' : K) : Prop := (f < 0 ∧ f' < 0) ∨ (0 ≤ f ∧ f' = T.scale * f)

variable {pr : VMap K} {rg : VMap (Rng K)} {tp : VMap (Fl K)} {f : K} {pl : Plane} {base exch : VMap K}

omit [IsStrictOrderedRing K] in
theorem length_zero : T.length (some 0) = some 0 := by
  show some (T.scale * 0) = some 0
  rw [mul_zero]

omit [IsStrictOrderedRing K] in
theorem length_addF (a b : Fl K) : T.length (addF a b) = addF (T.length a) (T.length b) := by
  cases a <;> cases b <;> try rfl
  exact congrArg some (mul_add _ _ _)

theorem length_eq_zero (x : Fl K) : T.length x = some 0 ↔ x = some 0 := by
  cases x with
  | none => exact ⟨(fun h => by cases h), (fun h => by cases h)⟩
  | some y =>
    show some (T.scale * y) = some 0 ↔ _
    rw [Option.some_inj, Option.some_inj, mul_eq_zero]
    exact ⟨fun h => h.resolve_left T.positive.ne', Or.inr⟩

omit [IsStrictOrderedRing K] in
theorem clearMotions_img (s : St K) : clearMotions (img T pr rg tp f pl s) = img T pr rg tp f pl (clearMotions s) := by
  unfold clearMotions img pathIm
  simp only [length_zero]

omit [IsStrictOrderedRing K] in
theorem mTimes_img (c : Cfg K) (v : Vis K) (vals : VMap K) (vf : Option K) (vp : Option Plane) (og : List Str) (s : St K) :
    mTimes (machineIm T base exch c) { v with vals := vals, f := vf, plane := vp, otherG := og } (img T pr rg tp f pl s) =
      img T pr rg tp f pl (mTimes c v s) := by
  have e : ∀ (q : Prop) [Decidable q] (a b : St K), (if q then img T pr rg tp f pl a else img T pr rg tp f pl b) =
      img T pr rg tp f pl (if q then a else b) := by
    intro q _ a b; split <;> rfl
  have e2 : ∀ (x : K) (s : St K), addTime x (img T pr rg tp f pl s) = img T pr rg tp f pl (addTime x s) := fun _ _ => rfl
  have e3 : ∀ s : St K, exchangeTimes (machineIm T base exch c) (img T pr rg tp f pl s) = img T pr rg tp f pl (exchangeTimes c s) := by
    intro s
    unfold exchangeTimes machineIm
    dsimp only
    rw [e2, e2, e]
  unfold mTimes
  dsimp only
  rw [e3, e]
  simp only [machineIm, e2, e]
  rfl

omit [IsStrictOrderedRing K] in
theorem cancelCycle_img (s : St K) : cancelCycle (img T pr rg tp f pl s) = img T pr rg tp f pl (cancelCycle s) := by
  unfold cancelCycle img pathIm
  simp only [length_zero]

omit [IsStrictOrderedRing K] in
theorem cancelBy_img (c : Cfg K) (g : Int) (s : St K) :
    cancelBy (machineIm T base exch c) g (img T pr rg tp f pl s) = img T pr rg tp f pl (cancelBy c g s) := by
  unfold cancelBy
  rw [cancelCycle_img]
  dsimp only [machineIm]
  rw [apply_ite (img T pr rg tp f pl)]
  rfl

omit [IsStrictOrderedRing K] in
theorem setMotion_img (g : Int) (x : Fl K) (s : St K) :
    setMotion g (T.length x) (img T pr rg tp f pl s) = img T pr rg tp f pl (setMotion g x s) := by
  unfold setMotion
  split <;> rfl

omit [IsStrictOrderedRing K] in
theorem addPath_img (s : St K) : addPath (img T pr rg tp f pl s) = img T pr rg tp f pl (addPath s) := by
  unfold addPath
  dsimp only [img, pathIm]
  simp only [length_addF]

omit [IsStrictOrderedRing K] in
theorem saveModal_img (c : Cfg K) (cur : Cur K) (f2 : K) (pl2 : Plane) (s : St K) :
    saveModal (machineIm T base exch c) { cur with f := f2, plane := pl2 } (img T pr rg tp f pl s) =
      img T pr rg tp f2 pl2 (saveModal c cur s) := rfl

theorem Feed.pos {f f' : K} (h : Feed T f f') : (0 < f' ↔ 0 < f) ∧ (f' < 0 ↔ f < 0) := by
  rcases h with ⟨h1, h2⟩ | ⟨h1, rfl⟩
  · exact ⟨⟨fun h => absurd h h2.not_gt, fun h => absurd h h1.not_gt⟩, ⟨fun _ => h1, fun _ => h2⟩⟩
  · exact ⟨mul_pos_iff_of_pos_left T.positive, ⟨fun h => absurd h (not_lt.mpr (mul_nonneg T.positive.le h1)), fun h => absurd h (not_lt.mpr h1)⟩⟩

omit [LinearOrder K] [IsStrictOrderedRing K] in
theorem feedPerMinute_other (F : Fns K) {c : Cfg K} (hm : c.mtype = .other) (inch : Inch) (cur : Cur K) (w : K) :
    feedPerMinute F c inch cur w = cur.f := by
  unfold feedPerMinute latheProg
  rw [hm]
  simp

theorem calcTime_scale (x y : K) : calcTime (T.scale * x) (T.scale * y) = calcTime x y := by
  unfold calcTime
  by_cases h : y = 0
  · rw [if_pos h, if_pos (by rw [h, mul_zero])]
  · rw [if_neg h, if_neg (mul_ne_zero T.positive.ne' h), mul_div_mul_left _ _ T.positive.ne']

theorem workTime_img (F : Fns K) {c : Cfg K} (hm : c.mtype = .other) (inch inch' : Inch) (cur : Cur K) {f2 : K} (pl2 : Plane)
    (hf : Feed T cur.f f2) (x : Fl K) :
    workTime F (machineIm T base exch c) inch' { cur with f := f2, plane := pl2 } (T.length x) = workTime F c inch cur x := by
  have hm' : (machineIm T base exch c).mtype = .other := hm
  unfold workTime
  cases x with
  | none =>
    show (if 0 < f2 then none else some 0) = if 0 < cur.f then none else some 0
    simp only [hf.pos.1]
  | some w =>
    show (if T.scale * w ≠ 0 ∧ 0 < f2 then _ else _) = (if w ≠ 0 ∧ 0 < cur.f then _ else _)
    rw [feedPerMinute_other F hm, feedPerMinute_other F hm']
    have e : (T.scale * w ≠ 0 ∧ 0 < f2) ↔ (w ≠ 0 ∧ 0 < cur.f) := by
      rw [hf.pos.1, mul_ne_zero_iff]
      exact ⟨fun h => ⟨h.1.2, h.2⟩, fun h => ⟨⟨T.positive.ne', h.1⟩, h.2⟩⟩
    by_cases h : w ≠ 0 ∧ 0 < cur.f
    · rw [if_pos h, if_pos (e.mpr h)]
      have : f2 = T.scale * cur.f := by
        rcases hf with hf | hf
        · exact absurd h.2 hf.1.not_gt
        · exact hf.2
      show mulF 60 (calcTime (T.scale * w) f2) = _
      rw [this, calcTime_scale]
    · rw [if_neg h, if_neg (fun q => h (e.mp q))]

theorem fastTime_img (c : Cfg K) (x : Fl K) : fastTime (machineIm T base exch c) (T.length x) = fastTime c x := by
  have hp : (0 < T.scale * c.maxFast) = (0 < c.maxFast) := propext (mul_pos_iff_of_pos_left T.positive)
  unfold fastTime
  cases x with
  | none =>
    show (if 0 < T.scale * c.maxFast then none else some 0) = if 0 < c.maxFast then none else some 0
    simp only [hp]
  | some w =>
    show (if T.scale * w ≠ 0 ∧ 0 < T.scale * c.maxFast then mulF 60 (calcTime (T.scale * w) (T.scale * c.maxFast)) else _) = _
    rw [calcTime_scale]
    have e : (T.scale * w ≠ 0) = (w ≠ 0) := by
      rw [mul_ne_zero_iff]
      exact propext ⟨fun h => h.2, fun h => ⟨T.positive.ne', h⟩⟩
    simp only [e, hp]

theorem addTimes_img (F : Fns K) {c : Cfg K} (hm : c.mtype = .other) (inch inch' : Inch) (cur : Cur K) {f2 : K} (pl2 : Plane)
    (hf : Feed T cur.f f2) (s : St K) :
    addTimes F (machineIm T base exch c) inch' { cur with f := f2, plane := pl2 } (img T pr rg tp f pl s) =
      img T pr rg tp f pl (addTimes F c inch cur s) := by
  have e1 := workTime_img (base := base) (exch := exch) F hm inch inch' cur pl2 hf s.path.work
  have e2 := fastTime_img (T := T) (base := base) (exch := exch) c s.path.fast
  unfold addTimes
  dsimp only [img, pathIm]
  rw [e1, e2]

theorem checks_img {c : Cfg K} (hm : c.mtype = .other) (cur : Cur K) {f2 : K} (pl2 : Plane)
    (hf : Feed T cur.f f2) (s : St K) :
    checks (machineIm T base exch c) { cur with f := f2, plane := pl2 } (img T pr rg tp f pl s) = checks c cur s := by
  have e1 : (T.length s.path.work ≠ some 0) = (s.path.work ≠ some 0) := by rw [ne_eq, length_eq_zero]
  have e2 : (T.length s.path.fast ≠ some 0) = (s.path.fast ≠ some 0) := by rw [ne_eq, length_eq_zero]
  have e3 : (f2 < 0) = (cur.f < 0) := propext hf.pos.2
  have e4 : (T.scale * c.maxFast < 0) = (c.maxFast < 0) := propext (by rw [← not_le, ← not_le, mul_nonneg_iff_of_pos_left T.positive])
  have l1 : latheProg (machineIm T base exch c) pl2 = false := by unfold latheProg machineIm; rw [hm]; rfl
  have l2 : latheProg c cur.plane = false := by unfold latheProg; rw [hm]; rfl
  unfold checks
  dsimp only [img, pathIm]
  simp only [e1, e2, e3, e4, l1, l2, show (machineIm T base exch c).maxFast = T.scale * c.maxFast from rfl]
  simp

/-! ## Lengths -/

/-- The position or the word of an axis, as a number. -/
def num (m : VMap K) (old : Str → K) (a : Str) : K := (m.get a).getD (old a)

omit [IsStrictOrderedRing K] in
theorem distance_sub (a : Str) (x y : K) : T.coordinate a x - T.coordinate a y = T.distance a (x - y) := by
  unfold Similarity.coordinate Similarity.distance
  split <;> ring

omit [IsStrictOrderedRing K] in
theorem coordinate_add (a : Str) (x y : K) : T.coordinate a x + T.distance a y = T.coordinate a (x + y) := by
  unfold Similarity.coordinate Similarity.distance
  split <;> ring

omit [IsStrictOrderedRing K] in
theorem distance_sq (a : Str) (x : K) : T.distance a x ^ 2 = T.scale ^ 2 * x ^ 2 := by
  unfold Similarity.distance
  split <;> ring

omit [IsStrictOrderedRing K] in
theorem distance_zero (a : Str) : T.distance a 0 = 0 := by
  unfold Similarity.distance
  split <;> simp

/-- The root of the machine's mathematics at squares of the scale. -/
def Root (T : Similarity K) (F : Fns K) : Prop := ∀ x, 0 ≤ x → F.sqrt (T.scale ^ 2 * x) = T.scale * F.sqrt x

theorem len_img {F : Fns K} (hF : Root T F) {d d' : Str → K} (h : ∀ a ∈ threeAxes, d' (T.onto a) = T.distance a (d a)) :
    len3 F (d' c!"X") (d' c!"Y") (d' c!"Z") = T.scale * len3 F (d c!"X") (d c!"Y") (d c!"Z") := by
  have := sum_axes T (g := fun b => d' b ^ 2) (h := fun a => T.scale ^ 2 * d a ^ 2) (fun a ha => by
    show d' (T.onto a) ^ 2 = _
    rw [h a ha, distance_sq])
  unfold len3
  rw [this, ← mul_add, ← mul_add]
  exact hF _ (by positivity)

omit [IsStrictOrderedRing K] in
theorem calm_atTool {v : Vis K} (h : Calmly v) (c : Cfg K) : atTool c v = false := by
  unfold atTool toolOf
  rw [h.m6, h.tools]
  simp

omit [IsStrictOrderedRing K] in
theorem calm_atBase {v : Vis K} (h : Calmly v) : atBase v = false := by
  unfold atBase
  rw [decide_eq_false_iff_not]
  exact fun q => h.codes _ q (by decide)

omit [IsStrictOrderedRing K] in
theorem linearAbs_known (F : Fns K) {c : Cfg K} (hm : c.mtype = .other) {v : Vis K} (hv : Calmly v) (cur : Cur K) (s : St K)
    (hk : ∀ a ∈ threeAxes, (s.prev.get a).isSome = true) :
    let d := fun a => num s.prev (fun _ => 0) a - num v.vals (num s.prev (fun _ => 0)) a
    linearAbs F c v cur s = (setMotion cur.g (some (len3 F (d c!"X") (d c!"Y") (d c!"Z"))) s, .ok true) := by
  obtain ⟨x, hx⟩ := Option.isSome_iff_exists.mp (hk c!"X" (by decide))
  obtain ⟨y, hy⟩ := Option.isSome_iff_exists.mp (hk c!"Y" (by decide))
  obtain ⟨z, hz⟩ := Option.isSome_iff_exists.mp (hk c!"Z" (by decide))
  have t : ∀ (a : Str) (q : K), target c v a q = .ok ((v.vals.get a).getD q) := by
    intro a q
    unfold target
    rw [calm_atTool hv, calm_atBase hv]
    rfl
  have hh : ∀ q : K, halve c cur.plane q = q := by
    intro q
    unfold halve latheProg
    rw [hm]
    simp
  unfold linearAbs num
  rw [hx, hy, hz]
  dsimp only
  rw [t, t, t]
  dsimp only
  rw [hh, hh, hx, hy, hz]
  rfl

omit [IsStrictOrderedRing K] in
theorem linearIncr_known (F : Fns K) {c : Cfg K} (hm : c.mtype = .other) (v : Vis K) (cur : Cur K) (s : St K)
    (hk : ∀ a ∈ threeAxes, (s.prev.get a).isSome = true) :
    let d := num v.vals (fun _ => 0)
    linearIncr F c v cur s = (setMotion cur.g (some (len3 F (d c!"X") (d c!"Y") (d c!"Z"))) s, .ok true) := by
  have t : ∀ a ∈ threeAxes, known v s a ≠ false := by
    intro a ha
    unfold known
    rw [hk a ha]
    simp
  have hh : ∀ q : K, halve c cur.plane q = q := by
    intro q
    unfold halve latheProg
    rw [hm]
    simp
  unfold linearIncr num
  rw [if_neg (t _ (by decide)), if_neg (t _ (by decide)), if_neg (t _ (by decide)), hh]

/-- Outcomes of parts of the evaluation. -/
theorem linear_img {F : Fns K} (hF : Root T F) {c : Cfg K} (hm : c.mtype = .other) {v : Vis K} (hv : Calmly v) (cur : Cur K)
    (f2 : K) (pl2 : Plane) {vals : VMap K} (vf : Option K) (vp : Option Plane) {og : List Str} (hog : ∀ t ∈ og, t ∉ bad) (hV : Values T cur.incr v.vals vals) (s : St K)
    (hk : ∀ a ∈ threeAxes, (s.prev.get a).isSome = true) (hp : Places T s.prev pr) :
    ∃ l, linear F c v cur s = (setMotion cur.g l (cancelBy c cur.g s), .ok true) ∧
      linear F (machineIm T base exch c) { v with vals := vals, f := vf, plane := vp, otherG := og } { cur with f := f2, plane := pl2 }
        (img T pr rg tp f pl s) = (img T pr rg tp f pl (setMotion cur.g l (cancelBy c cur.g s)), .ok true) := by
  have hv' : Calmly ({ v with vals := vals, f := vf, plane := vp, otherG := og } : Vis K) := ⟨hv.1, hv.2, hog⟩
  have hk' : ∀ a ∈ threeAxes, (pr.get a).isSome = true := by
    intro b hb
    obtain ⟨a, ha, rfl⟩ := onto_surj T hb
    rw [hp a ha, Option.isSome_map]
    exact hk a ha
  have hpos : ∀ a ∈ threeAxes, num pr (fun _ => 0) (T.onto a) = T.coordinate a (num s.prev (fun _ => 0) a) := by
    intro a ha
    obtain ⟨x, hx⟩ := Option.isSome_iff_exists.mp (hk a ha)
    unfold num
    rw [hp a ha, hx]
    rfl
  unfold linear
  rw [calm_atTool hv, calm_atBase hv, calm_atTool hv', calm_atBase hv']
  cases hi : cur.incr with
  | false =>
    rw [if_pos (Or.inl rfl), if_pos (Or.inl rfl)]
    dsimp only
    rw [cancelBy_img, linearAbs_known F hm hv cur _ (by rw [cancelBy_prev]; exact hk),
      linearAbs_known F (c := machineIm T base exch c) hm hv' _ _ (by show ∀ a ∈ threeAxes, (pr.get a).isSome = true; exact hk')]
    refine ⟨_, rfl, ?_⟩
    rw [← setMotion_img, cancelBy_prev]
    congr 3
    refine len_img hF (d := fun a => num s.prev (fun _ => 0) a - num v.vals (num s.prev (fun _ => 0)) a)
      (d' := fun a => num pr (fun _ => 0) a - num vals (num pr (fun _ => 0)) a) ?_
    intro a ha
    show num pr (fun _ => 0) (T.onto a) - num vals (num pr (fun _ => 0)) (T.onto a) = _
    rw [← distance_sub, hpos a ha]
    congr 1
    show (vals.get (T.onto a)).getD _ = T.coordinate a ((v.vals.get a).getD _)
    rw [hV.1 a ha]
    cases v.vals.get a with
    | none => exact hpos a ha
    | some x =>
      show act T cur.incr a x = T.coordinate a x
      unfold act
      rw [hi]; rfl
  | true =>
    rw [if_neg (by simp), if_neg (by simp [hi])]
    dsimp only
    rw [cancelBy_img, linearIncr_known F hm v cur _ (by rw [cancelBy_prev]; exact hk),
      linearIncr_known F (c := machineIm T base exch c) hm _ _ _ (by show ∀ a ∈ threeAxes, (pr.get a).isSome = true; exact hk')]
    refine ⟨_, rfl, ?_⟩
    rw [← setMotion_img]
    congr 3
    refine len_img hF (d := num v.vals (fun _ => 0)) (d' := num vals (fun _ => 0)) ?_
    intro a ha
    show (vals.get (T.onto a)).getD 0 = T.distance a ((v.vals.get a).getD 0)
    rw [hV.1 a ha]
    cases v.vals.get a with
    | none => exact (distance_zero a).symm
    | some x =>
      show act T cur.incr a x = T.distance a x
      unfold act
      rw [hi]; rfl

/-! ## Positions -/

omit [Field K] [LinearOrder K] [IsStrictOrderedRing K] in
theorem skipped_calm {g : Int} (hg : g ∈ ([-1, 0, 1, 80] : List Int)) {og : List Str} (ho : ∀ t ∈ og, t ∉ bad) {a : Str}
    (ha : a ∈ threeAxes) : skipped g og a = false := by
  have hd : isDrill g = false ∧ isDrillQ g = false := by
    simp only [List.mem_cons, List.not_mem_nil, or_false] at hg
    rcases hg with rfl | rfl | rfl | rfl <;> decide
  have hi : ∀ a ∈ threeAxes, ∃ e, ignored.find? (fun e => e.1 == a) = some e ∧ (∀ t ∈ e.2, t ∈ bad) ∧ a ≠ c!"Q" ∧ a ≠ c!"L" := by
    decide
  obtain ⟨e, h1, h2, h3, h4⟩ := hi a ha
  unfold skipped
  rw [hd.1, hd.2, h1]
  have h5 : e.2.any (fun x => og.any (fun y => y == x)) = false := by
    rw [List.any_eq_false]
    intro x hx h
    rw [List.any_eq_true] at h
    obtain ⟨y, hy, he⟩ := h
    rw [beq_iff_eq] at he
    exact ho y hy (he ▸ h2 x hx)
  dsimp only
  rw [h5, decide_eq_false h3, decide_eq_false h4]
  simp

/-- Related states of the two simulations. -/
structure Rel (T : Similarity K) (s s' : St K) : Prop where
  eq : s' = img T s'.prev s'.range s'.tPath s'.f s'.plane s
  places : Places T s.prev s'.prev
  feed : Feed T s.f s'.f
  known : ∀ a ∈ threeAxes, (s.prev.get a).isSome = true
  g : s.g ∈ ([-1, 0, 1, 80] : List Int)

omit [IsStrictOrderedRing K] in
theorem Rel.mk' {s : St K} (hp : Places T s.prev pr) (hf : Feed T s.f f) (hk : ∀ a ∈ threeAxes, (s.prev.get a).isSome = true)
    (hg : s.g ∈ ([-1, 0, 1, 80] : List Int)) : Rel T s (img T pr rg tp f pl s) := ⟨rfl, hp, hf, hk, hg⟩

/-- The recorded positions are the ranges' current values. -/
def Synced (s : St K) : Prop := ∀ a, s.prev.get a = (s.range.get a).map (·.cur)

omit [IsStrictOrderedRing K] in
theorem copySt_rel {incr : Bool} {og og' : List Str} (ho : ∀ t ∈ og, t ∉ bad) (ho' : ∀ t ∈ og', t ∉ bad) {m m' : VMap K} (hV : Values T incr m m') (hs : m.Sorted)
    (hs' : m'.Sorted) {s s' : St K} (h : Rel T s s') (hy : Synced s) (hy' : Synced s') :
    Rel T (copySt incr og m s) (copySt incr og' m' s') := by
  obtain ⟨he, hp, hf, hk, hg⟩ := h
  have hg' : s'.g = s.g := by rw [he]; rfl
  have key : ∀ a ∈ threeAxes, (copySt incr og' m' s').prev.get (T.onto a) = ((copySt incr og m s).prev.get a).map (T.coordinate a) ∧
      ((copySt incr og m s).prev.get a).isSome = true := by
    intro a ha
    show (copyBack s'.g incr og' m' (s'.prev, s'.range)).1.get _ = ((copyBack s.g incr og m (s.prev, s.range)).1.get a).map _ ∧
      ((copyBack s.g incr og m (s.prev, s.range)).1.get a).isSome = true
    rw [copyBack_prev _ _ _ hs, copyBack_prev _ _ _ hs', hg', skipped_calm hg ho ha, skipped_calm hg ho' (onto_mem T ha), hV.1 a ha]
    cases m.get a with
    | none => exact ⟨hp a ha, hk a ha⟩
    | some x =>
      refine ⟨?_, rfl⟩
      show some (newValue incr (T.onto a) (act T incr a x) (s'.range.get (T.onto a))) = some (T.coordinate a (newValue incr a x (s.range.get a)))
      rw [newValue_cur, newValue_cur, ← hy a, ← hy' (T.onto a), hp a ha]
      have three : ∀ b ∈ threeAxes, b = c!"X" ∨ b = c!"Y" ∨ b = c!"Z" := by decide
      obtain ⟨q, hq⟩ := Option.isSome_iff_exists.mp (hk a ha)
      rw [hq]
      unfold act
      cases incr with
      | false => simp
      | true =>
        simp only [true_and, if_pos (three _ ha), if_pos (three _ (onto_mem T ha)), if_true]
        exact congrArg some (coordinate_add a q x)
  refine ⟨?_, fun a ha => (key a ha).1, ?_, fun a ha => (key a ha).2, ?_⟩
  · show ({ s' with prev := _, range := _ } : St K) = _
    rw [he]
    rfl
  · show Feed T s.f s'.f
    exact hf
  · show s.g ∈ _
    exact hg

/-! ## A block -/

variable [FloorRing K]

omit [IsStrictOrderedRing K] [FloorRing K] in
theorem getD_feed {vf vf' : Option K} (h : FeedO T vf vf') {x x' : K} (hx : Feed T x x') : Feed T (vf.getD x) (vf'.getD x') := by
  rcases h with ⟨rfl, rfl⟩ | ⟨y, rfl, h0, rfl⟩
  · exact hx
  · exact Or.inr ⟨h0, rfl⟩

omit [FloorRing K] in
theorem gAfter_mem {c : Cfg K} {g : Int} (h : g ∈ ([-1, 0, 1, 80] : List Int)) : gAfter c g ∈ ([-1, 0, 1, 80] : List Int) := by
  unfold gAfter
  split
  · decide
  · exact h

theorem account_rel (F : Fns K) {c : Cfg K} (hm : c.mtype = .other) (inch inch' : Inch) {v : Vis K} (hv : Calmly v) (hs : v.vals.Sorted)
    {cur : Cur K} {f2 : K} (pl2 : Plane) (hf : Feed T cur.f f2) (hg : cur.g ∈ ([-1, 0, 1, 80] : List Int)) {vals : VMap K}
    (vf : Option K) (vp : Option Plane) {og : List Str} (hog : ∀ t ∈ og, t ∉ bad)
    (hV : Values T cur.incr v.vals vals) (hs' : vals.Sorted) {s : St K} (hp : Places T s.prev pr)
    (hk : ∀ a ∈ threeAxes, (s.prev.get a).isSome = true) (hy : Synced s) (hy' : ∀ a, pr.get a = (rg.get a).map (·.cur)) :
    (account F (machineIm T base exch c) inch' { v with vals := vals, f := vf, plane := vp, otherG := og } { cur with f := f2, plane := pl2 }
      (img T pr rg tp f pl s)).2 = (account F c inch v cur s).2 ∧
    Rel T (account F c inch v cur s).1 (account F (machineIm T base exch c) inch' { v with vals := vals, f := vf, plane := vp, otherG := og }
      { cur with f := f2, plane := pl2 } (img T pr rg tp f pl s)).1 := by
  have hv' : Calmly ({ v with vals := vals, f := vf, plane := vp, otherG := og } : Vis K) := ⟨hv.1, hv.2, hog⟩
  have e : counted F (machineIm T base exch c) inch' { cur with f := f2, plane := pl2 } (img T pr rg tp f pl s) =
      img T pr rg tp f2 pl2 (counted F c inch cur s) := by
    unfold counted
    rw [saveModal_img, addPath_img, addTimes_img F hm inch inch' cur pl2 hf]
  have hrel : Rel T (counted F c inch cur s) (img T pr rg tp f2 pl2 (counted F c inch cur s)) :=
    Rel.mk' hp hf hk (gAfter_mem hg)
  rw [account_eq, account_eq, e, checks_img hm cur pl2 hf]
  cases checks c cur (counted F c inch cur s) with
  | ok u =>
    refine ⟨rfl, ?_⟩
    dsimp only
    unfold savePositions
    rw [calm_atTool hv, calm_atBase hv, calm_atTool hv', calm_atBase hv']
    exact copySt_rel hv.codes hog hV hs hs' hrel hy hy'
  | throw x => exact ⟨rfl, hrel⟩
  | ub => exact ⟨rfl, hrel⟩

theorem cancelBy_fields (c : Cfg K) (g : Int) (s : St K) : (cancelBy c g s).prev = s.prev ∧ (cancelBy c g s).range = s.range ∧
    (cancelBy c g s).f = s.f ∧ (cancelBy c g s).g = s.g := by
  unfold cancelBy; split <;> exact ⟨rfl, rfl, rfl, rfl⟩

theorem setMotion_fields (g : Int) (l : Fl K) (s : St K) : (setMotion g l s).prev = s.prev ∧ (setMotion g l s).range = s.range ∧
    (setMotion g l s).f = s.f ∧ (setMotion g l s).g = s.g := by
  unfold setMotion; split <;> exact ⟨rfl, rfl, rfl, rfl⟩

theorem moveBlock_rel {F : Fns K} (hF : Root T F) {c : Cfg K} (hm : c.mtype = .other) (inch inch' : Inch) {v v' : Vis K} {incr : Bool}
    (hv : VisIm T incr v v') (hs : v.vals.Sorted) (hs' : v'.vals.Sorted) {s s' : St K} (h : Rel T s s') (hy : Synced s)
    (hy' : Synced s') (hi : v.incr.getD s.incr = incr) (hg : v.g = none ∨ ∃ n ∈ ([0, 1, 80] : List Int), v.g = some n) :
    (moveBlock F (machineIm T base exch c) inch' v' s').2 = (moveBlock F c inch v s).2 ∧
    Rel T (moveBlock F c inch v s).1 (moveBlock F (machineIm T base exch c) inch' v' s').1 := by
  obtain ⟨hcalm, vals, vf, vp, og, rfl, hV, hfo, hog⟩ := hv
  obtain ⟨he, hp, hf, hk, hgs⟩ := h
  generalize s'.prev = pr at *
  generalize s'.range = rg at *
  generalize s'.tPath = tp at *
  generalize hf' : s'.f = f at *
  generalize hp' : s'.plane = pl at *
  subst he
  have hy2 : ∀ a, pr.get a = (rg.get a).map (·.cur) := hy'
  have hcur : current ({ v with vals := vals, f := vf, plane := vp, otherG := og } : Vis K) (img T pr rg tp f pl s) =
      { current v s with f := vf.getD f, plane := vp.getD pl } := rfl
  have hcg : (current v s).g ∈ ([-1, 0, 1, 80] : List Int) := by
    show v.g.getD s.g ∈ _
    rcases hg with hg | ⟨n, hn, hg⟩
    · rw [hg]; exact hgs
    · rw [hg]; exact List.mem_cons_of_mem _ hn
  have hfeed : Feed T (current v s).f (vf.getD f) := getD_feed hfo hf
  have hV' : Values T (current v s).incr v.vals vals := by
    show Values T (v.incr.getD s.incr) _ _
    rw [hi]; exact hV
  unfold moveBlock
  rw [hcur]
  by_cases hlin : (current v s).g = 0 ∨ (current v s).g = 1
  · obtain ⟨l, e1, e2⟩ := linear_img (rg := rg) (tp := tp) (f := f) (pl := pl) (base := base) (exch := exch) hF hm hcalm (current v s)
      (vf.getD f) (vp.getD pl) vf vp hog hV' s hk hp
    have m1 : motion F c v (current v s) s = linear F c v (current v s) s := by unfold motion; rw [if_pos hlin]
    have m2 : motion F (machineIm T base exch c) { v with vals := vals, f := vf, plane := vp, otherG := og } { current v s with f := vf.getD f, plane := vp.getD pl }
        (img T pr rg tp f pl s) = linear F (machineIm T base exch c) { v with vals := vals, f := vf, plane := vp, otherG := og }
          { current v s with f := vf.getD f, plane := vp.getD pl } (img T pr rg tp f pl s) := by
      unfold motion; exact if_pos hlin
    rw [m1, m2, e1, e2]
    obtain ⟨c1, c2, c3, c4⟩ := cancelBy_fields c (current v s).g s
    obtain ⟨d1, d2, d3, d4⟩ := setMotion_fields (current v s).g l (cancelBy c (current v s).g s)
    refine account_rel F hm inch inch' hcalm hs (vp.getD pl) hfeed hcg vf vp hog hV' hs' ?_ ?_ ?_ hy2
    · rw [d1, c1]; exact hp
    · rw [d1, c1]; exact hk
    · intro a; rw [d1, d2, c1, c2]; exact hy a
  · have rest : (current v s).g = 80 ∨ (current v s).g = -1 := by
      simp only [List.mem_cons, List.not_mem_nil, or_false] at hcg
      rcases hcg with h | h | h | h
      · exact Or.inr h
      · exact absurd (Or.inl h) hlin
      · exact absurd (Or.inr h) hlin
      · exact Or.inl h
    rcases rest with r | r
    · have m1 : motion F c v (current v s) s = (cancelCycle s, .ok true) := by
        unfold motion; rw [r]; rfl
      have m2 : motion F (machineIm T base exch c) { v with vals := vals, f := vf, plane := vp, otherG := og } { current v s with f := vf.getD f, plane := vp.getD pl }
          (img T pr rg tp f pl s) = (cancelCycle (img T pr rg tp f pl s), .ok true) := by
        unfold motion; dsimp only; rw [r]; rfl
      rw [m1, m2, cancelCycle_img]
      exact account_rel F hm inch inch' hcalm hs (vp.getD pl) hfeed hcg vf vp hog hV' hs' hp hk hy hy2
    · have m1 : motion F c v (current v s) s = (s, .ok false) := by
        unfold motion; rw [r]; rfl
      have m2 : motion F (machineIm T base exch c) { v with vals := vals, f := vf, plane := vp, otherG := og } { current v s with f := vf.getD f, plane := vp.getD pl }
          (img T pr rg tp f pl s) = (img T pr rg tp f pl s, .ok false) := by
        unfold motion; dsimp only; rw [r]; rfl
      rw [m1, m2]
      exact ⟨rfl, Rel.mk' hp hf hk hgs⟩

theorem afterTool_rel {F : Fns K} (hF : Root T F) {c : Cfg K} (hm : c.mtype = .other) (inch inch' : Inch) {v v' : Vis K} {incr : Bool}
    (hv : VisIm T incr v v') (hs : v.vals.Sorted) (hs' : v'.vals.Sorted) {s s' : St K} (h : Rel T s s') (hy : Synced s)
    (hy' : Synced s') (hi : v.incr.getD s.incr = incr) (hg : v.g = none ∨ ∃ n ∈ ([0, 1, 80] : List Int), v.g = some n) :
    (afterTool F (machineIm T base exch c) inch' v' s').2 = (afterTool F c inch v s).2 ∧
    Rel T (afterTool F c inch v s).1 (afterTool F (machineIm T base exch c) inch' v' s').1 := by
  have hcalm := hv.1
  have hcalm' : Calmly v' := by obtain ⟨h1, _, _, _, _, rfl, _, _, hog⟩ := hv; exact ⟨h1.1, h1.2, hog⟩
  have dw : ∀ {u : Vis K} (_ : Calmly u) (q : St K), dwell u q = q := by
    intro u hu q
    unfold dwell
    rw [if_neg]
    rintro (h | h)
    · exact hu.codes _ h (by decide)
    · exact hu.codes _ h (by decide)
  unfold afterTool
  rw [dw hcalm, dw hcalm']
  have st : ∀ {u : Vis K} (_ : Calmly u) (c : Cfg K) (q : St K), startPart c u q =
      if q.autoRapid = true ∧ u.vals ≠ [] then ({ q with autoRapid := false, g := 0 }, .ok true)
      else if q.g = -1 ∧ u.g = none then (beforeMotion u q, .ok false) else (q, .ok true) := by
    intro u hu c q
    unfold startPart
    rw [calm_atTool hu, calm_atBase hu]
    simp
  rw [st hcalm, st hcalm']
  have a1 : s'.autoRapid = s.autoRapid := by rw [h.eq]; rfl
  have a2 : s'.g = s.g := by rw [h.eq]; rfl
  have a3 : v'.g = v.g := by obtain ⟨_, _, _, _, _, rfl, _⟩ := hv; rfl
  have a4 : (v'.vals ≠ []) = (v.vals ≠ []) := by
    obtain ⟨_, vals, _, _, og, rfl, hV, _⟩ := hv
    exact propext (not_congr hV.2.symm)
  rw [a1, a2, a3]
  simp only [a4]
  by_cases h1 : s.autoRapid = true ∧ v.vals ≠ []
  · rw [if_pos h1, if_pos h1]
    refine moveBlock_rel hF hm inch inch' hv hs hs' (s := { s with autoRapid := false, g := 0 }) (s' := { s' with autoRapid := false, g := 0 })
      ⟨?_, h.places, h.feed, h.known, (by decide : (0 : Int) ∈ ([-1, 0, 1, 80] : List Int))⟩ hy hy' hi hg
    rw [h.eq]
    rfl
  rw [if_neg h1, if_neg h1]
  by_cases h2 : s.g = -1 ∧ v.g = none
  · rw [if_pos h2, if_pos h2]
    refine ⟨rfl, ?_⟩
    show Rel T (beforeMotion v s) (beforeMotion v' s')
    obtain ⟨_, vals, vf, vp, og, rfl, hV, _, hog⟩ := hv
    unfold beforeMotion
    dsimp only
    have b1 : s'.incr = s.incr := by rw [h.eq]; rfl
    rw [b1, hi]
    refine copySt_rel hcalm.codes hog hV hs hs' ⟨?_, h.places, h.feed, h.known, h.g⟩ hy hy'
    rw [h.eq]
    rfl
  · rw [if_neg h2, if_neg h2]
    exact moveBlock_rel hF hm inch inch' hv hs hs' h hy hy' hi hg

theorem mTimes_fields (c : Cfg K) (v : Vis K) (s : St K) : (mTimes c v s).prev = s.prev ∧ (mTimes c v s).range = s.range ∧
    (mTimes c v s).f = s.f ∧ (mTimes c v s).g = s.g ∧ (mTimes c v s).incr = s.incr := by
  unfold mTimes exchangeTimes
  dsimp only
  split_ifs <;> exact ⟨rfl, rfl, rfl, rfl, rfl⟩

theorem evaluate_rel {F : Fns K} (hF : Root T F) {c : Cfg K} (hc : AxesOk c) (hm : c.mtype = .other) (inch inch' : Inch) (line line' : Int)
    {b b' : Block} {p p' : St K × MacroMap ℚ} (hb : List.Forall₂ (Word T (incremental b p.1.incr)) b b') (hst : Straight b)
    (h : Rel T p.1 p'.1) (hy : Synced p.1) (hy' : Synced p'.1) :
    (evaluate F (machineIm T base exch c) inch' line' b' p').2 = (evaluate F c inch line b p).2 ∧
    Rel T (evaluate F c inch line b p).1.1 (evaluate F (machineIm T base exch c) inch' line' b' p').1.1 := by
  have hcl : Rel T (clearMotions p.1) (clearMotions p'.1) := by
    refine ⟨?_, h.places, h.feed, h.known, h.g⟩
    rw [h.eq, clearMotions_img]
    rfl
  unfold evaluate
  dsimp only
  by_cases hn : b = []
  · subst hn
    cases hb
    rw [if_pos rfl, if_pos rfl]
    exact ⟨rfl, hcl⟩
  have hn' : b' ≠ [] := by
    rintro rfl
    cases hb
    exact hn rfl
  rw [if_neg hn, if_neg hn']
  have hvis := visitAll_image hc hb (visIm_empty (T := T) (incr := incremental b p.1.incr))
  have hcm : visitAll (machineIm T base exch c) ({} : Vis K) b' = visitAll c {} b' := by
    have : ∀ (b : Block) (r : Vis K), visitAll (machineIm T base exch c) r b = visitAll c r b := by
      intro b
      induction b with
      | nil => intro r; rfl
      | cons a t ih =>
        intro r
        unfold visitAll
        rw [show visit (machineIm T base exch c) r a = visit c r a from rfl]
        cases visit c r a with
        | ok q => exact ih q
        | throw e => rfl
        | ub => rfl
    exact this b' {}
  rw [hcm]
  cases h1 : visitAll c ({} : Vis K) b with
  | throw e =>
    cases h2 : visitAll c ({} : Vis K) b' with
    | throw e' => rw [h1, h2] at hvis; cases hvis; exact ⟨rfl, hcl⟩
    | ok v => rw [h1, h2] at hvis; exact hvis.elim
    | ub => rw [h1, h2] at hvis; exact hvis.elim
  | ub =>
    cases h2 : visitAll c ({} : Vis K) b' with
    | throw e' => rw [h1, h2] at hvis; exact hvis.elim
    | ok v => rw [h1, h2] at hvis; exact hvis.elim
    | ub => exact ⟨rfl, hcl⟩
  | ok v =>
    cases h2 : visitAll c ({} : Vis K) b' with
    | throw e' => rw [h1, h2] at hvis; exact hvis.elim
    | ub => rw [h1, h2] at hvis; exact hvis.elim
    | ok v' =>
      rw [h1, h2] at hvis
      have hvis : VisIm T _ v v' := hvis
      have so := visitAll_sorted (r := ({} : Vis K)) List.Pairwise.nil h1
      have so' := visitAll_sorted (r := ({} : Vis K)) List.Pairwise.nil h2
      have hcalm := hvis.1
      have hcalm' : Calmly v' := by obtain ⟨q, _, _, _, _, rfl, _, _, hog⟩ := hvis; exact ⟨q.1, q.2, hog⟩
      have tp0 : ∀ {u : Vis K} (_ : Calmly u), toolOf u = none := by
        intro u hu
        unfold toolOf
        rw [hu.m6, hu.tools]
        rfl
      have hg : v.g = none ∨ ∃ n ∈ ([0, 1, 80] : List Int), v.g = some n := by
        have e := visitAll_group hc h1 1 (by decide)
        have e' : v.g = (groupCodes 1 b).getLast? := e
        cases hl : (groupCodes 1 b).getLast? with
        | none => left; rw [e', hl]
        | some n => right; exact ⟨n, hst n (List.mem_of_getLast? hl), by rw [e', hl]⟩
      have hin : v.incr.getD p.1.incr = incremental b p.1.incr := by
        unfold incremental
        rw [visitAll_incr hc h1]
      dsimp only
      unfold evalVis
      dsimp only
      unfold toolPart
      rw [tp0 hcalm, tp0 hcalm']
      dsimp only
      obtain ⟨m1, m2, m3, m4, m5⟩ := mTimes_fields c v (clearMotions p.1)
      have hrel : Rel T (mTimes c v (clearMotions p.1)) (mTimes (machineIm T base exch c) v' (clearMotions p'.1)) := by
        obtain ⟨_, vals, vf, vp, _, rfl, _⟩ := hvis
        rw [hcl.eq, mTimes_img]
        exact Rel.mk' (by rw [m1]; exact hcl.places) (by rw [m3]; exact hcl.feed) (by rw [m1]; exact hcl.known) (by rw [m4]; exact hcl.g)
      obtain ⟨n1, n2, n3, n4, n5⟩ := mTimes_fields (machineIm T base exch c) v' (clearMotions p'.1)
      have := afterTool_rel (base := base) (exch := exch) hF hm inch inch' hvis so so' hrel
        (by intro a; rw [m1, m2]; exact hy a) (by intro a; rw [n1, n2]; exact hy' a) (by rw [m5]; exact hin) hg
      exact ⟨congrArg finish this.1, this.2⟩

end
end NC.Sml
