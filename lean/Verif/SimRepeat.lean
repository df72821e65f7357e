import Verif.Spec.Repeat
import Verif.SimCoords
import Verif.Props.SimModal

/-!
# Words that repeat what is in force, in the calculator
-/

namespace NC.Rpt
open NC NC.Path NC.Ver NC.AttrPath NC.Spec.Sim NC.Props
open NC.Spec.Repeat

section
variable {K : Type} [Field K] [LinearOrder K]

/-- The visitor has collected the same but for what is modal. -/
def Same (v v' : Vis K) : Prop :=
  v' = { v with f := v'.f, s := v'.s, g := v'.g, plane := v'.plane, ret := v'.ret, incr := v'.incr, css := v'.css, perRev := v'.perRev }

/-- The results of the visitor. -/
def SameO : Out Exc (Vis K) → Out Exc (Vis K) → Prop
  | .ok v, .ok v' => Same v v'
  | .throw e, .throw e' => e = e'
  | .ub, .ub => True
  | _, _ => False

omit [Field K] [LinearOrder K] in
theorem same_on {v v' : Vis K} (h : Same v v') (x : Act K) : Same (Act.on v x) (Act.on v' x) := by
  unfold Same at h
  rw [h]
  cases x with
  | code k t => cases k <;> rfl
  | _ => rfl

theorem same_visit {c : Cfg K} {v v' : Vis K} (h : Same v v') (a : Attr) : SameO (visit c v a) (visit c v' a) := by
  have hs : v'.skip = v.skip := by unfold Same at h; rw [h]
  cases a with
  | dec d =>
    unfold visit
    dsimp only
    rw [hs]
    split
    · unfold Same at h; rw [h]; rfl
    · split
      · exact h
      · cases readWord c d with
        | ok x => exact same_on h x
        | throw e => rfl
        | ub => trivial
  | str w s => exact same_on h _
  | chr w s => exact h

theorem read_rate {c : Cfg K} (hc : AxesOk c) {d : Dec} {q : ℚ} (hr : rateOf d = some q) :
    (d.word = c!"F" → readWord c d = .ok (.feed (q : K))) ∧ (d.word = c!"S" → readWord c d = .ok (.spindle (q : K))) := by
  have key : ∀ f : K → Act K, readFeed f d = .ok (f (q : K)) := by
    intro f
    unfold readFeed
    unfold rateOf at hr
    have ht : feedText d = d.value.getD [] ++ (if d.dot.isSome then d.dot.toList ++ d.value2.getD [] else []) := by
      unfold feedText
      cases d.value <;> cases d.dot <;> cases d.value2 <;> rfl
    rw [ht]
    unfold stodE
    by_cases hn : d.value = none ∧ d.dot = none
    · rw [hn.1, hn.2] at hr; simp at hr
    · rw [if_neg hn]
      have h1 : d.value.isSome ∨ d.dot.isSome := by
        by_contra h1
        rw [if_neg h1] at hr
        cases hr
      rw [if_pos h1] at hr
      cases hq : stod (d.value.getD [] ++ (if d.dot.isSome then d.dot.toList ++ d.value2.getD [] else [])) with
      | ok y => rw [hq] at hr; cases hr; rfl
      | throw e => rw [hq] at hr; cases hr
      | ub => rw [hq] at hr; cases hr
  constructor
  · intro hF
    unfold readWord
    rw [if_neg (by rw [hF]; exact code_ne_param hc (by decide)), if_neg (by rw [hF]; decide), if_pos hF]
    exact key _
  · intro hS
    unfold readWord
    rw [if_neg (by rw [hS]; exact code_ne_param hc (by decide)), if_neg (by rw [hS]; decide), if_neg (by rw [hS]; decide), if_pos hS]
    exact key _

theorem same_repeat {c : Cfg K} (hc : AxesOk c) {m : Modal K} {b : Block} {d : Dec} (h : Repeats m b d) {v v' : Vis K} (hv : Same v v') :
    ∃ r, visit c v' (.dec d) = .ok r ∧ Same v r := by
  have key : ∀ x : Act K, d.word ≠ c!"/" → readWord c d = .ok x → (∀ w : Vis K, Same v w → Same v (Act.on w x)) →
      ∃ r, visit c v' (.dec d) = .ok r ∧ Same v r := by
    intro x hw hr hx
    unfold visit
    dsimp only
    rw [if_neg hw, hr]
    split
    · exact ⟨v', rfl, hv⟩
    · exact ⟨_, rfl, hx v' hv⟩
  cases h with
  | code n k h1 h2 h3 h4 h5 =>
    obtain ⟨t, hr⟩ := Cds.read_code (K := K) hc h1 h2
    refine key _ (by rw [h1]; decide) hr ?_
    intro w hw
    have hk := kindCode_gKind n
    rw [h3] at hk
    unfold Same at hw ⊢
    rw [hw]
    cases hg : gKind n with
    | other => rw [hg] at hk; cases hk
    | _ => rfl
  | feed q h1 h2 h3 h4 =>
    refine key _ (by rw [h1]; decide) ((read_rate hc h2).1 h1) ?_
    intro w hw
    unfold Same at hw ⊢
    rw [hw]
    rfl
  | speed q h1 h2 h3 h4 =>
    refine key _ (by rw [h1]; decide) ((read_rate hc h2).2 h1) ?_
    intro w hw
    unfold Same at hw ⊢
    rw [hw]
    rfl

theorem same_visitAll {c : Cfg K} (hc : AxesOk c) {m : Modal K} {b t t' : Block} (h : Padded m b t t') {v v' : Vis K} (hv : Same v v') :
    SameO (visitAll c v t) (visitAll c v' t') := by
  induction h generalizing v v' with
  | nil => exact hv
  | same a _ ih =>
    unfold visitAll
    have := same_visit (c := c) hv a
    cases h1 : visit c v a <;> cases h2 : visit c v' a <;> rw [h1, h2] at this
    case ok.ok => exact ih this
    all_goals first | exact this | exact this.elim
  | add d hd _ ih =>
    obtain ⟨r, h1, h2⟩ := same_repeat hc hd hv
    conv => arg 2; unfold visitAll
    rw [h1]
    exact ih h2

/-! ## What is in force -/

theorem words_dec (d : Dec) (t : Block) (h : d.word ≠ c!"/") : words (.dec d :: t) = d :: words t := by
  show (if d.word = c!"/" then [] else d :: words t) = _
  rw [if_neg h]

omit [LinearOrder K] in
theorem repeats_word {m : Modal K} {b : Block} {d : Dec} (h : Repeats m b d) : d.word ≠ c!"/" := by
  cases h with
  | code _ _ h => rw [h]; decide
  | feed _ h => rw [h]; decide
  | speed _ h => rw [h]; decide

omit [LinearOrder K] in
/-- Something words give, of which the added words give what is in force or nothing. -/
theorem last_padded {β : Type} (f : Dec → Option β) (old : β) {m : Modal K} {b t t' : Block} (h : Padded m b t t')
    (hf : ∀ d, Repeats m b d → f d = none ∨ f d = some old ∧ (words b).filterMap f = []) :
    ((words b).filterMap f ≠ [] → (words t').filterMap f = (words t).filterMap f) ∧
    (∀ x ∈ (words t').filterMap f, x ∈ (words t).filterMap f ∨ x = old) ∧
    (∀ x ∈ (words t).filterMap f, x ∈ (words t').filterMap f) := by
  induction h with
  | nil => exact ⟨fun _ => rfl, fun x h => Or.inl h, fun x h => h⟩
  | same a _ ih =>
    cases a with
    | dec d =>
      by_cases hd : d.word = c!"/"
      · have e : ∀ t : Block, words (.dec d :: t) = [] := by
          intro t
          show (if d.word = c!"/" then [] else d :: words t) = _
          rw [if_pos hd]
        rw [e, e]
        exact ⟨fun _ => rfl, fun x h => Or.inl h, fun x h => h⟩
      · rw [words_dec d _ hd, words_dec d _ hd, List.filterMap_cons, List.filterMap_cons]
        cases f d with
        | none => exact ih
        | some y =>
          dsimp only
          refine ⟨fun h => by rw [ih.1 h], ?_, ?_⟩
          · intro x hx
            rcases List.mem_cons.mp hx with rfl | hx
            · exact Or.inl List.mem_cons_self
            · rcases ih.2.1 x hx with h | h
              · exact Or.inl (List.mem_cons_of_mem _ h)
              · exact Or.inr h
          · intro x hx
            rcases List.mem_cons.mp hx with rfl | hx
            · exact List.mem_cons_self
            · exact List.mem_cons_of_mem _ (ih.2.2 x hx)
    | str w s => exact ih
    | chr w s => exact ih
  | add d hd _ ih =>
    rw [words_dec d _ (repeats_word hd), List.filterMap_cons]
    rcases hf d hd with h | ⟨h, h0⟩
    · rw [h]; exact ih
    · rw [h]
      dsimp only
      refine ⟨fun h => absurd h0 h, ?_, ?_⟩
      · intro x hx
        rcases List.mem_cons.mp hx with rfl | hx
        · exact Or.inr rfl
        · exact ih.2.1 x hx
      · intro x hx
        exact List.mem_cons_of_mem _ (ih.2.2 x hx)

omit [LinearOrder K] in
theorem last_in_force {β : Type} (f : Dec → Option β) (old : β) {m : Modal K} {b b' : Block} (h : Padded m b b b')
    (hf : ∀ d, Repeats m b d → f d = none ∨ f d = some old ∧ (words b).filterMap f = []) :
    ((words b').filterMap f).getLast?.getD old = ((words b).filterMap f).getLast?.getD old := by
  obtain ⟨h1, h2, _⟩ := last_padded f old h hf
  by_cases h0 : (words b).filterMap f = []
  · rw [h0]
    cases hl : ((words b').filterMap f).getLast? with
    | none => rfl
    | some x =>
      rcases h2 x (List.mem_of_getLast? hl) with h | h
      · rw [h0] at h; cases h
      · exact h
  · rw [h1 h0]

omit [LinearOrder K] in
theorem group_repeats {m : Modal K} {b : Block} {d : Dec} (h : Repeats m b d) {k : Nat} {old : Int} (hk : codeOf m k = some old) :
    groupWord k d = none ∨ groupWord k d = some old ∧ (words b).filterMap (groupWord k) = [] := by
  unfold groupWord
  cases h with
  | code n j h1 h2 h3 h4 h5 =>
    rw [if_pos h1, h2, Option.filter_some, h3]
    by_cases hj : j = k
    · subst hj
      right
      rw [h4] at hk
      cases hk
      refine ⟨by simp, h5⟩
    · left
      simp [hj]
  | feed q h1 => left; rw [if_neg (by rw [h1]; decide)]
  | speed q h1 => left; rw [if_neg (by rw [h1]; decide)]

omit [LinearOrder K] in
theorem group_padded {m : Modal K} {b b' : Block} (h : Padded m b b b') {k : Nat} {old : Int} (hk : codeOf m k = some old) :
    inGroup k b' old = inGroup k b old :=
  last_in_force (groupWord k) old h (fun _ hd => group_repeats hd hk)

omit [LinearOrder K] in
theorem rate_padded {m : Modal K} {b b' : Block} (h : Padded m b b b') :
    rate c!"F" b' m.feed = rate c!"F" b m.feed ∧ rate c!"S" b' m.speed = rate c!"S" b m.speed := by
  have e : ∀ (a : Str) (b : Block) (old : K), rate a b old =
      ((words b).filterMap (fun d => if d.word = a then (rateOf d).map (fun q : ℚ => (q : K)) else none)).getLast?.getD old := by
    intro a b old
    unfold rate
    rw [List.filterMap_filter]
    congr 3
    funext d
    by_cases h : d.word = a <;> simp [h]
  have emp : ∀ (a : Str), (∀ e ∈ words b, e.word ≠ a) →
      (words b).filterMap (fun d => if d.word = a then (rateOf d).map (fun q : ℚ => (q : K)) else none) = [] := by
    intro a ha
    rw [List.filterMap_eq_nil_iff]
    intro d hd
    rw [if_neg (ha d hd)]
  constructor
  · rw [e, e]
    refine last_in_force _ _ h ?_
    intro d hd
    cases hd with
    | code n j h1 => left; rw [if_neg (by rw [h1]; decide)]
    | feed q h1 h2 h3 h4 => right; rw [if_pos h1, h2]; exact ⟨by rw [← h3]; rfl, emp _ h4⟩
    | speed q h1 => left; rw [if_neg (by rw [h1]; decide)]
  · rw [e, e]
    refine last_in_force _ _ h ?_
    intro d hd
    cases hd with
    | code n j h1 => left; rw [if_neg (by rw [h1]; decide)]
    | feed q h1 => left; rw [if_neg (by rw [h1]; decide)]
    | speed q h1 h2 h3 h4 => right; rw [if_pos h1, h2]; exact ⟨by rw [← h3]; rfl, emp _ h4⟩

omit [LinearOrder K] in
theorem after_padded {m : Modal K} {b b' : Block} (h : Padded m b b b') : m.after b' = m.after b := by
  unfold Modal.after
  rw [group_padded h (k := 1) rfl, group_padded h (k := 2) rfl, group_padded h (k := 3) rfl, group_padded h (k := 5) rfl,
    group_padded h (k := 10) rfl, group_padded h (k := 13) rfl, (rate_padded h).1, (rate_padded h).2]

omit [Field K] [LinearOrder K] in
theorem cur_ext {a b : Cur K} (h : modalOfCur a = modalOfCur b) : a = b := by
  obtain ⟨g, f, s, p, i, cs, r, pr⟩ := a
  obtain ⟨g', f', s', p', i', cs', r', pr'⟩ := b
  unfold modalOfCur at h
  injection h with h1 h2 h3 h4 h5 h6 h7 h8
  dsimp only at h1 h2 h3 h4 h5 h6 h7 h8
  subst h1 h7 h8
  have e1 : p = p' := by cases p <;> cases p' <;> first | rfl | (revert h2; decide)
  have e2 : i = i' := by cases i <;> cases i' <;> first | rfl | (revert h3; decide)
  have e3 : pr = pr' := by cases pr <;> cases pr' <;> first | rfl | (revert h4; decide)
  have e4 : r = r' := by cases r <;> cases r' <;> first | rfl | (revert h5; decide)
  have e5 : cs = cs' := by cases cs <;> cases cs' <;> first | rfl | (revert h6; decide)
  subst e1 e2 e3 e4 e5
  rfl

/-! ## The calculator -/

/-- What is known of the two visitors in a state. -/
structure Rep (c : Cfg K) (v v' : Vis K) (s : St K) : Prop where
  same : Same v v'
  cur : ∀ t : St K, t.f = s.f → t.s = s.s → t.plane = s.plane → t.incr = s.incr → t.css = s.css → t.ret = s.ret → t.perRev = s.perRev →
    (t.g = s.g ∨ v'.g = v.g) → current v' t = current v t
  motion : v'.g = v.g ∨ (v'.g = some s.g ∧ v.g = none ∧ s.g ≠ -1 ∧ toolOf v = none ∧ atTool c v = false ∧ atBase v = false ∧
    (s.autoRapid = true → v.vals = []) ∧ (s.g ∉ ([0, 1, 80] : List Int) → v.vals ≠ []))
  tool : toolOf v ≠ none → tWithG v' = tWithG v

theorem mTimes_rep {c : Cfg K} {v v' : Vis K} (h : Same v v') (s : St K) : mTimes c v' s = mTimes c v s := by
  unfold Same at h
  rw [h]
  rfl

theorem toolPart_rep {c : Cfg K} {line : Int} {v v' : Vis K} {s : St K} (h : Rep c v v' s) (p : St K × MacroMap ℚ) :
    toolPart c line v' p = toolPart c line v p := by
  have h1 : toolOf v' = toolOf v := by have := h.same; unfold Same at this; rw [this]; rfl
  have h2 : atTool c v' = atTool c v := by have := h.same; unfold Same at this; rw [this]; rfl
  have h3 : v'.m6 = v.m6 ∧ v'.otherG = v.otherG ∧ v'.vals = v.vals := by have := h.same; unfold Same at this; rw [this]; exact ⟨rfl, rfl, rfl⟩
  unfold toolPart
  rw [h1, h3.1]
  cases ht : toolOf v with
  | none => rfl
  | some t =>
    have h4 := h.tool (by rw [ht]; simp)
    have h5 : ∀ s, tAlone c v' s = tAlone c v s := by
      intro s
      unfold tAlone
      rw [h2, h3.2.1, h3.2.2, h4]
    simp only [h5]

theorem dwell_rep {v v' : Vis K} (h : Same v v') (s : St K) : dwell v' s = dwell v s := by
  unfold Same at h
  rw [h]
  rfl

section
variable [FloorRing K]

theorem moveBlock_rep (F : Fns K) {c : Cfg K} {inch : Inch} {v v' : Vis K} (h : Same v v') (s : St K) (hcur : current v' s = current v s)
    (hg : v'.g = v.g ∨ (current v s).g ∈ ([0, 1, 80] : List Int) ∨ v.vals ≠ []) : moveBlock F c inch v' s = moveBlock F c inch v s := by
  unfold moveBlock
  rw [hcur]
  have h1 : ∀ t, account F c inch v' (current v s) t = account F c inch v (current v s) t := by
    intro t
    unfold Same at h
    rw [h]
    rfl
  have h2 : motion F c v' (current v s) s = motion F c v (current v s) s := by
    have hd : v'.g = v.g ∨ v.vals ≠ [] → circular F c v' (current v s) s = circular F c v (current v s) s ∧
        drilling F c v' (current v s) s = drilling F c v (current v s) s := by
      intro hv
      have hi : (v'.g = none ∧ v'.vals = []) = (v.g = none ∧ v.vals = []) := by
        have e : v'.vals = v.vals := by unfold Same at h; rw [h]
        rw [e]
        rcases hv with hv | hv
        · rw [hv]
        · simp [hv]
      have c1 : ∀ ax xp yp t, circularFrom F c v' (current v s) ax xp yp t = circularFrom F c v (current v s) ax xp yp t := by
        intro ax xp yp t
        unfold Same at h
        rw [h]
        rfl
      have c2 : cyclePart F c v' (current v s) s = cyclePart F c v (current v s) s := by
        unfold Same at h
        rw [h]
        rfl
      have c3 : holePart F v' (current v s) = holePart F v (current v s) := by
        unfold Same at h
        rw [h]
        rfl
      constructor
      · unfold circular
        simp only [hi, c1]
      · unfold drilling
        simp only [hi, c2, c3]
    unfold motion
    have hl : linear F c v' (current v s) s = linear F c v (current v s) s := by
      unfold Same at h
      rw [h]
      rfl
    rw [hl]
    rcases hg with hg | hg | hg
    · rw [(hd (Or.inl hg)).1, (hd (Or.inl hg)).2]
    · simp only [List.mem_cons, List.not_mem_nil, or_false] at hg
      rcases hg with hg | hg | hg
      · rw [if_pos (Or.inl hg), if_pos (Or.inl hg)]
      · rw [if_pos (Or.inr hg), if_pos (Or.inr hg)]
      · rw [hg]; rfl
    · rw [(hd (Or.inr hg)).1, (hd (Or.inr hg)).2]
  rw [h2]
  unfold Part.andThen
  simp only [h1]

theorem afterTool_rep (F : Fns K) {c : Cfg K} {inch : Inch} {v v' : Vis K} {s : St K} (h : Rep c v v' s) (t : St K)
    (hf : t.f = s.f) (hs : t.s = s.s) (hp : t.plane = s.plane) (hi : t.incr = s.incr) (hc : t.css = s.css) (hr : t.ret = s.ret)
    (hv : t.perRev = s.perRev) (hg : v'.g = v.g ∨ (t.g = s.g ∧ t.autoRapid = s.autoRapid)) :
    afterTool F c inch v' t = afterTool F c inch v t := by
  unfold afterTool
  rw [dwell_rep h.same]
  have hd : ∃ x, dwell v t = { t with time := x } := by
    unfold dwell dwellWord addTime
    split
    · cases v.vals.get c!"P" <;> cases v.vals.get c!"U" <;> cases v.vals.get c!"X" <;> exact ⟨_, rfl⟩
    · exact ⟨_, rfl⟩
  obtain ⟨x, hx⟩ := hd
  rw [hx]
  have e1 : atTool c v' = atTool c v ∧ atBase v' = atBase v ∧ v'.vals = v.vals ∧ v'.otherG = v.otherG := by
    have := h.same; unfold Same at this; rw [this]; exact ⟨rfl, rfl, rfl, rfl⟩
  obtain ⟨a1, a2, a3, a4⟩ := e1
  have mk : ∀ u : St K, u.f = s.f → u.s = s.s → u.plane = s.plane → u.incr = s.incr → u.css = s.css → u.ret = s.ret → u.perRev = s.perRev →
      (v'.g = v.g ∨ u.g = s.g) → moveBlock F c inch v' u = moveBlock F c inch v u := by
    intro u b1 b2 b3 b4 b5 b6 b7 b8
    refine moveBlock_rep F h.same u (h.cur u b1 b2 b3 b4 b5 b6 b7 b8.symm) ?_
    rcases h.motion with hm | ⟨m1, m2, m3, m4, m5, m6, m7, m8⟩
    · exact Or.inl hm
    · rcases b8 with b8 | b8
      · exact Or.inl b8
      · have : (current v u).g = s.g := by
          show v.g.getD u.g = s.g
          rw [m2]; exact b8
        rw [this]
        by_cases hq : s.g ∈ ([0, 1, 80] : List Int)
        · exact Or.inr (Or.inl hq)
        · exact Or.inr (Or.inr (m8 hq))
  have cu : ∀ u : St K, u.f = s.f → u.s = s.s → u.plane = s.plane → u.incr = s.incr → u.css = s.css → u.ret = s.ret → u.perRev = s.perRev →
      (v'.g = v.g ∨ u.g = s.g) → beforeMotion v' u = beforeMotion v u := by
    intro u b1 b2 b3 b4 b5 b6 b7 b8
    have := h.cur u b1 b2 b3 b4 b5 b6 b7 b8.symm
    unfold current at this
    injection this with _ _ _ c1 c2 c3 c4 _
    unfold beforeMotion
    rw [c1, c2, c3, c4, a3, a4]
  unfold startPart
  rw [a1, a2, a3]
  rcases h.motion with hm | ⟨m1, m2, m3, m4, m5, m6, m7, m8⟩
  · rw [hm]
    dsimp only
    by_cases hat : (atTool c v || atBase v) = true
    · rw [if_pos hat]
      dsimp only
      split
      · exact mk _ hf hs hp hi hc hr hv (Or.inl hm)
      · split
        · exact congrArg (fun y : St K => (y, Out.ok false)) (cu _ hf hs hp hi hc hr hv (Or.inl hm))
        · exact mk _ hf hs hp hi hc hr hv (Or.inl hm)
    · rw [if_neg hat]
      dsimp only
      split
      · exact mk _ hf hs hp hi hc hr hv (Or.inl hm)
      · split
        · exact congrArg (fun y : St K => (y, Out.ok false)) (cu _ hf hs hp hi hc hr hv (Or.inl hm))
        · exact mk _ hf hs hp hi hc hr hv (Or.inl hm)
  · have hgg : t.g = s.g ∧ t.autoRapid = s.autoRapid := by
      rcases hg with hg | hg
      · rw [m1, m2] at hg; cases hg
      · exact hg
    have n1 : ¬ (t.autoRapid = true ∧ v.vals ≠ []) := by
      rintro ⟨q1, q2⟩
      rw [hgg.2] at q1
      exact q2 (m7 q1)
    rw [m5, m6]
    dsimp only
    rw [if_neg (show ¬ ((false || false) = true) by decide)]
    rw [if_neg n1, if_neg n1, if_neg (by rw [hgg.1]; exact fun q => m3 q.2.1), if_neg (by rw [hgg.1]; exact fun q => m3 q.2.1)]
    exact mk _ hf hs hp hi hc hr hv (Or.inr hgg.1)

omit [FloorRing K] in
theorem toolPart_modes {c : Cfg K} {line : Int} {v : Vis K} {p : St K × MacroMap ℚ} :
    (toolPart c line v p).2 = .ok true → modalOf (toolPart c line v p).1.1 = modalOf p.1 ∧
      (toolOf v = none → (toolPart c line v p).1.1 = p.1) := by
  have fet : ∀ t : St K, modalOf (fetchTool c t) = modalOf t := by
    intro t
    unfold fetchTool exchangeTimes
    dsimp only
    split
    · split <;> rfl
    · rfl
  unfold toolPart
  cases toolOf v with
  | none => intro _; exact ⟨rfl, fun _ => rfl⟩
  | some t =>
    dsimp only
    have al : ∀ s, (tAlone c v s).2 = .ok true → (tAlone c v s).1 = s := by
      intro s
      unfold tAlone
      split
      · intro _; rfl
      · split
        · intro h; cases h
        · intro h; cases h
    split
    · cases stodE t with
      | throw e => intro h; cases h
      | ub => intro h; cases h
      | ok q =>
        dsimp only
        intro h
        rw [al _ h, fet]
        exact ⟨rfl, fun h => by cases h⟩
    · intro h
      dsimp only at h ⊢
      rw [al _ h, fet]
      exact ⟨rfl, fun h => by cases h⟩

omit [FloorRing K] in
theorem mTimes_modes (c : Cfg K) (v : Vis K) (s : St K) : ∃ x, mTimes c v s = { s with time := x } := by
  unfold mTimes exchangeTimes addTime
  dsimp only
  split_ifs <;> exact ⟨_, rfl⟩

theorem evalVis_rep (F : Fns K) {c : Cfg K} {inch : Inch} {line : Int} {v v' : Vis K} {s : St K} (h : Rep c v v' s) (m : MacroMap ℚ) :
    evalVis F c inch line v' (s, m) = evalVis F c inch line v (s, m) := by
  unfold evalVis
  dsimp only
  rw [mTimes_rep h.same, toolPart_rep h]
  obtain ⟨x, hx⟩ := mTimes_modes c v s
  rw [hx]
  generalize ht : toolPart c line v ({ s with time := x }, m) = t
  have hm := toolPart_modes (c := c) (line := line) (v := v) (p := ({ s with time := x }, m))
  rw [ht] at hm
  cases hb : t.2 with
  | throw e => rfl
  | ub => rfl
  | ok y =>
    cases y with
    | false => rfl
    | true =>
      dsimp only
      obtain ⟨h1, h2⟩ := hm hb
      have e : modalOf t.1.1 = modalOf s := h1
      unfold modalOf at e
      injection e with e1 e2 e3 e4 e5 e6 e7 e8
      have f2 : t.1.1.plane = s.plane := by
        revert e2
        cases t.1.1.plane <;> cases s.plane <;> first | (intro _; rfl) | decide
      have f3 : t.1.1.incr = s.incr := by
        revert e3
        cases t.1.1.incr <;> cases s.incr <;> first | (intro _; rfl) | decide
      have f4 : t.1.1.perRev = s.perRev := by
        revert e4
        cases t.1.1.perRev <;> cases s.perRev <;> first | (intro _; rfl) | decide
      have f5 : t.1.1.ret = s.ret := by
        revert e5
        cases t.1.1.ret <;> cases s.ret <;> first | (intro _; rfl) | decide
      have f6 : t.1.1.css = s.css := by
        revert e6
        cases t.1.1.css <;> cases s.css <;> first | (intro _; rfl) | decide
      rw [afterTool_rep F h t.1.1 e7 e8 f2 f3 f6 f5 f4]
      rcases h.motion with hq | ⟨_, _, _, m4, _⟩
      · exact Or.inl hq
      · right
        rw [h2 m4]
        exact ⟨rfl, rfl⟩

omit [FloorRing K] in
theorem otherG_home {c : Cfg K} (hc : AxesOk c) {v : Vis K} {b : Block} (h : visitAll c {} b = .ok v) (ho : c!"28" ∈ v.otherG) :
    ∃ d ∈ words b, d.word = c!"G" ∧ code d = some 28 := by
  have := visitAll_words (P := fun ds r => c!"28" ∈ r.otherG → ∃ e ∈ ds, e.word = c!"G" ∧ code e = some 28) (by rfl) h [] ?_ ?_ ?_ ?_
  · exact this ho
  · intro h; cases h
  · intro ds r e x _ hp hr hin
    have lift : c!"28" ∈ r.otherG → ∃ e' ∈ ds ++ [e], e'.word = c!"G" ∧ code e' = some 28 := by
      intro h
      obtain ⟨e', h1, h2⟩ := hp h
      exact ⟨e', List.mem_append_left _ h1, h2⟩
    cases x with
    | code k t =>
      by_cases hg : e.word = c!"G"
      · cases k with
        | other =>
          rcases List.mem_append.mp hin with h | h
          · exact lift h
          · have ht : t = c!"28" := (List.mem_singleton.mp h).symm
            refine ⟨e, List.mem_append_right _ (List.mem_singleton.mpr rfl), hg, ?_⟩
            rw [readWord_code_of hc hg] at hr
            unfold readCode at hr
            unfold code
            cases hq : e.value with
            | none => rw [hq] at hr; cases hr
            | some w =>
              rw [hq] at hr
              dsimp only at hr ⊢
              cases hs : stoiE w with
              | throw e => rw [hs] at hr; cases hr
              | ub => rw [hs] at hr; cases hr
              | ok n =>
                rw [hs] at hr
                have hr2 : Act.code (gKind n) (otherText w e) = (.code .other t : Act K) := Out.ok.inj hr
                obtain ⟨hk, ht2⟩ : gKind n = .other ∧ otherText w e = t := by
                  injection hr2 with h1 h2
                  exact ⟨h1, h2⟩
                rw [ht] at ht2
                have hw : w = c!"28" := by
                  unfold otherText at ht2
                  split at ht2
                  · rename_i p v2 _ h3
                    exfalso
                    cases w with
                    | nil => exact absurd hs (by unfold stoiE; rw [show stoi [] = .throw .invalidArgument from rfl]; simp)
                    | cons a w =>
                      have ha : a = '2' := (List.cons.inj ht2).1
                      cases w with
                      | nil =>
                        rw [ha] at hs
                        have : n = 2 := by
                          have h0 : stoiE ['2'] = .ok 2 := by decide
                          rw [h0] at hs
                          exact (Out.ok.inj hs).symm
                        rw [this] at hk
                        revert hk; decide
                      | cons a2 w =>
                        exact absurd (List.cons.inj (List.cons.inj ht2).2).2 (by simp)
                  · exact ht2
                rw [hw]
                rfl
        | _ => exact lift hin
      · exact absurd rfl (readWord_not_code hg hr _ _)
    | nothing => exact lift hin
    | val w y => exact lift hin
    | tool t => exact lift hin
    | feed y => exact lift hin
    | spindle y => exact lift hin
    | aux a p m => exact lift hin
  · intro ds r p m hp; exact hp
  · intro ds r hp; exact hp

omit [FloorRing K] in
theorem vals_valued {c : Cfg K} {v : Vis K} {b : Block} (h : visitAll c {} b = .ok v) : v.vals ≠ [] ↔ Valued K c.axes b := by
  unfold Valued
  constructor
  · intro h1
    cases hv : v.vals with
    | nil => exact absurd hv h1
    | cons e t =>
      have hk := visitAll_keys h e (by rw [hv]; exact List.mem_cons_self)
      refine ⟨e.1, hk, ?_⟩
      rw [← visitAll_vals h hk, hv, VMap.get_cons]
      simp
  · rintro ⟨a, ha, hn⟩ h1
    rw [← visitAll_vals h (show a ∈ gcodeParams c from ha), h1] at hn
    exact hn rfl

theorem evaluate_rep (F : Fns K) {c : Cfg K} (hc : AxesOk c) (inch : Inch) (line : Int) {b b' : Block} (p : St K × MacroMap ℚ)
    (hb : Blocks (modalOf p.1) c.axes p.1.autoRapid b b') : evaluate F c inch line b' p = evaluate F c inch line b p := by
  have hne : b' ≠ [] := by
    rintro rfl
    have key : ∀ t t' : Block, Padded (modalOf p.1) b t t' → t' = [] → t = [] := by
      intro t t' h h0
      cases h with
      | nil => rfl
      | same a _ => cases h0
      | add d _ _ => cases h0
    exact hb.some (key _ _ hb.padded rfl)
  unfold evaluate
  dsimp only
  rw [if_neg hb.some, if_neg hne]
  have hv := same_visitAll (c := c) hc hb.padded (v := {}) (v' := {}) rfl
  cases h1 : visitAll c {} b <;> cases h2 : visitAll c {} b' <;> rw [h1, h2] at hv
  case throw.throw => rw [show _ = _ from hv]
  case ok.ok v v' =>
    refine evalVis_rep F ?_ _
    have hs : Same v v' := hv
    have hg1 := visitAll_group hc h1
    have hg2 := visitAll_group hc h2
    have tools : toolOf v ≠ none → ∃ d ∈ words b, d.word = c!"T" := by
      intro ht
      refine Cds.tools_word hc h1 ?_
      intro h0
      apply ht
      unfold toolOf
      rw [h0]
      split <;> rfl
    refine ⟨hs, ?_, ?_, ?_⟩
    · intro t f1 f2 f3 f4 f5 f6 f7 f8
      apply cur_ext
      rw [current_modal hc h1, current_modal hc h2]
      have em : modalOf t = { modalOf p.1 with motion := t.g } := by
        unfold modalOf
        rw [f1, f2, f3, f4, f5, f6, f7]
        rfl
      have ea := after_padded hb.padded
      rw [em]
      unfold Modal.after at ea ⊢
      injection ea with a1 a2 a3 a4 a5 a6 a7 a8
      dsimp only
      rw [a2, a3, a4, a5, a6, a7, a8]
      have : inGroup 1 b' t.g = inGroup 1 b t.g := by
        rcases f8 with f8 | f8
        · rw [f8]; exact a1
        · have q1 : v.g = (groupCodes 1 b).getLast? := hg1 1 (by decide)
          have q2 : v'.g = (groupCodes 1 b').getLast? := hg2 1 (by decide)
          unfold inGroup
          rw [← q1, ← q2, f8]
      rw [this]
    · have q1 : v.g = (groupCodes 1 b).getLast? := hg1 1 (by decide)
      have q2 : v'.g = (groupCodes 1 b').getLast? := hg2 1 (by decide)
      by_cases he : groupCodes 1 b' = groupCodes 1 b
      · left; rw [q1, q2, he]
      · right
        obtain ⟨l1, l2, l3⟩ := last_padded (groupWord 1) (modalOf p.1).motion hb.padded (fun _ hd => group_repeats hd (k := 1) rfl)
        have h0 : groupCodes 1 b = [] := by
          by_contra h0
          exact he (l1 h0)
        have hn : groupCodes 1 b' ≠ [] := fun hn => he (by rw [hn, h0])
        have hlast : v'.g = some p.1.g := by
          rw [q2]
          cases hl : (groupCodes 1 b').getLast? with
          | none => exact absurd (List.getLast?_eq_none_iff.mp hl) hn
          | some x =>
            rcases l2 x (List.mem_of_getLast? hl) with h | h
            · rw [show (words b).filterMap (groupWord 1) = [] from h0] at h; cases h
            · rw [h]; rfl
        have ht0 : toolOf v = none := by
          by_contra ht
          exact he (hb.tool (tools ht) 1)
        have hm6 : v.m6 = false := by
          cases hm : v.m6 with
          | false => rfl
          | true =>
            obtain ⟨d, d1, d2, d3, _⟩ := (visitAll_m6 hc h1).mp hm
            exact absurd ⟨d2, d3⟩ (hb.exchange he d d1)
        refine ⟨hlast, by rw [q1, h0]; rfl, ?_, ht0, ?_, ?_, ?_, ?_⟩
        · intro h1
          have hmem : p.1.g ∈ groupCodes 1 b' := List.mem_of_getLast? (by rw [← q2]; exact hlast)
          obtain ⟨d, _, hd⟩ := List.mem_filterMap.mp hmem
          unfold groupWord at hd
          split at hd
          · have := Option.filter_eq_some_iff.mp hd
            rw [show p.1.g = -1 from h1] at this
            exact absurd this.2 (by decide)
          · cases hd
        · unfold atTool
          rw [hm6, ht0]
          simp
        · unfold atBase
          rw [decide_eq_false_iff_not]
          intro h28
          obtain ⟨d, d1, d2⟩ := otherG_home hc h1 h28
          exact hb.home he d d1 d2
        · intro ha
          by_contra hv0
          exact hb.pending he ha ((vals_valued h1).mp hv0)
        · intro hq
          exact (vals_valued h1).mpr (hb.valued he hq)
    · intro ht
      have hk := hb.tool (tools ht)
      have e1 : v'.g = v.g := by
        have q1 : v.g = (groupCodes 1 b).getLast? := hg1 1 (by decide)
        have q2 : v'.g = (groupCodes 1 b').getLast? := hg2 1 (by decide)
        rw [q1, q2, hk]
      have e2 : v'.plane.map planeNum = v.plane.map planeNum := by
        have q1 : v.plane.map planeNum = (groupCodes 2 b).getLast? := hg1 2 (by decide)
        have q2 : v'.plane.map planeNum = (groupCodes 2 b').getLast? := hg2 2 (by decide)
        rw [q1, q2, hk]
      have e3 : v'.ret.map retNum = v.ret.map retNum := by
        have q1 : v.ret.map retNum = (groupCodes 10 b).getLast? := hg1 10 (by decide)
        have q2 : v'.ret.map retNum = (groupCodes 10 b').getLast? := hg2 10 (by decide)
        rw [q1, q2, hk]
      have e4 : v'.incr.map incrNum = v.incr.map incrNum := by
        have q1 : v.incr.map incrNum = (groupCodes 3 b).getLast? := hg1 3 (by decide)
        have q2 : v'.incr.map incrNum = (groupCodes 3 b').getLast? := hg2 3 (by decide)
        rw [q1, q2, hk]
      unfold tWithG
      have e5 : (fun b : Bool => if b then (91 : Int) else 90) = incrNum := by funext b; cases b <;> rfl
      rw [e5, e1, e2, e3, e4]
  all_goals exact hv.elim

end

end
end NC.Rpt
