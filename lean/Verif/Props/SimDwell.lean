import Verif.SimAlt
import Verif.Spec.Idle
import Verif.Props.SimReset
import Verif.Props.SimTools
import Verif.Props.SimCases
import Verif.Props.SimModal

/-! # C65: a dwell takes its time and does nothing else; C80: blocks that do nothing -/

namespace NC.Props
open NC NC.Path NC.Ver NC.AttrPath NC.Spec.Sim

section
variable {K : Type} [Field K] [LinearOrder K]

/-! ## What the visitor finds -/

omit [Field K] [LinearOrder K] in
/-- Nothing is set but dwell codes, P and the marks of pallet and measurement. -/
def Pausing (v : Vis K) : Prop :=
  v.f = none ∧ v.s = none ∧ v.g = none ∧ v.plane = none ∧ v.ret = none ∧ v.incr = none ∧ v.css = none ∧ v.perRev = none ∧
    v.tools = [] ∧ v.m6 = false ∧ (∀ g ∈ v.otherG, g = c!"4" ∨ g = c!"04") ∧ (∀ e ∈ v.vals, e.1 = c!"P")

omit [Field K] [LinearOrder K] in
/-- What a word of a waiting block tells. -/
def WaitAct : Act K → Prop
  | .nothing => True
  | .val w _ => w = c!"P"
  | .aux a _ _ => a = false
  | .code k t => k = .other ∧ (t = c!"4" ∨ t = c!"04")
  | _ => False

omit [LinearOrder K] in
theorem readWord_idle {c : Cfg K} (hc : AxesOk c) {d : Dec} (h : IdleWord c.axes d) :
    ∃ x, readWord c d = .ok x ∧ WaitAct x ∧ ∀ w y, x ≠ .val w y := by
  obtain ⟨h1, h2, h3⟩ := h
  simp only [List.mem_cons, List.not_mem_nil, or_false, not_or] at h2
  obtain ⟨n1, n2, n3, n4⟩ := h2
  by_cases hm : d.word = c!"M"
  · rw [readWord_aux_of hc hm]
    unfold readAux
    rcases h3 hm with h | ⟨n, hn, h6⟩
    · rw [h]; exact ⟨_, rfl, trivial, fun _ _ => nofun⟩
    · unfold code at hn
      cases hv : d.value with
      | none => rw [hv] at hn; cases hn
      | some v =>
        rw [hv] at hn
        dsimp only at hn ⊢
        split
        · exact ⟨_, rfl, trivial, fun _ _ => nofun⟩
        · unfold stoiE
          cases hs : stoi v with
          | ok m =>
            rw [hs] at hn
            cases hn
            dsimp only
            exact ⟨_, rfl, decide_eq_false h6, fun _ _ => nofun⟩
          | throw e => rw [hs] at hn; cases hn
          | ub => rw [hs] at hn; cases hn
  · refine ⟨.nothing, ?_, trivial, fun _ _ => nofun⟩
    unfold readWord
    rw [if_neg (show d.word ∉ gcodeParams c from h1), if_neg n1, if_neg n2, if_neg n3, if_neg hm, if_neg n4]

omit [LinearOrder K] in
theorem readWord_wait {c : Cfg K} (hc : AxesOk c) {d : Dec} (h : WaitWord c.axes d) :
    ∃ x, readWord c d = .ok x ∧ WaitAct x := by
  rcases h with h | h | ⟨h, hn⟩
  · obtain ⟨x, h1, h2, _⟩ := readWord_idle hc h
    exact ⟨x, h1, h2⟩
  · unfold isDwell at h
    simp only [Bool.and_eq_true, Bool.or_eq_true, decide_eq_true_eq] at h
    obtain ⟨⟨hg, hv⟩, hd⟩ := h
    rw [readWord_code_of hc hg]
    have ho : ∀ v, otherText v d = v := by
      intro v
      unfold otherText
      rcases hd with hd | hd <;> rw [hd]
      cases d.dot <;> rfl
    unfold readCode
    rcases hv with hv | hv
    · rw [hv]
      refine ⟨.code .other c!"4", ?_, rfl, Or.inl rfl⟩
      dsimp only
      rw [ho]
      rfl
    · rw [hv]
      refine ⟨.code .other c!"04", ?_, rfl, Or.inr rfl⟩
      dsimp only
      rw [ho]
      rfl
  · unfold readWord
    rw [if_pos (show d.word ∈ gcodeParams c by rw [h]; unfold gcodeParams; exact List.mem_append_left _ (by decide))]
    unfold readVal
    split
    · exact ⟨_, rfl, trivial⟩
    · unfold number at hn
      split at hn
      · have e : valText d = d.sign.toList ++ d.value.getD [] ++ d.dot.toList ++ d.value2.getD [] := by
          unfold valText chrText strText
          cases d.sign <;> cases d.value <;> cases d.dot <;> cases d.value2 <;> rfl
        rw [← e] at hn
        unfold stodE
        cases hs : stod (valText d) with
        | ok q => exact ⟨_, rfl, h⟩
        | throw e => rw [hs] at hn; exact absurd rfl hn
        | ub => rw [hs] at hn; exact absurd rfl hn
      · exact absurd rfl hn

omit [Field K] [LinearOrder K] in
theorem put_keys {m : VMap K} {k : Str} {v : K} (h : ∀ e ∈ m, e.1 = k) : ∀ e ∈ m.put k v, e.1 = k := by
  induction m with
  | nil =>
    intro e he
    unfold VMap.put at he
    rw [List.mem_singleton] at he
    rw [he]
  | cons a t ih =>
    have ha := h a (List.mem_cons_self ..)
    intro e he
    unfold VMap.put at he
    split at he
    · rcases List.mem_cons.mp he with rfl | he
      · rfl
      · exact h e he
    · rcases List.mem_cons.mp he with rfl | he
      · rfl
      · exact h e (List.mem_cons_of_mem _ he)

omit [LinearOrder K] in
theorem Pausing.on {v : Vis K} (h : Pausing v) {x : Act K} (hx : WaitAct x) : Pausing (Act.on v x) := by
  obtain ⟨a1, a2, a3, a4, a5, a6, a7, a8, a9, a10, a11, a12⟩ := h
  cases x with
  | nothing => exact ⟨a1, a2, a3, a4, a5, a6, a7, a8, a9, a10, a11, a12⟩
  | val w y =>
    have : w = c!"P" := hx
    subst this
    exact ⟨a1, a2, a3, a4, a5, a6, a7, a8, a9, a10, a11, put_keys a12⟩
  | aux a p m =>
    have : a = false := hx
    subst this
    exact ⟨a1, a2, a3, a4, a5, a6, a7, a8, a9, by show (v.m6 || false) = false; rw [a10]; rfl, a11, a12⟩
  | code k t =>
    obtain ⟨rfl, ht⟩ := hx
    refine ⟨a1, a2, a3, a4, a5, a6, a7, a8, a9, a10, ?_, a12⟩
    intro g hg
    rcases List.mem_append.mp hg with hg | hg
    · exact a11 g hg
    · rw [List.mem_singleton] at hg; subst hg; exact ht
  | tool t => exact hx.elim
  | feed y => exact hx.elim
  | spindle y => exact hx.elim

omit [LinearOrder K] in
theorem visitAll_wait {c : Cfg K} (hc : AxesOk c) {b : Block} {r : Vis K} (hr : Pausing r)
    (hb : r.skip = false → ∀ d ∈ words b, WaitWord c.axes d) : ∃ v, visitAll c r b = .ok v ∧ Pausing v := by
  induction b generalizing r with
  | nil => exact ⟨r, rfl, hr⟩
  | cons a t ih =>
    unfold visitAll
    cases a with
    | dec d =>
      unfold visit
      dsimp only
      by_cases hd : d.word = c!"/"
      · rw [if_pos hd]
        exact ih (r := { r with skip := true }) hr nofun
      · rw [if_neg hd]
        have hw : words (.dec d :: t) = d :: words t := by rw [words, if_neg hd]
        rw [hw] at hb
        cases hs : r.skip with
        | true =>
          rw [if_pos rfl]
          exact ih hr (fun h => by rw [hs] at h; cases h)
        | false =>
          rw [if_neg (by simp)]
          obtain ⟨x, h1, h2⟩ := readWord_wait hc (hb hs d (List.mem_cons_self ..))
          rw [h1]
          exact ih (hr.on h2) (fun _ d' h' => hb hs d' (List.mem_cons_of_mem _ h'))
    | str w x => exact ih (r := Act.on r (.aux false (isPallet c w x) (isMeasure c w x))) (hr.on rfl) hb
    | chr w x => exact ih hr hb

omit [LinearOrder K] in
/-- An idle block gives no values at all. -/
theorem visitAll_idle {c : Cfg K} (hc : AxesOk c) {b : Block} {r v : Vis K} (h : visitAll c r b = .ok v)
    (hb : r.skip = false → ∀ d ∈ words b, IdleWord c.axes d) : v.vals = r.vals := by
  induction b generalizing r with
  | nil => cases h; rfl
  | cons a t ih =>
    unfold visitAll at h
    cases a with
    | dec d =>
      unfold visit at h
      dsimp only at h
      by_cases hd : d.word = c!"/"
      · rw [if_pos hd] at h
        exact ih (r := { r with skip := true }) h nofun
      · rw [if_neg hd] at h
        have hw : words (.dec d :: t) = d :: words t := by rw [words, if_neg hd]
        rw [hw] at hb
        cases hs : r.skip with
        | true =>
          rw [hs, if_pos rfl] at h
          exact ih h (fun h => by rw [hs] at h; cases h)
        | false =>
          rw [hs, if_neg (by simp)] at h
          obtain ⟨x, h1, h2, h3⟩ := readWord_idle hc (hb hs d (List.mem_cons_self ..))
          rw [h1] at h
          rw [ih h (fun _ d' h' => hb hs d' (List.mem_cons_of_mem _ h'))]
          cases x with
          | val w y => exact absurd rfl (h3 w y)
          | code k t => cases k <;> rfl
          | _ => rfl
    | str w x => exact ih (r := Act.on r (.aux false (isPallet c w x) (isMeasure c w x))) h hb
    | chr w x => exact ih h hb

/-! ## The block -/

omit [LinearOrder K] in
/-- The state between blocks that succeeded: the results carry the tool's name, and a motion that cancels cycles has
cancelled them. -/
structure Tidy (c : Cfg K) (s : St K) : Prop where
  path : s.path.toolId = s.tool
  time : s.time.toolId = s.tool
  cancelled : (s.g = 0 ∧ c.cancel0 = true) ∨ (s.g = 1 ∧ c.cancel1 = true) ∨ s.g = 80 →
    s.path.cycle = (some 0, some 0) ∧ s.path.holes = 0
  stays : s.g = 80 → c.cancelRapid = false

/-- The position is known. -/
def Placed (s : St K) : Prop := ∀ a ∈ ([c!"X", c!"Y", c!"Z"] : List Str), s.prev.get a ≠ none

omit [LinearOrder K] in
theorem cancelCycle_tidy {s : St K} (h : s.path.cycle = (some 0, some 0) ∧ s.path.holes = 0) : cancelCycle s = s := by
  obtain ⟨h1, h2⟩ := h
  unfold cancelCycle
  rw [← h1, ← h2]

omit [LinearOrder K] in
theorem cancelBy_tidy {c : Cfg K} {s : St K} {g : Int} (hg : g = 0 ∨ g = 1)
    (h : (g = 0 ∧ c.cancel0 = true) ∨ (g = 1 ∧ c.cancel1 = true) ∨ g = 80 →
      s.path.cycle = (some 0, some 0) ∧ s.path.holes = 0) : cancelBy c g s = s := by
  unfold cancelBy
  split
  · rename_i hq
    refine cancelCycle_tidy (h ?_)
    rcases hq with hq | hq | hq | hq
    · exact Or.inl hq
    · exact Or.inr (Or.inl hq)
    · rcases hg with hg | hg <;> rw [hg] at hq <;> cases hq.1
    · rcases hg with hg | hg <;> rw [hg] at hq <;> cases hq.1
  · rfl

omit [LinearOrder K] in
theorem copyBack_only [LinearOrder K] {D : List Str} (g : Int) (incr : Bool) (og : List Str) {v : VMap K}
    (hv : ∀ e ∈ v, e.1 ∈ D) (p q : VMap K × VMap (Rng K)) (h1 : Agree D q.1 p.1) (h2 : Agree D q.2 p.2) :
    Agree D q.1 (copyBack g incr og v p).1 ∧ Agree D q.2 (copyBack g incr og v p).2 := by
  induction v generalizing p with
  | nil => exact ⟨h1, h2⟩
  | cons e t ih =>
    have he := hv e (List.mem_cons_self ..)
    unfold copyBack
    refine ih (fun e' h' => hv e' (List.mem_cons_of_mem _ h')) _ ?_ ?_
    all_goals split
    · exact h1
    · unfold copyOne
      split <;> split <;> (intro w hw; dsimp only; rw [VMap.get_put_ne _ _ (by rintro rfl; exact hw he), h1 w hw])
    · exact h2
    · unfold copyOne
      split <;> split <;> (intro w hw; dsimp only; rw [VMap.get_put_ne _ _ (by rintro rfl; exact hw he), h2 w hw])

theorem copySt_only {D : List Str} (incr : Bool) (og : List Str) {v : VMap K} (hv : ∀ e ∈ v, e.1 ∈ D) {x : K} {s s' : St K}
    (h : AltOf D x s s') : AltOf D x s (copySt incr og v s') := by
  obtain ⟨pr, rg, h1, h2, rfl⟩ := h
  obtain ⟨q1, q2⟩ := copyBack_only s.g incr og hv (pr, rg) (s.prev, s.range) h1 h2
  exact ⟨_, _, q1, q2, rfl⟩

variable [FloorRing K]

/-- The motion of a block that only waits has no length. -/
theorem motion_wait (F : Fns K) (hF : F.sqrt 0 = 0) (c : Cfg K) {v : Vis K} (hv : Pausing v) {s : St K}
    (hT : atTool c v = false) (hB : atBase v = false)
    (hw : s.path.work = some 0) (hf : s.path.fast = some 0) (hp : s.g = 0 ∨ s.g = 1 → Placed s)
    (hc : (s.g = 0 ∧ c.cancel0 = true) ∨ (s.g = 1 ∧ c.cancel1 = true) ∨ s.g = 80 →
      s.path.cycle = (some 0, some 0) ∧ s.path.holes = 0)
    (hg : s.g = 0 ∨ s.g = 1 ∨ s.g = 80) : motion F c v (current v s) s = (s, .ok true) := by
  obtain ⟨a1, a2, a3, a4, a5, a6, a7, a8, a9, a10, a11, a12⟩ := hv
  have hcur : (current v s).g = s.g := by unfold current; rw [a3]; rfl
  have hval : ∀ a ∈ ([c!"X", c!"Y", c!"Z"] : List Str), v.vals.get a = none := by
    intro a ha
    unfold VMap.get
    rw [List.find?_eq_none.mpr]
    · rfl
    · intro e he h
      rw [a12 e he] at h
      have : c!"P" = a := by simpa using h
      rw [← this] at ha
      revert ha; decide
  have hset : setMotion (current v s).g (some 0) s = s := by
    unfold setMotion
    split
    · rw [← hf]
    · rw [← hw]
  unfold motion
  rw [hcur] at hset ⊢
  by_cases h01 : s.g = 0 ∨ s.g = 1
  · rw [if_pos h01]
    obtain hX := hp h01
    unfold linear
    rw [hcur, cancelBy_tidy h01 hc]
    have x1 := hX c!"X" (by decide)
    have y1 := hX c!"Y" (by decide)
    have z1 := hX c!"Z" (by decide)
    rw [Option.ne_none_iff_exists'] at x1 y1 z1
    obtain ⟨xp, hx⟩ := x1
    obtain ⟨yp, hy⟩ := y1
    obtain ⟨zp, hz⟩ := z1
    split
    · unfold linearAbs
      rw [hx, hy, hz]
      dsimp only
      have ht : ∀ a ∈ ([c!"X", c!"Y", c!"Z"] : List Str), ∀ q : K, target c v a q = .ok q := by
        intro a ha q
        unfold target
        rw [hT, hB, if_neg (by simp), if_neg (by simp), hval a ha]; rfl
      rw [ht _ (by decide), ht _ (by decide), ht _ (by decide)]
      dsimp only
      unfold dist3 len3
      rw [sub_self, sub_self, sub_self]
      simp only [ne_eq, OfNat.ofNat_ne_zero, not_false_eq_true, zero_pow, add_zero, hF]
      rw [hcur, hset]
    · unfold linearIncr known
      rw [hx, hy, hz, hval _ (by decide), hval _ (by decide), hval _ (by decide)]
      have e0 : halve c (current v s).plane (0 : K) = 0 := by unfold halve; split <;> simp
      simp only [Option.isSome_some, Option.isSome_none, Bool.or_true, Bool.true_eq_false, if_false, Option.getD_none, e0]
      unfold len3
      simp only [ne_eq, OfNat.ofNat_ne_zero, not_false_eq_true, zero_pow, add_zero, hF]
      rw [hcur, hset]
  · have h80 : s.g = 80 := by
      rcases hg with h | h | h
      · exact absurd (Or.inl h) h01
      · exact absurd (Or.inr h) h01
      · exact h
    rw [if_neg h01, if_neg (by rw [h80]; decide), if_pos h80]
    rw [cancelCycle_tidy (hc (Or.inr (Or.inr h80)))]

omit [LinearOrder K] [FloorRing K] in
theorem alt_zero (D : List Str) (s : St K) : AltOf D 0 s s :=
  ⟨s.prev, s.range, .refl _ _, .refl _ _, by unfold alt; rw [addF_zero]⟩

omit [LinearOrder K] [FloorRing K] in
theorem alt_addTime (D : List Str) (x : K) (s : St K) : AltOf D x s (addTime x s) := ⟨s.prev, s.range, .refl _ _, .refl _ _, rfl⟩

/-- A block that only waits adds its time and leaves everything as it was. -/
theorem wait_block (F : Fns K) (hF : F.sqrt 0 = 0) {c : Cfg K} (hx : AxesOk c) (inch : Inch) (line : Int) {b : Block}
    (p : St K × MacroMap ℚ) (hb : ∀ d ∈ words b, WaitWord c.axes d) (ht : Tidy c p.1) (hp : p.1.g = 0 ∨ p.1.g = 1 → Placed p.1)
    {D : List Str}
    (hi : (∀ d ∈ words b, IdleWord c.axes d) ∨
      (c!"P" ∈ D ∧ p.1.autoRapid = false ∧ p.1.g ∈ ([-1, 0, 1, 80] : List Int))) :
    AltOf D (machineTime (timesOf c) b + dwellTime b) (clearMotions p.1) (evaluate F c inch line b p).1.1 ∧
      (evaluate F c inch line b p).1.2 = p.2 ∧ (evaluate F c inch line b p).2 = .ok () := by
  obtain ⟨s, m⟩ := p
  dsimp only at ht hp hi
  obtain ⟨v, hv, hP⟩ := visitAll_wait (r := {}) hx ⟨rfl, rfl, rfl, rfl, rfl, rfl, rfl, rfl, rfl, rfl, nofun, nofun⟩ (fun _ => hb)
  have hP' := hP
  obtain ⟨a1, a2, a3, a4, a5, a6, a7, a8, a9, a10, a11, a12⟩ := hP
  have htool : toolOf v = none := by unfold toolOf; rw [a9]; split <;> rfl
  have hT : atTool c v = false := by unfold atTool; rw [htool, a10]; simp
  have hB : atBase v = false := by
    unfold atBase
    rw [decide_eq_false_iff_not]
    intro h
    rcases a11 _ h with h | h <;> revert h <;> decide
  have hvals : ∀ e ∈ v.vals, e.1 ∈ D := by
    rcases hi with hi | ⟨hi, _⟩
    · rw [visitAll_idle hx hv (fun _ => hi)]; nofun
    · intro e he; rw [a12 e he]; exact hi
  have hre : ¬ (s.autoRapid = true ∧ v.vals ≠ []) := by
    rintro ⟨h1, h2⟩
    rcases hi with hi | ⟨_, hi, _⟩
    · exact h2 (visitAll_idle hx hv (fun _ => hi))
    · rw [hi] at h1; cases h1
  unfold evaluate
  dsimp only
  by_cases hbn : b = []
  · subst hbn
    have e : machineTime (timesOf c) [] + dwellTime (K := K) [] = 0 := by
      unfold machineTime exchanges named dwellTime; simp [words]
    rw [if_pos rfl, e]
    exact ⟨alt_zero _ _, rfl, rfl⟩
  rw [if_neg hbn, hv]
  dsimp only
  unfold evalVis toolPart
  rw [htool]
  dsimp only
  unfold afterTool
  have etime : dwell v (mTimes c v (clearMotions s)) = addTime (machineTime (timesOf c) b + dwellTime b) (clearMotions s) := by
    have h1 := exchanged_time c v s
    unfold exchanged at h1
    rw [htool] at h1
    dsimp only at h1
    rw [readTime_eq hx hv] at h1
    obtain ⟨y, hy⟩ := mTimes_fields c v (clearMotions s)
    have h2 : dwell v (mTimes c v (clearMotions s)) = addTime (readDwell v) (mTimes c v (clearMotions s)) := dwell_eq v _
    rw [h2, readDwell_eq hx hv]
    unfold begun at h1
    have h3 : mTimes c v (clearMotions s) = addTime (machineTime (timesOf c) b) (clearMotions s) := by
      rw [hy] at h1 ⊢
      unfold addTime at h1 ⊢
      dsimp only at h1 ⊢
      rw [h1]
      rfl
    rw [h3, addTime_addTime]
  rw [etime, startPart_eq]
  generalize hX : machineTime (timesOf c) b + dwellTime (K := K) b = x
  split
  · refine ⟨?_, rfl, rfl⟩
    unfold Part.andThen beforeMotion
    dsimp only
    rw [a4, a6, a7, a5]
    exact copySt_only _ _ hvals (alt_addTime D x (clearMotions s))
  · rename_i hno
    have hg : s.g ≠ -1 := by
      intro h
      exact hno ⟨hre, ⟨hT, hB⟩, h, a3⟩
    have hst : started c v (addTime x (clearMotions s)) = addTime x (clearMotions s) := by
      unfold started
      rw [if_neg (show ¬ ((addTime x (clearMotions s)).autoRapid = true ∧ v.vals ≠ []) from hre), hT, hB]
      rfl
    rw [hst, andThen_go]
    unfold moveBlock
    have hcur : current v (addTime x (clearMotions s)) = ⟨s.g, s.f, s.s, s.plane, s.incr, s.css, s.ret, s.perRev⟩ := by
      unfold current; rw [a1, a2, a3, a4, a5, a6, a7, a8]; rfl
    by_cases hgo : s.g = 0 ∨ s.g = 1 ∨ s.g = 80
    · rw [motion_wait (s := addTime x (clearMotions s)) F hF c hP' hT hB rfl rfl hp ht.cancelled hgo, andThen_go, account_eq]
      have hga : gAfter c s.g = s.g := by
        unfold gAfter
        split
        · rename_i h
          rw [ht.stays h.1] at h
          cases h.2
        · rfl
      have hcnt : counted F c inch (current v (addTime x (clearMotions s))) (addTime x (clearMotions s)) =
          addTime x (clearMotions s) := by
        rw [hcur]
        have hwt : workTime F c inch ⟨s.g, s.f, s.s, s.plane, s.incr, s.css, s.ret, s.perRev⟩ (some 0) = some 0 := by
          unfold workTime; exact if_neg (fun h => h.1 rfl)
        have hft : fastTime c (some (0 : K)) = some 0 := by unfold fastTime; exact if_neg (fun h => h.1 rfl)
        unfold counted addTimes addPath saveModal addTime clearMotions
        dsimp only
        rw [hwt, hft, hga]
        simp only [addF_zero]
        rw [← ht.path]
        congr 1
        rw [ht.path, ← ht.time]
      rw [hcnt]
      have hck : checks c (current v (addTime x (clearMotions s))) (addTime x (clearMotions s)) = .ok () := by
        unfold checks addTime clearMotions
        simp
      rw [hck]
      refine ⟨?_, rfl, rfl⟩
      unfold savePositions
      rw [hT, hB]
      exact copySt_only _ _ hvals (alt_addTime D x (clearMotions s))
    · have hidle : ∀ d ∈ words b, IdleWord c.axes d := by
        rcases hi with hi | ⟨_, _, hi⟩
        · exact hi
        · simp only [List.mem_cons, List.not_mem_nil, or_false] at hi
          rcases hi with h | h | h | h
          · exact absurd h hg
          · exact absurd (Or.inl h) hgo
          · exact absurd (Or.inr (Or.inl h)) hgo
          · exact absurd (Or.inr (Or.inr h)) hgo
      have hvn : v.vals = [] := visitAll_idle hx hv (fun _ => hidle)
      have hcg : (current v (addTime x (clearMotions s))).g = s.g := by rw [hcur]
      have hmot : motion F c v (current v (addTime x (clearMotions s))) (addTime x (clearMotions s)) =
          (addTime x (clearMotions s), .ok false) := by
        unfold motion
        rw [hcg, if_neg (by rintro (h | h); exacts [hgo (Or.inl h), hgo (Or.inr (Or.inl h))])]
        split
        · unfold circular; rw [if_pos ⟨a3, hvn⟩]
        · rw [if_neg (fun h => hgo (Or.inr (Or.inr h)))]
          split
          · unfold drilling; rw [if_pos ⟨a3, hvn⟩]
          · rfl
      rw [hmot, andThen_stop (by simp)]
      exact ⟨alt_addTime D x _, rfl, rfl⟩

/-! ## What holds between blocks -/

omit [FloorRing K] in
theorem copyBack_known (g : Int) (incr : Bool) (og : List Str) (v : VMap K) (p : VMap K × VMap (Rng K)) {a : Str}
    (h : p.1.get a ≠ none) : (copyBack g incr og v p).1.get a ≠ none := by
  induction v generalizing p with
  | nil => exact h
  | cons e t ih =>
    unfold copyBack
    refine ih _ ?_
    have key : ∀ x : K, (p.1.put e.1 x).get a ≠ none := by
      intro x
      rw [VMap.get_put]
      split
      · simp
      · exact h
    split
    · exact h
    · unfold copyOne
      split <;> split <;> exact key _

/-- A known position stays known. -/
theorem evaluate_placed (F : Fns K) (c : Cfg K) (inch : Inch) (line : Int) (b : Block) (p : St K × MacroMap ℚ) (hp : Inv p.1)
    (h : Placed p.1) : Placed (evaluate F c inch line b p).1.1 := by
  intro a ha
  rcases eval_positions hp.good (evaluate_eval F c inch line b p) with ⟨_, q, _⟩ | ⟨_, _, q, _⟩ | ⟨_, v, _, q⟩
  · rw [q]; exact h a ha
  · rw [q]; exact h a ha
  · have q1 := (Prod.ext_iff.mp q).1
    dsimp only at q1
    rw [q1]
    exact copyBack_known _ _ _ _ _ (h a ha)

theorem linear_cancelled {F : Fns K} {c : Cfg K} {v : Vis K} {cur : Cur K} {s M : St K} {o : Out Exc Bool}
    (h : linear F c v cur s = (M, o)) :
    M.path.cycle = (cancelBy c cur.g s).path.cycle ∧ M.path.holes = (cancelBy c cur.g s).path.holes := by
  have hset : ∀ (g : Int) (x : Fl K) (t : St K), (setMotion g x t).path.cycle = t.path.cycle ∧
      (setMotion g x t).path.holes = t.path.holes := by
    intro g x t; unfold setMotion; split <;> exact ⟨rfl, rfl⟩
  unfold linear at h
  generalize cancelBy c cur.g s = s1 at h ⊢
  split at h
  · unfold linearAbs at h
    repeat' split at h
    all_goals (cases h; first | exact ⟨rfl, rfl⟩ | exact hset _ _ _)
  · unfold linearIncr at h
    split_ifs at h
    all_goals (cases h; first | exact ⟨rfl, rfl⟩ | exact hset _ _ _)

/-- A motion that cancels cycles has cancelled them. -/
theorem motion_cancelled {F : Fns K} {c : Cfg K} {v : Vis K} {cur : Cur K} {s M : St K} {o : Out Exc Bool}
    (h : motion F c v cur s = (M, o)) (hg : (cur.g = 0 ∧ c.cancel0 = true) ∨ (cur.g = 1 ∧ c.cancel1 = true) ∨ cur.g = 80) :
    M.path.cycle = (some 0, some 0) ∧ M.path.holes = 0 := by
  unfold motion at h
  by_cases h01 : cur.g = 0 ∨ cur.g = 1
  · rw [if_pos h01] at h
    have hq := linear_cancelled h
    unfold cancelBy at hq
    rw [if_pos (by
      rcases hg with hg | hg | hg
      · exact Or.inl hg
      · exact Or.inr (Or.inl hg)
      · rcases h01 with h | h <;> rw [hg] at h <;> cases h)] at hq
    exact hq
  · have h80 : cur.g = 80 := by
      rcases hg with hg | hg | hg
      · exact absurd (Or.inl hg.1) h01
      · exact absurd (Or.inr hg.1) h01
      · exact hg
    rw [if_neg h01, if_neg (by rw [h80]; decide), if_pos h80] at h
    cases h
    exact ⟨rfl, rfl⟩

/-- The state between blocks is tidy. -/
theorem tidy_eval {F : Fns K} {c : Cfg K} {inch : Inch} {b : Block} {s s' : St K} (hs : Tidy c s) (hg : s.g = -1 ∨ Good s.g)
    (h : Eval F c inch b s (.ok ()) s') : Tidy c s' := by
  have path := (eval_kept hs.path hg h).1
  have quiet : ∀ t : St K, t.time.toolId = t.tool → t.path.toolId = t.tool → t.g = s.g → t.path.cycle = s.path.cycle →
      t.path.holes = s.path.holes → Tidy c t := by
    intro t h1 h0 h2 h3 h4
    refine ⟨h0, h1, fun h => ?_, fun h => hs.stays (h2 ▸ h)⟩
    rw [h3, h4]
    exact hs.cancelled (h2 ▸ h)
  generalize ho : (Out.ok () : Out Exc Unit) = o' at h
  cases h with
  | empty hb => exact quiet _ hs.time hs.path rfl rfl rfl
  | unread e _ => cases ho
  | unreadUb _ => cases ho
  | alone v t hv ht ha hw =>
    obtain ⟨x, hx⟩ := begun_addTime c v s
    obtain ⟨y, hy⟩ := fetchTool_fields c (storeTool c (begun c v s))
    rw [hy, hx] at path ⊢
    exact quiet _ rfl path rfl rfl rfl
  | aloneErr v t n hv ht ha hw => cases ho
  | badTool v t e hv ht ha hq => cases ho
  | badToolUb v t hv ht ha hq => cases ho
  | before v hv ht ha hb hr hgm hvg =>
    obtain ⟨x, hx⟩ := begun_addTime c v s
    obtain ⟨y, hy⟩ := dwell_fields v (begun c v s)
    rw [hy, hx] at path ⊢
    exact quiet _ hs.time path rfl rfl rfl
  | halt v S M o hb hv ht hS hn hm ho' =>
    have hof : o = .ok false := by
      rcases finish_ok ho.symm with h | h
      · exact absurd h ho'
      · exact h
    subst hof
    have hv' := visitAll_good (r := {}) nofun hv
    have hgood : Good (current v S).g := by rw [hS] at hn ⊢; exact good_ready hg hn hv'
    obtain ⟨e, q1, q2, q3⟩ := motion_false hgood hm
    have hcg : (current v S).g = S.g := by unfold current; rw [q1]; rfl
    rw [hcg] at q3
    have hno : ¬ (atTool c v = true ∨ atBase v = true) := by
      intro h
      exact q3 (by rw [hS]; exact started_forced h)
    rw [not_or] at hno
    have htn : toolOf v = none := by
      cases h : toolOf v with
      | none => rfl
      | some t => exact absurd (ht t h).1 hno.1
    obtain ⟨x, hx⟩ := begun_addTime c v s
    obtain ⟨y, hy⟩ := dwell_fields v (begun c v s)
    have hM : S = addTime y (addTime x (clearMotions s)) := by
      rw [hS]
      unfold exchanged
      rw [htn]
      dsimp only
      rw [hy, hx]
      unfold started
      rw [if_neg (fun h => h.2 q2), if_neg (by simp [hno.1, hno.2])]
    rw [e, hM] at path ⊢
    exact quiet _ hs.time path rfl rfl rfl
  | done v S M s' o hb hv ht hS hn hm ha =>
    have hfin : ∀ t : St K, t.time.toolId = t.tool → t.g = gAfter c (current v S).g → t.path.toolId = t.tool →
        t.path.cycle = M.path.cycle → t.path.holes = M.path.holes → Tidy c t := by
      intro t h1 h2 h0 h3 h4
      refine ⟨h0, h1, fun h => ?_, fun h => ?_⟩
      · rw [h3, h4]
        refine motion_cancelled hm ?_
        rw [h2] at h
        unfold gAfter at h
        split at h
        · rename_i h80; exact Or.inr (Or.inr h80.1)
        · exact h
      · rw [h2] at h
        unfold gAfter at h
        split at h
        · cases h
        · rename_i hq
          cases hr : c.cancelRapid with
          | false => rfl
          | true => exact absurd ⟨h, hr⟩ hq
    rw [account_eq] at ha
    split at ha
    · cases ha
      have e : ∀ (i : Bool) (og : List Str) (vals : VMap K),
          Tidy c (copySt i og vals (counted F c inch (current v S) M)) := by
        intro i og vals
        exact hfin _ rfl rfl rfl rfl rfl
      unfold savePositions
      split
      · exact e _ _ _
      · split <;> exact e _ _ _
    · cases ha; cases ho
    · cases ha; cases ho

omit [FloorRing K] in
theorem initial_tidy {c : Cfg K} (hc : WF c) : Tidy c (initial c) where
  path := rfl
  time := rfl
  cancelled := fun _ => ⟨rfl, rfl⟩
  stays := by
    intro h
    have h : c.motion = 80 := h
    rcases hc.motion with q | q | q | q | q <;> rw [q] at h <;> cases h

theorem final_tidy (F : Fns K) {c : Cfg K} (hc : WF c) (inch : Inch) (prog : Prog) (p : St K × MacroMap ℚ) (hi : Inv p.1)
    (ht : Tidy c p.1) (h : AllOk F c inch prog p) : Tidy c (final F c inch prog p).1 := by
  induction prog generalizing p with
  | nil => exact ht
  | cons x t ih =>
    have hE := evaluate_eval F c inch x.1 x.2 p
    rw [h.1] at hE
    exact ih _ (evaluate_inv F hc inch x.1 x.2 p hi) (tidy_eval ht hi.good hE) h.2

theorem final_placed (F : Fns K) {c : Cfg K} (hc : WF c) (inch : Inch) (prog : Prog) (p : St K × MacroMap ℚ) (hi : Inv p.1)
    (h : Placed p.1) : Placed (final F c inch prog p).1 := by
  induction prog generalizing p with
  | nil => exact h
  | cons x t ih => exact ih _ (evaluate_inv F hc inch x.1 x.2 p hi) (evaluate_placed F c inch x.1 x.2 p hi h)

omit [FloorRing K] in
theorem initial_placed {c : Cfg K} (hc : WF c) (h : ∀ a ∈ ([c!"X", c!"Y", c!"Z"] : List Str), c.base.get a ≠ none) :
    Placed (initial c) := by
  intro a ha
  show (copyBack c.motion c.incr [] c.base ([], [])).1.get a ≠ none
  rw [copyBack_prev _ _ _ hc.base]
  cases hb : c.base.get a with
  | none => exact absurd hb (h a ha)
  | some x =>
    dsimp only
    rw [if_neg]
    · simp
    · simp only [List.mem_cons, List.not_mem_nil, or_false] at ha
      rcases hc.motion with q | q | q | q | q <;> rw [q] <;> rcases ha with rfl | rfl | rfl <;> decide

/-! ## The same program with and without the block -/

/-- The second state is the first with a later time; positions are the same except at the words of `D`. -/
structure Delayed (D : List Str) (x : K) (s s' : St K) : Prop where
  path : s'.path = s.path
  time : s'.time.work = s.time.work ∧ s'.time.fast = s.time.fast ∧ s'.time.toolTotal = s.time.toolTotal ∧
    s'.time.toolId = s.time.toolId
  total : s'.time.total = addF s.time.total (some x)
  prev : ∀ w ∉ D, s'.prev.get w = s.prev.get w
  range : ∀ w ∉ D, s'.range.get w = s.range.get w
  tools : s'.tPath = s.tPath ∧ s'.tTime = s.tTime ∧ s'.tool = s.tool
  modal : s'.f = s.f ∧ s'.s = s.s ∧ s'.g = s.g ∧ s'.plane = s.plane ∧ s'.ret = s.ret ∧ s'.incr = s.incr ∧ s'.css = s.css ∧
    s'.perRev = s.perRev ∧ s'.helix = s.helix ∧ s'.autoRapid = s.autoRapid

omit [LinearOrder K] [FloorRing K] in
theorem delayed {D : List Str} {x : K} {s s' : St K} (h : AltOf D x s s') : Delayed D x s s' := by
  obtain ⟨pr, rg, h1, h2, rfl⟩ := h
  exact ⟨rfl, ⟨rfl, rfl, rfl, rfl⟩, rfl, h1, h2, ⟨rfl, rfl, rfl⟩, ⟨rfl, rfl, rfl, rfl, rfl, rfl, rfl, rfl, rfl, rfl⟩⟩

/-- Two runs show the same, the second later by `x`. -/
def Later (D : List Str) (x : K) (r r' : (St K × MacroMap ℚ) × Out Exc Unit) : Prop :=
  Delayed D x r.1.1 r'.1.1 ∧ r'.1.2 = r.1.2 ∧ r'.2 = r.2

theorem outcomes_alt {D : List Str} (hD : ∀ w ∈ readBack, w ∉ D) (F : Fns K) (c : Cfg K) (inch : Inch) (prog : Prog) {x : K}
    {s s' : St K} (m : MacroMap ℚ) (h : AltOf D x s s') :
    List.Forall₂ (Later D x) (outcomes F c inch prog (s, m)) (outcomes F c inch prog (s', m)) := by
  induction prog generalizing s s' m with
  | nil => exact .nil
  | cons b t ih =>
    obtain ⟨h1, h2, h3⟩ := evaluate_alt hD F c inch b.1 b.2 m h
    refine .cons ⟨delayed h1, h2, h3⟩ ?_
    have := ih (evaluate F c inch b.1 b.2 (s, m)).1.2 h1
    have e : (evaluate F c inch b.1 b.2 (s', m)).1 =
        ((evaluate F c inch b.1 b.2 (s', m)).1.1, (evaluate F c inch b.1 b.2 (s, m)).1.2) := by rw [← h2]
    rw [← e] at this
    exact this

theorem outcomes_cleared (F : Fns K) (c : Cfg K) (inch : Inch) (prog : Prog) (s : St K) (m : MacroMap ℚ) :
    outcomes F c inch prog (clearMotions s, m) = outcomes F c inch prog (s, m) := by
  cases prog with
  | nil => rfl
  | cons b t =>
    have e : evaluate F c inch b.1 b.2 (clearMotions s, m) = evaluate F c inch b.1 b.2 (s, m) := rfl
    unfold outcomes
    rw [e]

omit [LinearOrder K] [FloorRing K] in
/-- The state with nothing moved by the last block. -/
def still (s : St K) : St K :=
  { s with path := { s.path with work := some 0, fast := some 0 }, time := { s.time with work := some 0, fast := some 0 } }

/-- What a block adds to the time of the program. -/
abbrev waits (c : Cfg K) (b : Block) : K := machineTime (timesOf c) b + dwellTime b

/-- The block put between two parts of a program. -/
structure OnlyDelays (F : Fns K) (c : Cfg K) (inch : Inch) (D : List Str) (x : K) (line : Int) (b : Block)
    (p : St K × MacroMap ℚ) : Prop where
  /-- It is accepted. -/
  ok : (evaluate F c inch line b p).2 = .ok ()
  /-- It sets no variable. -/
  macros : (evaluate F c inch line b p).1.2 = p.2
  /-- Only the total time grows. -/
  block : Delayed D x (still p.1) (evaluate F c inch line b p).1.1
  /-- All later blocks show what they show without it, but later. -/
  rest : ∀ after : Prog, List.Forall₂ (Later D x) (outcomes F c inch after p)
    (outcomes F c inch after (evaluate F c inch line b p).1)

theorem onlyDelays {F : Fns K} {c : Cfg K} {inch : Inch} {D : List Str} (hD : ∀ w ∈ readBack, w ∉ D) {x : K} {line : Int}
    {b : Block} {p : St K × MacroMap ℚ}
    (h : AltOf D x (clearMotions p.1) (evaluate F c inch line b p).1.1 ∧ (evaluate F c inch line b p).1.2 = p.2 ∧
      (evaluate F c inch line b p).2 = .ok ()) : OnlyDelays F c inch D x line b p := by
  obtain ⟨h1, h2, h3⟩ := h
  refine ⟨h3, h2, delayed h1, fun after => ?_⟩
  have := outcomes_alt hD F c inch after p.2 h1
  rw [outcomes_cleared] at this
  have e : (evaluate F c inch line b p).1 = ((evaluate F c inch line b p).1.1, p.2) := by rw [← h2]
  rw [← e] at this
  exact this

/-- The base point gives the position of X, Y and Z. -/
def BasePoint (c : Cfg K) : Prop := ∀ a ∈ ([c!"X", c!"Y", c!"Z"] : List Str), c.base.get a ≠ none

/-- **C65.** A dwell G4 with P anywhere after blocks without errors, where straight motion, G80 or no motion is in force,
adds its time to the total time and has no other effect on this or any later block, but that P is remembered. -/
theorem C65_dwell_partial (F : Fns K) (hF : F.sqrt 0 = 0) {c : Cfg K} (hc : WF c) (hx : AxesOk c) (hbase : BasePoint c)
    (inch : Inch) (before : Prog) (m : MacroMap ℚ) (hok : AllOk F c inch before (initial c, m))
    (hr : (final F c inch before (initial c, m)).1.autoRapid = false)
    (hg : (final F c inch before (initial c, m)).1.g ∈ ([-1, 0, 1, 80] : List Int))
    (line : Int) (b : Block) (hb : ∀ d ∈ words b, WaitWord c.axes d) :
    OnlyDelays F c inch [c!"P"] (waits c b) line b (final F c inch before (initial c, m)) := by
  have hi := final_inv F hc inch before (initial c, m) (initial_inv hc)
  have ht := final_tidy F hc inch before (initial c, m) (initial_inv hc) (initial_tidy hc) hok
  have hp := final_placed F hc inch before (initial c, m) (initial_inv hc) (initial_placed hc hbase)
  exact onlyDelays (by decide) (wait_block F hF hx inch line _ hb ht (fun _ => hp) (Or.inr ⟨by decide, hr, hg⟩))

/-- **C80.** A block that says nothing about motion, speeds, modes or tools has no effect on this or any later block,
whatever is in force, but for the time of a pallet exchange or a measurement. -/
theorem C80_idle_partial (F : Fns K) (hF : F.sqrt 0 = 0) {c : Cfg K} (hc : WF c) (hx : AxesOk c) (hbase : BasePoint c)
    (inch : Inch) (before : Prog) (m : MacroMap ℚ) (hok : AllOk F c inch before (initial c, m))
    (line : Int) (b : Block) (hb : ∀ d ∈ words b, IdleWord c.axes d) :
    OnlyDelays F c inch [] (waits c b) line b (final F c inch before (initial c, m)) := by
  have ht := final_tidy F hc inch before (initial c, m) (initial_inv hc) (initial_tidy hc) hok
  have hp := final_placed F hc inch before (initial c, m) (initial_inv hc) (initial_placed hc hbase)
  exact onlyDelays (by decide) (wait_block F hF hx inch line _ (fun d h => Or.inl (hb d h)) ht (fun _ => hp) (Or.inl hb))

omit [LinearOrder K] [FloorRing K] in
/-- **C80.** Such a block takes no time unless it names a pallet exchange or a measurement. -/
theorem C80_no_time (c : Cfg K) (b : Block) (hb : ∀ d ∈ words b, IdleWord c.axes d)
    (hm : named b (timesOf c).measureCode = false) (hp : named b (timesOf c).palletCode = false) : waits c b = 0 := by
  have h1 : (words b).any isDwell = false := by
    rw [List.any_eq_false]
    intro d hd h
    unfold isDwell at h
    simp only [Bool.and_eq_true, decide_eq_true_eq] at h
    exact (hb d hd).2.1 (by rw [h.1.1]; decide)
  have h2 : (words b).any isTool = false := by
    rw [List.any_eq_false]
    intro d hd h
    unfold isTool at h
    simp only [Bool.and_eq_true, decide_eq_true_eq] at h
    exact (hb d hd).2.1 (by rw [h.1.1.1]; decide)
  have h3 : (words b).any isM6 = false := by
    rw [List.any_eq_false]
    intro d hd h
    unfold isM6 at h
    simp only [Bool.and_eq_true, decide_eq_true_eq] at h
    obtain ⟨⟨⟨h1, h2⟩, _⟩, _⟩ := h
    rcases (hb d hd).2.2 h1 with h | ⟨n, hn, h6⟩
    · unfold code at h2; rw [h] at h2; cases h2
    · rw [h2] at hn; cases hn; exact h6 rfl
  unfold waits machineTime dwellTime exchanges
  rw [h1, h2, h3, hm, hp]
  simp

end

/-! ## Concrete cases -/

section
open NC.SimDemo

theorem mill_base : BasePoint mill := by
  intro a ha
  simp only [List.mem_cons, List.not_mem_nil, or_false] at ha
  rcases ha with rfl | rfl | rfl <;> decide

/-- 5 mm of cutting. -/
def cutFirst : Prog := [(1, [w c!"G" c!"1", w c!"X" c!"3", w c!"Y" c!"4", w c!"F" c!"100"])]

theorem cutFirst_ok : AllOk qf mill false cutFirst (initial mill, []) := by
  unfold cutFirst
  simp only [AllOk]
  decide +kernel

/-- `N5 G4 P2000`. -/
def pause : Block := [w c!"N" c!"5", w c!"G" c!"4", w c!"P" c!"2000"]

theorem pause_waits : ∀ d ∈ words pause, WaitWord mill.axes d := by
  intro d hd
  have e : words pause = [{ word := c!"N", value := some c!"5" }, { word := c!"G", value := some c!"4" },
    { word := c!"P", value := some c!"2000" }] := by decide
  rw [e] at hd
  simp only [List.mem_cons, List.not_mem_nil, or_false] at hd
  rcases hd with rfl | rfl | rfl
  · exact Or.inl ⟨by decide, by decide, fun h => absurd h (by decide)⟩
  · exact Or.inr (Or.inl (by decide))
  · exact Or.inr (Or.inr ⟨rfl, by decide +kernel⟩)

/-- `C65_dwell_partial`: 2 s between two cuts. -/
example : OnlyDelays qf mill false [c!"P"] 2 2 pause (final qf mill false cutFirst (initial mill, [])) := by
  have h := C65_dwell_partial qf (by decide +kernel) mill_wf mill_axes mill_base false cutFirst [] cutFirst_ok
    (by decide +kernel) (by decide +kernel) 2 pause pause_waits
  have e : waits mill pause = 2 := by decide +kernel
  rw [e] at h
  exact h

/-- `N5 M8`. -/
def coolant : Block := [w c!"N" c!"5", w c!"M" c!"8"]

theorem coolant_idle : ∀ d ∈ words coolant, IdleWord mill.axes d := by
  intro d hd
  have e : words coolant = [{ word := c!"N", value := some c!"5" }, { word := c!"M", value := some c!"8" }] := by decide
  rw [e] at hd
  simp only [List.mem_cons, List.not_mem_nil, or_false] at hd
  rcases hd with rfl | rfl
  · exact ⟨by decide, by decide, fun h => absurd h (by decide)⟩
  · exact ⟨by decide, by decide, fun _ => Or.inr ⟨8, by decide +kernel, by decide⟩⟩

/-- `C80_idle_partial` and `C80_no_time`: coolant in the middle of a drilling pattern. -/
example :
    let before : Prog := [(1, [w c!"G" c!"81", w c!"X" c!"3", w c!"Y" c!"4", wn c!"Z" c!"5", w c!"R" c!"2", w c!"F" c!"100"])]
    OnlyDelays qf mill false [] 0 2 coolant (final qf mill false before (initial mill, [])) := by
  have h := C80_idle_partial qf (by decide +kernel) mill_wf mill_axes mill_base false
    [(1, [w c!"G" c!"81", w c!"X" c!"3", w c!"Y" c!"4", wn c!"Z" c!"5", w c!"R" c!"2", w c!"F" c!"100"])] []
    (by simp only [AllOk]; decide +kernel) 2 coolant coolant_idle
  rw [C80_no_time mill coolant coolant_idle (by decide +kernel) (by decide +kernel)] at h
  exact h

/-- **C65, violated.** `G4 X2` under G0 is also a rapid motion of 2 mm, and `G04 X2` even moves the position. -/
theorem C65_violated_moves :
    (evaluate qf mill false 1 [w c!"G" c!"4", w c!"X" c!"2"] (start mill)).1.1.path.total = some 2 ∧
    (evaluate qf mill false 1 [w c!"G" c!"4", w c!"X" c!"2"] (start mill)).1.1.prev.get c!"X" = some 0 ∧
    (evaluate qf mill false 1 [w c!"G" c!"04", w c!"X" c!"2"] (start mill)).1.1.path.total = some 2 ∧
    (evaluate qf mill false 1 [w c!"G" c!"04", w c!"X" c!"2"] (start mill)).1.1.prev.get c!"X" = some 2 := by
  decide +kernel

/-- **C65, violated.** `G4 X4` in the middle of a contour is refused where no feed is set, and cut where it is. -/
theorem C65_violated_cuts :
    let p := run mill [[w c!"G" c!"1", w c!"X" c!"3", w c!"F" c!"100"]] (start mill)
    p.1.path.total = some 3 ∧
    (evaluate qf mill false 2 [w c!"G" c!"4", w c!"X" c!"4"] p).1.1.path.total = some 4 ∧
    (evaluate qf mill false 2 [w c!"G" c!"4", w c!"X" c!"4"] p).1.1.path.work = some 1 := by decide +kernel

/-- **C65, violated.** A dwell while a drilling cycle is in force drills another hole. -/
theorem C65_violated_hole :
    let p := run mill [[w c!"G" c!"81", w c!"X" c!"3", w c!"Y" c!"4", wn c!"Z" c!"5", w c!"R" c!"2", w c!"F" c!"100"]] (start mill)
    p.1.path.holes = 1 ∧ (evaluate qf mill false 2 pause p).2 = .ok () ∧
    (evaluate qf mill false 2 pause p).1.1.path.holes = 2 ∧
    (evaluate qf mill false 2 pause p).1.1.path.work ≠ some 0 := by decide +kernel

/-- **C80, violated.** Where the base point leaves out an axis, a block with nothing but its number is refused until
the position is known. -/
theorem C80_violated_unplaced :
    let c : Cfg ℚ := { mill with base := [(c!"X", 0), (c!"Y", 0)] }
    (evaluate qf c false 1 [w c!"N" c!"5"] (start c)).2 ≠ .ok () := by decide +kernel

end
end NC.Props
