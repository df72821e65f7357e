import Verif.SimModal
import Verif.SimDemo

/-!
# C69: what stays in force from block to block.  C77: the time of a motion
-/

namespace NC.Props
open NC NC.Path NC.Ver NC.AttrPath NC.Spec.Sim

section
variable {K : Type} [Field K] [LinearOrder K] [FloorRing K]

omit [LinearOrder K] [FloorRing K] in
theorem on_keys {c : Cfg K} {d : Dec} {r : Vis K} {x : Act K} (h : readWord c d = .ok x)
    (hr : ∀ e ∈ r.vals, e.1 ∈ gcodeParams c) : ∀ e ∈ (Act.on r x).vals, e.1 ∈ gcodeParams c := by
  cases x with
  | val w y =>
    intro e he
    rcases VMap.mem_put he with rfl | he
    · unfold readWord at h
      split_ifs at h with h1 h2 h3 h4 h5 h6
      · unfold readVal at h
        split at h
        · cases h
        · cases hq : stodE (valText d) <;> rw [hq] at h <;> cases h; exact h1
      · have := readTool_val h w; simp [valOf] at this
      · rcases readFeed_rate h with ⟨_, h⟩ | ⟨q, _, h⟩ <;> cases h
      · rcases readFeed_rate h with ⟨_, h⟩ | ⟨q, _, h⟩ <;> cases h
      · have := readAux_val h w; simp [valOf] at this
      · have := readCode_val h w; simp [valOf] at this
      · cases h
    · exact hr e he
  | code k t => cases k <;> exact hr
  | _ => exact hr

omit [LinearOrder K] [FloorRing K] in
theorem visitAll_keys {c : Cfg K} {v : Vis K} {b : Block} (h : visitAll c {} b = .ok v) :
    ∀ e ∈ v.vals, e.1 ∈ gcodeParams c := by
  refine visitAll_words (P := fun _ r => ∀ e ∈ r.vals, e.1 ∈ gcodeParams c) (by rfl) h [] ?_ ?_ ?_ ?_
  · intro e he; cases he
  · intro ds r d x _ hp hr; exact on_keys hr hp
  · intro ds r p m hp; exact hp
  · intro ds r hp; exact hp

omit [LinearOrder K] [FloorRing K] in
theorem visitAll_bare {c : Cfg K} (hc : AxesOk c) {v : Vis K} {b : Block} (h : visitAll c {} b = .ok v) :
    (v.g = none ∧ v.vals = []) ↔ Bare K c.axes b := by
  have hg : v.g = (groupCodes 1 b).getLast? := visitAll_group hc h 1 (by decide)
  unfold Bare
  rw [hg, List.getLast?_eq_none_iff]
  refine and_congr_right (fun _ => ?_)
  constructor
  · intro h1 a ha
    rw [← visitAll_vals h (show a ∈ gcodeParams c from ha), h1]; rfl
  · intro h1
    cases hv : v.vals with
    | nil => rfl
    | cons e t =>
      have hk := visitAll_keys h e (by rw [hv]; exact List.mem_cons_self)
      have := visitAll_vals h hk
      rw [h1 e.1 hk, hv, VMap.get_cons] at this
      simp at this

omit [FloorRing K] in
theorem savePositions_modal (c : Cfg K) (v : Vis K) (s : St K) : modalOf (savePositions c v s) = modalOf s ∧
    (savePositions c v s).path = s.path ∧ (savePositions c v s).time = s.time ∧ (savePositions c v s).helix = s.helix := by
  unfold savePositions
  split
  · exact ⟨rfl, rfl, rfl, rfl⟩
  · split <;> exact ⟨rfl, rfl, rfl, rfl⟩

/-- What is in force after a block that has been carried out: G80 may lead back to G0. -/
def settle (c : Cfg K) (m : Modal K) : Modal K :=
  if m.motion = 80 ∧ c.cancelRapid = true then { m with motion := 0 } else m

omit [LinearOrder K] [FloorRing K] in
theorem settle_other {c : Cfg K} {m : Modal K} (h : m.motion ≠ 80) : settle c m = m := by
  unfold settle; rw [if_neg (fun h' => h h'.1)]

theorem counted_modal (F : Fns K) (c : Cfg K) (inch : Inch) (cur : Cur K) (s : St K) :
    modalOf (counted F c inch cur s) = settle c (modalOfCur cur) := by
  unfold settle
  show Modal.mk (gAfter c cur.g) _ _ _ _ _ _ _ = _
  unfold gAfter
  by_cases h : cur.g = 80 ∧ c.cancelRapid = true
  · rw [if_pos h, if_pos (show (modalOfCur cur).motion = 80 ∧ _ from h)]; rfl
  · rw [if_neg h, if_neg (show ¬ ((modalOfCur cur).motion = 80 ∧ _) from h)]; rfl

/-- Motions that are carried out by a block without values: straight ones and the cancelling of a cycle. -/
def Carries (g : Int) : Prop := g = 0 ∨ g = 1 ∨ g = 80

/-- **C69.** After a block without tool and M words, once there is a motion, everything that stays in force is as
the block gives it or as before, except that a block that names no motion and gives no value is lost
while an arc or drilling cycle is in force. -/
theorem C69_hold_partial (F : Fns K) {c : Cfg K} (hx : AxesOk c) (inch : Inch) (line : Int) {b : Block}
    (p : St K × MacroMap ℚ) (hp : p.1.g = -1 ∨ Good p.1.g) (hb : Steady b) (hne : b ≠ []) (hr : Settled p.1 b)
    (hg : inGroup 1 b p.1.g ≠ -1) (h : (evaluate F c inch line b p).2 = .ok ()) :
    (¬ (Bare K c.axes b ∧ ¬ Carries p.1.g) →
      modalOf (evaluate F c inch line b p).1.1 = settle c ((modalOf p.1).after b)) ∧
    ((Bare K c.axes b ∧ ¬ Carries p.1.g) → modalOf (evaluate F c inch line b p).1.1 = modalOf p.1) := by
  obtain ⟨v, S, M, hv, ha, hba, ho, g1, g2, g3, g4, g5, g6, g7, g8, g9, g10, g11, hres⟩ :=
    steady_block F hx inch line p hp hb hne hr hg h
  have hbare := visitAll_bare hx hv
  have hcg : (current v S).g = inGroup 1 b p.1.g := congrArg Modal.motion g10
  have hlost : Bare K c.axes b → ¬ Carries p.1.g → (motion F c v (current v S) S).2 = .ok false := by
    intro h1 h2
    have hvv := hbare.mpr h1
    have e : (current v S).g = p.1.g := by
      rw [hcg]; unfold inGroup; rw [h1.1]; rfl
    unfold Carries at h2
    simp only [not_or] at h2
    unfold motion
    rw [e, if_neg (by simp only [not_or]; exact ⟨h2.1, h2.2.1⟩)]
    split
    · unfold circular; rw [if_pos hvv]
    · rw [if_neg h2.2.2]
      split
      · unfold drilling; rw [if_pos hvv]
      · rfl
  rcases hres with ⟨m1, m2, m3⟩ | ⟨m1, m3, m4, m5, m6, m7⟩
  · refine ⟨fun _ => ?_, fun hB => ?_⟩
    · rw [m3, (savePositions_modal c v _).1, counted_modal, g10]
    · have := hlost hB.1 hB.2
      rw [m1] at this; cases this
  · refine ⟨fun hB => ?_, fun _ => ?_⟩
    · exfalso
      apply hB
      refine ⟨hbare.mp ⟨m5, m6⟩, ?_⟩
      have e : (current v S).g = S.g := by show v.g.getD S.g = _; rw [m5]; rfl
      have e' : S.g = p.1.g := congrArg Modal.motion m4
      rw [← e', ← e]
      rintro (hh | hh | hh)
      · exact m7 hh
      · unfold motion at m1
        rw [if_pos (Or.inr hh)] at m1
        exact linear_goes F c v _ S (by rw [m1])
      · unfold motion at m1
        rw [if_neg (by rw [hh]; decide), if_neg (by rw [hh]; decide), if_pos hh] at m1
        cases m1
    · rw [m3, m4]

/-- **C69, before the first motion.** While no motion is in force, planes, G90 and G91, G96 and G97, G98 and G99 hold,
while F, S, G94 and G95 are lost. -/
theorem C69_before_motion_partial (F : Fns K) {c : Cfg K} (hx : AxesOk c) (inch : Inch) (line : Int) {b : Block}
    (p : St K × MacroMap ℚ) (hb : Steady b) (hne : b ≠ []) (hr : p.1.autoRapid = false)
    (hg : inGroup 1 b p.1.g = -1) (h : (evaluate F c inch line b p).2 = .ok ()) :
    modalOf (evaluate F c inch line b p).1.1 =
      { (modalOf p.1).after b with feedMode := (modalOf p.1).feedMode, feed := p.1.f, speed := p.1.s } := by
  have hE := evaluate_eval F c inch line b p
  rw [h] at hE
  generalize (evaluate F c inch line b p).1.1 = s' at hE ⊢
  generalize ho : (Out.ok () : Out Exc Unit) = o at hE
  have hvis : ∀ v, visitAll c {} b = .ok v → toolOf v = none ∧ atTool c v = false ∧ atBase v = false ∧
      v.g.getD p.1.g = -1 := by
    intro v hv
    obtain ⟨e1, e2, e3⟩ := visitAll_steady hx hb hv
    have e4 : v.g = (groupCodes 1 b).getLast? := visitAll_group hx hv 1 (by decide)
    have e0 : toolOf v = none := by unfold toolOf; rw [e1]; split <;> rfl
    refine ⟨e0, ?_, ?_, ?_⟩
    · unfold atTool; rw [e0, e2]; simp
    · unfold atBase; rw [e3]; simp
    · rw [e4]; exact hg
  have hno : ∀ v S, visitAll c {} b = .ok v → S = started c v (dwell v (exchanged c v (begun c v p.1))) →
      ((atTool c v = false ∧ S.g = -1) → v.g ≠ none) → False := by
    intro v S hv hS hn
    obtain ⟨h0, h1, h2, h3⟩ := hvis v hv
    cases hvg : v.g with
    | some g =>
      rw [hvg] at h3
      have hgood := visitAll_good (r := ({} : Vis K)) (by intro g hg; cases hg) hv g hvg
      change g = -1 at h3
      rw [h3] at hgood
      revert hgood
      unfold Good
      decide
    | none =>
      rw [hvg] at h3
      refine hn ⟨h1, ?_⟩ hvg
      have e1 : exchanged c v (begun c v p.1) = begun c v p.1 := by unfold exchanged; rw [h0]
      obtain ⟨y, hy⟩ := dwell_fields v (begun c v p.1)
      obtain ⟨z, hz⟩ := begun_addTime c v p.1
      have e3 : (dwell v (begun c v p.1)).g = p.1.g := by rw [hy, hz]; rfl
      have e2 : (dwell v (begun c v p.1)).autoRapid = false := by rw [hy, hz]; exact hr
      rw [hS, e1]
      unfold started
      rw [h1, h2, e2]
      simp
      rw [e3]
      exact h3
  cases hE with
  | empty hb' => exact absurd hb' hne
  | unread e _ => cases ho
  | unreadUb _ => cases ho
  | alone v t hv ht ha hw => rw [(hvis v hv).1] at ht; cases ht
  | aloneErr v t n hv ht ha hw => cases ho
  | badTool v t e hv ht ha hq => cases ho
  | badToolUb v t hv ht ha hq => cases ho
  | before v hv ht ha hba hr' hgg hvg =>
    have hcur := current_modal hx hv p.1
    obtain ⟨y, hy⟩ := dwell_fields v (begun c v p.1)
    obtain ⟨z, hz⟩ := begun_addTime c v p.1
    rw [hy, hz, ← hcur]
    show Modal.mk p.1.g (planeNum (v.plane.getD p.1.plane)) (incrNum (v.incr.getD p.1.incr)) _
      (retNum (v.ret.getD p.1.ret)) (speedNum (v.css.getD p.1.css)) _ _ = _
    unfold modalOfCur current
    rw [hvg]
    rfl
  | halt v S M o' hb' hv ht hSS hn hm ho' => exact absurd (hno v S hv hSS hn) id
  | done v S M s' o' hb' hv ht hSS hn hm ha => exact absurd (hno v S hv hSS hn) id

/-! ## Times -/

/-- The motion of a block, work and rapid, and the feed it is done with. -/
theorem C77_time_partial (F : Fns K) {c : Cfg K} (hx : AxesOk c) (inch : Inch) (line : Int) {b : Block}
    (p : St K × MacroMap ℚ) (hp : p.1.g = -1 ∨ Good p.1.g) (hb : Steady b) (hne : b ≠ []) (hr : Settled p.1 b)
    (hg : inGroup 1 b p.1.g ≠ -1) (h : (evaluate F c inch line b p).2 = .ok ()) {w q : K}
    (hw : (evaluate F c inch line b p).1.1.path.work = some w)
    (hq : (evaluate F c inch line b p).1.1.path.fast = some q)
    (hl : (c.mtype = .lathe ∨ (c.mtype = .millturn ∧ ((modalOf p.1).after b).plane = 18)) ∨
      ((modalOf p.1).after b).feedMode = 94)
    (hs : ((modalOf p.1).after b).feedMode = 94 ∨ ((modalOf p.1).after b).speedMode = 97)
    (hf : 0 < ((modalOf p.1).after b).feed) (hf' : ((modalOf p.1).after b).perMinute ≠ 0) (hm : 0 < c.maxFast) :
    (evaluate F c inch line b p).1.1.time.work = some (seconds w ((modalOf p.1).after b).perMinute) ∧
    (evaluate F c inch line b p).1.1.time.fast = some (seconds q c.maxFast) := by
  obtain ⟨v, S, M, hv, ha, hba, ho, g1, g2, g3, g4, g5, g6, g7, g8, g9, g10, g11, hres⟩ :=
    steady_block F hx inch line p hp hb hne hr hg h
  rw [← g10] at hl hs hf hf' ⊢
  have hpm : ∀ x, feedPerMinute F c inch (current v S) x = (modalOfCur (current v S)).perMinute := by
    intro x
    unfold feedPerMinute Modal.perMinute
    by_cases hrev : (current v S).perRev = true
    · have e95 : (modalOfCur (current v S)).feedMode = 95 := by show feedNum _ = _; rw [hrev]; rfl
      have hlat : latheProg c (current v S).plane = true := by
        unfold latheProg
        rcases hl with (h1 | ⟨h1, h2⟩) | h1
        · rw [h1]; rfl
        · rw [h1]
          have : (current v S).plane = .xz := by
            change planeNum (current v S).plane = 18 at h2
            revert h2
            cases (current v S).plane <;> simp [planeNum]
          rw [this]; rfl
        · rw [e95] at h1; cases h1
      have hcss : (current v S).css = false := by
        rcases hs with h1 | h1
        · rw [e95] at h1; cases h1
        · change speedNum (current v S).css = 97 at h1
          cases hcs : (current v S).css
          · rfl
          · rw [hcs] at h1; cases h1
      rw [if_pos ⟨hlat, hrev⟩, if_pos e95, hcss]
      rfl
    · have e94 : (modalOfCur (current v S)).feedMode = 94 := by
        show feedNum _ = _; simp only [Bool.not_eq_true] at hrev; rw [hrev]; rfl
      rw [if_neg (fun h => hrev h.2), if_neg (by rw [e94]; decide)]
      rfl
  have hzero : ∀ x : K, seconds 0 x = 0 := by intro x; unfold seconds; rw [zero_div, mul_zero]
  rcases hres with ⟨m1, m2, m3⟩ | ⟨m1, m3, m4, m5, m6, m7⟩
  · rw [m3, (savePositions_modal c v _).2.1] at hw hq
    rw [m3, (savePositions_modal c v _).2.2.1]
    change M.path.work = some w at hw
    change M.path.fast = some q at hq
    show workTime F c inch (current v S) M.path.work = _ ∧ fastTime c M.path.fast = _
    rw [hw, hq]
    unfold workTime fastTime
    dsimp only
    rw [hpm]
    constructor
    · by_cases hw0 : w = 0
      · rw [if_neg (fun h => h.1 hw0), hw0, hzero]
      · rw [if_pos ⟨hw0, hf⟩]
        unfold calcTime
        rw [if_neg hf']
        rfl
    · by_cases hq0 : q = 0
      · rw [if_neg (fun h => h.1 hq0), hq0, hzero]
      · rw [if_pos ⟨hq0, hm⟩]
        unfold calcTime
        rw [if_neg (ne_of_gt hm)]
        rfl
  · rw [m3] at hw hq ⊢
    rw [g3] at hw
    rw [g4] at hq
    cases hw
    cases hq
    rw [hzero, hzero]
    exact ⟨g8, g9⟩

/-- **C77.** A block with work motion is refused unless a feed has been given. -/
theorem C77_feed_needed (F : Fns K) {c : Cfg K} (hx : AxesOk c) (inch : Inch) (line : Int) {b : Block}
    (p : St K × MacroMap ℚ) (hp : p.1.g = -1 ∨ Good p.1.g) (hb : Steady b) (hne : b ≠ []) (hr : Settled p.1 b)
    (hg : inGroup 1 b p.1.g ≠ -1) (h : (evaluate F c inch line b p).2 = .ok ())
    (hw : (evaluate F c inch line b p).1.1.path.work ≠ some 0) : 0 ≤ ((modalOf p.1).after b).feed := by
  obtain ⟨v, S, M, hv, ha, hba, ho, g1, g2, g3, g4, g5, g6, g7, g8, g9, g10, g11, hres⟩ :=
    steady_block F hx inch line p hp hb hne hr hg h
  rcases hres with ⟨m1, m2, m3⟩ | ⟨m1, m3, m4, m5, m6, m7⟩
  · rw [m3, (savePositions_modal c v _).2.1] at hw
    rw [← g10]
    unfold checks at m2
    by_contra hn
    rw [if_pos ⟨hw, not_le.mp hn⟩] at m2
    cases m2
  · rw [m3] at hw
    exact absurd g3 hw

/-- **C77, G96.** On a lathe with feed per revolution and constant surface speed the time is the one of a spindle speed
that gives S metres (feet) per minute at a diameter equal to the length of the motion. -/
theorem C77_surface_partial (F : Fns K) {c : Cfg K} (hx : AxesOk c) (inch : Inch) (line : Int) {b : Block}
    (p : St K × MacroMap ℚ) (hp : p.1.g = -1 ∨ Good p.1.g) (hb : Steady b) (hne : b ≠ []) (hr : Settled p.1 b)
    (hg : inGroup 1 b p.1.g ≠ -1) (h : (evaluate F c inch line b p).2 = .ok ()) {w : K} (hw0 : w ≠ 0)
    (hw : (evaluate F c inch line b p).1.1.path.work = some w)
    (hl : c.mtype = .lathe ∨ (c.mtype = .millturn ∧ ((modalOf p.1).after b).plane = 18))
    (hs : ((modalOf p.1).after b).feedMode = 95 ∧ ((modalOf p.1).after b).speedMode = 96)
    (hf : 0 < ((modalOf p.1).after b).feed) (hsp : ((modalOf p.1).after b).speed ≠ 0)
    (hpi : F.pi ≠ 0) (h10 : (1000 : K) ≠ 0 ∧ (12 : K) ≠ 0) :
    (evaluate F c inch line b p).1.1.time.work =
      some (seconds w (((modalOf p.1).after b).feed *
        (((modalOf p.1).after b).speed * (if inch then 12 else 1000) / (F.pi * w)))) := by
  obtain ⟨v, S, M, hv, ha, hba, ho, g1, g2, g3, g4, g5, g6, g7, g8, g9, g10, g11, hres⟩ :=
    steady_block F hx inch line p hp hb hne hr hg h
  rw [← g10] at hl hs hf hsp ⊢
  rcases hres with ⟨m1, m2, m3⟩ | ⟨m1, m3, m4, m5, m6, m7⟩
  · rw [m3, (savePositions_modal c v _).2.1] at hw
    rw [m3, (savePositions_modal c v _).2.2.1]
    change M.path.work = some w at hw
    show workTime F c inch (current v S) M.path.work = _
    rw [hw]
    have hlat : latheProg c (current v S).plane = true := by
      unfold latheProg
      rcases hl with h1 | ⟨h1, h2⟩
      · rw [h1]; rfl
      · rw [h1]
        have : (current v S).plane = .xz := by
          change planeNum (current v S).plane = 18 at h2
          revert h2
          cases (current v S).plane <;> simp [planeNum]
        rw [this]; rfl
    have hrev : (current v S).perRev = true := by
      have h1 := hs.1
      change feedNum (current v S).perRev = 95 at h1
      cases hcs : (current v S).perRev
      · rw [hcs] at h1; cases h1
      · rfl
    have hcss : (current v S).css = true := by
      have h1 := hs.2
      change speedNum (current v S).css = 96 at h1
      cases hcs : (current v S).css
      · rw [hcs] at h1; cases h1
      · rfl
    unfold workTime feedPerMinute
    dsimp only
    rw [if_pos ⟨hw0, hf⟩, if_pos ⟨hlat, hrev⟩, hcss]
    unfold surface calcTime
    simp only [if_true]
    rw [if_neg]
    · rfl
    · refine mul_ne_zero (ne_of_gt hf) (div_ne_zero (mul_ne_zero hsp ?_) (mul_ne_zero hpi hw0))
      cases inch
      · exact h10.1
      · exact h10.2
  · rw [m3, g3] at hw
    cases hw
    exact absurd rfl hw0

end

/-! ## Examples and violations -/

section
open SimDemo

/-- A lathe that takes X as radius. -/
def turner : Cfg ℚ := { mill with mtype := .lathe, depthless := false, plane := .xz, diameter2x := true }

/-- A straight cut of 30 with F and S. -/
def feedCut : Block := [w c!"G" c!"1", w c!"G" c!"95", w c!"X" c!"30", w c!"F" c!"2", w c!"S" c!"100"]

theorem feedCut_steady : Steady feedCut := steady_of (by decide)

example : AxesOk turner ∧ Good (start turner).1.g ∧ Settled (start turner).1 feedCut ∧ inGroup 1 feedCut (start turner).1.g ≠ -1 ∧
    (evaluate qf turner false 1 feedCut (start turner)).2 = .ok () ∧
    (evaluate qf turner false 1 feedCut (start turner)).1.1.path.work = some 30 ∧
    (evaluate qf turner false 1 feedCut (start turner)).1.1.path.fast = some 0 ∧
    (modalOf (start turner).1).after feedCut = ⟨1, 18, 90, 95, 98, 97, 2, 100⟩ ∧
    (evaluate qf turner false 1 feedCut (start turner)).1.1.time.work = some 9 := by
  refine ⟨?_, ?_, Or.inl (by decide), ?_, ?_, ?_, ?_, ?_, ?_⟩
  · intro a h1 h2; revert a; decide
  · unfold Good; decide +kernel
  all_goals decide +kernel

/-- The block in constant surface speed. -/
example : (evaluate qf turner false 1 (w c!"G" c!"96" :: feedCut) (start turner)).2 = .ok () ∧
    (evaluate qf turner false 1 (w c!"G" c!"96" :: feedCut) (start turner)).1.1.path.work = some 30 ∧
    (evaluate qf turner false 1 (w c!"G" c!"96" :: feedCut) (start turner)).1.1.time.work =
      some (seconds 30 (2 * (100 * 1000 / (22 / 7 * 30)))) := by
  and_intros <;> decide +kernel

/-- **C69 violated.** F50 on a line of its own after an arc is lost: the next arc is still timed with F100. -/
theorem C69_violated_lost :
    (evaluate qf mill false 1 [w c!"F" c!"50"]
      (run mill [[w c!"G" c!"2", w c!"I" c!"5", w c!"J" c!"0", w c!"F" c!"100"]] (start mill))).2 = .ok () ∧
    rate c!"F" [w c!"F" c!"50"] (100 : ℚ) = 50 ∧
    (run mill [[w c!"G" c!"2", w c!"I" c!"5", w c!"J" c!"0", w c!"F" c!"100"], [w c!"F" c!"50"]] (start mill)).1.f = 100 := by
  and_intros <;> decide +kernel

/-- A machine without default motion. -/
def unset : Cfg ℚ := { mill with motion := -1 }

/-- **C69 violated.** F on a line of its own before the first motion is lost: the first cut is refused. -/
theorem C69_violated_before :
    (evaluate qf unset false 1 [w c!"F" c!"50"] (start unset)).2 = .ok () ∧
    (evaluate qf unset false 1 [w c!"G" c!"1", w c!"X" c!"10"] (run unset [[w c!"F" c!"50"]] (start unset))).2 =
      .throw (err .ValueNotSet [c!"F"]) := by
  and_intros <;> decide +kernel

/-- **C77 violated.** On a milling machine feed per revolution is taken as feed per minute: 30 mm at 2 mm per
revolution and 100 revolutions take 15 minutes instead of 9 seconds. -/
theorem C77_violated_mill :
    (evaluate qf mill false 1 feedCut (start mill)).2 = .ok () ∧
    (evaluate qf mill false 1 feedCut (start mill)).1.1.path.work = some 30 ∧
    (evaluate qf mill false 1 feedCut (start mill)).1.1.time.work = some 900 ∧
    seconds 30 ((modalOf (start mill).1).after feedCut).perMinute = (9 : ℚ) := by
  and_intros <;> decide +kernel

/-- **C77 violated.** Cutting with F0 takes no time. -/
theorem C77_violated_F0 :
    (evaluate qf mill false 1 [w c!"G" c!"1", w c!"X" c!"10", w c!"F" c!"0"] (start mill)).2 = .ok () ∧
    (evaluate qf mill false 1 [w c!"G" c!"1", w c!"X" c!"10", w c!"F" c!"0"] (start mill)).1.1.path.work = some 10 ∧
    (evaluate qf mill false 1 [w c!"G" c!"1", w c!"X" c!"10", w c!"F" c!"0"] (start mill)).1.1.time.work = some 0 := by
  and_intros <;> decide +kernel

/-- **C77 violated.** At constant surface speed, twice the way takes four times as long. -/
theorem C77_violated_surface :
    (evaluate qf turner false 1 [w c!"G" c!"1", w c!"G" c!"95", w c!"G" c!"96", w c!"X" c!"10", w c!"F" c!"1", w c!"S" c!"100"]
      (start turner)).1.1.time.work = some (33 / 175) ∧
    (evaluate qf turner false 1 [w c!"G" c!"1", w c!"G" c!"95", w c!"G" c!"96", w c!"X" c!"20", w c!"F" c!"1", w c!"S" c!"100"]
      (start turner)).1.1.time.work = some (4 * (33 / 175)) := by
  and_intros <;> decide +kernel

end
end NC.Props
