import Verif.Props.Sim
import Verif.Props.SimOrder
import Verif.Spec.Modal

/-!
# What is in force in a block, and the result of a block without tool and M words
-/

namespace NC.Props
open NC NC.Path NC.Ver NC.AttrPath NC.Spec.Sim

section
variable {K : Type} [Field K] [LinearOrder K] [FloorRing K]

/-- The G code of G90 and G91. -/
def incrNum (b : Bool) : Int := if b then 91 else 90

/-- The G code of G94 and G95. -/
def feedNum (b : Bool) : Int := if b then 95 else 94

/-- The G code of G96 and G97. -/
def speedNum (b : Bool) : Int := if b then 96 else 97

/-- The code a kind stands for, with its group. -/
def kindCode : GKind → Option (Nat × Int)
  | .motion n => some (1, n)
  | .plane p => some (2, planeNum p)
  | .incr b => some (3, incrNum b)
  | .perRev b => some (5, feedNum b)
  | .ret r => some (10, retNum r)
  | .css b => some (13, speedNum b)
  | .other => none

/-- The code a word gives in a group. -/
def actCode (k : Nat) : Act K → Option Int
  | .code x _ => ((kindCode x).filter (fun e => e.1 = k)).map (·.2)
  | _ => none

/-- The feed of a word. -/
def actFeed : Act K → Option K
  | .feed x => some x
  | _ => none

/-- The speed of a word. -/
def actSpeed : Act K → Option K
  | .spindle x => some x
  | _ => none

/-- The codes in force in a block. -/
def modalOfCur (c : Cur K) : Modal K :=
  ⟨c.g, planeNum c.plane, incrNum c.incr, feedNum c.perRev, retNum c.ret, speedNum c.css, c.f, c.s⟩

/-- The codes in force after a block. -/
def modalOf (s : St K) : Modal K :=
  ⟨s.g, planeNum s.plane, incrNum s.incr, feedNum s.perRev, retNum s.ret, speedNum s.css, s.f, s.s⟩

theorem kindCode_gKind (n : Int) : kindCode (gKind n) = (modalGroup n).map (fun k => (k, n)) := by
  unfold modalGroup gKind
  by_cases h1 : n ∈ ([0, 1, 2, 3, 73, 74, 76, 80, 81, 82, 83, 84, 85, 86, 87, 88, 89] : List Int)
  · rw [if_pos h1]
    have : n ≠ 17 ∧ n ≠ 18 ∧ n ≠ 19 ∧ ((0 ≤ n ∧ n ≤ 3) ∨ n = 80 ∨ isDrill n ∨ isDrillQ n) := by
      simp only [List.mem_cons, List.not_mem_nil, or_false] at h1
      rcases h1 with rfl | rfl | rfl | rfl | rfl | rfl | rfl | rfl | rfl | rfl | rfl | rfl | rfl | rfl | rfl | rfl | rfl <;>
        decide
    obtain ⟨a1, a2, a3, a4⟩ := this
    rw [if_neg a1, if_neg a2, if_neg a3, if_pos a4]
    rfl
  · rw [if_neg h1]
    by_cases a1 : n = 17
    · subst a1; rfl
    by_cases a2 : n = 18
    · subst a2; rfl
    by_cases a3 : n = 19
    · subst a3; rfl
    have h4 : ¬ ((0 ≤ n ∧ n ≤ 3) ∨ n = 80 ∨ isDrill n ∨ isDrillQ n) := by
      intro h
      apply h1
      unfold isDrill isDrillQ at h
      simp only [List.mem_cons, List.not_mem_nil, or_false, decide_eq_true_eq] at h ⊢
      omega
    have h2 : ¬ n ∈ ([17, 18, 19] : List Int) := by
      simp only [List.mem_cons, List.not_mem_nil, or_false]; omega
    rw [if_neg a1, if_neg a2, if_neg a3, if_neg h4, if_neg h2]
    unfold modeKind
    simp only [List.mem_cons, List.not_mem_nil, or_false]
    by_cases b1 : n = 94
    · subst b1; rfl
    by_cases b2 : n = 95
    · subst b2; rfl
    by_cases b3 : n = 96
    · subst b3; rfl
    by_cases b4 : n = 97
    · subst b4; rfl
    by_cases b5 : n = 98
    · subst b5; rfl
    by_cases b6 : n = 99
    · subst b6; rfl
    by_cases b7 : n = 90
    · subst b7; rfl
    by_cases b8 : n = 91
    · subst b8; rfl
    simp only [b1, b2, b3, b4, b5, b6, b7, b8, or_self, if_false]
    rfl

omit [LinearOrder K] [FloorRing K] in
theorem readWord_group {c : Cfg K} (hc : AxesOk c) {d : Dec} {x : Act K} (h : readWord c d = .ok x) (k : Nat) :
    actCode k x = groupWord k d := by
  unfold groupWord
  by_cases hg : d.word = c!"G"
  · rw [readWord_code_of hc hg] at h
    rw [if_pos hg]
    rcases readCode_code h with ⟨h1, rfl⟩ | ⟨n, t, h1, rfl⟩
    · rw [h1]; rfl
    · rw [h1]
      show ((kindCode (gKind n)).filter (fun e => e.1 = k)).map (·.2) = _
      rw [kindCode_gKind]
      cases hm : modalGroup n with
      | none => rw [Option.filter_some, hm]; rfl
      | some j =>
        rw [Option.filter_some, hm, Option.map_some, Option.filter_some]
        by_cases hj : j = k
        · subst hj; simp
        · simp [hj]
  · rw [if_neg hg]
    have h0 := readWord_not_code hg h
    cases x with
    | code k t => exact absurd rfl (h0 k t)
    | _ => rfl

omit [LinearOrder K] [FloorRing K] in
theorem readFeed_rate {f : K → Act K} {d : Dec} {x : Act K} (h : readFeed f d = .ok x) :
    (rateOf d = none ∧ x = .nothing) ∨ ∃ q, rateOf d = some q ∧ x = f (q : K) := by
  unfold readFeed at h
  unfold rateOf
  by_cases hv : d.value = none ∧ d.dot = none
  · rw [if_pos hv] at h
    cases h
    left
    refine ⟨?_, rfl⟩
    rw [if_neg (by rw [hv.1, hv.2]; simp)]
  · rw [if_neg hv] at h
    right
    rw [if_pos (by
      by_contra hh
      simp only [not_or, Option.not_isSome_iff_eq_none] at hh
      exact hv hh)]
    have ht : feedText d = d.value.getD [] ++ (if d.dot.isSome then d.dot.toList ++ d.value2.getD [] else []) := by
      unfold feedText
      cases d.value <;> cases d.dot <;> cases d.value2 <;> rfl
    rw [ht] at h
    unfold stodE at h
    cases hq : stod (d.value.getD [] ++ (if d.dot.isSome then d.dot.toList ++ d.value2.getD [] else [])) with
    | throw e => rw [hq] at h; cases h
    | ub => rw [hq] at h; cases h
    | ok q => rw [hq] at h; cases h; exact ⟨q, rfl, rfl⟩

omit [LinearOrder K] [FloorRing K] in
theorem readWord_rates {c : Cfg K} (hc : AxesOk c) {d : Dec} {x : Act K} (h : readWord c d = .ok x) :
    actFeed x = (if d.word = c!"F" then (rateOf d).map (fun q : ℚ => (q : K)) else none) ∧
    actSpeed x = (if d.word = c!"S" then (rateOf d).map (fun q : ℚ => (q : K)) else none) := by
  by_cases hF : d.word = c!"F"
  · have hr : readWord c d = readFeed .feed d := by
      unfold readWord
      rw [if_neg (by rw [hF]; exact code_ne_param hc (by decide)), if_neg (by rw [hF]; decide), if_pos hF]
    rw [hr] at h
    rw [if_pos hF, if_neg (by rw [hF]; decide)]
    rcases readFeed_rate h with ⟨h1, rfl⟩ | ⟨q, h1, rfl⟩
    · rw [h1]; exact ⟨rfl, rfl⟩
    · rw [h1]; exact ⟨rfl, rfl⟩
  · rw [if_neg hF]
    by_cases hS : d.word = c!"S"
    · have hr : readWord c d = readFeed .spindle d := by
        unfold readWord
        rw [if_neg (by rw [hS]; exact code_ne_param hc (by decide)), if_neg (by rw [hS]; decide), if_neg (by rw [hS]; decide), if_pos hS]
      rw [hr] at h
      rw [if_pos hS]
      rcases readFeed_rate h with ⟨h1, rfl⟩ | ⟨q, h1, rfl⟩
      · rw [h1]; exact ⟨rfl, rfl⟩
      · rw [h1]; exact ⟨rfl, rfl⟩
    · rw [if_neg hS]
      unfold readWord at h
      rw [if_neg hF, if_neg hS] at h
      split_ifs at h
      · unfold readVal at h
        split at h
        · cases h; exact ⟨rfl, rfl⟩
        · cases hq : stodE (valText d) <;> rw [hq] at h <;> cases h; exact ⟨rfl, rfl⟩
      · unfold readTool at h
        cases hq : d.value <;> rw [hq] at h
        · cases h; exact ⟨rfl, rfl⟩
        · dsimp only at h; split at h <;> cases h <;> exact ⟨rfl, rfl⟩
      · unfold readAux at h
        cases hq : d.value <;> rw [hq] at h
        · cases h; exact ⟨rfl, rfl⟩
        · dsimp only at h
          split at h
          · cases h; exact ⟨rfl, rfl⟩
          · split at h <;> cases h
            exact ⟨rfl, rfl⟩
      · rcases readCode_code h with ⟨_, rfl⟩ | ⟨n, t, _, rfl⟩ <;> exact ⟨rfl, rfl⟩
      · cases h; exact ⟨rfl, rfl⟩

/-- A check of `SteadyWord`. -/
def steadyWord (d : Dec) : Bool :=
  decide (d.word ≠ c!"T") && decide (d.word ≠ c!"M") &&
    (decide (d.word ≠ c!"G") || ((code d).bind modalGroup).isSome)

theorem steady_of {b : Block} (h : (words b).all steadyWord = true) : Steady b := by
  intro d hd
  have := List.all_eq_true.mp h d hd
  unfold steadyWord at this
  simp only [Bool.and_eq_true, Bool.or_eq_true, decide_eq_true_eq] at this
  refine ⟨this.1.1, this.1.2, fun hg => ?_⟩
  rcases this.2 with h1 | h1
  · exact absurd hg h1
  · cases hc : code d with
    | none => rw [hc] at h1; cases h1
    | some n =>
      refine ⟨n, rfl, fun hn => ?_⟩
      rw [hc] at h1
      change (modalGroup n).isSome = true at h1
      rw [hn] at h1
      cases h1

omit [LinearOrder K] [FloorRing K] in
theorem readWord_steady {c : Cfg K} (hc : AxesOk c) {d : Dec} (hp : SteadyWord d) {x : Act K}
    (h : readWord c d = .ok x) : quiet x = true := by
  by_cases hg : d.word = c!"G"
  · rw [readWord_code_of hc hg] at h
    obtain ⟨n, h1, hn⟩ := hp.2.2 hg
    rcases readCode_code h with ⟨h2, rfl⟩ | ⟨m, t, h2, rfl⟩
    · rw [h1] at h2; cases h2
    · rw [h1] at h2
      cases h2
      have := kindCode_gKind n
      cases hk : gKind n <;> try rfl
      rw [hk] at this
      cases hm : modalGroup n with
      | none => exact absurd hm hn
      | some j => rw [hm] at this; cases this
  · unfold readWord at h
    split_ifs at h with h1 h2 h3 h4 h5
    · unfold readVal at h
      split at h
      · cases h; rfl
      · cases hq : stodE (valText d) <;> rw [hq] at h <;> cases h; rfl
    · exact absurd h2 hp.1
    · rcases readFeed_rate h with ⟨_, rfl⟩ | ⟨q, _, rfl⟩ <;> rfl
    · rcases readFeed_rate h with ⟨_, rfl⟩ | ⟨q, _, rfl⟩ <;> rfl
    · exact absurd h5 hp.2.1
    · cases h; rfl

omit [LinearOrder K] [FloorRing K] in
theorem visitAll_steady {c : Cfg K} (hc : AxesOk c) {v : Vis K} {b : Block} (hb : Steady b)
    (h : visitAll c {} b = .ok v) : v.tools = [] ∧ v.m6 = false ∧ v.otherG = [] := by
  refine visitAll_words (P := fun _ r => r.tools = [] ∧ r.m6 = false ∧ r.otherG = []) (by rfl) h []
    ⟨rfl, rfl, rfl⟩ ?_ ?_ ?_
  · intro ds r d x hm hp hr
    obtain ⟨h1, h2, h3⟩ := on_quiet r x (readWord_steady hc (hb d hm) hr)
    rw [h1, h2, h3]
    exact hp
  · intro ds r p m hp; exact hp
  · intro ds r hp; exact hp

theorem filterMap_one {α β : Type} (f : α → Option β) (a : α) : List.filterMap f [a] = (f a).toList := by
  rw [List.filterMap_cons]; cases f a <;> rfl

/-- The codes of a group the visitor has collected. -/
def visCode (k : Nat) (v : Vis K) : Option Int :=
  if k = 1 then v.g
  else if k = 2 then v.plane.map planeNum
  else if k = 3 then v.incr.map incrNum
  else if k = 5 then v.perRev.map feedNum
  else if k = 10 then v.ret.map retNum
  else if k = 13 then v.css.map speedNum
  else none

omit [Field K] [LinearOrder K] [FloorRing K] in
theorem on_visCode (r : Vis K) (x : Act K) (k : Nat) (hk : k ∈ ([1, 2, 3, 5, 10, 13] : List Nat)) :
    visCode k (Act.on r x) = (actCode k x).or (visCode k r) := by
  simp only [List.mem_cons, List.not_mem_nil, or_false] at hk
  rcases hk with rfl | rfl | rfl | rfl | rfl | rfl <;>
    cases x with
    | code y t => cases y <;> rfl
    | _ => rfl

omit [LinearOrder K] [FloorRing K] in
theorem visitAll_group {c : Cfg K} (hc : AxesOk c) {v : Vis K} {b : Block} (h : visitAll c {} b = .ok v) (k : Nat)
    (hk : k ∈ ([1, 2, 3, 5, 10, 13] : List Nat)) : visCode k v = (groupCodes k b).getLast? := by
  have := visitAll_words (P := fun ds r => visCode k r = (ds.filterMap (groupWord k)).getLast?) (by rfl) h [] ?_ ?_ ?_ ?_
  · exact this
  · unfold visCode; simp
  · intro ds r d x _ hp hr
    rw [on_visCode _ _ _ hk, readWord_group hc hr, hp, List.filterMap_append, filterMap_one, getLast?_snoc_or]
  · intro ds r p m hp; exact hp
  · intro ds r hp; exact hp

omit [Field K] [LinearOrder K] [FloorRing K] in
theorem on_rates (r : Vis K) (x : Act K) :
    (Act.on r x).f = (actFeed x).or r.f ∧ (Act.on r x).s = (actSpeed x).or r.s := by
  cases x with
  | code y t => cases y <;> exact ⟨rfl, rfl⟩
  | _ => exact ⟨rfl, rfl⟩

omit [LinearOrder K] [FloorRing K] in
theorem visitAll_rates {c : Cfg K} (hc : AxesOk c) {v : Vis K} {b : Block} (h : visitAll c {} b = .ok v) (old : K) :
    v.f.getD old = rate c!"F" b old ∧ v.s.getD old = rate c!"S" b old := by
  have key : v.f = (((words b).filter (fun d => d.word = c!"F")).filterMap (fun d => (rateOf d).map (fun q : ℚ => (q : K)))).getLast? ∧
      v.s = (((words b).filter (fun d => d.word = c!"S")).filterMap (fun d => (rateOf d).map (fun q : ℚ => (q : K)))).getLast? := by
    have := visitAll_words (P := fun ds r =>
      r.f = ((ds.filter (fun d => d.word = c!"F")).filterMap (fun d => (rateOf d).map (fun q : ℚ => (q : K)))).getLast? ∧
      r.s = ((ds.filter (fun d => d.word = c!"S")).filterMap (fun d => (rateOf d).map (fun q : ℚ => (q : K)))).getLast?)
      (by rfl) h [] ⟨rfl, rfl⟩ ?_ ?_ ?_
    · exact this
    · intro ds r d x _ hp hr
      obtain ⟨h1, h2⟩ := readWord_rates hc hr
      obtain ⟨o1, o2⟩ := on_rates r x
      have one : ∀ a : Str, List.filterMap (fun d => (rateOf d).map (fun q : ℚ => (q : K))) (List.filter (fun d => d.word = a) [d]) =
          (if d.word = a then (rateOf d).map (fun q : ℚ => (q : K)) else none).toList := by
        intro a
        by_cases hd : d.word = a
        · rw [if_pos hd, List.filter_singleton, decide_eq_true hd, cond_true, filterMap_one]
        · rw [if_neg hd, List.filter_singleton, decide_eq_false hd]
          rfl
      rw [o1, o2, h1, h2, hp.1, hp.2, List.filter_append, List.filterMap_append, one, getLast?_snoc_or,
        List.filter_append, List.filterMap_append, one, getLast?_snoc_or]
      exact ⟨rfl, rfl⟩
    · intro ds r p m hp; exact hp
    · intro ds r hp; exact hp
  rw [key.1, key.2]
  exact ⟨rfl, rfl⟩

omit [LinearOrder K] [FloorRing K] in
/-- What is in force in a block. -/
theorem current_modal {c : Cfg K} (hc : AxesOk c) {v : Vis K} {b : Block} (h : visitAll c {} b = .ok v) (s : St K) :
    modalOfCur (current v s) = (modalOf s).after b := by
  have g := visitAll_group hc h
  have r1 := (visitAll_rates hc h s.f).1
  have r2 := (visitAll_rates hc h s.s).2
  have g1 : v.g.getD s.g = inGroup 1 b s.g := by
    unfold inGroup; rw [← g 1 (by decide)]; rfl
  have g2 : planeNum (v.plane.getD s.plane) = inGroup 2 b (planeNum s.plane) := by
    unfold inGroup; rw [← g 2 (by decide)]; show _ = (v.plane.map planeNum).getD _; cases v.plane <;> rfl
  have g3 : incrNum (v.incr.getD s.incr) = inGroup 3 b (incrNum s.incr) := by
    unfold inGroup; rw [← g 3 (by decide)]; show _ = (v.incr.map incrNum).getD _; cases v.incr <;> rfl
  have g5 : feedNum (v.perRev.getD s.perRev) = inGroup 5 b (feedNum s.perRev) := by
    unfold inGroup; rw [← g 5 (by decide)]; show _ = (v.perRev.map feedNum).getD _; cases v.perRev <;> rfl
  have g10 : retNum (v.ret.getD s.ret) = inGroup 10 b (retNum s.ret) := by
    unfold inGroup; rw [← g 10 (by decide)]; show _ = (v.ret.map retNum).getD _; cases v.ret <;> rfl
  have g13 : speedNum (v.css.getD s.css) = inGroup 13 b (speedNum s.css) := by
    unfold inGroup; rw [← g 13 (by decide)]; show _ = (v.css.map speedNum).getD _; cases v.css <;> rfl
  unfold modalOfCur Modal.after modalOf current
  dsimp only
  rw [g1, g2, g3, g5, g10, g13, r1, r2]

/-- The block has a motion of its own, or no rapid positioning is pending. -/
def Settled (s : St K) (b : Block) : Prop := s.autoRapid = false ∨ groupCodes 1 b ≠ []

/-- The result of a block without tool and M words: it is what `motion` and the accounting make of it, or the
block has nothing to move and everything stays as it was. -/
theorem steady_block (F : Fns K) {c : Cfg K} (hx : AxesOk c) (inch : Inch) (line : Int) {b : Block}
    (p : St K × MacroMap ℚ) (hp : p.1.g = -1 ∨ Good p.1.g) (hb : Steady b) (hne : b ≠ []) (hr : Settled p.1 b)
    (hg : inGroup 1 b p.1.g ≠ -1) (h : (evaluate F c inch line b p).2 = .ok ()) :
    ∃ v S M, visitAll c {} b = .ok v ∧ atTool c v = false ∧ atBase v = false ∧ v.otherG = [] ∧
      SamePos p.1 S ∧ S.helix = p.1.helix ∧
      S.path.work = some 0 ∧ S.path.fast = some 0 ∧ S.path.cycle = p.1.path.cycle ∧ S.path.holes = p.1.path.holes ∧
      S.path.total = p.1.path.total ∧ S.time.work = some 0 ∧ S.time.fast = some 0 ∧
      modalOfCur (current v S) = (modalOf p.1).after b ∧ Good (current v S).g ∧
      ((motion F c v (current v S) S = (M, .ok true) ∧ checks c (current v S) (counted F c inch (current v S) M) = .ok () ∧
          (evaluate F c inch line b p).1.1 = savePositions c v (counted F c inch (current v S) M)) ∨
        (motion F c v (current v S) S = (M, .ok false) ∧ (evaluate F c inch line b p).1.1 = S ∧
          modalOf S = modalOf p.1 ∧ v.g = none ∧ v.vals = [] ∧ (current v S).g ≠ 0)) := by
  have hE := evaluate_eval F c inch line b p
  rw [h] at hE
  generalize (evaluate F c inch line b p).1.1 = s' at hE ⊢
  generalize ho : (Out.ok () : Out Exc Unit) = o at hE
  have hvis : ∀ v, visitAll c {} b = .ok v → toolOf v = none ∧ atTool c v = false ∧ atBase v = false ∧ v.otherG = [] ∧
      v.g = (groupCodes 1 b).getLast? := by
    intro v hv
    obtain ⟨e1, e2, e3⟩ := visitAll_steady hx hb hv
    have e4 := visitAll_group hx hv 1 (by decide)
    have e0 : toolOf v = none := by unfold toolOf; rw [e1]; split <;> rfl
    refine ⟨e0, ?_, ?_, e3, e4⟩
    · unfold atTool; rw [e0, e2]; simp
    · unfold atBase; rw [e3]; simp
  have hS : ∀ v S, visitAll c {} b = .ok v → S = started c v (dwell v (exchanged c v (begun c v p.1))) →
      ((atTool c v = false ∧ S.g = -1) → v.g ≠ none) →
      SamePos p.1 S ∧ S.helix = p.1.helix ∧
      S.path.work = some 0 ∧ S.path.fast = some 0 ∧ S.path.cycle = p.1.path.cycle ∧ S.path.holes = p.1.path.holes ∧
      S.path.total = p.1.path.total ∧ S.time.work = some 0 ∧ S.time.fast = some 0 ∧
      modalOfCur (current v S) = (modalOf p.1).after b ∧ Good (current v S).g ∧
      (v.g = none → modalOf S = modalOf p.1) := by
    intro v S hv hS hn
    obtain ⟨h0, h1, h2, h3, h4⟩ := hvis v hv
    have hf := ready_fields c v p.1
    have hgd := good_ready (c := c) (v := v) hp
    dsimp only at hf hgd
    rw [← hS] at hf hgd
    have hgood := hgd hn (visitAll_good (by intro g hg; cases hg) hv)
    obtain ⟨f1, _, f3, f4, f5, f6, f7, f8, f9, f10, f11, f12, f13, f14, f15, f16, f17⟩ := hf
    have hcur := current_modal hx hv S
    have e1 : exchanged c v (begun c v p.1) = begun c v p.1 := by unfold exchanged; rw [h0]
    obtain ⟨y, hy⟩ := dwell_fields v (begun c v p.1)
    obtain ⟨z, hz⟩ := begun_addTime c v p.1
    have e3 : (dwell v (begun c v p.1)).g = p.1.g := by rw [hy, hz]; rfl
    have hSg : p.1.autoRapid = false → S.g = p.1.g := by
      intro har
      have e2 : (dwell v (begun c v p.1)).autoRapid = false := by rw [hy, hz]; exact har
      rw [hS, e1]
      unfold started
      rw [h1, h2, e2]
      simp
      exact e3
    have hmot : inGroup 1 b S.g = inGroup 1 b p.1.g := by
      unfold inGroup
      cases hl : (groupCodes 1 b).getLast? with
      | some n => rfl
      | none =>
        have hnil := List.getLast?_eq_none_iff.mp hl
        rcases hr with h | h
        · exact hSg h
        · exact absurd hnil h
    refine ⟨f1, f10, f12, f13, f14, f15, f11, f16, f17, ?_, hgood, ?_⟩
    · rw [hcur]
      unfold Modal.after modalOf
      dsimp only
      rw [hmot, f3, f4, f5, f6, f7, f8, f9]
    · intro hvg
      rw [h4] at hvg
      have hnil := List.getLast?_eq_none_iff.mp hvg
      have : S.g = p.1.g := by
        rcases hr with h | h
        · exact hSg h
        · exact absurd hnil h
      unfold modalOf
      rw [this, f3, f4, f5, f6, f7, f8, f9]
  cases hE with
  | empty hb' => exact absurd hb' hne
  | unread e _ => cases ho
  | unreadUb _ => cases ho
  | alone v t hv ht ha hw => rw [(hvis v hv).1] at ht; cases ht
  | aloneErr v t n hv ht ha hw => cases ho
  | badTool v t e hv ht ha hq => cases ho
  | badToolUb v t hv ht ha hq => cases ho
  | before v hv ht ha hba hr' hgg hvg =>
    apply absurd _ hg
    unfold inGroup
    rw [← (hvis v hv).2.2.2.2, hvg, hgg]; rfl
  | halt v S M o' hb' hv ht hSS hn hm ho' =>
    obtain ⟨_, h1, h2, h3, h4⟩ := hvis v hv
    obtain ⟨g1, g2, g3, g4, g5, g6, g7, g8, g9, g10, g11, g12⟩ := hS v S hv hSS hn
    rcases finish_ok ho.symm with h | h
    · exact absurd h ho'
    · subst h
      obtain ⟨m1, m2, m3, m4⟩ := motion_false g11 hm
      exact ⟨v, S, s', hv, h1, h2, h3, g1, g2, g3, g4, g5, g6, g7, g8, g9, g10, g11, Or.inr ⟨hm, m1, g12 m2, m2, m3, m4⟩⟩
  | done v S M s' o' hb' hv ht hSS hn hm ha =>
    obtain ⟨_, h1, h2, h3, h4⟩ := hvis v hv
    obtain ⟨g1, g2, g3, g4, g5, g6, g7, g8, g9, g10, g11, g12⟩ := hS v S hv hSS hn
    refine ⟨v, S, M, hv, h1, h2, h3, g1, g2, g3, g4, g5, g6, g7, g8, g9, g10, g11, Or.inl ⟨hm, ?_⟩⟩
    rw [account_eq] at ha
    split at ha
    · rename_i hck
      cases ha
      exact ⟨hck, rfl⟩
    · cases ha; cases ho
    · cases ha; cases ho

end
end NC.Props
