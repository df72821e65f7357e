import Verif.Props.Sim
import Verif.Props.SimCases

/-!
# Properties of the simulation of blocks: the order of words
-/

namespace NC.Props
open NC NC.Path NC.Ver NC.AttrPath NC.Spec.Sim

section
variable {K : Type} [Field K] [LinearOrder K] [FloorRing K]

/-- What a word sets. -/
def kindGroup : GKind → Option Nat
  | .motion _ => some 1
  | .plane _ => some 2
  | .incr _ => some 3
  | .perRev _ => some 5
  | .ret _ => some 10
  | .css _ => some 13
  | .other => none

/-- What a word sets. -/
def slot : Act K → Option (Str × Nat)
  | .val w _ => some (w, 0)
  | .tool _ => some (c!"T", 0)
  | .feed _ => some (c!"F", 0)
  | .spindle _ => some (c!"S", 0)
  | .code k _ => (kindGroup k).map (fun g => (c!"G", g))
  | _ => none

/-- Equal up to the order of the G codes of no category. -/
def Alike (v v' : Vis K) : Prop := v' = { v with otherG := v'.otherG } ∧ v.otherG.Perm v'.otherG

omit [Field K] [LinearOrder K] [FloorRing K] in
theorem Alike.refl (v : Vis K) : Alike v v := ⟨rfl, List.Perm.refl _⟩

omit [Field K] [LinearOrder K] [FloorRing K] in
theorem Alike.trans {u v w : Vis K} (h : Alike u v) (h' : Alike v w) : Alike u w := by
  refine ⟨?_, h.2.trans h'.2⟩
  have h2 := h'.1
  rw [h.1] at h2
  exact h2

omit [Field K] [LinearOrder K] [FloorRing K] in
theorem alike_on {v v' : Vis K} (h : Alike v v') (x : Act K) : Alike (Act.on v x) (Act.on v' x) := by
  obtain ⟨h1, h2⟩ := h
  rw [h1]
  cases x with
  | code k t => cases k <;> first | exact ⟨rfl, h2⟩ | exact ⟨rfl, h2.append_right _⟩
  | _ => exact ⟨rfl, h2⟩

omit [Field K] [LinearOrder K] [FloorRing K] in
theorem alike_foldl {v v' : Vis K} (h : Alike v v') (l : List (Act K)) : Alike (l.foldl Act.on v) (l.foldl Act.on v') := by
  induction l generalizing v v' with
  | nil => exact h
  | cons x t ih => exact ih (alike_on h x)

theorem put_comm {V : Type} {m : VMap V} (hm : m.Sorted) {a b : Str} (h : a ≠ b) (x y : V) :
    (m.put a x).put b y = (m.put b y).put a x := by
  apply VMap.ext (VMap.sorted_put (VMap.sorted_put hm _ _) _ _) (VMap.sorted_put (VMap.sorted_put hm _ _) _ _)
  intro k
  rw [VMap.get_put, VMap.get_put, VMap.get_put, VMap.get_put]
  by_cases h1 : a = k
  · rw [if_pos h1, if_neg (fun e => h (h1.trans e.symm)), if_pos h1]
  · rw [if_neg h1, if_neg h1]

omit [LinearOrder K] [FloorRing K] in
theorem on_comm {r : Vis K} (hr : r.vals.Sorted) (x y : Act K) (h : slot x = none ∨ slot y = none ∨ slot x ≠ slot y) :
    Alike (Act.on (Act.on r x) y) (Act.on (Act.on r y) x) := by
  have perm : ∀ (l : List Str) (a b : Str), (l ++ [a] ++ [b]).Perm (l ++ [b] ++ [a]) := by
    intro l a b
    rw [List.append_assoc, List.append_assoc]
    exact List.Perm.append_left l (List.Perm.swap b a [])
  cases x with
  | val a x =>
    cases y with
    | val b y =>
      have hab : a ≠ b := by
        rintro rfl
        rcases h with h | h | h
        · cases h
        · cases h
        · exact h rfl
      refine ⟨?_, List.Perm.refl _⟩
      show ({ r with vals := (r.vals.put b y).put a x } : Vis K) = { r with vals := (r.vals.put a x).put b y }
      rw [put_comm hr hab]
    | code k t => cases k <;> exact ⟨rfl, List.Perm.refl _⟩
    | _ => exact ⟨rfl, List.Perm.refl _⟩
  | aux a p m =>
    cases y with
    | aux a' p' m' =>
      refine ⟨?_, List.Perm.refl _⟩
      show ({ r with m6 := r.m6 || a' || a, pallet := r.pallet || p' || p, measure := r.measure || m' || m } : Vis K) =
        { r with m6 := r.m6 || a || a', pallet := r.pallet || p || p', measure := r.measure || m || m' }
      rw [Bool.or_right_comm r.m6, Bool.or_right_comm r.pallet, Bool.or_right_comm r.measure]
    | code k t => cases k <;> exact ⟨rfl, List.Perm.refl _⟩
    | _ => exact ⟨rfl, List.Perm.refl _⟩
  | code k t =>
    cases y with
    | code k' t' =>
      cases k <;> cases k' <;>
        first
        | exact ⟨rfl, List.Perm.refl _⟩
        | exact ⟨rfl, perm _ _ _⟩
        | (exfalso; rcases h with h | h | h <;> first | cases h | exact h rfl)
    | _ => cases k <;> exact ⟨rfl, List.Perm.refl _⟩
  | nothing => exact Alike.refl _
  | tool t =>
    cases y with
    | tool t' =>
      exfalso
      rcases h with h | h | h
      · cases h
      · cases h
      · exact h rfl
    | code k t => cases k <;> exact ⟨rfl, List.Perm.refl _⟩
    | _ => exact ⟨rfl, List.Perm.refl _⟩
  | feed t =>
    cases y with
    | feed t' =>
      exfalso
      rcases h with h | h | h
      · cases h
      · cases h
      · exact h rfl
    | code k t => cases k <;> exact ⟨rfl, List.Perm.refl _⟩
    | _ => exact ⟨rfl, List.Perm.refl _⟩
  | spindle t =>
    cases y with
    | spindle t' =>
      exfalso
      rcases h with h | h | h
      · cases h
      · cases h
      · exact h rfl
    | code k t => cases k <;> exact ⟨rfl, List.Perm.refl _⟩
    | _ => exact ⟨rfl, List.Perm.refl _⟩

omit [LinearOrder K] [FloorRing K] in
theorem foldl_perm {xs ys : List (Act K)} (h : xs.Perm ys) {r : Vis K} (hr : r.vals.Sorted)
    (hp : xs.Pairwise (fun x y => slot x = none ∨ slot y = none ∨ slot x ≠ slot y)) :
    Alike (xs.foldl Act.on r) (ys.foldl Act.on r) := by
  induction h generalizing r with
  | nil => exact Alike.refl _
  | cons x h ih => exact ih (on_sorted hr x) (List.Pairwise.of_cons hp)
  | swap x y l =>
    have := List.rel_of_pairwise_cons hp (List.mem_cons_self)
    exact alike_foldl (on_comm hr y x this) l
  | trans h1 h2 ih1 ih2 =>
    refine (ih1 hr hp).trans (ih2 hr ?_)
    refine (h1.pairwise_iff ?_).mp hp
    intro x y h
    rcases h with h | h | h
    · exact Or.inr (Or.inl h)
    · exact Or.inl h
    · exact Or.inr (Or.inr (fun e => h e.symm))

/-! ### The words of a block as a list -/

/-- What an attribute other than `/` tells the visitor. -/
def actOf (c : Cfg K) : Attr → Out Exc (Act K)
  | .dec d => readWord c d
  | .str w v => .ok (.aux false (isPallet c w v) (isMeasure c w v))
  | .chr _ _ => .ok .nothing

/-- The same, or nothing. -/
def actD (c : Cfg K) (a : Attr) : Act K :=
  match actOf c a with
  | .ok x => x
  | _ => .nothing

/-- No `/` in the block. -/
def NoSlash (b : Block) : Prop := ∀ d, .dec d ∈ b → d.word ≠ c!"/"

omit [LinearOrder K] [FloorRing K] in
theorem visit_actOf {c : Cfg K} {r : Vis K} (hs : r.skip = false) {a : Attr} (ha : ∀ d, a = .dec d → d.word ≠ c!"/") :
    visit c r a = match actOf c a with
      | .ok x => .ok (Act.on r x)
      | .throw e => .throw e
      | .ub => .ub := by
  cases a with
  | dec d =>
    unfold visit actOf
    dsimp only
    rw [if_neg (ha d rfl), hs, if_neg (by simp)]
    cases readWord c d <;> rfl
  | str w v => rfl
  | chr w v => rfl

omit [Field K] [LinearOrder K] [FloorRing K] in
theorem on_skip (r : Vis K) (x : Act K) : (Act.on r x).skip = r.skip := by
  cases x with
  | code k t => cases k <;> rfl
  | _ => rfl

omit [LinearOrder K] [FloorRing K] in
theorem visitAll_iff {c : Cfg K} {r v : Vis K} (hs : r.skip = false) {b : Block} (hb : NoSlash b) :
    visitAll c r b = .ok v ↔ (∀ a ∈ b, ∃ x, actOf c a = .ok x) ∧ v = (b.map (actD c)).foldl Act.on r := by
  induction b generalizing r with
  | nil =>
    constructor
    · intro h; cases h; exact ⟨by simp, rfl⟩
    · rintro ⟨_, rfl⟩; rfl
  | cons a t ih =>
    have hc : visitAll c r (a :: t) = match visit c r a with
      | .ok r' => visitAll c r' t
      | .throw e => .throw e
      | .ub => .ub := rfl
    rw [hc, visit_actOf hs (fun d e => hb d (e ▸ List.mem_cons_self))]
    have ht : NoSlash t := fun d h => hb d (List.mem_cons_of_mem _ h)
    cases ha : actOf c a with
    | ok x =>
      dsimp only
      rw [ih (by rw [on_skip]; exact hs) ht]
      have hd : actD c a = x := by unfold actD; rw [ha]
      rw [List.map_cons, List.foldl_cons, hd]
      constructor
      · rintro ⟨h1, h2⟩
        refine ⟨?_, h2⟩
        intro a' h'
        rcases List.mem_cons.mp h' with rfl | h'
        · exact ⟨x, ha⟩
        · exact h1 a' h'
      · rintro ⟨h1, h2⟩
        exact ⟨fun a' h' => h1 a' (List.mem_cons_of_mem _ h'), h2⟩
    | throw e =>
      constructor
      · intro h; cases h
      · rintro ⟨h1, _⟩
        obtain ⟨x, hx⟩ := h1 a List.mem_cons_self
        rw [ha] at hx; cases hx
    | ub =>
      constructor
      · intro h; cases h
      · rintro ⟨h1, _⟩
        obtain ⟨x, hx⟩ := h1 a List.mem_cons_self
        rw [ha] at hx; cases hx

theorem kindGroup_gKind (n : Int) : kindGroup (gKind n) = modalGroup n := by
  unfold modalGroup gKind
  by_cases h1 : n ∈ ([0, 1, 2, 3, 73, 74, 76, 80, 81, 82, 83, 84, 85, 86, 87, 88, 89] : List Int)
  · rw [if_pos h1]
    have : n ≠ 17 ∧ n ≠ 18 ∧ n ≠ 19 ∧ ((0 ≤ n ∧ n ≤ 3) ∨ n = 80 ∨ isDrill n ∨ isDrillQ n) := by
      simp only [List.mem_cons, List.not_mem_nil, or_false] at h1
      rcases h1 with rfl | rfl | rfl | rfl | rfl | rfl | rfl | rfl | rfl | rfl | rfl | rfl | rfl | rfl | rfl | rfl | rfl <;>
        decide
    obtain ⟨a1, a2, a3, a4⟩ := this
    rw [if_neg a1, if_neg a2, if_neg a3, if_pos a4]
    rfl
  · rw [if_neg h1]
    by_cases a1 : n = 17
    · subst a1; rfl
    by_cases a2 : n = 18
    · subst a2; rfl
    by_cases a3 : n = 19
    · subst a3; rfl
    have h4 : ¬ ((0 ≤ n ∧ n ≤ 3) ∨ n = 80 ∨ isDrill n ∨ isDrillQ n) := by
      intro h
      apply h1
      unfold isDrill isDrillQ at h
      simp only [List.mem_cons, List.not_mem_nil, or_false, decide_eq_true_eq] at h ⊢
      omega
    have h2 : ¬ n ∈ ([17, 18, 19] : List Int) := by
      simp only [List.mem_cons, List.not_mem_nil, or_false]; omega
    rw [if_neg a1, if_neg a2, if_neg a3, if_neg h4, if_neg h2]
    unfold modeKind
    simp only [List.mem_cons, List.not_mem_nil, or_false]
    by_cases b1 : n = 94
    · subst b1; rfl
    by_cases b2 : n = 95
    · subst b2; rfl
    by_cases b3 : n = 96
    · subst b3; rfl
    by_cases b4 : n = 97
    · subst b4; rfl
    by_cases b5 : n = 98
    · subst b5; rfl
    by_cases b6 : n = 99
    · subst b6; rfl
    by_cases b7 : n = 90
    · subst b7; rfl
    by_cases b8 : n = 91
    · subst b8; rfl
    simp only [b1, b2, b3, b4, b5, b6, b7, b8, or_self, if_false]
    rfl

omit [LinearOrder K] [FloorRing K] in
theorem slot_sets {c : Cfg K} (hc : AxesOk c) {a : Attr} {x : Act K} (h : actOf c a = .ok x) :
    slot x = none ∨ slot x = sets a := by
  cases a with
  | str w v => cases h; exact Or.inl rfl
  | chr w v => cases h; exact Or.inl rfl
  | dec d =>
    unfold actOf at h
    unfold sets
    dsimp only at h ⊢
    by_cases hg : d.word = c!"G"
    · rw [readWord_code_of hc hg] at h
      rw [if_pos hg]
      rcases readCode_code h with ⟨h1, rfl⟩ | ⟨n, t, h1, rfl⟩
      · exact Or.inl rfl
      · right
        rw [h1]
        show (kindGroup (gKind n)).map _ = _
        rw [kindGroup_gKind]
    · rw [if_neg hg]
      unfold readWord at h
      split_ifs at h with h1 h2 h3 h4 h5
      · have hm : d.word ≠ c!"M" := fun e => code_ne_param hc (by decide) (e ▸ h1)
        rw [if_neg hm]
        unfold readVal at h
        split at h
        · cases h; exact Or.inl rfl
        · cases hq : stodE (valText d) <;> rw [hq] at h <;> cases h
          exact Or.inr rfl
      · rw [if_neg (by rw [h2]; decide)]
        unfold readTool at h
        cases hq : d.value <;> rw [hq] at h
        · cases h; exact Or.inl rfl
        · dsimp only at h
          split at h <;> cases h
          · exact Or.inl rfl
          · right; rw [h2]; rfl
      · rw [if_neg (by rw [h3]; decide)]
        unfold readFeed at h
        split at h
        · cases h; exact Or.inl rfl
        · cases hq : stodE (feedText d) <;> rw [hq] at h <;> cases h
          right; rw [h3]; rfl
      · rw [if_neg (by rw [h4]; decide)]
        unfold readFeed at h
        split at h
        · cases h; exact Or.inl rfl
        · cases hq : stodE (feedText d) <;> rw [hq] at h <;> cases h
          right; rw [h4]; rfl
      · unfold readAux at h
        cases hq : d.value <;> rw [hq] at h
        · cases h; exact Or.inl rfl
        · dsimp only at h
          split at h
          · cases h; exact Or.inl rfl
          · split at h <;> cases h
            exact Or.inl rfl
      · cases h; exact Or.inl rfl

/-! ### The rest of the evaluation -/

theorem skipped_mem (g : Int) {og og' : List Str} (h : ∀ x, x ∈ og ↔ x ∈ og') (w : Str) :
    skipped g og w = skipped g og' w := by
  unfold skipped
  have : ∀ l : List Str, l.any (fun x => og.any (fun y => y == x)) = l.any (fun x => og'.any (fun y => y == x)) := by
    intro l
    congr 1
    funext x
    rw [Bool.eq_iff_iff, List.any_eq_true, List.any_eq_true]
    constructor
    · rintro ⟨y, hy, e⟩; exact ⟨y, (h y).mp hy, e⟩
    · rintro ⟨y, hy, e⟩; exact ⟨y, (h y).mpr hy, e⟩
  cases ignored.find? (fun e => e.1 == w) with
  | none => rfl
  | some e => dsimp only; rw [this]

omit [FloorRing K] in
theorem copyBack_mem (g : Int) (incr : Bool) {og og' : List Str} (h : ∀ x, x ∈ og ↔ x ∈ og') (v : VMap K)
    (p : VMap K × VMap (Rng K)) : copyBack g incr og v p = copyBack g incr og' v p := by
  induction v generalizing p with
  | nil => rfl
  | cons e t ih =>
    unfold copyBack
    rw [skipped_mem g h, ih]

omit [FloorRing K] in
theorem copySt_mem (incr : Bool) {og og' : List Str} (h : ∀ x, x ∈ og ↔ x ∈ og') (v : VMap K) (s : St K) :
    copySt incr og v s = copySt incr og' v s := by
  unfold copySt
  dsimp only
  rw [copyBack_mem _ _ h]

theorem evalVis_mem (F : Fns K) (c : Cfg K) (inch : Inch) (line : Int) (v : Vis K) {og : List Str}
    (h : ∀ x, x ∈ v.otherG ↔ x ∈ og) (p : St K × MacroMap ℚ) :
    evalVis F c inch line { v with otherG := og } p = evalVis F c inch line v p := by
  have hb : atBase ({ v with otherG := og } : Vis K) = atBase v := by
    unfold atBase
    exact decide_eq_decide.mpr (h c!"28").symm
  have hd : ∀ s : St K, dwell ({ v with otherG := og } : Vis K) s = dwell v s := by
    intro s
    unfold dwell
    have : (c!"04" ∈ og ∨ c!"4" ∈ og) ↔ (c!"04" ∈ v.otherG ∨ c!"4" ∈ v.otherG) := by rw [h, h]
    by_cases hc : c!"04" ∈ v.otherG ∨ c!"4" ∈ v.otherG
    · rw [if_pos (this.mpr hc), if_pos hc]; rfl
    · rw [if_neg (fun e => hc (this.mp e)), if_neg hc]
  have hcs : ∀ (i : Bool) (m : VMap K) (s : St K), copySt i og m s = copySt i v.otherG m s :=
    fun i m s => copySt_mem i (fun x => (h x).symm) m s
  have hta : ∀ s : St K, tAlone c ({ v with otherG := og } : Vis K) s = tAlone c v s := by
    intro s
    unfold tAlone
    show (if atTool c v then _ else match tWithG v with | some n => _ | none => (copySt s.incr og v.vals s, _)) = _
    rw [hcs]
    cases tWithG v <;> rfl
  have htp : toolPart c line ({ v with otherG := og } : Vis K) = toolPart c line v := by
    funext q
    unfold toolPart
    simp only [hta]
    rfl
  have hsp : ∀ s : St K, startPart c ({ v with otherG := og } : Vis K) s = startPart c v s := by
    intro s
    unfold startPart beforeMotion
    dsimp only
    rw [hb]
    simp only [hcs]
    rfl
  have hmo : ∀ (cur : Cur K) (s : St K), motion F c ({ v with otherG := og } : Vis K) cur s = motion F c v cur s := by
    intro cur s
    have hl : linear F c ({ v with otherG := og } : Vis K) cur s = linear F c v cur s := by
      unfold linear
      have ht : ∀ a (x : K), target c ({ v with otherG := og } : Vis K) a x = target c v a x := by
        intro a x
        unfold target
        rw [hb]
        rfl
      have hla : ∀ t : St K, linearAbs F c ({ v with otherG := og } : Vis K) cur t = linearAbs F c v cur t := by
        intro t
        unfold linearAbs
        simp only [ht]
      rw [hb, hla]
      rfl
    unfold motion
    rw [hl]
    rfl
  have hac : ∀ (cur : Cur K) (s : St K), account F c inch ({ v with otherG := og } : Vis K) cur s = account F c inch v cur s := by
    intro cur s
    rw [account_eq, account_eq]
    have : ∀ t : St K, savePositions c ({ v with otherG := og } : Vis K) t = savePositions c v t := by
      intro t
      unfold savePositions
      rw [hb]
      simp only [hcs]
      rfl
    rw [this]
  have haf : ∀ s : St K, afterTool F c inch ({ v with otherG := og } : Vis K) s = afterTool F c inch v s := by
    intro s
    unfold afterTool
    rw [hd, hsp]
    congr 1
    funext t
    unfold moveBlock
    have hcu : current ({ v with otherG := og } : Vis K) t = current v t := rfl
    rw [hcu, hmo]
    congr 1
    funext u
    exact hac _ u
  have hmt : mTimes c ({ v with otherG := og } : Vis K) p.1 = mTimes c v p.1 := rfl
  unfold evalVis
  rw [hmt, htp]
  simp only [haf]

/-- **C67.** The words of a block may be written in any order, as long as no two of them set the same thing:
if the block is evaluated, every other order gives the same totals, positions, modal values, macro variables and
outcome. -/
theorem C67_order (F : Fns K) {c : Cfg K} (hc : AxesOk c) (inch : Inch) (line : Int) {b b' : Block} (hp : b.Perm b')
    (hs : NoSlash b) (hu : Unambiguous b) (p : St K × MacroMap ℚ) (h : (evaluate F c inch line b p).2 = .ok ()) :
    evaluate F c inch line b' p = evaluate F c inch line b p := by
  by_cases hb : b = []
  · subst hb
    rw [List.nil_perm.mp hp]
  have hb' : b' ≠ [] := by
    rintro rfl
    exact hb hp.eq_nil
  unfold evaluate at h ⊢
  dsimp only at h ⊢
  rw [if_neg hb] at h
  rw [if_neg hb, if_neg hb']
  cases hv : visitAll c {} b with
  | throw e => rw [hv] at h; cases h
  | ub => rw [hv] at h; cases h
  | ok v =>
    obtain ⟨h1, h2⟩ := (visitAll_iff (c := c) (r := ({} : Vis K)) rfl hs).mp hv
    have hs' : NoSlash b' := fun d hd => hs d (hp.mem_iff.mpr hd)
    have hv' : visitAll c {} b' = .ok ((b'.map (actD c)).foldl Act.on {}) :=
      (visitAll_iff (c := c) (r := ({} : Vis K)) rfl hs').mpr ⟨fun a ha => h1 a (hp.mem_iff.mpr ha), rfl⟩
    rw [hv']
    dsimp only
    have hpw : (b.map (actD c)).Pairwise (fun x y => slot x = none ∨ slot y = none ∨ slot x ≠ slot y) := by
      rw [List.pairwise_map]
      refine List.Pairwise.imp_of_mem ?_ hu
      intro a a' ha ha' hx
      obtain ⟨x, hx1⟩ := h1 a ha
      obtain ⟨y, hy1⟩ := h1 a' ha'
      have e1 : actD c a = x := by unfold actD; rw [hx1]
      have e2 : actD c a' = y := by unfold actD; rw [hy1]
      rw [e1, e2]
      rcases slot_sets hc hx1 with k | k
      · exact Or.inl k
      · rcases slot_sets hc hy1 with k' | k'
        · exact Or.inr (Or.inl k')
        · rw [k, k']; exact hx
    obtain ⟨a1, a2⟩ := foldl_perm (hp.map (actD c)) (r := ({} : Vis K)) List.Pairwise.nil hpw
    rw [← h2] at a1 a2
    rw [a1]
    exact evalVis_mem F c inch line v (fun x => a2.mem_iff) _

end

section
open SimDemo

/-- The hypotheses of `C67_order` are met. -/
example : Unambiguous [w c!"G" c!"1", w c!"G" c!"90", w c!"X" c!"3", w c!"Y" c!"4", w c!"F" c!"100", w c!"M" c!"8", w c!"M" c!"3"] ∧
    (evaluate qf mill false 1
      [w c!"G" c!"1", w c!"G" c!"90", w c!"X" c!"3", w c!"Y" c!"4", w c!"F" c!"100", w c!"M" c!"8", w c!"M" c!"3"]
      (start mill)).2 = .ok () := by
  constructor
  · unfold Unambiguous; decide +kernel
  · decide +kernel

/-- Without `Unambiguous` the claim fails: of two words that set the same thing the last one counts. -/
theorem C67_needs_unambiguous :
    (evaluate qf mill false 1 [w c!"X" c!"3", w c!"X" c!"4"] (start mill)).1.1.path.fast = some 4 ∧
    (evaluate qf mill false 1 [w c!"X" c!"4", w c!"X" c!"3"] (start mill)).1.1.path.fast = some 3 := by decide +kernel

end
end NC.Props
