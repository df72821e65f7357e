import Verif.AttrPath

/-! # Lemmas about the simulation of a block -/

namespace NC.AttrPath
open NC NC.Path NC.Ver

namespace VMap
variable {V : Type}

@[simp] theorem get_nil (k : Str) : get ([] : VMap V) k = none := rfl

theorem get_cons (e : Str × V) (t : VMap V) (k : Str) :
    get (e :: t) k = if e.1 = k then some e.2 else get t k := by
  unfold get
  rw [List.find?_cons]
  by_cases h : e.1 = k
  · have : (e.1 == k) = true := by simp [h]
    rw [this, if_pos h]; rfl
  · have : (e.1 == k) = false := by simp [h]
    rw [this, if_neg h]

theorem get_put_self (m : VMap V) (k : Str) (v : V) : (m.put k v).get k = some v := by
  induction m with
  | nil => simp [put, get_cons]
  | cons e t ih =>
    unfold put
    by_cases h : k < e.1
    · rw [if_pos h, get_cons, if_pos rfl]
    · rw [if_neg h]
      by_cases h2 : e.1 = k
      · rw [if_pos h2, get_cons, if_pos rfl]
      · rw [if_neg h2, get_cons, if_neg h2, ih]

theorem get_put_ne (m : VMap V) {k k' : Str} (v : V) (hne : k ≠ k') : (m.put k v).get k' = m.get k' := by
  induction m with
  | nil => simp [put, get_cons, hne]
  | cons e t ih =>
    unfold put
    by_cases h : k < e.1
    · rw [if_pos h, get_cons, if_neg hne]
    · rw [if_neg h]
      by_cases h2 : e.1 = k
      · rw [if_pos h2, get_cons, if_neg hne, get_cons, if_neg (by rw [h2]; exact hne)]
      · rw [if_neg h2, get_cons, get_cons, ih]

theorem get_put (m : VMap V) (k k' : Str) (v : V) :
    (m.put k v).get k' = if k = k' then some v else m.get k' := by
  by_cases h : k = k'
  · subst h; rw [if_pos rfl, get_put_self]
  · rw [if_neg h, get_put_ne m v h]

theorem put_ne_nil (m : VMap V) (k : Str) (v : V) : m.put k v ≠ [] := by
  cases m with
  | nil => simp [put]
  | cons e t =>
    unfold put
    by_cases h : k < e.1
    · rw [if_pos h]; simp
    · rw [if_neg h]
      by_cases h2 : e.1 = k
      · rw [if_pos h2]; simp
      · rw [if_neg h2]; simp

theorem put_lt {e : Str × V} {t : VMap V} {k : Str} {v : V} (h : k < e.1) :
    put (e :: t) k v = (k, v) :: e :: t := by
  show (if k < e.1 then _ else _) = _
  rw [if_pos h]

theorem put_eq {e : Str × V} {t : VMap V} {k : Str} {v : V} (h : e.1 = k) :
    put (e :: t) k v = (k, v) :: t := by
  show (if k < e.1 then _ else _) = _
  rw [if_neg (by rw [h]; exact lt_irrefl _), if_pos h]

theorem put_gt {e : Str × V} {t : VMap V} {k : Str} {v : V} (h : e.1 < k) :
    put (e :: t) k v = e :: put t k v := by
  show (if k < e.1 then _ else _) = _
  rw [if_neg (not_lt.mpr h.le), if_neg (ne_of_lt h)]

theorem put_comm_lt (m : VMap V) {k k' : Str} (v v' : V) (h : k < k') :
    (m.put k v).put k' v' = (m.put k' v').put k v := by
  induction m with
  | nil =>
    show put [(k, v)] k' v' = put [(k', v')] k v
    rw [put_gt h, put_lt h]; rfl
  | cons e t ih =>
    rcases lt_trichotomy k e.1 with h1 | h1 | h1
    · rw [put_lt h1, put_gt h]
      rcases lt_trichotomy k' e.1 with h2 | h2 | h2
      · rw [put_lt h2, put_lt h]
      · rw [put_eq h2.symm, put_lt h]
      · rw [put_gt h2, put_lt h1]
    · rw [put_eq h1.symm, put_gt h, put_gt (h1 ▸ h), put_eq h1.symm]
    · rw [put_gt h1, put_gt (lt_trans h1 h), put_gt (lt_trans h1 h), put_gt h1, ih]

/-- Entries of different keys may be written in either order. -/
theorem put_comm (m : VMap V) {k k' : Str} (v v' : V) (hne : k ≠ k') :
    (m.put k v).put k' v' = (m.put k' v').put k v := by
  rcases lt_trichotomy k k' with h | h | h
  · exact put_comm_lt m v v' h
  · exact absurd h hne
  · exact (put_comm_lt m v' v h).symm

/-- The keys are in order: the invariant of `std::map`. -/
def Sorted (m : VMap V) : Prop := m.Pairwise (fun a b => a.1 < b.1)

theorem mem_put {m : VMap V} {k : Str} {v : V} {e : Str × V} (h : e ∈ m.put k v) : e = (k, v) ∨ e ∈ m := by
  induction m with
  | nil => left; simpa [put] using h
  | cons a t ih =>
    rcases lt_trichotomy k a.1 with h1 | h1 | h1
    · rw [put_lt h1] at h; simpa using h
    · rw [put_eq h1.symm] at h
      rcases List.mem_cons.mp h with h | h
      · exact Or.inl h
      · exact Or.inr (List.mem_cons_of_mem _ h)
    · rw [put_gt h1] at h
      rcases List.mem_cons.mp h with h | h
      · right; rw [h]; exact List.mem_cons_self
      · rcases ih h with h | h
        · exact Or.inl h
        · exact Or.inr (List.mem_cons_of_mem _ h)

theorem sorted_put {m : VMap V} (h : m.Sorted) (k : Str) (v : V) : (m.put k v).Sorted := by
  induction m with
  | nil => simp [put, Sorted]
  | cons a t ih =>
    have ha := List.pairwise_cons.mp h
    rcases lt_trichotomy k a.1 with h1 | h1 | h1
    · rw [put_lt h1]
      refine List.pairwise_cons.mpr ⟨?_, h⟩
      intro b hb
      rcases List.mem_cons.mp hb with hb | hb
      · rw [hb]; exact h1
      · exact lt_trans h1 (ha.1 b hb)
    · rw [put_eq h1.symm]
      refine List.pairwise_cons.mpr ⟨?_, ha.2⟩
      intro b hb
      rw [h1]; exact ha.1 b hb
    · rw [put_gt h1]
      refine List.pairwise_cons.mpr ⟨?_, ih ha.2⟩
      intro b hb
      rcases mem_put hb with hb | hb
      · rw [hb]; exact h1
      · exact ha.1 b hb

theorem get_of_mem {m : VMap V} (h : m.Sorted) {k : Str} {v : V} (hm : (k, v) ∈ m) : m.get k = some v := by
  induction m with
  | nil => cases hm
  | cons a t ih =>
    have ha := List.pairwise_cons.mp h
    rw [get_cons]
    rcases List.mem_cons.mp hm with hm | hm
    · rw [← hm, if_pos rfl]
    · rw [if_neg (ne_of_lt (ha.1 _ hm)), ih ha.2 hm]

theorem mem_of_get {m : VMap V} {k : Str} {v : V} (h : m.get k = some v) : (k, v) ∈ m := by
  induction m with
  | nil => cases h
  | cons a t ih =>
    rw [get_cons] at h
    by_cases hk : a.1 = k
    · rw [if_pos hk] at h
      cases h; rw [← hk]; exact List.mem_cons_self
    · rw [if_neg hk] at h
      exact List.mem_cons_of_mem _ (ih h)

theorem get_none_of_lt {m : VMap V} {k : Str} (h : ∀ e ∈ m, k < e.1) : m.get k = none := by
  cases hg : m.get k with
  | none => rfl
  | some v => exact absurd (h _ (mem_of_get hg)) (lt_irrefl _)

/-- Maps with the same entries are equal. -/
theorem ext {m m' : VMap V} (h : m.Sorted) (h' : m'.Sorted) (he : ∀ k, m.get k = m'.get k) : m = m' := by
  induction m generalizing m' with
  | nil =>
    cases m' with
    | nil => rfl
    | cons b t' =>
      have := he b.1
      rw [get_cons, if_pos rfl] at this
      cases this
  | cons a t ih =>
    have ha := List.pairwise_cons.mp h
    cases m' with
    | nil =>
      have := he a.1
      rw [get_cons, if_pos rfl] at this
      cases this
    | cons b t' =>
      have hb := List.pairwise_cons.mp h'
      have hk : a.1 = b.1 := by
        rcases lt_trichotomy a.1 b.1 with hl | hl | hl
        · exfalso
          have h1 := he a.1
          rw [get_cons, if_pos rfl, get_none_of_lt (m := b :: t')] at h1
          · cases h1
          · intro e hm
            rcases List.mem_cons.mp hm with hm | hm
            · rw [hm]; exact hl
            · exact lt_trans hl (hb.1 e hm)
        · exact hl
        · exfalso
          have h1 := he b.1
          rw [get_cons b, if_pos rfl, get_none_of_lt (m := a :: t)] at h1
          · cases h1
          · intro e hm
            rcases List.mem_cons.mp hm with hm | hm
            · rw [hm]; exact hl
            · exact lt_trans hl (ha.1 e hm)
      have hv : a.2 = b.2 := by
        have h1 := he a.1
        rw [get_cons, if_pos rfl, get_cons, if_pos hk.symm] at h1
        exact Option.some.inj h1
      have hab : a = b := Prod.ext hk hv
      rw [hab]
      congr 1
      refine ih ha.2 hb.2 ?_
      intro k
      by_cases hkk : a.1 = k
      · rw [get_none_of_lt (by rw [← hkk]; exact ha.1), get_none_of_lt (by rw [← hkk, hk]; exact hb.1)]
      · have h1 := he k
        rwa [get_cons, if_neg hkk, get_cons, if_neg (by rw [← hk]; exact hkk)] at h1

end VMap

/-! ## Additions -/

section
variable {K : Type} [Field K] [LinearOrder K]

omit [LinearOrder K] in
@[simp] theorem addF_zero (t : Fl K) : addF t (some 0) = t := by
  cases t with
  | none => rfl
  | some x => show some (x + 0) = some x; rw [add_zero]

omit [LinearOrder K] in
theorem addF_assoc (a b c : Fl K) : addF (addF a b) c = addF a (addF b c) := by
  cases a <;> cases b <;> cases c <;> simp [addF, add_assoc]

omit [LinearOrder K] in
theorem addF_comm (a b : Fl K) : addF a b = addF b a := by
  cases a <;> cases b <;> simp [addF, add_comm]

omit [LinearOrder K] in
theorem addTime_addTime (x y : K) (s : St K) : addTime x (addTime y s) = addTime (y + x) s := by
  unfold addTime bump
  simp only [addF_assoc]
  rfl

omit [LinearOrder K] in
theorem addTime_zero (s : St K) : addTime 0 s = s := by
  unfold addTime bump
  rw [addF_zero]

/-! ## What the parts leave alone -/

/-- Only the block's motion, the cycle and the helix differ. -/
def MotionOnly (s s' : St K) : Prop :=
  ∃ w f c h x, s' = { s with path := { s.path with work := w, fast := f, cycle := c, holes := h }, helix := x }

omit [Field K] [LinearOrder K] in
theorem MotionOnly.refl (s : St K) : MotionOnly s s := ⟨_, _, _, _, _, rfl⟩

omit [Field K] [LinearOrder K] in
theorem MotionOnly.trans {s t u : St K} (h : MotionOnly s t) (h' : MotionOnly t u) : MotionOnly s u := by
  obtain ⟨w, f, c, h1, x, rfl⟩ := h
  obtain ⟨w', f', c', h1', x', rfl⟩ := h'
  exact ⟨w', f', c', h1', x', rfl⟩

omit [LinearOrder K] in
theorem cancelCycle_only (s : St K) : MotionOnly s (cancelCycle s) := ⟨_, _, _, _, _, rfl⟩

omit [Field K] [LinearOrder K] in
theorem setMotion_only (g : Int) (x : Fl K) (s : St K) : MotionOnly s (setMotion g x s) := by
  unfold setMotion
  split
  · exact ⟨_, _, _, _, _, rfl⟩
  · exact ⟨_, _, _, _, _, rfl⟩

omit [Field K] [LinearOrder K] in
theorem setWork_only (x : Fl K) (s : St K) : MotionOnly s (setWork x s) := ⟨_, _, _, _, _, rfl⟩

omit [Field K] [LinearOrder K] in
theorem setHelix_only (x : Helix) (s : St K) : MotionOnly s { s with helix := x } := ⟨_, _, _, _, _, rfl⟩

omit [LinearOrder K] in
theorem cancelBy_only (c : Cfg K) (g : Int) (s : St K) : MotionOnly s (cancelBy c g s) := by
  unfold cancelBy
  split
  · exact cancelCycle_only _
  · exact .refl _

theorem linear_only (F : Fns K) (c : Cfg K) (v : Vis K) (cur : Cur K) (s : St K) :
    MotionOnly s (linear F c v cur s).1 := by
  unfold linear
  refine MotionOnly.trans (cancelBy_only c cur.g s) ?_
  generalize cancelBy c cur.g s = s1
  split
  · unfold linearAbs
    split
    · exact .refl _
    · exact .refl _
    · exact .refl _
    · split
      · exact setMotion_only _ _ _
      · exact .refl _
  · unfold linearIncr
    split
    · exact .refl _
    · split
      · exact .refl _
      · split
        · exact .refl _
        · exact setMotion_only _ _ _

theorem spiral_only (F : Fns K) (ax : Axes) (s : St K) (w : CW K) : MotionOnly s (spiral F ax s w).1.1 := by
  unfold spiral
  dsimp only
  split
  · exact .refl _
  · exact .refl _
  · split
    · exact setWork_only _ _
    · exact setWork_only _ _
    · exact .refl _

theorem helixStart_only (ax : Axes) (s : St K) (w : CW K) : MotionOnly s (helixStart ax s w).1.1.1 := by
  unfold helixStart
  split
  · split
    · split
      · exact .refl _
      · split
        · exact setHelix_only _ _
        · exact setHelix_only _ _
    · exact .refl _
  · exact .refl _

theorem setTurn_only (F : Fns K) (q l : Bool) (dz : Option K) (s : St K) (w : CW K) :
    MotionOnly s (setTurn F q l dz s w).1.1 := by
  unfold setTurn
  split
  · exact .refl _
  · split
    · exact setWork_only _ _
    · exact .refl _
    · exact .refl _

omit [Field K] [LinearOrder K] in
theorem endHelix_only (p : CPart K) : MotionOnly p.1.1 (endHelix p).1.1 := by
  unfold endHelix
  split
  · exact setHelix_only _ _
  · exact .refl _

theorem helixIncr_only (F : Fns K) (first : Bool) (s : St K) (w : CW K) :
    MotionOnly s (helixIncr F first s w).1.1 := by
  unfold helixIncr
  split
  · split
    · exact setTurn_only ..
    · exact (setTurn_only ..).trans (endHelix_only _)
  · split
    · exact setTurn_only ..
    · exact setHelix_only _ _
  · exact .refl _

theorem helixAbs_only (F : Fns K) (s : St K) (w : CW K) : MotionOnly s (helixAbs F s w).1.1 := by
  unfold helixAbs
  split
  · split
    · exact setTurn_only ..
    · exact (setTurn_only ..).trans (endHelix_only _)
  · split
    · exact .refl _
    · split
      · split
        · exact .refl _
        · split
          · exact setTurn_only ..
          · exact setHelix_only _ _
      · exact setHelix_only _ _
  · exact .refl _

theorem helixRun_only (F : Fns K) (ax : Axes) (incr first : Bool) (s : St K) (w : CW K) :
    MotionOnly s (helixRun F ax incr first s w).1.1 := by
  unfold helixRun
  dsimp only
  split
  · exact .refl _
  · split
    · exact .refl _
    · split
      · exact helixIncr_only ..
      · exact helixAbs_only ..

theorem helixStep_only (F : Fns K) (ax : Axes) (incr first : Bool) (p : CPart K) :
    MotionOnly p.1.1 (helixStep F ax incr first p).1.1 := by
  unfold helixStep
  split
  · split
    · exact .refl _
    · exact helixRun_only ..
  · exact .refl _

theorem arc_only (F : Fns K) (c : Cfg K) (cur : Cur K) (ax : Axes) (s : St K) (w : CW K) :
    MotionOnly s (arc F c cur ax s w).1 := by
  unfold arc
  dsimp only
  split
  · exact setWork_only _ _
  · exact setWork_only _ _
  · exact .refl _

theorem arcStep_only (F : Fns K) (c : Cfg K) (cur : Cur K) (ax : Axes) (p : CPart K) :
    MotionOnly p.1.1 (arcStep F c cur ax p).1 := by
  unfold arcStep
  split
  · split
    · exact arc_only ..
    · exact .refl _
  · exact .refl _
  · exact .refl _
  · exact .refl _

theorem circularFrom_only (F : Fns K) (c : Cfg K) (v : Vis K) (cur : Cur K) (ax : Axes) (xp yp : K) (s : St K) :
    MotionOnly s (circularFrom F c v cur ax xp yp s).1 := by
  unfold circularFrom
  dsimp only
  split
  · exact (spiral_only ..).trans ((helixStep_only ..).trans (arcStep_only ..))
  · exact (helixStart_only ..).trans ((helixStep_only ..).trans (arcStep_only ..))

theorem circular_only (F : Fns K) (c : Cfg K) (v : Vis K) (cur : Cur K) (s : St K) :
    MotionOnly s (circular F c v cur s).1 := by
  unfold circular
  split
  · exact .refl _
  · dsimp only
    split
    · exact cancelBy_only _ _ _
    · exact cancelBy_only _ _ _
    · exact (cancelBy_only _ _ _).trans (circularFrom_only ..)

variable [FloorRing K]

theorem cyclePart_only (F : Fns K) (c : Cfg K) (v : Vis K) (cur : Cur K) (s : St K) :
    MotionOnly s (cyclePart F c v cur s).1 := by
  unfold cyclePart
  dsimp only
  split
  · exact .refl _
  · split
    · exact .refl _
    · split
      · exact .refl _
      · split
        · exact .refl _
        · split
          · exact ⟨_, _, _, _, _, rfl⟩
          · exact .refl _
          · exact .refl _

theorem holePart_only (F : Fns K) (v : Vis K) (cur : Cur K) (s : St K) :
    MotionOnly s (holePart F v cur s).1 := by
  unfold holePart
  dsimp only
  split
  · exact .refl _
  · exact .refl _
  · split
    · exact ⟨_, _, _, _, _, rfl⟩
    · split
      · exact ⟨_, _, _, _, _, rfl⟩
      · split
        · exact ⟨_, _, _, _, _, rfl⟩
        · exact .refl _
        · exact .refl _

theorem drilling_only (F : Fns K) (c : Cfg K) (v : Vis K) (cur : Cur K) (s : St K) :
    MotionOnly s (drilling F c v cur s).1 := by
  unfold drilling
  split
  · exact .refl _
  · unfold Part.andThen
    split
    · exact (cyclePart_only ..).trans (holePart_only ..)
    · exact cyclePart_only ..

/-- The motion of a block changes nothing but its own lengths, the cycle and the helix. -/
theorem motion_only (F : Fns K) (c : Cfg K) (v : Vis K) (cur : Cur K) (s : St K) :
    MotionOnly s (motion F c v cur s).1 := by
  unfold motion
  split
  · exact linear_only ..
  · split
    · exact circular_only ..
    · split
      · exact cancelCycle_only _
      · split
        · exact drilling_only ..
        · exact .refl _

/-! ## The ways through `evaluate` -/

omit [LinearOrder K] [FloorRing K] in
/-- After the T word of a tool exchange. -/
def exchanged (c : Cfg K) (v : Vis K) (s : St K) : St K :=
  match toolOf v with
  | none => s
  | some t => fetchTool c { storeTool c s with tool := t }

omit [LinearOrder K] [FloorRing K] in
/-- Up to the T word. -/
def begun (c : Cfg K) (v : Vis K) (s : St K) : St K := mTimes c v (clearMotions s)

omit [LinearOrder K] [FloorRing K] in
/-- The motion code is forced. -/
def started (c : Cfg K) (v : Vis K) (s : St K) : St K :=
  if s.autoRapid ∧ v.vals ≠ [] then { s with autoRapid := false, g := 0 }
  else if atTool c v || atBase v then { s with g := 0 } else s

/-- The ways through `evaluate`. -/
inductive Eval (F : Fns K) (c : Cfg K) (inch : Inch) (b : Block) (s : St K) : Out Exc Unit → St K → Prop
  | empty : b = [] → Eval F c inch b s (.ok ()) (clearMotions s)
  | unread (e : Exc) : visitAll c {} b = .throw e → Eval F c inch b s (.throw e) (clearMotions s)
  | unreadUb : visitAll c {} b = .ub → Eval F c inch b s .ub (clearMotions s)
  | alone (v : Vis K) (t : Str) : visitAll c {} b = .ok v → toolOf v = some t → atTool c v = false → tWithG v = none →
      Eval F c inch b s (.ok ()) (copySt (fetchTool c (storeTool c (begun c v s))).incr v.otherG v.vals
        (fetchTool c (storeTool c (begun c v s))))
  | aloneErr (v : Vis K) (t : Str) (n : Int) : visitAll c {} b = .ok v → toolOf v = some t → atTool c v = false →
      tWithG v = some n →
      Eval F c inch b s (.throw (err .TNotWithG [intStr n])) (fetchTool c (storeTool c (begun c v s)))
  | badTool (v : Vis K) (t : Str) (e : Exc) : visitAll c {} b = .ok v → toolOf v = some t → atTool c v = true →
      stodE t = .throw e → Eval F c inch b s (.throw e) { storeTool c (begun c v s) with tool := t }
  | badToolUb (v : Vis K) (t : Str) : visitAll c {} b = .ok v → toolOf v = some t → atTool c v = true →
      stodE t = .ub → Eval F c inch b s .ub { storeTool c (begun c v s) with tool := t }
  | before (v : Vis K) : visitAll c {} b = .ok v → toolOf v = none → atTool c v = false → atBase v = false →
      ¬ (s.autoRapid ∧ v.vals ≠ []) → s.g = -1 → v.g = none →
      Eval F c inch b s (.ok ()) (beforeMotion v (dwell v (begun c v s)))
  | halt (v : Vis K) (S M : St K) (o : Out Exc Bool) : b ≠ [] → visitAll c {} b = .ok v →
      (∀ t, toolOf v = some t → atTool c v = true ∧ ∃ q, stodE t = .ok q) →
      S = started c v (dwell v (exchanged c v (begun c v s))) → ((atTool c v = false ∧ S.g = -1) → v.g ≠ none) →
      motion F c v (current v S) S = (M, o) → o ≠ .ok true →
      Eval F c inch b s (finish o) M
  | done (v : Vis K) (S M s' : St K) (o : Out Exc Bool) : b ≠ [] → visitAll c {} b = .ok v →
      (∀ t, toolOf v = some t → atTool c v = true ∧ ∃ q, stodE t = .ok q) →
      S = started c v (dwell v (exchanged c v (begun c v s))) → ((atTool c v = false ∧ S.g = -1) → v.g ≠ none) →
      motion F c v (current v S) S = (M, .ok true) → account F c inch v (current v S) M = (s', o) →
      Eval F c inch b s (finish o) s'

omit [LinearOrder K] [FloorRing K] in
theorem mTimes_fields (c : Cfg K) (v : Vis K) (s : St K) : ∃ x, mTimes c v s = addTime x s := by
  unfold mTimes exchangeTimes
  dsimp only
  have key : ∀ (b : Prop) [Decidable b] (x : K) (s : St K), ∃ y, (if b then addTime x s else s) = addTime y s := by
    intro b _ x s
    split
    · exact ⟨x, rfl⟩
    · exact ⟨0, (addTime_zero s).symm⟩
  have trans : ∀ (s t u : St K), (∃ x, t = addTime x s) → (∃ x, u = addTime x t) → ∃ x, u = addTime x s := by
    rintro s t u ⟨x, rfl⟩ ⟨y, rfl⟩
    exact ⟨_, addTime_addTime y x s⟩
  refine trans _ _ _ (trans _ _ _ ?_ (key _ _ _)) (key _ _ _)
  split
  · exact trans _ _ _ ⟨_, rfl⟩ (key _ _ _)
  · exact ⟨0, (addTime_zero s).symm⟩

omit [LinearOrder K] [FloorRing K] in
theorem dwellWord_fields (v : Vis K) (w : Str) (s : St K) : ∃ x, dwellWord v w s = addTime x s := by
  unfold dwellWord
  split
  · exact ⟨_, rfl⟩
  · exact ⟨0, (addTime_zero s).symm⟩

omit [LinearOrder K] [FloorRing K] in
theorem dwell_fields (v : Vis K) (s : St K) : ∃ x, dwell v s = addTime x s := by
  unfold dwell
  split
  · obtain ⟨x, hx⟩ := dwellWord_fields v c!"X" s
    obtain ⟨y, hy⟩ := dwellWord_fields v c!"U" (dwellWord v c!"X" s)
    obtain ⟨z, hz⟩ := dwellWord_fields v c!"P" (dwellWord v c!"U" (dwellWord v c!"X" s))
    rw [hz, hy, hx, addTime_addTime, addTime_addTime]
    exact ⟨_, rfl⟩
  · exact ⟨0, (addTime_zero s).symm⟩

omit [LinearOrder K] [FloorRing K] in
theorem afterTime_fields {s t : St K} (h : ∃ x, t = addTime x s) :
    t.g = s.g ∧ t.autoRapid = s.autoRapid := by
  obtain ⟨x, rfl⟩ := h
  exact ⟨rfl, rfl⟩

omit [Field K] [LinearOrder K] [FloorRing K] in
theorem toolOf_atTool {c : Cfg K} {v : Vis K} {t : Str} (h : toolOf v = some t) :
    atTool c v = true ↔ (c.toolExchanges ∨ v.m6) := by
  unfold atTool
  rw [h]
  cases c.toolExchanges <;> cases v.m6 <;> simp

theorem startPart_eq (c : Cfg K) (v : Vis K) (s : St K) :
    startPart c v s =
      if ¬ (s.autoRapid ∧ v.vals ≠ []) ∧ (atTool c v = false ∧ atBase v = false) ∧ s.g = -1 ∧ v.g = none then
        (beforeMotion v s, .ok false)
      else (started c v s, .ok true) := by
  unfold startPart started
  cases hT : atTool c v <;> cases hB : atBase v <;> dsimp only <;>
    by_cases hA : s.autoRapid = true ∧ v.vals ≠ [] <;> simp [hA]

omit [Field K] [LinearOrder K] [FloorRing K] in
theorem andThen_stop {s : St K} {o : Out Exc Bool} {k : St K → Part (St K)} (h : o ≠ .ok true) :
    Part.andThen (s, o) k = (s, o) := by
  unfold Part.andThen
  split
  · rename_i h1; exact absurd h1 h
  · rfl

omit [Field K] [LinearOrder K] [FloorRing K] in
theorem andThen_go {s : St K} {k : St K → Part (St K)} : Part.andThen (s, .ok true) k = k s := rfl

theorem afterTool_eval (F : Fns K) (c : Cfg K) (inch : Inch) (b : Block) (s : St K) (v : Vis K)
    (hb : b ≠ []) (hv : visitAll c {} b = .ok v)
    (ht : ∀ t, toolOf v = some t → atTool c v = true ∧ ∃ q, stodE t = .ok q) :
    Eval F c inch b s (finish (afterTool F c inch v (exchanged c v (begun c v s))).2)
      (afterTool F c inch v (exchanged c v (begun c v s))).1 := by
  unfold afterTool
  rw [startPart_eq]
  split
  · rename_i h
    obtain ⟨h1, ⟨h2, h3⟩, h4, h5⟩ := h
    have hn : toolOf v = none := by
      cases hn : toolOf v with
      | none => rfl
      | some t => rw [(ht t hn).1] at h2; cases h2
    have he : exchanged c v (begun c v s) = begun c v s := by
      unfold exchanged; rw [hn]
    rw [he] at h1 h4 ⊢
    have hf := afterTime_fields (dwell_fields v (begun c v s))
    have hm := afterTime_fields (mTimes_fields c v (clearMotions s))
    refine Eval.before v hv hn h2 h3 ?_ ?_ h5
    · rw [hf.2] at h1
      unfold begun at h1
      rw [hm.2] at h1
      exact h1
    · rw [hf.1] at h4
      unfold begun at h4
      rw [hm.1] at h4
      exact h4
  · rename_i h
    unfold Part.andThen
    dsimp only
    have hg : (atTool c v = false ∧ (started c v (dwell v (exchanged c v (begun c v s)))).g = -1) → v.g ≠ none := by
      intro h1 h2
      apply h
      revert h1
      unfold started
      split
      · rintro ⟨h1, h3⟩; cases h3
      · rename_i hA
        split
        · rintro ⟨h1, h3⟩; cases h3
        · rename_i hB
          rintro ⟨h1, h3⟩
          refine ⟨hA, ⟨h1, ?_⟩, h3, h2⟩
          rw [h1] at hB
          simpa using hB
    unfold moveBlock
    generalize hS : started c v (dwell v (exchanged c v (begun c v s))) = S at *
    cases hm : motion F c v (current v S) S with
    | mk M o =>
      by_cases ho : o = .ok true
      · subst ho
        rw [andThen_go]
        cases ha : account F c inch v (current v S) M with
        | mk s' o' => exact Eval.done v S M s' o' hb hv ht hS.symm hg hm ha
      · rw [andThen_stop ho]
        exact Eval.halt v S M o hb hv ht hS.symm hg hm ho

/-- Every evaluation takes one of these ways. -/
theorem evaluate_eval (F : Fns K) (c : Cfg K) (inch : Inch) (line : Int) (b : Block) (p : St K × MacroMap ℚ) :
    Eval F c inch b p.1 (evaluate F c inch line b p).2 (evaluate F c inch line b p).1.1 := by
  unfold evaluate
  dsimp only
  split
  · rename_i h; exact Eval.empty h
  · rename_i hb
    cases hv : visitAll c {} b with
    | throw e => exact Eval.unread e hv
    | ub => exact Eval.unreadUb hv
    | ok v =>
      dsimp only
      unfold evalVis toolPart
      dsimp only
      change Eval F c inch b p.1 _ _
      have hbeg : mTimes c v (clearMotions p.1) = begun c v p.1 := rfl
      rw [hbeg]
      cases ht : toolOf v with
      | none =>
        dsimp only
        have := afterTool_eval F c inch b p.1 v hb hv (by intro t h; rw [ht] at h; cases h)
        have he : exchanged c v (begun c v p.1) = begun c v p.1 := by unfold exchanged; rw [ht]
        rw [he] at this
        exact this
      | some t =>
        dsimp only
        by_cases h : c.toolExchanges = true ∨ v.m6 = true
        · rw [if_pos h]
          have hat := (toolOf_atTool ht).mpr h
          cases hq : stodE t with
          | throw e => exact Eval.badTool v t e hv ht hat hq
          | ub => exact Eval.badToolUb v t hv ht hat hq
          | ok q =>
            dsimp only
            have hal : ∀ S, tAlone c v S = (S, .ok true) := by
              intro S; unfold tAlone; rw [if_pos hat]
            rw [hal]
            dsimp only
            have := afterTool_eval F c inch b p.1 v hb hv (by
              intro t' h'; rw [ht] at h'; cases h'; exact ⟨hat, q, hq⟩)
            have he : exchanged c v (begun c v p.1) = fetchTool c { storeTool c (begun c v p.1) with tool := t } := by
              unfold exchanged; rw [ht]
            rw [he] at this
            exact this
        · rw [if_neg h]
          have hat : atTool c v = false := by
            cases hat : atTool c v with
            | false => rfl
            | true => exact absurd ((toolOf_atTool ht).mp hat) h
          dsimp only
          unfold tAlone
          rw [if_neg (by rw [hat]; simp)]
          cases hw : tWithG v with
          | none => exact Eval.alone v t hv ht hat hw
          | some n => exact Eval.aloneErr v t n hv ht hat hw

/-! ## Positions and ranges -/

section
omit [FloorRing K]

/-- A range after a value. -/
def rangeStep (x : K) : Option (Rng K) → Rng K
  | some r => widen r x
  | none => ⟨x, x, x⟩

/-- The value an address gets from a word. -/
def newValue (incr : Bool) (w : Str) (x : K) (r : Option (Rng K)) : K :=
  match movesIncr incr w, r with
  | true, some r => r.cur + x
  | _, _ => x

theorem widen_cur (r : Rng K) (x : K) : (widen r x).cur = x := by
  unfold widen
  split
  · rfl
  · split <;> rfl

theorem rangeStep_cur (x : K) (r : Option (Rng K)) : (rangeStep x r).cur = x := by
  cases r with
  | none => rfl
  | some r => exact widen_cur r x

theorem copyOne_eq (incr : Bool) (w : Str) (x : K) (p : VMap K × VMap (Rng K)) :
    copyOne incr w x p = (p.1.put w (newValue incr w x (p.2.get w)),
      p.2.put w (rangeStep (newValue incr w x (p.2.get w)) (p.2.get w))) := by
  unfold copyOne newValue rangeStep
  cases hm : movesIncr incr w <;> cases hr : p.2.get w <;> simp

theorem copyBack_range (g : Int) (incr : Bool) (og : List Str) {v : VMap K} (hv : v.Sorted)
    (p : VMap K × VMap (Rng K)) (a : Str) :
    (copyBack g incr og v p).2.get a =
      match v.get a with
      | none => p.2.get a
      | some x => if skipped g og a then p.2.get a
          else some (rangeStep (newValue incr a x (p.2.get a)) (p.2.get a)) := by
  induction v generalizing p with
  | nil => rfl
  | cons e t ih =>
    have he := List.pairwise_cons.mp hv
    show (copyBack g incr og t _).2.get a = _
    rw [ih he.2, VMap.get_cons]
    by_cases h : e.1 = a
    · have hn : VMap.get t a = none := VMap.get_none_of_lt (by rw [← h]; exact he.1)
      rw [if_pos h, hn, h]
      dsimp only
      split
      · rfl
      · rw [copyOne_eq]
        dsimp only
        rw [VMap.get_put_self]
    · rw [if_neg h]
      have hs : ∀ (q : VMap K × VMap (Rng K)),
          q = (if skipped g og e.1 then p else copyOne incr e.1 e.2 p) → q.2.get a = p.2.get a := by
        intro q hq
        rw [hq]
        split
        · rfl
        · rw [copyOne_eq]
          exact VMap.get_put_ne _ _ h
      rw [hs _ rfl]

theorem copyBack_prev (g : Int) (incr : Bool) (og : List Str) {v : VMap K} (hv : v.Sorted)
    (p : VMap K × VMap (Rng K)) (a : Str) :
    (copyBack g incr og v p).1.get a =
      match v.get a with
      | none => p.1.get a
      | some x => if skipped g og a then p.1.get a else some (newValue incr a x (p.2.get a)) := by
  induction v generalizing p with
  | nil => rfl
  | cons e t ih =>
    have he := List.pairwise_cons.mp hv
    show (copyBack g incr og t _).1.get a = _
    rw [ih he.2, VMap.get_cons]
    by_cases h : e.1 = a
    · have hn : VMap.get t a = none := VMap.get_none_of_lt (by rw [← h]; exact he.1)
      rw [if_pos h, hn, h]
      dsimp only
      split
      · rfl
      · rw [copyOne_eq]
        dsimp only
        rw [VMap.get_put_self]
    · rw [if_neg h]
      have hs : ∀ (q : VMap K × VMap (Rng K)),
          q = (if skipped g og e.1 then p else copyOne incr e.1 e.2 p) →
          q.1.get a = p.1.get a ∧ q.2.get a = p.2.get a := by
        intro q hq
        rw [hq]
        split
        · exact ⟨rfl, rfl⟩
        · rw [copyOne_eq]
          exact ⟨VMap.get_put_ne _ _ h, VMap.get_put_ne _ _ h⟩
      rw [(hs _ rfl).1, (hs _ rfl).2]

theorem copyBack_sorted (g : Int) (incr : Bool) (og : List Str) (v : VMap K)
    (p : VMap K × VMap (Rng K)) (h1 : p.1.Sorted) (h2 : p.2.Sorted) :
    (copyBack g incr og v p).1.Sorted ∧ (copyBack g incr og v p).2.Sorted := by
  induction v generalizing p with
  | nil => exact ⟨h1, h2⟩
  | cons e t ih =>
    show (copyBack g incr og t _).1.Sorted ∧ _
    refine ih _ ?_ ?_
    · split
      · exact h1
      · rw [copyOne_eq]; exact VMap.sorted_put h1 _ _
    · split
      · exact h2
      · rw [copyOne_eq]; exact VMap.sorted_put h2 _ _

end

/-! ## The words of the block -/

section
omit [LinearOrder K] [FloorRing K]

theorem setCode_vals (r : Vis K) (t : Str) (k : GKind) : (setCode r t k).vals = r.vals := by
  cases k <;> rfl

theorem on_sorted {r : Vis K} (hs : r.vals.Sorted) (a : Act K) : (Act.on r a).vals.Sorted := by
  cases a with
  | val w x => exact VMap.sorted_put hs w x
  | code k t => show (setCode r t k).vals.Sorted; rw [setCode_vals]; exact hs
  | _ => exact hs

theorem visit_sorted {c : Cfg K} {r r' : Vis K} {a : Attr} (hs : r.vals.Sorted)
    (h : visit c r a = .ok r') : r'.vals.Sorted := by
  cases a with
  | dec d =>
    unfold visit at h
    dsimp only at h
    split at h
    · cases h; exact hs
    · split at h
      · cases h; exact hs
      · cases hr : readWord c d with
        | ok a => rw [hr] at h; cases h; exact on_sorted hs a
        | throw e => rw [hr] at h; cases h
        | ub => rw [hr] at h; cases h
  | str w v => cases h; exact hs
  | chr _ _ => cases h; exact hs

theorem visitAll_sorted {c : Cfg K} {r r' : Vis K} {b : Block} (hs : r.vals.Sorted)
    (h : visitAll c r b = .ok r') : r'.vals.Sorted := by
  induction b generalizing r with
  | nil => cases h; exact hs
  | cons a t ih =>
    unfold visitAll at h
    cases hv : visit c r a with
    | ok r1 => rw [hv] at h; exact ih (visit_sorted hs hv) h
    | throw e => rw [hv] at h; cases h
    | ub => rw [hv] at h; cases h

end

/-! ## Positions after a block -/

omit [Field K] [LinearOrder K] [FloorRing K] in
/-- Positions and ranges are the same. -/
def SamePos (s t : St K) : Prop := t.prev = s.prev ∧ t.range = s.range

omit [Field K] [LinearOrder K] [FloorRing K] in
theorem SamePos.refl (s : St K) : SamePos s s := ⟨rfl, rfl⟩

omit [Field K] [LinearOrder K] [FloorRing K] in
theorem SamePos.trans {s t u : St K} (h : SamePos s t) (h' : SamePos t u) : SamePos s u :=
  ⟨h'.1.trans h.1, h'.2.trans h.2⟩

omit [Field K] [LinearOrder K] [FloorRing K] in
theorem MotionOnly.samePos {s t : St K} (h : MotionOnly s t) : SamePos s t := by
  obtain ⟨w, f, c, h1, x, rfl⟩ := h
  exact ⟨rfl, rfl⟩

omit [LinearOrder K] [FloorRing K] in
theorem begun_addTime (c : Cfg K) (v : Vis K) (s : St K) : ∃ x, begun c v s = addTime x (clearMotions s) :=
  mTimes_fields c v (clearMotions s)

omit [LinearOrder K] [FloorRing K] in
theorem begun_pos (c : Cfg K) (v : Vis K) (s : St K) : SamePos s (begun c v s) := by
  obtain ⟨x, hx⟩ := begun_addTime c v s
  rw [hx]; exact ⟨rfl, rfl⟩

omit [LinearOrder K] [FloorRing K] in
theorem dwell_pos (v : Vis K) (s : St K) : SamePos s (dwell v s) := by
  obtain ⟨x, hx⟩ := dwell_fields v s
  rw [hx]; exact ⟨rfl, rfl⟩

omit [LinearOrder K] [FloorRing K] in
/-- What putting the tool away changes. -/
theorem storeTool_fields (c : Cfg K) (s : St K) :
    ∃ ar tp tt, storeTool c s = { s with autoRapid := ar, tPath := tp, tTime := tt } :=
   ⟨_, _, _, rfl⟩

omit [LinearOrder K] [FloorRing K] in
/-- What fetching the tool changes. -/
theorem fetchTool_fields (c : Cfg K) (s : St K) :
    ∃ x, fetchTool c s = { s with
      path := { s.path with toolId := s.tool, toolTotal := (s.tPath.get s.tool).getD (some 0) },
      time := { s.time with toolId := s.tool, toolTotal := (s.tTime.get s.tool).getD (some 0),
                            total := bump s.time.total x } } := by
  unfold fetchTool exchangeTimes
  dsimp only
  cases hc : c.toolExchanges
  · refine ⟨0, ?_⟩
    unfold bump
    rw [addF_zero]
    rfl
  · cases ha : c.autoMeasure
    · exact ⟨c.exchangeTime, rfl⟩
    · refine ⟨c.exchangeTime + c.measureTime, ?_⟩
      simp only [if_true]
      rw [addTime_addTime]
      rfl

omit [LinearOrder K] [FloorRing K] in
theorem storeTool_pos (c : Cfg K) (s : St K) : SamePos s (storeTool c s) := by
  obtain ⟨a, t, u, h⟩ := storeTool_fields c s
  rw [h]; exact ⟨rfl, rfl⟩

omit [LinearOrder K] [FloorRing K] in
theorem fetchTool_pos (c : Cfg K) (s : St K) : SamePos s (fetchTool c s) := by
  obtain ⟨x, h⟩ := fetchTool_fields c s
  rw [h]; exact ⟨rfl, rfl⟩

omit [LinearOrder K] [FloorRing K] in
theorem exchanged_pos (c : Cfg K) (v : Vis K) (s : St K) : SamePos s (exchanged c v s) := by
  unfold exchanged
  split
  · exact .refl _
  · exact (storeTool_pos c s).trans (SamePos.trans (t := { storeTool c s with tool := _ }) ⟨rfl, rfl⟩
      (fetchTool_pos c _))

omit [LinearOrder K] [FloorRing K] in
theorem started_pos (c : Cfg K) (v : Vis K) (s : St K) : SamePos s (started c v s) := by
  unfold started
  split
  · exact ⟨rfl, rfl⟩
  · split
    · exact ⟨rfl, rfl⟩
    · exact .refl _

/-- The state before the positions are saved. -/
def counted (F : Fns K) (c : Cfg K) (inch : Inch) (cur : Cur K) (s : St K) : St K :=
  addTimes F c inch cur (addPath (saveModal c cur s))

theorem account_eq (F : Fns K) (c : Cfg K) (inch : Inch) (v : Vis K) (cur : Cur K) (s : St K) :
    account F c inch v cur s =
      match checks c cur (counted F c inch cur s) with
      | .ok () => (savePositions c v (counted F c inch cur s), .ok true)
      | .throw e => (counted F c inch cur s, .throw e)
      | .ub => (counted F c inch cur s, .ub) := rfl

theorem counted_pos (F : Fns K) (c : Cfg K) (inch : Inch) (cur : Cur K) (s : St K) :
    SamePos s (counted F c inch cur s) := ⟨rfl, rfl⟩

/-! ### The G codes that occur -/

/-- The motion codes of the calculator. -/
def Good (g : Int) : Prop :=
  (g = 0 ∨ g = 1) ∨ (g = 2 ∨ g = 3) ∨ g = 80 ∨ isDrill g = true ∨ isDrillQ g = true

omit [FloorRing K] [LinearOrder K] [Field K] in
theorem modeKind_ne (n m : Int) : modeKind n ≠ .motion m := by
  unfold modeKind
  split_ifs <;> simp

omit [FloorRing K] [LinearOrder K] [Field K] in
theorem gKind_motion {n m : Int} (h : gKind n = .motion m) : Good m := by
  unfold gKind at h
  by_cases h1 : n = 17
  · rw [if_pos h1] at h; cases h
  rw [if_neg h1] at h
  by_cases h2 : n = 18
  · rw [if_pos h2] at h; cases h
  rw [if_neg h2] at h
  by_cases h3 : n = 19
  · rw [if_pos h3] at h; cases h
  rw [if_neg h3] at h
  by_cases h4 : (0 ≤ n ∧ n ≤ 3) ∨ n = 80 ∨ isDrill n = true ∨ isDrillQ n = true
  · rw [if_pos h4] at h
    cases h
    rcases h4 with h | h | h | h
    · have : n = 0 ∨ n = 1 ∨ n = 2 ∨ n = 3 := by omega
      rcases this with h | h | h | h
      · exact Or.inl (Or.inl h)
      · exact Or.inl (Or.inr h)
      · exact Or.inr (Or.inl (Or.inl h))
      · exact Or.inr (Or.inl (Or.inr h))
    · exact Or.inr (Or.inr (Or.inl h))
    · exact Or.inr (Or.inr (Or.inr (Or.inl h)))
    · exact Or.inr (Or.inr (Or.inr (Or.inr h)))
  · rw [if_neg h4] at h
    exact absurd h (modeKind_ne n m)

omit [LinearOrder K] [FloorRing K] in
theorem readWord_code {c : Cfg K} {d : Dec} {k : GKind} {t : Str} (h : readWord c d = .ok (.code k t)) :
    ∃ n, k = gKind n := by
  unfold readWord at h
  split_ifs at h
  · unfold readVal at h
    split at h
    · cases h
    · cases hq : stodE (valText d) <;> rw [hq] at h <;> cases h
  · unfold readTool at h
    cases hq : d.value with
    | none => rw [hq] at h; cases h
    | some v => rw [hq] at h; dsimp only at h; split at h <;> cases h
  · unfold readFeed at h
    split at h
    · cases h
    · cases hq : stodE (feedText d) <;> rw [hq] at h <;> cases h
  · unfold readFeed at h
    split at h
    · cases h
    · cases hq : stodE (feedText d) <;> rw [hq] at h <;> cases h
  · unfold readAux at h
    cases hq : d.value with
    | none => rw [hq] at h; cases h
    | some v =>
      rw [hq] at h; dsimp only at h
      split at h
      · cases h
      · cases hn : stoiE v <;> rw [hn] at h <;> cases h
  · unfold readCode at h
    cases hq : d.value with
    | none => rw [hq] at h; cases h
    | some v =>
      rw [hq] at h; dsimp only at h
      cases hn : stoiE v with
      | ok n => rw [hn] at h; cases h; exact ⟨n, rfl⟩
      | throw e => rw [hn] at h; cases h
      | ub => rw [hn] at h; cases h
  · cases h

omit [LinearOrder K] [FloorRing K] in
theorem visitAll_good {c : Cfg K} {r r' : Vis K} {b : Block} (hs : ∀ g, r.g = some g → Good g)
    (h : visitAll c r b = .ok r') : ∀ g, r'.g = some g → Good g := by
  induction b generalizing r with
  | nil => cases h; exact hs
  | cons a t ih =>
    unfold visitAll at h
    cases hv : visit c r a with
    | throw e => rw [hv] at h; cases h
    | ub => rw [hv] at h; cases h
    | ok r1 =>
      rw [hv] at h
      refine ih ?_ h
      cases a with
      | str w v => cases hv; exact hs
      | chr _ _ => cases hv; exact hs
      | dec d =>
        unfold visit at hv
        dsimp only at hv
        split at hv
        · cases hv; exact hs
        · split at hv
          · cases hv; exact hs
          · cases hr : readWord c d with
            | throw e => rw [hr] at hv; cases hv
            | ub => rw [hr] at hv; cases hv
            | ok a =>
              rw [hr] at hv
              cases hv
              cases a with
              | code k t =>
                obtain ⟨n, rfl⟩ := readWord_code hr
                show ∀ g, (setCode r t (gKind n)).g = some g → Good g
                cases hk : gKind n with
                | motion m =>
                  intro g hg
                  cases hg
                  exact gKind_motion hk
                | _ => exact hs
              | _ => exact hs

/-! ### Where nothing happens -/

theorem linear_goes (F : Fns K) (c : Cfg K) (v : Vis K) (cur : Cur K) (s : St K) :
    (linear F c v cur s).2 ≠ .ok false := by
  unfold linear
  generalize cancelBy c cur.g s = s1
  split
  · unfold linearAbs
    split
    · simp
    · simp
    · simp
    · split
      · simp
      · simp
  · unfold linearIncr
    split_ifs <;> simp

theorem arcStep_goes (F : Fns K) (c : Cfg K) (cur : Cur K) (ax : Axes) (p : CPart K) :
    (arcStep F c cur ax p).2 ≠ .ok false := by
  unfold arcStep
  split
  · split
    · unfold arc
      dsimp only
      split <;> simp
    · simp
  · simp
  · simp
  · simp

theorem circularFrom_goes (F : Fns K) (c : Cfg K) (v : Vis K) (cur : Cur K) (ax : Axes) (xp yp : K) (s : St K) :
    (circularFrom F c v cur ax xp yp s).2 ≠ .ok false := by
  unfold circularFrom
  dsimp only
  split
  · exact arcStep_goes F c cur ax _
  · exact arcStep_goes F c cur ax _

theorem circular_false {F : Fns K} {c : Cfg K} {v : Vis K} {cur : Cur K} {s M : St K}
    (h : circular F c v cur s = (M, .ok false)) : M = s ∧ v.g = none ∧ v.vals = [] := by
  unfold circular at h
  split at h
  · rename_i hv; cases h; exact ⟨rfl, hv⟩
  · exfalso
    dsimp only at h
    split at h
    · cases h
    · cases h
    · exact circularFrom_goes F c v cur _ _ _ _ (by rw [h])

theorem cyclePart_goes (F : Fns K) (c : Cfg K) (v : Vis K) (cur : Cur K) (s : St K) :
    (cyclePart F c v cur s).2 ≠ .ok false := by
  unfold cyclePart
  dsimp only
  split
  · simp
  · split
    · simp
    · split
      · simp
      · split
        · simp
        · split <;> simp

theorem holePart_goes (F : Fns K) (v : Vis K) (cur : Cur K) (s : St K) :
    (holePart F v cur s).2 ≠ .ok false := by
  unfold holePart
  dsimp only
  split
  · simp
  · simp
  · split
    · simp
    · split
      · simp
      · split <;> simp

theorem drilling_false {F : Fns K} {c : Cfg K} {v : Vis K} {cur : Cur K} {s M : St K}
    (h : drilling F c v cur s = (M, .ok false)) : M = s ∧ v.g = none ∧ v.vals = [] := by
  unfold drilling at h
  split at h
  · rename_i hv; cases h; exact ⟨rfl, hv⟩
  · exfalso
    cases hc : cyclePart F c v cur s with
    | mk s1 o =>
      rw [hc] at h
      by_cases ho : o = .ok true
      · subst ho
        rw [andThen_go] at h
        exact holePart_goes F v cur s1 (by rw [h])
      · rw [andThen_stop ho] at h
        cases h
        exact cyclePart_goes F c v cur s (by rw [hc])

/-- A motion that does nothing belongs to a block without motion code and values. -/
theorem motion_false {F : Fns K} {c : Cfg K} {v : Vis K} {cur : Cur K} {s M : St K} (hg : Good cur.g)
    (h : motion F c v cur s = (M, .ok false)) : M = s ∧ v.g = none ∧ v.vals = [] ∧ cur.g ≠ 0 := by
  unfold motion at h
  split at h
  · exact absurd (by rw [h]) (linear_goes F c v cur s)
  · rename_i h0
    have h0' : cur.g ≠ 0 := fun h => h0 (Or.inl h)
    split at h
    · obtain ⟨h1, h2, h3⟩ := circular_false h
      exact ⟨h1, h2, h3, h0'⟩
    · split at h
      · cases h
      · split at h
        · obtain ⟨h1, h2, h3⟩ := drilling_false h
          exact ⟨h1, h2, h3, h0'⟩
        · exfalso
          rcases hg with hg | hg | hg | hg | hg
          · exact h0 hg
          · contradiction
          · contradiction
          · rename_i hd; exact hd (Or.inl hg)
          · rename_i hd; exact hd (Or.inr hg)

omit [LinearOrder K] [FloorRing K] in
theorem started_g (c : Cfg K) (v : Vis K) (s : St K) :
    (started c v s).g = s.g ∨ (started c v s).g = 0 := by
  unfold started
  split
  · exact Or.inr rfl
  · split
    · exact Or.inr rfl
    · exact Or.inl rfl

omit [LinearOrder K] [FloorRing K] in
theorem started_forced {c : Cfg K} {v : Vis K} {s : St K} (h : atTool c v = true ∨ atBase v = true) :
    (started c v s).g = 0 := by
  unfold started
  split
  · rfl
  · rw [if_pos (by rcases h with h | h <;> rw [h] <;> simp)]

/-- What no part before the motion changes. -/
theorem ready_fields (c : Cfg K) (v : Vis K) (s : St K) :
    let S := started c v (dwell v (exchanged c v (begun c v s)))
    SamePos s S ∧ (S.g = s.g ∨ S.g = 0) ∧ S.incr = s.incr ∧ S.f = s.f ∧ S.s = s.s ∧ S.plane = s.plane ∧
      S.ret = s.ret ∧ S.css = s.css ∧ S.perRev = s.perRev ∧ S.helix = s.helix ∧
      S.path.total = s.path.total ∧ S.path.work = some 0 ∧ S.path.fast = some 0 ∧
      S.path.cycle = s.path.cycle ∧ S.path.holes = s.path.holes ∧
      S.time.work = some 0 ∧ S.time.fast = some 0 := by
  dsimp only
  obtain ⟨x, hx⟩ := begun_addTime c v s
  have he : ∀ t : St K, ∃ ar tp tt tl i p j q r, exchanged c v t = { t with
      autoRapid := ar, tPath := tp, tTime := tt, tool := tl,
      path := { t.path with toolId := i, toolTotal := p },
      time := { t.time with toolId := j, toolTotal := q, total := r } } := by
    intro t
    unfold exchanged
    split
    · exact ⟨t.autoRapid, t.tPath, t.tTime, t.tool, t.path.toolId, t.path.toolTotal,
        t.time.toolId, t.time.toolTotal, t.time.total, rfl⟩
    · rename_i tl _
      obtain ⟨y, hy⟩ := fetchTool_fields c { storeTool c t with tool := tl }
      rw [hy]
      exact ⟨_, _, _, _, _, _, _, _, _, rfl⟩
  obtain ⟨ar, tp, tt, tl, i1, p1, j1, q1, r1, hE⟩ := he (begun c v s)
  obtain ⟨y, hy⟩ := dwell_fields v (exchanged c v (begun c v s))
  have hst : ∀ t : St K, ∃ ar g, started c v t = { t with autoRapid := ar, g := g } := by
    intro t
    unfold started
    split
    · exact ⟨_, _, rfl⟩
    · split
      · exact ⟨_, _, rfl⟩
      · exact ⟨_, _, rfl⟩
  have hg := started_g c v (dwell v (exchanged c v (begun c v s)))
  obtain ⟨ar', g', hS⟩ := hst (dwell v (exchanged c v (begun c v s)))
  rw [hS] at hg ⊢
  rw [hy, hE, hx] at hg ⊢
  exact ⟨⟨rfl, rfl⟩, hg, rfl, rfl, rfl, rfl, rfl, rfl, rfl, rfl, rfl, rfl, rfl, rfl, rfl, rfl, rfl⟩

omit [Field K] [LinearOrder K] [FloorRing K] in
theorem finish_ok {o : Out Exc Bool} (h : finish o = .ok ()) : o = .ok true ∨ o = .ok false := by
  cases o with
  | ok b => cases b <;> simp
  | throw e => cases h
  | ub => cases h

/-- The words whose values become positions, and whether they are distances. -/
def source (c : Cfg K) (v : Vis K) (s : St K) : VMap K × Bool :=
  if atTool c v then (c.exchange, false)
  else if (toolOf v).isNone && atBase v then (c.base, false)
  else (v.vals, v.incr.getD s.incr)

omit [LinearOrder K] [FloorRing K] in
theorem good_ready {c : Cfg K} {v : Vis K} {s : St K} (hs : s.g = -1 ∨ Good s.g) :
    let S := started c v (dwell v (exchanged c v (begun c v s)))
    ((atTool c v = false ∧ S.g = -1) → v.g ≠ none) → (∀ g, v.g = some g → Good g) → Good (current v S).g := by
  intro S hn hv
  show Good (v.g.getD S.g)
  cases hg : v.g with
  | some g => exact hv g hg
  | none =>
    show Good S.g
    have h0 : S.g = s.g ∨ S.g = 0 := by
      have h := started_g c v (dwell v (exchanged c v (begun c v s)))
      have h1 : (dwell v (exchanged c v (begun c v s))).g = s.g := by
        obtain ⟨y, hy⟩ := dwell_fields v (exchanged c v (begun c v s))
        obtain ⟨x, hx⟩ := begun_addTime c v s
        rw [hy]
        show (exchanged c v (begun c v s)).g = s.g
        unfold exchanged
        split
        · rw [hx]; rfl
        · obtain ⟨z, hz⟩ := fetchTool_fields c { storeTool c (begun c v s) with tool := ‹_› }
          rw [hz, hx]; rfl
      rw [h1] at h
      exact h
    rcases h0 with h0 | h0
    · rcases hs with hs | hs
      · exfalso
        cases ha : atTool c v with
        | false => exact hn ⟨ha, by rw [h0]; exact hs⟩ hg
        | true =>
          have := started_forced (c := c) (v := v) (s := dwell v (exchanged c v (begun c v s))) (Or.inl ha)
          change S.g = 0 at this
          rw [h0, hs] at this
          cases this
      · rw [h0]; exact hs
    · rw [h0]; exact Or.inl (Or.inl rfl)

/-- Positions after a block: those of its source, or the same if it failed. -/
theorem eval_positions {F : Fns K} {c : Cfg K} {inch : Inch} {b : Block} {s s' : St K} {o : Out Exc Unit}
    (hs : s.g = -1 ∨ Good s.g) (h : Eval F c inch b s o s') :
    (o ≠ .ok () ∧ SamePos s s') ∨
    (o = .ok () ∧ b = [] ∧ SamePos s s') ∨
    (o = .ok () ∧ ∃ v, visitAll c {} b = .ok v ∧
      (s'.prev, s'.range) = copyBack s'.g (source c v s).2 v.otherG (source c v s).1 (s.prev, s.range)) := by
  cases h with
  | empty hb => exact Or.inr (Or.inl ⟨rfl, hb, rfl, rfl⟩)
  | unread e _ => exact Or.inl ⟨by simp, rfl, rfl⟩
  | unreadUb _ => exact Or.inl ⟨by simp, rfl, rfl⟩
  | alone v t hv ht ha hw =>
    refine Or.inr (Or.inr ⟨rfl, v, hv, ?_⟩)
    obtain ⟨x, hx⟩ := begun_addTime c v s
    obtain ⟨y, hy⟩ := fetchTool_fields c (storeTool c (begun c v s))
    have hi : v.incr = none := by
      unfold tWithG at hw
      simp at hw
      exact hw.2.2.2
    unfold source
    rw [ha, ht, hi]
    have e1 : (fetchTool c (storeTool c (begun c v s))).g = s.g := by rw [hy, hx]; rfl
    have e2 : (fetchTool c (storeTool c (begun c v s))).incr = s.incr := by rw [hy, hx]; rfl
    have e3 : (fetchTool c (storeTool c (begun c v s))).prev = s.prev := by rw [hy, hx]; rfl
    have e4 : (fetchTool c (storeTool c (begun c v s))).range = s.range := by rw [hy, hx]; rfl
    unfold copySt
    dsimp only
    rw [e1, e2, e3, e4]
    rfl
  | aloneErr v t n hv ht ha hw =>
    exact Or.inl ⟨by simp, (begun_pos c v s).trans ((storeTool_pos c _).trans (fetchTool_pos c _))⟩
  | badTool v t e hv ht ha hq =>
    exact Or.inl ⟨by simp, (begun_pos c v s).trans ((storeTool_pos c _).trans ⟨rfl, rfl⟩)⟩
  | badToolUb v t hv ht ha hq =>
    exact Or.inl ⟨by simp, (begun_pos c v s).trans ((storeTool_pos c _).trans ⟨rfl, rfl⟩)⟩
  | before v hv ht ha hb hr hg hvg =>
    refine Or.inr (Or.inr ⟨rfl, v, hv, ?_⟩)
    obtain ⟨x, hx⟩ := begun_addTime c v s
    obtain ⟨y, hy⟩ := dwell_fields v (begun c v s)
    unfold source beforeMotion
    rw [ha, hb, ht, hy, hx]
    rfl
  | halt v S M o hb hv ht hS hn hm ho =>
    have hr := ready_fields c v s
    rw [← hS] at hr
    dsimp only at hr
    have hM := motion_only F c v (current v S) S
    rw [hm] at hM
    have hpos : SamePos s s' := hr.1.trans hM.samePos
    cases o with
    | throw e => exact Or.inl ⟨by simp [finish], hpos⟩
    | ub => exact Or.inl ⟨by simp [finish], hpos⟩
    | ok b' =>
      cases b' with
      | true => exact absurd rfl ho
      | false =>
        refine Or.inr (Or.inr ⟨rfl, v, hv, ?_⟩)
        have hgood : Good (current v S).g := by
          have := good_ready (c := c) (v := v) hs
          rw [← hS] at this
          exact this hn (visitAll_good (by intro g hg; cases hg) hv)
        obtain ⟨h1, h2, h3, h4⟩ := motion_false hgood hm
        have h5 : ¬ (atTool c v = true ∨ atBase v = true) := by
          intro hf
          apply h4
          show v.g.getD S.g = 0
          rw [h2, hS]
          exact started_forced hf
        have h6 : atTool c v = false := by
          cases ha : atTool c v with
          | false => rfl
          | true => exact absurd (Or.inl ha) h5
        have h7 : atBase v = false := by
          cases ha : atBase v with
          | false => rfl
          | true => exact absurd (Or.inr ha) h5
        have hsrc : (source c v s).1 = [] := by
          unfold source
          rw [h6, h7, h3]
          simp
        rw [hsrc, hpos.1, hpos.2]
        rfl
  | done v S M s' o hb hv ht hS hn hm ha =>
    have hr := ready_fields c v s
    rw [← hS] at hr
    dsimp only at hr
    have hM := motion_only F c v (current v S) S
    rw [hm] at hM
    have hpos : SamePos s M := hr.1.trans hM.samePos
    rw [account_eq] at ha
    have hcp := hpos.trans (counted_pos F c inch (current v S) M)
    cases hc : checks c (current v S) (counted F c inch (current v S) M) with
    | throw e => rw [hc] at ha; cases ha; exact Or.inl ⟨by simp [finish], hcp⟩
    | ub => rw [hc] at ha; cases ha; exact Or.inl ⟨by simp [finish], hcp⟩
    | ok u =>
      rw [hc] at ha
      cases ha
      refine Or.inr (Or.inr ⟨rfl, v, hv, ?_⟩)
      have hincr : (counted F c inch (current v S) M).incr = v.incr.getD s.incr := by
        show v.incr.getD S.incr = _
        rw [hr.2.2.1]
      unfold savePositions source
      cases hT : atTool c v with
      | true =>
        simp only [if_true]
        unfold copySt
        dsimp only
        rw [hcp.1, hcp.2]
      | false =>
        have htn : toolOf v = none := by
          cases htn : toolOf v with
          | none => rfl
          | some t => rw [(ht t htn).1] at hT; cases hT
        rw [htn]
        cases hB : atBase v with
        | true =>
          simp only [if_true, Option.isNone_none, Bool.and_self, Bool.false_eq_true, if_false]
          unfold copySt
          dsimp only
          rw [hcp.1, hcp.2]
        | false =>
          simp only [Option.isNone_none, Bool.and_false, Bool.false_eq_true, if_false]
          rw [hincr]
          unfold copySt
          dsimp only
          rw [hcp.1, hcp.2]

end
end NC.AttrPath
