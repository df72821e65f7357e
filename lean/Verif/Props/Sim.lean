import Verif.AttrPathProofs
import Verif.Spec.Sim

/-!
# Properties of the simulation of blocks: positions and ranges
-/

namespace NC.Props
open NC NC.Path NC.Ver NC.AttrPath NC.Spec.Sim

section
variable {K : Type} [Field K] [LinearOrder K] [FloorRing K]

/-- What the settings parser guarantees: the points are maps, the default motion is one of
`EMotion` (GeneralParserDefines.h) or unset. -/
structure WF (c : Cfg K) : Prop where
  base : VMap.Sorted c.base
  exchange : VMap.Sorted c.exchange
  motion : c.motion = -1 ∨ c.motion = 0 ∨ c.motion = 1 ∨ c.motion = 2 ∨ c.motion = 3

/-- A program: its blocks with their line numbers. -/
abbrev Prog := List (Int × Block)

/-- The states of the calculator during a program, also where blocks fail. -/
def history (F : Fns K) (c : Cfg K) (inch : Inch) : Prog → St K × MacroMap ℚ → List (St K)
  | [], p => [p.1]
  | x :: t, p => p.1 :: history F c inch t (evaluate F c inch x.1 x.2 p).1

/-- The state after a program. -/
def final (F : Fns K) (c : Cfg K) (inch : Inch) : Prog → St K × MacroMap ℚ → St K × MacroMap ℚ
  | [], p => p
  | x :: t, p => final F c inch t (evaluate F c inch x.1 x.2 p).1

/-- The position of an address as reported by `get_word_range`. -/
def pos (s : St K) : Pos K := fun a => (s.range.get a).map (·.cur)

/-! ## Invariants -/

/-- Holds in every state of the calculator. -/
structure Inv (s : St K) : Prop where
  prev : VMap.Sorted s.prev
  range : VMap.Sorted s.range
  sync : ∀ a, s.prev.get a = pos s a
  good : s.g = -1 ∨ Good s.g

omit [FloorRing K] in
theorem getMap_rangeStep (x : K) (r : Option (Rng K)) :
    (some (rangeStep x r)).map (·.cur) = some x := by
  show some (rangeStep x r).cur = some x
  rw [rangeStep_cur]

omit [FloorRing K] in
theorem copyBack_sync (g : Int) (incr : Bool) (og : List Str) {v : VMap K} (hv : v.Sorted)
    (p : VMap K × VMap (Rng K)) (h : ∀ a, p.1.get a = (p.2.get a).map (·.cur)) (a : Str) :
    (copyBack g incr og v p).1.get a = ((copyBack g incr og v p).2.get a).map (·.cur) := by
  rw [copyBack_prev g incr og hv, copyBack_range g incr og hv]
  cases v.get a with
  | none => exact h a
  | some x =>
    dsimp only
    split
    · exact h a
    · rw [getMap_rangeStep]

omit [LinearOrder K] [FloorRing K] in
theorem source_sorted {c : Cfg K} (hc : WF c) {b : Block} {v : Vis K} (hv : visitAll c {} b = .ok v) (s : St K) :
    (source c v s).1.Sorted := by
  unfold source
  split
  · exact hc.exchange
  · split
    · exact hc.base
    · exact visitAll_sorted (show VMap.Sorted (({} : Vis K).vals) from List.Pairwise.nil) hv

theorem eval_good {F : Fns K} {c : Cfg K} {inch : Inch} {b : Block} {s s' : St K} {o : Out Exc Unit}
    (hs : s.g = -1 ∨ Good s.g) (h : Eval F c inch b s o s') : s'.g = -1 ∨ Good s'.g := by
  cases h with
  | empty hb => exact hs
  | unread e _ => exact hs
  | unreadUb _ => exact hs
  | alone v t hv ht ha hw =>
    obtain ⟨x, hx⟩ := begun_addTime c v s
    obtain ⟨y, hy⟩ := fetchTool_fields c (storeTool c (begun c v s))
    have e1 : (fetchTool c (storeTool c (begun c v s))).g = s.g := by rw [hy, hx]; rfl
    unfold copySt
    dsimp only
    rw [e1]; exact hs
  | aloneErr v t n hv ht ha hw =>
    obtain ⟨x, hx⟩ := begun_addTime c v s
    obtain ⟨y, hy⟩ := fetchTool_fields c (storeTool c (begun c v s))
    have e1 : (fetchTool c (storeTool c (begun c v s))).g = s.g := by rw [hy, hx]; rfl
    rw [e1]; exact hs
  | badTool v t e hv ht ha hq =>
    obtain ⟨x, hx⟩ := begun_addTime c v s
    rw [hx]; exact hs
  | badToolUb v t hv ht ha hq =>
    obtain ⟨x, hx⟩ := begun_addTime c v s
    rw [hx]; exact hs
  | before v hv ht ha hb hr hg hvg =>
    obtain ⟨x, hx⟩ := begun_addTime c v s
    obtain ⟨y, hy⟩ := dwell_fields v (begun c v s)
    rw [hy, hx]
    exact hs
  | halt v S M o hb hv ht hS hn hm ho =>
    have hr := ready_fields c v s
    rw [← hS] at hr
    dsimp only at hr
    have hM := motion_only F c v (current v S) S
    rw [hm] at hM
    obtain ⟨w, f, cy, h1, x, rfl⟩ := hM
    show S.g = -1 ∨ Good S.g
    rcases hr.2.1 with h | h
    · rw [h]; exact hs
    · rw [h]; exact Or.inr (Or.inl (Or.inl rfl))
  | done v S M s' o hb hv ht hS hn hm ha =>
    have hgood : Good (current v S).g := by
      have := good_ready (c := c) (v := v) hs
      rw [← hS] at this
      exact this hn (visitAll_good (by intro g hg; cases hg) hv)
    have hg2 : Good (gAfter c (current v S).g) := by
      unfold gAfter
      split
      · exact Or.inl (Or.inl rfl)
      · exact hgood
    rw [account_eq] at ha
    right
    cases hc : checks c (current v S) (counted F c inch (current v S) M) with
    | throw e => rw [hc] at ha; cases ha; exact hg2
    | ub => rw [hc] at ha; cases ha; exact hg2
    | ok u =>
      rw [hc] at ha; cases ha
      unfold savePositions
      split
      · exact hg2
      · split
        · exact hg2
        · exact hg2

omit [FloorRing K] in
/-- The calculator starts in an invariant state. -/
theorem initial_inv {c : Cfg K} (hc : WF c) : Inv (initial c) where
  prev := (copyBack_sorted c.motion c.incr [] c.base ([], []) List.Pairwise.nil List.Pairwise.nil).1
  range := (copyBack_sorted c.motion c.incr [] c.base ([], []) List.Pairwise.nil List.Pairwise.nil).2
  sync := copyBack_sync c.motion c.incr [] hc.base ([], []) (fun _ => rfl)
  good := by
    show c.motion = -1 ∨ Good c.motion
    rcases hc.motion with h | h | h | h | h
    · exact Or.inl h
    · exact Or.inr (Or.inl (Or.inl h))
    · exact Or.inr (Or.inl (Or.inr h))
    · exact Or.inr (Or.inr (Or.inl (Or.inl h)))
    · exact Or.inr (Or.inr (Or.inl (Or.inr h)))

omit [FloorRing K] in
theorem reset_inv {c : Cfg K} (hc : WF c) (s : St K) : Inv (reset c s) where
  prev := (initial_inv hc).prev
  range := (initial_inv hc).range
  sync := (initial_inv hc).sync
  good := (initial_inv hc).good

theorem evaluate_inv (F : Fns K) {c : Cfg K} (hc : WF c) (inch : Inch) (line : Int) (b : Block)
    (p : St K × MacroMap ℚ) (hp : Inv p.1) : Inv (evaluate F c inch line b p).1.1 := by
  have he := evaluate_eval F c inch line b p
  have hg := eval_good hp.good he
  have same : ∀ s', SamePos p.1 s' → (s'.g = -1 ∨ Good s'.g) → Inv s' := by
    intro s' h hg
    refine ⟨by rw [h.1]; exact hp.prev, by rw [h.2]; exact hp.range, ?_, hg⟩
    intro a
    unfold pos
    rw [h.1, h.2]
    exact hp.sync a
  rcases eval_positions hp.good he with ⟨_, h⟩ | ⟨_, _, h⟩ | ⟨_, v, hv, h⟩
  · exact same _ h hg
  · exact same _ h hg
  · have h1 := congrArg Prod.fst h
    have h2 := congrArg Prod.snd h
    dsimp only at h1 h2
    have hs := copyBack_sorted (evaluate F c inch line b p).1.1.g (source c v p.1).2 v.otherG (source c v p.1).1
      (p.1.prev, p.1.range) hp.prev hp.range
    refine ⟨by rw [h1]; exact hs.1, by rw [h2]; exact hs.2, ?_, hg⟩
    intro a
    unfold pos
    rw [h1, h2]
    exact copyBack_sync _ _ _ (source_sorted hc hv p.1) _ hp.sync a

theorem final_inv (F : Fns K) {c : Cfg K} (hc : WF c) (inch : Inch) (prog : Prog)
    (p : St K × MacroMap ℚ) (hp : Inv p.1) : Inv (final F c inch prog p).1 := by
  induction prog generalizing p with
  | nil => exact hp
  | cons x t ih => exact ih _ (evaluate_inv F hc inch x.1 x.2 p hp)

/-! ## C25 -/

/-- Every range either stays or takes up one value. -/
theorem evaluate_range (F : Fns K) {c : Cfg K} (hc : WF c) (inch : Inch) (line : Int) (b : Block)
    (p : St K × MacroMap ℚ) (hp : Inv p.1) (a : Str) :
    (evaluate F c inch line b p).1.1.range.get a = p.1.range.get a ∨
      ∃ x, (evaluate F c inch line b p).1.1.range.get a = some (rangeStep x (p.1.range.get a)) := by
  rcases eval_positions hp.good (evaluate_eval F c inch line b p) with ⟨_, h⟩ | ⟨_, _, h⟩ | ⟨_, v, hv, h⟩
  · exact Or.inl (by rw [h.2])
  · exact Or.inl (by rw [h.2])
  · have h2 := congrArg Prod.snd h
    dsimp only at h2
    rw [h2, copyBack_range _ _ _ (source_sorted hc hv p.1)]
    cases (source c v p.1).1.get a with
    | none => exact Or.inl rfl
    | some x =>
      dsimp only
      split
      · exact Or.inl rfl
      · exact Or.inr ⟨_, rfl⟩

omit [FloorRing K] in
theorem brackets_snoc {h : List K} {r : Rng K} (hb : Brackets h r.lo r.cur r.hi) (x : K) :
    Brackets (h ++ [x]) (widen r x).lo (widen r x).cur (widen r x).hi := by
  have hcur : r.lo ≤ r.cur ∧ r.cur ≤ r.hi := hb.between _ (List.mem_of_getLast? hb.last)
  have hlh := le_trans hcur.1 hcur.2
  have hl := List.mem_append_left [x] hb.lo_mem
  have hh := List.mem_append_left [x] hb.hi_mem
  have hx : x ∈ h ++ [x] := List.mem_append_right _ (List.mem_singleton.mpr rfl)
  refine ⟨by rw [widen_cur]; simp, ?_, ?_, ?_⟩
  · unfold widen
    split
    · exact hx
    · split
      · exact hl
      · exact hl
  · unfold widen
    split
    · exact hh
    · split
      · exact hx
      · exact hh
  · intro y hy
    rcases List.mem_append.mp hy with hy | hy
    · have := hb.between y hy
      unfold widen
      split
      · rename_i h1; exact ⟨le_trans h1.le this.1, this.2⟩
      · split
        · rename_i h1; exact ⟨this.1, le_trans this.2 h1.le⟩
        · exact this
    · rw [List.mem_singleton.mp hy]
      unfold widen
      split
      · rename_i h1; exact ⟨le_refl _, le_trans h1.le hlh⟩
      · rename_i h1
        split
        · exact ⟨not_lt.mp h1, le_refl _⟩
        · rename_i h2; exact ⟨not_lt.mp h1, not_lt.mp h2⟩

omit [FloorRing K] in
theorem widen_cur_self {r : Rng K} (h : r.lo ≤ r.cur ∧ r.cur ≤ r.hi) : widen r r.cur = r := by
  unfold widen
  rw [if_neg (not_lt.mpr h.1), if_neg (not_lt.mpr h.2)]

/-- The values an address has had so far, and its range. -/
def Tracks (h : List K) (r : Option (Rng K)) : Prop :=
  (r = none ∧ h = []) ∨ ∃ q, r = some q ∧ Brackets h q.lo q.cur q.hi

theorem tracks_history (F : Fns K) {c : Cfg K} (hc : WF c) (inch : Inch) (a : Str) (prog : Prog)
    (p : St K × MacroMap ℚ) (hp : Inv p.1) (h : List K)
    (ht : Tracks (h ++ (pos p.1 a).toList) (p.1.range.get a)) :
    Tracks (h ++ (history F c inch prog p).filterMap (fun s => pos s a))
      ((final F c inch prog p).1.range.get a) := by
  induction prog generalizing p h with
  | nil =>
    show Tracks (h ++ [p.1].filterMap (fun s => pos s a)) (p.1.range.get a)
    rw [List.filterMap_cons]
    cases hq : pos p.1 a with
    | none => rw [hq] at ht; exact ht
    | some x => rw [hq] at ht; exact ht
  | cons x t ih =>
    have hi := evaluate_inv F hc inch x.1 x.2 p hp
    have key := ih (evaluate F c inch x.1 x.2 p).1 hi (h ++ (pos p.1 a).toList) (by
      unfold pos
      rcases evaluate_range F hc inch x.1 x.2 p hp a with he | ⟨y, he⟩
      · rw [he]
        rcases ht with ⟨h1, h2⟩ | ⟨q, h1, h2⟩
        · left
          unfold pos at h2
          rw [h1] at h2 ⊢
          exact ⟨rfl, by rw [h2]; rfl⟩
        · right
          have h3 : pos p.1 a = some q.cur := by unfold pos; rw [h1]; rfl
          refine ⟨q, h1, ?_⟩
          have hbt := h2.between _ (List.mem_of_getLast? h2.last)
          have := brackets_snoc h2 q.cur
          rw [widen_cur_self hbt] at this
          unfold pos at h3
          rw [h3]
          unfold pos at this
          rw [h3] at this
          exact this
      · rw [he]
        right
        refine ⟨_, rfl, ?_⟩
        rw [getMap_rangeStep]
        rcases ht with ⟨h1, h2⟩ | ⟨q, h1, h2⟩
        · unfold pos at h2
          rw [h2, h1]
          refine ⟨rfl, ?_, ?_, ?_⟩
          · exact List.mem_singleton.mpr rfl
          · exact List.mem_singleton.mpr rfl
          · intro z hz
            rw [List.mem_singleton.mp hz]
            exact ⟨le_refl _, le_refl _⟩
        · unfold pos at h2
          rw [h1] at h2 ⊢
          exact brackets_snoc h2 y)
    show Tracks (h ++ (p.1 :: history F c inch t (evaluate F c inch x.1 x.2 p).1).filterMap (fun s => pos s a))
      ((final F c inch t (evaluate F c inch x.1 x.2 p).1).1.range.get a)
    rw [List.filterMap_cons]
    cases hq : pos p.1 a with
    | none => rw [hq] at key; simpa using key
    | some z => rw [hq] at key; simpa using key

/-- **C25.** After any program, failed blocks included, the range of an address consists of the least,
the last and the greatest of the values the address has had since the calculator was created. -/
theorem C25_history (F : Fns K) {c : Cfg K} (hc : WF c) (inch : Inch) (prog : Prog) (m : MacroMap ℚ)
    (a : Str) (r : Rng K) (h : (final F c inch prog (initial c, m)).1.range.get a = some r) :
    Brackets ((history F c inch prog (initial c, m)).filterMap (fun s => pos s a)) r.lo r.cur r.hi := by
  have key := tracks_history F hc inch a prog (initial c, m) (initial_inv hc) [] (by
    have hr := copyBack_range c.motion c.incr [] hc.base ([], []) a
    unfold pos
    change (initial c).range.get a = _ at hr
    rw [hr]
    cases VMap.get c.base a with
    | none => exact Or.inl ⟨rfl, rfl⟩
    | some x =>
      dsimp only
      split
      · exact Or.inl ⟨rfl, rfl⟩
      · right
        refine ⟨_, rfl, ?_⟩
        rw [getMap_rangeStep, VMap.get_nil]
        refine ⟨rfl, ?_, ?_, ?_⟩
        · exact List.mem_singleton.mpr rfl
        · exact List.mem_singleton.mpr rfl
        · intro z hz
          rw [List.mem_singleton.mp hz]
          exact ⟨le_refl _, le_refl _⟩)
  rcases key with ⟨h1, _⟩ | ⟨q, h1, h2⟩
  · rw [h1] at h; cases h
  · rw [h1] at h; cases h; exact h2

/-- **C25.** A block that fails leaves all ranges as they are. -/
theorem C25_failed (F : Fns K) (c : Cfg K) (inch : Inch) (line : Int) (b : Block)
    (p : St K × MacroMap ℚ) (hp : Inv p.1) (h : (evaluate F c inch line b p).2 ≠ .ok ()) :
    (evaluate F c inch line b p).1.1.range = p.1.range := by
  rcases eval_positions hp.good (evaluate_eval F c inch line b p) with ⟨_, h'⟩ | ⟨h', _, _⟩ | ⟨h', _⟩
  · exact h'.2
  · exact absurd h' h
  · exact absurd h' h

/-! ### The words of a block -/

/-- The addresses of codes are not those of axes. -/
def AxesOk (c : Cfg K) : Prop := ∀ w ∈ ([c!"G", c!"M", c!"T", c!"F", c!"S"] : List Str), w ∉ c.axes

/-- The value a word gives to an address. -/
def valOf (a : Str) : Act K → Option K
  | .val w x => if w = a then some x else none
  | _ => none

/-- The mode a word selects. -/
def incrOf : Act K → Option Bool
  | .code (.incr b) _ => some b
  | _ => none

/-- A word that only moves. -/
def quiet : Act K → Bool
  | .tool _ => false
  | .aux _ _ _ => false
  | .code .other _ => false
  | _ => true

omit [LinearOrder K] [FloorRing K] in
theorem on_vals (r : Vis K) (x : Act K) (a : Str) : (Act.on r x).vals.get a = (valOf a x).or (r.vals.get a) := by
  cases x with
  | val w y =>
    show (r.vals.put w y).get a = (if w = a then some y else none).or (r.vals.get a)
    rw [VMap.get_put]
    by_cases h : w = a
    · rw [if_pos h, if_pos h]; rfl
    · rw [if_neg h, if_neg h]; rfl
  | code k t => cases k <;> rfl
  | _ => rfl

omit [Field K] [LinearOrder K] [FloorRing K] in
theorem on_incr (r : Vis K) (x : Act K) : (Act.on r x).incr = (incrOf x).or r.incr := by
  cases x with
  | code k t => cases k <;> rfl
  | _ => rfl

omit [Field K] [LinearOrder K] [FloorRing K] in
theorem on_quiet (r : Vis K) (x : Act K) (h : quiet x = true) :
    (Act.on r x).tools = r.tools ∧ (Act.on r x).m6 = r.m6 ∧ (Act.on r x).otherG = r.otherG := by
  cases x with
  | code k t => cases k <;> first | exact ⟨rfl, rfl, rfl⟩ | cases h
  | tool t => cases h
  | aux _ _ _ => cases h
  | _ => exact ⟨rfl, rfl, rfl⟩

omit [LinearOrder K] [FloorRing K] in
theorem readVal_value {d : Dec} {x : Act K} (h : readVal d = .ok x) (a : Str) :
    valOf a x = if d.word = a then value d else none := by
  unfold readVal at h
  have hn : value (K := K) d = (number d).map (fun q : ℚ => scaleP d (q : K)) := rfl
  rw [hn]
  unfold number
  by_cases h1 : d.value = none ∧ d.dot = none
  · rw [if_pos h1] at h
    cases h
    have h2 : ¬ (d.value.isSome ∨ d.dot.isSome) := by rw [h1.1, h1.2]; simp
    rw [if_neg h2]
    show none = _
    split <;> rfl
  · rw [if_neg h1] at h
    have h3 : d.value.isSome ∨ d.dot.isSome := by
      rcases not_and_or.mp h1 with h2 | h2
      · exact Or.inl (Option.isSome_iff_ne_none.mpr h2)
      · exact Or.inr (Option.isSome_iff_ne_none.mpr h2)
    rw [if_pos h3]
    have ht : valText d = d.sign.toList ++ d.value.getD [] ++ d.dot.toList ++ d.value2.getD [] := by
      unfold valText chrText strText
      cases d.sign <;> cases d.value <;> cases d.dot <;> cases d.value2 <;> rfl
    rw [← ht]
    unfold stodE at h
    cases hq : stod (valText d) with
    | throw e => rw [hq] at h; cases h
    | ub => rw [hq] at h; cases h
    | ok q => rw [hq] at h; cases h; rfl

omit [LinearOrder K] [FloorRing K] in
theorem code_ne_param {c : Cfg K} (hc : AxesOk c) {w : Str}
    (h : w ∈ ([c!"G", c!"M", c!"T", c!"F", c!"S"] : List Str)) : w ∉ gcodeParams c := by
  intro hm
  unfold gcodeParams at hm
  rcases List.mem_append.mp hm with hm | hm
  · simp only [List.mem_cons, List.not_mem_nil, or_false] at h
    rcases h with rfl | rfl | rfl | rfl | rfl <;> revert hm <;> decide
  · exact hc w h hm

omit [Field K] [LinearOrder K] [FloorRing K] in
theorem readTool_val {c : Cfg K} {d : Dec} {x : Act K} (h : readTool c d = .ok x) : ∀ a, valOf a x = none := by
  intro a
  unfold readTool at h
  cases hq : d.value <;> rw [hq] at h
  · cases h; rfl
  · dsimp only at h; split at h <;> cases h <;> rfl

omit [LinearOrder K] [FloorRing K] in
theorem readFeed_val {f : K → Act K} (hf : ∀ y a, valOf a (f y) = none) {d : Dec} {x : Act K}
    (h : readFeed f d = .ok x) : ∀ a, valOf a x = none := by
  intro a
  unfold readFeed at h
  split at h
  · cases h; rfl
  · cases hq : stodE (feedText d) <;> rw [hq] at h <;> cases h
    exact hf _ _

omit [Field K] [LinearOrder K] [FloorRing K] in
theorem readAux_val {c : Cfg K} {d : Dec} {x : Act K} (h : readAux c d = .ok x) : ∀ a, valOf a x = none := by
  intro a
  unfold readAux at h
  cases hq : d.value <;> rw [hq] at h
  · cases h; rfl
  · dsimp only at h
    split at h
    · cases h; rfl
    · split at h <;> cases h; rfl

omit [Field K] [LinearOrder K] [FloorRing K] in
theorem readCode_val {d : Dec} {x : Act K} (h : readCode d = .ok x) : ∀ a, valOf a x = none := by
  intro a
  unfold readCode at h
  cases hq : d.value <;> rw [hq] at h
  · cases h; rfl
  · dsimp only at h
    split at h <;> cases h; rfl

omit [LinearOrder K] [FloorRing K] in
theorem readWord_value {c : Cfg K} {d : Dec} {x : Act K} (h : readWord c d = .ok x) {a : Str}
    (ha : a ∈ gcodeParams c) : valOf a x = if d.word = a then value d else none := by
  unfold readWord at h
  by_cases hp : d.word ∈ gcodeParams c
  · rw [if_pos hp] at h; exact readVal_value h a
  · rw [if_neg hp] at h
    rw [if_neg (by intro e; exact hp (e ▸ ha))]
    split_ifs at h
    · exact readTool_val h a
    · exact readFeed_val (by intro y a; rfl) h a
    · exact readFeed_val (by intro y a; rfl) h a
    · exact readAux_val h a
    · exact readCode_val h a
    · cases h; rfl

omit [Field K] [LinearOrder K] [FloorRing K] in
theorem incrOf_gKind (n : Int) (t : Str) :
    incrOf (.code (gKind n) t : Act K) = if n = 90 then some false else if n = 91 then some true else none := by
  by_cases h0 : n = 90
  · subst h0; rfl
  by_cases h1 : n = 91
  · subst h1; rfl
  rw [if_neg h0, if_neg h1]
  unfold gKind
  by_cases a1 : n = 17
  · rw [if_pos a1]; rfl
  by_cases a2 : n = 18
  · rw [if_neg a1, if_pos a2]; rfl
  by_cases a3 : n = 19
  · rw [if_neg a1, if_neg a2, if_pos a3]; rfl
  rw [if_neg a1, if_neg a2, if_neg a3]
  split
  · rfl
  · unfold modeKind
    rw [if_neg h0, if_neg h1]
    split_ifs <;> rfl

omit [LinearOrder K] [FloorRing K] in
theorem readWord_code_of {c : Cfg K} (hc : AxesOk c) {d : Dec} (hg : d.word = c!"G") :
    readWord c d = readCode d := by
  unfold readWord
  rw [if_neg (by rw [hg]; exact code_ne_param hc (by decide)), hg, if_neg (by decide), if_neg (by decide),
    if_neg (by decide), if_neg (by decide), if_pos rfl]

omit [LinearOrder K] [FloorRing K] in
theorem readWord_not_code {c : Cfg K} {d : Dec} (hg : d.word ≠ c!"G") {x : Act K} (h : readWord c d = .ok x) :
    ∀ k t, x ≠ .code k t := by
  intro k t he
  subst he
  unfold readWord at h
  split_ifs at h
  · unfold readVal at h
    split at h
    · cases h
    · cases hq : stodE (valText d) <;> rw [hq] at h <;> cases h
  · unfold readTool at h
    cases hq : d.value <;> rw [hq] at h
    · cases h
    · dsimp only at h; split at h <;> cases h
  · unfold readFeed at h
    split at h
    · cases h
    · cases hq : stodE (feedText d) <;> rw [hq] at h <;> cases h
  · unfold readFeed at h
    split at h
    · cases h
    · cases hq : stodE (feedText d) <;> rw [hq] at h <;> cases h
  · unfold readAux at h
    cases hq : d.value <;> rw [hq] at h
    · cases h
    · dsimp only at h
      split at h
      · cases h
      · split at h <;> cases h
  · cases h

omit [Field K] [LinearOrder K] [FloorRing K] in
theorem readCode_code {d : Dec} {x : Act K} (h : readCode d = .ok x) :
    (code d = none ∧ x = .nothing) ∨ ∃ n t, code d = some n ∧ x = .code (gKind n) t := by
  unfold readCode at h
  unfold code
  cases hq : d.value with
  | none => rw [hq] at h; cases h; exact Or.inl ⟨rfl, rfl⟩
  | some v =>
    rw [hq] at h
    dsimp only at h ⊢
    unfold stoiE at h
    cases hs : stoi v with
    | throw e => rw [hs] at h; cases h
    | ub => rw [hs] at h; cases h
    | ok n => rw [hs] at h; cases h; exact Or.inr ⟨n, _, rfl, rfl⟩

omit [LinearOrder K] [FloorRing K] in
theorem readWord_incr {c : Cfg K} (hc : AxesOk c) {d : Dec} {x : Act K} (h : readWord c d = .ok x) :
    incrOf x = modeWord d := by
  unfold modeWord
  by_cases hg : d.word = c!"G"
  · rw [readWord_code_of hc hg] at h
    rcases readCode_code h with ⟨h1, rfl⟩ | ⟨n, t, h1, rfl⟩
    · rw [h1, if_neg (by simp), if_neg (by simp)]; rfl
    · rw [incrOf_gKind, h1]
      by_cases h2 : n = 90
      · rw [if_pos h2, if_pos ⟨hg, by rw [h2]⟩]
      · have h2' : ¬ (d.word = c!"G" ∧ some n = some 90) := fun e => h2 (Option.some.inj e.2)
        rw [if_neg h2, if_neg h2']
        by_cases h3 : n = 91
        · rw [if_pos h3, if_pos ⟨hg, by rw [h3]⟩]
        · have h3' : ¬ (d.word = c!"G" ∧ some n = some 91) := fun e => h3 (Option.some.inj e.2)
          rw [if_neg h3, if_neg h3']
  · rw [if_neg (by rintro ⟨e, _⟩; exact hg e), if_neg (by rintro ⟨e, _⟩; exact hg e)]
    have := readWord_not_code hg h
    cases x with
    | code k t => exact absurd rfl (this k t)
    | _ => rfl

omit [LinearOrder K] [FloorRing K] in
theorem readWord_plain {c : Cfg K} (hc : AxesOk c) {d : Dec} (hp : PlainWord d) {x : Act K}
    (h : readWord c d = .ok x) : quiet x = true := by
  by_cases hg : d.word = c!"G"
  · rw [readWord_code_of hc hg] at h
    obtain ⟨n, hn, h1⟩ := hp.2.2 hg
    rcases readCode_code h with ⟨h2, rfl⟩ | ⟨m, t, h2, rfl⟩
    · rw [h1] at h2; cases h2
    · rw [h1] at h2
      cases h2
      simp only [List.mem_cons, List.not_mem_nil, or_false] at hn
      rcases hn with rfl | rfl | rfl | rfl | rfl | rfl | rfl | rfl | rfl <;> rfl
  · have h0 := readWord_not_code hg h
    unfold readWord at h
    split_ifs at h with h1 h2 h3 h4 h5
    · unfold readVal at h
      split at h
      · cases h; rfl
      · cases hq : stodE (valText d) <;> rw [hq] at h <;> cases h; rfl
    · exact absurd h2 hp.1
    · unfold readFeed at h
      split at h
      · cases h; rfl
      · cases hq : stodE (feedText d) <;> rw [hq] at h <;> cases h; rfl
    · unfold readFeed at h
      split at h
      · cases h; rfl
      · cases hq : stodE (feedText d) <;> rw [hq] at h <;> cases h; rfl
    · exact absurd h5 hp.2.1
    · cases h; rfl

omit [LinearOrder K] [FloorRing K] in
/-- Behind a `/` only string attributes are looked at. -/
theorem visitAll_skip {c : Cfg K} {r v : Vis K} {b : Block} (hs : r.skip = true) (h : visitAll c r b = .ok v) :
    ∃ p m, v = { r with pallet := p, measure := m } := by
  induction b generalizing r with
  | nil => cases h; exact ⟨_, _, rfl⟩
  | cons a t ih =>
    unfold visitAll at h
    cases a with
    | dec d =>
      have hv : visit c r (.dec d) = .ok r := by
        unfold visit
        dsimp only
        rw [if_pos hs]
        split
        · rw [← hs]
        · rfl
      rw [hv] at h
      exact ih hs h
    | str w x =>
      obtain ⟨p, m, hv⟩ := ih (r := Act.on r (.aux false (isPallet c w x) (isMeasure c w x))) hs h
      refine ⟨p, m, ?_⟩
      rw [hv]
      show ({ r with m6 := r.m6 || false, pallet := p, measure := m } : Vis K) = _
      rw [Bool.or_false]
    | chr w x => exact ih hs h

omit [LinearOrder K] [FloorRing K] in
/-- Reading a block up to `/`: a property of the result follows from its words. -/
theorem visitAll_words {c : Cfg K} {P : List Dec → Vis K → Prop} {r v : Vis K} {b : Block}
    (hs : r.skip = false) (h : visitAll c r b = .ok v) (ds : List Dec) (h0 : P ds r)
    (hw : ∀ ds r d x, d ∈ words b → P ds r → readWord c d = .ok x → P (ds ++ [d]) (Act.on r x))
    (hx : ∀ ds r p m, P ds r → P ds { r with pallet := p, measure := m })
    (hk : ∀ ds r, P ds r → P ds { r with skip := true }) :
    P (ds ++ words b) v := by
  induction b generalizing r ds with
  | nil => cases h; rw [words, List.append_nil]; exact h0
  | cons a t ih =>
    unfold visitAll at h
    cases a with
    | dec d =>
      unfold visit at h
      dsimp only at h
      unfold words
      by_cases hd : d.word = c!"/"
      · rw [if_pos hd] at h
        rw [if_pos hd, List.append_nil]
        obtain ⟨p, m, rfl⟩ := visitAll_skip (r := { r with skip := true }) rfl h
        exact hx _ _ p m (hk _ _ h0)
      · rw [if_neg hd, hs, if_neg (by simp)] at h
        rw [if_neg hd]
        cases hr : readWord c d with
        | throw e => rw [hr] at h; cases h
        | ub => rw [hr] at h; cases h
        | ok x =>
          rw [hr] at h
          dsimp only at h
          have hwt : words (.dec d :: t) = d :: words t := by rw [words, if_neg hd]
          have hs' : (Act.on r x).skip = false := by
            cases x with
            | code k t => cases k <;> exact hs
            | _ => exact hs
          have := ih hs' h (ds ++ [d]) (hw ds r d x (by rw [hwt]; exact List.mem_cons_self) h0 hr)
            (fun ds r d x hm => hw ds r d x (by rw [hwt]; exact List.mem_cons_of_mem _ hm))
          rw [List.append_assoc] at this
          exact this
    | str w x =>
      refine ih (r := Act.on r (.aux false (isPallet c w x) (isMeasure c w x))) hs h ds ?_ hw
      have := hx ds r (r.pallet || isPallet c w x) (r.measure || isMeasure c w x) h0
      show P ds { r with m6 := r.m6 || false, pallet := _, measure := _ }
      rw [Bool.or_false]
      exact this
    | chr w x => exact ih hs h ds h0 hw

theorem getLast?_snoc_or {α : Type} (l : List α) (o : Option α) : (l ++ o.toList).getLast? = o.or l.getLast? := by
  cases o with
  | none => simp
  | some x => simp

omit [LinearOrder K] [FloorRing K] in
theorem visitAll_vals {c : Cfg K} {v : Vis K} {b : Block} (h : visitAll c {} b = .ok v) {a : Str}
    (ha : a ∈ gcodeParams c) : v.vals.get a = programmed b a := by
  have := visitAll_words (P := fun ds r => r.vals.get a = ((ds.filter (fun d => d.word = a)).filterMap value).getLast?)
    (by rfl) h [] rfl ?_ ?_ ?_
  · exact this
  · intro ds r d x _ hp hr
    rw [on_vals, readWord_value hr ha, hp, List.filter_append, List.filterMap_append]
    by_cases hd : d.word = a
    · rw [if_pos hd, List.filter_singleton, decide_eq_true hd]
      have : List.filterMap (value (K := K)) [d] = (value d).toList := by
        rw [List.filterMap_cons]; cases value (K := K) d <;> rfl
      rw [cond_true, this, getLast?_snoc_or]
    · rw [if_neg hd, List.filter_singleton, decide_eq_false hd]
      simp
  · intro ds r p m hp; exact hp
  · intro ds r hp; exact hp

omit [LinearOrder K] [FloorRing K] in
theorem visitAll_incr {c : Cfg K} (hc : AxesOk c) {v : Vis K} {b : Block} (h : visitAll c {} b = .ok v) :
    v.incr = ((words b).filterMap modeWord).getLast? := by
  have := visitAll_words (P := fun ds r => r.incr = (ds.filterMap modeWord).getLast?) (by rfl) h [] rfl ?_ ?_ ?_
  · exact this
  · intro ds r d x _ hp hr
    rw [on_incr, readWord_incr hc hr, hp, List.filterMap_append]
    have : List.filterMap modeWord [d] = (modeWord d).toList := by
      rw [List.filterMap_cons]; cases modeWord d <;> rfl
    rw [this, getLast?_snoc_or]
  · intro ds r p m hp; exact hp
  · intro ds r hp; exact hp

omit [LinearOrder K] [FloorRing K] in
theorem visitAll_plain {c : Cfg K} (hc : AxesOk c) {v : Vis K} {b : Block} (hb : Plain b)
    (h : visitAll c {} b = .ok v) : v.tools = [] ∧ v.m6 = false ∧ v.otherG = [] := by
  refine visitAll_words (P := fun _ r => r.tools = [] ∧ r.m6 = false ∧ r.otherG = []) (by rfl) h []
    ⟨rfl, rfl, rfl⟩ ?_ ?_ ?_
  · intro ds r d x hm hp hr
    obtain ⟨h1, h2, h3⟩ := on_quiet r x (readWord_plain hc (hb d hm) hr)
    rw [h1, h2, h3]
    exact hp
  · intro ds r p m hp; exact hp
  · intro ds r hp; exact hp

/-! ### Positions -/

omit [FloorRing K] in
theorem newValue_cur (incr : Bool) (a : Str) (x : K) (r : Option (Rng K)) :
    newValue incr a x r =
      if incr = true ∧ (a = c!"X" ∨ a = c!"Y" ∨ a = c!"Z") then (r.map (·.cur)).getD 0 + x else x := by
  unfold newValue movesIncr
  by_cases hi : incr = true ∧ (a = c!"X" ∨ a = c!"Y" ∨ a = c!"Z")
  · have : (incr && (decide (a = c!"X") || decide (a = c!"Y") || decide (a = c!"Z"))) = true := by
      simp only [Bool.and_eq_true, Bool.or_eq_true, decide_eq_true_eq, or_assoc]
      exact hi
    rw [if_pos hi, this]
    cases r with
    | none => show x = 0 + x; rw [zero_add]
    | some q => rfl
  · have : (incr && (decide (a = c!"X") || decide (a = c!"Y") || decide (a = c!"Z"))) = false := by
      rw [Bool.eq_false_iff]
      intro e
      apply hi
      simp only [Bool.and_eq_true, Bool.or_eq_true, decide_eq_true_eq, or_assoc] at e
      exact e
    rw [if_neg hi, this]

omit [LinearOrder K] [FloorRing K] in
theorem skipped_nil (g : Int) (a : Str) :
    skipped g [] a = (decide (a = c!"Z") && (isDrill g || isDrillQ g) || decide (a = c!"Q") || decide (a = c!"L")) := by
  unfold skipped
  cases ignored.find? (fun e => e.1 == a) with
  | none => rw [Bool.or_false]
  | some e =>
    have : (e.2.any (fun x => ([] : List Str).any (fun y => y == x))) = false := by
      rw [List.any_eq_false]; intro x _; simp
    dsimp only
    rw [this, Bool.or_false]

/-- **C25.** After a block that just moves, each axis and centre word is where the block says: at its
last value, further by it after G91, or where it was. The depth of a drilling cycle is not a position. -/
theorem C25_position (F : Fns K) {c : Cfg K} (hc : WF c) (hx : AxesOk c) (inch : Inch) (line : Int) (b : Block)
    (p : St K × MacroMap ℚ) (hp : Inv p.1) (hb : Plain b) (h : (evaluate F c inch line b p).2 = .ok ())
    (a : Str) (ha : a ∈ gcodeParams c) (hq : a ≠ c!"Q" ∧ a ≠ c!"L")
    (hz : a = c!"Z" → (isDrill (evaluate F c inch line b p).1.1.g || isDrillQ (evaluate F c inch line b p).1.1.g) = false) :
    pos (evaluate F c inch line b p).1.1 a =
      moved (incremental b p.1.incr) (programmed b) (pos p.1) a := by
  unfold moved
  rcases eval_positions hp.good (evaluate_eval F c inch line b p) with ⟨h', _⟩ | ⟨_, h1, h'⟩ | ⟨_, v, hv, h'⟩
  · exact absurd h h'
  · subst h1
    unfold pos
    rw [h'.2]
    rfl
  · have h2 := congrArg Prod.snd h'
    dsimp only at h2
    obtain ⟨e1, e2, e3⟩ := visitAll_plain hx hb hv
    have ht : toolOf v = none := by unfold toolOf; rw [e1]; split <;> rfl
    have hs : source c v p.1 = (v.vals, v.incr.getD p.1.incr) := by
      unfold source atTool atBase
      rw [ht, e2, e3]
      simp
    rw [hs] at h2
    unfold pos
    rw [h2, copyBack_range _ _ _ (visitAll_sorted (show VMap.Sorted (({} : Vis K).vals) from List.Pairwise.nil) hv),
      visitAll_vals hv ha, e3, skipped_nil]
    cases hpr : programmed (K := K) b a with
    | none => rfl
    | some x =>
      dsimp only
      rw [if_neg (by
        simp only [Bool.or_eq_true, Bool.and_eq_true, decide_eq_true_eq, not_or, not_and]
        refine ⟨⟨?_, hq.1⟩, hq.2⟩
        intro e
        have := hz e
        rw [Bool.or_eq_false_iff] at this
        rw [this.1, this.2]
        simp), getMap_rangeStep, newValue_cur, visitAll_incr hx hv]
      unfold incremental
      split <;> rfl

omit [LinearOrder K] [FloorRing K] in
theorem readWord_aux_of {c : Cfg K} (hc : AxesOk c) {d : Dec} (hg : d.word = c!"M") :
    readWord c d = readAux c d := by
  unfold readWord
  rw [if_neg (by rw [hg]; exact code_ne_param hc (by decide)), hg, if_neg (by decide), if_neg (by decide),
    if_neg (by decide), if_pos rfl]

/-- A word is M6. -/
def m6Of : Act K → Bool
  | .aux a _ _ => a
  | _ => false

/-- The G code of no category of a word. -/
def otherOf : Act K → List Str
  | .code .other t => [t]
  | _ => []

/-- The tool of a word. -/
def toolOfAct : Act K → List Str
  | .tool t => [t]
  | _ => []

omit [Field K] [LinearOrder K] [FloorRing K] in
theorem on_m6 (r : Vis K) (x : Act K) : (Act.on r x).m6 = (r.m6 || m6Of x) := by
  cases x with
  | code k t => cases k <;> exact (Bool.or_false _).symm
  | aux a p m => rfl
  | _ => exact (Bool.or_false _).symm

omit [Field K] [LinearOrder K] [FloorRing K] in
theorem on_other (r : Vis K) (x : Act K) : (Act.on r x).otherG = r.otherG ++ otherOf x := by
  cases x with
  | code k t => cases k <;> first | rfl | exact (List.append_nil _).symm
  | _ => exact (List.append_nil _).symm

omit [Field K] [LinearOrder K] [FloorRing K] in
theorem on_tools (r : Vis K) (x : Act K) : (Act.on r x).tools = r.tools ++ toolOfAct x := by
  cases x with
  | code k t => cases k <;> exact (List.append_nil _).symm
  | tool t => rfl
  | _ => exact (List.append_nil _).symm

omit [LinearOrder K] [FloorRing K] in
theorem readWord_notTool {c : Cfg K} {d : Dec} (hg : d.word ≠ c!"T") {x : Act K} (h : readWord c d = .ok x) :
    toolOfAct x = [] := by
  unfold readWord at h
  split_ifs at h
  · unfold readVal at h
    split at h
    · cases h; rfl
    · cases hq : stodE (valText d) <;> rw [hq] at h <;> cases h; rfl
  · unfold readFeed at h
    split at h
    · cases h; rfl
    · cases hq : stodE (feedText d) <;> rw [hq] at h <;> cases h; rfl
  · unfold readFeed at h
    split at h
    · cases h; rfl
    · cases hq : stodE (feedText d) <;> rw [hq] at h <;> cases h; rfl
  · unfold readAux at h
    cases hq : d.value <;> rw [hq] at h
    · cases h; rfl
    · dsimp only at h
      split at h
      · cases h; rfl
      · split at h <;> cases h; rfl
  · unfold readCode at h
    cases hq : d.value <;> rw [hq] at h
    · cases h; rfl
    · dsimp only at h
      split at h <;> cases h; rfl
  · cases h; rfl

omit [LinearOrder K] [FloorRing K] in
theorem readWord_notAux {c : Cfg K} {d : Dec} (hg : d.word ≠ c!"M") {x : Act K} (h : readWord c d = .ok x) :
    m6Of x = false := by
  unfold readWord at h
  split_ifs at h
  · unfold readVal at h
    split at h
    · cases h; rfl
    · cases hq : stodE (valText d) <;> rw [hq] at h <;> cases h; rfl
  · unfold readTool at h
    cases hq : d.value <;> rw [hq] at h
    · cases h; rfl
    · dsimp only at h; split at h <;> cases h <;> rfl
  · unfold readFeed at h
    split at h
    · cases h; rfl
    · cases hq : stodE (feedText d) <;> rw [hq] at h <;> cases h; rfl
  · unfold readFeed at h
    split at h
    · cases h; rfl
    · cases hq : stodE (feedText d) <;> rw [hq] at h <;> cases h; rfl
  · unfold readCode at h
    cases hq : d.value <;> rw [hq] at h
    · cases h; rfl
    · dsimp only at h
      split at h <;> cases h; rfl
  · cases h; rfl

omit [LinearOrder K] [FloorRing K] in
theorem readWord_m6 {c : Cfg K} (hc : AxesOk c) {d : Dec} {x : Act K} (h : readWord c d = .ok x) :
    m6Of x = true ↔ (d.word = c!"M" ∧ code d = some 6 ∧ d.dot = none ∧ d.value2 = none) := by
  by_cases hg : d.word = c!"M"
  · rw [readWord_aux_of hc hg] at h
    unfold readAux at h
    unfold code
    cases hq : d.value with
    | none => rw [hq] at h; cases h; simp [m6Of]
    | some v =>
      rw [hq] at h
      dsimp only at h ⊢
      split at h
      · rename_i h1
        cases h
        constructor
        · intro e; cases e
        · rintro ⟨_, _, e1, e2⟩
          rw [e1, e2] at h1
          simp at h1
      · rename_i h1
        unfold stoiE at h
        cases hs : stoi v with
        | throw e => rw [hs] at h; cases h
        | ub => rw [hs] at h; cases h
        | ok n =>
          rw [hs] at h
          cases h
          dsimp only [m6Of]
          rw [decide_eq_true_iff]
          rw [not_or, Option.not_isSome_iff_eq_none, Option.not_isSome_iff_eq_none] at h1
          constructor
          · intro e; exact ⟨hg, by rw [e], h1.1, h1.2⟩
          · rintro ⟨_, e, _, _⟩; exact Option.some.inj e
  · rw [readWord_notAux hg h]
    constructor
    · intro e; cases e
    · intro e; exact absurd e.1 hg

omit [LinearOrder K] [FloorRing K] in
theorem visitAll_m6 {c : Cfg K} (hc : AxesOk c) {v : Vis K} {b : Block} (h : visitAll c {} b = .ok v) :
    v.m6 = true ↔ Exchange b := by
  have := visitAll_words (P := fun ds r => r.m6 = true ↔
      ∃ d ∈ ds, d.word = c!"M" ∧ code d = some 6 ∧ d.dot = none ∧ d.value2 = none) (by rfl) h [] (by simp) ?_ ?_ ?_
  · exact this
  · intro ds r d x _ hp hr
    rw [on_m6, Bool.or_eq_true, hp, readWord_m6 hc hr]
    constructor
    · rintro (⟨e, he, h1⟩ | h1)
      · exact ⟨e, List.mem_append_left _ he, h1⟩
      · exact ⟨d, List.mem_append_right _ (List.mem_singleton.mpr rfl), h1⟩
    · rintro ⟨e, he, h1⟩
      rcases List.mem_append.mp he with he | he
      · exact Or.inl ⟨e, he, h1⟩
      · rw [List.mem_singleton.mp he] at h1; exact Or.inr h1
  · intro ds r p m hp; exact hp
  · intro ds r hp; exact hp

omit [LinearOrder K] [FloorRing K] in
theorem visitAll_noTool {c : Cfg K} {v : Vis K} {b : Block} (hb : ∀ d ∈ words b, d.word ≠ c!"T")
    (h : visitAll c {} b = .ok v) : v.tools = [] := by
  refine visitAll_words (P := fun _ r => r.tools = []) (by rfl) h [] rfl ?_ ?_ ?_
  · intro ds r d x hm hp hr
    rw [on_tools, hp, readWord_notTool (hb d hm) hr]; rfl
  · intro ds r p m hp; exact hp
  · intro ds r hp; exact hp

omit [LinearOrder K] [FloorRing K] in
theorem visitAll_home {c : Cfg K} (hc : AxesOk c) {v : Vis K} {b : Block} (hb : PlainCodes b)
    (h : visitAll c {} b = .ok v) : (∀ y ∈ v.otherG, y = c!"28") ∧ (c!"28" ∈ v.otherG ↔ Home b) := by
  have := visitAll_words (P := fun ds r => (∀ y ∈ r.otherG, y = c!"28") ∧ (c!"28" ∈ r.otherG ↔
      ∃ d ∈ ds, d.word = c!"G" ∧ d.value = some c!"28" ∧ d.dot = none)) (by rfl) h [] (by simp) ?_ ?_ ?_
  · exact this
  · intro ds r d x hm hp hr
    rw [on_other]
    have key : (otherOf x = [] ∧ ¬ (d.word = c!"G" ∧ d.value = some c!"28" ∧ d.dot = none)) ∨
        (otherOf x = [c!"28"] ∧ (d.word = c!"G" ∧ d.value = some c!"28" ∧ d.dot = none)) := by
      by_cases hg : d.word = c!"G"
      · rcases hb d hm hg with ⟨n, hn, h1⟩ | ⟨h1, h2⟩
        · left
          rw [readWord_code_of hc hg] at hr
          constructor
          · rcases readCode_code hr with ⟨h2, rfl⟩ | ⟨m, t, h2, rfl⟩
            · rfl
            · rw [h1] at h2
              cases h2
              simp only [List.mem_cons, List.not_mem_nil, or_false] at hn
              rcases hn with rfl | rfl | rfl | rfl | rfl | rfl | rfl | rfl | rfl <;> rfl
          · rintro ⟨_, h3, _⟩
            unfold code at h1
            rw [h3] at h1
            have : n = 28 := by
              have e : (some 28 : Option Int) = some n := h1
              exact (Option.some.inj e).symm
            rw [this] at hn
            revert hn
            decide
        · right
          refine ⟨?_, hg, h1, h2⟩
          rw [readWord_code_of hc hg] at hr
          unfold readCode otherText at hr
          rw [h1, h2] at hr
          have hs : stoiE c!"28" = .ok 28 := rfl
          dsimp only at hr
          rw [hs] at hr
          cases hr
          rfl
      · left
        refine ⟨?_, fun e => hg e.1⟩
        have h0 := readWord_not_code hg hr
        cases x with
        | code k t => exact absurd rfl (h0 k t)
        | _ => rfl
    rcases key with ⟨h1, h2⟩ | ⟨h1, h2⟩
    · rw [h1, List.append_nil]
      refine ⟨hp.1, hp.2.trans ?_⟩
      constructor
      · rintro ⟨e, he, h3⟩; exact ⟨e, List.mem_append_left _ he, h3⟩
      · rintro ⟨e, he, h3⟩
        rcases List.mem_append.mp he with he | he
        · exact ⟨e, he, h3⟩
        · rw [List.mem_singleton.mp he] at h3; exact absurd h3 h2
    · rw [h1]
      constructor
      · intro y hy
        rcases List.mem_append.mp hy with hy | hy
        · exact hp.1 y hy
        · exact List.mem_singleton.mp hy
      · constructor
        · intro _; exact ⟨d, List.mem_append_right _ (List.mem_singleton.mpr rfl), h2⟩
        · intro _; exact List.mem_append_right _ (List.mem_singleton.mpr rfl)
  · intro ds r p m hp; exact hp
  · intro ds r hp; exact hp

theorem skipped_home (g : Int) (og : List Str) (h : ∀ y ∈ og, y = c!"28") (a : Str) :
    skipped g og a = (decide (a = c!"Z") && (isDrill g || isDrillQ g) || decide (a = c!"Q") || decide (a = c!"L")) := by
  unfold skipped
  cases hf : ignored.find? (fun e => e.1 == a) with
  | none => rw [Bool.or_false]
  | some e =>
    have hm : e ∈ ignored := List.mem_of_find?_eq_some hf
    have hd : ∀ e ∈ ignored, c!"28" ∉ e.2 := by decide
    have : (e.2.any (fun x => og.any (fun y => y == x))) = false := by
      rw [List.any_eq_false]
      intro x hx
      rw [Bool.not_eq_true, List.any_eq_false]
      intro y hy
      rw [h y hy]
      intro e'
      exact hd e hm ((beq_iff_eq.mp e').symm ▸ hx)
    dsimp only
    rw [this, Bool.or_false]

theorem position_source (F : Fns K) {c : Cfg K} (hc : WF c) (hx : AxesOk c) (inch : Inch) (line : Int) (b : Block)
    (p : St K × MacroMap ℚ) (hp : Inv p.1) (hb : PlainCodes b) (h : (evaluate F c inch line b p).2 = .ok ())
    (a : Str) (hq : a ≠ c!"Q" ∧ a ≠ c!"L")
    (hz : a = c!"Z" → (isDrill (evaluate F c inch line b p).1.1.g || isDrillQ (evaluate F c inch line b p).1.1.g) = false)
    (pt : VMap K) (hs : ∀ v, visitAll c {} b = .ok v → source c v p.1 = (pt, false)) (hne : b ≠ []) :
    pos (evaluate F c inch line b p).1.1 a = (pt.get a).or (pos p.1 a) := by
  rcases eval_positions hp.good (evaluate_eval F c inch line b p) with ⟨h', _⟩ | ⟨_, h1, h'⟩ | ⟨_, v, hv, h'⟩
  · exact absurd h h'
  · exact absurd h1 hne
  · have h2 := congrArg Prod.snd h'
    dsimp only at h2
    have hso := source_sorted hc hv p.1
    rw [hs v hv] at h2 hso
    unfold pos
    rw [h2, copyBack_range _ _ _ hso, skipped_home _ _ (visitAll_home hx hb hv).1]
    dsimp only
    cases pt.get a with
    | none => rfl
    | some x =>
      dsimp only
      rw [if_neg (by
        simp only [Bool.or_eq_true, Bool.and_eq_true, decide_eq_true_eq, not_or, not_and]
        refine ⟨⟨?_, hq.1⟩, hq.2⟩
        intro e
        have := hz e
        rw [Bool.or_eq_false_iff] at this
        rw [this.1, this.2]
        simp), getMap_rangeStep, newValue_cur, if_neg (by simp)]
      rfl

/-- **C25.** After a tool exchange by M6 every axis is at the tool exchange point, whatever the block's
other words say, or stays where it is if that point does not mention it. -/
theorem C25_exchange (F : Fns K) {c : Cfg K} (hc : WF c) (hx : AxesOk c) (ht : c.toolExchanges = false)
    (inch : Inch) (line : Int) (b : Block) (p : St K × MacroMap ℚ) (hp : Inv p.1) (hb : PlainCodes b)
    (he : Exchange b) (h : (evaluate F c inch line b p).2 = .ok ()) (a : Str) (hq : a ≠ c!"Q" ∧ a ≠ c!"L")
    (hz : a = c!"Z" → (isDrill (evaluate F c inch line b p).1.1.g || isDrillQ (evaluate F c inch line b p).1.1.g) = false) :
    pos (evaluate F c inch line b p).1.1 a = (c.exchange.get a).or (pos p.1 a) := by
  refine position_source F hc hx inch line b p hp hb h a hq hz c.exchange ?_ ?_
  · intro v hv
    unfold source atTool
    rw [ht, (visitAll_m6 hx hv).mpr he]
    rfl
  · rintro rfl
    obtain ⟨d, hd, _⟩ := he
    cases hd

/-- **C25.** After a return to the base point every axis is at that point, or stays where it is if
that point does not mention it. -/
theorem C25_home (F : Fns K) {c : Cfg K} (hc : WF c) (hx : AxesOk c)
    (inch : Inch) (line : Int) (b : Block) (p : St K × MacroMap ℚ) (hp : Inv p.1) (hb : PlainCodes b)
    (hh : Home b) (he : ¬ Exchange b) (ht : ∀ d ∈ words b, d.word ≠ c!"T")
    (h : (evaluate F c inch line b p).2 = .ok ()) (a : Str) (hq : a ≠ c!"Q" ∧ a ≠ c!"L")
    (hz : a = c!"Z" → (isDrill (evaluate F c inch line b p).1.1.g || isDrillQ (evaluate F c inch line b p).1.1.g) = false) :
    pos (evaluate F c inch line b p).1.1 a = (c.base.get a).or (pos p.1 a) := by
  refine position_source F hc hx inch line b p hp hb h a hq hz c.base ?_ ?_
  · intro v hv
    have h1 : v.m6 = false := by rw [Bool.eq_false_iff]; intro e; exact he ((visitAll_m6 hx hv).mp e)
    have h2 := visitAll_noTool ht hv
    have h3 : toolOf v = none := by unfold toolOf; rw [h2]; split <;> rfl
    unfold source atTool atBase
    rw [h1, h3, decide_eq_true ((visitAll_home hx hb hv).2.mpr hh)]
    simp
  · rintro rfl
    obtain ⟨d, hd, _⟩ := hh
    cases hd

end
end NC.Props
