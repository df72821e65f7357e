import Verif.SimMoved
import Verif.SimSimilar
import Verif.Props.SimDwell

/-!
# The simulation of programs for a part that lies elsewhere
-/

namespace NC.Mvd
open NC NC.Path NC.Ver NC.AttrPath NC.Spec.Sim NC.Props
open NC.Spec.Similar (threeAxes)
open NC.Spec.Moved (Shift Places Helical OffOrigin Dwell Blocks Told)

section
variable {K : Type} [Field K] [LinearOrder K] [IsStrictOrderedRing K] [FloorRing K] {d : Str → K} (hd : ∀ a, a ∉ threeAxes → d a = 0)

/-! ## The T word -/

omit [LinearOrder K] [IsStrictOrderedRing K] [FloorRing K] in
theorem mTimes_mv (c : Cfg K) (v : Vis K) (incr : Bool) (s : St K) : mTimes (mvC d c) (mvV d incr v) (mvS d s) = mvS d (mTimes c v s) := by
  unfold mTimes exchangeTimes
  dsimp only
  have key : ∀ (b : Prop) [Decidable b] (x : K) (s : St K), (if b then addTime x (mvS d s) else mvS d s) = mvS d (if b then addTime x s else s) := by
    intro b _ x s
    split <;> rfl
  have e1 : (if ¬ (mvC d c).toolExchanges = true ∧ (mvV d incr v).m6 = true then
      (if (mvC d c).autoMeasure = true then addTime (mvC d c).measureTime (addTime (mvC d c).exchangeTime (mvS d s)) else addTime (mvC d c).exchangeTime (mvS d s))
      else mvS d s) = mvS d (if ¬ c.toolExchanges = true ∧ v.m6 = true then
      (if c.autoMeasure = true then addTime c.measureTime (addTime c.exchangeTime s) else addTime c.exchangeTime s) else s) := by
    by_cases h : ¬ c.toolExchanges = true ∧ v.m6 = true
    · rw [if_pos h]
      refine (if_pos h).trans ?_
      exact key (c.autoMeasure = true) c.measureTime (addTime c.exchangeTime s)
    · rw [if_neg h]
      exact if_neg h
  rw [e1, key, key]
  rfl

omit [LinearOrder K] [IsStrictOrderedRing K] [FloorRing K] in
theorem fetchTool_mv (c : Cfg K) (s : St K) : fetchTool (mvC d c) (mvS d s) = mvS d (fetchTool c s) := by
  unfold fetchTool exchangeTimes
  dsimp only
  by_cases h : c.toolExchanges = true
  · rw [if_pos h, if_pos (show (mvC d c).toolExchanges = true from h)]
    by_cases h2 : c.autoMeasure = true
    · rw [if_pos h2, if_pos (show (mvC d c).autoMeasure = true from h2)]; rfl
    · rw [if_neg h2, if_neg (show ¬ (mvC d c).autoMeasure = true from h2)]; rfl
  · rw [if_neg h, if_neg (show ¬ (mvC d c).toolExchanges = true from h)]; rfl

/-- The state and the variables. -/
def mvPP (d : Str → K) (p : AttrPath.Part (St K × MacroMap ℚ)) : AttrPath.Part (St K × MacroMap ℚ) := ((mvS d p.1.1, p.1.2), p.2)

omit [Field K] [LinearOrder K] [IsStrictOrderedRing K] [FloorRing K] in
theorem tWithG_incr {v : Vis K} (h : tWithG v = none) : v.incr = none := by
  unfold tWithG at h
  cases hq : v.incr with
  | none => rfl
  | some x => rw [hq] at h; revert h; cases v.g <;> cases v.plane <;> cases v.ret <;> (intro h; cases h)

include hd in
omit [FloorRing K] in
theorem tAlone_mv (c : Cfg K) (v : Vis K) (s : St K) (h : v.incr.getD s.incr = true → Known s.range) :
    tAlone (mvC d c) (mvV d (v.incr.getD s.incr) v) (mvS d s) = mvP d (tAlone c v s) := by
  unfold tAlone
  by_cases ht : atTool c v = true
  · rw [if_pos ht]
    exact if_pos (show atTool (mvC d c) (mvV d (v.incr.getD s.incr) v) = true from ht)
  · rw [if_neg ht]
    refine (if_neg (show ¬ atTool (mvC d c) (mvV d (v.incr.getD s.incr) v) = true from ht)).trans ?_
    have e : tWithG (mvV d (v.incr.getD s.incr) v) = tWithG v := rfl
    rw [e]
    cases hn : tWithG v with
    | some n => rfl
    | none =>
      dsimp only
      have hi := tWithG_incr hn
      rw [hi] at h ⊢
      have := copySt_mv hd (incr := s.incr) v.otherG v.vals (s := s) h
      show (copySt s.incr v.otherG (mv (blk d s.incr) v.vals) (mvS d s), _) = _
      rw [this]
      rfl

omit [IsStrictOrderedRing K] [FloorRing K] [LinearOrder K] in
theorem fetch_fields (c : Cfg K) (s : St K) : (fetchTool c s).incr = s.incr ∧ (fetchTool c s).range = s.range := by
  unfold fetchTool exchangeTimes
  dsimp only
  split_ifs <;> exact ⟨rfl, rfl⟩

include hd in
omit [FloorRing K] in
theorem toolPart_mv (c : Cfg K) (line : Int) (v : Vis K) (p : St K × MacroMap ℚ) (h : v.incr.getD p.1.incr = true → Known p.1.range) :
    toolPart (mvC d c) line (mvV d (v.incr.getD p.1.incr) v) (mvS d p.1, p.2) = mvPP d (toolPart c line v p) := by
  unfold toolPart
  have e : toolOf (mvV d (v.incr.getD p.1.incr) v) = toolOf v := rfl
  rw [e]
  cases toolOf v with
  | none => rfl
  | some t =>
    dsimp only
    by_cases hx : c.toolExchanges = true ∨ v.m6 = true
    · rw [if_pos hx]
      refine (if_pos (show (mvC d c).toolExchanges = true ∨ (mvV d (v.incr.getD p.1.incr) v).m6 = true from hx)).trans ?_
      cases stodE t with
      | throw e => rfl
      | ub => rfl
      | ok q =>
        dsimp only
        have e1 : fetchTool (mvC d c) { storeTool (mvC d c) (mvS d p.1) with tool := t } = mvS d (fetchTool c { storeTool c p.1 with tool := t }) :=
          fetchTool_mv c { storeTool c p.1 with tool := t }
        rw [e1]
        obtain ⟨f1, f2⟩ := fetch_fields c { storeTool c p.1 with tool := t }
        have e2 : (fetchTool c { storeTool c p.1 with tool := t }).incr = p.1.incr := f1
        have e3 : (fetchTool c { storeTool c p.1 with tool := t }).range = p.1.range := f2
        have := tAlone_mv hd c v (fetchTool c { storeTool c p.1 with tool := t }) (by rw [e2, e3]; exact h)
        rw [e2] at this
        rw [this]
        rfl
    · rw [if_neg hx]
      refine (if_neg (show ¬ ((mvC d c).toolExchanges = true ∨ (mvV d (v.incr.getD p.1.incr) v).m6 = true) from hx)).trans ?_
      have e1 : fetchTool (mvC d c) (storeTool (mvC d c) (mvS d p.1)) = mvS d (fetchTool c (storeTool c p.1)) :=
        fetchTool_mv c (storeTool c p.1)
      rw [e1]
      obtain ⟨f1, f2⟩ := fetch_fields c (storeTool c p.1)
      have e2 : (fetchTool c (storeTool c p.1)).incr = p.1.incr := f1
      have e3 : (fetchTool c (storeTool c p.1)).range = p.1.range := f2
      have := tAlone_mv hd c v (fetchTool c (storeTool c p.1)) (by rw [e2, e3]; exact h)
      rw [e2] at this
      rw [this]
      rfl

/-- What the part of the T word keeps. -/
theorem toolPart_fields (c : Cfg K) (line : Int) (v : Vis K) (p : St K × MacroMap ℚ) (h : (toolPart c line v p).2 = .ok true) :
    (toolPart c line v p).1.1.incr = p.1.incr ∧ (toolPart c line v p).1.1.range = p.1.range ∧
      (toolPart c line v p).1.1.plane = p.1.plane ∧ (toolPart c line v p).1.1.g = p.1.g := by
  have hf : ∀ s : St K, (fetchTool c s).incr = s.incr ∧ (fetchTool c s).range = s.range ∧ (fetchTool c s).plane = s.plane ∧ (fetchTool c s).g = s.g := by
    intro s
    unfold fetchTool exchangeTimes
    dsimp only
    split_ifs <;> exact ⟨rfl, rfl, rfl, rfl⟩
  have ht : ∀ s : St K, (tAlone c v s).2 = .ok true → (tAlone c v s).1 = s := by
    intro s
    unfold tAlone
    split
    · intro _; rfl
    · split <;> intro h <;> cases h
  unfold toolPart at h ⊢
  cases hn : toolOf v with
  | none => exact ⟨rfl, rfl, rfl, rfl⟩
  | some t =>
    rw [hn] at h
    dsimp only at h ⊢
    split at h
    · rename_i h1
      rw [if_pos h1]
      cases hs : stodE t with
      | throw e => rw [hs] at h; cases h
      | ub => rw [hs] at h; cases h
      | ok q =>
        rw [hs] at h
        dsimp only at h ⊢
        rw [ht _ h]
        exact hf _
    · rename_i h1
      rw [if_neg h1]
      dsimp only at h ⊢
      rw [ht _ h]
      exact hf _

/-! ## A block -/

/-- Helices off the origin and cycles in level planes, for the block in force. -/
structure Fits (d : Str → K) (v : Vis K) (s : St K) : Prop where
  dwell : Dwells v
  clear : ∀ pl : Plane, ∀ x y, v.vals.get (axesOf pl).a1 = some x → v.vals.get (axesOf pl).a2 = some y → v.vals.get (axesOf pl).a3 ≠ none →
    (((v.vals.get c!"I").isSome ∧ (v.vals.get c!"J").isSome ∧ (v.vals.get c!"K").isSome) ∨ (v.vals.get c!"R").isSome) →
    if v.incr.getD s.incr then x = 0 ∧ y = 0 else ¬ (x = 0 ∧ y = 0) ∧ ¬ (x + d (axesOf pl).a1 = 0 ∧ y + d (axesOf pl).a2 = 0)
  deep : ∀ g, g = s.g ∨ g = 0 → (isDrill (v.g.getD g) = true ∨ isDrillQ (v.g.getD g) = true) → d (axesOf (v.plane.getD s.plane)).a3 = 0

include hd in
theorem afterTool_mv (F : Fns K) (c : Cfg K) (inch : Inch) (v : Vis K) (s : St K) (hk : v.incr.getD s.incr = true → Known s.range)
    (hf : Fits d v s) :
    afterTool F (mvC d c) inch (mvV d (v.incr.getD s.incr) v) (mvS d s) = mvP d (afterTool F c inch v s) := by
  unfold afterTool
  rw [dwell_mv hd v _ s hf.dwell]
  obtain ⟨x, hx⟩ := dwell_fields v s
  have e1 : (dwell v s).incr = s.incr := by rw [hx]; rfl
  have e2 : (dwell v s).range = s.range := by rw [hx]; rfl
  have e3 : (dwell v s).g = s.g := by rw [hx]; rfl
  have e4 : (dwell v s).plane = s.plane := by rw [hx]; rfl
  have hs := startPart_mv hd c v (dwell v s) (by rw [e1, e2]; exact hk)
  rw [e1] at hs
  rw [hs]
  have hg := startPart_fields c v (dwell v s)
  generalize startPart c v (dwell v s) = p at hg ⊢
  obtain ⟨s2, o⟩ := p
  cases o with
  | throw e => rfl
  | ub => rfl
  | ok b =>
    cases b with
    | false => rfl
    | true =>
      obtain ⟨g1, g2, g3, g4⟩ := hg rfl
      dsimp only at g1 g2 g3 g4
      rw [e1] at g1
      rw [e2] at g2
      rw [e3] at g4
      rw [e4] at g3
      show moveBlock F (mvC d c) inch _ (mvS d s2) = mvP d (moveBlock F c inch v s2)
      rw [← g1]
      refine moveBlock_mv hd F c inch v s2 (by rw [g1, g2]; exact hk) ?_ ?_
      · intro _ x y h1 h2 h3 h4
        have := hf.clear (v.plane.getD s2.plane) x y h1 h2 h3 h4
        rw [← g1] at this
        exact this
      · intro h
        have := hf.deep s2.g g4 h
        rw [← g3] at this
        exact this

include hd in
theorem evalVis_mv (F : Fns K) (c : Cfg K) (inch : Inch) (line : Int) (v : Vis K) (p : St K × MacroMap ℚ)
    (hk : v.incr.getD p.1.incr = true → Known p.1.range) (hf : Fits d v p.1) :
    evalVis F (mvC d c) inch line (mvV d (v.incr.getD p.1.incr) v) (mvS d p.1, p.2) =
      ((mvS d (evalVis F c inch line v p).1.1, (evalVis F c inch line v p).1.2), (evalVis F c inch line v p).2) := by
  unfold evalVis
  dsimp only
  rw [mTimes_mv]
  obtain ⟨x, hx⟩ := AttrPath.mTimes_fields c v p.1
  have hi : (mTimes c v p.1).incr = p.1.incr := by rw [hx]; rfl
  have hr : (mTimes c v p.1).range = p.1.range := by rw [hx]; rfl
  have hg : (mTimes c v p.1).g = p.1.g := by rw [hx]; rfl
  have hp : (mTimes c v p.1).plane = p.1.plane := by rw [hx]; rfl
  have ht := toolPart_mv hd c line v (mTimes c v p.1, p.2) (by dsimp only; rw [hi, hr]; exact hk)
  dsimp only at ht
  rw [hi] at ht
  rw [ht]
  have hfl := toolPart_fields c line v (mTimes c v p.1, p.2)
  generalize toolPart c line v (mTimes c v p.1, p.2) = t at hfl ⊢
  obtain ⟨⟨s2, m⟩, o⟩ := t
  cases o with
  | throw e => rfl
  | ub => rfl
  | ok b =>
    cases b with
    | false => rfl
    | true =>
      obtain ⟨g1, g2, g3, g4⟩ := hfl rfl
      dsimp only at g1 g2 g3 g4
      rw [hi] at g1
      rw [hr] at g2
      rw [hp] at g3
      rw [hg] at g4
      have := afterTool_mv hd F c inch v s2 (by rw [g1, g2]; exact hk)
        ⟨hf.dwell, by rw [g1]; exact hf.clear, by rw [g3, g4]; exact hf.deep⟩
      rw [g1] at this
      show ((((afterTool F (mvC d c) inch _ (mvS d s2)).1, m), finish (afterTool F (mvC d c) inch _ (mvS d s2)).2) : _ × _) = _
      rw [this]
      rfl

/-! ## What the visitor collects -/

/-- The outcome for the moved part. -/
def mvO (d : Str → K) (incr : Bool) : Out Exc (Vis K) → Out Exc (Vis K)
  | .ok v => .ok (mvV d incr v)
  | .throw e => .throw e
  | .ub => .ub

omit [LinearOrder K] [IsStrictOrderedRing K] [FloorRing K] in
include hd in
theorem on_mv (incr : Bool) (v : Vis K) (x : Act K) (h : ∀ w y, x = .val w y → w ∉ threeAxes) :
    Act.on (mvV d incr v) x = mvV d incr (Act.on v x) := by
  cases x with
  | val w y =>
    have e : y = y + blk d incr w := by unfold blk; rw [hd w (h w y rfl)]; simp
    show ({ v with vals := (mv (blk d incr) v.vals).put w y } : Vis K) = { v with vals := mv (blk d incr) (v.vals.put w y) }
    rw [← put_mv, ← e]
  | code k t => cases k <;> rfl
  | nothing => rfl
  | tool t => rfl
  | feed y => rfl
  | spindle y => rfl
  | aux a p m => rfl

omit [FloorRing K] [IsStrictOrderedRing K] in
theorem readWord_axis {c : Cfg K} {e : Dec} {w : Str} {y : K} (h : readWord c e = .ok (.val w y)) (hw : w ∈ threeAxes) : Places (.dec e) := by
  have h1 := readWord_value h (Sml.three_param c hw)
  have h2 : valOf w (.val w y : Act K) = some y := by unfold valOf; simp
  rw [h2] at h1
  by_cases hx : e.word = w
  · rw [if_pos hx] at h1
    refine ⟨e, rfl, by rw [hx]; exact hw, ?_⟩
    intro hn
    unfold value at h1
    rw [hn] at h1
    cases h1
  · rw [if_neg hx] at h1; cases h1

variable {S : Shift K}

omit [FloorRing K] [IsStrictOrderedRing K] in
theorem visit_mv {c : Cfg K} {incr : Bool} (v : Vis K) {a a' : Attr} (h : Spec.Moved.Word S incr a a') :
    visit (mvC S.by' c) (mvV S.by' incr v) a' = mvO S.by' incr (visit c v a) := by
  show visit c (mvV S.by' incr v) a' = _
  cases h with
  | axis e e' x h1 h2 h3 h4 =>
    have h5 : e'.word ∈ threeAxes := by rw [h2]; exact h1
    have r1 := Sml.read_value (Sml.three_param c h1) h3
    have r2 := Sml.read_value (Sml.three_param c h5) h4
    unfold visit
    dsimp only
    rw [if_neg (Sml.three_ne_slash h1), if_neg (Sml.three_ne_slash h5), r1, r2]
    by_cases hs : v.skip = true
    · rw [if_pos hs]; exact if_pos hs
    · rw [if_neg hs]
      refine (if_neg hs).trans ?_
      show Out.ok (Act.on (mvV S.by' incr v) (.val e'.word _)) = .ok (mvV S.by' incr (Act.on v (.val e.word x)))
      rw [h2]
      congr 1
      show ({ v with vals := (mv (blk S.by' incr) v.vals).put e.word _ } : Vis K) = { v with vals := mv (blk S.by' incr) (v.vals.put e.word x) }
      rw [← put_mv]
      unfold blk
      cases incr <;> simp
  | same a hn =>
    cases a with
    | dec e =>
      unfold visit
      dsimp only
      by_cases hsl : e.word = c!"/"
      · rw [if_pos hsl, if_pos hsl]; rfl
      · rw [if_neg hsl, if_neg hsl]
        by_cases hs : v.skip = true
        · rw [if_pos hs]; exact if_pos hs
        · rw [if_neg hs]
          refine (if_neg hs).trans ?_
          cases hr : readWord c e with
          | throw e => rfl
          | ub => rfl
          | ok x =>
            dsimp only
            rw [on_mv S.only incr v x]
            · rfl
            · intro w y hx hw
              subst hx
              exact hn (readWord_axis hr hw)
    | str w s => rfl
    | chr w s => rfl

omit [FloorRing K] [IsStrictOrderedRing K] in
theorem visitAll_mv {c : Cfg K} {incr : Bool} {b b' : Block} (h : List.Forall₂ (Spec.Moved.Word S incr) b b') (v : Vis K) :
    visitAll (mvC S.by' c) (mvV S.by' incr v) b' = mvO S.by' incr (visitAll c v b) := by
  induction h generalizing v with
  | nil => rfl
  | cons hw _ ih =>
    rename_i a a' l l' hl
    unfold visitAll
    rw [visit_mv v hw]
    cases visit c v a with
    | ok r => exact ih r
    | throw e => rfl
    | ub => rfl

/-! ## The link with what is written -/

omit [LinearOrder K] [FloorRing K] [IsStrictOrderedRing K] in
/-- Whether an address is programmed does not depend on the numbers. -/
theorem programmed_none (b : Block) (a : Str) : (programmed b a : Option K) = none ↔ (programmed b a : Option ℚ) = none := by
  unfold programmed
  rw [List.getLast?_eq_none_iff, List.getLast?_eq_none_iff, List.filterMap_eq_nil_iff, List.filterMap_eq_nil_iff]
  have : ∀ e : Dec, (value e : Option K) = none ↔ (value e : Option ℚ) = none := by
    intro e
    unfold value
    cases Spec.Sim.number e <;> simp
  simp only [this]

omit [FloorRing K] [IsStrictOrderedRing K] in
theorem otherG_dwell {c : Cfg K} (hc : AxesOk c) {v : Vis K} {b : Block} (h : visitAll c {} b = .ok v)
    (ho : c!"04" ∈ v.otherG ∨ c!"4" ∈ v.otherG) : Dwell b := by
  have := visitAll_words (P := fun ds r => (c!"04" ∈ r.otherG ∨ c!"4" ∈ r.otherG) → ∃ e ∈ ds, e.word = c!"G" ∧ code e = some 4)
    (by rfl) h [] ?_ ?_ ?_ ?_
  · exact this ho
  · intro h; rcases h with h | h <;> cases h
  · intro ds r e x _ hp hr hin
    have lift : (c!"04" ∈ r.otherG ∨ c!"4" ∈ r.otherG) → ∃ e' ∈ ds ++ [e], e'.word = c!"G" ∧ code e' = some 4 := by
      intro h
      obtain ⟨e', h1, h2⟩ := hp h
      exact ⟨e', List.mem_append_left _ h1, h2⟩
    cases x with
    | code k t =>
      by_cases hg : e.word = c!"G"
      · cases k with
        | other =>
          have hin' : (c!"04" ∈ r.otherG ∨ c!"4" ∈ r.otherG) ∨ t = c!"04" ∨ t = c!"4" := by
            rcases hin with h | h
            · rcases List.mem_append.mp h with h | h
              · exact Or.inl (Or.inl h)
              · exact Or.inr (Or.inl (List.mem_singleton.mp h).symm)
            · rcases List.mem_append.mp h with h | h
              · exact Or.inl (Or.inr h)
              · exact Or.inr (Or.inr (List.mem_singleton.mp h).symm)
          rcases hin' with h | h
          · exact lift h
          · refine ⟨e, List.mem_append_right _ (List.mem_singleton.mpr rfl), hg, ?_⟩
            rw [readWord_code_of hc hg] at hr
            unfold readCode at hr
            unfold code
            cases hq : e.value with
            | none => rw [hq] at hr; cases hr
            | some w =>
              rw [hq] at hr
              dsimp only at hr ⊢
              cases hs : stoiE w with
              | throw e => rw [hs] at hr; cases hr
              | ub => rw [hs] at hr; cases hr
              | ok n =>
                rw [hs] at hr
                have hr2 : Act.code (gKind n) (otherText w e) = (.code .other t : Act K) := Out.ok.inj hr
                obtain ⟨hk, ht⟩ : gKind n = .other ∧ otherText w e = t := by
                  injection hr2 with h1 h2
                  exact ⟨h1, h2⟩
                have hw : w = t := by
                  unfold otherText at ht
                  split at ht
                  · rename_i p v2 _ h3
                    exfalso
                    cases w with
                    | nil => exact absurd hs (by unfold stoiE; rw [show stoi [] = .throw .invalidArgument from rfl]; simp)
                    | cons a w =>
                      cases w with
                      | nil =>
                        rcases h with h | h
                        · rw [h] at ht
                          have ha : a = '0' := (List.cons.inj ht).1
                          rw [ha] at hs
                          have : n = 0 := by
                            have h0 : stoiE ['0'] = .ok 0 := by decide
                            rw [h0] at hs
                            exact (Out.ok.inj hs).symm
                          rw [this] at hk
                          revert hk; decide
                        · rw [h] at ht
                          exact absurd (List.cons.inj ht).2 (by simp)
                      | cons a2 w =>
                        rcases h with h | h
                        · rw [h] at ht
                          exact absurd (List.cons.inj (List.cons.inj ht).2).2 (by simp)
                        · rw [h] at ht
                          exact absurd (List.cons.inj ht).2 (by simp)
                  · exact ht
                subst hw
                rcases h with h | h <;> rw [h] <;> decide
        | plane p => exact lift hin
        | motion n => exact lift hin
        | perRev b => exact lift hin
        | css b => exact lift hin
        | ret x => exact lift hin
        | incr b => exact lift hin
      · exact absurd rfl (readWord_not_code hg hr k t)
    | nothing => exact lift hin
    | val w y => exact lift hin
    | tool t => exact lift hin
    | feed y => exact lift hin
    | spindle y => exact lift hin
    | aux a p m => exact lift hin
  · intro ds r p m hp; exact hp
  · intro ds r hp; exact hp

/-- Cycles are not moved in depth: there are none, or the part is moved in the plane G17. -/
def Flat (d : Str → K) (b : Block) (s : St K) : Prop :=
  ((∀ n ∈ groupCodes 1 b, n ∉ Spec.Moved.cycles) ∧ s.g ∉ Spec.Moved.cycles) ∨
    (d c!"Z" = 0 ∧ (∀ n ∈ groupCodes 2 b, n = 17) ∧ s.plane = .xy)

theorem drill_cycle (g : Int) : (isDrill g = true ∨ isDrillQ g = true) ↔ g ∈ Spec.Moved.cycles := by
  unfold isDrill isDrillQ Spec.Moved.cycles
  simp only [decide_eq_true_eq, List.mem_cons, List.not_mem_nil, or_false]
  tauto

theorem cycles_zero : (0 : Int) ∉ Spec.Moved.cycles := by decide

omit [FloorRing K] [IsStrictOrderedRing K] in
theorem plane_xy {c : Cfg K} (hc : AxesOk c) {v : Vis K} {b : Block} (h : visitAll c {} b = .ok v) (hb : ∀ n ∈ groupCodes 2 b, n = 17)
    {pl : Plane} (hp : pl = .xy) : v.plane.getD pl = .xy := by
  have e : v.plane.map planeNum = (groupCodes 2 b).getLast? := visitAll_group hc h 2 (by decide)
  cases hv : v.plane with
  | none => exact hp
  | some q =>
    rw [hv] at e
    have := hb (planeNum q) (List.mem_of_getLast? e.symm)
    cases q
    · rfl
    · cases this
    · cases this

omit [FloorRing K] [IsStrictOrderedRing K] in
theorem fits_of {c : Cfg K} (hc : AxesOk c) {v : Vis K} {b b' : Block} {s : St K} (h : visitAll c {} b = .ok v)
    (hb : Blocks S (incremental b s.incr) b b') (hf : Flat S.by' b s) : Fits S.by' v s := by
  have hin : v.incr.getD s.incr = incremental b s.incr := by
    unfold incremental
    rw [visitAll_incr hc h]
  have h' : visitAll (mvC S.by' c) {} b' = .ok (mvV S.by' (incremental b s.incr) v) := by
    have := visitAll_mv (c := c) hb.words {}
    rw [h] at this
    exact this
  have three : ∀ pl : Plane, (axesOf pl).a1 ∈ threeAxes ∧ (axesOf pl).a2 ∈ threeAxes ∧ (axesOf pl).a3 ∈ threeAxes ∧
      (axesOf pl).a1 ≠ (axesOf pl).a2 ∧ ∀ a ∈ threeAxes, a = (axesOf pl).a1 ∨ a = (axesOf pl).a2 ∨ a = (axesOf pl).a3 := by
    intro pl; cases pl <;> decide
  refine ⟨?_, ?_, ?_⟩
  · intro ho
    rw [visitAll_vals h (Sml.three_param c (by decide))]
    exact (programmed_none b _).mpr (hb.dwell (otherG_dwell hc h ho))
  · intro pl x y hx hy hz hr
    obtain ⟨t1, t2, t3, t4, t5⟩ := three pl
    have cen : ∀ a ∈ ([c!"I", c!"J", c!"K", c!"R"] : List Str), v.vals.get a = programmed b a := by
      intro a ha
      refine visitAll_vals h ?_
      simp only [List.mem_cons, List.not_mem_nil, or_false] at ha
      rcases ha with rfl | rfl | rfl | rfl <;> simp [gcodeParams]
    have some' : ∀ a ∈ ([c!"I", c!"J", c!"K", c!"R"] : List Str), (v.vals.get a).isSome = true → (programmed b a : Option ℚ) ≠ none := by
      intro a ha h1 h2
      rw [cen a ha, (programmed_none b a).mpr h2] at h1
      cases h1
    have hH : Helical b := by
      refine ⟨?_, ?_⟩
      · intro a ha h1
        have h2 := (programmed_none (K := K) b a).mpr h1
        rw [← visitAll_vals h (Sml.three_param c ha)] at h2
        rcases t5 a ha with rfl | rfl | rfl
        · rw [hx] at h2; cases h2
        · rw [hy] at h2; cases h2
        · exact hz h2
      · rcases hr with ⟨r1, r2, r3⟩ | r
        · right
          intro a ha
          simp only [List.mem_cons, List.not_mem_nil, or_false] at ha
          rcases ha with rfl | rfl | rfl
          · exact some' _ (by simp) r1
          · exact some' _ (by simp) r2
          · exact some' _ (by simp) r3
        · left; exact some' _ (by simp) r
    obtain ⟨hi, o1, o2⟩ := hb.helix hH
    rw [hin, hi, if_neg (by simp)]
    rw [visitAll_vals h (Sml.three_param c t1)] at hx
    rw [visitAll_vals h (Sml.three_param c t2)] at hy
    refine ⟨?_, ?_⟩
    · rintro ⟨rfl, rfl⟩
      exact o1 _ t1 _ t2 t4 ⟨hx, hy⟩
    · rintro ⟨h1, h2⟩
      have e : ∀ a ∈ threeAxes, programmed b' a = (programmed b a).map (· + S.by' a) := by
        intro a ha
        rw [← visitAll_vals h' (Sml.three_param _ ha), ← visitAll_vals h (Sml.three_param c ha), hi]
        exact get_mv _ _ _
      refine o2 _ t1 _ t2 t4 ⟨?_, ?_⟩
      · rw [e _ t1, hx, Option.map_some, h1]
      · rw [e _ t2, hy, Option.map_some, h2]
  · intro g hg hdr
    rcases hf with ⟨h1, h2⟩ | ⟨h1, h2, h3⟩
    · exfalso
      rw [drill_cycle] at hdr
      cases hv : v.g with
      | none =>
        rw [hv] at hdr
        rcases hg with rfl | rfl
        · exact h2 hdr
        · exact cycles_zero hdr
      | some n =>
        rw [hv] at hdr
        have e : v.g = (groupCodes 1 b).getLast? := visitAll_group hc h 1 (by decide)
        rw [hv] at e
        exact h1 n (List.mem_of_getLast? e.symm) hdr
    · rw [plane_xy hc h h2 h3]
      exact h1

theorem evaluate_mv (F : Fns K) {c : Cfg K} (hc : AxesOk c) (inch : Inch) (line : Int) {b b' : Block} (p : St K × MacroMap ℚ)
    (hb : Blocks S (incremental b p.1.incr) b b') (hf : Flat S.by' b p.1) (hk : Known p.1.range) :
    evaluate F (mvC S.by' c) inch line b' (mvS S.by' p.1, p.2) =
      ((mvS S.by' (evaluate F c inch line b p).1.1, (evaluate F c inch line b p).1.2), (evaluate F c inch line b p).2) := by
  unfold evaluate
  dsimp only
  by_cases h0 : b = []
  · subst h0
    have : b' = [] := by cases hb.words; rfl
    rw [if_pos this, if_pos rfl]
    rfl
  · have : b' ≠ [] := by
      rintro rfl
      apply h0
      cases hb.words
      rfl
    rw [if_neg h0, if_neg this]
    have hv := visitAll_mv (c := c) hb.words {}
    have e0 : mvV S.by' (incremental b p.1.incr) ({} : Vis K) = {} := rfl
    rw [e0] at hv
    rw [hv]
    cases h : visitAll c {} b with
    | throw e => rfl
    | ub => rfl
    | ok v =>
      have hin : v.incr.getD p.1.incr = incremental b p.1.incr := by
        unfold incremental
        rw [visitAll_incr hc h]
      have := evalVis_mv S.only F c inch line v (clearMotions p.1, p.2) (fun _ => hk)
        (show Fits S.by' v (clearMotions p.1) from ⟨(fits_of hc h hb hf).1, (fits_of hc h hb hf).2, (fits_of hc h hb hf).3⟩)
      have e1 : (clearMotions p.1).incr = p.1.incr := rfl
      dsimp only at this
      rw [e1, hin] at this
      exact this

/-! ## The modes after a block -/

omit [FloorRing K] [IsStrictOrderedRing K] in
theorem circularFrom_goes (F : Fns K) (c : Cfg K) (v : Vis K) (cur : Cur K) (ax : Axes) (xp yp : K) (s : St K) :
    (circularFrom F c v cur ax xp yp s).2 ≠ .ok false := by
  have harc : ∀ (s : St K) (w : CW K), (arc F c cur ax s w).2 ≠ .ok false := by
    intro s w
    unfold arc
    dsimp only
    split <;> simp
  have key : ∀ p : CPart K, (arcStep F c cur ax p).2 ≠ .ok false := by
    intro p
    unfold arcStep
    split
    · split
      · exact harc _ _
      · simp
    · simp
    · simp
    · simp
  unfold circularFrom
  dsimp only
  split <;> exact key _

theorem motion_halts {F : Fns K} {c : Cfg K} {v : Vis K} {cur : Cur K} {s : St K} (hg : Good cur.g) (h : (motion F c v cur s).2 = .ok false) :
    v.g = none ∧ v.vals = [] := by
  unfold motion at h
  by_cases h1 : cur.g = 0 ∨ cur.g = 1
  · rw [if_pos h1] at h
    exfalso
    revert h
    unfold AttrPath.linear
    split
    · unfold linearAbs
      split
      · simp
      · simp
      · simp
      · split <;> simp
    · unfold linearIncr
      split
      · simp
      · split
        · simp
        · split <;> simp
  rw [if_neg h1] at h
  by_cases h2 : cur.g = 2 ∨ cur.g = 3
  · rw [if_pos h2] at h
    unfold circular at h
    by_cases h3 : v.g = none ∧ v.vals = []
    · exact h3
    · rw [if_neg h3] at h
      exfalso
      revert h
      dsimp only
      split
      · simp
      · simp
      · exact circularFrom_goes F c v cur _ _ _ _
  rw [if_neg h2] at h
  by_cases h3 : cur.g = 80
  · rw [if_pos h3] at h; cases h
  rw [if_neg h3] at h
  by_cases h4 : isDrill cur.g = true ∨ isDrillQ cur.g = true
  · rw [if_pos h4] at h
    unfold drilling at h
    by_cases h5 : v.g = none ∧ v.vals = []
    · exact h5
    · rw [if_neg h5] at h
      exfalso
      have hcy : (cyclePart F c v cur s).2 ≠ .ok false := by
        unfold cyclePart
        dsimp only
        split
        · simp
        · split
          · simp
          · split
            · simp
            · split
              · simp
              · split <;> simp
      have hho : ∀ s, (holePart F v cur s).2 ≠ .ok false := by
        intro s
        unfold holePart
        dsimp only
        split
        · simp
        · simp
        · split
          · simp
          · split
            · simp
            · split <;> simp
      generalize cyclePart F c v cur s = q at h hcy
      obtain ⟨s2, o⟩ := q
      cases o with
      | throw e => cases h
      | ub => cases h
      | ok x =>
        cases x with
        | false => exact hcy rfl
        | true => exact hho s2 h
  · exfalso
    rcases hg with h | h | h | h
    · exact h1 h
    · exact h2 h
    · exact h3 h
    · exact h4 h

/-- The modes after a block that does not fail. -/
theorem evaluate_modes {F : Fns K} {c : Cfg K} (hc : AxesOk c) {inch : Inch} {line : Int} {b : Block} {p : St K × MacroMap ℚ}
    (hi : Inv p.1) (hT : Told b) (h : (evaluate F c inch line b p).2 = .ok ()) :
    (evaluate F c inch line b p).1.1.incr = incremental b p.1.incr ∧
      ((∀ n ∈ groupCodes 1 b, n ∉ Spec.Moved.cycles) → p.1.g ∉ Spec.Moved.cycles → (evaluate F c inch line b p).1.1.g ∉ Spec.Moved.cycles) ∧
      ((∀ n ∈ groupCodes 2 b, n = 17) → p.1.plane = .xy → (evaluate F c inch line b p).1.1.plane = .xy) := by
  have he := evaluate_eval F c inch line b p
  rw [h] at he
  have hin : ∀ v, visitAll c {} b = .ok v → v.incr.getD p.1.incr = incremental b p.1.incr := by
    intro v hv
    unfold incremental
    rw [visitAll_incr hc hv]
  have hcur : ∀ v, visitAll c {} b = .ok v → (∀ n ∈ groupCodes 1 b, n ∉ Spec.Moved.cycles) → ∀ g, g ∉ Spec.Moved.cycles →
      v.g.getD g ∉ Spec.Moved.cycles := by
    intro v hv h1 g hg
    have e : v.g = (groupCodes 1 b).getLast? := visitAll_group hc hv 1 (by decide)
    cases hx : v.g with
    | none => exact hg
    | some n => rw [hx] at e; exact h1 n (List.mem_of_getLast? e.symm)
  generalize (evaluate F c inch line b p).1.1 = s' at *
  generalize ho : (Out.ok () : Out Exc Unit) = o at *
  cases he with
  | empty hb => subst hb; exact ⟨rfl, fun _ h => h, fun _ h => h⟩
  | unread e h => cases ho
  | unreadUb h => cases ho
  | alone v t hv ht ha hn =>
    rw [← hin v hv]
    rw [tWithG_incr hn]
    obtain ⟨x, hx⟩ := begun_addTime c v p.1
    rw [hx]
    have e : ∀ s : St K, (copySt (fetchTool c s).incr v.otherG v.vals (fetchTool c s)).incr = s.incr ∧
        (copySt (fetchTool c s).incr v.otherG v.vals (fetchTool c s)).g = s.g ∧
        (copySt (fetchTool c s).incr v.otherG v.vals (fetchTool c s)).plane = s.plane := by
      intro s
      unfold copySt fetchTool exchangeTimes
      dsimp only
      split_ifs <;> exact ⟨rfl, rfl, rfl⟩
    obtain ⟨e1, e2, e3⟩ := e (storeTool c (addTime x (clearMotions p.1)))
    rw [e1, e2, e3]
    exact ⟨rfl, fun _ h => h, fun _ h => h⟩
  | aloneErr v t n => cases ho
  | badTool v t e => cases ho
  | badToolUb v t => cases ho
  | before v hv ht ha hb2 hn hg2 hvg =>
    rw [← hin v hv]
    obtain ⟨x, hx⟩ := begun_addTime c v p.1
    obtain ⟨y, hy⟩ := dwell_fields v (begun c v p.1)
    rw [hy, hx]
    exact ⟨rfl, fun _ h => h, fun h1 h2 => plane_xy hc hv h1 h2⟩
  | halt v S M o hb hv ht hS hn hm hno =>
    have hr := ready_fields c v p.1
    rw [← hS] at hr
    dsimp only at hr
    have hof : o = .ok false := by
      cases o with
      | ok x => cases x with
        | false => rfl
        | true => exact absurd rfl hno
      | throw e => cases ho
      | ub => cases ho
    subst hof
    have hgood : Good (current v S).g := by
      show Good (v.g.getD S.g)
      cases hvg : v.g with
      | some n => exact visitAll_good (by intro g hg; cases hg) hv n hvg
      | none =>
        show Good S.g
        have hz : Good 0 := Or.inl (Or.inl rfl)
        rcases hr.2.1 with h | h
        · rcases hi.good with h2 | h2
          · cases ha : atTool c v with
            | false => exact absurd hvg (hn ⟨ha, by rw [h, h2]⟩)
            | true =>
              have : S.g = 0 := by
                rw [hS]
                unfold started
                split
                · rfl
                · rw [ha]; rfl
              rw [this]; exact hz
          · rw [h]; exact h2
        · rw [h]; exact hz
    obtain ⟨h1, h2⟩ := motion_halts hgood (by rw [hm])
    have hM := motion_only F c v (current v S) S
    rw [hm] at hM
    have hMf : s'.incr = S.incr ∧ s'.g = S.g ∧ s'.plane = S.plane := by
      obtain ⟨_, _, _, _, _, hM⟩ := hM
      dsimp only at hM
      rw [hM]
      exact ⟨rfl, rfl, rfl⟩
    have hnone : v.incr = none := by
      have e : v.incr.map incrNum = (groupCodes 3 b).getLast? := visitAll_group hc hv 3 (by decide)
      by_contra hne
      have h3 : groupCodes 3 b ≠ [] := by
        intro h0
        rw [h0] at e
        cases hq : v.incr with
        | none => exact hne hq
        | some x => rw [hq] at e; cases e
      rcases hT h3 with h4 | ⟨a, ha, h4⟩
      · have e1 : v.g = (groupCodes 1 b).getLast? := visitAll_group hc hv 1 (by decide)
        rw [h1] at e1
        exact h4 (List.getLast?_eq_none_iff.mp e1.symm)
      · apply h4
        rw [← programmed_none (K := K), ← visitAll_vals hv (Sml.three_param c ha), h2]
        rfl
    rw [hMf.1, hMf.2.1, hMf.2.2]
    refine ⟨?_, ?_, ?_⟩
    · rw [← hin v hv, hnone, hr.2.2.1]; rfl
    · intro _ hg
      rcases hr.2.1 with h | h
      · rw [h]; exact hg
      · rw [h]; exact cycles_zero
    · intro _ hp
      rw [hr.2.2.2.2.2.1]; exact hp
  | done v S M s2 o hb hv ht hS hn hm ha =>
    rw [← hin v hv]
    have hr := ready_fields c v p.1
    rw [← hS] at hr
    dsimp only at hr
    have fields : s'.incr = (current v S).incr ∧ s'.g = gAfter c (current v S).g ∧ s'.plane = (current v S).plane := by
      rw [account_eq] at ha
      cases hck : checks c (current v S) (counted F c inch (current v S) M) with
      | throw e => rw [hck] at ha; cases ha; cases ho
      | ub => rw [hck] at ha; cases ha; cases ho
      | ok u =>
        rw [hck] at ha; cases ha
        unfold savePositions
        split
        · exact ⟨rfl, rfl, rfl⟩
        · split <;> exact ⟨rfl, rfl, rfl⟩
    rw [fields.1, fields.2.1, fields.2.2]
    refine ⟨?_, ?_, ?_⟩
    · show v.incr.getD S.incr = _
      rw [hr.2.2.1]
    · intro h1 h2
      have h3 : (current v S).g ∉ Spec.Moved.cycles := by
        refine hcur v hv h1 S.g ?_
        rcases hr.2.1 with h | h
        · rw [h]; exact h2
        · rw [h]; exact cycles_zero
      unfold gAfter
      split
      · exact cycles_zero
      · exact h3
    · intro h1 h2
      exact plane_xy hc hv h1 (hr.2.2.2.2.2.1.trans h2)

/-! ## The start -/

theorem copyBack_fresh (g : Int) (og : List Str) {v : VMap K} (hv : v.Sorted) (p : VMap K × VMap (Rng K))
    (h : ∀ e ∈ v, p.2.get e.1 = none) : copyBack g true og v p = copyBack g false og v p := by
  induction v generalizing p with
  | nil => rfl
  | cons e t ih =>
    have hs := List.pairwise_cons.mp hv
    unfold copyBack
    by_cases hk : skipped g og e.1 = true
    · rw [if_pos hk, if_pos hk]
      exact ih hs.2 p (fun x hx => h x (List.mem_cons_of_mem _ hx))
    · rw [if_neg hk, if_neg hk]
      have e0 : ∀ incr, copyOne incr e.1 e.2 p = (p.1.put e.1 e.2, p.2.put e.1 ⟨e.2, e.2, e.2⟩) := by
        intro incr
        unfold copyOne
        rw [h e List.mem_cons_self]
        dsimp only
        split <;> rfl
      rw [e0, e0]
      refine ih hs.2 _ ?_
      intro x hx
      dsimp only
      rw [VMap.get_put, if_neg]
      · exact h x (List.mem_cons_of_mem _ hx)
      · intro h1
        have := hs.1 x hx
        rw [h1] at this
        exact lt_irrefl _ this

include hd in
theorem initial_mv {c : Cfg K} (hw : VMap.Sorted c.base) : initial (mvC d c) = mvS d (initial c) := by
  have hw' : VMap.Sorted (mv d c.base) := by
    unfold VMap.Sorted mv
    rw [List.pairwise_map]
    exact hw
  have key : ∀ s : St K, s.prev = [] → s.range = [] → copySt c.incr [] (mv d c.base) s = mvS d (copySt c.incr [] c.base s) := by
    intro s h1 h2
    have e : ∀ m : VMap K, VMap.Sorted m → copySt c.incr [] m s = copySt false [] m s := by
      intro m hm
      cases hi : c.incr with
      | false => rfl
      | true =>
        unfold copySt
        rw [copyBack_fresh s.g [] hm (s.prev, s.range) (by intro x _; dsimp only; rw [h2]; rfl)]
    rw [e _ hw, e _ hw', ← copySt_point hd]
    have : mvS d s = s := by
      obtain ⟨pa, ti, prev, tp, tt, range, f, sp, g, pl, ret, incr, css, pr, hx, tool, ar⟩ := s
      simp only at h1 h2
      subst h1 h2
      rfl
    rw [this]
  exact key _ rfl rfl

end
end NC.Mvd
