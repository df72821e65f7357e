import Verif.AssignRead
import Verif.Props.Check

/-! # Checking words that mean nothing to the machine -/

namespace NC.Pipe
open NC NC.Message NC.Gram NC.Ver NC.AttrPath NC.Path NC.Spec.Verify NC.Spec.Survive NC.Spec.Check NC.Spec.Units

/-- A word that neither the machine nor the system variables know. -/
def Inert (axes : List Str) (w : Str) : Prop := w ∉ [c!"G", c!"M", c!"S", c!"T", c!"F"] ++ located axes ++ kept

section
variable {axes : List Str} {l : List Dec} (h : ∀ d ∈ l, Inert axes d.word)
include h

omit h in
theorem inert_ne {w u : Str} (hw : Inert axes w) (hu : u ∈ [c!"G", c!"M", c!"S", c!"T", c!"F"] ++ located axes ++ kept) : w ≠ u :=
  fun e => hw (e ▸ hu)

theorem inert_sys (line : Int) (m : MacroMap ℚ) : Macro.sysRun line m (l.map .dec) = .ok m := by
  induction l with
  | nil => rfl
  | cons d t ih =>
    have e : Macro.sysStep line m (.dec d) = .ok m := by
      unfold Macro.sysStep
      dsimp only
      rw [(kept_iff _).mpr (fun hk => h d (by simp) (by simp [hk]))]
    show (Macro.sysStep line m (.dec d) >>= fun m' => Macro.sysRun line m' (t.map .dec)) = _
    rw [e]
    exact ih (fun d hd => h d (by simp [hd]))

theorem inert_limit (lathe : Bool) (k : Limits) : limitRun lathe k (l.map .dec) = .ok () := by
  induction l with
  | nil => rfl
  | cons d t ih =>
    have hd := h d (by simp)
    have e : limitWord lathe k d = .ok () := by
      unfold limitWord
      cases d.value with
      | none => rfl
      | some v =>
        dsimp only
        rw [if_neg (inert_ne hd (by simp)), if_neg (inert_ne hd (by simp)), if_neg (inert_ne hd (by simp))]
    show limitRun lathe k (.dec d :: t.map .dec) = _
    unfold limitRun
    rw [e]
    exact ih (fun d hd => h d (by simp [hd]))

theorem inert_rot (op : Bool) (st : Rot) : rotRun op st (l.map .dec) = (st, none) := by
  induction l with
  | nil => rfl
  | cons d t ih =>
    have hd := h d (by simp)
    have e : rotWord op st d = (st, none) := by
      unfold rotWord
      rw [if_neg (inert_ne hd (by simp)), if_neg (fun x => inert_ne hd (by simp) x.1), if_neg (fun x => inert_ne hd (by simp) x.2.1)]
    show rotRun op st (.dec d :: t.map .dec) = _
    unfold rotRun
    rw [e]
    exact ih (fun d hd => h d (by simp [hd]))

theorem inert_groups (letter : Str) (hl : letter = c!"G" ∨ letter = c!"M") (gm : Groups) (m : MacroMap ℚ) (line : Int) (missing : Bool) (occ : Occ) :
    groupsRun letter gm m line missing occ (l.map .dec) = .ok () := by
  induction l with
  | nil => rfl
  | cons d t ih =>
    show groupsRun letter gm m line missing occ (.dec d :: t.map .dec) = _
    unfold groupsRun
    rw [if_pos (inert_ne (h d (by simp)) (by rcases hl with rfl | rfl <;> simp))]
    exact ih (fun d hd => h d (by simp [hd]))

theorem inert_same : sameWord c!"M" (l.map .dec) = .ok () := by
  unfold sameWord
  induction l with
  | nil => rfl
  | cons d t ih =>
    show sameWordRun c!"M" false (.dec d :: t.map .dec) = _
    unfold sameWordRun
    rw [if_neg (inert_ne (h d (by simp)) (by simp))]
    exact ih (fun d hd => h d (by simp [hd]))

theorem inert_select (u : Units) : selectRun u (l.map .dec) = (u, .ok ()) := by
  induction l with
  | nil => rfl
  | cons d t ih =>
    show selectRun u (.dec d :: t.map .dec) = _
    unfold selectRun
    rw [if_pos (inert_ne (h d (by simp)) (by simp))]
    exact ih (fun d hd => h d (by simp [hd]))

end

section
variable {S : Setup} {l : List Dec} (h : ∀ d ∈ l, Inert S.cfg.axes d.word)
include h

theorem inert_visit (b : Bool) : ∃ b', visitAll S.cfg ({ skip := b } : Vis ℚ) (l.map .dec) = .ok { skip := b' } := by
  induction l generalizing b with
  | nil => exact ⟨b, rfl⟩
  | cons d t ih =>
    have hd := h d (by simp)
    have e : ∃ b', visit S.cfg ({ skip := b } : Vis ℚ) (.dec d) = .ok { skip := b' } := by
      unfold visit
      dsimp only
      by_cases hs : d.word = c!"/"
      · exact ⟨true, by rw [if_pos hs]⟩
      · rw [if_neg hs]
        refine ⟨b, ?_⟩
        cases b with
        | true => rfl
        | false =>
          rw [if_neg (by simp)]
          have : readWord S.cfg d = .ok .nothing := by
            unfold readWord
            have hg : d.word ∉ gcodeParams S.cfg := fun hx => hd (by
              have : d.word ∈ located S.cfg.axes := hx
              simp [this])
            rw [if_neg hg, if_neg (inert_ne hd (by simp)), if_neg (inert_ne hd (by simp)), if_neg (inert_ne hd (by simp)),
              if_neg (inert_ne hd (by simp)), if_neg (inert_ne hd (by simp))]
          rw [this]
          rfl
    obtain ⟨b', e⟩ := e
    show ∃ b', visitAll S.cfg ({ skip := b } : Vis ℚ) (.dec d :: t.map .dec) = .ok { skip := b' }
    unfold visitAll
    rw [e]
    exact ih (fun d hd => h d (by simp [hd])) b'

/-- Such words are simulated like a comment. -/
theorem inert_evaluate (hp : S.cfg.palletWord ≠ c!"(") (hm : S.cfg.measureWord ≠ c!"(") (hne : l ≠ []) (inch : Inch) (line : Int) (v : Str) (s : St ℚ × MacroMap ℚ) :
    evaluate S.F S.cfg inch line (l.map .dec) s = evaluate S.F S.cfg inch line [.str c!"(" v] s := by
  obtain ⟨b', e⟩ := inert_visit h false
  have e' : visitAll S.cfg ({} : Vis ℚ) (l.map .dec) = .ok { skip := b' } := e
  have e2 : visitAll S.cfg ({} : Vis ℚ) [.str c!"(" v] = .ok {} := by
    unfold visitAll visit
    have h1 : isPallet S.cfg c!"(" v = false := by unfold isPallet; simp [Ne.symm hp]
    have h2 : isMeasure S.cfg c!"(" v = false := by unfold isMeasure; simp [Ne.symm hm]
    dsimp only
    rw [h1, h2]
    rfl
  unfold evaluate
  dsimp only
  rw [if_neg (by simpa using hne), if_neg (by simp), e', e2]
  dsimp only
  cases b' <;> rfl

/-- Such words are checked like a comment. -/
theorem inert_stage (hp : S.cfg.palletWord ≠ c!"(") (hm : S.cfg.measureWord ≠ c!"(") (hne : l ≠ []) (o : Options) (line : Int) (ok : Bool) (v : Str) (p : Parser) :
    systemStage S o line ok (l.map .dec) p = systemStage S o line ok [.str c!"(" v] p := by
  have last : ∀ p, lastStage S ok (l.map .dec) p = lastStage S ok [.str c!"(" v] p := by
    intro p
    unfold lastStage selected
    rw [inert_select h]
    rfl
  have path : ∀ p, pathStage S o line ok (l.map .dec) p = pathStage S o line ok [.str c!"(" v] p := by
    intro p
    unfold pathStage calculated
    rw [inert_evaluate h hp hm hne _ _ v]
    simp only [last]
  have group : ∀ p, groupStage S o line ok (l.map .dec) p = groupStage S o line ok [.str c!"(" v] p := by
    intro p
    unfold groupStage codeGroups
    rw [inert_groups h _ (.inl rfl), inert_same h, path]
    simp only [inert_groups h _ (.inr rfl)]
    rfl
  have ana : ∀ p, analysisStage S o line ok (l.map .dec) p = analysisStage S o line ok [.str c!"(" v] p := by
    intro p
    unfold analysisStage rotation
    rw [inert_limit h, inert_rot h]
    simp only [group]
    rfl
  unfold systemStage
  rw [inert_sys h]
  exact ana _

end

/-- When a comment is accepted, and what it leaves. -/
theorem comment_iff {S : Setup} {lg : Enums.ELanguage} (hl : S.lang = .known lg) (hp : S.cfg.palletWord ≠ c!"(") (hm : S.cfg.measureWord ≠ c!"(")
    (o : Options) (line : Int) (v : Str) (p q : Parser) :
    systemStage S o line true [.str c!"(" v] p = (q, .ok (true, none)) ↔
      (o.analysis = true → (rotCheck S.cfg.operatorRotation p.rot).2 = none) ∧
      (o.path = true → (Props.moved S p.units p.path [.str c!"(" v]).2 = .ok () ∧
        (o.zeroPoint = true → travelRun S.limits S.zero (ranges (Props.moved S p.units p.path [.str c!"(" v]).1.range) = .ok ())) ∧
      q = { p with rot := if o.analysis then (rotCheck S.cfg.operatorRotation p.rot).1 else p.rot, path := if o.path then (Props.moved S p.units p.path [.str c!"(" v]).1 else p.path } := by
  have e0 : Macro.sysRun line p.macros [.str c!"(" v] = .ok p.macros := rfl
  have e1 : ∀ r, rotation S.cfg.operatorRotation r [.str c!"(" v] = rotCheck S.cfg.operatorRotation r := fun r => rfl
  have e2 : limitRun S.lathe S.limits [.str c!"(" v] = .ok () := rfl
  have e3 : ∀ m : MacroMap ℚ, codeGroups m S.gcodes S.mcodes line [.str c!"(" v] false = .ok () := fun _ => rfl
  have e4 : sameWord c!"M" [.str c!"(" v] = .ok () := rfl
  have e5 : ∀ u, selectRun u [.str c!"(" v] = (u, .ok ()) := fun _ => rfl
  have ev : ∀ (s : St ℚ) (m : MacroMap ℚ), (evaluate S.F S.cfg (decide (p.units = .imperial)) line [.str c!"(" v] (s, m)).1.2 = m := by
    intro s m
    have e2 : visitAll S.cfg ({} : Vis ℚ) [.str c!"(" v] = .ok {} := by
      unfold visitAll visit
      have h1 : isPallet S.cfg c!"(" v = false := by unfold isPallet; simp [Ne.symm hp]
      have h2 : isMeasure S.cfg c!"(" v = false := by unfold isMeasure; simp [Ne.symm hm]
      dsimp only
      rw [h1, h2]
      rfl
    unfold evaluate
    dsimp only
    rw [if_neg (by simp), e2]
    rfl
  have ca : ∀ r : Rot, calculated S line [.str c!"(" v] { p with rot := r } =
      ({ p with rot := r, path := (Props.moved S p.units p.path [.str c!"(" v]).1 }, (Props.moved S p.units p.path [.str c!"(" v]).2) := by
    intro r
    obtain ⟨k1, k2⟩ := evaluate_alone S.F S.cfg (decide (p.units = .imperial)) line [.str c!"(" v] p.path p.macros
    unfold calculated Props.moved
    dsimp only
    rw [ev, k1, k2]
  have ps : ∀ r : Rot, pathStage S o line true [.str c!"(" v] { p with rot := r } = (q, .ok (true, none)) ↔
      (o.path = true → (Props.moved S p.units p.path [.str c!"(" v]).2 = .ok () ∧
        (o.zeroPoint = true → travelRun S.limits S.zero (ranges (Props.moved S p.units p.path [.str c!"(" v]).1.range) = .ok ())) ∧
      q = { p with rot := r, path := if o.path then (Props.moved S p.units p.path [.str c!"(" v]).1 else p.path } := by
    intro r
    rw [pathStage_iff hl, lastStage_iff hl, ca]
    unfold selected
    simp only [e5, true_and]
    cases o.path <;> rfl
  rw [systemStage_iff hl, e0]
  constructor
  · rintro ⟨m, ⟨⟩, h⟩
    rw [analysisStage_iff hl, groupStage_iff hl, e1] at h
    obtain ⟨h1, -, -, h2⟩ := h
    refine ⟨fun h => (h1 h).2, ?_⟩
    cases ha : o.analysis with
    | true => rw [ha] at h2; exact (ps _).mp h2
    | false => rw [ha] at h2; exact (ps p.rot).mp h2
  · rintro ⟨h1, h2⟩
    refine ⟨_, rfl, ?_⟩
    rw [analysisStage_iff hl, groupStage_iff hl, e1]
    refine ⟨fun h => ⟨e2, h1 h⟩, fun _ => e3 _, fun _ => e4, ?_⟩
    cases ha : o.analysis with
    | true => rw [ha] at h2; exact (ps _).mpr h2
    | false => rw [ha] at h2; exact (ps p.rot).mpr h2

end NC.Pipe
