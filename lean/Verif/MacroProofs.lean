import Verif.Macro
import Verif.ExprProofs

/-! # Helper lemmas for the macro table, macro assignment and substitution -/

namespace NC

open NC.Spec

/-! ## Histories of recordings -/

/-- A recording as the code makes it: `emplace` (a macro assignment,
MacroEvaluator.cpp:102) or `insert_or_assign` (a system variable,
SystemMacroAssigner.cpp:52). -/
inductive Rec (V : Type) where
  | keep (id : Nat) (line : Int) (v : V)
  | set (id : Nat) (line : Int) (v : V)

/-- Run a history of recordings on a table. -/
def MacroMap.run {V : Type} (m : MacroMap V) (h : List (Rec V)) : MacroMap V :=
  h.foldl (fun m r => match r with
    | .keep id line v => m.emplace ⟨id, line⟩ v
    | .set id line v => m.assign ⟨id, line⟩ v) m

namespace MacroMap
variable {V : Type}

theorem run_append (m : MacroMap V) (h : List (Rec V)) (r : Rec V) :
    m.run (h ++ [r]) = match r with
      | .keep id line v => (m.run h).emplace ⟨id, line⟩ v
      | .set id line v => (m.run h).assign ⟨id, line⟩ v := by
  unfold run; rw [List.foldl_append]; rfl

theorem sorted_run {m : MacroMap V} (hs : m.Sorted) (h : List (Rec V)) : (m.run h).Sorted := by
  induction h using List.reverseRecOn with
  | nil => exact hs
  | append_singleton h r ih =>
    rw [run_append]
    cases r with
    | keep => exact sorted_emplace ih _ _
    | set => exact sorted_assign ih _ _

theorem valueAt_congr {m m' : MacroMap V} (hs : m.Sorted) (hs' : m'.Sorted) {id : Nat} {L : Int}
    (h : ∀ l, l ≤ L → m.get ⟨id, l⟩ = m'.get ⟨id, l⟩) : m.valueAt id L = m'.valueAt id L := by
  cases hv : m'.valueAt id L with
  | none =>
    rw [valueAt_eq_none hs]
    rw [valueAt_eq_none hs'] at hv
    intro l hl; rw [h l hl]; exact hv l hl
  | some v =>
    rw [valueAt_eq_some hs]
    rw [valueAt_eq_some hs'] at hv
    obtain ⟨l, h1, h2, h3⟩ := hv
    exact ⟨l, h1, by rw [h l h1]; exact h2, fun l' a b => by rw [h l' b]; exact h3 l' a b⟩

/-- An entry of the line itself is the one in effect. -/
theorem valueAt_of_get {m : MacroMap V} (hs : m.Sorted) {id : Nat} {L : Int} {v : V}
    (h : m.get ⟨id, L⟩ = some v) : m.valueAt id L = some v :=
  (valueAt_eq_some hs id L v).mpr ⟨L, le_rfl, h, fun l' a b => by omega⟩

/-- When nothing is recorded after `L`, the globally latest value is the one in effect at `L`. -/
theorem valueMax_eq {m : MacroMap V} (hs : m.Sorted) {L : Int} (hL : L ≤ 2147483647)
    (h : ∀ id l, L < l → m.get ⟨id, l⟩ = none) (id : Nat) : m.valueMax id = m.valueAt id L := by
  unfold valueMax
  cases hv : m.valueAt id L with
  | none =>
    rw [valueAt_eq_none hs] at hv ⊢
    intro l _
    by_cases hl : l ≤ L
    · exact hv l hl
    · exact h id l (by omega)
  | some v =>
    rw [valueAt_eq_some hs] at hv ⊢
    obtain ⟨l, h1, h2, h3⟩ := hv
    refine ⟨l, by omega, h2, fun l' a b => ?_⟩
    by_cases hl : l' ≤ L
    · exact h3 l' a hl
    · exact h id l' (by omega)

end MacroMap

namespace Macro

/-! ## Assignment blocks -/

/-- Text contributed by words after the equal sign. -/
def tailText (ds : List Dec) : Str := ds.flatMap (fun d => d.word ++ valText d)

theorem macRun_tail (ds : List Dec) : ∀ (n : Int) (t : Str),
    macRun ⟨n, true, t⟩ (ds.map Attr.dec) = .ok ⟨n, true, t ++ tailText ds⟩ := by
  induction ds with
  | nil => intro n t; simp [macRun, tailText]
  | cons d ds ih =>
    intro n t
    simp only [List.map_cons, macRun, macStep]
    simp only [Bool.true_eq_false, if_false, Out.bind_ok]
    rw [ih]
    simp [tailText]

/-- Outcome of the visitor on `#n = ...`. -/
theorem macRun_assign (a d0 : Dec) (ds : List Dec) (n : Nat) (hn : n ≤ 2147483647)
    (hw : a.word = c!"#") (hv : a.value = some (natStr n)) (h0 : d0.word = c!"=") :
    macRun {} (Attr.dec a :: Attr.dec d0 :: ds.map Attr.dec) =
      .ok ⟨n, true, valText d0 ++ tailText ds⟩ := by
  rw [macRun]
  have h1 : macStep {} (Attr.dec a) = .ok ⟨n, false, []⟩ := by
    simp [macStep, hw, hv, stoi_natStr hn]
  rw [h1, Out.bind_ok, macRun]
  have h2 : macStep ⟨n, false, []⟩ (Attr.dec d0) = .ok ⟨n, true, valText d0⟩ := by
    have : (n : Int) ≠ -1 := by omega
    simp [macStep, h0, this]
  rw [h2, Out.bind_ok, macRun_tail]

theorem E_head (e : E) : e.pr ≠ [] := by
  have hF : ∀ f : F, f.pr ≠ [] := by
    intro f
    cases f with
    | num ip fp h =>
      rw [F.pr]; unfold prNum; split
      · rename_i hf; subst hf; simpa using h
      · simp
    | br e => simp [F.pr]
    | mac f => simp [F.pr]
    | neg f => simp [F.pr]
    | pos f => simp [F.pr]
    | fn g e => simp [F.pr]
  have hT : ∀ t : T, t.pr ≠ [] := by
    intro t
    cases t with
    | one f => rw [T.pr]; exact hF f
    | bin t op f => rw [T.pr]; simp [hF f]
  cases e with
  | one t => rw [E.pr]; exact hT t
  | bin e op t => rw [E.pr]; simp [hT t]

theorem evaluate_assign (tr : Str → ℚ → Option ℚ) (m : MacroMap ℚ) (L : Int) (a d0 : Dec) (ds : List Dec)
    (n : Nat) (e : E) (v : ℚ) (hn : n ≤ 2147483647)
    (hw : a.word = c!"#") (hv : a.value = some (natStr n)) (h0 : d0.word = c!"=")
    (ht : valText d0 ++ tailText ds = e.pr)
    (he : e.val (Calc.spTr tr) m.valueMax = some v) :
    evaluate tr m L (Attr.dec a :: Attr.dec d0 :: ds.map Attr.dec) = .ok (m.emplace ⟨n, L⟩ v) := by
  unfold evaluate
  rw [macRun_assign a d0 ds n hn hw hv h0, ht]
  have h1 := (Calc.evalText_pr tr m e [] Calc.exprEnd_nil v).mpr he
  rw [List.append_nil] at h1
  have h2 : (n : Int) ≠ -1 := by omega
  simp [h2, E_head e, h1]

/-! ## System variables -/

theorem sorted_foldl_assign {V : Type} (ids : List Nat) (L : Int) (v : V) : ∀ {m : MacroMap V}, m.Sorted →
    (ids.foldl (fun m i => m.assign ⟨i, L⟩ v) m).Sorted := by
  induction ids with
  | nil => intro m h; exact h
  | cons i ids ih => intro m h; exact ih (MacroMap.sorted_assign h _ _)

theorem get_foldl_assign {V : Type} (ids : List Nat) (L : Int) (v : V) : ∀ {m : MacroMap V}, m.Sorted →
    ∀ k : MKey, (ids.foldl (fun m i => m.assign ⟨i, L⟩ v) m).get k =
      if k.line = L ∧ k.id ∈ ids then some v else m.get k := by
  induction ids with
  | nil => intro m h k; simp
  | cons i ids ih =>
    intro m h k
    rw [List.foldl_cons, ih (MacroMap.sorted_assign h _ _), MacroMap.get_assign h]
    obtain ⟨kid, kl⟩ := k
    by_cases h1 : kl = L ∧ kid ∈ ids
    · simp [h1]
    · by_cases h2 : kid = i ∧ kl = L
      · simp [h2]
      · simp only [MKey.mk.injEq, h2, if_false, h1]
        rw [if_neg]
        simp only [List.mem_cons]
        tauto

/-- The system variables of an address (empty for others). -/
def idsOf (w : Str) : List Nat :=
  match sysVars.find? (fun p => p.1 == w) with
  | some (_, ids) => ids
  | none => []

theorem sysStep_dec (L : Int) (m : MacroMap ℚ) (d : Dec) :
    sysStep L m (.dec d) = if idsOf d.word = [] then .ok m else
      (stod (plainText d)) >>= fun v => .ok ((idsOf d.word).foldl (fun m i => m.assign ⟨i, L⟩ v) m) := by
  unfold sysStep idsOf
  simp only
  cases h : sysVars.find? (fun p => p.1 == d.word) with
  | none => simp
  | some p =>
    obtain ⟨w, ids⟩ := p
    have hm := List.mem_of_find?_eq_some h
    have : ids ≠ [] := by
      intro h0; subst h0
      revert hm
      simp [sysVars]
    simp [this]

theorem sysStep_spec {L : Int} {m m' : MacroMap ℚ} (hs : m.Sorted) {d : Dec}
    (h : sysStep L m (.dec d) = .ok m') :
    m'.Sorted ∧ ∀ k, (k.line = L ∧ k.id ∈ idsOf d.word → ∃ v, stod (plainText d) = .ok v ∧ m'.get k = some v) ∧
      (¬ (k.line = L ∧ k.id ∈ idsOf d.word) → m'.get k = m.get k) := by
  rw [sysStep_dec] at h
  split at h
  · rename_i h0
    simp at h; subst h
    exact ⟨hs, fun k => ⟨fun hk => by rw [h0] at hk; simp at hk, fun _ => rfl⟩⟩
  · rw [Out.bind_eq_ok] at h
    obtain ⟨v, hv, h⟩ := h
    simp at h; subst h
    refine ⟨sorted_foldl_assign _ _ _ hs, fun k => ⟨fun hk => ⟨v, hv, ?_⟩, fun hk => ?_⟩⟩
    · rw [get_foldl_assign _ _ _ hs, if_pos hk]
    · rw [get_foldl_assign _ _ _ hs, if_neg hk]

theorem idsOf_disjoint {w w' : Str} {i : Nat} (h : i ∈ idsOf w) (h' : i ∈ idsOf w') : w = w' := by
  have key : ∀ w i, i ∈ idsOf w → ∃ p ∈ sysVars, p.1 = w ∧ i ∈ p.2 := by
    intro w i hi
    unfold idsOf at hi
    split at hi
    · rename_i a ids heq
      refine ⟨_, List.mem_of_find?_eq_some heq, ?_, hi⟩
      have := List.find?_some heq
      simpa using this
    · simp at hi
  obtain ⟨p, hp, rfl, h1⟩ := key w i h
  obtain ⟨q, hq, rfl, h2⟩ := key w' i h'
  have hall : ∀ p ∈ sysVars, ∀ q ∈ sysVars, ∀ i ∈ p.2, i ∈ q.2 → p.1 = q.1 := by decide
  exact hall p hp q hq i h1 h2

theorem sysRun_append (L : Int) (b1 : Block) : ∀ (m : MacroMap ℚ) (b2 : Block),
    sysRun L m (b1 ++ b2) = sysRun L m b1 >>= fun m' => sysRun L m' b2 := by
  induction b1 with
  | nil => intro m b2; simp [sysRun]
  | cons a b1 ih =>
    intro m b2
    simp only [List.cons_append, sysRun]
    cases sysStep L m a with
    | ok m' => simp [ih]
    | throw e => simp
    | ub => simp

theorem sysRun_sorted {L : Int} {b : Block} : ∀ {m m' : MacroMap ℚ}, m.Sorted → sysRun L m b = .ok m' → m'.Sorted := by
  induction b with
  | nil => intro m m' hs h; simp [sysRun] at h; subst h; exact hs
  | cons a b ih =>
    intro m m' hs h
    rw [sysRun, Out.bind_eq_ok] at h
    obtain ⟨m1, h1, h2⟩ := h
    refine ih ?_ h2
    cases a with
    | dec d => exact (sysStep_spec hs h1).1
    | str w v => simp [sysStep] at h1; subst h1; exact hs
    | chr w v => simp [sysStep] at h1; subst h1; exact hs

/-- Entries whose variable belongs to no decimal word of the block, or of other lines, are kept. -/
theorem sysRun_frame {L : Int} {b : Block} : ∀ {m m' : MacroMap ℚ}, m.Sorted → sysRun L m b = .ok m' →
    ∀ k : MKey, (k.line ≠ L ∨ ∀ d, Attr.dec d ∈ b → k.id ∉ idsOf d.word) → m'.get k = m.get k := by
  induction b with
  | nil => intro m m' hs h k _; simp [sysRun] at h; subst h; rfl
  | cons a b ih =>
    intro m m' hs h k hk
    rw [sysRun, Out.bind_eq_ok] at h
    obtain ⟨m1, h1, h2⟩ := h
    have hk' : (k.line ≠ L ∨ ∀ d, Attr.dec d ∈ b → k.id ∉ idsOf d.word) := by
      rcases hk with hk | hk
      · exact Or.inl hk
      · exact Or.inr (fun d hd => hk d (by simp [hd]))
    cases a with
    | dec d =>
      have hsp := sysStep_spec hs h1
      rw [ih hsp.1 h2 k hk']
      apply (hsp.2 k).2
      rcases hk with hk | hk
      · tauto
      · have := hk d (by simp); tauto
    | str w v => simp [sysStep] at h1; subst h1; exact ih hs h2 k hk'
    | chr w v => simp [sysStep] at h1; subst h1; exact ih hs h2 k hk'

/-! ## Plain numbers through `stod` -/

/-- `stod` of an optional sign and a printed number. -/
theorem stod_num (neg : Bool) (ip fp : List (Fin 10)) (h : ip ≠ [] ∨ fp ≠ []) :
    stod ((if neg then ['-'] else []) ++ prNum ip fp) =
      .ok (if neg then - numVal ip fp else numVal ip fp) := by
  have hu : (prNum ip fp).takeWhile isDig = ip.map dig ∧
      fracDigits ((prNum ip fp).dropWhile isDig) = fp.map dig := by
    unfold prNum
    by_cases hf : fp = []
    · subst hf
      have := Calc.takeWhile_digs ip [] (by simp)
      simp only [List.append_nil] at this
      simp [this.1, this.2, fracDigits]
    · rw [if_neg hf]
      have h1 := Calc.takeWhile_digs ip ('.' :: fp.map dig) (by intro c r h; simp at h; rw [← h.1]; decide)
      have h2 := Calc.takeWhile_digs fp [] (by simp)
      simp only [List.append_nil] at h2
      rw [h1.1, h1.2]; simp [h2.1, fracDigits]
  obtain ⟨c, r, hcr, hc⟩ := Calc.prNum_head ip fp h []
  rw [List.append_nil] at hcr
  have hsp : isSp c = false := by
    rcases hc with hc | rfl
    · exact isDig_not_sp hc
    · decide
  have hv : ∀ (x : Bool), (if (List.map dig ip : Str) = [] ∧ (List.map dig fp : Str) = [] then
      (.throw .invalidArgument : Out NumExc ℚ)
      else .ok (if x then -((readNat (ip.map dig) : ℚ) + (readNat (fp.map dig) : ℚ) / 10 ^ (fp.map dig).length)
        else ((readNat (ip.map dig) : ℚ) + (readNat (fp.map dig) : ℚ) / 10 ^ (fp.map dig).length))) =
      .ok (if x then -numVal ip fp else numVal ip fp) := by
    intro x
    rw [if_neg (by simp; tauto)]
    simp only [Calc.readNat_digs, numVal, List.length_map]
  obtain ⟨h1, h2⟩ := hu
  cases neg with
  | true =>
    unfold stod
    simp only [if_true, List.singleton_append]
    rw [show ('-' :: prNum ip fp).dropWhile isSp = '-' :: prNum ip fp from by
      simp [List.dropWhile, isSp], splitSign_minus]
    simp only [h1, h2]
    exact hv true
  | false =>
    unfold stod
    simp only [Bool.false_eq_true, if_false, List.nil_append]
    have hdw : (prNum ip fp).dropWhile isSp = prNum ip fp := by rw [hcr]; simp [hsp]
    rw [hdw, splitSign_other (by
      intro c' r' h
      rw [hcr] at h; simp at h
      rw [← h.1]
      rcases hc with hc | rfl
      · exact ⟨Calc.isDig_char hc _ (by decide), Calc.isDig_char hc _ (by decide)⟩
      · decide)]
    simp only [h1, h2]
    exact hv false

end Macro
end NC
