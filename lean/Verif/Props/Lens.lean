import Verif.Spec.Lens
import Verif.ServerProofs
import Verif.Demo
import Mathlib.Tactic.Linarith

/-!
# C73: path and time lenses; C06 for a whole run of the server
-/

namespace NC.Props
open NC NC.Srv NC.Spec.Lens NC.Spec.Lines

variable {S G C σ : Type} {W : World S G C σ}

theorem segment_ok {s r : Str} (h : segment s = .ok r) : r = s := by
  unfold segment at h
  split at h
  · cases h; rfl
  · cases h

theorem part_ok {b : Bool} {s r : Str} (h : part b s = .ok r) : r = if b then s else [] := by
  unfold part at h
  cases b
  · cases h; rfl
  · exact segment_ok h

/-- One row shown or not. -/
theorem rowsText_cons (r : Row) (rs : List Row) : rowsText (r :: rs) =
    (if decide (1 / 100 ≤ r.amount) then c!" | " ++ r.label ++ c!" = " ++ r.value else []) ++ rowsText rs := by
  unfold rowsText
  by_cases h : 1 / 100 ≤ r.amount
  · rw [List.filter_cons_of_pos (by simpa using h), decide_eq_true h, if_pos rfl]; rfl
  · rw [List.filter_cons_of_neg (by simpa using h), decide_eq_false h, if_neg (by decide)]; rfl

theorem rowsText_nil : rowsText [] = [] := rfl

theorem lensText_ok {t : Totals} {wp wt fp ft : ℚ} {s : Str} (h : lensText t wp wt fp ft = .ok s) :
    s = rowsText (rows t fp ft wp wt) := by
  simp only [lensText, Out.bind_eq_ok] at h
  obtain ⟨a, ha, b, hb, c, hc, d, hd, e, he, f, hf, g, hg, h⟩ := h
  rw [part_ok ha, part_ok hb, part_ok hc, part_ok hd, part_ok he, part_ok hf, part_ok hg] at h
  cases h
  have hmin : decide ((1 : ℚ) / 100 ≤ min t.pTool (t.pTotal - t.pTool)) =
      (decide (tolerance ≤ t.pTool) && decide (tolerance ≤ t.pTotal - t.pTool)) := by
    rw [← Bool.decide_and]
    exact decide_eq_decide.mpr le_min_iff
  unfold rows
  rw [rowsText_cons, rowsText_cons, rowsText_cons, rowsText_cons, rowsText_cons, rowsText_cons, rowsText_cons,
    rowsText_nil]
  dsimp only
  rw [hmin]
  simp only [tolerance, List.append_assoc, List.append_nil]
  rfl

/-- The lenses of the lines to come, from running values. -/
def lensFrom : ℚ → ℚ → ℚ → ℚ → ℚ → List (Nat × Totals) → List (Nat × Str)
  | _, _, _, _, _, [] => []
  | prev, fp, ft, wp, wt, v :: vs =>
    if v.2.tTotal = prev then lensFrom prev fp ft wp wt vs
    else (v.1, rowsText (rows v.2 (fp + v.2.pFast) (ft + v.2.tFast) (wp + v.2.pWork) (wt + v.2.tWork))) ::
      lensFrom v.2.tTotal (fp + v.2.pFast) (ft + v.2.tFast) (wp + v.2.pWork) (wt + v.2.tWork) vs

/-- The changes of the lines to come. -/
def changesFrom : ℚ → List (Nat × Totals) → List (Nat × Totals)
  | _, [] => []
  | prev, v :: vs => if v.2.tTotal = prev then changesFrom prev vs else v :: changesFrom v.2.tTotal vs

theorem changes_from : ∀ (prev : ℚ) (vs : List (Nat × Totals)),
    (((prev :: vs.map (·.2.tTotal)).zip vs).filter (fun p => p.1 ≠ p.2.2.tTotal)).map (·.2) = changesFrom prev vs := by
  intro prev vs
  induction vs generalizing prev with
  | nil => rfl
  | cons v vs ih =>
    have := ih v.2.tTotal
    simp only [List.map_cons, List.zip_cons_cons, changesFrom]
    by_cases h : v.2.tTotal = prev
    · rw [if_pos h, List.filter_cons_of_neg (by simp [h]), ← h, ← this]
    · rw [if_neg h, List.filter_cons_of_pos (by simpa using fun e => h e.symm), List.map_cons, this]

theorem lensFrom_spec : ∀ (vs : List (Nat × Totals)) (prev fp ft wp wt : ℚ),
    (lensFrom prev fp ft wp wt vs).length = (changesFrom prev vs).length ∧
    ∀ i v, (changesFrom prev vs)[i]? = some v → (lensFrom prev fp ft wp wt vs)[i]? = some (v.1, rowsText (rows v.2
      (fp + total (·.pFast) ((changesFrom prev vs).take (i + 1))) (ft + total (·.tFast) ((changesFrom prev vs).take (i + 1)))
      (wp + total (·.pWork) ((changesFrom prev vs).take (i + 1))) (wt + total (·.tWork) ((changesFrom prev vs).take (i + 1))))) := by
  intro vs
  induction vs with
  | nil => intro prev fp ft wp wt; exact ⟨rfl, by intro i v h; simp [changesFrom] at h⟩
  | cons w vs ih =>
    intro prev fp ft wp wt
    by_cases h : w.2.tTotal = prev
    · simp only [lensFrom, changesFrom, if_pos h]
      exact ih prev fp ft wp wt
    · simp only [lensFrom, changesFrom, if_neg h]
      obtain ⟨hl, hi⟩ := ih w.2.tTotal (fp + w.2.pFast) (ft + w.2.tFast) (wp + w.2.pWork) (wt + w.2.tWork)
      refine ⟨by simp [hl], ?_⟩
      intro i v hv
      cases i with
      | zero =>
        simp only [List.getElem?_cons_zero, Option.some.injEq] at hv
        subst hv
        simp [total]
      | succ i =>
        rw [List.getElem?_cons_succ] at hv
        rw [List.getElem?_cons_succ, hi i v hv]
        simp [total, add_assoc]

theorem addLens_ok {a b : Acc} {n : Nat} {t : Totals} (h : addLens a n t = .ok b) :
    b.messages = a.messages ∧ ∀ vs, b.lenses ++ lensFrom b.prev b.fPath b.fTime b.wPath b.wTime vs =
      a.lenses ++ lensFrom a.prev a.fPath a.fTime a.wPath a.wTime ((n, t) :: vs) := by
  unfold addLens at h
  by_cases e : t.tTotal = a.prev
  · rw [if_pos e] at h
    cases h
    refine ⟨rfl, fun vs => ?_⟩
    simp only [lensFrom, if_pos e]
  · rw [if_neg e] at h
    simp only [Out.bind_eq_ok] at h
    obtain ⟨s, hs, h⟩ := h
    cases h
    refine ⟨rfl, fun vs => ?_⟩
    rw [lensText_ok hs]
    simp only [lensFrom, if_neg e, List.append_assoc, List.cons_append, List.nil_append]

theorem addMessage_fields (a : Acc) (b : Bool) (m : Str) : addMessage a b m =
    { a with messages := a.messages ++ if b then [] else [m] } := by
  cases b
  · rfl
  · simp [addMessage]

theorem parseLoop_ok : ∀ (ls : List Str) (s s' : σ) (a a' : Acc) (n : Nat), parseLoop W s a n ls = .ok (s', a') →
    ∃ rs vs, Rejects W.line s n ls s' rs ∧ Visits W.line s n ls s' vs ∧
      a'.messages = a.messages ++ rs.map (fun r => reword (r.1 + 1) r.2.1 r.2.2) ∧
      a'.lenses = a.lenses ++ if W.pathTime then
        lensFrom a.prev a.fPath a.fTime a.wPath a.wTime (vs.map (fun v => (v.1, W.totals v.2))) else [] := by
  intro ls
  induction ls with
  | nil =>
    intro s s' a a' n h
    cases h
    refine ⟨[], [], .done _ _, .done _ _, by simp, ?_⟩
    cases W.pathTime <;> simp [lensFrom]
  | cons l ls ih =>
    intro s s' a a' n h
    unfold parseLoop at h
    by_cases e : l = []
    · subst e
      rw [if_pos rfl] at h
      obtain ⟨rs, vs, hr, hv, hm, hl⟩ := ih s s' a a' (n + 1) h
      exact ⟨rs, vs, .blank hr, .blank hv, hm, hl⟩
    · rw [if_neg e] at h
      simp only [Out.bind_eq_ok] at h
      obtain ⟨⟨s1, b, m⟩, h1, a1, h2, h3⟩ := h
      obtain ⟨rs, vs, hr, hv, hm, hl⟩ := ih s1 s' a1 a' (n + 1) h3
      refine ⟨if b then rs else (n, l, m) :: rs, (n, s1) :: vs, ?_, .parsed e h1 hv, ?_, ?_⟩
      · cases b
        · exact .rejected e h1 hr
        · exact .accepted e h1 hr
      · have : a1.messages = a.messages ++ if b then [] else [reword (n + 1) l m] := by
          cases hp : W.pathTime <;> rw [hp] at h2
          · cases h2; rw [addMessage_fields]
          · rw [(addLens_ok h2).1, addMessage_fields]
        rw [hm, this]
        cases b <;> simp
      · rw [hl]
        cases hp : W.pathTime <;> rw [hp] at h2
        · cases h2
          rw [addMessage_fields]
          rfl
        · simp only [if_true]
          rw [(addLens_ok h2).2, addMessage_fields]
          rfl

/-- C73: a run of the server over a text parses every line that is not blank
once, in order, in the state the earlier lines left; when path and time are
calculated, a lens stands on exactly those lines after which the total time
differs from that after the line before, with the totals after that line and the
sums of the rapid and cutting parts so far; otherwise there are no lenses. -/
theorem C73_lenses {s : S} {g : G} {gc mc : C} {code : Str} {r : Parsed} (h : runCode W s g gc mc code = .ok r) :
    ∃ p s' vs, W.fresh s g gc mc = .ok p ∧ Visits W.line p 0 (splitLines code) s' vs ∧
      (W.pathTime = true → Lenses (vs.map (fun v => (v.1, W.totals v.2))) r.lenses) ∧
      (W.pathTime = false → r.lenses = []) ∧ r.macros = W.macros s' := by
  simp only [runCode, Out.bind_eq_ok] at h
  obtain ⟨p, hp, ⟨s', a⟩, ha, h⟩ := h
  cases h
  obtain ⟨rs, vs, -, hv, -, hl⟩ := parseLoop_ok _ _ _ _ _ _ ha
  refine ⟨p, s', vs, hp, hv, ?_, ?_, rfl⟩
  · intro e
    rw [e, if_pos rfl] at hl
    simp only [List.nil_append] at hl
    obtain ⟨h1, h2⟩ := lensFrom_spec (vs.map (fun v => (v.1, W.totals v.2))) 0 0 0 0 0
    simp only [← changes_from, zero_add] at h1 h2
    unfold Lenses changes
    dsimp only
    rw [hl]
    exact ⟨h1, h2⟩
  · intro e
    rw [hl, e]; rfl

/-- C06: the messages of a run of the server are one per rejected line, in
order, made from that line's number, text and message. -/
theorem C06_server_messages {s : S} {g : G} {gc mc : C} {code : Str} {r : Parsed} (h : runCode W s g gc mc code = .ok r) :
    ∃ p s' rs, W.fresh s g gc mc = .ok p ∧ Rejects W.line p 0 (splitLines code) s' rs ∧
      r.messages = rs.map (fun r => reword (r.1 + 1) r.2.1 r.2.2) := by
  simp only [runCode, Out.bind_eq_ok] at h
  obtain ⟨p, hp, ⟨s', a⟩, ha, h⟩ := h
  cases h
  obtain ⟨rs, vs, hr, -, hm, -⟩ := parseLoop_ok _ _ _ _ _ _ ha
  exact ⟨p, s', rs, hp, hr, hm⟩

/-- A server whose parser adds one second and ten units of rapid path for every
line that begins with `R`, half a second and one unit of cutting path for `C`. -/
def clockWorld : World Unit Unit Unit Totals where
  fresh _ _ _ _ := .ok ⟨0, 0, [], 0, 0, 0, 0, 0⟩
  line t _ l := .ok (
    if l.head? = some 'R' then { t with pTotal := t.pTotal + 10, pFast := 10, pWork := 0, tTotal := t.tTotal + 1, tFast := 1, tWork := 0 }
    else if l.head? = some 'C' then
      { t with pTotal := t.pTotal + 1, pFast := 0, pWork := 1, tTotal := t.tTotal + 1 / 2, tFast := 0, tWork := 1 / 2 }
    else { t with pFast := 0, pWork := 0, tFast := 0, tWork := 0 }, true, [])
  totals t := t
  macros _ := []
  pathTime := true
  defaults := ()
  readJson _ := none
  logging := false
  related _ := .null

/-- The lenses of a text with a blank line and a line without motion. -/
example : (match runCode clockWorld () () () () c!"R\n\nX\nC\nR" with | .ok r => r.lenses | _ => []) =
    [(0, c!" | Total path = 10.00 | Total time = 0:01.000 | Total rapid path = 10.00 | Total rapid time = 0:01.000"),
     (3, c!" | Total path = 11.00 | Total time = 0:01.500 | Total cut path = 1.00 | Total cut time = 0:00.500"),
     (4, c!" | Total path = 21.00 | Total time = 0:02.500 | Total rapid path = 20.00 | Total rapid time = 0:02.000")] := by
  decide +kernel

end NC.Props
