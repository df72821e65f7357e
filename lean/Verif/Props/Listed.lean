import Verif.Props.Server
import Verif.Spec.Listed

/-!
# C133: the problems listed are those of the present texts
-/

namespace NC.Props
open NC NC.Srv NC.Spec.Server NC.Spec.Listed NC.Demo

variable {S G C σ : Type} {W : World S G C σ}

/-- The descriptions of the variables can be read. -/
def Described (F : Files S G C) : Prop :=
  (F.userDesc = none ∨ ∃ d, F.userDesc = some (.good d)) ∧ ∃ d, F.macroDesc = .good d

theorem readMacros_described {F : Files S G C} (hD : Described F) {l : Bool} {md : MacroDesc} {e : Option Str}
    (h : readMacros l F.userDesc F.macroDesc = .ok (md, e)) : e = none := by
  obtain ⟨hu, b, hb⟩ := hD
  unfold readMacros at h
  rw [hb] at h
  rcases hu with hu | ⟨d, hu⟩ <;> rw [hu] at h <;> dsimp only at h <;> rw [Out.bind_eq_ok] at h <;>
    obtain ⟨r, -, h⟩ := h <;> cases h <;> rfl

theorem pushed_publication (u v : Str) (l : List Json) :
    pushed u (publication v l) = if v = u then some l else none := by
  have h1 : textAt [c!"method"] (publication v l) = some c!"textDocument/publishDiagnostics" := rfl
  have h2 : textAt [c!"params", c!"uri"] (publication v l) = some v := rfl
  have h3 : path [c!"params", c!"diagnostics"] (publication v l) = some (.arr l) := rfl
  unfold pushed
  rw [h1, h2, h3]
  by_cases h : v = u <;> simp [h]

theorem pushed_response (u : Str) (id : Int) (r : Json) : pushed u (response id r) = none := by
  have h1 : textAt [c!"method"] (response id r) = none := rfl
  unfold pushed
  rw [h1, if_neg (by simp)]

/-- Messages that give no text leave every list alone. -/
theorem silent_step {F : Files S G C} {st st' : Srv.St S G C} {d : Json} {o : List Json}
    (h : handle W F st d = .ok (st', o)) (he : ∀ v t, event d ≠ some (v, some t)) (u : Str) (cur : Option (List Json)) :
    o.foldl (relist u) cur = cur := by
  have one : ∀ id r, [response id r].foldl (relist u) cur = cur := by
    intro id r
    simp only [List.foldl, relist, pushed_response]
  cases handle_step h with
  | text _ _ h' => exact absurd h' (he _ _)
  | close => rfl
  | init => exact one _ _
  | completion _ _ h => obtain ⟨k, rfl⟩ := completion_ok h; exact one _ _
  | resolve _ h => obtain ⟨id, r, hi, rfl, rfl⟩ := resolve_ok h; exact one _ _
  | hover _ h => obtain ⟨_, _, _, id, r, -, -, -, hi, hh, rfl⟩ := hover_ok h; exact one _ _
  | lens _ h => obtain ⟨uri, id, h3, h4, -, rfl⟩ := codeLens_ok h; exact one _ _
  | lensResolve _ h =>
    simp only [codeLensResolve, Out.bind_eq_ok] at h
    obtain ⟨_, -, _, -, _, -, _, -, _, -, _, -, _, -, h⟩ := h
    cases h; exact one _ _
  | shutdown => exact one _ _
  | exit => rfl
  | quiet => rfl

/-- The list of a document follows the last text given for it. -/
theorem listed_follow (F : Files S G C) {s : S} {g : G} {gc mc : C} (hL : Loaded W F s g gc mc) (hD : Described F)
    (u : Str) : ∀ (ds : List Json) (st st' : Srv.St S G C) (outs : List (List Json)) (cur : Option Str)
      (list : Option (List Json)),
    (∀ d ∈ ds, Clean d) → run W st (ds.map (F, ·)) = .ok (st', outs) → Inv W F st →
    (match cur with
      | none => list = none
      | some t => ∃ r l, runCode W s g gc mc t = .ok r ∧ diagsOf (ε := Exc) r.messages = .ok l ∧
          list = some (l.map diagJson)) →
    (match ds.foldl (lastGiven u) cur with
      | none => outs.flatten.foldl (relist u) list = none
      | some t => ∃ r l, runCode W s g gc mc t = .ok r ∧ diagsOf (ε := Exc) r.messages = .ok l ∧
          outs.flatten.foldl (relist u) list = some (l.map diagJson)) := by
  intro ds
  induction ds with
  | nil => intro st st' outs cur list _ h _ hc; cases h; exact hc
  | cons d ds ih =>
    intro st st' outs cur list hcl h hI hc
    obtain ⟨s1, o, os, h1, h2, rfl⟩ := run_cons_ok h
    rw [List.flatten_cons, List.foldl_append]
    refine ih s1 st' os (lastGiven u cur d) _ (fun x hx => hcl x (List.mem_cons_of_mem _ hx)) h2 (handle_inv hL hI h1) ?_
    have quiet : (∀ v t, event d ≠ some (v, some t)) → lastGiven u cur d = cur ∧ o.foldl (relist u) list = list := by
      intro he
      refine ⟨?_, silent_step h1 he u list⟩
      unfold lastGiven
      split
      · rename_i v t hv; exact absurd hv (he v t)
      · rfl
    rcases step_contexts h1 (hcl d (by simp)) with ⟨v, t, p, r, he, -, -, -, hp⟩ | ⟨v, he, -⟩ | ⟨he, -⟩
    · obtain ⟨-, r, l, e, hr, hl, -, rfl, hn, hs⟩ := publish_inv hL hI hp
      have e0 : e = none := by
        by_cases hm : st.macroDesc = none
        · obtain ⟨md, hmd⟩ := hn hm
          exact readMacros_described hD hmd
        · exact hs hm
      subst e0
      unfold lastGiven
      rw [he]
      simp only [List.foldl, relist, pushed_publication]
      by_cases hv : v = u
      · simp only [hv, if_true]; exact ⟨r, l, hr, hl, rfl⟩
      · simp only [hv, if_false]; exact hc
    · obtain ⟨q1, q2⟩ := quiet (fun v' t hq => by rw [he] at hq; cases hq)
      rw [q1, q2]; exact hc
    · obtain ⟨q1, q2⟩ := quiet (fun v' t hq => by rw [he] at hq; cases hq)
      rw [q1, q2]; exact hc

/-- A document that is open has been given its present text last. -/
theorem lastText_of_latest (u : Str) : ∀ (ds : List Json) (a b : Option Str),
    (∀ t, a = some t → b = some t) → ∀ t, ds.foldl (update u) a = some t → ds.foldl (lastGiven u) b = some t := by
  intro ds
  induction ds with
  | nil => intro a b h t ht; exact h t ht
  | cons d ds ih =>
    intro a b h t ht
    refine ih (update u a d) (lastGiven u b d) ?_ t ht
    intro t' ht'
    unfold update at ht'
    unfold lastGiven
    cases he : event d with
    | none => rw [he] at ht'; exact h t' ht'
    | some p =>
      obtain ⟨v, x⟩ := p
      rw [he] at ht'
      dsimp only at ht'
      by_cases hv : v = u
      · rw [if_pos hv] at ht'
        subst ht'
        simp [hv]
      · rw [if_neg hv] at ht'
        cases x with
        | none => exact h t' ht'
        | some y => simp only [hv, if_false]; exact h t' ht'

/-- C133: in any two sessions in which a document has the same present text, the
editor lists the same problems for it, and has been given a list: earlier texts,
other documents and requests leave no trace. -/
theorem C133_present_partial (F : Files S G C) {s : S} {g : G} {gc mc : C} (hL : Loaded W F s g gc mc)
    (hD : Described F) (ds₁ ds₂ : List Json) (hcl₁ : ∀ d ∈ ds₁, Clean d) (hcl₂ : ∀ d ∈ ds₂, Clean d)
    {st₁ st₂ : Srv.St S G C} {o₁ o₂ : List (List Json)} (h₁ : run W {} (ds₁.map (F, ·)) = .ok (st₁, o₁))
    (h₂ : run W {} (ds₂.map (F, ·)) = .ok (st₂, o₂)) (u t : Str)
    (hu₁ : latest u ds₁ = some t) (hu₂ : latest u ds₂ = some t) :
    listed u o₁.flatten = listed u o₂.flatten ∧ listed u o₁.flatten ≠ none := by
  have a := listed_follow F hL hD u ds₁ {} st₁ o₁ none none hcl₁ h₁ .start rfl
  have b := listed_follow F hL hD u ds₂ {} st₂ o₂ none none hcl₂ h₂ .start rfl
  rw [lastText_of_latest u ds₁ none none (by simp) t hu₁] at a
  rw [lastText_of_latest u ds₂ none none (by simp) t hu₂] at b
  obtain ⟨r, l, hr, hl, a⟩ := a
  obtain ⟨r', l', hr', hl', b⟩ := b
  rw [hr] at hr'; cases hr'
  rw [hl] at hl'; cases hl'
  unfold listed
  rw [a, b]
  exact ⟨rfl, by simp⟩

/-- C133: nothing is listed for a document whose text was never given. -/
theorem C133_never_given (F : Files S G C) {s : S} {g : G} {gc mc : C} (hL : Loaded W F s g gc mc)
    (hD : Described F) (ds : List Json) (hcl : ∀ d ∈ ds, Clean d)
    {st : Srv.St S G C} {o : List (List Json)} (h : run W {} (ds.map (F, ·)) = .ok (st, o)) (u : Str)
    (hu : ∀ d ∈ ds, ∀ t, event d ≠ some (u, some t)) : listed u o.flatten = none := by
  have a := listed_follow F hL hD u ds {} st o none none hcl h .start rfl
  have : ∀ ds : List Json, (∀ d ∈ ds, ∀ t, event d ≠ some (u, some t)) → ds.foldl (lastGiven u) none = none := by
    intro ds
    induction ds with
    | nil => intro _; rfl
    | cons d ds ih =>
      intro hq
      rw [List.foldl_cons]
      have : lastGiven u none d = none := by
        unfold lastGiven
        split
        · rename_i v t hv
          by_cases hvu : v = u
          · subst hvu; exact absurd hv (hq d (by simp) t)
          · rw [if_neg hvu]
        · rfl
      rw [this]
      exact ih (fun x hx => hq x (List.mem_cons_of_mem _ hx))
  rw [this ds hu] at a
  exact a

/-- C133 fails for documents that were closed: whatever the files are, closing a
document takes nothing from the list the editor has for it. -/
theorem C133_violated_closed (ds : List (Files S G C × Json)) {st st' : Srv.St S G C} {o : List (List Json)}
    (F : Files S G C) (d : Json) (u : Str) (hd : event d = some (u, none)) {o' : List Json}
    (h : run W {} ds = .ok (st, o)) (h' : handle W F st d = .ok (st', o')) :
    run W {} (ds ++ [(F, d)]) = .ok (st', o ++ [o']) ∧ latest u (ds.map (·.2) ++ [d]) = none ∧
      listed u (o ++ [o']).flatten = listed u o.flatten := by
  refine ⟨?_, ?_, ?_⟩
  · have : ∀ (ds : List (Files S G C × Json)) (s0 : Srv.St S G C) (o : List (List Json)), run W s0 ds = .ok (st, o) →
        run W s0 (ds ++ [(F, d)]) = .ok (st', o ++ [o']) := by
      intro ds
      induction ds with
      | nil => intro s0 o hr; cases hr; simp [run, h']
      | cons e ds ih =>
        intro s0 o hr
        obtain ⟨F0, d0⟩ := e
        obtain ⟨s1, a, os, g1, g2, rfl⟩ := run_cons_ok hr
        rw [List.cons_append, run, g1, Out.bind_ok, ih s1 os g2]
        rfl
    exact this ds {} o h
  · unfold latest
    rw [List.foldl_append]
    simp [update, hd]
  · unfold listed
    rw [List.flatten_append, List.foldl_append]
    simp only [List.flatten_cons, List.flatten_nil, List.append_nil]
    exact silent_step h' (fun v t hq => by rw [hd] at hq; cases hq) u _

/-! ## Examples -/

/-- How many problems are listed for a document after a session. -/
def listedCount (F : Files Unit Unit Unit) (u : Str) (ds : List Json) : Option (Option Nat) :=
  match run w0 {} (ds.map (F, ·)) with
  | .ok (_, o) => some ((listed u o.flatten).map List.length)
  | _ => none

/-- Two sessions, of which one has seen much more, with the same text of `u`. -/
example : ∃ st₁ st₂ o₁ o₂, run w0 {} ((busy ++ [changed c!"u" c!"X1\n!a"]).map (files, ·)) = .ok (st₁, o₁) ∧
    run w0 {} ([opened c!"u" c!"X1\n!a"].map (files, ·)) = .ok (st₂, o₂) ∧
    listed c!"u" o₁.flatten = listed c!"u" o₂.flatten ∧ (listed c!"u" o₁.flatten).map List.length = some 1 := by
  refine ⟨_, _, _, _, rfl, rfl, ?_, by decide⟩
  refine (C133_present_partial files files_loaded ⟨.inl rfl, _, rfl⟩ (busy ++ [changed c!"u" c!"X1\n!a"])
    [opened c!"u" c!"X1\n!a"] ?_ ?_ rfl rfl c!"u" c!"X1\n!a" (by decide) (by decide)).1
  · intro d hd
    rw [List.mem_append] at hd
    rcases hd with hd | hd
    · exact busy_clean d hd
    · rw [List.mem_singleton] at hd
      subst hd
      intro a b h
      have : event (changed c!"u" c!"X1\n!a") = some (c!"u", some c!"X1\n!a") := rfl
      rw [this] at h
      cases h
      exact ⟨by decide, fun s hs => by cases hs; decide⟩
  · intro d hd
    rw [List.mem_singleton] at hd
    subst hd
    exact opened_clean (by decide) (by decide)

/-- The problem of a closed document stays listed, that of a mended one does not. -/
theorem C133_violated_closed_case :
    listedCount files c!"u" [opened c!"u" c!"!a", closed c!"u"] = some (some 1) ∧
    listedCount files c!"u" [opened c!"u" c!"!a", changed c!"u" c!"X1"] = some (some 0) ∧
    listedCount files c!"v" [opened c!"u" c!"!a", changed c!"u" c!"X1"] = some none := by decide

/-- C133 fails also for files that cannot be read: that the descriptions of the
variables are faulty is listed with the first text given, and gone with the next
one although nothing was mended. -/
theorem C133_violated_description :
    let F : Files Unit Unit Unit := { files with macroDesc := .bad [] c!"broken" }
    listedCount F c!"u" [opened c!"u" c!"X1"] = some (some 1) ∧
    listedCount F c!"u" [opened c!"u" c!"X1", changed c!"u" c!"X1"] = some (some 0) ∧
    listedCount F c!"u" [opened c!"v" c!"", opened c!"u" c!"X1"] = some (some 0) := by decide

end NC.Props
