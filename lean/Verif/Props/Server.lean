import Verif.ServerProofs
import Verif.Props.Framing
import Verif.Demo

/-!
# The language server: C03, C04, C05, C57, C58
-/

namespace NC.Props
open NC NC.Srv NC.Spec.Server NC.Spec.Framing NC.Demo

variable {S G C σ : Type} {W : World S G C σ}

/-- Histories compose. -/
theorem run_cons_ok {st st' : Srv.St S G C} {F : Files S G C} {d : Json} {ds : List (Files S G C × Json)}
    {outs : List (List Json)} (h : run W st ((F, d) :: ds) = .ok (st', outs)) :
    ∃ s o os, handle W F st d = .ok (s, o) ∧ run W s ds = .ok (st', os) ∧ outs = o :: os := by
  rw [run, Out.bind_eq_ok] at h
  obtain ⟨⟨s, o⟩, h1, h⟩ := h
  rw [Out.bind_eq_ok] at h
  obtain ⟨⟨s', os⟩, h2, h⟩ := h
  cases h
  exact ⟨s, o, os, h1, h2, rfl⟩

/-! ## C03 -/

/-- The context of a document follows its latest text. -/
theorem contexts_follow (u : Str) : ∀ (ds : List (Files S G C × Json)) (st st' : Srv.St S G C)
    (outs : List (List Json)) (cur : Option Str), (∀ d ∈ ds, Clean d.2) → run W st ds = .ok (st', outs) →
    (find u st.contexts).map Ctx.lines = cur.map contentLines →
    (find u st'.contexts).map Ctx.lines = ((ds.map (·.2)).foldl (update u) cur).map contentLines := by
  intro ds
  induction ds with
  | nil => intro st st' outs cur _ h hc; cases h; exact hc
  | cons e ds ih =>
    obtain ⟨F, d⟩ := e
    intro st st' outs cur hcl h hc
    obtain ⟨s, o, os, h1, h2, rfl⟩ := run_cons_ok h
    refine ih s st' os (update u cur d) (fun x hx => hcl x (List.mem_cons_of_mem _ hx)) h2 ?_
    rcases step_contexts h1 (hcl (F, d) (by simp)) with ⟨v, t, p, r, he, -, -, hctx, -⟩ | ⟨v, he, -, -, hctx⟩ | ⟨he, -, -, hctx⟩
    · rw [hctx, find_replace]
      unfold update
      rw [he]
      by_cases hv : v = u
      · subst hv; simp
      · rw [if_neg (fun q : u = v => hv q.symm)]; simp only [hv, if_false]; exact hc
    · rw [hctx, find_eraseKey]
      unfold update
      rw [he]
      by_cases hv : v = u
      · subst hv; simp
      · rw [if_neg (fun q : u = v => hv q.symm)]; simp only [hv, if_false]; exact hc
    · rw [hctx]
      unfold update
      rw [he]
      exact hc

/-- With readable files, the context of a document is what its latest text gives. -/
theorem contexts_loaded (F : Files S G C) {s : S} {g : G} {gc mc : C} (hL : Loaded W F s g gc mc) (u : Str) :
    ∀ (ds : List Json) (st st' : Srv.St S G C) (outs : List (List Json)) (cur : Option Str),
    (∀ d ∈ ds, Clean d) → run W st (ds.map (F, ·)) = .ok (st', outs) → Inv W F st →
    (match cur with
      | none => find u st.contexts = none
      | some t => ∃ r, runCode W s g gc mc t = .ok r ∧ find u st.contexts = some ⟨contentLines t, r.macros, r.lenses⟩) →
    Inv W F st' ∧
    (match ds.foldl (update u) cur with
      | none => find u st'.contexts = none
      | some t => ∃ r, runCode W s g gc mc t = .ok r ∧ find u st'.contexts = some ⟨contentLines t, r.macros, r.lenses⟩) := by
  intro ds
  induction ds with
  | nil => intro st st' outs cur _ h hI hc; cases h; exact ⟨hI, hc⟩
  | cons d ds ih =>
    intro st st' outs cur hcl h hI hc
    obtain ⟨s1, o, os, h1, h2, rfl⟩ := run_cons_ok h
    refine ih s1 st' os (update u cur d) (fun x hx => hcl x (List.mem_cons_of_mem _ hx)) h2 (handle_inv hL hI h1) ?_
    rcases step_contexts h1 (hcl d (by simp)) with ⟨v, t, p, r, he, -, -, -, hp⟩ | ⟨v, he, -, -, hctx⟩ | ⟨he, -, -, hctx⟩
    · obtain ⟨-, r, ds', e, hr, -, hctx, -⟩ := publish_inv hL hI hp
      rw [hctx, find_replace]
      unfold update
      rw [he]
      by_cases hv : v = u
      · subst hv; simp only [if_true]; exact ⟨r, hr, rfl⟩
      · rw [if_neg (fun q : u = v => hv q.symm)]; simp only [hv, if_false]; exact hc
    · rw [hctx, find_eraseKey]
      unfold update
      rw [he]
      by_cases hv : v = u
      · subst hv; simp
      · rw [if_neg (fun q : u = v => hv q.symm)]; simp only [hv, if_false]; exact hc
    · rw [hctx]
      unfold update
      rw [he]
      exact hc

/-- C03: a document that was never opened, or was closed since, has no hover and
no lenses — whatever happened to other documents and whatever the files say. -/
theorem C03_closed_is_null (ds : List (Files S G C × Json)) (hcl : ∀ d ∈ ds, Clean d.2)
    {st : Srv.St S G C} {outs : List (List Json)} (h : run W {} ds = .ok (st, outs)) (u : Str)
    (hu : latest u (ds.map (·.2)) = none) (hn : ∀ c ∈ u, c.toNat ≠ 0) (F : Files S G C) (d : Json) (hd : docUri d = some u)
    (hm : method d = some c!"textDocument/hover" ∨ method d = some c!"textDocument/codeLens")
    {st' : Srv.St S G C} {o : List Json} (ha : handle W F st d = .ok (st', o)) :
    ∃ id, intAt [c!"id"] d = some id ∧ o = [response id .null] := by
  have hc : find u st.contexts = none := by
    have := contexts_follow u ds {} st outs none hcl h rfl
    unfold latest at hu
    rw [hu] at this
    simpa using this
  rcases hm with hm | hm
  · cases handle_step ha with
    | hover _ hh =>
      obtain ⟨line, ch, uri, id, r, -, -, h3, h4, h5, rfl⟩ := hover_ok hh
      rw [hd] at h3; cases h3
      refine ⟨id, h4, ?_⟩
      have : ctxFor st (Json.cstr u) line = none := by
        unfold ctxFor; rw [cstr_of_clean hn, hc]
      rw [this] at h5
      have e : hoverIn W F st none line ch = .ok (st, .null) := rfl
      rw [e] at h5; cases h5; rfl
    | quiet hq => exact absurd (by decide) (hq _ hm).1
    | text h' h'' => rw [hm] at h'; cases h'; exact absurd h'' (by decide)
    | _ h' => rw [hm] at h'; cases h'
  · cases handle_step ha with
    | lens _ hh =>
      obtain ⟨uri, id, h3, h4, -, rfl⟩ := codeLens_ok hh
      rw [hd] at h3; cases h3
      refine ⟨id, h4, ?_⟩
      rw [cstr_of_clean hn, hc]; rfl
    | quiet hq => exact absurd (by decide) (hq _ hm).1
    | text h' h'' => rw [hm] at h'; cases h'; exact absurd h'' (by decide)
    | _ h' => rw [hm] at h'; cases h'

/-- C03: the lenses shown for a document are those of its latest text, checked
from scratch. -/
theorem C03_lenses (F : Files S G C) {s : S} {g : G} {gc mc : C} (hL : Loaded W F s g gc mc) (ds : List Json)
    (hcl : ∀ d ∈ ds, Clean d) {st : Srv.St S G C} {outs : List (List Json)} (h : run W {} (ds.map (F, ·)) = .ok (st, outs))
    (u t : Str) (hu : latest u ds = some t) (hn : ∀ c ∈ u, c.toNat ≠ 0) (d : Json) (hd : docUri d = some u)
    (hm : method d = some c!"textDocument/codeLens") {st' : Srv.St S G C} {o : List Json}
    (ha : handle W F st d = .ok (st', o)) :
    ∃ id r, intAt [c!"id"] d = some id ∧ runCode W s g gc mc t = .ok r ∧
      o = [response id (if r.lenses = [] then .null else .arr (r.lenses.map (fun e =>
        .obj [(c!"range", makeRange e.1 0 0), (c!"command", .obj [(c!"title", .str e.2), (c!"command", .null)])])))] := by
  obtain ⟨-, hc⟩ := contexts_loaded F hL u ds {} st outs none hcl h .start rfl
  unfold latest at hu
  rw [hu] at hc
  obtain ⟨r, hr, hc⟩ := hc
  cases handle_step ha with
  | lens _ hh =>
    obtain ⟨uri, id, h3, h4, -, rfl⟩ := codeLens_ok hh
    rw [hd] at h3; cases h3
    refine ⟨id, r, h4, hr, ?_⟩
    rw [cstr_of_clean hn, hc]; rfl
  | quiet hq => exact absurd (by decide) (hq _ hm).1
  | text h' h'' => rw [hm] at h'; cases h'; exact absurd h'' (by decide)
  | _ h' => rw [hm] at h'; cases h'

theorem same_answers (F : Files S G C) {s : S} {g : G} {gc mc : C} (hL : Loaded W F s g gc mc)
    (ds₁ ds₂ : List Json) (hcl₁ : ∀ d ∈ ds₁, Clean d) (hcl₂ : ∀ d ∈ ds₂, Clean d)
    {st₁ st₂ : Srv.St S G C} {o₁ o₂ : List (List Json)} (h₁ : run W {} (ds₁.map (F, ·)) = .ok (st₁, o₁))
    (h₂ : run W {} (ds₂.map (F, ·)) = .ok (st₂, o₂)) (u : Str) (hn : ∀ c ∈ u, c.toNat ≠ 0)
    (hu : latest u ds₁ = latest u ds₂) (d : Json) (hd : docUri d = some u) :
    answer (hover W F st₁ d) = answer (hover W F st₂ d) ∧ answer (codeLens st₁ d) = answer (codeLens st₂ d) := by
  obtain ⟨i1, c1⟩ := contexts_loaded F hL u ds₁ {} st₁ o₁ none hcl₁ h₁ .start rfl
  obtain ⟨i2, c2⟩ := contexts_loaded F hL u ds₂ {} st₂ o₂ none hcl₂ h₂ .start rfl
  have hsame : find u st₁.contexts = find u st₂.contexts := by
    unfold latest at hu
    rw [hu] at c1
    cases hl : ds₂.foldl (update u) none with
    | none => rw [hl] at c1 c2; rw [c1, c2]
    | some t =>
      rw [hl] at c1 c2
      obtain ⟨r1, e1, c1⟩ := c1
      obtain ⟨r2, e2, c2⟩ := c2
      rw [e1] at e2; cases e2
      rw [c1, c2]
  have hmd : find u st₁.contexts ≠ none → st₁.macroDesc = st₂.macroDesc := by
    intro hne
    have ne1 : st₁.contexts ≠ [] := by intro q; rw [q] at hne; exact hne rfl
    have ne2 : st₂.contexts ≠ [] := by intro q; rw [hsame, q] at hne; exact hne rfl
    rcases i1.macroDesc with q | ⟨c, e, q, hr⟩
    · exact absurd q (i1.opened ne1)
    rcases i2.macroDesc with q2 | ⟨c2, e2, q2, hr2⟩
    · exact absurd q2 (i2.opened ne2)
    rw [hr] at hr2
    cases hr2
    rw [q, q2]
  have hcu : ∀ (x y : Json), x.get (ε := Exc) c!"textDocument" = .ok y → d.get (ε := Exc) c!"params" = .ok x →
      ∀ z, y.get (ε := Exc) c!"uri" = .ok z → z.getCStr (ε := Exc) = .ok u := by
    intro x y hx hdx z hz
    rw [get_ok] at hx hdx hz
    have : path [c!"params", c!"textDocument", c!"uri"] d = some z := path_cons.mpr ⟨x, hdx, path_cons.mpr ⟨y, hx, hz⟩⟩
    have hd' := textAt_eq.mp hd
    rw [this] at hd'
    cases hd'
    simp [Json.getCStr, Json.getStr, cstr_of_clean hn]
  have step : ∀ {α : Type} {x : Out Exc α} {f g : α → Out Exc (Srv.St S G C × List Json)},
      (∀ a, x = .ok a → answer (f a) = answer (g a)) → answer (x >>= f) = answer (x >>= g) := by
    intro α x f g h
    cases x with
    | ok a => exact h a rfl
    | throw e => rfl
    | ub => rfl
  constructor
  · unfold hover
    refine step fun x hx => step fun pos hpos => step fun jl _ => step fun line _ => step fun jc _ => step fun ch _ =>
      step fun y hy => step fun z hz => ?_
    rw [hcu x y hy hx z hz]
    refine step fun u' hu' => ?_
    cases hu'
    refine step fun ji _ => step fun id _ => ?_
    have hctx : ctxFor st₁ u line = ctxFor st₂ u line := by unfold ctxFor; rw [hsame]
    have hne : ctxFor st₁ u line ≠ none → st₁.macroDesc = st₂.macroDesc := by
      intro q
      refine hmd ?_
      intro q'
      apply q
      unfold ctxFor; rw [q']
    have := hoverIn_same (W := W) i1 i2 (ctxFor st₁ u line) hne line ch
    rw [← hctx]
    generalize hoverIn W F st₁ (ctxFor st₁ u line) line ch = a at this ⊢
    generalize hoverIn W F st₂ (ctxFor st₁ u line) line ch = b at this ⊢
    cases a with
    | ok a => cases b with
      | ok b =>
        simp only [Out.bind_ok, Out.ok.injEq] at this
        simp [answer, this]
      | _ => cases this
    | throw e => cases b with
      | throw e' => cases this; rfl
      | _ => cases this
    | ub => cases b with
      | ub => rfl
      | _ => cases this
  · unfold codeLens
    refine step fun x hx => step fun y hy => step fun z hz => ?_
    rw [hcu x y hy hx z hz]
    refine step fun u' hu' => ?_
    cases hu'
    refine step fun ji _ => step fun id _ => ?_
    rw [hsame]; rfl

theorem handle_of_method {F : Files S G C} {st : Srv.St S G C} {d : Json} {m : Str} (hm : method d = some m) :
    ∃ id, handle W F st d = dispatch W F st d id m ∧ idOf d = .ok id := by
  have hp := textAt_eq.mp hm
  cases d with
  | obj o =>
    have hid : ∃ id, idOf (.obj o) = .ok id := ⟨_, rfl⟩
    obtain ⟨id, hid⟩ := hid
    refine ⟨id, ?_, hid⟩
    have hmo : methodOf (.obj o) = .ok m := by
      simp only [path] at hp
      unfold methodOf Json.member?
      simp only [Out.bind_ok]
      cases ha : Json.assoc c!"method" o with
      | none => rw [ha] at hp; cases hp
      | some v => rw [ha] at hp; cases hp; rfl
    unfold handle
    rw [hid, hmo]; rfl
  | _ => simp [path] at hp

/-- C03: hover and lens requests are answered alike after any two histories
that leave the document with the same text. -/
theorem C03_same_answers (F : Files S G C) {s : S} {g : G} {gc mc : C} (hL : Loaded W F s g gc mc)
    (ds₁ ds₂ : List Json) (hcl₁ : ∀ d ∈ ds₁, Clean d) (hcl₂ : ∀ d ∈ ds₂, Clean d)
    {st₁ st₂ : Srv.St S G C} {o₁ o₂ : List (List Json)} (h₁ : run W {} (ds₁.map (F, ·)) = .ok (st₁, o₁))
    (h₂ : run W {} (ds₂.map (F, ·)) = .ok (st₂, o₂)) (u : Str) (hn : ∀ c ∈ u, c.toNat ≠ 0)
    (hu : latest u ds₁ = latest u ds₂) (d : Json) (hd : docUri d = some u)
    (hm : method d = some c!"textDocument/hover" ∨ method d = some c!"textDocument/codeLens") :
    answer (handle W F st₁ d) = answer (handle W F st₂ d) := by
  have := same_answers F hL ds₁ ds₂ hcl₁ hcl₂ h₁ h₂ u hn hu d hd
  rcases hm with hm | hm
  · obtain ⟨i1, e1, q1⟩ := handle_of_method (W := W) (F := F) (st := st₁) hm
    obtain ⟨i2, e2, q2⟩ := handle_of_method (W := W) (F := F) (st := st₂) hm
    rw [e1, e2]
    exact this.1
  · obtain ⟨i1, e1, q1⟩ := handle_of_method (W := W) (F := F) (st := st₁) hm
    obtain ⟨i2, e2, q2⟩ := handle_of_method (W := W) (F := F) (st := st₂) hm
    rw [e1, e2]
    exact this.2

/-! ## C04 -/

/-- C04 (part): as long as the process lives, every message of every history is
replied to as it should be.  Missing: that the process lives (see
`C04_violated_big_macro_number`). -/
theorem C04_replies_partial : ∀ (ds : List (Files S G C × Json)) (st st' : Srv.St S G C) (outs : List (List Json)),
    (∀ d ∈ ds, ∀ u, docUri d.2 = some u → ∀ c ∈ u, c.toNat ≠ 0) →
    run W st ds = .ok (st', outs) → List.Forall₂ (fun d o => Replies d.2 o) ds outs := by
  intro ds
  induction ds with
  | nil => intro st st' outs _ h; cases h; exact .nil
  | cons e ds ih =>
    obtain ⟨F, d⟩ := e
    intro st st' outs hcl h
    obtain ⟨s, o, os, h1, h2, rfl⟩ := run_cons_ok h
    exact .cons ((step_replies h1).1 (hcl (F, d) (by simp))) (ih s st' os (fun x hx => hcl x (List.mem_cons_of_mem _ hx)) h2)

/-! ## Examples -/

/-- The world of the examples, without a reader. -/
def w0 : World Unit Unit Unit Unit := world (fun _ => none)

/-- Texts of the examples are clean. -/
theorem opened_clean {u t : Str} (hu : ∀ c ∈ u, c.toNat ≠ 0) (ht : ∀ c ∈ t, c.toNat ≠ 0) : Clean (opened u t) := by
  intro v s hv
  have : event (opened u t) = some (u, some t) := rfl
  rw [this] at hv
  cases hv
  exact ⟨hu, fun s hs => by cases hs; exact ht⟩

/-- The example files can be read. -/
theorem files_loaded {rd : Str → Option Json} : Loaded (world rd) files () () () () :=
  ⟨.inl ⟨rfl, rfl⟩, rfl, rfl, rfl⟩

/-- A history: two documents, changes, a request and a closed document. -/
def busy : List Json :=
  [opened c!"u" c!"!a", opened c!"v" c!"X1", hovered 1 c!"v" 0 0, changed c!"u" c!"G0", closed c!"v"]

theorem busy_clean : ∀ d ∈ busy, Clean d := by
  intro d hd
  simp only [busy, List.mem_cons, List.not_mem_nil, or_false] at hd
  rcases hd with rfl | rfl | rfl | rfl | rfl
  · exact opened_clean (by decide) (by decide)
  · exact opened_clean (by decide) (by decide)
  · intro a b h; cases h
  · intro a b h
    have : event (changed c!"u" c!"G0") = some (c!"u", some c!"G0") := rfl
    rw [this] at h
    cases h
    exact ⟨by decide, fun s hs => by cases hs; decide⟩
  · intro a b h
    have : event (closed c!"v") = some (c!"v", none) := rfl
    rw [this] at h
    cases h
    exact ⟨by decide, fun s hs => by cases hs⟩

theorem busy_latest : latest c!"v" ((busy.map (fun d => (files, d))).map (·.2)) = none := rfl

/-- `C03_closed_is_null` applies to the document that was closed. -/
example : ∃ st o, run w0 {} (busy.map (files, ·)) = .ok (st, o) ∧
    ∃ st' r, handle w0 files st (lensed 3 c!"v") = .ok (st', r) ∧ ∃ id, r = [response id .null] := by
  obtain ⟨st, o, h⟩ : ∃ st o, run w0 {} (busy.map (files, ·)) = .ok (st, o) := ⟨_, _, rfl⟩
  refine ⟨st, o, h, ?_⟩
  obtain ⟨st', r, h2⟩ : ∃ st' r, handle w0 files st (lensed 3 c!"v") = .ok (st', r) := ⟨_, _, rfl⟩
  refine ⟨st', r, h2, ?_⟩
  obtain ⟨id, -, h⟩ := C03_closed_is_null (W := w0) (busy.map (files, ·))
    (by intro d hd; obtain ⟨e, he, rfl⟩ := List.mem_map.mp hd; exact busy_clean e he) h c!"v" busy_latest (by decide) files
    (lensed 3 c!"v") rfl (.inr rfl) h2
  exact ⟨id, h⟩

/-- `C03_same_answers` applies to the history and to a server that only saw the
last text; the answer is the description of G0. -/
example : ∃ st o st₂ o₂, run w0 {} (busy.map (files, ·)) = .ok (st, o) ∧
    run w0 {} ([opened c!"u" c!"G0"].map (files, ·)) = .ok (st₂, o₂) ∧
    answer (handle w0 files st (hovered 3 c!"u" 0 1)) = answer (handle w0 files st₂ (hovered 3 c!"u" 0 1)) ∧
    answer (handle w0 files st (hovered 3 c!"u" 0 1)) = .ok [response 3 (.obj
      [(c!"contents", .str c!"**G0: Rapid** \n\n---\n\nRapid traverse"), (c!"range", makeRange 0 0 2)])] := by
  refine ⟨_, _, _, _, rfl, rfl, ?_, rfl⟩
  exact C03_same_answers (W := w0) files files_loaded busy [opened c!"u" c!"G0"] busy_clean
    (by intro d hd; rw [List.mem_singleton.mp hd]; exact opened_clean (by decide) (by decide)) rfl rfl c!"u" (by decide) rfl
    (hovered 3 c!"u" 0 1) rfl (.inl rfl)

/-- `C03_lenses` applies (without path times there is no lens). -/
example : ∃ st o, run w0 {} (busy.map (files, ·)) = .ok (st, o) ∧
    ∃ st' r, handle w0 files st (lensed 3 c!"u") = .ok (st', r) ∧
    ∃ id q, intAt [c!"id"] (lensed 3 c!"u") = some id ∧ runCode w0 () () () () c!"G0" = .ok q := by
  refine ⟨_, _, rfl, _, _, rfl, ?_⟩
  obtain ⟨id, q, h1, h2, -⟩ := C03_lenses (W := w0) files files_loaded busy busy_clean rfl c!"u" c!"G0" rfl (by decide)
    (lensed 3 c!"u") rfl rfl rfl
  exact ⟨id, q, h1, h2⟩

/-- `C04_replies_partial` applies to the same history. -/
example : ∃ st o, run w0 {} (busy.map (files, ·)) = .ok (st, o) ∧
    List.Forall₂ (fun d o => Replies d.2 o) (busy.map (files, ·)) o := by
  refine ⟨_, _, rfl, C04_replies_partial (W := w0) _ {} _ _ ?_ rfl⟩
  intro d hd u hu
  simp only [busy, List.map_cons, List.map_nil, List.mem_cons, List.not_mem_nil, or_false] at hd
  rcases hd with rfl | rfl | rfl | rfl | rfl <;> (cases hu; decide)

end NC.Props
