import Verif.Props.Serving
import Verif.DescProofs

/-!
# Configuration and description files: C08, C09, C47
-/

namespace NC.Props
open NC NC.Srv NC.Spec.Server NC.Demo

variable {S G C σ : Type} {W : World S G C σ}

/-! ## C08 -/

theorem messages_publication (u : Str) (l : List Json) :
    messagesOf (publication u l) = l.filterMap (textAt [c!"message"]) := rfl

theorem message_diag (d : Diag) : textAt [c!"message"] (diagJson d) = some d.message := rfl

theorem readSettings_bad {p : PState S G C} (hp : p.settings = none) {f : File S} (hf : Unreadable f) :
    readSettings W p (some f) = (W.defaults, p, false) := by
  unfold readSettings
  simp only [hp]
  cases f with
  | good a => exact absurd rfl (hf a)
  | _ => rfl

theorem ncParse_bad_settings {F : Files S G C} {p : PState S G C} (hp : p.settings = none) {f : File S}
    (hF : F.settings = some f) (hf : Unreadable f) (t : Str) :
    ncParse W F p t = .ok (p, ⟨[errSettings], [], []⟩) := by
  unfold ncParse
  rw [hF, readSettings_bad hp hf]
  rfl

/-- Text events of a history all found unreadable settings. -/
def NoSettings (ds : List (Files S G C × Json)) : Prop :=
  ∀ e ∈ ds, ∀ u t, event e.2 = some (u, some t) → ∃ f, e.1.settings = some f ∧ Unreadable f

theorem parser_untouched : ∀ (ds : List (Files S G C × Json)) (st st' : Srv.St S G C) (outs : List (List Json)),
    (∀ d ∈ ds, Clean d.2) → NoSettings ds → run W st ds = .ok (st', outs) → st.parser = {} → st'.parser = {} := by
  intro ds
  induction ds with
  | nil => intro st st' outs _ _ h hp; cases h; exact hp
  | cons e ds ih =>
    obtain ⟨F, d⟩ := e
    intro st st' outs hcl hn h hp
    obtain ⟨s, o, os, h1, h2, rfl⟩ := run_cons_ok h
    refine ih s st' os (fun x hx => hcl x (List.mem_cons_of_mem _ hx)) (fun x hx => hn x (List.mem_cons_of_mem _ hx)) h2 ?_
    rcases step_contexts h1 (hcl (F, d) (by simp)) with ⟨u, t, p, r, he, hr, hs, -, -⟩ | ⟨_, -, hs, -, -⟩ | ⟨-, hs, -, -⟩
    · obtain ⟨f, hf, hu⟩ := hn (F, d) (by simp) u t he
      rw [hp, ncParse_bad_settings rfl hf hu] at hr
      cases hr
      rw [hs]
    · rw [hs, hp]
    · rw [hs, hp]

/-- What a text event publishes when parsing gives one message. -/
theorem event_reports {F : Files S G C} {st st' : Srv.St S G C} {d : Json} {o : List Json} (hc : Clean d) {u t : Str}
    (he : event d = some (u, some t)) (h : handle W F st d = .ok (st', o)) {p : PState S G C} {m : Str}
    {mm : MacroMap ℚ} {ls : List (Nat × Str)} (hp : ncParse W F st.parser t = .ok (p, ⟨[m], mm, ls⟩)) {text : Str}
    (hm : diagOf (ε := Exc) m = .ok (some ⟨0, 0, text⟩)) : Reported text o := by
  rcases step_contexts h hc with ⟨u', t', p', r', he', hr, -, -, hpub⟩ | ⟨_, he', -, -, -⟩ | ⟨he', -, -, -⟩
  · rw [he] at he'; cases he'
    obtain ⟨p2, r2, e, ds, h1, h2, -, rfl⟩ := publish_ok hpub
    rw [hp] at h1; cases h1
    simp only [diagsOf, hm, Out.bind_ok] at h2
    cases h2
    refine ⟨_, List.mem_singleton.mpr rfl, ?_⟩
    rw [messages_publication, List.filterMap_append]
    apply List.mem_append_right
    simp [message_diag]
  · rw [he] at he'; cases he'
  · rw [he] at he'; cases he'

/-- C08 (part): as long as the settings file is configured and unreadable, every
text event reports it. -/
theorem C08_settings_always_reported_partial (ds : List (Files S G C × Json)) (hcl : ∀ d ∈ ds, Clean d.2) (hn : NoSettings ds)
    {st st' : Srv.St S G C} {outs : List (List Json)} (h : run W {} ds = .ok (st, outs)) (F : Files S G C) (f : File S)
    (hF : F.settings = some f) (hf : Unreadable f) (d : Json) (hc : Clean d) (u t : Str) (he : event d = some (u, some t))
    {o : List Json} (ha : handle W F st d = .ok (st', o)) :
    Reported c!"Couldn't read .ncsetting file" o := by
  have hp := parser_untouched ds {} st outs hcl hn h rfl
  have := ncParse_bad_settings (W := W) (p := st.parser) (by rw [hp]) hF hf t
  exact event_reports hc he ha this rfl

/-- C08 (part): the first time the word grammar is needed and cannot be read,
this is reported. -/
theorem C08_grammar_first_reported_partial (ds : List (Files S G C × Json)) (hcl : ∀ d ∈ ds, Clean d.2) (hn : NoSettings ds)
    {st st' : Srv.St S G C} {outs : List (List Json)} (h : run W {} ds = .ok (st, outs)) (F : Files S G C)
    (hs : F.settings = none ∨ ∃ s, F.settings = some (.good s)) (g : G) (err : Str) (hg : F.grammar = .bad g err)
    (d : Json) (hc : Clean d) (u t : Str) (he : event d = some (u, some t))
    {o : List Json} (ha : handle W F st d = .ok (st', o)) :
    Reported c!"Couldn't read word grammar settings" o := by
  have hp := parser_untouched ds {} st outs hcl hn h rfl
  have : ∃ p, ncParse W F st.parser t = .ok (p, ⟨[errGrammar], [], []⟩) := by
    rw [hp]
    unfold ncParse
    rcases hs with q | ⟨s, q⟩ <;> rw [q, hg] <;> exact ⟨_, rfl⟩
  obtain ⟨p, this⟩ := this
  exact event_reports hc he ha this rfl

/-- C08 is violated: the second event after an unreadable grammar is checked
against whatever had been read of it, and nothing is reported any more. -/
theorem C08_second_event_silent (F : Files S G C) (p p' : PState S G C) (r : Parsed) (g : G) (err : Str) (gc mc : C)
    (hs : F.settings = none) (hg : F.grammar = .bad g err) (hgg : F.gGroups = .good gc) (hmg : F.mGroups = .good mc)
    (h0 : p = {}) (t : Str) (h : ncParse W F p t = .ok (p', r)) (t' : Str) :
    r.messages = [errGrammar] ∧
    (ncParse W F p' t' >>= fun x => .ok x.2) = runCode W W.defaults g gc mc t' := by
  subst h0
  unfold ncParse at h
  rw [hs, hg] at h
  cases h
  refine ⟨rfl, ?_⟩
  unfold ncParse
  rw [hs, hg, hgg, hmg]
  have : ∀ p, ((runCode W W.defaults g gc mc t' >>= fun r => (.ok (p, r) : Out Exc (PState S G C × Parsed))) >>= fun x => .ok x.2) =
      runCode W W.defaults g gc mc t' := by
    intro p
    cases runCode W W.defaults g gc mc t' <;> rfl
  exact this _

/-- Files with an unreadable grammar. -/
def badGrammar : Files Unit Unit Unit := { files with grammar := .bad () c!"unexpected end of input" }

/-- C08 is violated: the same text opened twice with the same unreadable grammar
is reported once. -/
theorem C08_violated : ∃ st o₁ o₂, run w0 {} [(badGrammar, opened c!"u" c!"G0"), (badGrammar, opened c!"u" c!"G0")] =
      .ok (st, [[o₁], [o₂]]) ∧
    messagesOf o₁ = [c!"Couldn't read word grammar settings"] ∧ messagesOf o₂ = [] :=
  ⟨_, _, _, rfl, rfl, rfl⟩

/-- C08 is violated: a missing grammar file is not reported at all but ends the
process. -/
theorem C08_violated_missing (F : Files S G C) (st : Srv.St S G C) (hs : F.settings = none) (hg : F.grammar = .absent)
    (hp : st.parser.grammar = none) (u t : Str) : handle W F st (opened u t) = .throw .filesystem := by
  have e : handle W F st (opened u t) = publish W F st (Json.cstr u) (Json.cstr t) := rfl
  rw [e]
  unfold publish ncParse
  rw [hs, hg]
  simp only [readSettings, hp, lazyRead]
  rfl

/-- Files with a broken user description file. -/
def badDesc : Files Unit Unit Unit := { files with userDesc := some (.bad [] c!"user.json(3): expected ','") }

/-- C08 is violated for the macro descriptions, too. -/
theorem C08_violated_descriptions : ∃ st o₁ o₂, run w0 {} [(badDesc, opened c!"u" c!"G0"), (badDesc, opened c!"u" c!"G0")] =
      .ok (st, [[o₁], [o₂]]) ∧ messagesOf o₁ = [macroDescTitle] ∧ messagesOf o₂ = [] :=
  ⟨_, _, _, rfl, rfl, rfl⟩

/-- Files with unreadable settings. -/
def badSettings : Files Unit Unit Unit := { files with settings := some (.bad () c!"x") }

/-- The hypotheses of the positive theorems can be met. -/
example : ∃ st outs s' o, run w0 {} [(badSettings, opened c!"u" c!"G0")] = .ok (st, outs) ∧
    handle w0 badSettings st (changed c!"u" c!"G1") = .ok (s', o) ∧ Reported c!"Couldn't read .ncsetting file" o := by
  refine ⟨_, _, _, _, rfl, rfl, ?_⟩
  refine C08_settings_always_reported_partial (W := w0) [(badSettings, opened c!"u" c!"G0")] ?_ ?_ rfl badSettings _ rfl
    (by intro a h; cases h) (changed c!"u" c!"G1") ?_ c!"u" c!"G1" rfl rfl
  · intro d hd; simp only [List.mem_singleton] at hd; subst hd; exact opened_clean (by decide) (by decide)
  · intro e he u t _
    simp only [List.mem_singleton] at he
    subst he
    exact ⟨_, rfl, by intro a h; cases h⟩
  · intro a b h
    cases h
    exact ⟨by decide, fun s hs => by cases hs; decide⟩

/-! ## C47 -/

/-- How the tables and suggestions develop. -/
inductive Loads (W : World S G C σ) (F : Files S G C) : Srv.St S G C → Srv.St S G C → Prop
  | same {a b : Srv.St S G C} : b.gCodes = a.gCodes → b.mCodes = a.mCodes → b.macroDesc = a.macroDesc →
      b.suggestions = a.suggestions → Loads W F a b
  | g {a b : Srv.St S G C} {c : Codes} : fetchG F a = .ok (b, c) → Loads W F a b
  | m {a b : Srv.St S G C} {c : Codes} : fetchM F a = .ok (b, c) → Loads W F a b
  | h {a b : Srv.St S G C} {e : Option Str} : fetchMacros W F a = .ok (b, e) → Loads W F a b
  | trans {a b c : Srv.St S G C} : Loads W F a b → Loads W F b c → Loads W F a c

theorem Loads.refl {F : Files S G C} (a : Srv.St S G C) : Loads W F a a := .same rfl rfl rfl rfl

theorem hoverIn_loads {F : Files S G C} {st st' : Srv.St S G C} {ctx : Option Ctx} {line ch : Int} {r : Json}
    (h : hoverIn W F st ctx line ch = .ok (st', r)) : Loads W F st st' := by
  unfold hoverIn at h
  dsimp only at h
  split at h
  · simp only [Out.bind_eq_ok] at h
    obtain ⟨⟨s1, g⟩, h1, ⟨s2, m⟩, h2, h⟩ := h
    cases h
    exact .trans (.g h1) (.m h2)
  · split at h
    · cases h; exact .refl _
    · split at h
      · simp only [Out.bind_eq_ok] at h
        obtain ⟨id, -, h⟩ := h
        split at h
        · simp only [Out.bind_eq_ok] at h
          obtain ⟨⟨s1, g⟩, h1, ⟨s2, m⟩, h2, h⟩ := h
          cases h
          exact .trans (.g h1) (.m h2)
        · cases h; exact .refl _
      · split at h
        · simp only [Out.bind_eq_ok] at h
          obtain ⟨c, -, h⟩ := h
          cases h; exact .refl _
        · cases h; exact .refl _

theorem handle_loads {F : Files S G C} {st st' : Srv.St S G C} {d : Json} {o : List Json}
    (h : handle W F st d = .ok (st', o)) : Loads W F st st' := by
  cases handle_step h with
  | text hm hmt he hu hp =>
    obtain ⟨p, r, e, ds, -, -, hf, -⟩ := publish_ok hp
    have := Loads.h (W := W) hf
    refine Loads.trans ?_ this
    exact .same rfl rfl rfl rfl
  | close hm he => exact .same rfl rfl rfl rfl
  | init hm hid => exact .refl _
  | completion hm hid h =>
    simp only [completion, Out.bind_eq_ok] at h
    obtain ⟨⟨s1, g⟩, h1, ⟨s2, m⟩, h2, h⟩ := h
    cases h
    exact .trans (.g h1) (.m h2)
  | resolve hm h => obtain ⟨_, _, -, rfl, -⟩ := resolve_ok h; exact .refl _
  | hover hm h =>
    obtain ⟨_, _, _, _, _, -, -, -, -, h, -⟩ := hover_ok h
    exact hoverIn_loads h
  | lens hm h =>
    simp only [codeLens, Out.bind_eq_ok] at h
    obtain ⟨_, -, _, -, _, -, _, -, _, -, _, -, h⟩ := h
    cases h
    split <;> exact .same rfl rfl rfl rfl
  | lensResolve hm h => obtain ⟨_, _, _, -, -, -, rfl, -⟩ := codeLensResolve_ok h; exact .refl _
  | shutdown hm hid => exact .same rfl rfl rfl rfl
  | exit hm => exact .same rfl rfl rfl rfl
  | quiet hq => exact .refl _

/-- With both code tables loaded, the suggestions only grow, and do not grow any
more once the macro descriptions are loaded. -/
structure Grown (a b : Srv.St S G C) : Prop where
  gCodes : b.gCodes ≠ none
  mCodes : b.mCodes ≠ none
  suggestions : a.suggestions <+: b.suggestions
  final : a.macroDesc ≠ none → b.macroDesc ≠ none ∧ b.suggestions = a.suggestions

theorem loads_grown {F : Files S G C} {a b : Srv.St S G C} (h : Loads W F a b) : a.gCodes ≠ none → a.mCodes ≠ none →
    Grown a b := by
  induction h with
  | same h1 h2 h3 h4 =>
    intro g m
    exact ⟨by rw [h1]; exact g, by rw [h2]; exact m, by rw [h4], fun q => ⟨by rw [h3]; exact q, h4⟩⟩
  | g h =>
    intro g m
    obtain ⟨-, -, -, -, -, -, h⟩ := fetchG_ok h
    rcases h with ⟨-, rfl⟩ | ⟨q, -, -⟩
    · exact ⟨g, m, List.prefix_refl _, fun q => ⟨q, rfl⟩⟩
    · exact absurd q g
  | m h =>
    intro g m
    obtain ⟨-, -, -, -, -, -, h⟩ := fetchM_ok h
    rcases h with ⟨-, rfl⟩ | ⟨q, -, -⟩
    · exact ⟨g, m, List.prefix_refl _, fun q => ⟨q, rfl⟩⟩
    · exact absurd q m
  | h h =>
    intro g m
    obtain ⟨-, -, -, hg, hm, -, h⟩ := fetchMacros_ok h
    rcases h with ⟨q, rfl, -⟩ | ⟨md, q, -, h1, h2⟩
    · exact ⟨g, m, List.prefix_refl _, fun q => ⟨q, rfl⟩⟩
    · exact ⟨by rw [hg]; exact g, by rw [hm]; exact m, by rw [h2]; exact List.prefix_append _ _, fun q' => absurd q q'⟩
  | trans _ _ i1 i2 =>
    intro g m
    have k1 := i1 g m
    have k2 := i2 k1.gCodes k1.mCodes
    refine ⟨k2.gCodes, k2.mCodes, k1.suggestions.trans k2.suggestions, ?_⟩
    intro q
    have := k1.final q
    have k := k2.final this.1
    exact ⟨k.1, k.2.trans this.2⟩

theorem run_grown : ∀ (ds : List (Files S G C × Json)) (st st' : Srv.St S G C) (outs : List (List Json)),
    run W st ds = .ok (st', outs) → st.gCodes ≠ none → st.mCodes ≠ none → Grown st st' := by
  intro ds
  induction ds with
  | nil => intro st st' outs h g m; cases h; exact ⟨g, m, List.prefix_refl _, fun q => ⟨q, rfl⟩⟩
  | cons e ds ih =>
    obtain ⟨F, d⟩ := e
    intro st st' outs h g m
    obtain ⟨s, o, os, h1, h2, rfl⟩ := run_cons_ok h
    have k1 := loads_grown (handle_loads h1) g m
    have k2 := ih s st' os h2 k1.gCodes k1.mCodes
    refine ⟨k2.gCodes, k2.mCodes, k1.suggestions.trans k2.suggestions, ?_⟩
    intro q
    have := k1.final q
    have k := k2.final this.1
    exact ⟨k.1, k.2.trans this.2⟩

theorem suggestionsFrom_append (n : Nat) (a b : List Str) :
    suggestionsFrom n (a ++ b) = suggestionsFrom n a ++ suggestionsFrom (n + a.length) b := by
  induction a generalizing n with
  | nil => rfl
  | cons x a ih => simp only [List.cons_append, suggestionsFrom, ih, List.length_cons]; congr 3; omega

theorem completion_list {F : Files S G C} {st st' : Srv.St S G C} {d : Json} {o : List Json}
    (hm : method d = some c!"textDocument/completion") (h : handle W F st d = .ok (st', o)) :
    st'.gCodes ≠ none ∧ st'.mCodes ≠ none ∧ ∃ id, o = [response id (.arr (suggestionsFrom 1 st'.suggestions))] := by
  cases handle_step h with
  | completion _ hid hh =>
    have ho := (completion_ok hh).2
    simp only [completion, Out.bind_eq_ok] at hh
    obtain ⟨⟨s1, g⟩, h1, ⟨s2, m⟩, h2, hh⟩ := hh
    cases hh
    have q1 := fetchG_ok h1
    have q2 := fetchM_ok h2
    refine ⟨?_, ?_, _, ho⟩
    · rw [q2.2.2.2.2.1, q1.2.2.2.2.2.1]; simp
    · rw [q2.2.2.2.2.2.1]; simp
  | quiet hq => exact absurd (by decide) (hq _ hm).1
  | text h' h'' => rw [hm] at h'; cases h'; exact absurd h'' (by decide)
  | _ h' => rw [hm] at h'; cases h'

theorem loads_keeps_macros {F : Files S G C} {a b : Srv.St S G C} (hl : Loads W F a b) : a.macroDesc ≠ none → b.macroDesc ≠ none := by
  induction hl with
  | same _ _ h3 _ => rw [h3]; exact id
  | g h => rw [(fetchG_ok h).2.2.2.1]; exact id
  | m h => rw [(fetchM_ok h).2.2.2.1]; exact id
  | h h =>
    intro q
    obtain ⟨-, -, -, -, -, -, h⟩ := fetchMacros_ok h
    rcases h with ⟨q, rfl, -⟩ | ⟨md, -, -, h1, -⟩
    · exact q
    · rw [h1]; simp
  | trans _ _ i1 i2 => exact fun q => i2 (i1 q)

/-- The macro descriptions are loaded with the first text. -/
theorem macros_loaded_iff : ∀ (ds : List (Files S G C × Json)) (s s' : Srv.St S G C) (outs : List (List Json)),
    (∀ d ∈ ds, Clean d.2) → run W s ds = .ok (s', outs) →
    (s'.macroDesc ≠ none ↔ s.macroDesc ≠ none ∨ ∃ e ∈ ds, ∃ u t, event e.2 = some (u, some t)) := by
  intro ds
  induction ds with
  | nil => intro s s' outs _ h; cases h; simp
  | cons x ds ih =>
    obtain ⟨F, d⟩ := x
    intro s s' outs hcl h
    obtain ⟨s2, o, os, h1, h2, rfl⟩ := run_cons_ok h
    rw [ih s2 s' os (fun x hx => hcl x (List.mem_cons_of_mem _ hx)) h2]
    simp only [List.mem_cons, exists_eq_or_imp]
    rw [← or_assoc]
    refine or_congr_left ?_
    constructor
    · intro q
      rcases step_contexts h1 (hcl (F, d) (by simp)) with ⟨u, t, p, r, he, -⟩ | ⟨_, he', -, k, -⟩ | ⟨he', -, k, -⟩
      · exact .inr ⟨u, t, he⟩
      · rw [k] at q; exact .inl q
      · rw [k] at q; exact .inl q
    · rintro (q | ⟨u, t, he⟩)
      · exact loads_keeps_macros (handle_loads h1) q
      · rcases step_contexts h1 (hcl (F, d) (by simp)) with ⟨_, _, p, r, -, -, -, -, hp⟩ | ⟨_, he', -⟩ | ⟨he', -⟩
        · obtain ⟨p, r, e, ds', -, -, hf, -⟩ := publish_ok hp
          obtain ⟨-, -, -, -, -, -, hk⟩ := fetchMacros_ok hf
          rcases hk with ⟨hn, rfl, -⟩ | ⟨md, -, -, hm, -⟩
          · exact hn
          · rw [hm]; simp
        · rw [he] at he'; cases he'
        · rw [he] at he'; cases he'

theorem run_inv {F : Files S G C} {s : S} {g : G} {gc mc : C} (hL : Loaded W F s g gc mc) :
    ∀ (ds : List Json) (st st' : Srv.St S G C) (outs : List (List Json)), run W st (ds.map (F, ·)) = .ok (st', outs) →
    Inv W F st → Inv W F st' := by
  intro ds
  induction ds with
  | nil => intro st st' outs h hI; cases h; exact hI
  | cons d ds ih =>
    intro st st' outs h hI
    obtain ⟨s1, o, os, h1, h2, rfl⟩ := run_cons_ok h
    exact ih s1 st' os h2 (handle_inv hL hI h1)

/-- C47 (part): between two completion requests, whatever happens and however the
files change, the first list is the beginning of the second one, item by item
with the same data numbers; and the lists are equal if a document had been
opened before the first request.  Missing: equality in the remaining case, which
is violated. -/
theorem C47_stable_partial {ds₁ ds₂ : List (Files S G C × Json)} {st st₁ st₂ st₃ : Srv.St S G C} {outs₁ outs₂ : List (List Json)}
    (hcl : ∀ d ∈ ds₁, Clean d.2) (h₁ : run W {} ds₁ = .ok (st, outs₁)) {F₁ F₂ : Files S G C} {d₁ d₂ : Json} {o₁ o₂ : List Json}
    (hm₁ : method d₁ = some c!"textDocument/completion") (a₁ : handle W F₁ st d₁ = .ok (st₁, o₁))
    (h₂ : run W st₁ ds₂ = .ok (st₂, outs₂)) (hm₂ : method d₂ = some c!"textDocument/completion")
    (a₂ : handle W F₂ st₂ d₂ = .ok (st₃, o₂)) :
    ∃ id₁ id₂ l₁ l₂, o₁ = [response id₁ (.arr l₁)] ∧ o₂ = [response id₂ (.arr l₂)] ∧ l₁ <+: l₂ ∧
      ((∃ e ∈ ds₁, ∃ u t, event e.2 = some (u, some t)) → l₁ = l₂) := by
  obtain ⟨g1, m1, id1, rfl⟩ := completion_list hm₁ a₁
  obtain ⟨-, -, id2, rfl⟩ := completion_list hm₂ a₂
  have k1 := run_grown ds₂ st₁ st₂ outs₂ h₂ g1 m1
  have k2 := loads_grown (handle_loads a₂) k1.gCodes k1.mCodes
  refine ⟨id1, id2, _, _, rfl, rfl, ?_, ?_⟩
  · obtain ⟨x, hx⟩ := k1.suggestions.trans k2.suggestions
    rw [← hx, suggestionsFrom_append]
    exact List.prefix_append _ _
  · intro hev
    have hmd : st.macroDesc ≠ none := (macros_loaded_iff ds₁ {} st outs₁ hcl h₁).mpr (.inr hev)
    have hmd1 : st₁.macroDesc ≠ none := by
      cases handle_step a₁ with
      | completion _ hid hh => rw [(completion_ok hh).1.macroDesc]; exact hmd
      | text h' h'' => rw [hm₁] at h'; cases h'; exact absurd h'' (by decide)
      | _ h' => rw [hm₁] at h'; cases h'
    have f1 := k1.final hmd1
    have f2 := k2.final f1.1
    rw [f2.2, f1.2]

/-- C47 is violated: opening the first document between two requests makes the
list longer. -/
theorem C47_violated_grows : ∃ st o₁ o₂ o₃, run w0 {} [(files, completed 1), (files, opened c!"u" c!"G0"), (files, completed 2)] =
      .ok (st, [o₁, o₂, o₃]) ∧ o₁.map labels ≠ o₃.map labels :=
  ⟨_, _, _, _, rfl, by decide⟩

/-- The codes a description file offers: each code, and with it the one with a
leading zero if the code is a single digit (or a digit, point, digit). -/
def offered (f : DescFile) : List Str :=
  f.flatMap (fun e => e.1 :: (if e.1.length = 1 ∨ e.1.length = 3 ∧ e.1[1]? = some '.' then ['0' :: e.1] else []))

theorem addCodes_codes (f : DescFile) (c : Codes) : (addCodes f c).codes = c.codes ++ offered f := by
  induction f generalizing c with
  | nil => simp [addCodes, offered]
  | cons e f ih =>
    obtain ⟨code, tds⟩ := e
    rw [addCodes, ih]
    simp only [offered, List.flatMap_cons, hasSynonym, Bool.or_eq_true, beq_iff_eq, Bool.and_eq_true, List.append_assoc]
    rfl

/-- The names of described macros. -/
theorem addMacros_names (f : DescFile) (m : MacroDesc) :
    (m.macros.Nodup → (addMacros f m).macros.Nodup) ∧
    ∀ k, k ∈ (addMacros f m).macros ↔ k ∈ m.macros ∨ k ∈ f.map Prod.fst := by
  induction f generalizing m with
  | nil => simp [addMacros]
  | cons e f ih =>
    obtain ⟨code, tds⟩ := e
    rw [addMacros]
    obtain ⟨h1, h2⟩ := ih { m with desc := tds.foldl (fun d td => emplace d code td) m.desc,
                                   macros := if code ∈ m.macros then m.macros else m.macros ++ [code] }
    constructor
    · intro hn
      apply h1
      by_cases hc : code ∈ m.macros
      · simp only [hc, if_true]; exact hn
      · simp only [hc, if_false]
        exact hn.append (by simp) (by simpa using hc)
    · intro k
      rw [h2]
      by_cases hc : code ∈ m.macros
      · simp only [hc, if_true, List.map_cons, List.mem_cons]
        constructor
        · rintro (q | q); exact .inl q; exact .inr (.inr q)
        · rintro (q | rfl | q); exact .inl q; exact .inl hc; exact .inr q
      · simp only [hc, if_false, List.map_cons, List.mem_cons, List.mem_append, List.not_mem_nil, or_false, or_assoc]

/-- The suggestions contributed by what is loaded. -/
def parts (st : Srv.St S G C) : List Str :=
  ((st.gCodes.map (fun c => c.codes.map ('G' :: ·))).getD []) ++ ((st.mCodes.map (fun c => c.codes.map ('M' :: ·))).getD []) ++
    ((st.macroDesc.map (fun c => c.macros.map ('#' :: ·))).getD [])

theorem loads_parts {F : Files S G C} {md : MacroDesc} (hM : readMacros W.logging F.userDesc F.macroDesc = .ok (md, none))
    {a b : Srv.St S G C} (h : Loads W F a b) : a.suggestions.Perm (parts a) → b.suggestions.Perm (parts b) := by
  induction h with
  | same h1 h2 h3 h4 => intro hp; rw [h4]; unfold parts; rw [h1, h2, h3]; exact hp
  | g h =>
    intro hp
    obtain ⟨-, -, -, h3, h2, h1, h⟩ := fetchG_ok h
    rcases h with ⟨-, rfl⟩ | ⟨q, -, h4⟩
    · exact hp
    · rw [h4]
      unfold parts at hp ⊢
      rw [h1, h2, h3]
      rw [q] at hp
      simp only [Option.map_none, Option.getD_none, List.nil_append, Option.map_some, Option.getD_some, List.append_assoc] at hp ⊢
      exact (hp.append_right _).trans List.perm_append_comm
  | m h =>
    intro hp
    obtain ⟨-, -, -, h3, h2, h1, h⟩ := fetchM_ok h
    rcases h with ⟨-, rfl⟩ | ⟨q, -, h4⟩
    · exact hp
    · rw [h4]
      unfold parts at hp ⊢
      rw [h1, h2, h3]
      rw [q] at hp
      simp only [Option.map_none, Option.getD_none, List.append_nil, Option.map_some, Option.getD_some, List.append_assoc] at hp ⊢
      refine (hp.append_right _).trans ?_
      rw [List.append_assoc]
      exact List.Perm.append_left _ List.perm_append_comm
  | h h =>
    intro hp
    obtain ⟨-, -, -, h1, h2, -, h⟩ := fetchMacros_ok h
    rcases h with ⟨-, rfl, -⟩ | ⟨md', q, hr, h3, h4⟩
    · exact hp
    · rw [hM] at hr
      cases hr
      rw [h4]
      unfold parts at hp ⊢
      rw [h1, h2, h3]
      rw [q] at hp
      simp only [Option.map_none, Option.getD_none, List.append_nil, Option.map_some, Option.getD_some] at hp ⊢
      exact hp.append_right _
  | trans _ _ i1 i2 => exact fun q => i2 (i1 q)

theorem labels_suggestions (n : Nat) (l : List Str) :
    (suggestionsFrom n l).map (textAt [c!"label"]) = l.map some := by
  induction l generalizing n with
  | nil => rfl
  | cons x l ih => rw [suggestionsFrom, List.map_cons, ih]; rfl

theorem run_parts {F : Files S G C} {md : MacroDesc} (hM : readMacros W.logging F.userDesc F.macroDesc = .ok (md, none)) :
    ∀ (ds : List Json) (st st' : Srv.St S G C) (outs : List (List Json)), run W st (ds.map (F, ·)) = .ok (st', outs) →
    st.suggestions.Perm (parts st) → st'.suggestions.Perm (parts st') := by
  intro ds
  induction ds with
  | nil => intro st st' outs h hp; cases h; exact hp
  | cons d ds ih =>
    intro st st' outs h hp
    obtain ⟨s, o, os, h1, h2, rfl⟩ := run_cons_ok h
    exact ih s st' os h2 (loads_parts hM (handle_loads h1) hp)

/-- Names of the macros described by readable files. -/
theorem readMacros_names {b : Bool} {fu : Option DescFile} {fb : DescFile} {md : MacroDesc}
    (hM : readMacros b (fu.map File.good) (.good fb) = .ok (md, none)) :
    md.macros.Nodup ∧ ∀ k, k ∈ md.macros ↔ k ∈ (fu.getD []).map Prod.fst ∨ k ∈ fb.map Prod.fst := by
  have hu : ∃ u : MacroDesc, u.macros.Nodup ∧ (∀ k, k ∈ u.macros ↔ k ∈ (fu.getD []).map Prod.fst) ∧
      md.macros = (addMacros fb u).macros := by
    cases fu with
    | none =>
      refine ⟨{}, List.nodup_nil, by simp, ?_⟩
      unfold readMacros at hM
      simp only [Option.map_none, Out.bind_eq_ok] at hM
      obtain ⟨r, -, hM⟩ := hM
      cases hM; rfl
    | some d =>
      refine ⟨addMacros d {}, (addMacros_names d {}).1 List.nodup_nil, ?_, ?_⟩
      · intro k; rw [(addMacros_names d {}).2]; simp
      · unfold readMacros at hM
        simp only [Option.map_some, Out.bind_eq_ok] at hM
        obtain ⟨r, -, hM⟩ := hM
        cases hM; rfl
  obtain ⟨u, hn, hk, he⟩ := hu
  rw [he]
  refine ⟨(addMacros_names fb u).1 hn, fun k => ?_⟩
  rw [(addMacros_names fb u).2, hk]

/-- C47: with readable description files without double entries, and after any
history, completion offers every described code and macro once and nothing
else; macros are offered from the first opened document on. -/
theorem C47_offers_each_once (F : Files S G C) {s : S} {g : G} {gc mc : C} (hL : Loaded W F s g gc mc)
    (fg fm fb : DescFile) (fu : Option DescFile) (hg : F.gDesc = .good fg) (hm : F.mDesc = .good fm)
    (hb : F.macroDesc = .good fb) (hu : F.userDesc = fu.map File.good) {md : MacroDesc}
    (hM : readMacros W.logging F.userDesc F.macroDesc = .ok (md, none))
    (ng : (offered fg).Nodup) (nm : (offered fm).Nodup)
    (ds : List Json) {st st' : Srv.St S G C} {outs : List (List Json)} (h : run W {} (ds.map (F, ·)) = .ok (st, outs))
    (hcl : ∀ d ∈ ds, Clean d) (d : Json) (hmeth : method d = some c!"textDocument/completion") {o : List Json}
    (ha : handle W F st d = .ok (st', o)) :
    ∃ (id : Int) (l : List Json) (ls : List Str), o = [response id (.arr l)] ∧ l.map (textAt [c!"label"]) = ls.map some ∧ ls.Nodup ∧
      ∀ x, x ∈ ls ↔ (∃ k ∈ offered fg, x = 'G' :: k) ∨ (∃ k ∈ offered fm, x = 'M' :: k) ∨
        ((∃ e ∈ ds, ∃ u t, event e = some (u, some t)) ∧ ∃ k, (k ∈ (fu.getD []).map Prod.fst ∨ k ∈ fb.map Prod.fst) ∧ x = '#' :: k) := by
  obtain ⟨g1, m1, id, rfl⟩ := completion_list hmeth ha
  have hp := loads_parts hM (handle_loads ha) (run_parts hM ds {} st outs h (List.Perm.refl _))
  refine ⟨id, _, st'.suggestions, rfl, labels_suggestions _ _, ?_⟩
  have hI := run_inv hL ds {} st outs h .start
  have hI' := handle_inv hL hI ha
  have hev : (∃ e ∈ ds, ∃ u t, event e = some (u, some t)) ↔ st.macroDesc ≠ none := by
    rw [macros_loaded_iff (ds.map (F, ·)) {} st outs (by intro d hd; obtain ⟨x, hx, rfl⟩ := List.mem_map.mp hd; exact hcl x hx) h]
    simp
  have cg : st'.gCodes.map Codes.codes = some (offered fg) := by
    rcases hI'.gCodes with q | ⟨c, q, hc⟩
    · exact absurd q g1
    · rw [hg] at hc; cases hc; rw [q, Option.map_some, addCodes_codes]; rfl
  have cm : st'.mCodes.map Codes.codes = some (offered fm) := by
    rcases hI'.mCodes with q | ⟨c, q, hc⟩
    · exact absurd q m1
    · rw [hm] at hc; cases hc; rw [q, Option.map_some, addCodes_codes]; rfl
  have hmd : st'.macroDesc = st.macroDesc := by
    cases handle_step ha with
    | completion _ hid hh => exact (completion_ok hh).1.macroDesc
    | text h' h'' => rw [hmeth] at h'; cases h'; exact absurd h'' (by decide)
    | _ h' => rw [hmeth] at h'; cases h'
  obtain ⟨cG, eG, cg⟩ := Option.map_eq_some_iff.mp cg
  obtain ⟨cM, eM, cm⟩ := Option.map_eq_some_iff.mp cm
  have hparts : parts st' = (offered fg).map ('G' :: ·) ++ ((offered fm).map ('M' :: ·) ++
      ((st.macroDesc.map (fun c => c.macros.map ('#' :: ·))).getD [])) := by
    unfold parts
    rw [eG, eM, hmd]
    simp only [Option.map_some, Option.getD_some, cg, cm, List.append_assoc]
  rw [hparts] at hp
  rw [hu, hb] at hM
  obtain ⟨nn, hk⟩ := readMacros_names hM
  have hmac : st.macroDesc = none ∨ st.macroDesc = some md := by
    rcases hI.macroDesc with q | ⟨c, e, q, hc⟩
    · exact .inl q
    · rw [hu, hb, hM] at hc; cases hc; exact .inr q
  have inj : ∀ c : Char, Function.Injective (fun s : Str => c :: s) := fun c a b q => by simpa using q
  constructor
  · rw [hp.nodup_iff]
    refine List.Nodup.append (ng.map (inj _)) (List.Nodup.append (nm.map (inj _)) ?_ ?_) ?_
    · rcases hmac with q | q
      · rw [q]; exact List.nodup_nil
      · rw [q]; exact nn.map (inj _)
    · rcases hmac with q | q
      · rw [q]; simp
      · rw [q]
        intro x hx hy
        obtain ⟨k, -, rfl⟩ := List.mem_map.mp hx
        obtain ⟨k', -, e⟩ := List.mem_map.mp hy
        cases e
    · intro x hx hy
      obtain ⟨k, -, rfl⟩ := List.mem_map.mp hx
      rcases List.mem_append.mp hy with hy | hy
      · obtain ⟨k', -, e⟩ := List.mem_map.mp hy
        cases e
      · rcases hmac with q | q
        · rw [q] at hy; cases hy
        · rw [q] at hy
          obtain ⟨k', -, e⟩ := List.mem_map.mp hy
          cases e
  · intro x
    rw [hp.mem_iff, List.mem_append, List.mem_append, List.mem_map, List.mem_map]
    have e1 : ∀ (l : List Str) (c : Char), (∃ a ∈ l, c :: a = x) ↔ (∃ k ∈ l, x = c :: k) := by
      intro l c
      exact ⟨fun ⟨a, h1, h2⟩ => ⟨a, h1, h2.symm⟩, fun ⟨a, h1, h2⟩ => ⟨a, h1, h2.symm⟩⟩
    rw [e1, e1]
    refine or_congr_right (or_congr_right ?_)
    rw [hev]
    rcases hmac with q | q
    · rw [q]; simp
    · rw [q]
      simp only [Option.map_some, Option.getD_some, List.mem_map, ne_eq, reduceCtorEq, not_false_eq_true, true_and]
      constructor
      · rintro ⟨k, h1, rfl⟩; exact ⟨k, (hk k).mp h1 |>.imp (by simp) (by simp), rfl⟩
      · rintro ⟨k, h1, rfl⟩; exact ⟨k, (hk k).mpr (h1.imp (by simp) (by simp)), rfl⟩

/-- C47 is violated for tables that describe a code with and without leading
zero: the padded code is offered twice. -/
theorem C47_violated_duplicate : ¬ (addCodes [(c!"1", [(c!"a", c!"b")]), (c!"01", [(c!"c", c!"d")])] {}).codes.Nodup := by
  decide

/-- The hypotheses of the C47 theorems can be met: three documents' worth of
history, with all kinds of suggestions. -/
example : ∃ st outs st' l, run w0 {} ([opened c!"u" c!"G0", hovered 1 c!"u" 0 0].map (files, ·)) = .ok (st, outs) ∧
    handle w0 files st (completed 5) = .ok (st', [response 5 (.arr l)]) ∧
    (offered gFile).Nodup ∧ (offered mFile).Nodup ∧
    l.map (textAt [c!"label"]) = [c!"#3101", c!"#100", c!"G0", c!"G00", c!"G54", c!"M30"].map some :=
  ⟨_, _, _, _, rfl, rfl, by decide, by decide, by decide⟩

/-! ## C09 -/

/-- C09: a macro with a description of its own is shown with exactly that one,
whatever ranges contain it; user descriptions come before built-in ones. -/
theorem C09_exact {b : Bool} {fu : Option DescFile} {fb : DescFile} {md : MacroDesc}
    (hM : readMacros b (fu.map File.good) (.good fb) = .ok (md, none)) (code : Str) (r : Str × Str)
    (hd : described (fu.getD [] ++ fb) code = some r) : Srv.macroDesc b md code = .ok r := by
  obtain ⟨-, hf, -⟩ := readMacros_table hM
  unfold Srv.macroDesc
  rw [hf, hd]

/-- C09 (soundness): a description shown for a macro without one of its own is
that of an entry that documents a range containing the macro. -/
theorem C09_range_sound {b : Bool} {fu : Option DescFile} {fb : DescFile} {md : MacroDesc}
    (hM : readMacros b (fu.map File.good) (.good fb) = .ok (md, none)) (code : Str) (n : Int) (hn : stoi code = .ok n)
    (hd : described (fu.getD [] ++ fb) code = none) (r : Str × Str) (h : Srv.macroDesc b md code = .ok r)
    (hr : r ≠ ([], [])) :
    ∃ (k : Str) (x y : Nat), described (fu.getD [] ++ fb) k = some r ∧ Documents r.2 x y ∧ x < n ∧ n < y := by
  obtain ⟨hk, hf, hR⟩ := readMacros_table hM
  unfold Srv.macroDesc at h
  rw [hf, hd] at h
  simp only [hn] at h
  cases hx : md.ranges.find? (fun r => decide (n > r.1.1) && decide (n < r.1.2)) with
  | none => rw [hx] at h; cases h; exact absurd rfl hr
  | some x =>
    rw [hx] at h
    have hmem := List.mem_of_find?_eq_some hx
    have hp := List.find?_some hx
    obtain ⟨t, d, hin, p, hp1, s1, s2⟩ := (readRanges_mem hR x).mp hmem
    have hfind := hk.mem.mp hin
    simp only [hfind, Option.getD_some] at h
    cases h
    obtain ⟨d1, d2, doc⟩ := rangePairs_sound hp1
    refine ⟨x.2, readNat p.1, readNat p.2, by rw [← hf]; exact hfind, doc, ?_, ?_⟩
    · rw [stoi_digits_cases d1.2 d1.1] at s1
      split at s1
      · obtain ⟨⟨z1, z2⟩, z3⟩ := x; cases s1; simp only [gt_iff_lt, Bool.and_eq_true, decide_eq_true_eq] at hp; exact_mod_cast hp.1
      · cases s1
    · rw [stoi_digits_cases d2.2 d2.1] at s2
      split at s2
      · obtain ⟨⟨z1, z2⟩, z3⟩ := x; cases s2; simp only [gt_iff_lt, Bool.and_eq_true, decide_eq_true_eq] at hp; exact_mod_cast hp.2
      · cases s2

/-- C09 (part): a macro without a description of its own, strictly inside a
documented range, is shown with the description of a range containing it.
Missing: the end points of a range, where the claim is false. -/
theorem C09_range_found_partial {b : Bool} {fu : Option DescFile} {fb : DescFile} {md : MacroDesc}
    (hM : readMacros b (fu.map File.good) (.good fb) = .ok (md, none)) (code : Str) (n : Int) (hn : stoi code = .ok n)
    (hd : described (fu.getD [] ++ fb) code = none) (k : Str) (t d : Str) (x y : Nat)
    (hk : described (fu.getD [] ++ fb) k = some (t, d)) (h1 : OneRange d) (hdoc : Documents d x y)
    (hx : (x : Int) < n) (hy : n < y) (hmax : y ≤ 2147483647) :
    ∃ (r : Str × Str) (k' : Str) (x' y' : Nat), Srv.macroDesc b md code = .ok r ∧ described (fu.getD [] ++ fb) k' = some r ∧
      Documents r.2 x' y' ∧ x' < n ∧ n < y' := by
  obtain ⟨hK, hf, hR⟩ := readMacros_table hM
  obtain ⟨p, hp, rfl, rfl⟩ := rangePairs_complete hdoc h1
  obtain ⟨d1, d2, -⟩ := rangePairs_sound hp
  have hmem : (((readNat p.1 : Int), (readNat p.2 : Int)), k) ∈ md.ranges := by
    rw [readRanges_mem hR]
    refine ⟨t, d, hK.mem.mpr (by rw [hf]; exact hk), p, hp, ?_, ?_⟩
    · rw [stoi_digits d1.2 d1.1 (by omega)]
    · rw [stoi_digits d2.2 d2.1 (by omega)]
  cases hfd : md.ranges.find? (fun r => decide (n > r.1.1) && decide (n < r.1.2)) with
  | none =>
    have := List.find?_eq_none.mp hfd _ hmem
    simp only [gt_iff_lt, Bool.and_eq_true, decide_eq_true_eq] at this
    exact absurd ⟨hx, hy⟩ this
  | some z =>
    have hmem' := List.mem_of_find?_eq_some hfd
    have hp' := List.find?_some hfd
    obtain ⟨t', d', hin, q, hq, s1, s2⟩ := (readRanges_mem hR z).mp hmem'
    have hfind := hK.mem.mp hin
    obtain ⟨e1, e2, doc⟩ := rangePairs_sound hq
    refine ⟨(t', d'), z.2, readNat q.1, readNat q.2, ?_, by rw [← hf]; exact hfind, doc, ?_, ?_⟩
    · unfold Srv.macroDesc
      rw [hf, hd]
      simp only [hn, hfd, hfind, Option.getD_some]
    · rw [stoi_digits_cases e1.2 e1.1] at s1
      split at s1
      · obtain ⟨⟨z1, z2⟩, z3⟩ := z; cases s1; simp only [gt_iff_lt, Bool.and_eq_true, decide_eq_true_eq] at hp'; exact_mod_cast hp'.1
      · cases s1
    · rw [stoi_digits_cases e2.2 e2.1] at s2
      split at s2
      · obtain ⟨⟨z1, z2⟩, z3⟩ := z; cases s2; simp only [gt_iff_lt, Bool.and_eq_true, decide_eq_true_eq] at hp'; exact_mod_cast hp'.2
      · cases s2

/-- C09: what hover shows for a macro is built from that description. -/
theorem C09_hover_text {md : MacroDesc} {mm : MacroMap ℚ} {line : Int} {ds c : Str}
    (h : macroHover W (some md) mm line ('#' :: ds) = .ok c) :
    ∃ r, Srv.macroDesc W.logging md (extractCode ds) = .ok r ∧
      (r ≠ ([], []) → ∃ more, c = c!"**" ++ ('#' :: ds ++ more) ++ c!": " ++ r.1 ++ c!"** \n\n---\n\n" ++
        r.2.flatMap (fun x => if x = '\n' then c!"\n\n" else [x])) ∧
      (r = ([], []) → ∃ more, c = '#' :: ds ++ c!" = " ++ more) := by
  unfold macroHover at h
  simp only [List.drop_succ_cons, List.drop_zero, Out.bind_eq_ok] at h
  obtain ⟨id, -, r, hr, h⟩ := h
  refine ⟨r, hr, ?_, ?_⟩
  · intro hne
    have : r.1 ≠ [] ∨ r.2 ≠ [] := by
      by_contra q
      push Not at q
      exact hne (Prod.ext q.1 q.2)
    rw [if_pos this] at h
    cases hv : mm.valueAt id (line + 1) with
    | none =>
      rw [hv] at h; cases h
      exact ⟨[], by simp only [markdown, doubleNewlines, List.append_nil]⟩
    | some q =>
      rw [hv] at h; cases h
      exact ⟨c!" = " ++ toStringTrunc q, by simp only [markdown, doubleNewlines, List.append_assoc]⟩
  · rintro rfl
    rw [if_neg (by simp)] at h
    cases hv : mm.valueAt id (line + 1) with
    | none => rw [hv] at h; cases h; exact ⟨c!"undefined", by simp⟩
    | some q => rw [hv] at h; cases h; exact ⟨toStringTrunc q, by simp⟩

/-- C09 is violated: the last macro of a documented range (`Range: #100-#131`)
is shown as undefined and without description. -/
theorem C09_violated_end_point : ∃ st o₁ o₂ o₃, run w0 {} [(files, opened c!"u" c!"#131 #130"), (files, hovered 1 c!"u" 0 1),
      (files, hovered 2 c!"u" 0 7)] = .ok (st, [o₁, o₂, o₃]) ∧
    o₂.map (textAt [c!"result", c!"contents"]) = [some c!"#131 = undefined"] ∧
    o₃.map (textAt [c!"result", c!"contents"]) = [some c!"**#130: Common** \n\n---\n\nRange: #100-#131 cleared"] :=
  ⟨_, _, _, _, rfl, by decide +kernel, by decide +kernel⟩

/-- A description with a range, as in the hypotheses of C09. -/
theorem sample_documents : Documents c!"Range: #100-#131 cleared" 100 131 :=
  Documents.one (pre := []) (post := c!" cleared") (ds := c!"100") (es := c!"131") ⟨by decide, by decide⟩ ⟨by decide, by decide⟩
    (by intro c r h; cases h; decide)

theorem sample_oneRange : OneRange c!"Range: #100-#131 cleared" := by
  have key : ∀ p q, c!"Range: #100-#131 cleared" = p ++ c!"Range: " ++ q → p.length = 0 := by
    intro p q h
    have hl := congrArg List.length h
    simp only [List.length_append] at hl
    have hp : p.length ≤ 17 := by
      have : (c!"Range: #100-#131 cleared").length = 24 := by decide
      rw [this] at hl
      have : (c!"Range: ").length = 7 := by decide
      omega
    have hd : (c!"Range: #100-#131 cleared").drop p.length = c!"Range: " ++ q := by rw [h]; simp
    have ht : ((c!"Range: #100-#131 cleared").drop p.length).take 7 = c!"Range: " := by rw [hd]; rfl
    generalize p.length = m at hp ht
    clear hl hd h
    interval_cases m <;> first | rfl | exact absurd ht (by decide)
  intro p q p' q' h h'
  have a := List.length_eq_zero_iff.mp (key p q h)
  have b := List.length_eq_zero_iff.mp (key p' q' h')
  rw [a, b]

/-- C09 applies to the example files. -/
example : ∃ md, readMacros true (Option.map File.good none) (.good macroFile) = .ok (md, none) ∧
    ∃ r : Str × Str, Srv.macroDesc true md c!"120" = .ok r ∧ ∃ (k : Str) (x y : Nat), described macroFile k = some r ∧
      Documents r.2 x y ∧ x < 120 ∧ 120 < y := by
  refine ⟨_, rfl, ?_⟩
  obtain ⟨r, k, x, y, h1, h2, h3, h4, h5⟩ := C09_range_found_partial (b := true) (fu := none) (fb := macroFile) (md := _) rfl
    c!"120" 120 (by decide) (by decide) c!"100" c!"Common" c!"Range: #100-#131 cleared" 100 131 (by decide) sample_oneRange
    sample_documents (by decide) (by decide) (by decide)
  exact ⟨r, h1, k, x, y, h2, h3, by exact_mod_cast h4, by exact_mod_cast h5⟩

end NC.Props
