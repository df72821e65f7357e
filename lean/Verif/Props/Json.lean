import Verif.JsonProofs
import Verif.Props.Serving

/-!
# Every answer is well formed JSON: C59
-/

namespace NC.Props
open NC NC.Srv NC.Spec.Server NC.Spec.Framing NC.Spec.Json NC.JsonP NC.Demo

variable {S G C σ : Type} {W : World S G C σ}

/-- Objects written out member by member. -/
theorem plain_obj_cons {k : Str} {v : Json} {m : List (Str × Json)} (hv : Plain v) (hm : Plain (.obj m)) :
    Plain (.obj ((k, v) :: m)) := by
  cases hm with
  | obj _ h => exact .obj _ (by intro e he; rcases List.mem_cons.mp he with rfl | he; exacts [hv, h e he])

theorem plain_nil : Plain (.obj []) := .obj _ (by simp)

theorem plain_obj_append {a b : List (Str × Json)} (ha : Plain (.obj a)) (hb : Plain (.obj b)) : Plain (.obj (a ++ b)) := by
  cases ha with
  | obj _ ha => cases hb with
    | obj _ hb => exact .obj _ (by intro e he; rcases List.mem_append.mp he with he | he; exacts [ha e he, hb e he])

theorem plain_response {id : Int} {r : Json} (h : Plain r) : Plain (response id r) :=
  plain_obj_cons (.str _) (plain_obj_cons (.int _) (plain_obj_cons h plain_nil))

theorem plain_range (l a b : Int) : Plain (makeRange l a b) :=
  plain_obj_cons (plain_obj_cons (.int _) (plain_obj_cons (.int _) plain_nil))
    (plain_obj_cons (plain_obj_cons (.int _) (plain_obj_cons (.int _) plain_nil)) plain_nil)

theorem plain_assoc {k : Str} {v : Json} : ∀ {m : List (Str × Json)}, (∀ e ∈ m, Plain e.2) → Json.assoc k m = some v → Plain v
  | [], _, h => nomatch h
  | e :: m, hm, h => by
    rw [Json.assoc] at h
    split at h
    · cases h; exact hm e (by simp)
    · exact plain_assoc (fun x hx => hm x (by simp [hx])) h

theorem plain_member {ε : Type} {j v : Json} {k : Str} (hj : Plain j) (h : j.member? (ε := ε) k = .ok (some v)) : Plain v := by
  cases hj with
  | obj m hm =>
    unfold Json.member? at h
    simp only [Out.ok.injEq] at h
    exact plain_assoc hm h
  | _ => cases h

theorem plain_get {ε : Type} {j v : Json} {k : Str} (hj : Plain j) (h : j.get (ε := ε) k = .ok v) : Plain v := by
  simp only [Json.get, Out.bind_eq_ok] at h
  obtain ⟨r, h1, h⟩ := h
  cases r with
  | none => cases h
  | some w => cases h; exact plain_member hj h1

theorem plain_copied {j : Json} {k : Str} {m : List (Str × Json)} (hj : Plain j) (h : copied j k = .ok m) : Plain (.obj m) := by
  simp only [copied, Out.bind_eq_ok] at h
  obtain ⟨r, h1, h⟩ := h
  cases r with
  | none => cases h; exact plain_nil
  | some w => cases h; exact plain_obj_cons (plain_member hj h1) plain_nil

theorem plain_hoverResult (s : Str) (l : Int) (t : Token) : Plain (hoverResult s l t) :=
  plain_obj_cons (.str _) (plain_obj_cons (plain_range _ _ _) plain_nil)

theorem plain_hoverIn {F : Files S G C} {st st' : Srv.St S G C} {ctx : Option Ctx} {line ch : Int} {r : Json}
    (h : hoverIn W F st ctx line ch = .ok (st', r)) : Plain r := by
  unfold hoverIn at h
  simp only at h
  split at h
  · simp only [Out.bind_eq_ok] at h
    obtain ⟨⟨a, g⟩, _, ⟨b, m⟩, _, h⟩ := h
    cases h; exact plain_hoverResult _ _ _
  split at h
  · cases h; exact .null
  split at h
  · simp only [Out.bind_eq_ok] at h
    obtain ⟨id, _, h⟩ := h
    split at h
    · simp only [Out.bind_eq_ok] at h
      obtain ⟨⟨a, g⟩, _, ⟨b, m⟩, _, h⟩ := h
      cases h; exact plain_hoverResult _ _ _
    · cases h; exact plain_nil
  split at h
  · simp only [Out.bind_eq_ok] at h
    obtain ⟨s, _, h⟩ := h
    cases h; exact plain_hoverResult _ _ _
  · cases h; exact .null

theorem plain_suggestions : ∀ (l : List Str) (n : Nat), ∀ x ∈ suggestionsFrom n l, Plain x
  | [], _, _, h => nomatch h
  | s :: l, n, x, h => by
    rw [suggestionsFrom] at h
    rcases List.mem_cons.mp h with rfl | h
    · exact plain_obj_cons (.str _) (plain_obj_cons (.int _) (plain_obj_cons (.int _) (plain_obj_cons (.int _) plain_nil)))
    · exact plain_suggestions l _ x h

theorem plain_textOrNull (s : Str) : Plain (textOrNull s) := by
  unfold textOrNull; split
  exacts [.null, .str _]

theorem plain_command (s : Str) : Plain (lensCommand s) := plain_obj_cons (.str _) (plain_obj_cons .null plain_nil)

theorem plain_diag (d : Diag) : Plain (diagJson d) :=
  plain_obj_cons (.int _) (plain_obj_cons (plain_range _ _ _) (plain_obj_cons (.str _) plain_nil))

theorem plain_publication {u : Str} {ds : List Json} (h : ∀ d ∈ ds, Plain d) : Plain (publication u ds) :=
  plain_obj_cons (.str _) (plain_obj_cons (.str _) (plain_obj_cons
    (plain_obj_cons (.str _) (plain_obj_cons (.arr _ h) plain_nil)) plain_nil))

/-- The answers to a message have integers for numbers, if the message has. -/
theorem handle_plain {F : Files S G C} {st st' : Srv.St S G C} {d : Json} {outs : List Json} (hr : ∀ e, Plain (W.related e))
    (hd : Plain d) (h : handle W F st d = .ok (st', outs)) : ∀ o ∈ outs, Plain o := by
  have one : ∀ {j : Json}, Plain j → ∀ o ∈ [j], Plain o := by
    intro j hj o ho; rw [List.mem_singleton.mp ho]; exact hj
  cases handle_step h with
  | text _ _ _ _ hp =>
    simp only [publish, Out.bind_eq_ok] at hp
    obtain ⟨⟨p, r⟩, _, ⟨s, err⟩, _, ds, _, hp⟩ := hp
    cases hp
    refine one (plain_publication ?_)
    intro x hx
    rcases List.mem_append.mp hx with hx | hx
    · cases err with
      | none => cases hx
      | some e =>
        simp only at hx
        split at hx
        · cases hx
        · rw [List.mem_singleton.mp hx]
          exact plain_obj_cons (.int _) (plain_obj_cons (plain_range _ _ _) (plain_obj_cons (.str _)
            (plain_obj_cons (hr _) plain_nil)))
    · obtain ⟨d, _, rfl⟩ := List.mem_map.mp hx
      exact plain_diag d
  | close _ _ => simp
  | init _ _ =>
    refine one (plain_response ?_)
    unfold capabilities
    repeat' first | exact plain_nil | exact .bool _ | exact .int _ | apply plain_obj_cons
  | completion _ _ hc =>
    simp only [completion, Out.bind_eq_ok] at hc
    obtain ⟨⟨a, g⟩, _, ⟨b, m⟩, _, hc⟩ := hc
    cases hc
    exact one (plain_response (.arr _ (plain_suggestions _ _)))
  | resolve _ hc =>
    simp only [resolve, Out.bind_eq_ok] at hc
    obtain ⟨j, hj, id, hid, b, hb, hc⟩ := hc
    split at hc
    · simp only [Out.bind_eq_ok] at hc
      obtain ⟨p, hp, l, hl, f, hf, k, hk, dt, hdt, s, hs, x, hx, hc⟩ := hc
      cases hc
      have pp := plain_get hd hp
      refine one (plain_response (plain_obj_append (plain_obj_append (plain_obj_append (plain_obj_cons (plain_get pp hl)
        (plain_copied pp hf)) (plain_copied pp hk)) (plain_copied pp hdt))
        (plain_obj_cons (plain_textOrNull _) (plain_obj_cons (plain_textOrNull _) plain_nil))))
    · cases hc; exact one (plain_response plain_nil)
  | hover _ hc =>
    simp only [hover, Out.bind_eq_ok] at hc
    obtain ⟨_, _, _, _, _, _, _, _, _, _, _, _, _, _, _, _, _, _, _, _, _, _, ⟨s, r⟩, hr, hc⟩ := hc
    cases hc
    exact one (plain_response (plain_hoverIn hr))
  | lens _ hc =>
    simp only [codeLens, Out.bind_eq_ok] at hc
    obtain ⟨_, _, _, _, _, _, _, _, _, _, _, _, hc⟩ := hc
    cases hc
    refine one (plain_response ?_)
    unfold lensResult
    split
    · exact .null
    · split
      · exact .null
      · refine .arr _ ?_
        intro x hx
        obtain ⟨e, _, rfl⟩ := List.mem_map.mp hx
        exact plain_obj_cons (plain_range _ _ _) (plain_obj_cons (plain_command _) plain_nil)
  | lensResolve _ hc =>
    simp only [codeLensResolve, Out.bind_eq_ok] at hc
    obtain ⟨p, hp, r, hr, _, _, _, _, _, _, _, _, _, _, hc⟩ := hc
    cases hc
    refine one (plain_response ?_)
    unfold lensResolved
    split
    · exact .null
    · split
      · exact plain_obj_cons (plain_get (plain_get hd hp) hr) (plain_obj_cons (plain_command _) plain_nil)
      · exact .null
  | shutdown _ _ => exact one (plain_response .null)
  | exit _ => simp
  | quiet _ => simp

/-- C59: for every message whose numbers are integers, every text the server
writes in return is well formed JSON, and a reader obtains exactly the value the
server meant, whatever characters the documents, titles and descriptions
contain. -/
theorem C59_answers_read_back {F : Files S G C} {st st' : Srv.St S G C} {d : Json} {outs : List Json}
    (hr : ∀ e, Plain (W.related e)) (hd : Plain d) (h : handle W F st d = .ok (st', outs)) :
    ∀ o ∈ outs, Means o.render o :=
  fun o ho => means_render (handle_plain hr hd h o ho)

/-- C59 for whole sessions. -/
theorem C59_session (hr : ∀ e, Plain (W.related e)) : ∀ (ds : List (Files S G C × Json)) {st st' : Srv.St S G C}
    {outs : List (List Json)}, (∀ d ∈ ds, Plain d.2) → run W st ds = .ok (st', outs) →
    ∀ os ∈ outs, ∀ o ∈ os, Means o.render o
  | [], _, _, _, _, h => by cases h; simp
  | (F, d) :: ds, st, st', outs, hp, h => by
    simp only [run, Out.bind_eq_ok] at h
    obtain ⟨⟨s1, o1⟩, h1, ⟨s2, o2⟩, h2, h⟩ := h
    cases h
    intro os hos
    rcases List.mem_cons.mp hos with rfl | hos
    · exact C59_answers_read_back hr (hp (F, d) (by simp)) h1
    · exact C59_session hr ds (fun x hx => hp x (by simp [hx])) h2 os hos

/-- A text has one meaning: an answer cannot be read in two ways. -/
theorem C59_unambiguous {s : Str} {a b : Json} (ha : Means s a) (hb : Means s b) : a = b := by
  obtain ⟨n, ha⟩ := ha
  obtain ⟨m, hb⟩ := hb
  have h1 := ha (max n m) (by omega)
  have h2 := hb (max n m) (by omega)
  rw [h1] at h2
  cases h2
  rfl

/-- A document whose name contains a quote, a backslash and a line feed: the
name arrives unchanged. -/
example : ∃ st o, handle w0 files {} (opened c!"a\"b\\\n" c!"G0") = .ok (st, [o]) ∧ Means o.render o ∧
    path [c!"params", c!"uri"] o = some (.str c!"a\"b\\\n") := by
  refine ⟨_, _, rfl, ?_, rfl⟩
  exact C59_answers_read_back (W := w0) (F := files) (st := {}) (d := opened c!"a\"b\\\n" c!"G0") (fun _ => .null)
    (plain_obj_cons (.str _) (plain_obj_cons (plain_obj_cons (plain_obj_cons (.str _) (plain_obj_cons (.str _) plain_nil))
      plain_nil) plain_nil)) rfl _ (by simp)

end NC.Props
