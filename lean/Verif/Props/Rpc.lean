import Verif.Props.Serving
import Verif.Spec.Rpc

/-!
# C131: every request is answered
-/

namespace NC.Props
open NC NC.Srv NC.Spec.Server NC.Spec.Framing NC.Spec.Rpc NC.Demo

variable {S G C σ : Type} {W : World S G C σ}

theorem rpc_int {d : Json} {z : Int} (h : intAt [c!"id"] d = some z) : path [c!"id"] d = some (.int z) := by
  unfold intAt at h
  split at h
  · split at h
    · cases h; assumption
    · cases h
  · cases h

theorem rpc_small {d : Json} {z : Int} (h : path [c!"id"] d = some (.int z)) (hz : Json.isInt32 z = true) : intAt [c!"id"] d = some z := by
  unfold Json.isInt32 at hz
  rw [Bool.and_eq_true, decide_eq_true_eq, decide_eq_true_eq] at hz
  unfold intAt
  rw [h]
  exact if_pos hz

theorem rpc_idOf {d : Json} {i : Int} (h : idOf d = .ok i) (he : path [c!"id"] d = some (.int i)) : intAt [c!"id"] d = some i := by
  cases hs : Json.isInt32 i with
  | true => exact rpc_small he hs
  | false =>
    cases d with
    | obj o =>
      have ha : Json.assoc c!"id" o = some (.int i) := by
        simp only [path] at he
        cases ha : Json.assoc c!"id" o with
        | none => rw [ha] at he; cases he
        | some v => rw [ha] at he; cases he; rfl
      unfold idOf Json.member? at h
      simp only [Out.bind_ok, ha, hs] at h
      have h0 : (0 : Int) = i := by simpa using h
      rw [← h0] at hs
      cases hs
    | _ => cases he

theorem rpc_response {d : Json} {i : Int} {r : Json} : AnsweredOnce d [response i r] ↔ path [c!"id"] d = some (.int i) := by
  constructor
  · rintro ⟨j, hj, hi, -⟩
    cases hj
    exact hi.symm
  · intro h
    exact ⟨_, rfl, h.symm, .inl ⟨r, rfl⟩⟩

/-- **C131, one message.** When a request is handled without fault, it is answered once, under its own id, exactly when its method is one of
the seven the server has answers for and its id is an integer of 32 bits.  Requests of all other methods, and requests whose id is a text, a
larger number or anything else, are not. -/
theorem C131_answered_iff_partial {F : Files S G C} {st st' : Srv.St S G C} {d : Json} {outs : List Json} (hq : Request d)
    (h : handle W F st d = .ok (st', outs)) :
    AnsweredOnce d outs ↔ (∃ m ∈ requests, method d = some m) ∧ ∃ z, intAt [c!"id"] d = some z := by
  obtain ⟨m, v, hm, hv, hn⟩ := hq
  have no : outs = [] → ¬ AnsweredOnce d outs := by rintro rfl ⟨j, hj, -⟩; cases hj
  have req : ∀ {n : Str} {i : Int} {r : Json}, method d = some n → n ∈ requests → (path [c!"id"] d = some (.int i) → intAt [c!"id"] d = some i) →
      (∀ z, intAt [c!"id"] d = some z → i = z) →
      (AnsweredOnce d [response i r] ↔ (∃ m ∈ requests, method d = some m) ∧ ∃ z, intAt [c!"id"] d = some z) := by
    intro n i r hn hr h1 h2
    rw [rpc_response]
    constructor
    · intro e; exact ⟨⟨n, hr, hn⟩, i, h1 e⟩
    · rintro ⟨-, z, hz⟩
      rw [h2 z hz]; exact rpc_int hz
  have non : ∀ {n : Str}, method d = some n → n ∉ requests → ¬ ((∃ m ∈ requests, method d = some m) ∧ ∃ z, intAt [c!"id"] d = some z) := by
    rintro n e hr ⟨⟨k, hk, ek⟩, -⟩
    rw [e] at ek; cases ek; exact hr hk
  cases handle_step h with
  | text hm hmt he hu hp =>
    rename_i u t n
    obtain ⟨p', r', e, ds, -, -, -, rfl⟩ := publish_ok hp
    have hr : n ∉ requests := by
      simp only [texts, List.mem_cons, List.not_mem_nil, or_false] at hmt
      rcases hmt with rfl | rfl <;> decide
    refine iff_of_false ?_ (non hm hr)
    rintro ⟨j, hj, hi, -⟩
    cases hj
    rw [hv] at hi
    cases hi
  | close hm he => exact iff_of_false (no rfl) (non hm (by decide))
  | init hm hid => exact req hm (by decide) (rpc_idOf hid) (idOf_ok hid)
  | completion hm hid h =>
    obtain ⟨k, rfl⟩ := completion_ok h
    exact req hm (by decide) (rpc_idOf hid) (idOf_ok hid)
  | resolve hm h =>
    obtain ⟨id, r, hi, rfl, rfl⟩ := resolve_ok h
    exact req hm (by decide) (fun _ => hi) (by intro z hz; rw [hi] at hz; exact Option.some.inj hz)
  | hover hm h =>
    obtain ⟨_, _, _, id, r, -, -, -, hi, hh, rfl⟩ := hover_ok h
    exact req hm (by decide) (fun _ => hi) (by intro z hz; rw [hi] at hz; exact Option.some.inj hz)
  | lens hm h =>
    obtain ⟨_, id, -, hi, k, rfl⟩ := codeLens_ok h
    exact req hm (by decide) (fun _ => hi) (by intro z hz; rw [hi] at hz; exact Option.some.inj hz)
  | lensResolve hm h =>
    obtain ⟨_, _, id, -, -, hi, rfl, rfl⟩ := codeLensResolve_ok h
    exact req hm (by decide) (fun _ => hi) (by intro z hz; rw [hi] at hz; exact Option.some.inj hz)
  | shutdown hm hid => exact req hm (by decide) (rpc_idOf hid) (idOf_ok hid)
  | exit hm => exact iff_of_false (no rfl) (non hm (by decide))
  | quiet hq =>
    obtain ⟨h1, h2, h3, h4⟩ := hq m hm
    exact iff_of_false (no rfl) (non hm h1)

/-- A hover request and a completion request meet the hypotheses, and both sides hold. -/
example : ∃ st o, handle w0 files {} (hovered 3 c!"u" 0 1) = .ok (st, o) ∧ AnsweredOnce (hovered 3 c!"u" 0 1) o := by
  obtain ⟨st, o, h⟩ : ∃ st o, handle w0 files {} (hovered 3 c!"u" 0 1) = .ok (st, o) := ⟨_, _, rfl⟩
  refine ⟨st, o, h, (C131_answered_iff_partial ⟨c!"textDocument/hover", .int 3, rfl, rfl, by simp⟩ h).mpr
    ⟨⟨c!"textDocument/hover", by decide, rfl⟩, 3, rfl⟩⟩

/-- **C131, faults.** A hover, lens or resolve request whose id is not an integer of 32 bits is never handled without fault, whatever the state,
the files and the rest of the request. -/
theorem C131_fault_partial {F : Files S G C} {st st' : Srv.St S G C} {d : Json} {outs : List Json} {m : Str} (hm : method d = some m)
    (hk : m ∈ [c!"completionItem/resolve", c!"textDocument/hover", c!"textDocument/codeLens", c!"codeLens/resolve"])
    (hi : intAt [c!"id"] d = none) : handle W F st d ≠ .ok (st', outs) := by
  intro h
  obtain ⟨id, e, -⟩ := handle_of_method (W := W) (F := F) (st := st) hm
  rw [e] at h
  simp only [List.mem_cons, List.not_mem_nil, or_false] at hk
  rcases hk with rfl | rfl | rfl | rfl
  · obtain ⟨id, r, hi', -, -⟩ := resolve_ok (show resolve W st d = _ from h)
    rw [hi] at hi'; cases hi'
  · obtain ⟨_, _, _, id, r, -, -, -, hi', -, -⟩ := hover_ok (show hover W F st d = _ from h)
    rw [hi] at hi'; cases hi'
  · obtain ⟨_, id, -, hi', -, -⟩ := codeLens_ok (show codeLens st d = _ from h)
    rw [hi] at hi'; cases hi'
  · obtain ⟨_, _, id, -, -, hi', -, -⟩ := codeLensResolve_ok (show codeLensResolve st d = _ from h)
    rw [hi] at hi'; cases hi'

/-- A hover request whose id is a text. -/
def hoveredText (id uri : Str) (line ch : Int) : Json :=
  .obj [(c!"id", .str id), (c!"method", .str c!"textDocument/hover"),
    (c!"params", .obj [(c!"textDocument", .obj [(c!"uri", .str uri)]),
      (c!"position", .obj [(c!"line", .int line), (c!"character", .int ch)])])]

/-- A request of a method. -/
def asked (id : Json) (m : Str) : Json := .obj [(c!"id", id), (c!"method", .str m)]

/-- **C131 fails for methods the server does not know**: nothing is written. -/
theorem C131_violated_unknown : ∃ d, Request d ∧ ∃ st, handle w0 files {} d = .ok (st, []) ∧ ¬ AnsweredOnce d [] :=
  ⟨asked (.int 7) c!"textDocument/formatting", ⟨_, _, rfl, rfl, by simp⟩, _, rfl, by rintro ⟨j, hj, -⟩; cases hj⟩

/-- **C131 fails for ids that are texts**: `initialize` is answered under the id 0, hover is a fault. -/
theorem C131_violated_text_id :
    (∃ d st r, Request d ∧ path [c!"id"] d = some (.str c!"x") ∧ handle w0 files {} d = .ok (st, [response 0 r]) ∧ ¬ AnsweredOnce d [response 0 r]) ∧
      ∃ d, Request d ∧ path [c!"id"] d = some (.str c!"1") ∧ handle w0 files {} d = .ub := by
  refine ⟨⟨asked (.str c!"x") c!"initialize", _, _, ⟨_, _, rfl, rfl, by simp⟩, rfl, rfl, ?_⟩, hoveredText c!"1" c!"u" 0 0, ⟨_, _, rfl, rfl, by simp⟩, rfl, rfl⟩
  rw [rpc_response]
  intro h
  cases h

/-- **C131, the life of the server.** A conversation without `shutdown` is taken to its `exit`: the messages handled are those a server has to
take, each request among them with a known method and an integer id is answered once, in order. -/
theorem C131_conversation_partial (ws : List Wire) (hw : ∀ w ∈ ws, w.Good) (docs : List Json)
    (hd : List.Forall₂ (fun w d => W.readJson w.body = some d) ws docs) (last : Files S G C) (fs : List (Files S G C))
    (hs : ∀ d ∈ docs, method d ≠ some c!"shutdown") {p : Proc S G C} {e : Ended}
    (h : Srv.main (onMessage W) ⟨{}, [], fs, last⟩ (ws.map Wire.text).flatten = .ok (p, e)) :
    ∃ outs : List (List Json), p.written = outs.flatten ∧
      List.Forall₂ (fun d o => Request d → (AnsweredOnce d o ↔ (∃ m ∈ requests, method d = some m) ∧ ∃ z, intAt [c!"id"] d = some z)) (untilExit docs) outs := by
  have ht : ∀ l : List Json, (∀ d ∈ l, method d ≠ some c!"shutdown") → through l = untilExit l := by
    intro l
    induction l with
    | nil => intro _; rfl
    | cons d l ih =>
      intro hl
      unfold through untilExit
      rw [ih (fun x hx => hl x (List.mem_cons_of_mem _ hx))]
      by_cases hx : method d = some c!"exit"
      · rw [if_pos (show Ends d from .inr hx), if_pos hx]
      · rw [if_neg (show ¬ Ends d from fun q => q.elim (hl d (by simp)) hx), if_neg hx]
  have := C05_stops (W := W) ws hw [] (by simp) docs hd last fs
  rw [List.append_nil, h] at this
  cases hr : run W {} (withFiles last fs (through docs)) with
  | throw e => rw [hr] at this; cases this
  | ub => rw [hr] at this; cases this
  | ok q =>
    rw [hr] at this
    simp only [Out.bind_ok, Out.ok.injEq, Prod.mk.injEq] at this
    refine ⟨q.2, by rw [this.1], ?_⟩
    rw [← ht docs hs]
    have key : ∀ (l : List Json) (fs : List (Files S G C)) (st : Srv.St S G C) (q : Srv.St S G C × List (List Json)),
        run W st (withFiles last fs l) = .ok q →
        List.Forall₂ (fun d o => Request d → (AnsweredOnce d o ↔ (∃ m ∈ requests, method d = some m) ∧ ∃ z, intAt [c!"id"] d = some z)) l q.2 := by
      intro l
      induction l with
      | nil => intro fs st q h; cases h; exact .nil
      | cons d l ih =>
        intro fs st q h
        obtain ⟨q1, q2⟩ := q
        obtain ⟨s, o, os, h1, h2, rfl⟩ := run_cons_ok h
        exact .cons (fun hq => C131_answered_iff_partial hq h1) (ih _ _ _ h2)
    exact key _ _ _ _ hr

/-- A reader that knows two bodies. -/
def rpcReader (b : Str) : Option Json :=
  if b = c!"{shut}" then some (shut 1)
  else if b = c!"{comp}" then some (completed 2)
  else if b = c!"{quit}" then some quit else none

/-- Three messages: two requests and `exit`. -/
def rpcWires (first : Str) : List Wire :=
  [⟨[], c!"6", c!"\r\n\r\n", first⟩, ⟨[], c!"6", c!"\r\n\r\n", c!"{comp}"⟩, ⟨[], c!"6", c!"\r\n\r\n", c!"{quit}"⟩]

theorem rpcWires_good {x : Str} (hx : x = c!"{shut}" ∨ x = c!"{comp}") : ∀ w ∈ rpcWires x, w.Good := by
  intro w hw
  simp only [rpcWires, List.mem_cons, List.not_mem_nil, or_false] at hw
  rcases hx with rfl | rfl <;> rcases hw with rfl | rfl | rfl <;>
    exact ⟨by decide, by decide, by decide, by decide, by decide, by decide, ⟨_, _, rfl, by decide, by decide⟩⟩

/-- Two completion requests and `exit` are a conversation of the theorem; two answers are written. -/
example : ∃ p e, Srv.main (onMessage (world rpcReader)) ⟨{}, [], [], files⟩ ((rpcWires c!"{comp}").map Wire.text).flatten = .ok (p, e) ∧
    p.written.length = 2 ∧ ∃ outs : List (List Json), p.written = outs.flatten ∧ outs.length = 3 := by
  have hd : List.Forall₂ (fun (w : Wire) d => (world rpcReader).readJson w.body = some d) (rpcWires c!"{comp}") [completed 2, completed 2, quit] :=
    .cons rfl (.cons rfl (.cons rfl .nil))
  have h := C05_stops (W := world rpcReader) _ (rpcWires_good (.inr rfl)) [] (by simp) _ hd files []
  rw [List.append_nil] at h
  obtain ⟨p, e, hp, hl⟩ : ∃ p e, Srv.main (onMessage (world rpcReader)) ⟨{}, [], [], files⟩ ((rpcWires c!"{comp}").map Wire.text).flatten = .ok (p, e) ∧
      p.written.length = 2 := by
    rw [h]; exact ⟨_, _, rfl, rfl⟩
  obtain ⟨outs, h1, h2⟩ := C131_conversation_partial (W := world rpcReader) _ (rpcWires_good (.inr rfl)) _ hd files []
    (by
      intro d hd
      simp only [List.mem_cons, List.not_mem_nil, or_false] at hd
      rcases hd with rfl | rfl | rfl <;> simp [method, textAt, path, completed, quit, Json.assoc]) hp
  exact ⟨p, e, hp, hl, outs, h1, h2.length_eq.symm⟩

/-- **C131 fails after `shutdown`**: of shutdown, a completion request and `exit` only the first is read. -/
theorem C131_violated_shutdown : ∃ p, untilExit [shut 1, completed 2, quit] = [shut 1, completed 2, quit] ∧
    Srv.main (onMessage (world rpcReader)) ⟨{}, [], [], files⟩ ((rpcWires c!"{shut}").map Wire.text).flatten =
      .ok (p, .stopped (((rpcWires c!"{shut}").drop 1).map Wire.text).flatten) ∧
    p.written.length = 1 ∧ ∀ j ∈ p.written, ¬ AnswerTo (completed 2) j := by
  have hd : List.Forall₂ (fun (w : Wire) d => (world rpcReader).readJson w.body = some d) (rpcWires c!"{shut}") [shut 1, completed 2, quit] :=
    .cons rfl (.cons rfl (.cons rfl .nil))
  have h := C05_stops (W := world rpcReader) _ (rpcWires_good (.inl rfl)) [] (by simp) _ hd files []
  have hE : ∃ d ∈ [shut 1, completed 2, quit], Ends d := ⟨shut 1, by simp, .inl rfl⟩
  rw [List.append_nil, if_pos hE] at h
  rw [h]
  refine ⟨⟨_, [response 1 .null], _, _⟩, rfl, rfl, rfl, ?_⟩
  intro j hj
  rw [List.mem_singleton.mp hj]
  rintro ⟨hi, -⟩
  have : some (Json.int 1) = some (Json.int 2) := hi
  cases this

end NC.Props
