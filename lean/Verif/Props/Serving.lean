import Verif.Props.Hover
import Verif.Demo

/-!
# The server as a process: C04 (crashes), C05, C57, C58
-/

namespace NC.Props
open NC NC.Srv NC.Spec.Server NC.Spec.Framing NC.Demo

variable {S G C σ : Type} {W : World S G C σ}

/-! ## C04: messages that end the process -/

/-- Hovering over a macro whose number does not fit an `int`. -/
theorem hoverIn_big {F : Files S G C} {st : Srv.St S G C} {c : Ctx} {line : Int} {ds : Str}
    (hm : c.macros ≠ []) (hl : c.lines[line.toNat]? = some ('#' :: ds)) (hd : ∀ x ∈ ds, isDig x = true)
    (hb : 2147483647 < readNat ds) : hoverIn W F st (some c) line 0 = .throw (.num .outOfRange) := by
  have hne : ds ≠ [] := by rintro rfl; simp [readNat] at hb
  have ht : textFor (some c) line = '#' :: ds := by simp [textFor, hl]
  have htw : ds.takeWhile isDig = ds := takeWhile_all hd
  have nosearch : ∀ (l : Str) (p k : Nat), 1 ≤ p + k → search matchCode 0 p k l = none := by
    intro l
    induction l with
    | nil => intro p k _; cases k <;> rfl
    | cons x l ih =>
      intro p k hpk
      cases k with
      | succ k => exact ih _ _ (by omega)
      | zero =>
        rw [search]
        split
        · rw [if_neg (by omega)]; exact ih _ _ (by omega)
        · exact ih _ _ (by omega)
  have nosearch2 : ∀ (l : Str) (p k : Nat), 1 ≤ p + k → search matchCodeHash 0 p k l = none := by
    intro l
    induction l with
    | nil => intro p k _; cases k <;> rfl
    | cons x l ih =>
      intro p k hpk
      cases k with
      | succ k => exact ih _ _ (by omega)
      | zero =>
        rw [search]
        split
        · rw [if_neg (by omega)]; exact ih _ _ (by omega)
        · exact ih _ _ (by omega)
  have s1 : search matchCode 0 0 0 ('#' :: ds) = none := by
    rw [search]
    have : matchCode ('#' :: ds) = none := by simp [matchCode, isCodeLetter]
    rw [this]
    exact nosearch _ _ _ (by omega)
  have s2 : search matchCodeHash 0 0 0 ('#' :: ds) = none := by
    rw [search]
    have : matchCodeHash ('#' :: ds) = none := by simp [matchCodeHash, isCodeLetter]
    rw [this]
    exact nosearch2 _ _ _ (by omega)
  have s3 : search matchHash 0 0 0 ('#' :: ds) = some ⟨0, 0 + (1 + ds.length), ('#' :: ds).take (1 + ds.length)⟩ := by
    rw [search]
    have : matchHash ('#' :: ds) = some (1 + ds.length) := by
      unfold matchHash
      simp only
      rw [htw, if_pos hne]
    rw [this]
    simp only
    rw [if_pos ⟨by omega, by omega⟩]
  obtain ⟨g1, g2, g3⟩ := extractCode_digits hd hne
  have hthrow : macroId (extractCode ds) = .throw (.num .outOfRange) := by
    unfold macroId
    rw [stoi_digits_cases g1 g2, g3, if_neg (by omega)]
  unfold hoverIn
  simp only [ht, macrosFor]
  rw [s1]
  simp only
  rw [if_neg hm, s2]
  simp only
  rw [s3]
  have e : (('#' :: ds).take (1 + ds.length)).drop 1 = ds := by simp [Nat.add_comm]
  simp only [macroHover, e, hthrow, Out.bind_throw]

/-- C04 is violated: after any history that leaves a document with a line that
consists of a macro with a number above 2147483647, hovering over that macro
ends the process with an exception instead of an answer.  (The macro table is
never empty in the running server: `reset_macro_values` enters #3101 and #3102.) -/
theorem C04_violated_big_macro_number (ds : List (Files S G C × Json)) (hcl : ∀ d ∈ ds, Clean d.2) {st : Srv.St S G C}
    {outs : List (List Json)} (h : run W {} ds = .ok (st, outs)) (u t : Str) (hu : latest u (ds.map (·.2)) = some t)
    (hn : ∀ c ∈ u, c.toNat ≠ 0) (hmac : ∀ c, find u st.contexts = some c → c.macros ≠ [])
    (line : Nat) (hlt : line ≤ 2147483647) (num : Str) (hl : (contentLines t)[line]? = some ('#' :: num))
    (hd : ∀ x ∈ num, isDig x = true) (hb : 2147483647 < readNat num) (F : Files S G C) (id : Int)
    (hid : -2147483648 ≤ id ∧ id ≤ 2147483647) :
    handle W F st (hovered id u line 0) = .throw (.num .outOfRange) := by
  have := contexts_follow u ds {} st outs none hcl h rfl
  unfold latest at hu
  rw [hu] at this
  simp only [Option.map_some, Option.map_eq_some_iff] at this
  obtain ⟨c, hc, hcl⟩ := this
  have hlen : line < c.lines.length := by
    rw [hcl]
    exact (List.getElem?_eq_some_iff.mp hl).1
  have hctx : ctxFor st u line = some c := by
    unfold ctxFor
    rw [hc]
    simp only
    rw [if_pos ⟨by omega, by omega⟩]
  have e : handle W F st (hovered id u line 0) = hover W F st (hovered id u line 0) := rfl
  rw [e]
  have g1 : (Json.int (line : Int)).getInt (ε := Exc) = .ok (line : Int) :=
    getInt_ok.mpr ⟨rfl, by simp [Json.isInt32]; omega⟩
  have g2 : (Json.int id).getInt (ε := Exc) = .ok id := getInt_ok.mpr ⟨rfl, by simp [Json.isInt32]; omega⟩
  have : hover W F st (hovered id u line 0) =
      ((Json.int (line : Int)).getInt >>= fun l => (Json.int 0).getInt >>= fun ch => (Json.str u).getCStr >>= fun uri =>
        (Json.int id).getInt >>= fun i => hoverIn W F st (ctxFor st uri l) l ch >>= fun r => .ok (r.1, [response i r.2])) := rfl
  rw [this, g1]
  simp only [Out.bind_ok]
  rw [show (Json.int 0).getInt (ε := Exc) = .ok 0 from rfl]
  simp only [Out.bind_ok]
  rw [getCStr_ok.mpr ⟨u, rfl, rfl⟩, cstr_of_clean hn]
  simp only [Out.bind_ok]
  rw [g2]
  simp only [Out.bind_ok]
  rw [hctx, hoverIn_big (hmac c hc) (by rw [hcl]; simpa using hl) hd hb]
  rfl

/-- A document and a position for which `C04_violated_big_macro_number` applies. -/
example : ∃ st outs, run w0 {} [(files, opened c!"u" c!"G0 X1\n#99999999999")] = .ok (st, outs) ∧
    handle w0 files st (hovered 1 c!"u" 1 0) = .throw (.num .outOfRange) := by
  refine ⟨_, _, rfl, ?_⟩
  exact C04_violated_big_macro_number (W := w0) [(files, opened c!"u" c!"G0 X1\n#99999999999")]
    (by intro d hd; simp only [List.mem_singleton] at hd; subst hd; exact opened_clean (by decide) (by decide))
    rfl c!"u" c!"G0 X1\n#99999999999" rfl (by decide) (by intro c hc; cases hc; decide) 1 (by decide)
    c!"99999999999" (by decide) (by decide) (by decide) files 1 (by decide)

/-- C04 is violated: a text that is not JSON (rapidjson reports an error) makes
the handler ask a null document for its members. -/
theorem C04_violated_invalid_json (F : Files S G C) (st : Srv.St S G C) (body : Str) (h : W.readJson body = none) :
    Srv.parse W F st body = .ub := by
  unfold Srv.parse; rw [h]

/-- C04 is violated: resolving a suggestion in a server that has not been asked
for suggestions yet dereferences a null pointer. -/
theorem C04_violated_resolve_first (F : Files S G C) (code : Str) (id : Int) (hid : Json.isInt32 id = true) :
    handle W F ({} : Srv.St S G C) (.obj [(c!"id", .int id), (c!"method", .str c!"completionItem/resolve"),
      (c!"params", .obj [(c!"label", .str ('G' :: code))])]) = .ub := by
  have : handle W F ({} : Srv.St S G C) (.obj [(c!"id", .int id), (c!"method", .str c!"completionItem/resolve"),
      (c!"params", .obj [(c!"label", .str ('G' :: code))])]) =
      ((Json.int id).getInt >>= fun _ => .ub) := rfl
  rw [this, getInt_ok.mpr ⟨rfl, hid⟩]
  rfl

/-- `C04_hover_answered_partial` applies to a code and to a small macro. -/
example : ∃ st outs, run w0 {} [(files, opened c!"u" c!"G54 X#100")] = .ok (st, outs) ∧
    SmallMacros c!"G54 X#100" ∧
    ∃ st' r, handle w0 files st (hovered 7 c!"u" 0 1) = .ok (st', [response 7 r]) := by
  have small : SmallMacros c!"G54 X#100" := by
    rintro a b ⟨h1, h2, h3, -⟩
    have hb : b ≤ 9 := h2
    obtain ⟨ds, h3, -, -⟩ := h3
    have ha : a = 5 := by
      by_contra hne
      have : (slice c!"G54 X#100" a b).head? = some '#' := by rw [h3]; rfl
      have ha : a ≤ 8 := by omega
      revert this
      interval_cases b <;> interval_cases a <;> first | exact absurd rfl hne | decide
    subst ha
    interval_cases b <;> decide
  refine ⟨_, _, rfl, small, ?_⟩
  refine C04_hover_answered_partial (W := w0) (ds := [(files, opened c!"u" c!"G54 X#100")]) rfl files (by simp [files])
    (by simp [files]) (hovered 7 c!"u" 0 1) c!"u" 0 1 7 rfl rfl rfl rfl rfl ?_
  intro c hc l hl
  cases hc
  cases hl
  exact small

/-! ## C05 -/

theorem deliver_run : ∀ (ws : List Wire) (docs : List Json), List.Forall₂ (fun w d => W.readJson w.body = some d) ws docs →
    ∀ p : Proc S G C, p.st.exit = false →
    deliver (onMessage W) p ws = (run W p.st (withFiles p.last p.files (through docs)) >>= fun r =>
      .ok (⟨r.1, p.written ++ r.2.flatten, p.files.drop (through docs).length, p.last⟩,
        if ∃ d ∈ docs, Ends d then some (ws.drop (through docs).length) else none)) := by
  intro ws docs h
  induction h with
  | nil => intro p _; obtain ⟨st, w, f, l⟩ := p; simp [deliver, through, withFiles, run]
  | @cons w d ws docs hd hs ih =>
    intro p hp
    have e : deliver (onMessage W) p (w :: ws) = (handle W (p.files.headD p.last) p.st d >>= fun r =>
        if r.1.exit then .ok ({ p with st := r.1, written := p.written ++ r.2, files := p.files.tail }, some ws)
        else deliver (onMessage W) { p with st := r.1, written := p.written ++ r.2, files := p.files.tail } ws) := by
      rw [deliver, onMessage, Srv.parse, hd]
      dsimp only
      cases handle W (p.files.headD p.last) p.st d with
      | ok r => rfl
      | throw e => rfl
      | ub => rfl
    rw [e]
    by_cases hE : Ends d
    · have ht : through (d :: docs) = [d] := by rw [through, if_pos hE]
      rw [ht]
      simp only [withFiles, run]
      cases hh : handle W (p.files.headD p.last) p.st d with
      | ok r =>
        have := (step_replies hh).2
        rw [hp] at this
        simp only [Out.bind_ok, this, hE, decide_true, Bool.or_true, if_true, List.mem_cons, exists_eq_or_imp, true_or]
        simp
      | throw e => rfl
      | ub => rfl
    · have ht : through (d :: docs) = d :: through docs := by rw [through, if_neg hE]
      rw [ht]
      simp only [withFiles, run]
      cases hh : handle W (p.files.headD p.last) p.st d with
      | ok r =>
        have hx := (step_replies hh).2
        rw [hp] at hx
        simp only [hE, decide_false, Bool.or_false] at hx
        simp only [Out.bind_ok, hx, Bool.false_eq_true, if_false]
        rw [ih _ hx]
        simp only
        cases run W r.1 (withFiles p.last p.files.tail (through docs)) with
        | ok q => simp [hE, List.append_assoc, List.drop_tail]
        | throw e => rfl
        | ub => rfl
      | throw e => rfl
      | ub => rfl

/-- C05: on every well formed stream of JSON messages, the server processes
exactly the messages through the first `shutdown` or `exit` and then leaves the
rest of the input unread; without such a message it keeps waiting. -/
theorem C05_stops (ws : List Wire) (hw : ∀ w ∈ ws, w.Good) (tail : Str) (ht : 'C' ∉ tail) (docs : List Json)
    (hd : List.Forall₂ (fun w d => W.readJson w.body = some d) ws docs) (last : Files S G C) (fs : List (Files S G C)) :
    Srv.main (onMessage W) ⟨{}, [], fs, last⟩ ((ws.map Wire.text).flatten ++ tail) =
      (run W {} (withFiles last fs (through docs)) >>= fun r =>
        .ok (⟨r.1, r.2.flatten, fs.drop (through docs).length, last⟩,
          if ∃ d ∈ docs, Ends d then .stopped (((ws.drop (through docs).length).map Wire.text).flatten ++ tail)
          else .waiting)) := by
  rw [C01_framing _ _ ws hw tail ht, deliver_run ws docs hd ⟨{}, [], fs, last⟩ rfl]
  simp only
  cases run W {} (withFiles last fs (through docs)) with
  | ok q =>
    simp only [Out.bind_ok, List.nil_append]
    by_cases hE : ∃ d ∈ docs, Ends d
    · simp only [if_pos hE]
    · simp only [if_neg hE]
  | throw e => rfl
  | ub => rfl

/-- C05: in particular, if the process does not crash, it stops exactly when a
`shutdown` or `exit` message was sent. -/
theorem C05_stops_iff (ws : List Wire) (hw : ∀ w ∈ ws, w.Good) (docs : List Json)
    (hd : List.Forall₂ (fun w d => W.readJson w.body = some d) ws docs) (last : Files S G C) (fs : List (Files S G C))
    {p : Proc S G C} {e : Ended} (h : Srv.main (onMessage W) ⟨{}, [], fs, last⟩ (ws.map Wire.text).flatten = .ok (p, e)) :
    (e ≠ .waiting ↔ ∃ d ∈ docs, method d = some c!"shutdown" ∨ method d = some c!"exit") := by
  have := C05_stops ws hw [] (by simp) docs hd last fs
  rw [List.append_nil, h] at this
  cases hr : run W {} (withFiles last fs (through docs)) with
  | ok q =>
    rw [hr] at this
    simp only [Out.bind_ok, Out.ok.injEq, Prod.mk.injEq] at this
    rw [this.2]
    split
    · next hE => exact ⟨fun _ => hE, fun _ => by simp⟩
    · next hE => exact ⟨fun q => absurd rfl q, fun q => absurd q hE⟩
  | throw e => rw [hr] at this; cases this
  | ub => rw [hr] at this; cases this

/-- C04, C01: what the process wrote is a sequence of frames around the rendered
answers. -/
theorem C04_framed (p : Proc S G C) : Frames (p.written.map Json.render) p.output := by
  have := C01_answers (p.written.map Json.render)
  rw [List.map_map] at this
  exact this

/-- A reader that knows three bodies. -/
def reader (b : Str) : Option Json :=
  if b = c!"{shut}" then some (shut 1)
  else if b = c!"{quit}" then some quit
  else if b = c!"{open}" then some (opened c!"u" c!"G0") else none

/-- Four messages. -/
def fourWires : List Wire :=
  [⟨[], c!"6", c!"\r\n\r\n", c!"{open}"⟩, ⟨[], c!"6", c!"\r\n\r\n", c!"{shut}"⟩,
   ⟨[], c!"6", c!"\r\n\r\n", c!"{open}"⟩, ⟨[], c!"6", c!"\r\n\r\n", c!"{quit}"⟩]

/-- Two of the four messages are processed. -/
example : ∃ p, Srv.main (onMessage (world reader)) ⟨{}, [], [], files⟩ (fourWires.map Wire.text).flatten =
    .ok (p, .stopped ((fourWires.drop 2).map Wire.text).flatten) ∧ p.written.length = 2 := by
  have hg : ∀ w ∈ fourWires, w.Good := by
    intro w hw
    simp only [fourWires, List.mem_cons, List.not_mem_nil, or_false] at hw
    rcases hw with rfl | rfl | rfl | rfl <;>
      exact ⟨by decide, by decide, by decide, by decide, by decide, by decide, ⟨_, _, rfl, by decide, by decide⟩⟩
  have hd : List.Forall₂ (fun (w : Wire) d => (world reader).readJson w.body = some d) fourWires
      [opened c!"u" c!"G0", shut 1, opened c!"u" c!"G0", quit] :=
    .cons rfl (.cons rfl (.cons rfl (.cons rfl .nil)))
  have := C05_stops (W := world reader) fourWires hg [] (by simp) _ hd files []
  rw [List.append_nil] at this
  rw [this]
  have hE : ∃ d ∈ [opened c!"u" c!"G0", shut 1, opened c!"u" c!"G0", quit], Ends d := ⟨shut 1, by simp, .inl rfl⟩
  rw [if_pos hE]
  exact ⟨_, rfl, rfl⟩

/-! ## C57 -/

theorem cstr_append {a b : Str} (ha : ∀ c ∈ a, c.toNat ≠ 0) : Json.cstr (a ++ '\x00' :: b) = a := by
  unfold Json.cstr
  induction a with
  | nil => rfl
  | cons x a ih =>
    have hx : x.toNat ≠ 0 := ha x (by simp)
    rw [List.cons_append, List.takeWhile_cons_of_pos (by simpa using hx), ih (fun c hc => ha c (by simp [hc]))]

/-- C57 is violated: whatever stands behind a NUL character in an opened text is
not looked at. -/
theorem C57_violated_text_behind_nul (F : Files S G C) (st : Srv.St S G C) (u a b : Str) (ha : ∀ c ∈ a, c.toNat ≠ 0) :
    handle W F st (opened u (a ++ '\x00' :: b)) = handle W F st (opened u a) := by
  have e : ∀ t, handle W F st (opened u t) = publish W F st (Json.cstr u) (Json.cstr t) := fun _ => rfl
  rw [e, e, cstr_append ha, cstr_of_clean ha]

/-- C57 is violated: documents whose names differ only behind a NUL character
are mixed up. -/
theorem C57_violated_names (F : Files S G C) (st : Srv.St S G C) (u b t : Str) (hu : ∀ c ∈ u, c.toNat ≠ 0) :
    handle W F st (opened (u ++ '\x00' :: b) t) = handle W F st (opened u t) := by
  have e : ∀ u, handle W F st (opened u t) = publish W F st (Json.cstr u) (Json.cstr t) := fun _ => rfl
  rw [e, e, cstr_append hu, cstr_of_clean hu]

/-- C57 (part): without NUL characters, the stored lines of a document are those
of its complete text. -/
theorem C57_whole_text_partial (ds : List (Files S G C × Json)) (hcl : ∀ d ∈ ds, Clean d.2) {st : Srv.St S G C}
    {outs : List (List Json)} (h : run W {} ds = .ok (st, outs)) (u t : Str) (hu : latest u (ds.map (·.2)) = some t) :
    ∃ c, find u st.contexts = some c ∧ c.lines = contentLines t := by
  have := contexts_follow u ds {} st outs none hcl h rfl
  unfold latest at hu
  rw [hu] at this
  simp only [Option.map_some, Option.map_eq_some_iff] at this
  exact this

/-! ## C58 -/

/-- C58: with readable files, the diagnostics published for a text depend on
nothing but the text: not on the document's earlier texts, not on other
documents, not on requests in between. -/
theorem C58_same_diagnostics (F : Files S G C) {s : S} {g : G} {gc mc : C} (hL : Loaded W F s g gc mc)
    {md : MacroDesc} (hM : readMacros W.logging F.userDesc F.macroDesc = .ok (md, none))
    (ds₁ ds₂ : List Json) (hcl₁ : ∀ d ∈ ds₁, Clean d) (hcl₂ : ∀ d ∈ ds₂, Clean d)
    {st₁ st₂ st₁' st₂' : Srv.St S G C} {o₁ o₂ : List (List Json)} {out₁ out₂ : List Json}
    (h₁ : run W {} (ds₁.map (F, ·)) = .ok (st₁, o₁)) (h₂ : run W {} (ds₂.map (F, ·)) = .ok (st₂, o₂))
    (d₁ d₂ : Json) (u t : Str) (e₁ : event d₁ = some (u, some t)) (e₂ : event d₂ = some (u, some t))
    (c₁ : Clean d₁) (c₂ : Clean d₂) (a₁ : handle W F st₁ d₁ = .ok (st₁', out₁)) (a₂ : handle W F st₂ d₂ = .ok (st₂', out₂)) :
    out₁ = out₂ := by
  have key : ∀ {ds : List Json} {st st' : Srv.St S G C} {o : List (List Json)} {out : List Json} {d : Json},
      (∀ d ∈ ds, Clean d) → run W {} (ds.map (F, ·)) = .ok (st, o) → event d = some (u, some t) → Clean d →
      handle W F st d = .ok (st', out) → ∃ r l, runCode W s g gc mc t = .ok r ∧ diagsOf (ε := Exc) r.messages = .ok l ∧
        out = [publication u (l.map diagJson)] := by
    intro ds st st' o out d hcl h he hc ha
    obtain ⟨hI, -⟩ := contexts_loaded F hL u ds {} st o none hcl h .start rfl
    rcases step_contexts ha hc with ⟨v, t', p, r, he', -, -, -, hp⟩ | ⟨v, he', -, -, -⟩ | ⟨he', -, -, -⟩
    · rw [he] at he'; cases he'
      obtain ⟨-, r, l, e, hr, hl, -, ho, hn, hs⟩ := publish_inv hL hI hp
      refine ⟨r, l, hr, hl, ?_⟩
      have : e = none := by
        by_cases q : st.macroDesc = none
        · obtain ⟨md', q⟩ := hn q
          rw [hM] at q; cases q; rfl
        · exact hs q
      subst this
      simpa using ho
    · rw [he] at he'; cases he'
    · rw [he] at he'; cases he'
  obtain ⟨r, l, hr, hl, rfl⟩ := key hcl₁ h₁ e₁ c₁ a₁
  obtain ⟨r', l', hr', hl', rfl⟩ := key hcl₂ h₂ e₂ c₂ a₂
  rw [hr] at hr'; cases hr'
  rw [hl] at hl'; cases hl'
  rfl

/-- C58 applies to a fresh server and to one with a history; the text has a
faulty line. -/
example : ∃ st o s' out s'' out', run w0 {} [(files, opened c!"v" c!"X"), (files, opened c!"u" c!"!a"), (files, hovered 1 c!"u" 0 0)] = .ok (st, o) ∧
    handle w0 files st (changed c!"u" c!"G0\n!a") = .ok (s', out) ∧
    handle w0 files {} (opened c!"u" c!"G0\n!a") = .ok (s'', out') ∧ out = out' ∧
    out = [publication c!"u" [diagJson ⟨1, 1, c!"wrong"⟩]] := by
  refine ⟨_, _, _, _, _, _, rfl, rfl, rfl, ?_, ?_⟩
  · refine C58_same_diagnostics (W := w0) files files_loaded (md := _) rfl
      [opened c!"v" c!"X", opened c!"u" c!"!a", hovered 1 c!"u" 0 0] [] ?_ ?_ rfl rfl (changed c!"u" c!"G0\n!a")
      (opened c!"u" c!"G0\n!a") c!"u" c!"G0\n!a" rfl rfl ?_ ?_ rfl rfl
    · intro d hd
      simp only [List.mem_cons, List.not_mem_nil, or_false] at hd
      rcases hd with rfl | rfl | rfl
      · exact opened_clean (by decide) (by decide)
      · exact opened_clean (by decide) (by decide)
      · intro a b h; cases h
    · intro d hd; cases hd
    · intro a b h
      cases h
      exact ⟨by decide, fun s hs => by cases hs; decide⟩
    · exact opened_clean (by decide) (by decide)
  · rfl

end NC.Props
