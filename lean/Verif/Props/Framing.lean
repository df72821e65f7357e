import Verif.FramingProofs

/-!
# Framing of messages: C01, C02
-/

namespace NC.Props
open NC NC.Srv NC.Spec.Framing

/-- C01: on every well formed stream, with any text free of `C` between the
messages and at the end, the handler is given exactly the bodies, in order and
unchanged, until it asks to stop; and nothing behind that point is read. -/
theorem C01_framing {ε σ : Type} (h : σ → Str → Out ε (σ × Bool)) (s : σ) (ws : List Wire)
    (hw : ∀ w ∈ ws, w.Good) (tail : Str) (ht : 'C' ∉ tail) :
    Srv.main h s ((ws.map Wire.text).flatten ++ tail) =
      (deliver h s ws >>= fun r =>
        .ok (r.1, match r.2 with | none => .waiting | some l => .stopped ((l.map Wire.text).flatten ++ tail))) :=
  serve_wires h s hw ht

/-- C01, seen by a handler that writes down what it is given and never stops. -/
theorem C01_bodies (ws : List Wire) (hw : ∀ w ∈ ws, w.Good) :
    Srv.main record [] (ws.map Wire.text).flatten = .ok (ws.map Wire.body, .waiting) := by
  have := C01_framing record [] ws hw [] (by simp)
  rw [List.append_nil, record_deliver] at this
  exact this

/-- Two messages, the second with a body that looks like a header, and a line
end between them. -/
def sampleWires : List Wire :=
  [⟨[], c!"2", c!"\r\n\r\n", c!"{}"⟩,
   ⟨c!"\r\n", c!"019", c!"\n\n", c!"{Content-Length: 5}"⟩]

theorem sampleWires_good : ∀ w ∈ sampleWires, w.Good := by
  intro w hw
  simp only [sampleWires, List.mem_cons, List.not_mem_nil, or_false] at hw
  rcases hw with rfl | rfl
  · exact ⟨by decide, by decide, by decide, by decide, by decide, by decide, ⟨_, _, rfl, by decide, by decide⟩⟩
  · exact ⟨by decide, by decide, by decide, by decide, by decide, by decide, ⟨_, _, rfl, by decide, by decide⟩⟩

example : Srv.main record [] (sampleWires.map Wire.text).flatten =
    .ok ([c!"{}", c!"{Content-Length: 5}"], .waiting) :=
  C01_bodies sampleWires sampleWires_good

/-- C01: what the server writes is itself well formed: any sequence of answers
can be read by a client that follows the protocol, with the same bodies. -/
theorem C01_answers (bs : List Str) : Frames bs (bs.map frame).flatten := by
  induction bs with
  | nil => rfl
  | cons b bs ih =>
    refine ⟨natStr b.length, (bs.map frame).flatten, ?_, natStr_ne_nil _, natStr_isDig _, readNat_natStr _, ih⟩
    simp [frame, headerName, List.append_assoc]

/-- C02 (part): a further header field in front of `Content-Length` does no harm
if it contains no capital `C`.  Missing: fields with a capital `C`, and fields
behind `Content-Length`; there the claim is false, see below. -/
theorem C02_extra_field_partial (field : Str) (hf : 'C' ∉ field) (w : Wire) (hw : w.Good)
    (hb : w.before = field ++ c!"\r\n") :
    w.text = field ++ c!"\r\n" ++ c!"Content-Length: " ++ w.digits ++ w.eol ++ w.body ∧
    Srv.main record [] w.text = .ok ([w.body], .waiting) := by
  refine ⟨by rw [Wire.text, hb], ?_⟩
  have := C01_bodies [w] (by simpa using hw)
  simpa using this

example : (⟨c!"X-Trace: 1\r\n", c!"2", c!"\r\n\r\n", c!"{}"⟩ : Wire).Good :=
  ⟨by decide, by decide, by decide, by decide, by decide, by decide, ⟨_, _, rfl, by decide, by decide⟩⟩

/-- C02 fails for a `Content-Type` field in front of `Content-Length`: whatever
follows, no message is ever delivered again. -/
theorem C02_violated_type_first {ε σ : Type} (h : σ → Str → Out ε (σ × Bool)) (s : σ) (rest : Str) :
    Srv.main h s (c!"Content-Type: " ++ rest) = .ok (s, .waiting) := by
  simp only [Srv.main, List.cons_append, List.nil_append]
  iterate 9 rw [serve_step h rfl]
  exact serve_lost h s _ _ (by decide) (by decide)

theorem serve_take {σ ε : Type} (h : σ → Str → Out ε (σ × Bool)) (s : σ) (w : Nat) (acc x : Str)
    (hw : 0 < w) (hx : w ≤ x.length) :
    serve h (.rest w acc) s x =
      (h s (acc ++ x.take w) >>= fun r =>
        if r.2 then .ok (r.1, .stopped (x.drop w)) else serve h (.seek []) r.1 (x.drop w)) := by
  have e : x.take w ++ x.drop w = x := List.take_append_drop w x
  have := serve_rest h s (x.take w) (by intro q; have := congrArg List.length q; rw [List.length_take, List.length_nil] at this; omega) acc (x.drop w)
  rw [e, List.length_take, Nat.min_eq_left hx] at this
  exact this

/-- C02 fails for a `Content-Type` field behind `Content-Length`: the handler is
given the beginning of the field instead of the body. -/
theorem C02_violated_type_behind (value body : Str) (hb : body ≠ []) (hl : body.length ≤ 2147483647) :
    ∃ junk rest, Srv.main record []
        (c!"Content-Length: " ++ natStr body.length ++ c!"\r\nContent-Type: " ++ value ++ c!"\r\n\r\n" ++ body) =
          serve record (.seek []) [junk] rest ∧
      junk.head? = some 'C' ∧ junk.length = body.length := by
  have hd := natStr_isDig body.length
  have hr := readNat_natStr body.length
  have hpos : 0 < body.length := List.length_pos_iff.mpr hb
  have step1 : ∀ cs : Str, Srv.main record [] (c!"Content-Length: " ++ natStr body.length ++ c!"\r\n" ++ ('C' :: cs)) =
      serve record (.first body.length) [] ('C' :: cs) := by
    intro cs
    rw [Srv.main, List.append_assoc, List.append_assoc, serve_header, serve_digits record _ hd, List.nil_append,
      serve_after_digits record _ hd (by rw [hr]; exact hl) (by rw [hr]; omega) (by simp) (by simp), hr]
  set cs : Str := c!"ontent-Type: " ++ value ++ c!"\r\n\r\n" ++ body with hcs
  have hin : c!"Content-Length: " ++ natStr body.length ++ c!"\r\nContent-Type: " ++ value ++ c!"\r\n\r\n" ++ body =
      c!"Content-Length: " ++ natStr body.length ++ c!"\r\n" ++ ('C' :: cs) := by
    rw [hcs]; simp [List.append_assoc]
  rw [hin, step1]
  have hlen : body.length - 1 ≤ cs.length := by rw [hcs]; simp only [List.length_append]; omega
  by_cases h1 : body.length - 1 = 0
  · refine ⟨['C'], cs, ?_, rfl, by simp; omega⟩
    rw [serve_done record (b := ['C']) (m' := .seek []) (by simp [feed, h1])]
    rfl
  · refine ⟨'C' :: cs.take (body.length - 1), cs.drop (body.length - 1), ?_, rfl, ?_⟩
    · rw [serve_step record (m' := .rest (body.length - 1) ['C']) (by simp [feed, h1]),
        serve_take record _ _ _ _ (by omega) hlen]
      rfl
    · rw [List.length_cons, List.length_take]; omega

example : Srv.main record []
    (c!"Content-Length: " ++ natStr 2 ++ c!"\r\nContent-Type: " ++ c!"x" ++ c!"\r\n\r\n" ++ c!"{}") =
      .ok ([c!"Co"], .waiting) := by decide +kernel

end NC.Props
