import Verif.Framing
import Verif.Spec.Framing

/-! # Helper lemmas about the reading loop -/

namespace NC.Srv
open NC.Spec.Framing
variable {ε σ : Type} (h : σ → Str → Out ε (σ × Bool))

theorem serve_step {m m' : Mode} {c : Char} (hf : feed m c = (m', none)) (s : σ) (cs : Str) :
    serve h m s (c :: cs) = serve h m' s cs := by
  simp only [serve, hf]

theorem serve_done {m m' : Mode} {c : Char} {b : Str} (hf : feed m c = (m', some b)) (s : σ) (cs : Str) :
    serve h m s (c :: cs) =
      (h s b >>= fun r => if r.2 then .ok (r.1, .stopped cs) else serve h m' r.1 cs) := by
  simp only [serve, hf]

theorem serve_quiet (s : σ) {pre : Str} (hp : 'C' ∉ pre) (cs : Str) :
    serve h (.seek []) s (pre ++ cs) = serve h (.seek []) s cs := by
  induction pre with
  | nil => rfl
  | cons c pre ih =>
    simp only [List.mem_cons, not_or] at hp
    rw [List.cons_append, serve_step h (m' := .seek []) (by simp [feed, Ne.symm hp.1]), ih hp.2]

/-- The header name takes the loop to the number. -/
theorem serve_header (s : σ) (cs : Str) :
    serve h (.seek []) s (c!"Content-Length: " ++ cs) = serve h (.num []) s cs := by
  simp only [List.cons_append, List.nil_append]
  iterate 16 rw [serve_step h rfl]

theorem serve_digits (s : σ) {ds : Str} (hd : ∀ c ∈ ds, isDig c = true) (acc cs : Str) :
    serve h (.num acc) s (ds ++ cs) = serve h (.num (acc ++ ds)) s cs := by
  induction ds generalizing acc with
  | nil => simp
  | cons c ds ih =>
    have hc := hd c (by simp)
    have h1 : c ≠ '\r' := by rintro rfl; revert hc; decide
    have h2 : c ≠ '\n' := by rintro rfl; revert hc; decide
    rw [List.cons_append, serve_step h (m' := .num (acc ++ [c])) (by simp [feed, h1, h2]),
      ih (fun x hx => hd x (by simp [hx]))]
    simp

theorem serve_eols (s : σ) {es : Str} (he : ∀ c ∈ es, c = '\r' ∨ c = '\n') (n : Nat) (cs : Str) :
    serve h (.first n) s (es ++ cs) = serve h (.first n) s cs := by
  induction es with
  | nil => rfl
  | cons c es ih =>
    rw [List.cons_append, serve_step h (m' := .first n) (by simp [feed, he c (by simp)]),
      ih (fun x hx => he x (by simp [hx]))]

theorem serve_rest (s : σ) (b : Str) (hb : b ≠ []) (acc cs : Str) :
    serve h (.rest b.length acc) s (b ++ cs) =
      (h s (acc ++ b) >>= fun r => if r.2 then .ok (r.1, .stopped cs) else serve h (.seek []) r.1 cs) := by
  induction b generalizing acc with
  | nil => exact absurd rfl hb
  | cons c b ih =>
    cases b with
    | nil => rw [List.cons_append, serve_done h (b := acc ++ [c]) (m' := .seek []) (by simp [feed])]; rfl
    | cons d b =>
      rw [List.cons_append, serve_step h (m' := .rest (d :: b).length (acc ++ [c])) (by simp [feed]),
        ih (by simp)]
      simp

theorem atoi_digits {ds : Str} (hd : ∀ c ∈ ds, isDig c = true) (hr : readNat ds ≤ 2147483647) :
    atoi ds = (readNat ds : Int) := by
  unfold atoi
  rw [scanInt_digits hd]
  simp only [Bool.false_eq_true, if_false]
  omega

theorem frameLength_digits {ds : Str} (hd : ∀ c ∈ ds, isDig c = true) (hr : readNat ds ≤ 2147483647) :
    frameLength ds = readNat ds := by
  unfold frameLength asU32
  rw [atoi_digits hd hr]
  omega

/-- After the header, the line ends lead to the body. -/
theorem serve_after_digits (s : σ) {ds es : Str} (hd : ∀ c ∈ ds, isDig c = true)
    (hr : readNat ds ≤ 2147483647) (hz : readNat ds ≠ 0) (hn : es ≠ []) (he : ∀ c ∈ es, c = '\r' ∨ c = '\n')
    (cs : Str) :
    serve h (.num ds) s (es ++ cs) = serve h (.first (readNat ds)) s cs := by
  cases es with
  | nil => exact absurd rfl hn
  | cons e es =>
    rw [List.cons_append, serve_step h (m' := .first (readNat ds))
      (by simp [feed, he e (by simp), frameLength_digits hd hr, hz]),
      serve_eols h s (fun x hx => he x (by simp [hx]))]

/-- One message of the wire. -/
theorem serve_wire (s : σ) {w : Wire} (hw : w.Good) (cs : Str) :
    serve h (.seek []) s (w.text ++ cs) =
      (h s w.body >>= fun r => if r.2 then .ok (r.1, .stopped cs) else serve h (.seek []) r.1 cs) := by
  obtain ⟨c, r, hb, h1, h2⟩ := hw.body
  have hl : readNat w.digits = r.length + 1 := by rw [hw.length, hb]; rfl
  have hle : readNat w.digits ≤ 2147483647 := by rw [hw.length]; exact hw.fits
  unfold Wire.text
  rw [List.append_assoc, List.append_assoc, List.append_assoc, List.append_assoc, serve_quiet h s hw.quiet,
    serve_header, serve_digits h s hw.decimal, List.nil_append,
    serve_after_digits h s hw.decimal hle (by omega) hw.eol_ne hw.eol, hl, hb]
  cases r with
  | nil =>
    rw [List.cons_append, serve_done h (b := [c]) (m' := .seek []) (by simp [feed, h1, h2])]
    rfl
  | cons d r =>
    rw [List.cons_append, serve_step h (m' := .rest (d :: r).length [c]) (by simp [feed, h1, h2]),
      serve_rest h s (d :: r) (by simp)]
    rfl

/-- Text still to be read after the handler asked to stop. -/
def textOf (ws : List Wire) : Str := (ws.map Wire.text).flatten

theorem serve_wires (s : σ) {ws : List Wire} (hw : ∀ w ∈ ws, w.Good) {tail : Str} (ht : 'C' ∉ tail) :
    serve h (.seek []) s (textOf ws ++ tail) =
      (deliver h s ws >>= fun r =>
        .ok (r.1, match r.2 with | none => .waiting | some l => .stopped (textOf l ++ tail))) := by
  induction ws generalizing s with
  | nil =>
    have := serve_quiet h s ht []
    rw [List.append_nil] at this
    simp only [textOf, List.map_nil, List.flatten_nil, List.nil_append, deliver, this]
    rfl
  | cons w ws ih =>
    simp only [textOf, List.map_cons, List.flatten_cons, List.append_assoc] at *
    rw [serve_wire h s (hw w (by simp)), deliver]
    cases hb : h s w.body with
    | ok r =>
      simp only [Out.bind_ok]
      by_cases hr : r.2 = true
      · simp only [hr, if_true, Out.bind_ok, textOf]
      · simp only [hr, if_false, Bool.false_eq_true]
        exact ih _ (fun x hx => hw x (by simp [hx]))
    | throw e => rfl
    | ub => rfl

/-- Once the collected text cannot become the header name any more, nothing is
ever delivered again. -/
theorem serve_lost (s : σ) (cs : Str) : ∀ (acc : Str), acc ≠ [] → ¬ acc <+: headerName →
    serve h (.seek acc) s cs = .ok (s, .waiting) := by
  induction cs with
  | nil => intro acc _ _; rfl
  | cons c cs ih =>
    intro acc hne hp
    have hp' : ¬ (acc ++ [c]) <+: headerName := fun q => hp ((List.prefix_append acc [c]).trans q)
    have hq : acc ++ [c] ≠ headerName := fun q => hp' (by rw [q])
    rw [serve_step h (m' := .seek (acc ++ [c])) (by simp [feed, hne, hq]), ih _ (by simp) hp']

theorem record_deliver (bs : List Str) (ws : List Wire) :
    deliver record bs ws = .ok (bs ++ ws.map Wire.body, none) := by
  induction ws generalizing bs with
  | nil => simp [deliver]
  | cons w ws ih => simp [deliver, record, ih]

end NC.Srv
