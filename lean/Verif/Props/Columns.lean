import Verif.Props.Hover
import Verif.Props.Config
import Verif.Props.Below
import Verif.Spec.Columns

/-!
# C129: the place of a hovered code is told in the columns of the editor
-/

namespace NC.Props
open NC NC.Srv NC.Spec.Server NC.Spec.Columns NC.Spec.Net

theorem units_bytes {c : Char} {x : List Nat} (h : Utf8Char c x) : units c ≤ x.length ∧ (units c = x.length ↔ c.toNat < 0x80) := by
  cases h with
  | one h => simp only [units, List.length_cons, List.length_nil]; split <;> omega
  | two h1 h2 h3 h4 => simp only [units, List.length_cons, List.length_nil]; split <;> omega
  | three h1 h2 h3 h4 h5 => simp only [units, List.length_cons, List.length_nil]; split <;> omega
  | four h1 h2 h3 h4 h5 h6 => simp only [units, List.length_cons, List.length_nil]; split <;> omega

theorem column_bytes {t : Str} {x : List Nat} (h : Utf8 t x) : column t ≤ x.length ∧ (column t = x.length ↔ ∀ c ∈ t, c.toNat < 0x80) := by
  induction h with
  | nil => simp [column]
  | @cons c s x y hc _ ih =>
    obtain ⟨h1, h2⟩ := units_bytes hc
    obtain ⟨h3, h4⟩ := ih
    have e : column (c :: s) = units c + column s := by simp [column]
    rw [e, List.length_append]
    refine ⟨by omega, ?_⟩
    rw [List.forall_mem_cons, ← h2, ← h4]
    omega

theorem column_append (s t : Str) : column (s ++ t) = column s + column t := by simp [column]

theorem ascii_bytes {s t : Str} (h : Bytes t s) (ha : ∀ c ∈ s, c.toNat < 0x80) : ∀ c ∈ t, c.toNat < 0x80 := by
  unfold Bytes at h
  generalize hx : s.map Char.toNat = x at h
  have hb : ∀ b ∈ x, b < 0x80 := by
    intro b hb
    rw [← hx] at hb
    obtain ⟨c, hc, rfl⟩ := List.mem_map.mp hb
    exact ha c hc
  clear hx ha
  induction h with
  | nil => simp
  | @cons c s x y hc _ ih =>
    rw [List.forall_mem_cons]
    refine ⟨?_, ih (fun b h => hb b (List.mem_append_right _ h))⟩
    cases hc with
    | one h => exact h
    | two => have := hb _ (List.mem_append_left _ List.mem_cons_self); omega
    | three => have := hb _ (List.mem_append_left _ List.mem_cons_self); omega
    | four => have := hb _ (List.mem_append_left _ List.mem_cons_self); omega

theorem dig_ascii {c : Char} (h : isDig c = true) : c.toNat < 0x80 := by
  unfold isDig at h
  simp only [Bool.and_eq_true, decide_eq_true_eq, Char.le_def, UInt32.le_iff_toNat_le] at h
  have : ('9' : Char).val.toNat = 57 := rfl
  have := h.2
  show c.val.toNat < 128
  omega

theorem letter_ascii {c : Char} (h : c ∈ codeLetters) : c.toNat < 0x80 := by
  revert h c
  decide

theorem macro_ascii {t : Str} (h : IsMacro t) : ∀ c ∈ t, c.toNat < 0x80 := by
  obtain ⟨ds, rfl, _, hd⟩ := h
  rw [List.forall_mem_cons]
  exact ⟨by decide, fun c hc => dig_ascii (hd c hc)⟩

theorem token_ascii {l : Str} {a b : Nat} (h : HoverToken l a b) : ∀ c ∈ slice l a b, c.toNat < 0x80 := by
  rcases h with ⟨_, _, h, _⟩ | ⟨_, _, h, _⟩ | ⟨_, _, h, _⟩
  · generalize slice l a b = t at h
    cases h with
    | whole h1 _ h2 =>
      rw [List.forall_mem_cons]
      exact ⟨letter_ascii h1, fun c hc => dig_ascii (h2 c hc)⟩
    | point h1 _ h2 =>
      intro c hc
      rcases List.mem_append.mp hc with hc | hc
      · rcases List.mem_cons.mp hc with rfl | hc
        · exact letter_ascii h1
        · exact dig_ascii (h2 c hc)
      · rw [List.mem_singleton.mp hc]; decide
    | frac h1 _ h2 h3 =>
      intro c hc
      rcases List.mem_append.mp hc with hc | hc
      · rcases List.mem_cons.mp hc with rfl | hc
        · exact letter_ascii h1
        · exact dig_ascii (h2 c hc)
      · rcases List.mem_cons.mp hc with rfl | hc
        · decide
        · rw [List.mem_singleton.mp hc]; exact dig_ascii h3
  · obtain ⟨c, m, e, h1, h2⟩ := h
    rw [e, List.forall_mem_cons]
    exact ⟨letter_ascii h1, macro_ascii h2⟩
  · exact macro_ascii h

section
variable {S G C σ : Type} {W : World S G C σ}

/-- **C129, what is told.** After any history, a hover answer that carries a range names a token `[a, b)` of the asked line of the latest text, counted in bytes;
if the line is the text `before ++ token ++ behind` then `[a, b)` are the columns the token has in the editor exactly if all characters
before the token are ASCII. -/
theorem C129_told_iff_partial {ds : List (Files S G C × Json)} (hcl : ∀ d ∈ ds, Clean d.2) {st : Srv.St S G C}
    {outs : List (List Json)} (h : run W {} ds = .ok (st, outs)) (u t : Str) (hu : latest u (ds.map (·.2)) = some t)
    (hn : ∀ c ∈ u, c.toNat ≠ 0) (F : Files S G C) (d : Json) (hd : docUri d = some u)
    (hm : method d = some c!"textDocument/hover") (line ch : Int) (hpl : intAt [c!"params", c!"position", c!"line"] d = some line)
    (hpc : intAt [c!"params", c!"position", c!"character"] d = some ch) (hline : 0 ≤ line)
    {st' : Srv.St S G C} {o : List Json} (ha : handle W F st d = .ok (st', o)) :
    ∃ id r, o = [response id r] ∧
      ∀ range, path [c!"range"] r = some range → ∃ (a b : Nat) (l : Str), range = makeRange line a b ∧
        (contentLines t)[line.toNat]? = some l ∧ HoverToken l a b ∧
        ∀ before token, Bytes before (l.take a) → Bytes token (slice l a b) →
          ((a = column before ∧ b = column (before ++ token)) ↔ ∀ c ∈ before, c.toNat < 0x80) := by
  obtain ⟨id, r, e, k⟩ := C48_hover_range hcl h u t hu hn F d hd hm line ch hpl hpc hline ha
  refine ⟨id, r, e, ?_⟩
  intro range hr
  obtain ⟨a, b, _, k1, _, k2, l, k3, k4, _, _, k5, _⟩ := k range hr
  refine ⟨a, b, l, k1, k3, k5, ?_⟩
  intro before token hb ht
  obtain ⟨_, h2⟩ := column_bytes hb
  obtain ⟨_, h4⟩ := column_bytes ht
  have h5 := h4.mpr (ascii_bytes ht (token_ascii k5))
  rw [List.length_map] at h2 h5
  have e1 : (l.take a).length = a := by rw [List.length_take]; omega
  have e2 : (slice l a b).length = b - a := by unfold slice; rw [List.length_take, List.length_drop]; omega
  rw [e1] at h2
  rw [e2] at h5
  rw [column_append, ← h2]
  omega

/-- **C129, what is asked.** If all characters before a code are ASCII, the answer to each column the code has in the editor is about the code and tells
its columns in the editor. -/
theorem C129_asked_partial {ds : List (Files S G C × Json)} (hcl : ∀ d ∈ ds, Clean d.2) {st : Srv.St S G C}
    {outs : List (List Json)} (h : run W {} ds = .ok (st, outs)) (u t : Str) (hu : latest u (ds.map (·.2)) = some t)
    (hn : ∀ c ∈ u, c.toNat ≠ 0) (F : Files S G C) (d : Json) (hd : docUri d = some u)
    (hm : method d = some c!"textDocument/hover") (line ch : Int) (hpl : intAt [c!"params", c!"position", c!"line"] d = some line)
    (hpc : intAt [c!"params", c!"position", c!"character"] d = some ch) (hline : 0 ≤ line)
    {st' : Srv.St S G C} {o : List Json} (ha : handle W F st d = .ok (st', o))
    (l : Str) (hl : (contentLines t)[line.toNat]? = some l) (a b : Nat) (ht : TokenAt IsCode l a b) (before token : Str)
    (hb : Bytes before (l.take a)) (hk : Bytes token (slice l a b)) (hascii : ∀ c ∈ before, c.toNat < 0x80)
    (h1 : (column before : Int) ≤ ch) (h2 : ch < column (before ++ token)) :
    ∃ id r, o = [response id r] ∧ path [c!"range"] r = some (makeRange line (column before) (column (before ++ token))) := by
  have e1 : (l.take a).length = a := by rw [List.length_take]; have := ht.1; have := ht.2.1; omega
  have e2 : (slice l a b).length = b - a := by unfold slice; rw [List.length_take, List.length_drop]; have := ht.2.1; omega
  have c1 : column before = a := by
    have := (column_bytes hb).2.mpr hascii
    rw [List.length_map, e1] at this
    exact this
  have c2 : column (before ++ token) = b := by
    have := (column_bytes hk).2.mpr (ascii_bytes hk (token_ascii (Or.inl ht)))
    rw [List.length_map, e2] at this
    rw [column_append, c1, this]
    have := ht.1
    omega
  rw [c1] at h1 ⊢
  rw [c2] at h2 ⊢
  exact C48_code_found hcl h u t hu hn F d hd hm line ch hpl hpc hline ha l hl a b ht h1 h2

end

/-! ## Diagnostics -/

theorem columnFrom_plain (n : Nat) (s : Str) (h : '\t' ∉ s) : Gram.columnFrom n s = n + s.length := by
  induction s generalizing n with
  | nil => rfl
  | cons c s ih =>
    rw [List.mem_cons, not_or] at h
    unfold Gram.columnFrom
    rw [if_neg (fun e => h.1 e.symm), ih _ h.2, List.length_cons]
    omega

/-- **C129, the place of a flaw.** The column in the message about a flaw in a line (AllAttributesParser.cpp:280, 353; the server tells it less one,
JsonMessageHandler.cpp:1081-1083) is that of the editor, for text without tabs before the flaw exactly if that text is ASCII. -/
theorem C129_flaw_iff_partial (s flaw text : Str) (h : '\t' ∉ Gram.before s flaw) (ht : Bytes text (Gram.before s flaw)) :
    Gram.columnFrom 1 (Gram.before s flaw) - 1 = column text ↔ ∀ c ∈ text, c.toNat < 0x80 := by
  rw [columnFrom_plain _ _ h, Nat.add_sub_cancel_left]
  have := (column_bytes ht).2
  rw [List.length_map] at this
  rw [← this]
  exact eq_comm

/-! ## Cases -/

open NC.Demo

/-- A comment with a Polish letter, and a code. -/
def sandwich : Str := ['(', Char.ofNat 0x15A, ')', 'G', '0']

/-- Its bytes. -/
def sandwichBytes : Str := ['(', Char.ofNat 0xC5, Char.ofNat 0x9A, ')', 'G', '0']

theorem sandwich_bytes : Bytes sandwich sandwichBytes ∧ Bytes (sandwich.take 3) (sandwichBytes.take 4) ∧
    Bytes (sandwich.drop 3) (slice sandwichBytes 4 6) := by
  have a : ∀ c : Char, c.toNat < 0x80 → Utf8Char c [c.toNat] := fun c h => .one h
  have two : Utf8Char (Char.ofNat 0x15A) [0xC5, 0x9A] := .two (a := 5) (b := 26) (by decide) (by decide) (by decide) (by decide)
  have tail : Utf8 ['G', '0'] [71, 48] := .cons (x := [71]) (a 'G' (by decide)) (.cons (x := [48]) (a '0' (by decide)) .nil)
  refine ⟨?_, ?_, tail⟩
  · exact .cons (x := [40]) (a '(' (by decide)) (.cons (x := [0xC5, 0x9A]) two (.cons (x := [41]) (a ')' (by decide)) tail))
  · exact .cons (x := [40]) (a '(' (by decide)) (.cons (x := [0xC5, 0x9A]) two (.cons (x := [41]) (a ')' (by decide)) .nil))

/-- The columns an answer tells. -/
def toldColumns (j : Json) : Option Int × Option Int :=
  (intAt [c!"result", c!"range", c!"start", c!"character"] j, intAt [c!"result", c!"range", c!"end", c!"character"] j)

/-- **C129 violated.** Behind a comment with a Polish letter, hover over the letter of a code (column 3 of the editor) finds nothing, and hover over its digit
(column 4) tells the columns 4 to 6, while the code has the columns 3 to 5. -/
theorem C129_violated_comment :
    Bytes sandwich sandwichBytes ∧ column (sandwich.take 3) = 3 ∧ column sandwich = 5 ∧
    ∃ st o₁ o₂ o₃, run w0 {} [(files, opened c!"u" sandwichBytes), (files, hovered 1 c!"u" 0 3), (files, hovered 2 c!"u" 0 4)] = .ok (st, [o₁, o₂, o₃]) ∧
      o₂.map toldColumns = [(none, none)] ∧ o₃.map toldColumns = [(some 4, some 6)] :=
  ⟨sandwich_bytes.1, by decide, by decide, _, _, _, _, rfl, by decide +kernel, by decide +kernel⟩

/-- The lines and columns of the diagnostics of a document. -/
def flawsAt (t : Str) : List (Option Int × Option Int) :=
  match run (Whole.server plainRest) {} [(shipped, opened c!"f" t)] with
  | .ok (_, outs) => outs.flatten.flatMap (fun j => match path [c!"params", c!"diagnostics"] j with
    | some (.arr l) => l.map (fun d => (intAt [c!"range", c!"start", c!"line"] d, intAt [c!"range", c!"start", c!"character"] d))
    | _ => [])
  | _ => []

/-- **C129 violated.** With the shipped word table and settings the flaw of `/G0 ]` is told with column 1, where the code begins; with a tab
behind the slash with column 4 in place of 2, with a comment with a Polish letter before it with column 4 in place of 3. -/
theorem C129_violated_flaw : flawsAt c!"/G0 ]" = [(some 0, some 1)] ∧ flawsAt c!"/\tG0 ]" = [(some 0, some 4)] ∧ column c!"/\t" = 2 ∧
    flawsAt (sandwichBytes ++ c!" ]") = [(some 0, some 4)] ∧ column (sandwich.take 3) = 3 := by
  decide +kernel

/-- A text before a flaw. -/
example : Gram.before c!"/G0 ]" c!"G0 ]" = c!"/" ∧ '\t' ∉ Gram.before c!"/G0 ]" c!"G0 ]" ∧ Bytes c!"/" (Gram.before c!"/G0 ]" c!"G0 ]") :=
  ⟨by decide, by decide, .cons (x := [47]) (.one (by decide)) .nil⟩

/-- The hypotheses of the theorems are met: a line without such letters is told in the columns of the editor. -/
example : ∃ st o₁ o₂, run w0 {} [(files, opened c!"u" c!"(S)G0"), (files, hovered 1 c!"u" 0 3)] = .ok (st, [o₁, o₂]) ∧
    o₂.map toldColumns = [(some 3, some 5)] ∧ Clean (opened c!"u" c!"(S)G0") ∧
    method (hovered 1 c!"u" 0 3) = some c!"textDocument/hover" ∧ docUri (hovered 1 c!"u" 0 3) = some c!"u" :=
  ⟨_, _, _, rfl, by decide +kernel, by intro u t h; cases h; exact ⟨by decide, fun s h => by cases h; decide⟩, rfl, rfl⟩

end NC.Props
