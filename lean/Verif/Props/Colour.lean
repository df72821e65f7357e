import Mathlib.Data.List.TakeWhile
import Verif.GrammarProofs
import Verif.Pipeline
import Verif.PipeDemo
import Verif.Heidenhain
import Verif.Colour
import Verif.Spec.Colour

/-!
# C134: comments of the editor and of the checker
-/

namespace NC.Props
open NC NC.Gram NC.Colour NC.Spec.Colour NC.Pipe

/-- Neither of the characters with which the editor begins a comment. -/
def Bare (c : Char) : Prop := c ≠ '(' ∧ c ≠ ';'

/-- From `s` to `r` there are bare characters only. -/
def BareTo (s r : Str) : Prop := ∃ x, s = x ++ r ∧ ∀ c ∈ x, Bare c

theorem BareTo.refl (s : Str) : BareTo s s := ⟨[], rfl, by simp⟩

theorem BareTo.trans {s t r : Str} (h1 : BareTo s t) (h2 : BareTo t r) : BareTo s r := by
  obtain ⟨x, rfl, hx⟩ := h1
  obtain ⟨y, rfl, hy⟩ := h2
  refine ⟨x ++ y, by simp, fun c hc => ?_⟩
  rcases List.mem_append.mp hc with h | h
  · exact hx c h
  · exact hy c h

theorem BareTo.cons {c : Char} (hc : Bare c) (s : Str) : BareTo (c :: s) s := ⟨[c], rfl, by simpa using hc⟩

theorem bareTo_drop {p : Char → Bool} (hp : ∀ c, p c = true → Bare c) (s : Str) : BareTo s (s.dropWhile p) :=
  ⟨s.takeWhile p, List.takeWhile_append_dropWhile.symm, fun c hc => hp c (List.mem_takeWhile_imp hc)⟩

theorem bare_blank {c : Char} (h : isBlank c = true) : Bare c := by
  simp only [isBlank, Bool.or_eq_true, decide_eq_true_eq] at h
  rcases h with rfl | rfl <;> exact ⟨by decide, by decide⟩

theorem bare_dig {c : Char} (h : isDig c = true) : Bare c := by
  constructor <;> rintro rfl <;> exact absurd h (by decide)

theorem bare_alpha {c : Char} (h : isAlpha c = true) : Bare c := by
  constructor <;> rintro rfl <;> exact absurd h (by decide)

theorem bare_name {c : Char} (h : inName c = true) : Bare c := by
  constructor <;> rintro rfl <;> exact absurd h (by decide)

theorem bareTo_skip (s : Str) : BareTo s (skip s) := bareTo_drop (fun _ => bare_blank) s

theorem bareTo_run {p : Char → Bool} (hp : ∀ c, p c = true → Bare c) (s : Str) : BareTo s (optRun p s).2 := by
  unfold optRun
  split
  · exact .refl s
  · exact bareTo_drop hp s

theorem bareTo_sign (s : Str) : BareTo s (optSign s).2 := by
  have h := bareTo_skip s
  unfold optSign
  split
  · rename_i r e; rw [e] at h; exact h.trans (.cons ⟨by decide, by decide⟩ r)
  · rename_i r e; rw [e] at h; exact h.trans (.cons ⟨by decide, by decide⟩ r)
  · exact h

theorem bareTo_hash (s : Str) : BareTo s (optHash s).2 := by
  have h := bareTo_skip s
  unfold optHash
  split
  · rename_i r e; rw [e] at h; exact h.trans (.cons ⟨by decide, by decide⟩ r)
  · exact h

theorem bareTo_dot (s : Str) : BareTo s (optDot s).2 := by
  unfold optDot
  split
  · exact .cons ⟨by decide, by decide⟩ _
  · exact .refl _

theorem bareTo_value (w : Str) (a g : Option Char) (o : Option Str) (s : Str) : BareTo s (Gram.value w a g o s).2 := by
  unfold Gram.value
  dsimp only
  refine (bareTo_hash s).trans ((bareTo_skip _).trans ((bareTo_run (fun _ => bare_dig) _).trans ((bareTo_dot _).trans
    ((bareTo_run (fun _ => bare_dig) _).trans ((bareTo_skip _).trans (bareTo_run ?_ _))))))
  intro c hc
  simp only [isClose, decide_eq_true_eq] at hc
  subst hc; exact ⟨by decide, by decide⟩

theorem bareTo_operand (w : Str) (a : Option Char) (s : Str) : BareTo s (operand w a s).2 := by
  unfold operand
  dsimp only
  refine (bareTo_sign s).trans ((bareTo_skip _).trans ((bareTo_run ?_ _).trans (bareTo_value _ _ _ _ _)))
  intro c hc
  simp only [isOpen, decide_eq_true_eq] at hc
  subst hc; exact ⟨by decide, by decide⟩

theorem bareTo_closed (w : Str) (s : Str) : BareTo s (operandClosed w s).2 := by
  unfold operandClosed
  dsimp only
  exact (bareTo_sign s).trans (bareTo_value _ _ _ _ _)

/-- The words of the table contain neither of the characters. -/
def BareWords (G : Gram) : Prop := ∀ w ∈ G.syms.chars ++ G.syms.decs ++ G.syms.assigns, ∀ c ∈ w, Bare c

theorem bareTo_symbol {syms : List Str} (hs : ∀ w ∈ syms, ∀ c ∈ w, Bare c) {s w r : Str}
    (h : symbol syms s = some (w, r)) : BareTo s r :=
  ⟨w, (symbol_some h).2, hs w (longest_some (symbol_some h).1).1⟩

theorem bareTo_head {s r : Str} {c : Char} (hc : Bare c) (h : skip s = c :: r) : BareTo s r :=
  (h ▸ bareTo_skip s).trans (.cons hc r)

/-- A word of a line is a comment behind blanks, or is written with bare characters. -/
theorem made_bare {G : Gram} (hG : BareWords G) {ps ps' : PS} {s r : Str} {a : Attr} (h : Made G ps ps' s a r) :
    (∃ x v, (∀ c ∈ x, c = ' ' ∨ c = '\t') ∧ ')' ∉ v ∧ a = .str c!"(" v ∧ s = x ++ '(' :: v ++ ')' :: r) ∨
    (¬ IsComment a ∧ BareTo s r) := by
  have hchars : ∀ w ∈ G.syms.chars, ∀ c ∈ w, Bare c := fun w hw => hG w (by simp [hw])
  have hdecs : ∀ w ∈ G.syms.decs, ∀ c ∈ w, Bare c := fun w hw => hG w (by simp [hw])
  have hass : ∀ w ∈ G.syms.assigns, ∀ c ∈ w, Bare c := fun w hw => hG w (by simp [hw])
  cases h with
  | comma w r c h hb =>
    exact .inr ⟨(by rintro ⟨v, hv⟩; cases hv), (bareTo_symbol hchars h).trans ((BareTo.cons (bare_blank hb) r).trans (bareTo_skip r))⟩
  | decimal w r hc ha h hk =>
    exact .inr ⟨(by rintro ⟨v, hv⟩; cases hv), (bareTo_skip s).trans ((bareTo_symbol hdecs h).trans (bareTo_operand _ _ _))⟩
  | division r h0 hc h hn hk =>
    exact .inr ⟨(by rintro ⟨v, hv⟩; cases hv), (bareTo_head ⟨by decide, by decide⟩ h).trans (bareTo_operand _ _ _)⟩
  | assign w r t h0 hc h1 h he hk =>
    exact .inr ⟨(by rintro ⟨v, hv⟩; cases hv), (bareTo_skip s).trans ((bareTo_symbol hass h).trans
      ((bareTo_head ⟨by decide, by decide⟩ he).trans (bareTo_operand _ _ _)))⟩
  | optional r h0 hc h1 h2 h hn hk =>
    exact .inr ⟨(by rintro ⟨v, hv⟩; cases hv), (bareTo_head ⟨by decide, by decide⟩ h).trans (bareTo_closed _ _)⟩
  | comment r t c h0 hc h1 h2 h3 h ht =>
    left
    refine ⟨s.takeWhile isBlank, r.takeWhile inComment, ?_, ?_, rfl, ?_⟩
    · intro c hc
      have := List.mem_takeWhile_imp hc
      simpa [isBlank] using this
    · intro hm
      have := List.mem_takeWhile_imp hm
      exact absurd this (by decide)
    · have e1 : s = s.takeWhile isBlank ++ skip s := List.takeWhile_append_dropWhile.symm
      have e2 : r = r.takeWhile inComment ++ r.dropWhile inComment := List.takeWhile_append_dropWhile.symm
      have e3 : c = ')' := by
        have : ¬ inComment c = true := by
          have := List.head_dropWhile_not inComment (l := r) (by rw [ht]; simp)
          simpa [ht] using this
        simpa [inComment] using this
      subst e3
      conv_lhs => rw [e1, h, e2, ht]
      simp
  | start r h0 hc h1 h2 h3 h hr =>
    exact .inr ⟨(by rintro ⟨v, hv⟩; cases hv), (bareTo_head ⟨by decide, by decide⟩ h).trans (hr ▸ bareTo_skip r)⟩
  | name r t n h0 hc h1 h2 h3 h hn =>
    refine .inr ⟨(by rintro ⟨v, hv⟩; cases hv), (bareTo_head ⟨by decide, by decide⟩ h).trans ?_⟩
    have := bareTo_run (p := inName) (fun _ => bare_name) r
    rw [hn] at this
    exact this.trans ((bareTo_skip t).trans (bareTo_drop (fun _ => bare_alpha) _))

/-! ## The colours -/

theorem coloured_bare {x : Str} (hx : ∀ c ∈ x, Bare c) (r : Str) :
    coloured false (x ++ r) = x.map (fun _ => false) ++ coloured false r := by
  induction x with
  | nil => rfl
  | cons c x ih =>
    have hc := hx c (by simp)
    rw [List.cons_append, coloured, if_neg (by rintro (h | h); exacts [hc.1 h, hc.2 h]),
      ih (fun d hd => hx d (List.mem_cons_of_mem _ hd))]
    rfl

theorem coloured_inside {v : Str} (h1 : ')' ∉ v) (h2 : '\\' ∉ v) (r : Str) :
    coloured true (v ++ ')' :: r) = v.map (fun _ => true) ++ true :: coloured false r := by
  induction v with
  | nil => simp [coloured]
  | cons c v ih =>
    have hc1 : c ≠ ')' := by rintro rfl; simp at h1
    have hc2 : c ≠ '\\' := by rintro rfl; simp at h2
    have ih := ih (fun h => h1 (by simp [h])) (fun h => h2 (by simp [h]))
    rw [List.cons_append, coloured]
    · simp only [hc1, decide_false, Bool.not_false, ih, List.map_cons, List.cons_append]
    · rintro _ _ rfl; exact absurd rfl hc2

theorem words_coloured {G : Gram} (hG : BareWords G) {ps ps' : PS} {s : Str} {b : Block} (h : Words G ps s ps' b) :
    (∀ v, .str c!"(" v ∈ b → '\\' ∉ v) → Placed s b (coloured false s) := by
  induction h with
  | done ps s h =>
    intro _
    have hb : ∀ c ∈ s, isBlank c = true := by
      unfold skip at h
      rw [List.dropWhile_eq_nil_iff] at h
      exact h
    have e := coloured_bare (fun c hc => bare_blank (hb c hc)) []
    rw [List.append_nil] at e
    rw [e]
    simp only [coloured, List.append_nil]
    exact .blanks (fun c hc => by simpa [isBlank] using hb c hc)
  | @word ps ps1 ps' s r a b h t ih =>
    intro hb
    have ih := ih (fun v hv => hb v (List.mem_cons_of_mem _ hv))
    have hl := lineAttribute_length h
    rcases made_bare hG (lineAttribute_made h) with ⟨x, v, hx, hv, rfl, rfl⟩ | ⟨ha, x, rfl, hx⟩
    · have hx' : ∀ c ∈ x, Bare c := by
        intro c hc
        rcases hx c hc with rfl | rfl <;> exact ⟨by decide, by decide⟩
      have e : coloured false (x ++ '(' :: v ++ ')' :: r) =
          x.map (fun _ => false) ++ true :: v.map (fun _ => true) ++ true :: coloured false r := by
        rw [List.append_assoc, coloured_bare hx', List.cons_append, coloured, if_pos (.inl rfl),
          coloured_inside hv (hb v (by simp))]
        simp
      rw [e]
      exact .comment hx hv ih
    · rw [coloured_bare hx]
      refine .word ha ?_ (fun hm => (hx _ hm).1 rfl) ih
      rintro rfl
      simp at hl

/-- C134: of every line the checker reads, the editor colours as comment exactly
the characters of the comments the checker reads, if the comments contain no
backslash. -/
theorem C134_coloured_partial {G : Gram} (hC : CharsOk G) (hG : BareWords G) {ps ps' : PS} {s : Str} {b : Block}
    (h : phrase G ps s = (ps', .accept b)) (hb : ∀ v, .str c!"(" v ∈ b → '\\' ∉ v) :
    Placed s b (coloured false s) :=
  words_coloured hG ((phrase_accept hC).mp h).2 hb

theorem placed_length {s : Str} {b : Block} {m : List Bool} (h : Placed s b m) : m.length = s.length := by
  induction h with
  | blanks => simp
  | comment _ _ _ ih => simp [ih]
  | word _ _ _ _ ih => simp [ih]

/-- C134 fails for `;`: the editor colours what follows as comment, but the
checker reads no line that has it outside of a comment. -/
theorem C134_violated_semicolon {G : Gram} (hC : CharsOk G) (hG : BareWords G) {ps ps' : PS} {x t : Str} {b : Block}
    (hx : '(' ∉ x) : phrase G ps (x ++ ';' :: t) ≠ (ps', .accept b) := by
  intro h
  have hw := ((phrase_accept hC).mp h).2
  have key : ∀ {ps ps' : PS} {s : Str} {b : Block}, Words G ps s ps' b → ∀ x t, '(' ∉ x → s ≠ x ++ ';' :: t := by
    intro ps ps' s b hw
    induction hw with
    | done ps s h =>
      rintro x t - rfl
      unfold skip at h
      rw [List.dropWhile_eq_nil_iff] at h
      exact absurd (h ';' (by simp)) (by decide)
    | @word ps ps1 ps' s r a b h _ ih =>
      intro x t hx e
      rcases made_bare hG (lineAttribute_made h) with ⟨y, v, hy, hv, rfl, e'⟩ | ⟨-, y, e', hy⟩
      · rw [e, List.append_assoc] at e'
        rcases List.append_eq_append_iff.mp e' with ⟨z, h1, h2⟩ | ⟨z, h1, h2⟩
        · cases z with
          | nil => simp at h2
          | cons c z =>
            rw [List.cons_append] at h2
            injection h2 with h2 h3
            have := hy c (by rw [h1]; simp)
            rw [← h2] at this
            rcases this with q | q <;> exact absurd q (by decide)
        · cases z with
          | nil => simp at h2
          | cons c z =>
            injection h2 with h2 h3
            exact hx (by rw [h1, ← h2]; simp)
      · rw [e] at e'
        rcases List.append_eq_append_iff.mp e' with ⟨z, h1, h2⟩ | ⟨z, h1, h2⟩
        · cases z with
          | nil => exact ih [] t (by simp) h2.symm
          | cons c z =>
            rw [List.cons_append] at h2
            injection h2 with h2 h3
            exact (hy c (by rw [h1]; simp)).2 h2.symm
        · exact ih z t (fun hm => hx (by rw [h1]; simp [hm])) h2
  exact key hw x t hx rfl

/-- C134 fails for the command that comments a line out: whatever the line and
the word table, the checker does not take the result for a comment. -/
theorem C134_violated_toggle {G : Gram} (hC : CharsOk G) {ps ps' : PS} {s : Str} {b : Block}
    (h : phrase G ps (commentOut s) = (ps', .accept b)) : ∃ a t, b = a :: t ∧ ¬ IsComment a := by
  obtain ⟨hne, hw⟩ := (phrase_accept hC).mp h
  have hs : skip (commentOut s) = '#' :: ' ' :: s.dropWhile (fun c => c = ' ' ∨ c = '\t') := by
    unfold commentOut skip
    rw [List.dropWhile_append_of_pos]
    · rfl
    · intro c hc
      have := List.mem_takeWhile_imp hc
      simpa [isBlank] using this
  clear h
  cases hw with
  | done => exact absurd rfl hne
  | word h' t =>
    refine ⟨_, _, rfl, ?_⟩
    rintro ⟨v, rfl⟩
    cases lineAttribute_made h' with
    | comment r t c h0 hc h1 h2 h3 h ht => rw [hs] at h; cases h

/-! ## Examples -/

theorem demo_bare : BareWords (gramOf demo) := by unfold BareWords Bare; decide +kernel

/-- A word with an integer. -/
def intWord (w v : Str) : Attr := .dec ⟨w, none, none, none, none, some v, none, none, none⟩

example : Placed c!"G1 (a) X5" [intWord c!"G" c!"1", .str c!"(" c!"a", intWord c!"X" c!"5"]
    (coloured false c!"G1 (a) X5") ∧
    coloured false c!"G1 (a) X5" = [false, false, false, true, true, true, false, false, false] := by
  refine ⟨C134_coloured_partial (G := gramOf demo) (buildSymbols_chars _ _) demo_bare (ps := {})
    (ps' := (phrase (gramOf demo) {} c!"G1 (a) X5").1) (by decide +kernel) ?_, by decide⟩
  intro v hv
  simp only [intWord, List.mem_cons, List.not_mem_nil, or_false, reduceCtorEq, false_or] at hv
  simp only [Attr.str.injEq, true_and] at hv
  subst hv; decide

/-- C134 fails for backslashes: the checker reads a comment and two words, the
editor colours all of the line as comment. -/
theorem C134_violated_backslash :
    (phrase (gramOf demo) {} c!"(a\\)G1 X5").2 =
      .accept [.str c!"(" c!"a\\", intWord c!"G" c!"1", intWord c!"X" c!"5"] ∧
    Placed c!"(a\\)G1 X5" [.str c!"(" c!"a\\", intWord c!"G" c!"1", intWord c!"X" c!"5"]
      [true, true, true, true, false, false, false, false, false] ∧
    coloured false c!"(a\\)G1 X5" = [true, true, true, true, true, true, true, true, true] := by
  refine ⟨by decide +kernel, ?_, by decide⟩
  refine .comment (x := []) (v := c!"a\\") (by simp) (by decide) ?_
  have nc : ∀ w v, ¬ IsComment (intWord w v) := by rintro w v ⟨_, h⟩; cases h
  exact .word (x := c!"G1") (nc _ _) (by decide) (by decide)
    (.word (x := c!" X5") (nc _ _) (by decide) (by decide) (.blanks (s := []) (by simp)))

/-- A block that is commented out is a fault of the document, and one that begins
with digits becomes an assignment. -/
theorem C134_violated_toggle_case :
    (phrase (gramOf demo) {} (commentOut c!"G1 X5")).2 = .reject ∧
    (phrase (gramOf demo) {} (commentOut c!"; G1 X5")).2 = .reject ∧
    (phrase (gramOf demo) {} (commentOut c!" 5=1")).2 =
      .accept [intWord c!"#" c!"5", intWord c!"=" c!"1"] := by decide +kernel

/-- In the Heidenhain dialect, where `;` begins a comment that goes to the end of
the line, the colour ends with a bracket. -/
theorem C134_violated_heidenhain :
    Hei.phrase c!";a) b" = .accept [.comment ⟨c!"a) b", false⟩] ∧
    coloured false c!";a) b" = [true, true, true, false, false] := by decide

end NC.Props
