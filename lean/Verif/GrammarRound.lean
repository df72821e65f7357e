import Verif.GrammarBack
import Verif.Spec.Tables

/-! # Reading written words: the rules and whole lines -/

namespace NC.Gram
open NC NC.Message NC.Spec NC.Spec.Tables

theorem blank_eq : blank = isBlank := rfl

/-- The table of a grammar is regular. -/
def RegularG (G : Gram) : Prop :=
  G.syms.chars = [c!","] ∧ Regular G.syms.decs G.syms.assigns (fun w => (G.words.find w).isSome)

section
variable {G : Gram} (R : RegularG G)
include R

theorem dec_not {w : Str} (hw : w ∈ G.syms.decs) {c : Char} (hc : w.head? = some c) : reserved c = false := by
  have := R.2.starts w (by simp [hw])
  rw [hc] at this
  simpa using this

theorem assign_not {w : Str} (hw : w ∈ G.syms.assigns) {c : Char} (hc : w.head? = some c) : reserved c = false := by
  have := R.2.starts w (by simp [hw])
  rw [hc] at this
  simpa using this

theorem dec_blank {w : Str} (hw : w ∈ G.syms.decs) : ∀ c ∈ w, isBlank c = false := R.2.blanks w (by simp [hw])
theorem assign_blank {w : Str} (hw : w ∈ G.syms.assigns) : ∀ c ∈ w, isBlank c = false := R.2.blanks w (by simp [hw])

theorem prefix_head {w s : Str} {c : Char} {r : Str} (hne : w ≠ []) (hp : w <+: s) (hs : s = c :: r) : w.head? = some c := by
  obtain ⟨t, rfl⟩ := hp
  cases w with
  | nil => exact absurd rfl hne
  | cons x w => rw [List.cons_append] at hs; cases hs; rfl

/-- No symbol begins with a reserved character. -/
theorem symbol_reserved {s : Str} {c : Char} {r : Str} (hs : s = c :: r) (hc : reserved c = true) :
    symbol G.syms.decs s = none ∧ symbol G.syms.assigns s = none := by
  constructor
  · rw [symbol_none]
    apply longest_eq_none
    intro w hw hne hp
    have := dec_not R hw (prefix_head R hne hp hs)
    rw [hc] at this; cases this
  · rw [symbol_none]
    apply longest_eq_none
    intro w hw hne hp
    have := assign_not R hw (prefix_head R hne hp hs)
    rw [hc] at this; cases this

theorem decimal_reserved {s : Str} {c : Char} {r : Str} (hs : skip s = c :: r) (hc : reserved c = true) (ps : PS) :
    decimalRule G ps s = (ps, .fail) := by
  obtain ⟨h1, h2⟩ := symbol_reserved R hs hc
  have h3 : assignAhead G s = false := by unfold assignAhead; rw [h2]
  unfold decimalRule; rw [h3, if_neg (by simp), h1]

theorem assign_reserved {s : Str} {c : Char} {r : Str} (hs : skip s = c :: r) (hc : reserved c = true) (ps : PS) :
    assignRule G ps s = (ps, .fail) := by
  obtain ⟨_, h2⟩ := symbol_reserved R hs hc
  unfold assignRule; rw [h2]

omit R in
theorem division_other {s : Str} (h : hd s ≠ some '/') (ps : PS) : divisionRule G ps s = (ps, .fail) := by
  unfold divisionRule
  split
  · rename_i r hr; exact absurd (head_of_hd hr) h
  · rfl

omit R in
theorem optional_other {s : Str} (h : hd s ≠ some '/') (ps : PS) : optionalRule G ps s = (ps, .fail) := by
  unfold optionalRule
  split
  · rename_i r hr; exact absurd (head_of_hd hr) h
  · rfl

omit R in
theorem comment_other {s : Str} (h : hd s ≠ some '(') : commentRule s = .fail := by
  unfold commentRule
  split
  · rename_i r hr; exact absurd (head_of_hd hr) h
  · rfl

omit R in
theorem start_other {s : Str} (h : hd s ≠ some '%') : startRule s = .fail := by
  unfold startRule
  split
  · rename_i r hr; exact absurd (head_of_hd hr) h
  · rfl

/-- The four rules for words with values leave `s` alone when it begins with a
reserved character other than `/`. -/
theorem rules_reserved {s : Str} {c : Char} {r : Str} (hs : skip s = c :: r) (hc : reserved c = true) (hd1 : c ≠ '/') (ps : PS) :
    decimalRule G ps s = (ps, .fail) ∧ divisionRule G ps s = (ps, .fail) ∧ assignRule G ps s = (ps, .fail) ∧
      optionalRule G ps s = (ps, .fail) := by
  have h : hd s ≠ some '/' := by rw [head_of_hd hs]; simpa using hd1
  exact ⟨decimal_reserved R hs hc ps, division_other h ps, assign_reserved R hs hc ps, optional_other h ps⟩

/-- The program name: what it means that the first rules fail. -/
theorem rules_name {s : Str} {r : Str} (hs : skip s = 'O' :: r) (hn : symbol G.syms.decs (skip s) = none) (ps : PS) :
    decimalRule G ps s = (ps, .fail) ∧ divisionRule G ps s = (ps, .fail) ∧ assignRule G ps s = (ps, .fail) ∧
      optionalRule G ps s = (ps, .fail) := by
  have h : hd s ≠ some '/' := by rw [head_of_hd hs]; decide
  have h2 : symbol G.syms.assigns (skip s) = none := by
    rw [symbol_none]
    apply longest_eq_none
    intro w hw hne hp
    exact R.2.notO w hw (prefix_head R hne hp hs)
  have h3 : assignAhead G s = false := by unfold assignAhead; rw [h2]
  refine ⟨?_, division_other h ps, ?_, optional_other h ps⟩
  · unfold decimalRule; rw [h3, if_neg (by simp), hn]
  · unfold assignRule; rw [h2]

/-- A name with `O` is in the table of names but has no range: it passes. -/
theorem name_symbol {s : Str} {r : Str} {ps ps0 : PS} (hs : skip s = 'O' :: r) (h : decimalRule G ps s = (ps0, .fail)) :
    symbol G.syms.decs (skip s) = none := by
  cases hy : symbol G.syms.decs (skip s) with
  | none => rfl
  | some p =>
    exfalso
    obtain ⟨w, t⟩ := p
    have h2 : symbol G.syms.assigns (skip s) = none := by
      rw [symbol_none]
      apply longest_eq_none
      intro w hw hne hp
      exact R.2.notO w hw (prefix_head R hne hp hs)
    have h3 : assignAhead G s = false := by unfold assignAhead; rw [h2]
    unfold decimalRule at h
    rw [h3, if_neg (by simp), hy] at h
    dsimp only at h
    obtain ⟨w1, w2⟩ := symbol_some hy
    obtain ⟨l1, l2, l3, _⟩ := longest_some w1
    have := R.2.programs w l1 (prefix_head R l2 l3 hs)
    have hf : G.words.find w = none := by simpa using this
    have hv : verify G.words G.lang (operand w none t).1 ps.st = (addOpen (operand w none t).1 ps.st, .pass) := by
      unfold verify
      rw [(operand_word w none t).1, hf]
    unfold checked at h
    rw [hv] at h
    cases congrArg Prod.snd h

omit R in
theorem division_eq {s r : Str} (h : skip s = '/' :: r) (ps : PS) :
    divisionRule G ps s = if slashNext r then (ps, .expect r) else checked G ps (operand c!"/" none r) := by
  unfold divisionRule; rw [h]; rfl

omit R in
theorem optional_eq {s r : Str} (h : skip s = '/' :: r) (ps : PS) :
    optionalRule G ps s = if slashNext r then (ps, .expect r) else checked G ps (operandClosed c!"/" r) := by
  unfold optionalRule; rw [h]; rfl

omit R in
theorem comment_eq {s r t : Str} {c : Char} (h : skip s = '(' :: r) (ht : r.dropWhile inComment = c :: t) :
    commentRule s = .match_ (.str c!"(" (r.takeWhile inComment)) t := by
  unfold commentRule; rw [h]
  show (match r.dropWhile inComment with | _ :: t => _ | [] => _) = _
  rw [ht]

omit R in
theorem start_eq {s r : Str} (h : skip s = '%' :: r) (hr : skip r = []) : startRule s = .match_ (.chr c!"%" '\x00') [] := by
  unfold startRule; rw [h]; exact if_pos hr

omit R in
theorem name_eq {s r n t : Str} (h : skip s = 'O' :: r) (hn : optRun inName r = (some n, t)) :
    nameRule s = .match_ (.str c!"O" n) ((skip t).dropWhile isAlpha) := by
  unfold nameRule; rw [h]
  show (match optRun inName r with | (some n, t) => _ | (none, t) => _) = _
  rw [hn]

/-! ## Putting `line_attribute` together -/

omit R in
theorem line_decimal {ps ps' : PS} {s : Str} {a : Attr} {r : Str} (hc : charRule G s = .fail)
    (h : decimalRule G ps s = (ps', .match_ a r)) : lineAttribute G ps s = (ps', .match_ a r) := by
  unfold lineAttribute; simp [orElse, hc, h]

omit R in
theorem line_division {ps p0 ps' : PS} {s : Str} {a : Attr} {r : Str} (hc : charRule G s = .fail)
    (h0 : decimalRule G ps s = (p0, .fail)) (h : divisionRule G p0 s = (ps', .match_ a r)) :
    lineAttribute G ps s = (ps', .match_ a r) := by
  unfold lineAttribute; simp [orElse, hc, h0, h]

omit R in
theorem line_assign {ps p0 p1 ps' : PS} {s : Str} {a : Attr} {r : Str} (hc : charRule G s = .fail)
    (h0 : decimalRule G ps s = (p0, .fail)) (h1 : divisionRule G p0 s = (p1, .fail))
    (h : assignRule G p1 s = (ps', .match_ a r)) : lineAttribute G ps s = (ps', .match_ a r) := by
  unfold lineAttribute; simp [orElse, hc, h0, h1, h]

omit R in
theorem line_optional {ps p0 p1 p2 ps' : PS} {s : Str} {a : Attr} {r : Str} (hc : charRule G s = .fail)
    (h0 : decimalRule G ps s = (p0, .fail)) (h1 : divisionRule G p0 s = (p1, .fail))
    (h2 : assignRule G p1 s = (p2, .fail)) (h : optionalRule G p2 s = (ps', .match_ a r)) :
    lineAttribute G ps s = (ps', .match_ a r) := by
  unfold lineAttribute; simp [orElse, hc, h0, h1, h2, h]

omit R in
theorem line_other {ps : PS} {s : Str} (hc : charRule G s = .fail)
    (h : decimalRule G ps s = (ps, .fail) ∧ divisionRule G ps s = (ps, .fail) ∧ assignRule G ps s = (ps, .fail) ∧
      optionalRule G ps s = (ps, .fail)) :
    lineAttribute G ps s = orElse (ps, commentRule s) fun ps => orElse (ps, startRule s) fun ps => (ps, nameRule s) := by
  obtain ⟨h0, h1, h2, h3⟩ := h
  unfold lineAttribute
  simp [orElse, hc, h0, h1, h2, h3]

/-! ## Words begin as they are written -/

omit R in
theorem word_dec (d : Dec) : Source.word (.dec d) = d.word ++ (d.assign.toList ++ otxt d) := by
  unfold Source.word Source.value Source.pieces otxt vtxt
  simp [Attr.word]

theorem made_head {ps ps' : PS} {s : Str} {a : Attr} {r : Str} (h : Made G ps ps' s a r) :
    ∃ c u, Source.word a = c :: u ∧ hd s = some c ∧ c ≠ '[' := by
  cases h with
  | comma w r c h hb hp =>
    obtain ⟨h1, h2⟩ := symbol_some h
    obtain ⟨h3, _⟩ := longest_some h1
    rw [R.1] at h3
    have hw : w = c!"," := by simpa using h3
    subst hw
    refine ⟨',', [], rfl, ?_, by decide⟩
    rw [h2]; exact hd_cons (by decide)
  | decimal w r hc ha h hk =>
    obtain ⟨h1, h2⟩ := symbol_some h
    obtain ⟨h3, h4, _⟩ := longest_some h1
    cases w with
    | nil => exact absurd rfl h4
    | cons c w =>
      refine ⟨c, _, by rw [word_dec]; rfl, head_of_hd h2, ?_⟩
      rintro rfl
      exact absurd (dec_not R h3 rfl) (by decide)
  | division r h0 hc h hn hk => exact ⟨'/', _, by rw [word_dec]; rfl, head_of_hd h, by decide⟩
  | assign w r t h0 hc h1 h he hk =>
    obtain ⟨h1, h2⟩ := symbol_some h
    obtain ⟨h3, h4, _⟩ := longest_some h1
    cases w with
    | nil => exact absurd rfl h4
    | cons c w =>
      refine ⟨c, _, by rw [word_dec]; rfl, head_of_hd h2, ?_⟩
      rintro rfl
      exact absurd (assign_not R h3 rfl) (by decide)
  | optional r h0 hc h1 h2 h hn hk => exact ⟨'/', _, by rw [word_dec]; rfl, head_of_hd h, by decide⟩
  | comment r t c h0 hc h1 h2 h3 h ht => exact ⟨'(', _, rfl, head_of_hd h, by decide⟩
  | start r h0 hc h1 h2 h3 h hr => exact ⟨'%', _, rfl, head_of_hd h, by decide⟩
  | name r t n h0 hc h1 h2 h3 h hn => exact ⟨'O', _, rfl, head_of_hd h, by decide⟩

/-- `charRule` fails on a text that begins with something other than a lone comma. -/
theorem char_fail {x : Str} (h : ∀ c u, x = ',' :: c :: u → isBlank c = false) : charRule G x = .fail := by
  unfold charRule
  split
  · rename_i w c r hs
    obtain ⟨h1, h2⟩ := symbol_some hs
    obtain ⟨h3, _⟩ := longest_some h1
    rw [R.1] at h3
    have hw : w = c!"," := by simpa using h3
    subst hw
    rw [h c r h2]; rfl
  · rfl

theorem char_fail_skip {x : Str} (h : ∀ c u, skip x = ',' :: c :: u → isBlank c = false) : charRule G x = .fail := by
  apply char_fail R
  rintro c u rfl
  exact h c u (skip_of_not (by decide))

theorem char_fail_head {x : Str} {c : Char} {u : Str} (h : skip x = c :: u) (hc : c ≠ ',') : charRule G x = .fail := by
  apply char_fail_skip R
  intro c' u' h'
  rw [h] at h'
  cases h'
  exact absurd rfl hc

/-! ## Each kind of word is read back -/

omit R in
theorem mark_going {c : Char} (h : isMark' c = true) : going c = true := by
  simp only [isMark', isMark, Bool.or_eq_true, decide_eq_true_eq] at h
  simp only [going, Bool.or_eq_true, decide_eq_true_eq]
  tauto

omit R in
/-- What is written of an operand goes on like a value. -/
theorem otxt_going {d : Dec} (h : Shape d) : ∀ c ∈ otxt d, going c = true := by
  intro c hc
  unfold otxt vtxt at hc
  simp only [List.mem_append] at hc
  have dig : ∀ c, isDig c = true → going c = true := by intro c h; simp [going, h]
  rcases hc with hc | hc | hc | hc | hc | hc | hc
  · cases hs : d.sign with
    | none => rw [hs] at hc; cases hc
    | some x =>
      rw [hs] at hc
      have : c = x := by simpa using hc
      subst this
      rcases h.sign c hs with rfl | rfl <;> decide
  · cases hs : d.openB with
    | none => rw [hs] at hc; cases hc
    | some x => rw [hs] at hc; rw [(h.openB x hs).2 c hc]; decide
  · cases hs : d.mac with
    | none => rw [hs] at hc; cases hc
    | some x =>
      rw [hs] at hc
      have := h.mac x hs
      subst this
      have : c = '#' := by simpa using hc
      subst this; decide
  · cases hs : d.value with
    | none => rw [hs] at hc; cases hc
    | some x => rw [hs] at hc; exact dig c ((h.value x hs).2 c hc)
  · cases hs : d.dot with
    | none => rw [hs] at hc; cases hc
    | some x =>
      rw [hs] at hc
      have : c = x := by simpa using hc
      subst this
      rw [h.dot c hs]; decide
  · cases hs : d.value2 with
    | none => rw [hs] at hc; cases hc
    | some x => rw [hs] at hc; exact dig c ((h.value2 x hs).2.1 c hc)
  · cases hs : d.closeB with
    | none => rw [hs] at hc; cases hc
    | some x => rw [hs] at hc; rw [(h.closeB x hs).2 c hc]; decide

omit R in
theorem going_not {c : Char} (h : going c = true) : isBlank c = false ∧ c ≠ '=' := by
  simp only [going, Bool.or_eq_true, decide_eq_true_eq] at h
  rcases h with (((((rfl | rfl) | rfl) | rfl) | rfl) | rfl) | h
  · decide
  · decide
  · decide
  · decide
  · decide
  · decide
  · refine ⟨dig_not_blank h, ?_⟩
    rintro rfl
    exact absurd h (by decide)

omit R in
theorem checked_same {ps ps' : PS} {d : Dec} {r t : Str} (h : checked G ps (d, r) = (ps', .match_ (.dec d) r)) :
    checked G ps (d, t) = (ps', .match_ (.dec d) t) := by
  obtain ⟨_, _, h3, h4⟩ := checked_match h
  unfold checked
  dsimp only at h3 ⊢
  rw [h3]
  simp [← h4]

omit R in
theorem checked_fail {ps p1 : PS} {d : Dec} {r t : Str} (h : checked G ps (d, r) = (p1, .fail)) :
    checked G ps (d, t) = (p1, .fail) := by
  unfold checked at h ⊢
  dsimp only at h ⊢
  split at h
  · cases congrArg Prod.snd h
  · exact h
  · cases congrArg Prod.snd h

/-- The same longest name is found again. -/
theorem decs_again {w r0 y : Str} {s : Str} (h : symbol G.syms.decs s = some (w, r0))
    (hy : ∀ c u, y = c :: u → going c = true ∨ isBlank c = true) : symbol G.syms.decs (w ++ y) = some (w, y) := by
  obtain ⟨h1, _⟩ := symbol_some h
  obtain ⟨h3, h4, _⟩ := longest_some h1
  refine symbol_eq (longest_eq_some h3 h4 (List.prefix_append _ _) ?_) rfl
  intro u hu hp
  by_contra hlt
  have hwu : w <+: u := List.prefix_of_prefix_length_le (List.prefix_append _ _) hp (by omega)
  have he := R.2.ends w h3 u hu hwu
  obtain ⟨v, rfl⟩ := hwu
  rw [List.drop_left] at he
  cases v with
  | nil => simp at hlt
  | cons c v =>
    have hg : going c = false := by simpa using he
    have hb := dec_blank R hu c (by simp)
    rw [List.prefix_append_right_inj] at hp
    obtain ⟨z, hz⟩ := hp
    rcases hy c (v ++ z) hz.symm with h | h
    · rw [hg] at h; cases h
    · rw [hb] at h; cases h

theorem assigns_equals {w s z : Str} (hw : w ∈ G.syms.assigns) (hne : w ≠ []) (hz : skip z = '=' :: s) (hh : z.head? = some '=' ∨ ∀ c u, z = c :: u → isBlank c = true) :
    symbol G.syms.assigns (w ++ z) = some (w, z) := by
  refine symbol_eq (longest_eq_some hw hne (List.prefix_append _ _) ?_) rfl
  intro u hu hp
  by_contra hlt
  have hwu : w <+: u := List.prefix_of_prefix_length_le (List.prefix_append _ _) hp (by omega)
  obtain ⟨v, rfl⟩ := hwu
  cases v with
  | nil => simp at hlt
  | cons c v =>
    rw [List.prefix_append_right_inj] at hp
    obtain ⟨q, hq⟩ := hp
    rcases hh with hh | hh
    · rw [← hq] at hh
      have : c = '=' := by simpa using hh
      exact R.2.noEquals _ hu (by simp [this])
    · have := hh c (v ++ q) hq.symm
      rw [assign_blank R hu c (by simp)] at this
      cases this

/-- A decimal word stays one: it is not taken for a word with `=`. -/
theorem ahead_again {w r0 s t : Str} {d : Dec} (hs : symbol G.syms.decs (skip s) = some (w, r0))
    (ha : assignAhead G s = false) (hd0 : Shape d) (ht : Tail t)
    (hh : hd (otxt d ++ t) = hd r0) (hcond : w ++ otxt d ∈ G.syms.assigns → hd t ≠ some '=')
    {x : Str} (hx : skip x = w ++ (otxt d ++ t)) : assignAhead G x = false := by
  obtain ⟨h1, h2⟩ := symbol_some hs
  obtain ⟨h3, h4, _⟩ := longest_some h1
  cases hb : assignAhead G x with
  | false => rfl
  | true =>
  exfalso
  unfold assignAhead at hb
  rw [hx] at hb
  cases hy : symbol G.syms.assigns (w ++ (otxt d ++ t)) with
  | none => rw [hy] at hb; cases hb
  | some p =>
  obtain ⟨v, rest⟩ := p
  rw [hy] at hb
  dsimp only at hb
  have hrest : ∃ q, skip rest = '=' :: q := by
    split at hb
    · rename_i q hq; exact ⟨q, hq⟩
    · cases hb
  obtain ⟨q, hq⟩ := hrest
  obtain ⟨v1, v2⟩ := symbol_some hy
  obtain ⟨v3, v4, _, _⟩ := longest_some v1
  rcases List.append_eq_append_iff.mp v2 with ⟨z, hz1, hz2⟩ | ⟨z, hz1, hz2⟩
  · -- v = w ++ z
    rcases List.append_eq_append_iff.mp hz2 with ⟨y, hy1, hy2⟩ | ⟨y, hy1, hy2⟩
    · -- z = otxt d ++ y
      cases y with
      | nil =>
        rw [List.append_nil] at hy1
        rw [List.nil_append] at hy2
        subst hy2
        exact hcond (by rw [← hy1, ← hz1]; exact v3) (head_of_hd hq)
      | cons c y =>
        have hbl := ht c (y ++ rest) hy2
        have := assign_blank R v3 c (by rw [hz1, hy1]; simp)
        rw [this] at hbl; cases hbl
    · -- otxt d = z ++ y
      cases y with
      | nil =>
        rw [List.append_nil] at hy1
        rw [List.nil_append] at hy2
        subst hy2
        exact hcond (by rw [hy1, ← hz1]; exact v3) (head_of_hd hq)
      | cons c y =>
        cases z with
        | cons c0 z0 =>
          have hg := going_not (otxt_going hd0 c (by rw [hy1]; simp))
          rw [hy2, List.cons_append, skip_of_not hg.1] at hq
          cases hq
          exact hg.2 rfl
        | nil =>
          have hg := going_not (otxt_going hd0 c (by rw [hy1]; simp))
          rw [hy2, List.cons_append, skip_of_not hg.1] at hq
          cases hq
          exact hg.2 rfl
  · -- w = v ++ z
    cases z with
    | nil =>
      -- the name itself
      rw [List.append_nil] at hz1
      rw [List.nil_append] at hz2
      subst hz1
      have hr0 : hd r0 = some '=' := by rw [← hh, ← hz2]; exact head_of_hd hq
      have hr0' : ∃ q, skip r0 = '=' :: q := by
        unfold hd at hr0
        cases hk : skip r0 with
        | nil => rw [hk] at hr0; cases hr0
        | cons c q => rw [hk] at hr0; cases hr0; exact ⟨q, rfl⟩
      obtain ⟨q', hq'⟩ := hr0'
      have hor : r0.head? = some '=' ∨ ∀ c u, r0 = c :: u → isBlank c = true := by
        cases r0 with
        | nil => right; simp
        | cons c u =>
          by_cases hb : isBlank c = true
          · right; intro c' u' h; cases h; exact hb
          · left
            rw [skip_of_not (by simpa using hb)] at hq'
            cases hq'; rfl
      have := assigns_equals R v3 v4 hq' hor
      have : assignAhead G s = true := by
        unfold assignAhead
        rw [h2, this]
        dsimp only
        rw [hq']
        rfl
      rw [ha] at this
      cases this
    | cons c z =>
      have hw : c ∈ w := by rw [hz1]; simp
      rw [hz2, List.cons_append, skip_of_not (dec_blank R h3 c hw)] at hq
      cases hq
      have := R.2.equals w h3 hw
      rw [hz1] at this
      cases v with
      | nil => exact v4 rfl
      | cons c1 v => simp at this

omit R in
theorem slashNext_eq {a b : Str} (h : hd a = hd b) : slashNext a = slashNext b := by
  have key : ∀ x, slashNext x = decide (hd x = some '/') := by
    intro x
    unfold slashNext hd
    split
    · rename_i r hr; rw [hr]; rfl
    · rename_i hn
      cases hx : skip x with
      | nil => rfl
      | cons c r =>
        have : c ≠ '/' := by rintro rfl; exact hn r hx
        simp [this]
  rw [key, key, h]

omit R in
/-- Without an opening bracket to come, both forms of operands are the same. -/
theorem closed_eq (w : Str) (s : Str) (h : hd (operandClosed w s).2 ≠ some '[') : operandClosed w s = operand w none s := by
  have e1 : operandClosed w s = value w none (optSign s).1 none (optSign s).2 := rfl
  have e2 : operand w none s = value w none (optSign s).1 (optRun isOpen (skip (optSign s).2)).1
    (optRun isOpen (skip (optSign s).2)).2 := rfl
  set g := optSign s with hg
  cases ho : (optRun isOpen (skip g.2)).1 with
  | none =>
    obtain ⟨h1, _⟩ := optRun_none ho
    rw [e1, e2, ho, h1, value_skip]
  | some b =>
    exfalso
    obtain ⟨b1, b2, b3, _⟩ := optRun_some ho
    cases b with
    | nil => exact b1 rfl
    | cons c b =>
      have hc := isOpen_iff.mp (b2 c (by simp))
      subst hc
      rw [List.cons_append] at b3
      apply h
      rw [e1, ← value_skip, b3]
      have k1 : ∀ z, value w none g.1 none ('[' :: z) = (⟨w, none, g.1, none, none, none, none, none, none⟩, '[' :: z) := fun _ => rfl
      rw [k1]
      exact hd_cons (by decide)

omit R in
theorem closed_of_none (w : Str) (s : Str) (h : (operand w none s).1.openB = none) : operandClosed w s = operand w none s := by
  have e1 : operandClosed w s = value w none (optSign s).1 none (optSign s).2 := rfl
  have e2 : operand w none s = value w none (optSign s).1 (optRun isOpen (skip (optSign s).2)).1
    (optRun isOpen (skip (optSign s).2)).2 := rfl
  have h' : (optRun isOpen (skip (optSign s).2)).1 = none := h
  obtain ⟨h1, _⟩ := optRun_none h'
  rw [e1, e2, h', h1, value_skip]

/-- A word that was read is read back from what is written of it. -/
theorem attr_back {ps ps' : PS} {s : Str} {a : Attr} {r : Str} (h : Made G ps ps' s a r) (hnc : a.word ≠ c!",")
    {t : Str} (ht : Tail t) (hh : hd t = hd r) (hr : hd r ≠ some '[')
    (ho : a.word = c!"O" → ∀ c, hd t = some c → isAlpha c = false)
    (he : Source.word a ∈ G.syms.assigns → hd t ≠ some '=') {x : Str} (hx : skip x = Source.word a ++ t) :
    ∃ t', lineAttribute G ps x = (ps', .match_ a t') ∧ skip t' = skip t := by
  cases h with
  | comma w r c h hb hp =>
    obtain ⟨h1, h2⟩ := symbol_some h
    obtain ⟨h3, _⟩ := longest_some h1
    rw [R.1] at h3
    exact absurd (show w = c!"," by simpa using h3) hnc
  | decimal w r hc ha h hk =>
    obtain ⟨⟨t', o1, o2⟩, o3, o4⟩ := operand_back w none r t ht hh
    set d := (operand w none r).1 with hd0
    have hsh : Shape d := operand_shape w none r (by simp)
    rw [word_dec] at hx he
    have ew : d.word = w := rfl
    have ea : d.assign = none := rfl
    rw [ew, ea] at hx he
    simp only [Option.toList_none, List.nil_append, List.append_assoc] at hx he
    obtain ⟨h1, h2⟩ := symbol_some h
    obtain ⟨h3, h4, _⟩ := longest_some h1
    refine ⟨t', line_decimal ?_ ?_, o2⟩
    · apply char_fail_skip R
      intro c u hcu
      rw [hx] at hcu
      cases w with
      | nil => exact absurd rfl h4
      | cons c1 w =>
        cases w with
        | nil =>
          have e1 : c1 = ',' := by simpa using congrArg List.head? hcu
          subst e1
          exact absurd h3 R.2.comma
        | cons c2 w =>
          have e2 : c2 = c := by
            simpa using congrArg (fun l => l.tail.head?) hcu
          subst e2
          exact dec_blank R h3 c2 (by simp)
    · unfold decimalRule
      rw [ahead_again R h ha hsh ht o3 he hx, if_neg (by simp), hx,
        decs_again R h (fun c u hcu => (o4 c u hcu).imp_left mark_going)]
      dsimp only
      rw [o1]
      exact checked_same hk
  | division r h0 hc h hn hk =>
    obtain ⟨⟨t', o1, o2⟩, o3, o4⟩ := operand_back c!"/" none r t ht hh
    have hp := decimal_reserved R h (by decide) ps
    rw [hp] at h0
    cases h0
    rw [word_dec] at hx
    have ew : (operand c!"/" none r).1.word = c!"/" := rfl
    have ea : (operand c!"/" none r).1.assign = none := rfl
    rw [ew, ea] at hx
    have hx' : skip x = '/' :: (otxt (operand c!"/" none r).1 ++ t) := hx
    refine ⟨t', line_division (char_fail_head R hx' (by decide)) (decimal_reserved R hx' (by decide) ps) ?_, o2⟩
    unfold divisionRule
    rw [hx']
    show (if slashNext _ then _ else _) = _
    rw [slashNext_eq o3, hn, if_neg (by simp), o1]
    exact checked_same hk
  | assign w r0 z h0 hc h1 h he' hk =>
    obtain ⟨⟨t', o1, o2⟩, o3, o4⟩ := operand_back w (some '=') z t ht hh
    obtain ⟨h5, h6⟩ := symbol_some h
    obtain ⟨h3, h4, _⟩ := longest_some h5
    rw [word_dec] at hx
    have ew : (operand w (some '=') z).1.word = w := rfl
    have ea : (operand w (some '=') z).1.assign = some '=' := rfl
    rw [ew, ea] at hx
    have hx' : skip x = w ++ '=' :: (otxt (operand w (some '=') z).1 ++ t) := by rw [hx]; simp
    have hskip : skip ('=' :: (otxt (operand w (some '=') z).1 ++ t)) = '=' :: (otxt (operand w (some '=') z).1 ++ t) :=
      skip_of_not (by decide)
    have hsy := assigns_equals R h3 h4 hskip (.inl rfl)
    -- the original state
    have a0 : assignAhead G s = true := by unfold assignAhead; rw [h]; dsimp only; rw [he']; rfl
    have e0 : decimalRule G ps s = (ps, .fail) := by unfold decimalRule; rw [a0, if_pos rfl]
    rw [e0] at h0
    cases h0
    have hslash : ∀ y u, skip y = w ++ u → hd y ≠ some '/' := by
      intro y u hy
      cases w with
      | nil => exact absurd rfl h4
      | cons c w =>
        rw [head_of_hd hy]
        intro hcc
        have : c = '/' := by simpa using hcc
        subst this
        exact absurd (assign_not R h3 rfl) (by decide)
    have e1 := division_other (G := G) (hslash s r0 h6) ps
    rw [e1] at h1
    cases h1
    -- the written text
    have a1 : assignAhead G x = true := by
      unfold assignAhead
      rw [hx', hsy]
      dsimp only
      rw [hskip]
      rfl
    have d1 : decimalRule G ps x = (ps, .fail) := by unfold decimalRule; rw [a1, if_pos rfl]
    refine ⟨t', line_assign ?_ d1 (division_other (hslash x _ hx') ps) ?_, o2⟩
    · apply char_fail_skip R
      intro c u hcu
      rw [hx'] at hcu
      cases w with
      | nil => exact absurd rfl h4
      | cons c1 w =>
        cases w with
        | nil =>
          have : '=' = c := by simpa using congrArg (fun l => l.tail.head?) hcu
          subst this; decide
        | cons c2 w =>
          have e2 : c2 = c := by
            simpa using congrArg (fun l => l.tail.head?) hcu
          subst e2
          exact assign_blank R h3 c2 (by simp)
    · have : assignRule G ps x = checked G ps (operand w (some '=') (otxt (operand w (some '=') z).1 ++ t)) := by
        unfold assignRule
        rw [hx', hsy]
        dsimp only
        rw [hskip]
        rfl
      rw [this, o1]
      exact checked_same hk
  | optional r h0 hc h1 h2 h hn hk =>
    have hcl := closed_eq c!"/" r hr
    rw [hcl] at hk hh hr hx
    obtain ⟨⟨t', o1, o2⟩, o3, o4⟩ := operand_back c!"/" none r t ht hh
    have hp := decimal_reserved R h (by decide) ps
    rw [hp] at h0
    cases h0
    rw [word_dec] at hx
    have ew : (operand c!"/" none r).1.word = c!"/" := rfl
    have ea : (operand c!"/" none r).1.assign = none := rfl
    rw [ew, ea] at hx
    have hx' : skip x = '/' :: (otxt (operand c!"/" none r).1 ++ t) := hx
    rw [division_eq h, hn, if_neg (by simp)] at h1
    rename_i ps1 ps2
    rw [assign_reserved R h (by decide) ps1] at h2
    cases h2
    have hcl2 : operandClosed c!"/" (otxt (operand c!"/" none r).1 ++ t) =
        operand c!"/" none (otxt (operand c!"/" none r).1 ++ t) := by
      apply closed_of_none
      rw [o1]
      show (operand c!"/" none r).1.openB = none
      rw [← hcl]
      exact (operandClosed_word _ _).2.2
    rw [hcl]
    refine ⟨t', line_optional (char_fail_head R hx' (by decide)) (decimal_reserved R hx' (by decide) ps)
      (p1 := ps1) ?_ (assign_reserved R hx' (by decide) ps1) ?_, o2⟩
    · rw [division_eq hx', slashNext_eq o3, hn, if_neg (by simp), o1]
      exact checked_fail h1
    · rw [optional_eq hx', slashNext_eq o3, hn, if_neg (by simp), hcl2, o1]
      exact checked_same hk
  | comment r0 t0 c h0 hc h1 h2 h3 h ht0 =>
    obtain ⟨e0, e1, e2, e3⟩ := rules_reserved R h (by decide) (by decide) ps
    rw [e0] at h0; cases h0
    rw [e1] at h1; cases h1
    rw [e2] at h2; cases h2
    rw [e3] at h3; cases h3
    have hx' : skip x = '(' :: (r0.takeWhile inComment ++ ')' :: t) := by
      rw [hx]
      show '(' :: (_ ++ [')']) ++ t = _
      simp
    refine ⟨t, ?_, rfl⟩
    rw [line_other (char_fail_head R hx' (by decide)) (rules_reserved R hx' (by decide) (by decide) ps)]
    have hin : ∀ c ∈ r0.takeWhile inComment, inComment c = true := takeWhile_sat
    have : commentRule x = .match_ (.str c!"(" (r0.takeWhile inComment)) t := by
      rw [comment_eq hx' (c := ')') (t := t), List.takeWhile_append_of_pos hin,
        List.takeWhile_cons_of_neg (by decide), List.append_nil]
      rw [List.dropWhile_append_of_pos hin, List.dropWhile_cons_of_neg (by decide)]
    rw [this]
    rfl
  | start r0 h0 hc h1 h2 h3 h hr0 =>
    obtain ⟨e0, e1, e2, e3⟩ := rules_reserved R h (by decide) (by decide) ps
    rw [e0] at h0; cases h0
    rw [e1] at h1; cases h1
    rw [e2] at h2; cases h2
    rw [e3] at h3; cases h3
    have hx' : skip x = '%' :: t := hx
    have hst : skip t = [] := by
      unfold hd at hh
      rw [skip_nil] at hh
      cases hk : skip t with
      | nil => rfl
      | cons c u => rw [hk] at hh; cases hh
    refine ⟨[], ?_, by rw [hst]; rfl⟩
    rw [line_other (char_fail_head R hx' (by decide)) (rules_reserved R hx' (by decide) (by decide) ps)]
    have k1 : commentRule x = .fail := comment_other (by rw [head_of_hd hx']; decide)
    have k2 : startRule x = .match_ (.chr c!"%" '\x00') [] := start_eq hx' hst
    rw [k1, k2]
    rfl
  | name r0 t0 n h0 hc h1 h2 h3 h hn =>
    have hsym := name_symbol R h h0
    obtain ⟨e0, e1, e2, e3⟩ := rules_name R h hsym ps
    rw [e0] at h0; cases h0
    rw [e1] at h1; cases h1
    rw [e2] at h2; cases h2
    rw [e3] at h3; cases h3
    have hx' : skip x = 'O' :: (n ++ t) := by
      rw [hx]
      show 'O' :: (_ ++ []) ++ t = _
      simp
    obtain ⟨n1, n2, n3, _⟩ := optRun_some (p := inName) (s := r0) (v := n) (by rw [hn])
    rw [hn] at n3
    have hno : symbol G.syms.decs (skip x) = none := by
      rw [symbol_none]
      apply longest_eq_none
      intro u hu hne hp
      rw [symbol_none] at hsym
      refine longest_none hsym u hu hne ?_
      rw [h, n3]
      rw [hx'] at hp
      have hb := dec_blank R hu
      have : u <+: 'O' :: n := by
        by_cases hlen : u.length ≤ ('O' :: n).length
        · exact List.prefix_of_prefix_length_le (l₃ := ('O' :: n) ++ t) hp (List.prefix_append _ _) hlen
        · exfalso
          have h1 : ('O' :: n) <+: u :=
            List.prefix_of_prefix_length_le (l₃ := ('O' :: n) ++ t) (List.prefix_append _ _) hp (by omega)
          obtain ⟨v, rfl⟩ := h1
          cases v with
          | nil => simp at hlen
          | cons c v =>
            have hp' : ('O' :: n) ++ c :: v <+: ('O' :: n) ++ t := hp
            rw [List.prefix_append_right_inj] at hp'
            obtain ⟨q, hq⟩ := hp'
            have := ht c (v ++ q) hq.symm
            rw [hb c (by simp)] at this
            cases this
      exact this.trans (List.prefix_append ('O' :: n) t0)
    refine ⟨skip t, ?_, skip_skip t⟩
    rw [line_other (char_fail_head R hx' (by decide)) (rules_name R hx' hno ps)]
    have k1 : commentRule x = .fail := comment_other (by rw [head_of_hd hx']; decide)
    have k2 : startRule x = .fail := start_other (by rw [head_of_hd hx']; decide)
    have k3 : nameRule x = .match_ (.str c!"O" n) (skip t) := by
      have : optRun inName (n ++ t) = (some n, t) := by
        refine optRun_back n1 n2 ?_
        intro c u hcu
        have := ht c u hcu
        simp only [isBlank, Bool.or_eq_true, decide_eq_true_eq] at this
        rcases this with rfl | rfl <;> decide
      rw [name_eq hx' this]
      have : (skip t).dropWhile isAlpha = skip t := by
        cases hk : skip t with
        | nil => rfl
        | cons c u => exact List.dropWhile_cons_of_neg (by simp [ho rfl c (head_of_hd hk)])
      rw [this]
    rw [k1, k2, k3]
    rfl

/-- Words that were read are read back from what is written of them. -/
theorem words_back {ps ps' : PS} {s : Str} {b : Block} (h : Words G ps s ps' b) (hb : Writable G.syms.assigns b)
    {suf : Str} (hs : skip suf = []) :
    hd (Source.line b ++ suf) = hd s ∧ ∀ x, skip x = skip (Source.line b ++ suf) → Words G ps x ps' b := by
  have hsuf : Tail suf := by
    rintro c u rfl
    by_contra hc
    rw [skip_of_not (by simpa using hc)] at hs
    cases hs
  induction h with
  | done ps s h =>
    refine ⟨?_, ?_⟩
    · show hd suf = hd s
      unfold hd; rw [hs, h]
    · intro x hx
      refine .done _ _ ?_
      rw [hx]; exact hs
  | @word ps ps1 ps' s r a b h w ih =>
    have hm := lineAttribute_made h
    obtain ⟨c, u, hw, hhd, _⟩ := made_head R hm
    have hcb : isBlank c = false := by
      unfold hd at hhd
      cases hk : skip s with
      | nil => rw [hk] at hhd; cases hhd
      | cons c' u' => rw [hk] at hhd; cases hhd; exact skip_head_not hk
    obtain ⟨i1, i2⟩ := ih ⟨fun a ha => hb.1 a (by simp [ha]), hb.2.tail⟩
    have hrb : hd r ≠ some '[' := by
      cases w with
      | done _ _ h => unfold hd; rw [h]; simp
      | word h' _ =>
        obtain ⟨c', _, _, e, hne⟩ := made_head R (lineAttribute_made h')
        rw [e]; simpa using hne
    -- the text after the word
    obtain ⟨t, ht1, ht2, ht3, ht4⟩ : ∃ t, Source.line (a :: b) ++ suf = Source.word a ++ t ∧ Tail t ∧
        skip t = skip (Source.line b ++ suf) ∧ (b = [] → t = suf) := by
      cases b with
      | nil => exact ⟨suf, rfl, hsuf, rfl, fun _ => rfl⟩
      | cons a' b' =>
        refine ⟨' ' :: (Source.line (a' :: b') ++ suf), ?_, ?_, skip_of_blank (by decide), by simp⟩
        · show Source.word a ++ ' ' :: Source.line (a' :: b') ++ suf = _
          simp
        · intro c u hcu
          have : c = ' ' := by simpa using (congrArg List.head? hcu).symm
          subst this; decide
    have hht : hd t = hd r := by
      rw [← i1]; unfold hd; rw [ht3]
    have next : ∀ c, hd t = some c → ∃ a' b', b = a' :: b' ∧ (Source.word a').head? = some c := by
      intro c hc
      cases w with
      | done _ _ h => rw [hht] at hc; unfold hd at hc; rw [h] at hc; cases hc
      | word h' _ =>
        obtain ⟨c', u', e1, e2, _⟩ := made_head R (lineAttribute_made h')
        refine ⟨_, _, rfl, ?_⟩
        rw [e1]
        rw [hht, e2] at hc
        exact hc
    refine ⟨?_, ?_⟩
    · rw [ht1, hw, List.cons_append, hd_cons hcb, hhd]
    · intro x hx
      have hx' : skip x = Source.word a ++ t := by
        rw [hx, ht1, hw, List.cons_append, skip_of_not hcb]
      have k1 : a.word = c!"O" → ∀ c, hd t = some c → isAlpha c = false := by
        intro ho c hc
        obtain ⟨a', b', rfl, e⟩ := next c hc
        have := (List.isChain_cons_cons.mp hb.2).1.1 ho
        rw [e] at this
        have h' : letter c = false := by simpa using this
        exact h'
      have k2 : Source.word a ∈ G.syms.assigns → hd t ≠ some '=' := by
        intro he hc
        obtain ⟨a', b', rfl, e⟩ := next '=' hc
        exact (List.isChain_cons_cons.mp hb.2).1.2 he e
      obtain ⟨t', l1, l2⟩ := attr_back R hm (hb.1 a (by simp)) ht2 hht hrb k1 k2 hx'
      exact .word l1 (i2 t' (by rw [l2, ht3]))

end

end NC.Gram
