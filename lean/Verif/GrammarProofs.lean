import Verif.Grammar

/-! # Lemmas about the line grammar -/

namespace NC.Gram
open NC NC.Message

/-! ## Terminals -/

theorem skip_nil : skip [] = [] := rfl

theorem skip_length (s : Str) : (skip s).length ≤ s.length := by
  unfold skip; exact (List.dropWhile_suffix _).length_le

theorem skip_suffix (s : Str) : skip s <:+ s := List.dropWhile_suffix _

theorem skip_of_not {c : Char} {s : Str} (h : isBlank c = false) : skip (c :: s) = c :: s := by
  unfold skip; rw [List.dropWhile_cons_of_neg (by simp [h])]

theorem skip_of_blank {c : Char} {s : Str} (h : isBlank c = true) : skip (c :: s) = skip s := by
  unfold skip; rw [List.dropWhile_cons_of_pos h]

theorem skip_skip (s : Str) : skip (skip s) = skip s := by
  induction s with
  | nil => rfl
  | cons c s ih =>
    by_cases h : isBlank c = true
    · rw [skip_of_blank h, ih]
    · rw [skip_of_not (by simpa using h), skip_of_not (by simpa using h)]

theorem skip_head_not {c : Char} {s r : Str} (h : skip s = c :: r) : isBlank c = false := by
  by_contra hc
  have h1 := skip_skip s
  rw [h, skip_of_blank (by simpa using hc)] at h1
  have := skip_length r
  rw [h1] at this
  simp at this

/-- The next character that is not a blank. -/
def hd (s : Str) : Option Char := (skip s).head?

theorem hd_skip (s : Str) : hd (skip s) = hd s := by unfold hd; rw [skip_skip]

theorem foldl_longer_some (l : List Str) (v : Str) :
    ∃ w, l.foldl longer (some v) = some w ∧ (w = v ∨ w ∈ l) ∧ v.length ≤ w.length ∧ ∀ x ∈ l, x.length ≤ w.length := by
  induction l generalizing v with
  | nil => exact ⟨v, rfl, .inl rfl, le_refl _, by simp⟩
  | cons x l ih =>
    have e : longer (some v) x = if v.length < x.length then some x else some v := rfl
    rw [List.foldl_cons, e]
    by_cases h : v.length < x.length
    · rw [if_pos h]
      obtain ⟨w, h1, h2, h3, h4⟩ := ih x
      refine ⟨w, h1, ?_, by omega, ?_⟩
      · rcases h2 with h2 | h2
        · right; simp [h2]
        · right; simp [h2]
      · intro y hy
        rcases List.mem_cons.mp hy with rfl | hy
        · exact h3
        · exact h4 y hy
    · rw [if_neg h]
      obtain ⟨w, h1, h2, h3, h4⟩ := ih v
      refine ⟨w, h1, ?_, by omega, ?_⟩
      · rcases h2 with h2 | h2
        · exact .inl h2
        · right; simp [h2]
      · intro y hy
        rcases List.mem_cons.mp hy with rfl | hy
        · omega
        · exact h4 y hy

theorem mem_cands {syms : List Str} {s w : Str} :
    w ∈ syms.filter (fun w => w ≠ [] && w.isPrefixOf s) ↔ w ∈ syms ∧ w ≠ [] ∧ w <+: s := by
  rw [List.mem_filter]
  simp [List.isPrefixOf_iff_prefix]

/-- `longest` finds an entry that begins the text and no longer one does. -/
theorem longest_some {syms : List Str} {s w : Str} (h : longest syms s = some w) :
    w ∈ syms ∧ w ≠ [] ∧ w <+: s ∧ ∀ x ∈ syms, x <+: s → x.length ≤ w.length := by
  unfold longest at h
  cases hl : syms.filter (fun w => w ≠ [] && w.isPrefixOf s) with
  | nil => rw [hl] at h; simp at h
  | cons v l =>
    rw [hl, List.foldl_cons] at h
    obtain ⟨w', h1, h2, h3, h4⟩ := foldl_longer_some l v
    have e : longer none v = some v := rfl
    rw [e, h1] at h
    cases h
    have hm : w ∈ v :: l := by rcases h2 with h2 | h2 <;> simp [h2]
    rw [← hl] at hm
    obtain ⟨m1, m2, m3⟩ := mem_cands.mp hm
    refine ⟨m1, m2, m3, fun x hx hp => ?_⟩
    by_cases hxe : x = []
    · subst hxe; simp
    · have : x ∈ v :: l := by rw [← hl]; exact mem_cands.mpr ⟨hx, hxe, hp⟩
      rcases List.mem_cons.mp this with rfl | hx'
      · exact h3
      · exact h4 x hx'

theorem longest_none {syms : List Str} {s : Str} (h : longest syms s = none) :
    ∀ x ∈ syms, x ≠ [] → ¬ x <+: s := by
  intro x hx hxe hp
  unfold longest at h
  cases hl : syms.filter (fun w => w ≠ [] && w.isPrefixOf s) with
  | nil =>
    have : x ∈ syms.filter (fun w => w ≠ [] && w.isPrefixOf s) := mem_cands.mpr ⟨hx, hxe, hp⟩
    rw [hl] at this; simp at this
  | cons v l =>
    rw [hl, List.foldl_cons] at h
    obtain ⟨w', h1, _⟩ := foldl_longer_some l v
    have e : longer none v = some v := rfl
    rw [e, h1] at h
    cases h

theorem longest_eq_none {syms : List Str} {s : Str} (h : ∀ x ∈ syms, x ≠ [] → ¬ x <+: s) : longest syms s = none := by
  cases hl : longest syms s with
  | none => rfl
  | some w =>
    obtain ⟨h1, h2, h3, _⟩ := longest_some hl
    exact absurd h3 (h w h1 h2)

/-- What makes an entry the longest match. -/
theorem longest_eq_some {syms : List Str} {s w : Str} (hm : w ∈ syms) (hne : w ≠ []) (hp : w <+: s)
    (hmax : ∀ x ∈ syms, x <+: s → x.length ≤ w.length) : longest syms s = some w := by
  cases hl : longest syms s with
  | none => exact absurd hp (longest_none hl w hm hne)
  | some v =>
    obtain ⟨h1, h2, h3, h4⟩ := longest_some hl
    have e1 := h4 w hm hp
    have e2 := hmax v h1 h3
    have : v = w := by
      have := List.prefix_of_prefix_length_le hp h3 (by omega)
      exact (this.eq_of_length (by omega)).symm
    rw [this]

theorem symbol_some {syms : List Str} {s w r : Str} (h : symbol syms s = some (w, r)) :
    longest syms s = some w ∧ s = w ++ r := by
  unfold symbol at h
  split at h
  · rename_i v hv
    cases h
    obtain ⟨_, _, ⟨t, ht⟩, _⟩ := longest_some hv
    refine ⟨hv, ?_⟩
    rw [← ht]; simp
  · cases h

theorem symbol_eq {syms : List Str} {s w r : Str} (h : longest syms s = some w) (hs : s = w ++ r) :
    symbol syms s = some (w, r) := by
  unfold symbol; rw [h, hs]; simp

theorem symbol_none {syms : List Str} {s : Str} : symbol syms s = none ↔ longest syms s = none := by
  unfold symbol; split <;> simp_all

theorem symbol_length {syms : List Str} {s w r : Str} (h : symbol syms s = some (w, r)) : r.length < s.length := by
  obtain ⟨h1, h2⟩ := symbol_some h
  have := (longest_some h1).2.1
  rw [h2, List.length_append]
  have : 0 < w.length := List.length_pos_of_ne_nil this
  omega

theorem tail_suffix {c : Char} {s r : Str} (h : skip s = c :: r) : r <:+ s := by
  have h1 : (c :: r) <:+ s := h ▸ skip_suffix s
  exact (List.suffix_cons _ _).trans h1

theorem takeWhile_sat {p : Char → Bool} {s : Str} : ∀ c ∈ s.takeWhile p, p c = true := by
  induction s with
  | nil => simp
  | cons a s ih =>
    intro c hc
    by_cases h : p a = true
    · rw [List.takeWhile_cons_of_pos h] at hc
      rcases List.mem_cons.mp hc with rfl | hc
      · exact h
      · exact ih c hc
    · rw [List.takeWhile_cons_of_neg h] at hc; cases hc

theorem optSign_suffix (s : Str) : (optSign s).2 <:+ s := by
  unfold optSign
  split
  · rename_i r h; exact tail_suffix h
  · rename_i r h; exact tail_suffix h
  · exact skip_suffix s

theorem optHash_suffix (s : Str) : (optHash s).2 <:+ s := by
  unfold optHash
  split
  · rename_i r h; exact tail_suffix h
  · exact skip_suffix s

theorem optRun_suffix (p : Char → Bool) (s : Str) : (optRun p s).2 <:+ s := by
  unfold optRun
  split
  · exact List.suffix_refl _
  · exact List.dropWhile_suffix _

theorem optDot_suffix (s : Str) : (optDot s).2 <:+ s := by
  unfold optDot
  split
  · exact List.suffix_cons _ _
  · exact List.suffix_refl _

theorem value_suffix (w : Str) (a g : Option Char) (o : Option Str) (s : Str) : (value w a g o s).2 <:+ s := by
  unfold value
  dsimp only
  exact (optRun_suffix _ _).trans ((skip_suffix _).trans ((optRun_suffix _ _).trans ((optDot_suffix _).trans
    ((optRun_suffix _ _).trans ((skip_suffix _).trans (optHash_suffix _))))))

theorem operand_suffix (w : Str) (a : Option Char) (s : Str) : (operand w a s).2 <:+ s := by
  unfold operand
  dsimp only
  exact (value_suffix _ _ _ _ _).trans ((optRun_suffix _ _).trans ((skip_suffix _).trans (optSign_suffix _)))

theorem operandClosed_suffix (w : Str) (s : Str) : (operandClosed w s).2 <:+ s := by
  unfold operandClosed
  dsimp only
  exact (value_suffix _ _ _ _ _).trans (optSign_suffix _)

/-! ## Shapes of words -/

/-- The pieces of a word are of the kind their names say. -/
structure Shape (d : Dec) : Prop where
  assign : ∀ c, d.assign = some c → c = '='
  sign : ∀ c, d.sign = some c → c = '-' ∨ c = '+'
  openB : ∀ b, d.openB = some b → b ≠ [] ∧ ∀ c ∈ b, c = '['
  mac : ∀ m, d.mac = some m → m = c!"#"
  value : ∀ v, d.value = some v → v ≠ [] ∧ ∀ c ∈ v, isDig c = true
  dot : ∀ c, d.dot = some c → c = '.'
  value2 : ∀ v, d.value2 = some v → v ≠ [] ∧ (∀ c ∈ v, isDig c = true) ∧ d.dot = some '.'
  closeB : ∀ b, d.closeB = some b → b ≠ [] ∧ ∀ c ∈ b, c = ']'

theorem optRun_some {p : Char → Bool} {s v : Str} (h : (optRun p s).1 = some v) :
    v ≠ [] ∧ (∀ c ∈ v, p c = true) ∧ s = v ++ (optRun p s).2 ∧ ∀ c r, (optRun p s).2 = c :: r → p c = false := by
  unfold optRun at h ⊢
  split at h
  · cases h
  · rename_i c t ht
    cases h
    refine ⟨by simp, ?_, ?_, ?_⟩
    · intro x hx
      rw [← ht] at hx
      exact takeWhile_sat x hx
    · simp only [ht]
      rw [← ht, List.takeWhile_append_dropWhile]
    · simp only [ht]
      intro x r hx
      have := List.head?_dropWhile_not p s
      rw [hx] at this
      simpa using this

theorem optRun_none {p : Char → Bool} {s : Str} (h : (optRun p s).1 = none) :
    (optRun p s).2 = s ∧ ∀ c r, s = c :: r → p c = false := by
  unfold optRun at h ⊢
  split at h
  · rename_i ht
    simp only [ht]
    refine ⟨trivial, ?_⟩
    rintro c r rfl
    by_contra hc
    rw [List.takeWhile_cons_of_pos (by simpa using hc)] at ht
    cases ht
  · cases h

theorem optDot_cases (s : Str) :
    (∃ r, s = '.' :: r ∧ optDot s = (some '.', r)) ∨ (optDot s = (none, s) ∧ ∀ r, s ≠ '.' :: r) := by
  unfold optDot
  split
  · exact .inl ⟨_, rfl, rfl⟩
  · rename_i h
    exact .inr ⟨rfl, fun r hr => h r hr⟩

theorem optSign_cases (s : Str) :
    (∃ c r, (c = '-' ∨ c = '+') ∧ skip s = c :: r ∧ optSign s = (some c, r)) ∨
      (optSign s = (none, skip s) ∧ hd s ≠ some '-' ∧ hd s ≠ some '+') := by
  unfold optSign hd
  split
  · rename_i r h; exact .inl ⟨_, r, .inl rfl, h, rfl⟩
  · rename_i r h; exact .inl ⟨_, r, .inr rfl, h, rfl⟩
  · rename_i h1 h2
    refine .inr ⟨rfl, ?_, ?_⟩
    · intro hh
      cases hs : skip s with
      | nil => rw [hs] at hh; cases hh
      | cons c r => rw [hs] at hh; simp at hh; subst hh; exact h1 r hs
    · intro hh
      cases hs : skip s with
      | nil => rw [hs] at hh; cases hh
      | cons c r => rw [hs] at hh; simp at hh; subst hh; exact h2 r hs

theorem optHash_cases (s : Str) :
    (∃ r, skip s = '#' :: r ∧ optHash s = (some c!"#", r)) ∨ (optHash s = (none, skip s) ∧ hd s ≠ some '#') := by
  unfold optHash hd
  split
  · rename_i r h; exact .inl ⟨r, h, rfl⟩
  · rename_i h1
    refine .inr ⟨rfl, ?_⟩
    intro hh
    cases hs : skip s with
    | nil => rw [hs] at hh; cases hh
    | cons c r => rw [hs] at hh; simp at hh; subst hh; exact h1 r hs

theorem value_shape (w : Str) (a g : Option Char) (o : Option Str) (s : Str)
    (ha : ∀ c, a = some c → c = '=') (hg : ∀ c, g = some c → c = '-' ∨ c = '+')
    (ho : ∀ b, o = some b → b ≠ [] ∧ ∀ c ∈ b, c = '[') : Shape (value w a g o s).1 := by
  unfold value
  dsimp only
  refine ⟨ha, hg, ho, ?_, ?_, ?_, ?_, ?_⟩
  · intro m hm
    rcases optHash_cases s with ⟨r, _, e⟩ | ⟨e, _⟩
    · rw [e] at hm; cases hm; rfl
    · rw [e] at hm; cases hm
  · intro v hv
    obtain ⟨h1, h2, _⟩ := optRun_some hv
    exact ⟨h1, h2⟩
  · intro c hc
    rcases optDot_cases (optRun isDig (skip (optHash s).2)).2 with ⟨r, _, e⟩ | ⟨e, _⟩
    · rw [e] at hc; cases hc; rfl
    · rw [e] at hc; cases hc
  · intro v hv
    obtain ⟨h1, h2, h3, _⟩ := optRun_some hv
    refine ⟨h1, h2, ?_⟩
    dsimp only
    rcases optDot_cases (optRun isDig (skip (optHash s).2)).2 with ⟨r, _, e⟩ | ⟨e, _⟩
    · rw [e]
    · exfalso
      rw [e] at h3
      cases v with
      | nil => exact h1 rfl
      | cons c v =>
        have hd := h2 c (by simp)
        rw [List.cons_append] at h3
        simp only at h3
        cases hv1 : (optRun isDig (skip (optHash s).2)).1 with
        | none =>
          obtain ⟨q1, q2⟩ := optRun_none hv1
          rw [q1] at h3
          rw [q2 c _ h3] at hd; cases hd
        | some u =>
          obtain ⟨_, _, _, q⟩ := optRun_some hv1
          rw [q c _ h3] at hd; cases hd
  · intro b hb
    obtain ⟨h1, h2, _⟩ := optRun_some hb
    exact ⟨h1, fun c hc => by simpa [isClose] using h2 c hc⟩

theorem operand_shape (w : Str) (a : Option Char) (s : Str) (ha : ∀ c, a = some c → c = '=') :
    Shape (operand w a s).1 := by
  unfold operand
  dsimp only
  refine value_shape _ _ _ _ _ ha ?_ ?_
  · intro c hc
    rcases optSign_cases s with ⟨c', r, h, _, e⟩ | ⟨e, _⟩
    · rw [e] at hc; cases hc; exact h
    · rw [e] at hc; cases hc
  · intro b hb
    obtain ⟨h1, h2, _⟩ := optRun_some hb
    exact ⟨h1, fun c hc => by simpa [isOpen] using h2 c hc⟩

theorem operandClosed_shape (w : Str) (s : Str) : Shape (operandClosed w s).1 := by
  unfold operandClosed
  dsimp only
  refine value_shape _ _ _ _ _ (by simp) ?_ (by simp)
  intro c hc
  rcases optSign_cases s with ⟨c', r, h, _, e⟩ | ⟨e, _⟩
  · rw [e] at hc; cases hc; exact h
  · rw [e] at hc; cases hc

theorem value_word (w : Str) (a g : Option Char) (o : Option Str) (s : Str) :
    (value w a g o s).1.word = w ∧ (value w a g o s).1.assign = a ∧ (value w a g o s).1.sign = g ∧
      (value w a g o s).1.openB = o := ⟨rfl, rfl, rfl, rfl⟩

theorem operand_word (w : Str) (a : Option Char) (s : Str) :
    (operand w a s).1.word = w ∧ (operand w a s).1.assign = a := ⟨rfl, rfl⟩

theorem operandClosed_word (w : Str) (s : Str) :
    (operandClosed w s).1.word = w ∧ (operandClosed w s).1.assign = none ∧ (operandClosed w s).1.openB = none :=
  ⟨rfl, rfl, rfl⟩

/-! ## Rules -/

theorem checked_match {G : Gram} {ps ps' : PS} {p : Dec × Str} {a : Attr} {r : Str}
    (h : checked G ps p = (ps', .match_ a r)) :
    a = .dec p.1 ∧ r = p.2 ∧ verify G.words G.lang p.1 ps.st = (ps'.st, .pass) ∧ ps'.msg = ps.msg := by
  unfold checked at h
  dsimp only at h
  split at h
  · rename_i hv
    simp only [Prod.mk.injEq, Res.match_.injEq] at h
    obtain ⟨rfl, rfl, rfl⟩ := h
    exact ⟨rfl, rfl, Prod.ext rfl hv, rfl⟩
  · simp at h
  · simp at h

/-- How a word came about. -/
inductive Made (G : Gram) (ps ps' : PS) (s : Str) : Attr → Str → Prop where
  | comma (w r : Str) (c : Char) (h : symbol G.syms.chars s = some (w, c :: r)) (hb : isBlank c = true) (hp : ps' = ps) :
      Made G ps ps' s (.chr w '\x00') (skip r)
  | decimal (w r : Str) (hc : charRule G s = .fail) (ha : assignAhead G s = false)
      (h : symbol G.syms.decs (skip s) = some (w, r)) (hk : checked G ps (operand w none r) = (ps', .match_ (.dec (operand w none r).1) (operand w none r).2)) :
      Made G ps ps' s (.dec (operand w none r).1) (operand w none r).2
  | division (r : Str) (h0 : decimalRule G ps s = (ps0, .fail)) (hc : charRule G s = .fail) (h : skip s = '/' :: r) (hn : slashNext r = false)
      (hk : checked G ps0 (operand c!"/" none r) = (ps', .match_ (.dec (operand c!"/" none r).1) (operand c!"/" none r).2)) :
      Made G ps ps' s (.dec (operand c!"/" none r).1) (operand c!"/" none r).2
  | assign (w r t : Str) (h0 : decimalRule G ps s = (ps0, .fail)) (hc : charRule G s = .fail)
      (h1 : divisionRule G ps0 s = (ps1, .fail)) (h : symbol G.syms.assigns (skip s) = some (w, r)) (he : skip r = '=' :: t)
      (hk : checked G ps1 (operand w (some '=') t) =
        (ps', .match_ (.dec (operand w (some '=') t).1) (operand w (some '=') t).2)) :
      Made G ps ps' s (.dec (operand w (some '=') t).1) (operand w (some '=') t).2
  | optional (r : Str) (h0 : decimalRule G ps s = (ps0, .fail)) (hc : charRule G s = .fail)
      (h1 : divisionRule G ps0 s = (ps1, .fail)) (h2 : assignRule G ps1 s = (ps2, .fail))
      (h : skip s = '/' :: r) (hn : slashNext r = false)
      (hk : checked G ps2 (operandClosed c!"/" r) =
        (ps', .match_ (.dec (operandClosed c!"/" r).1) (operandClosed c!"/" r).2)) :
      Made G ps ps' s (.dec (operandClosed c!"/" r).1) (operandClosed c!"/" r).2
  | comment (r t : Str) (c : Char) (h0 : decimalRule G ps s = (ps0, .fail)) (hc : charRule G s = .fail)
      (h1 : divisionRule G ps0 s = (ps1, .fail)) (h2 : assignRule G ps1 s = (ps2, .fail))
      (h3 : optionalRule G ps2 s = (ps', .fail)) (h : skip s = '(' :: r) (ht : r.dropWhile inComment = c :: t) :
      Made G ps ps' s (.str c!"(" (r.takeWhile inComment)) t
  | start (r : Str) (h0 : decimalRule G ps s = (ps0, .fail)) (hc : charRule G s = .fail)
      (h1 : divisionRule G ps0 s = (ps1, .fail)) (h2 : assignRule G ps1 s = (ps2, .fail))
      (h3 : optionalRule G ps2 s = (ps', .fail)) (h : skip s = '%' :: r) (hr : skip r = []) :
      Made G ps ps' s (.chr c!"%" '\x00') []
  | name (r t n : Str) (h0 : decimalRule G ps s = (ps0, .fail)) (hc : charRule G s = .fail)
      (h1 : divisionRule G ps0 s = (ps1, .fail)) (h2 : assignRule G ps1 s = (ps2, .fail))
      (h3 : optionalRule G ps2 s = (ps', .fail)) (h : skip s = 'O' :: r) (hn : optRun inName r = (some n, t)) :
      Made G ps ps' s (.str c!"O" n) ((skip t).dropWhile isAlpha)

theorem orElse_match {x : PS × Res} {f : PS → PS × Res} {ps' : PS} {a : Attr} {r : Str}
    (h : orElse x f = (ps', .match_ a r)) : x = (ps', .match_ a r) ∨ ∃ q, x = (q, .fail) ∧ f q = (ps', .match_ a r) := by
  unfold orElse at h
  split at h
  · rename_i he; exact .inr ⟨x.1, Prod.ext rfl he, h⟩
  · exact .inl h

theorem charRule_match {G : Gram} {s : Str} {a : Attr} {r : Str} (h : charRule G s = .match_ a r) :
    ∃ w c t, symbol G.syms.chars s = some (w, c :: t) ∧ isBlank c = true ∧ a = .chr w '\x00' ∧ r = skip t := by
  unfold charRule at h
  split at h
  · rename_i w c t hs
    split at h
    · rename_i hb; cases h; exact ⟨w, c, t, hs, hb, rfl, rfl⟩
    · cases h
  · cases h

theorem checked_shape {G : Gram} {ps ps' : PS} {p : Dec × Str} {a : Attr} {r : Str}
    (h : checked G ps p = (ps', .match_ a r)) :
    a = .dec p.1 ∧ r = p.2 ∧ checked G ps p = (ps', .match_ (.dec p.1) p.2) := by
  obtain ⟨rfl, rfl, _⟩ := checked_match h
  exact ⟨rfl, rfl, h⟩

theorem lineAttribute_made {G : Gram} {ps ps' : PS} {s : Str} {a : Attr} {r : Str}
    (h : lineAttribute G ps s = (ps', .match_ a r)) : Made G ps ps' s a r := by
  unfold lineAttribute at h
  rcases orElse_match h with h | ⟨q, hc, h⟩
  · simp only [Prod.mk.injEq] at h
    obtain ⟨rfl, hx⟩ := h
    obtain ⟨w, c, t, h1, h2, rfl, rfl⟩ := charRule_match hx
    exact .comma w t c h1 h2 rfl
  simp only [Prod.mk.injEq] at hc
  obtain ⟨rfl, hc⟩ := hc
  rcases orElse_match h with h | ⟨p0, h0, h⟩
  · unfold decimalRule at h
    split at h
    · cases h
    · rename_i ha
      split at h
      · rename_i w t hs
        obtain ⟨rfl, rfl, hk⟩ := checked_shape h
        exact .decimal w t hc (by simpa using ha) hs hk
      · cases h
  rcases orElse_match h with h | ⟨p1, h1, h⟩
  · unfold divisionRule at h
    split at h
    · rename_i t hs
      split at h
      · cases h
      · rename_i hn
        obtain ⟨rfl, rfl, hk⟩ := checked_shape h
        exact .division t h0 hc hs (by simpa using hn) hk
    · cases h
  rcases orElse_match h with h | ⟨p2, h2, h⟩
  · unfold assignRule at h
    split at h
    · rename_i w t hs
      split at h
      · rename_i u hu
        obtain ⟨rfl, rfl, hk⟩ := checked_shape h
        exact .assign w t u h0 hc h1 hs hu hk
      · cases h
    · cases h
  rcases orElse_match h with h | ⟨p3, h3, h⟩
  · unfold optionalRule at h
    split at h
    · rename_i t hs
      split at h
      · cases h
      · rename_i hn
        obtain ⟨rfl, rfl, hk⟩ := checked_shape h
        exact .optional t h0 hc h1 h2 hs (by simpa using hn) hk
    · cases h
  rcases orElse_match h with hx | ⟨p4, h4, hy⟩
  · have e1 : p3 = ps' := congrArg Prod.fst hx
    have e2 : commentRule s = .match_ a r := congrArg Prod.snd hx
    subst e1
    unfold commentRule at e2
    split at e2
    · rename_i t hs
      split at e2
      · rename_i c u hu
        cases e2
        exact .comment t _ c h0 hc h1 h2 h3 hs hu
      · cases e2
    · cases e2
  have e4 : p3 = p4 := congrArg Prod.fst h4
  subst e4
  rcases orElse_match hy with hx | ⟨p5, h5, hz⟩
  · have e1 : p3 = ps' := congrArg Prod.fst hx
    have e2 : startRule s = .match_ a r := congrArg Prod.snd hx
    subst e1
    unfold startRule at e2
    split at e2
    · rename_i t hs
      split at e2
      · rename_i hr
        cases e2
        exact .start t h0 hc h1 h2 h3 hs hr
      · cases e2
    · cases e2
  have e5 : p3 = p5 := congrArg Prod.fst h5
  subst e5
  have e1 : p3 = ps' := congrArg Prod.fst hz
  have e2 : nameRule s = .match_ a r := congrArg Prod.snd hz
  subst e1
  unfold nameRule at e2
  split at e2
  · rename_i t hs
    split at e2
    · rename_i n u hu
      cases e2
      exact .name t u n h0 hc h1 h2 h3 hs hu
    · cases e2
  · cases e2

theorem suffix_drop {c : Char} {s r : Str} (h : skip s = c :: r) : r <:+ s ∧ r.length < s.length := by
  have h1 : (c :: r) <:+ s := h ▸ skip_suffix s
  refine ⟨(List.suffix_cons _ _).trans h1, ?_⟩
  have := h1.length_le
  simp at this; omega

theorem symbol_suffix {syms : List Str} {s w r : Str} (h : symbol syms s = some (w, r)) :
    r <:+ s ∧ r.length < s.length :=
  ⟨⟨w, (symbol_some h).2.symm⟩, symbol_length h⟩

/-- A word takes at least one character from the front of the text. -/
theorem made_suffix {G : Gram} {ps ps' : PS} {s : Str} {a : Attr} {r : Str} (h : Made G ps ps' s a r) :
    r <:+ s ∧ r.length < s.length := by
  have step : ∀ {x y : Str}, x <:+ y → y <:+ s ∧ y.length < s.length → x <:+ s ∧ x.length < s.length :=
    fun h1 h2 => ⟨h1.trans h2.1, lt_of_le_of_lt h1.length_le h2.2⟩
  cases h with
  | comma w r c h hb =>
    have := symbol_suffix h
    exact step ((skip_suffix _).trans (List.suffix_cons _ _)) this
  | decimal w r hc ha h hk =>
    have := symbol_suffix h
    exact step (operand_suffix _ _ _) ⟨this.1.trans (skip_suffix s), lt_of_lt_of_le this.2 (skip_length s)⟩
  | division r h0 hc h hn hk => exact step (operand_suffix _ _ _) (suffix_drop h)
  | assign w r t h0 hc h1 h he hk =>
    have h2 := symbol_suffix h
    have h3 := suffix_drop he
    exact step ((operand_suffix _ _ _).trans h3.1) ⟨h2.1.trans (skip_suffix s), lt_of_lt_of_le h2.2 (skip_length s)⟩
  | optional r h0 hc h1 h2 h hn hk => exact step (operandClosed_suffix _ _) (suffix_drop h)
  | comment r t c h0 hc h1 h2 h3 h ht =>
    have : (c :: _) <:+ _ := ht ▸ List.dropWhile_suffix inComment
    exact step ((List.suffix_cons _ _).trans this) (suffix_drop h)
  | start r h0 hc h1 h2 h3 h hr => exact ⟨List.nil_suffix, by have := (suffix_drop h).2; simp; omega⟩
  | name r t n h0 hc h1 h2 h3 h hn =>
    refine step ?_ (suffix_drop h)
    have := optRun_suffix inName r
    rw [hn] at this
    exact (List.dropWhile_suffix _).trans ((skip_suffix _).trans this)

theorem lineAttribute_length {G : Gram} {ps ps' : PS} {s : Str} {a : Attr} {r : Str}
    (h : lineAttribute G ps s = (ps', .match_ a r)) : r.length < s.length := (made_suffix (lineAttribute_made h)).2

theorem lineAttribute_suffix {G : Gram} {ps ps' : PS} {s : Str} {a : Attr} {r : Str}
    (h : lineAttribute G ps s = (ps', .match_ a r)) : r <:+ s := (made_suffix (lineAttribute_made h)).1

/-- Every word of the text, one after the other. -/
inductive Words (G : Gram) : PS → Str → PS → Block → Prop where
  | done (ps : PS) (s : Str) (h : skip s = []) : Words G ps s ps []
  | word {ps ps1 ps' : PS} {s r : Str} {a : Attr} {b : Block} (h : lineAttribute G ps s = (ps1, .match_ a r))
      (t : Words G ps1 r ps' b) : Words G ps s ps' (a :: b)

theorem longest_nil (syms : List Str) : longest syms [] = none := by
  apply longest_eq_none
  intro x _ hx hp
  exact hx (List.prefix_nil.mp hp)

theorem symbol_nil (syms : List Str) : symbol syms [] = none := by rw [symbol_none]; exact longest_nil _

theorem prefix_blank {x s : Str} (hx : x ≠ []) (hb : ∀ c ∈ x, isBlank c = false) (hs : skip s = []) : ¬ x <+: s := by
  rintro ⟨t, rfl⟩
  cases x with
  | nil => exact hx rfl
  | cons c x =>
    rw [List.cons_append, skip_of_not (hb c (by simp))] at hs
    cases hs

theorem lineAttribute_end {G : Gram} {ps : PS} {s : Str} (hch : ∀ w ∈ G.syms.chars, ∀ c ∈ w, isBlank c = false)
    (hs : skip s = []) : lineAttribute G ps s = (ps, .fail) := by
  have h1 : charRule G s = .fail := by
    have : symbol G.syms.chars s = none := by
      rw [symbol_none]
      apply longest_eq_none
      intro x hx hne
      exact prefix_blank hne (hch x hx) hs
    unfold charRule; rw [this]
  have h2 : decimalRule G ps s = (ps, .fail) := by
    have : assignAhead G s = false := by unfold assignAhead; rw [hs, symbol_nil]
    unfold decimalRule; rw [this, if_neg (by simp), hs, symbol_nil]
  have h3 : divisionRule G ps s = (ps, .fail) := by unfold divisionRule; rw [hs]
  have h4 : assignRule G ps s = (ps, .fail) := by unfold assignRule; rw [hs, symbol_nil]
  have h5 : optionalRule G ps s = (ps, .fail) := by unfold optionalRule; rw [hs]
  have h6 : commentRule s = .fail := by unfold commentRule; rw [hs]
  have h7 : startRule s = .fail := by unfold startRule; rw [hs]
  have h8 : nameRule s = .fail := by unfold nameRule; rw [hs]
  unfold lineAttribute
  simp [orElse, h1, h2, h3, h4, h5, h6, h7, h8]

/-- No blank in the one-character table (`,` in the parser). -/
def CharsOk (G : Gram) : Prop := ∀ w ∈ G.syms.chars, ∀ c ∈ w, isBlank c = false

theorem buildSymbols_chars (g : WordMap) (ops : List Str) : ∀ w ∈ (buildSymbols g ops).chars, ∀ c ∈ w, isBlank c = false := by
  intro w hw c hc
  simp only [buildSymbols, List.mem_singleton] at hw
  subst hw
  simp at hc; subst hc; decide

theorem moreWords_accept {G : Gram} (hG : CharsOk G) (n : Nat) {ps ps' : PS} {acc b : Block} {s : Str} (hn : s.length ≤ n) :
    moreWords G n ps acc s = (ps', .accept b) ↔ ∃ b', b = acc ++ b' ∧ Words G ps s ps' b' := by
  induction n generalizing ps acc s with
  | zero =>
    have : s = [] := List.length_eq_zero_iff.mp (by omega)
    subst this
    constructor
    · intro h
      simp only [moreWords, atEnd, skip_nil, if_true, Prod.mk.injEq, PRes.accept.injEq] at h
      obtain ⟨rfl, rfl⟩ := h
      exact ⟨[], by simp, .done _ _ rfl⟩
    · rintro ⟨b', rfl, hw⟩
      cases hw with
      | done _ _ h => simp [moreWords, atEnd, skip_nil]
      | word h t => have := lineAttribute_length h; simp at this
  | succ n ih =>
    constructor
    · intro h
      unfold moreWords at h
      split at h
      · rename_i ps1 a r hl
        have := lineAttribute_length hl
        obtain ⟨b', rfl, hw⟩ := (ih (by omega)).mp h
        exact ⟨a :: b', by simp, .word hl hw⟩
      · rename_i ps1 hl
        simp only [atEnd] at h
        split at h
        · rename_i he
          rw [lineAttribute_end hG he] at hl
          simp only [Prod.mk.injEq, and_true] at hl
          simp only [Prod.mk.injEq, PRes.accept.injEq] at h
          obtain ⟨rfl, rfl⟩ := h
          subst hl
          exact ⟨[], by simp, .done _ _ he⟩
        · simp at h
      · simp at h
      · simp at h
    · rintro ⟨b', rfl, hw⟩
      cases hw with
      | done _ _ h =>
        unfold moreWords
        rw [lineAttribute_end hG h]
        simp [atEnd, h]
      | word h t =>
        have := lineAttribute_length h
        unfold moreWords
        rw [h]
        dsimp only
        rw [ih (by omega)]
        exact ⟨_, by simp, t⟩

/-- Accepting a line is reading all of it as words, at least one. -/
theorem phrase_accept {G : Gram} (hG : CharsOk G) {ps ps' : PS} {s : Str} {b : Block} :
    phrase G ps s = (ps', .accept b) ↔ b ≠ [] ∧ Words G ps s ps' b := by
  constructor
  · intro h
    unfold phrase at h
    split at h
    · rename_i ps1 a r hl
      have := lineAttribute_length hl
      obtain ⟨b', rfl, hw⟩ := (moreWords_accept hG _ (by omega)).mp h
      exact ⟨by simp, .word hl hw⟩
    · simp at h
    · simp at h
    · simp at h
  · rintro ⟨hne, hw⟩
    cases hw with
    | done _ _ h => exact absurd rfl hne
    | word h t =>
      have := lineAttribute_length h
      unfold phrase
      rw [h]
      dsimp only
      rw [moreWords_accept hG _ (by omega)]
      exact ⟨_, rfl, t⟩

end NC.Gram
