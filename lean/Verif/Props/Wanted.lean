import Verif.OrderAttr
import Verif.ExprProofs
import Verif.LangProofs
import Verif.Spec.Wanted

/-!
# C100: the values of two wanted letters on a line
-/

namespace NC.OrderAttr

open NC NC.Calc NC.Spec NC.Spec.Wanted

theorem isGraph_upper {c : Char} (h : 'A' ≤ c ∧ c ≤ 'Z') : isGraph c = true := by
  have h1 : 65 ≤ c.toNat := h.1
  have h2 : c.toNat ≤ 90 := h.2
  simp only [isGraph, decide_eq_true_eq]; omega

theorem upper_ne {c d : Char} (h : 'A' ≤ c ∧ c ≤ 'Z') (hd : d.toNat < 65) : d ≠ c := by
  rintro rfl
  have h1 : 65 ≤ d.toNat := h.1
  omega

theorem seek_clear {c : Char} {u : Str} (h : Clear c u) (s : Str) : seek c (u ++ s) = seek c s := by
  induction u with
  | nil => rfl
  | cons x u ih =>
    have ihu := ih (fun y hy => h y (List.mem_cons_of_mem _ hy))
    rw [List.cons_append, seek]
    rcases h x List.mem_cons_self with rfl | rfl | ⟨hg, hne⟩
    · rw [if_pos (Or.inl rfl), ihu]
    · rw [if_pos (Or.inr rfl), ihu]
    · split
      · exact ihu
      · rw [if_pos ⟨by simpa [isGraph] using hg, hne⟩, ihu]

theorem seek_split (c : Char) (s : Str) : ∃ u, s = u ++ seek c s ∧ Clear c u := by
  induction s with
  | nil => exact ⟨[], rfl, by simp [Clear]⟩
  | cons x t ih =>
    obtain ⟨u, h1, h2⟩ := ih
    rw [seek]
    split
    · rename_i hb
      refine ⟨x :: u, by rw [List.cons_append, ← h1], ?_⟩
      intro y hy
      rcases List.mem_cons.mp hy with rfl | hy
      · rcases hb with rfl | rfl
        · exact Or.inl rfl
        · exact Or.inr (Or.inl rfl)
      · exact h2 y hy
    · split
      · rename_i hg
        refine ⟨x :: u, by rw [List.cons_append, ← h1], ?_⟩
        intro y hy
        rcases List.mem_cons.mp hy with rfl | hy
        · exact Or.inr (Or.inr ⟨by simpa [isGraph] using hg.1, hg.2⟩)
        · exact h2 y hy
      · exact ⟨[], rfl, by simp [Clear]⟩

theorem number_signed {s : Str} {q : ℚ} {r : Str} (h : number s = some (q, r)) :
    ∃ n, s = n ++ r ∧ Signed n := by
  unfold number at h
  split at h
  · simp only [Option.map_eq_some_iff] at h
    obtain ⟨⟨q', r''⟩, h1, h2⟩ := h
    simp at h2
    obtain ⟨pre, hp, hn⟩ := ureal_txt h1
    exact ⟨'-' :: pre, by rw [hp, h2.2]; rfl, ['-'], pre, rfl, by simp, hn⟩
  · obtain ⟨pre, hp, hn⟩ := ureal_txt h
    exact ⟨'+' :: pre, by rw [hp]; rfl, ['+'], pre, rfl, by simp, hn⟩
  · obtain ⟨pre, hp, hn⟩ := ureal_txt h
    exact ⟨pre, hp, [], pre, rfl, by simp, hn⟩

theorem number_plain {s : Str} (h : ∀ x r, s = x :: r → x ≠ '-' ∧ x ≠ '+') : number s = ureal s := by
  unfold number
  split
  · exact absurd rfl (h _ _ rfl).1
  · exact absurd rfl (h _ _ rfl).2
  · rfl

theorem number_written (neg : Bool) (ip fp : List (Fin 10)) (h : ip ≠ [] ∨ fp ≠ []) {rest : Str}
    (hr : numEnd rest) :
    number (((if neg then ['-'] else []) ++ prNum ip fp) ++ rest) =
      some (if neg then -numVal ip fp else numVal ip fp, rest) := by
  cases neg with
  | true =>
    simp only [if_true, List.cons_append, List.nil_append, number]
    rw [ureal_num ip fp h hr]; rfl
  | false =>
    simp only [Bool.false_eq_true, if_false, List.nil_append]
    rw [number_plain, ureal_num ip fp h hr]
    intro x r hx
    obtain ⟨c, r', hcr, hc⟩ := prNum_head ip fp h rest
    rw [hcr] at hx
    simp only [List.cons.injEq] at hx
    rw [← hx.1]
    rcases hc with hc | rfl
    · exact ⟨isDig_char hc _ (by decide), isDig_char hc _ (by decide)⟩
    · decide

theorem numTxt_head {t : Str} (h : NumTxt t) :
    ∃ c r, t = c :: r ∧ c ≠ '-' ∧ c ≠ '+' := by
  have hd : ∀ c : Char, ('0' ≤ c ∧ c ≤ '9') → c ≠ '-' ∧ c ≠ '+' := by
    intro c hc
    constructor <;> (rintro rfl; revert hc; decide)
  cases h with
  | int h1 h2 h3 =>
    rename_i ip ex
    cases ip with
    | nil => exact absurd rfl h2
    | cons c ip => exact ⟨c, ip ++ ex, rfl, hd c (h1 c List.mem_cons_self)⟩
  | frac h1 h2 h3 h4 =>
    rename_i ip fp ex
    cases ip with
    | nil => exact ⟨'.', fp ++ ex, rfl, by decide, by decide⟩
    | cons c ip => exact ⟨c, _, rfl, hd c (h1 c List.mem_cons_self)⟩

theorem ureal_some {t r : Str} (h : NumTxt t) : ∃ p, ureal (t ++ r) = some p := by
  have hd : ∀ c : Char, ('0' ≤ c ∧ c ≤ '9') → isDig c = true := by
    intro c hc; simpa [isDig] using hc
  unfold ureal
  dsimp only
  rw [if_neg]
  · exact ⟨_, rfl⟩
  · rintro ⟨ha, hb⟩
    cases h with
    | int h1 h2 h3 =>
      rename_i ip ex
      cases ip with
      | nil => exact absurd rfl h2
      | cons c ip => simp [hd c (h1 c List.mem_cons_self)] at ha
    | frac h1 h2 h3 h4 =>
      rename_i ip fp ex
      cases ip with
      | nil =>
        cases fp with
        | nil => simp at h3
        | cons c fp =>
          have h0 : isDig '.' = false := by decide
          simp [fracPart, h0, hd c (h2 c List.mem_cons_self)] at hb
      | cons c ip => simp [hd c (h1 c List.mem_cons_self)] at ha

theorem number_some {n r : Str} (h : Signed n) : ∃ p, number (n ++ r) = some p := by
  obtain ⟨sg, t, rfl, hs, hn⟩ := h
  obtain ⟨p, hp⟩ := ureal_some (r := r) hn
  rcases hs with rfl | rfl | rfl
  · refine ⟨p, ?_⟩
    rw [List.nil_append, number_plain, hp]
    intro x r' hx
    obtain ⟨c, r'', hc, hne⟩ := numTxt_head hn
    rw [hc, List.cons_append, List.cons.injEq] at hx
    rw [← hx.1]; exact hne
  · refine ⟨(-p.1, p.2), ?_⟩
    simp [number, hp]
  · exact ⟨p, by simp [number, hp]⟩

/-- A number is read exactly where one is written. -/
theorem number_none_iff (t : Str) : number t = none ↔ NoNumber t := by
  constructor
  · rintro h n r rfl hs
    obtain ⟨p, hp⟩ := number_some (r := r) hs
    rw [hp] at h; cases h
  · intro h
    cases hn : number t with
    | none => rfl
    | some p =>
      obtain ⟨n, h1, h2⟩ := number_signed (q := p.1) (r := p.2) hn
      exact absurd h2 (h n _ h1)

/-! ## Words -/

theorem text_numEnd {ws : List W} (h : ∀ w ∈ ws, w.Good) : numEnd (text ws) := by
  cases ws with
  | nil => trivial
  | cons w ws =>
    obtain ⟨hu, _, hg⟩ := h w List.mem_cons_self
    show numEnd (w.text ++ text ws)
    unfold W.text
    cases hgap : w.gap with
    | succ k => simp [List.replicate_succ, numEnd]; decide
    | zero =>
      rw [hgap] at hg
      have hE : w.letter ≠ 'E' := by simpa using hg
      simp only [List.replicate_zero, List.nil_append, List.cons_append, numEnd]
      refine ⟨?_, ?_, ?_, hE⟩
      · have h1 : 65 ≤ w.letter.toNat := hu.1
        rw [Bool.eq_false_iff]
        intro hd
        have h2 : w.letter ≤ '9' := by simp [isDig] at hd; exact hd.2
        have h3 : w.letter.toNat ≤ 57 := h2
        omega
      · exact (upper_ne hu (by decide)).symm
      · rintro he
        have h2 : w.letter.toNat ≤ 90 := hu.2
        rw [he] at h2
        exact absurd h2 (by decide)

theorem clear_gap (c : Char) (k : Nat) : Clear c (List.replicate k ' ') := by
  intro x hx
  exact Or.inl (List.eq_of_mem_replicate hx)

theorem dig_small (d : Fin 10) : 48 ≤ (dig d).toNat ∧ (dig d).toNat < 58 := by
  revert d; decide

theorem clear_number {c : Char} (hc : 'A' ≤ c ∧ c ≤ 'Z') (neg : Bool) (ip fp : List (Fin 10)) :
    Clear c ((if neg then ['-'] else []) ++ prNum ip fp) := by
  have low : ∀ x : Char, 33 ≤ x.toNat → x.toNat < 65 →
      x = ' ' ∨ x = '\t' ∨ ((33 ≤ x.toNat ∧ x.toNat ≤ 126) ∧ x ≠ c) :=
    fun x h1 h2 => Or.inr (Or.inr ⟨⟨h1, by omega⟩, upper_ne hc h2⟩)
  have hdig : ∀ (ds : List (Fin 10)), ∀ x ∈ ds.map dig,
      x = ' ' ∨ x = '\t' ∨ ((33 ≤ x.toNat ∧ x.toNat ≤ 126) ∧ x ≠ c) := by
    intro ds x hx
    obtain ⟨d, _, rfl⟩ := List.mem_map.mp hx
    have := dig_small d
    exact low _ (by omega) (by omega)
  intro x hx
  rcases List.mem_append.mp hx with hx | hx
  · cases neg with
    | true => simp at hx; subst hx; exact low _ (by decide) (by decide)
    | false => simp at hx
  · unfold prNum at hx
    split at hx
    · exact hdig ip x hx
    · rcases List.mem_append.mp hx with hx | hx
      · exact hdig ip x hx
      · rcases List.mem_cons.mp hx with rfl | hx
        · exact low _ (by decide) (by decide)
        · exact hdig fp x hx

theorem clear_word {c : Char} (hc : 'A' ≤ c ∧ c ≤ 'Z') {w : W} (hw : w.Good) (hne : w.letter ≠ c) :
    Clear c w.text := by
  intro x hx
  unfold W.text at hx
  rcases List.mem_append.mp hx with hx | hx
  · exact clear_gap c _ x hx
  · rcases List.mem_cons.mp hx with rfl | hx
    · have h1 : 65 ≤ w.letter.toNat := hw.1.1
      have h2 : w.letter.toNat ≤ 90 := hw.1.2
      exact Or.inr (Or.inr ⟨⟨by omega, by omega⟩, hne⟩)
    · exact clear_number hc _ _ _ x hx

theorem clear_text {c : Char} (hc : 'A' ≤ c ∧ c ≤ 'Z') {us : List W} (h : ∀ w ∈ us, w.Good)
    (hne : Lacks c us) : Clear c (text us) := by
  intro x hx
  obtain ⟨w, hw, hx⟩ := List.mem_flatMap.mp hx
  exact clear_word hc (h w hw) (hne w hw) x hx

theorem word_lacks {c : Char} (hc : 'A' ≤ c ∧ c ≤ 'Z') {ws : List W} (h : ∀ w ∈ ws, w.Good)
    (hne : Lacks c ws) : word c (text ws) = .absent := by
  have := seek_clear (clear_text hc h hne) []
  rw [List.append_nil] at this
  unfold word
  rw [this]; rfl

theorem word_first {c : Char} (hc : 'A' ≤ c ∧ c ≤ 'Z') {ws rest : List W} {q : ℚ}
    (h : ∀ w ∈ ws, w.Good) (hf : First c ws q rest) : word c (text ws) = .value q (text rest) := by
  obtain ⟨us, w, rfl, hu, hl, hv⟩ := hf
  have hw : w.Good := h w (by simp)
  have hrest : numEnd (text rest) := text_numEnd (fun x hx => h x (by simp [hx]))
  have e : text (us ++ w :: rest) = text us ++ (List.replicate w.gap ' ' ++
      (w.letter :: (((if w.neg then ['-'] else []) ++ prNum w.ip w.fp) ++ text rest))) := by
    simp [text, W.text]
  unfold word
  rw [e, seek_clear (clear_text hc (fun x hx => h x (by simp [hx])) hu), seek_clear (clear_gap _ _), hl]
  have h1 : ¬ (c = ' ' ∨ c = '\t') := by
    rintro (rfl | rfl) <;> (revert hc; decide)
  rw [seek, if_neg h1, if_neg (by simp)]
  dsimp only
  rw [if_pos rfl, number_written _ _ _ hw.2.1 hrest]
  dsimp only
  rw [← hv]; rfl

theorem first_or (c : Char) (ws : List W) : Lacks c ws ∨ ∃ q rest, First c ws q rest := by
  induction ws with
  | nil => exact Or.inl (by simp [Lacks])
  | cons w ws ih =>
    by_cases hw : w.letter = c
    · exact Or.inr ⟨w.val, ws, [], w, rfl, by simp, hw, rfl⟩
    · rcases ih with ih | ⟨q, rest, us, w', rfl, hu, hl, hv⟩
      · exact Or.inl (by simpa [Lacks, hw] using ih)
      · exact Or.inr ⟨q, rest, w :: us, w', rfl, by simpa [hw] using hu, hl, hv⟩

theorem first_good {c : Char} {ws rest : List W} {q : ℚ} (h : ∀ w ∈ ws, w.Good)
    (hf : First c ws q rest) : ∀ w ∈ rest, w.Good := by
  obtain ⟨us, w, rfl, _⟩ := hf
  exact fun x hx => h x (by simp [hx])

theorem word_value {c : Char} {s : Str} {q : ℚ} {r : Str} (h : word c s = .value q r) :
    ∃ u n, s = u ++ c :: (n ++ r) ∧ Clear c u ∧ Signed n := by
  obtain ⟨u, hu, hcl⟩ := seek_split c s
  unfold word at h
  split at h
  · cases h
  · rename_i x t hseek
    split at h
    · rename_i hx
      split at h
      · rename_i q' r' hn
        simp only [Word1.value.injEq] at h
        obtain ⟨n, hn1, hn2⟩ := number_signed hn
        refine ⟨u, n, ?_, hcl, hn2⟩
        rw [hseek, hx, hn1, h.2] at hu
        exact hu
      · cases h
    · cases h

theorem word_broken {c : Char} {u t : Str} (hc : c ≠ ' ' ∧ c ≠ '\t') (hu : Clear c u) (ht : NoNumber t) :
    word c (u ++ c :: t) = .broken t := by
  unfold word
  rw [seek_clear hu, seek, if_neg (by tauto), if_neg (by simp)]
  dsimp only
  rw [if_pos rfl, (number_none_iff t).mpr ht]

end NC.OrderAttr

namespace NC.Props

open NC NC.Calc NC.Spec NC.Spec.Wanted

/-- C100, lines of words: the call succeeds exactly if the line has the first letter and behind its
first occurrence the second letter, and the values are those of these occurrences; there is no message.
(Rounding to `float` is left out.) -/
theorem C100_words_partial (c1 c2 : Char) (h1 : 'A' ≤ c1 ∧ c1 ≤ 'Z') (h2 : 'A' ≤ c2 ∧ c2 ≤ 'Z')
    (ws : List W) (h : ∀ w ∈ ws, w.Good) (v : ℚ × ℚ) :
    (OrderAttr.parse c1 c2 v (text ws)).err = none ∧
    ((OrderAttr.parse c1 c2 v (text ws)).ret = true ↔
      ∃ a b r r', First c1 ws a r ∧ First c2 r b r') ∧
    (∀ a r, First c1 ws a r → (OrderAttr.parse c1 c2 v (text ws)).fst = a) ∧
    (∀ a r b r', First c1 ws a r → First c2 r b r' →
      (OrderAttr.parse c1 c2 v (text ws)).snd = b) ∧
    (Lacks c1 ws → (OrderAttr.parse c1 c2 v (text ws)).fst = v.1) ∧
    ((OrderAttr.parse c1 c2 v (text ws)).ret = false →
      (OrderAttr.parse c1 c2 v (text ws)).snd = v.2) := by
  have key1 : ∀ a r, First c1 ws a r → OrderAttr.word c1 (text ws) = .value a (text r) :=
    fun a r hf => OrderAttr.word_first h1 h hf
  have key2 : ∀ a r b r', First c1 ws a r → First c2 r b r' →
      OrderAttr.word c2 (text r) = .value b (text r') :=
    fun a r b r' hf hf' => OrderAttr.word_first h2 (OrderAttr.first_good h hf) hf'
  have both : ∀ a r b r', First c1 ws a r → First c2 r b r' →
      OrderAttr.parse c1 c2 v (text ws) = ⟨true, a, b, none⟩ := by
    intro a r b r' hf hf'
    unfold OrderAttr.parse
    rw [key1 a r hf]; dsimp only; rw [key2 a r b r' hf hf']
  have one : ∀ a r, First c1 ws a r → Lacks c2 r →
      OrderAttr.parse c1 c2 v (text ws) = ⟨false, a, v.2, none⟩ := by
    intro a r hf hl
    unfold OrderAttr.parse
    rw [key1 a r hf]; dsimp only; rw [OrderAttr.word_lacks h2 (OrderAttr.first_good h hf) hl]
  have zero : Lacks c1 ws → OrderAttr.parse c1 c2 v (text ws) = ⟨false, v.1, v.2, none⟩ := by
    intro hl
    unfold OrderAttr.parse
    rw [OrderAttr.word_lacks h1 h hl]
  have not1 : Lacks c1 ws → ∀ a r, ¬ First c1 ws a r := by
    rintro hl a r ⟨us, w, rfl, _, hw, _⟩
    exact hl w (by simp) hw
  have not2 : ∀ r, Lacks c2 r → ∀ b r', ¬ First c2 r b r' := by
    rintro r hl b r' ⟨us, w, rfl, _, hw, _⟩
    exact hl w (by simp) hw
  have fst_eq : ∀ a r, First c1 ws a r → (OrderAttr.parse c1 c2 v (text ws)).fst = a := by
    intro a r hf
    rcases OrderAttr.first_or c2 r with hl | ⟨b, r', hf'⟩
    · rw [one a r hf hl]
    · rw [both a r b r' hf hf']
  have inj : ∀ a r a' s, First c1 ws a r → First c1 ws a' s → text r = text s := by
    intro a r a' s hf hf'
    have := (key1 a r hf).symm.trans (key1 a' s hf')
    simp only [OrderAttr.Word1.value.injEq] at this
    exact this.2
  refine ⟨?_, ?_, fst_eq, ?_, ?_, ?_⟩
  · rcases OrderAttr.first_or c1 ws with hl | ⟨a, r, hf⟩
    · rw [zero hl]
    · rcases OrderAttr.first_or c2 r with hl | ⟨b, r', hf'⟩
      · rw [one a r hf hl]
      · rw [both a r b r' hf hf']
  · constructor
    · intro hr
      rcases OrderAttr.first_or c1 ws with hl | ⟨a, r, hf⟩
      · rw [zero hl] at hr; cases hr
      · rcases OrderAttr.first_or c2 r with hl | ⟨b, r', hf'⟩
        · rw [one a r hf hl] at hr; cases hr
        · exact ⟨a, b, r, r', hf, hf'⟩
    · rintro ⟨a, b, r, r', hf, hf'⟩
      rw [both a r b r' hf hf']
  · intro a r b r' hf hf'
    rw [both a r b r' hf hf']
  · intro hl
    rw [zero hl]
  · intro hr
    rcases OrderAttr.first_or c1 ws with hl | ⟨a, r, hf⟩
    · rw [zero hl]
    · rcases OrderAttr.first_or c2 r with hl | ⟨b, r', hf'⟩
      · rw [one a r hf hl]
      · rw [both a r b r' hf hf'] at hr; cases hr

/-- C100, any text: success is never invented. The text has the two letters in this order, each directly
in front of a number, with nothing but printable characters and blanks before, and the first letter does
not occur earlier. -/
theorem C100_text (c1 c2 : Char) (v : ℚ × ℚ) (s : Str) (h : (OrderAttr.parse c1 c2 v s).ret = true) :
    ∃ u n1 m n2 w, s = u ++ c1 :: (n1 ++ (m ++ c2 :: (n2 ++ w))) ∧ Clear c1 u ∧ Signed n1 ∧
      Clear c2 m ∧ Signed n2 := by
  unfold OrderAttr.parse at h
  split at h
  · cases h
  · cases h
  · rename_i a r ha
    obtain ⟨u, n1, e1, hu, hn1⟩ := OrderAttr.word_value ha
    split at h
    · cases h
    · cases h
    · rename_i b w hb
      obtain ⟨m, n2, e2, hm, hn2⟩ := OrderAttr.word_value hb
      exact ⟨u, n1, m, n2, w, by rw [e1, e2], hu, hn1, hm, hn2⟩

/-- C100, flaws: if the first letter is not directly followed by a number, the call fails with a message
for this place, and the variables of the caller are untouched. -/
theorem C100_flaw (c1 c2 : Char) (hc : c1 ≠ ' ' ∧ c1 ≠ '\t') (v : ℚ × ℚ) (u t : Str) (hu : Clear c1 u)
    (ht : NoNumber t) :
    OrderAttr.parse c1 c2 v (u ++ c1 :: t) = ⟨false, v.1, v.2, some t⟩ := by
  unfold OrderAttr.parse
  rw [OrderAttr.word_broken hc hu ht]

/-! ## Examples -/

/-- `N100 G02 X-1.5`. -/
def someWords : List W :=
  [⟨0, 'N', false, [1, 0, 0], []⟩, ⟨1, 'G', false, [0, 2], []⟩, ⟨1, 'X', true, [1], [5]⟩]

example : text someWords = c!"N100 G02 X-1.5" := by decide

example : (∀ w ∈ someWords, w.Good) ∧ First 'N' someWords 100 someWords.tail ∧
    First 'X' someWords.tail (-3/2) [] := by
  refine ⟨?_, ⟨[], _, rfl, by simp, rfl, by decide +kernel⟩,
    ⟨[⟨1, 'G', false, [0, 2], []⟩], _, rfl, by simp, rfl, by decide +kernel⟩⟩
  intro w hw
  simp only [someWords, List.mem_cons, List.not_mem_nil, or_false] at hw
  rcases hw with rfl | rfl | rfl <;> (unfold W.Good; decide)

example : OrderAttr.parse 'N' 'X' (7, 8) c!"N100 G02 X-1.5" = ⟨true, 100, -3/2, none⟩ := by
  decide +kernel

/-- The second letter without a number. -/
example : OrderAttr.parse 'N' 'V' (7, 8) c!"N100 V Y200" = ⟨false, 100, 8, some c!" Y200"⟩ := by
  decide +kernel

example : Clear 'V' c!"N100 " ∧ NoNumber c!" Y200" := by
  refine ⟨by unfold Clear; decide, ?_⟩
  exact (OrderAttr.number_none_iff _).mp (by decide +kernel)

/-! ## `parser_ut/fanuc/OrderAttributeParserTest.cpp` -/

example : OrderAttr.parse 'N' 'G' (0, 0) c!"N100 G02 G68 X100 V Y200 G72 Z300 M14" =
    ⟨true, 100, 2, none⟩ := by decide +kernel

example : OrderAttr.parse 'G' 'N' (0, 0) c!"N100 G02 G68 X100 V Y200 G72 Z300 M14" =
    ⟨false, 2, 0, none⟩ := by decide +kernel

end NC.Props
