import Verif.GrammarRound
import Verif.Props.RoundTrip
import Verif.Spec.Proper

/-! # Words as declared are read -/

namespace NC.Gram
open NC NC.Message NC.Spec NC.Spec.Words NC.Spec.Tables NC.Spec.Proper

theorem numbered_shape {g : WordMap} {d : Dec} (h : Value g d) (ha : ∀ c, d.assign = some c → c = '=') : Shape d := by
  have hs : ∀ c, d.sign = some c → c = '-' ∨ c = '+' := by
    intro c hc
    rcases h.sign with e | e | e <;> rw [e] at hc <;> cases hc <;> simp
  have ho := h.openB
  have hcl := h.closeB
  cases h.number with
  | whole h1 h2 h3 h4 h5 _ =>
    exact ⟨ha, hs, by rw [ho]; nofun, by rw [h1]; nofun, by rw [h2]; rintro v ⟨⟩; exact h3.1, by rw [h4]; nofun, by rw [h5]; nofun, by rw [hcl]; nofun⟩
  | point h1 h2 h3 h4 h5 _ =>
    exact ⟨ha, hs, by rw [ho]; nofun, by rw [h1]; nofun, by rw [h2]; rintro v ⟨⟩; exact h3.1, by rw [h4]; rintro c ⟨⟩; rfl,
      fun f hf => ⟨(h5 f hf).1.1, (h5 f hf).1.2, h4⟩, by rw [hcl]; nofun⟩
  | fraction h1 h2 h3 h4 h5 _ =>
    exact ⟨ha, hs, by rw [ho]; nofun, by rw [h1]; nofun, by rw [h2]; nofun, by rw [h3]; rintro c ⟨⟩; rfl,
      by rw [h4]; rintro v ⟨⟩; exact ⟨h5.1.1, h5.1.2, h3⟩, by rw [hcl]; nofun⟩
  | macro_ h1 h2 h3 h4 h5 _ =>
    exact ⟨ha, hs, by rw [ho]; nofun, by rw [h1]; rintro m ⟨⟩; rfl, by rw [h2]; rintro v ⟨⟩; exact h3.1, by rw [h4]; nofun, by rw [h5]; nofun, by rw [hcl]; nofun⟩

/-! ## The number passes -/

theorem stoi_short {v : Str} (h : Short v) : stoi v = .ok (readNat v : Int) := by
  rw [stoi_digits_cases h.1.2 h.1.1, if_pos h.2]

theorem decimals_of {l : Lang} {wg : WordGrammar} {d : Dec} {f : Str} (hs : Short f) (h : FractionOk wg d f) : judgeDecimals l wg d f = .pass := by
  obtain ⟨_, h2, h3, h4⟩ := h
  unfold judgeDecimals
  rw [if_neg (by simp [h2]), stoi_short hs]
  dsimp only
  rw [if_neg (by omega)]

theorem verify_value {g : WordMap} {l : Lang} {d : Dec} (h : Value g d) (s : Status) : (verify g l d s).2 = .pass := by
  have hop' : isOp d.word = false := by rw [← Bool.not_eq_true]; rw [Props.isOp_iff]; exact h.op
  have hsl : d.word ≠ c!"/" := by rintro e; exact h.op (by rw [e]; decide)
  unfold verify
  cases hw : WordMap.find g d.word with
  | none => rfl
  | some wg =>
    dsimp only
    unfold judge
    rw [h.closeB, if_neg (by simp)]
    have number : ∀ (s : Status) (v : Str), d.value = some v → Short v → (∀ f, d.value2 = some f → Short f) → Within wg d v →
        (judgePlain l wg s d).2 = .pass := by
      intro s v hv hs hf hwi
      unfold judgePlain
      rw [if_neg (by simp [hsl]), hv]
      dsimp only
      unfold judgeValue
      rw [stoi_short hs]
      dsimp only
      have e : signed d (readNat v : Int) = Words.number d v := rfl
      have h1 := hwi.low
      have h2 := hwi.high
      rw [e, if_neg (by omega), if_neg (by simp [hop']), if_neg (by simp [hop'])]
      show judgeFraction l wg d = .pass
      unfold judgeFraction
      by_cases h0 : wg.decTo = 0
      · rw [if_pos h0, (hwi.whole h0).1]; rfl
      · rw [if_neg h0]
        cases hv2 : d.value2 with
        | none => rfl
        | some f => exact decimals_of (hf f hv2) (hwi.fraction f hv2)
    cases h.number with
    | whole h1 h2 h3 h4 h5 h6 =>
      rw [h1]
      exact number _ _ h2 h3 (by rw [h5]; nofun) (h6 wg hw)
    | point h1 h2 h3 h4 h5 h6 =>
      rw [h1]
      exact number _ _ h2 h3 h5 (h6 wg hw)
    | @fraction f h1 h2 h3 h4 h5 h6 =>
      rw [h1]
      dsimp only
      unfold judgePlain
      rw [if_neg (by simp [hsl]), h2]
      show judgeNoValue l wg _ d = .pass
      unfold judgeNoValue
      obtain ⟨h7, h8⟩ := h6 wg hw
      rw [if_neg (by omega), h4]
      exact decimals_of h5 h8
    | @macro_ v h1 h2 h3 h4 h5 h6 =>
      rw [h1]
      show judgeMacro g l c!"#" d.value = .pass
      rw [h2]
      unfold judgeMacro
      dsimp only
      rw [stoi_short h3]
      show judgeInt g l c!"#" _ = .pass
      unfold judgeInt
      cases hh : WordMap.find g c!"#" with
      | none => rfl
      | some wg' =>
        obtain ⟨h7, h8⟩ := h6 wg' hh
        dsimp only
        rw [if_neg (by omega)]

theorem checked_value {G : Gram} {d : Dec} (h : Value G.words d) (ps : PS) (r : Str) :
    ∃ ps', checked G ps (d, r) = (ps', .match_ (.dec d) r) := by
  refine ⟨{ ps with st := (verify G.words G.lang d ps.st).1 }, ?_⟩
  unfold checked
  dsimp only
  rw [verify_value h]

/-! ## The number is read -/

/-- What may follow a number: neither a digit nor a point. -/
def Stop (t : Str) : Prop := ∀ c u, t = c :: u → isDig c = false ∧ c ≠ '.'

theorem tail_stop {t : Str} (ht : Tail t) : Stop t := fun c u h => ⟨(blank_not (ht c u h)).1, by rintro rfl; exact absurd (ht '.' u h) (by decide)⟩

theorem tail_dig {t : Str} (ht : Stop t) : ∀ c u, t = c :: u → isDig c = false := fun c u h => (ht c u h).1

theorem close_none {t : Str} (h : hd t ≠ some ']') : optRun isClose (skip t) = (none, skip t) := by
  refine optRun_back_none ?_
  intro c r hcr
  have : c ≠ ']' := by rintro rfl; exact h (head_of_hd hcr)
  simp [isClose, this]

theorem optDot_tail {t : Str} (ht : Stop t) : optDot t = (none, t) := by
  unfold optDot
  split
  · rename_i r
    exact absurd rfl (ht '.' r rfl).2
  · rfl

theorem optHash_other {s : Str} (h : hd s ≠ some '#') : optHash s = (none, skip s) := by
  unfold optHash
  split
  · rename_i r hr; exact absurd (head_of_hd hr) h
  · rfl

theorem optSign_other {s : Str} (h : hd s ≠ some '-') (h' : hd s ≠ some '+') : optSign s = (none, skip s) := by
  unfold optSign
  split
  · rename_i r hr; exact absurd (head_of_hd hr) h
  · rename_i r hr; exact absurd (head_of_hd hr) h'
  · rfl

/-- What is written of a number is read back, with what follows. -/
theorem value_direct {g : WordMap} {d : Dec} (h : Value g d) (o : Option Char) {t : Str} (ht : Stop t) (hc : hd t ≠ some ']') :
    value d.word d.assign o none (vtxt d ++ t) = ({ d with sign := o }, skip t) := by
  have e : ∀ (m : Option Str) (r1 : Str) (v : Option Str) (r2 : Str) (p : Option Char) (r3 : Str) (v2 : Option Str),
      optHash (vtxt d ++ t) = (m, r1) → optRun isDig (skip r1) = (v, r2) → optDot r2 = (p, r3) → optRun isDig r3 = (v2, t) →
      m = d.mac → v = d.value → p = d.dot → v2 = d.value2 →
      value d.word d.assign o none (vtxt d ++ t) = ({ d with sign := o }, skip t) := by
    intro m r1 v r2 p r3 v2 h1 h2 h3 h4 e1 e2 e3 e4
    unfold value
    dsimp only
    rw [h1, h2, h3, h4, close_none hc, e1, e2, e3, e4]
    have := h.openB
    have := h.closeB
    obtain ⟨_, _, _, _, _, _, _, _, _⟩ := d
    simp_all
  have nb : ∀ {v : Str}, Digits v → ∀ c ∈ v, isBlank c = false := fun hv c hc => dig_not_blank (hv.2 c hc)
  have nh : ∀ {v r : Str}, Digits v → hd (v ++ r) ≠ some '#' := by
    intro v r hv
    rw [hd_append hv.1 (nb hv)]
    cases v with
    | nil => exact absurd rfl hv.1
    | cons c v =>
      intro h
      have : c = '#' := by simpa using h
      subst this
      exact absurd (hv.2 '#' (by simp)) (by decide)
  cases h.number with
  | @whole v h1 h2 h3 h4 h5 _ =>
    have ev : vtxt d ++ t = v ++ t := by unfold vtxt; rw [h1, h2, h4, h5, h.closeB]; simp
    refine e none (v ++ t) (some v) t none t none ?_ ?_ (optDot_tail ht) (optRun_back_none (tail_dig ht)) h1.symm h2.symm h4.symm h5.symm
    · rw [ev, optHash_other (nh h3.1), skip_append h3.1.1 (nb h3.1)]
    · rw [skip_append h3.1.1 (nb h3.1)]; exact optRun_back h3.1.1 h3.1.2 (tail_dig ht)
  | @point v h1 h2 h3 h4 h5 _ =>
    have ev : vtxt d ++ t = v ++ ('.' :: (d.value2.getD [] ++ t)) := by unfold vtxt; rw [h1, h2, h4, h.closeB]; simp
    refine e none (v ++ ('.' :: (d.value2.getD [] ++ t))) (some v) ('.' :: (d.value2.getD [] ++ t)) (some '.') (d.value2.getD [] ++ t) d.value2
      ?_ ?_ rfl ?_ h1.symm h2.symm h4.symm rfl
    · rw [ev, optHash_other (nh h3.1), skip_append h3.1.1 (nb h3.1)]
    · rw [skip_append h3.1.1 (nb h3.1)]
      refine optRun_back h3.1.1 h3.1.2 ?_
      rintro c r ⟨⟩; decide
    · cases hv : d.value2 with
      | none => exact optRun_back_none (tail_dig ht)
      | some f => exact optRun_back (h5 f hv).1.1 (h5 f hv).1.2 (tail_dig ht)
  | @fraction f h1 h2 h3 h4 h5 _ =>
    have ev : vtxt d ++ t = '.' :: (f ++ t) := by unfold vtxt; rw [h1, h2, h3, h4, h.closeB]; simp
    have hsk : skip ('.' :: (f ++ t)) = '.' :: (f ++ t) := skip_of_not (by decide)
    refine e none ('.' :: (f ++ t)) none ('.' :: (f ++ t)) (some '.') (f ++ t) (some f) ?_ ?_ rfl ?_ h1.symm h2.symm h3.symm h4.symm
    · rw [ev, optHash_other (by rw [hd_cons (by decide)]; decide), hsk]
    · rw [hsk]; refine optRun_back_none ?_; rintro c r ⟨⟩; decide
    · exact optRun_back h5.1.1 h5.1.2 (tail_dig ht)
  | @macro_ v h1 h2 h3 h4 h5 _ =>
    have ev : vtxt d ++ t = '#' :: (v ++ t) := by unfold vtxt; rw [h1, h2, h4, h5, h.closeB]; simp
    refine e (some c!"#") (v ++ t) (some v) t none t none ?_ ?_ (optDot_tail ht) (optRun_back_none (tail_dig ht)) h1.symm h2.symm h4.symm h5.symm
    · rw [ev]
      unfold optHash
      rw [skip_of_not (by decide)]
      rfl
    · rw [skip_append h3.1.1 (nb h3.1)]; exact optRun_back h3.1.1 h3.1.2 (tail_dig ht)

/-- The first character of a number. -/
theorem vtxt_head {g : WordMap} {d : Dec} (h : Value g d) : ∃ c u, vtxt d = c :: u ∧ isBlank c = false ∧ (c = '#' ∨ isDig c = true ∨ c = '.') := by
  cases h.number with
  | @whole v h1 h2 h3 h4 h5 _ =>
    unfold vtxt; rw [h1, h2]
    obtain ⟨⟨hn, hd⟩, _⟩ := h3
    cases v with
    | nil => exact absurd rfl hn
    | cons c v => exact ⟨c, _, rfl, dig_not_blank (hd c (by simp)), .inr (.inl (hd c (by simp)))⟩
  | @point v h1 h2 h3 h4 h5 _ =>
    unfold vtxt; rw [h1, h2]
    obtain ⟨⟨hn, hd⟩, _⟩ := h3
    cases v with
    | nil => exact absurd rfl hn
    | cons c v => exact ⟨c, _, rfl, dig_not_blank (hd c (by simp)), .inr (.inl (hd c (by simp)))⟩
  | fraction h1 h2 h3 h4 h5 _ =>
    unfold vtxt; rw [h1, h2, h3]
    exact ⟨'.', _, rfl, by decide, .inr (.inr rfl)⟩
  | macro_ h1 h2 h3 h4 h5 _ =>
    unfold vtxt; rw [h1]
    exact ⟨'#', _, rfl, by decide, .inl rfl⟩

theorem operand_direct {g : WordMap} {d : Dec} (h : Value g d) {t : Str} (ht : Stop t) (hc : hd t ≠ some ']') :
    operand d.word d.assign (otxt d ++ t) = (d, skip t) := by
  obtain ⟨c, u, hv, hb, hh⟩ := vtxt_head h
  have hopen : c ≠ '[' ∧ c ≠ '-' ∧ c ≠ '+' := by
    rcases hh with rfl | hh | rfl
    · decide
    · refine ⟨?_, ?_, ?_⟩ <;> (rintro rfl; revert hh; decide)
    · decide
  have hno : optRun isOpen (skip (vtxt d ++ t)) = (none, vtxt d ++ t) := by
    rw [hv, List.cons_append, skip_of_not hb]
    refine optRun_back_none ?_
    rintro c' r ⟨⟩
    simp [isOpen, hopen.1]
  have eo : otxt d = d.sign.toList ++ vtxt d := by unfold otxt; rw [h.openB]; simp
  have hval : ∀ o, d.sign = o → value d.word d.assign o none (vtxt d ++ t) = (d, skip t) := by
    rintro o rfl
    rw [value_direct h _ ht hc]
  unfold operand
  dsimp only
  rcases h.sign with e | e | e
  · have hs : optSign (otxt d ++ t) = (none, vtxt d ++ t) := by
      rw [eo, e]
      simp only [Option.toList_none, List.nil_append]
      rw [optSign_other, hv, List.cons_append, skip_of_not hb]
      · rw [hv, List.cons_append, hd_cons hb]; simpa using hopen.2.1
      · rw [hv, List.cons_append, hd_cons hb]; simpa using hopen.2.2
    rw [hs, hno]
    exact hval none e
  · have hs : optSign (otxt d ++ t) = (some '+', vtxt d ++ t) := by
      rw [eo, e]
      unfold optSign
      simp only [Option.toList_some, List.singleton_append, List.cons_append]
      rw [skip_of_not (by decide)]
      rfl
    rw [hs, hno]
    exact hval (some '+') e
  · have hs : optSign (otxt d ++ t) = (some '-', vtxt d ++ t) := by
      rw [eo, e]
      unfold optSign
      simp only [Option.toList_some, List.singleton_append, List.cons_append]
      rw [skip_of_not (by decide)]
      rfl
    rw [hs, hno]
    exact hval (some '-') e

/-! ## The words are read -/

section
variable {G : Gram} (R : RegularG G)
include R

theorem decs_direct {w y : Str} (h3 : w ∈ G.syms.decs) (h4 : w ≠ [])
    (hy : ∀ c u, y = c :: u → going c = true ∨ isBlank c = true) : symbol G.syms.decs (w ++ y) = some (w, y) := by
  refine symbol_eq (longest_eq_some h3 h4 (List.prefix_append _ _) ?_) rfl
  intro u hu hp
  by_contra hlt
  have hwu : w <+: u := List.prefix_of_prefix_length_le (List.prefix_append _ _) hp (by omega)
  have he := R.2.ends w h3 u hu hwu
  obtain ⟨v, rfl⟩ := hwu
  rw [List.drop_left] at he
  cases v with
  | nil => simp at hlt
  | cons c v =>
    have hg : going c = false := by simpa using he
    have hb := dec_blank R hu c (by simp)
    rw [List.prefix_append_right_inj] at hp
    obtain ⟨z, hz⟩ := hp
    rcases hy c (v ++ z) hz.symm with h | h
    · rw [hg] at h; cases h
    · rw [hb] at h; cases h

theorem ahead_direct {w t : Str} {d : Dec} (h3 : w ∈ G.syms.decs) (hsh : Shape d) (hne : otxt d ≠ []) (ht : Tail t)
    (hcond : w ++ otxt d ∈ G.syms.assigns → hd t ≠ some '=') {x : Str} (hx : skip x = w ++ (otxt d ++ t)) :
    assignAhead G x = false := by
  cases hb : assignAhead G x with
  | false => rfl
  | true =>
  exfalso
  unfold assignAhead at hb
  rw [hx] at hb
  cases hy : symbol G.syms.assigns (w ++ (otxt d ++ t)) with
  | none => rw [hy] at hb; cases hb
  | some p =>
  obtain ⟨v, rest⟩ := p
  rw [hy] at hb
  dsimp only at hb
  have hrest : ∃ q, skip rest = '=' :: q := by
    split at hb
    · rename_i q hq; exact ⟨q, hq⟩
    · cases hb
  obtain ⟨q, hq⟩ := hrest
  obtain ⟨v1, v2⟩ := symbol_some hy
  obtain ⟨v3, v4, _, _⟩ := longest_some v1
  rcases List.append_eq_append_iff.mp v2 with ⟨z, hz1, hz2⟩ | ⟨z, hz1, hz2⟩
  · rcases List.append_eq_append_iff.mp hz2 with ⟨y, hy1, hy2⟩ | ⟨y, hy1, hy2⟩
    · cases y with
      | nil =>
        rw [List.append_nil] at hy1
        rw [List.nil_append] at hy2
        subst hy2
        exact hcond (by rw [← hy1, ← hz1]; exact v3) (head_of_hd hq)
      | cons c y =>
        have hbl := ht c (y ++ rest) hy2
        have := assign_blank R v3 c (by rw [hz1, hy1]; simp)
        rw [this] at hbl; cases hbl
    · cases y with
      | nil =>
        rw [List.append_nil] at hy1
        rw [List.nil_append] at hy2
        subst hy2
        exact hcond (by rw [hy1, ← hz1]; exact v3) (head_of_hd hq)
      | cons c y =>
        have hg := going_not (otxt_going hsh c (by rw [hy1]; simp))
        rw [hy2, List.cons_append, skip_of_not hg.1] at hq
        cases hq
        exact hg.2 rfl
  · cases z with
    | nil =>
      rw [List.nil_append] at hz2
      subst hz2
      cases ho : otxt d with
      | nil => exact hne ho
      | cons c y =>
        have hg := going_not (otxt_going hsh c (by rw [ho]; simp))
        rw [ho, List.cons_append, skip_of_not hg.1] at hq
        cases hq
        exact hg.2 rfl
    | cons c z =>
      have hw : c ∈ w := by rw [hz1]; simp
      rw [hz2, List.cons_append, skip_of_not (dec_blank R h3 c hw)] at hq
      cases hq
      have := R.2.equals w h3 hw
      rw [hz1] at this
      cases v with
      | nil => exact v4 rfl
      | cons c1 v => simp at this

omit R in
theorem otxt_ne {g : WordMap} {d : Dec} (h : Value g d) : otxt d ≠ [] := by
  obtain ⟨c, u, hv, _⟩ := vtxt_head h
  unfold otxt
  rw [hv]
  simp

/-- A word as declared is read from what is written of it. -/
theorem attr_direct {a : Attr} (h : Spec.Proper.Word G.words G.syms.decs G.syms.assigns a) {t : Str} (ht : Tail t) (hc : hd t ≠ some ']')
    (ho : a.word = c!"O" → ∀ c, hd t = some c → isAlpha c = false)
    (he : Source.word a ∈ G.syms.assigns → hd t ≠ some '=') {x : Str} (hx : skip x = Source.word a ++ t) (ps : PS) :
    ∃ ps' t', lineAttribute G ps x = (ps', .match_ a t') ∧ skip t' = skip t := by
  cases h with
  | @address d h3 ha hv =>
    have hsh := numbered_shape hv (by rw [ha]; nofun)
    rw [word_dec, ha] at hx he
    simp only [Option.toList_none, List.nil_append, List.append_assoc] at hx he
    obtain ⟨ps', hk⟩ := checked_value hv ps (skip t)
    refine ⟨ps', skip t, line_decimal ?_ ?_, skip_skip t⟩
    · apply char_fail_skip R
      intro c u hcu
      rw [hx] at hcu
      have h4 := hv.name.1
      generalize d.word = w at *
      cases w with
      | nil => exact absurd rfl h4
      | cons c1 w =>
        cases w with
        | nil =>
          have e1 : c1 = ',' := by simpa using congrArg List.head? hcu
          subst e1
          exact absurd h3 R.2.comma
        | cons c2 w =>
          have e2 : c2 = c := by
            simpa using congrArg (fun l => l.tail.head?) hcu
          subst e2
          exact dec_blank R h3 c2 (by simp)
    · unfold decimalRule
      rw [ahead_direct R h3 hsh (otxt_ne hv) ht he hx, if_neg (by simp), hx, decs_direct R h3 hv.name.1]
      · dsimp only
        have := operand_direct hv (tail_stop ht) hc
        rw [ha] at this
        rw [this]
        exact hk
      · intro c u hcu
        cases hot : otxt d with
        | nil => exact absurd hot (otxt_ne hv)
        | cons c' u' =>
          rw [hot, List.cons_append] at hcu
          cases hcu
          exact .inl (otxt_going hsh c (by rw [hot]; simp))
  | @assignment d h3 ha hv =>
    have h4 := hv.name.1
    have hx' : skip x = d.word ++ '=' :: (otxt d ++ t) := by rw [hx, word_dec, ha]; simp
    have hskip : skip ('=' :: (otxt d ++ t)) = '=' :: (otxt d ++ t) := skip_of_not (by decide)
    have hsy := assigns_equals R h3 h4 hskip (.inl rfl)
    obtain ⟨ps', hk⟩ := checked_value hv ps (skip t)
    have hslash : hd x ≠ some '/' := by
      cases hw : d.word with
      | nil => exact absurd hw h4
      | cons c w =>
        rw [hw] at hx'
        rw [head_of_hd hx']
        intro hcc
        have : c = '/' := by simpa using hcc
        subst this
        exact absurd (assign_not R h3 (by rw [hw]; rfl)) (by decide)
    have a1 : assignAhead G x = true := by
      unfold assignAhead
      rw [hx', hsy]
      dsimp only
      rw [hskip]
      rfl
    have d1 : decimalRule G ps x = (ps, .fail) := by unfold decimalRule; rw [a1, if_pos rfl]
    refine ⟨ps', skip t, line_assign ?_ d1 (division_other hslash ps) ?_, skip_skip t⟩
    · apply char_fail_skip R
      intro c u hcu
      rw [hx'] at hcu
      generalize d.word = w at *
      cases w with
      | nil => exact absurd rfl h4
      | cons c1 w =>
        cases w with
        | nil =>
          have : '=' = c := by simpa using congrArg (fun l => l.tail.head?) hcu
          subst this; decide
        | cons c2 w =>
          have e2 : c2 = c := by
            simpa using congrArg (fun l => l.tail.head?) hcu
          subst e2
          exact assign_blank R h3 c2 (by simp)
    · have : assignRule G ps x = checked G ps (operand d.word (some '=') (otxt d ++ t)) := by
        unfold assignRule
        rw [hx', hsy]
        dsimp only
        rw [hskip]
        rfl
      have hop := operand_direct hv (tail_stop ht) hc
      rw [ha] at hop
      rw [this, hop]
      exact hk
  | @comment v hv =>
    have hx' : skip x = '(' :: (v ++ ')' :: t) := by
      rw [hx]
      show '(' :: (_ ++ [')']) ++ t = _
      simp
    refine ⟨ps, t, ?_, rfl⟩
    rw [line_other (char_fail_head R hx' (by decide)) (rules_reserved R hx' (by decide) (by decide) ps)]
    have hin : ∀ c ∈ v, inComment c = true := by
      intro c hc
      have : c ≠ ')' := by rintro rfl; exact hv hc
      simp [inComment, this]
    have : commentRule x = .match_ (.str c!"(" v) t := by
      rw [comment_eq hx' (c := ')') (t := t), List.takeWhile_append_of_pos hin,
        List.takeWhile_cons_of_neg (by decide), List.append_nil]
      rw [List.dropWhile_append_of_pos hin, List.dropWhile_cons_of_neg (by decide)]
    rw [this]
    rfl
  | @program n n1 n2 n3 =>
    have hx' : skip x = 'O' :: (n ++ t) := by
      rw [hx]
      show 'O' :: (_ ++ []) ++ t = _
      simp
    have hno : symbol G.syms.decs (skip x) = none := by
      rw [symbol_none]
      apply longest_eq_none
      intro u hu hne hp
      rw [hx'] at hp
      have hb := dec_blank R hu
      refine n3 u hu hne ?_
      by_cases hlen : u.length ≤ ('O' :: n).length
      · exact List.prefix_of_prefix_length_le (l₃ := ('O' :: n) ++ t) hp (List.prefix_append _ _) hlen
      · exfalso
        have h1 : ('O' :: n) <+: u :=
          List.prefix_of_prefix_length_le (l₃ := ('O' :: n) ++ t) (List.prefix_append _ _) hp (by omega)
        obtain ⟨v, rfl⟩ := h1
        cases v with
        | nil => simp at hlen
        | cons c v =>
          have hp' : ('O' :: n) ++ c :: v <+: ('O' :: n) ++ t := hp
          rw [List.prefix_append_right_inj] at hp'
          obtain ⟨q, hq⟩ := hp'
          have := ht c (v ++ q) hq.symm
          rw [hb c (by simp)] at this
          cases this
    refine ⟨ps, skip t, ?_, skip_skip t⟩
    rw [line_other (char_fail_head R hx' (by decide)) (rules_name R hx' hno ps)]
    have k1 : commentRule x = .fail := comment_other (by rw [head_of_hd hx']; decide)
    have k2 : startRule x = .fail := start_other (by rw [head_of_hd hx']; decide)
    have k3 : nameRule x = .match_ (.str c!"O" n) (skip t) := by
      have : optRun inName (n ++ t) = (some n, t) := by
        refine optRun_back n1 ?_ ?_
        · intro c hc
          have := n2 c hc
          simp only [Spec.Proper.nameChar, Spec.Tables.letter, Bool.or_eq_true, Bool.and_eq_true, decide_eq_true_eq] at this
          simp only [inName, isAlpha, Bool.or_eq_true, Bool.and_eq_true, decide_eq_true_eq]
          tauto
        · intro c u hcu
          have := ht c u hcu
          simp only [isBlank, Bool.or_eq_true, decide_eq_true_eq] at this
          rcases this with rfl | rfl <;> decide
      rw [name_eq hx' this]
      have : (skip t).dropWhile isAlpha = skip t := by
        cases hk : skip t with
        | nil => rfl
        | cons c u => exact List.dropWhile_cons_of_neg (by simp [ho rfl c (head_of_hd hk)])
      rw [this]
    rw [k1, k2, k3]
    rfl

theorem percent_direct {t : Str} (ht : skip t = []) {x : Str} (hx : skip x = '%' :: t) (ps : PS) :
    lineAttribute G ps x = (ps, .match_ (.chr c!"%" '\x00') []) := by
  rw [line_other (char_fail_head R hx (by decide)) (rules_reserved R hx (by decide) (by decide) ps)]
  have k1 : commentRule x = .fail := comment_other (by rw [head_of_hd hx]; decide)
  have k2 : startRule x = .match_ (.chr c!"%" '\x00') [] := start_eq hx ht
  rw [k1, k2]
  rfl

theorem word_first {a : Attr} (h : Spec.Proper.Word G.words G.syms.decs G.syms.assigns a) :
    ∃ c u, Source.word a = c :: u ∧ isBlank c = false ∧ c ≠ ']' := by
  have key : ∀ {d : Dec}, (∀ c ∈ d.word, isBlank c = false) → Value G.words d → ∃ c u, Source.word (.dec d) = c :: u ∧ isBlank c = false ∧ c ≠ ']' := by
    intro d hb hv
    rw [word_dec]
    have := hv.name
    cases hw : d.word with
    | nil => exact absurd hw this.1
    | cons c w =>
      refine ⟨c, _, rfl, hb c (by rw [hw]; simp), ?_⟩
      rintro rfl
      exact this.2 (by rw [hw]; rfl)
  cases h with
  | address h1 h2 h3 => exact key (dec_blank R h1) h3
  | assignment h1 h2 h3 => exact key (assign_blank R h1) h3
  | comment h => exact ⟨'(', _, rfl, by decide, by decide⟩
  | program h1 h2 h3 => exact ⟨'O', _, rfl, by decide, by decide⟩

theorem line_first {b : Block} (h : Spec.Proper.Line G.words G.syms.decs G.syms.assigns b) :
    ∃ a b' c u, b = a :: b' ∧ Source.word a = c :: u ∧ isBlank c = false ∧ c ≠ ']' := by
  cases h with
  | one h => obtain ⟨c, u, e⟩ := word_first R h; exact ⟨_, _, c, u, rfl, e⟩
  | percent => exact ⟨_, _, '%', _, rfl, rfl, by decide, by decide⟩
  | more h _ => obtain ⟨c, u, e⟩ := word_first R h; exact ⟨_, _, c, u, rfl, e⟩

/-- A line of words as declared is read from what is written of it. -/
theorem line_direct {b : Block} (h : Spec.Proper.Line G.words G.syms.decs G.syms.assigns b)
    (hb : List.IsChain (Apart G.syms.assigns) b) {suf : Str} (hs : skip suf = []) :
    ∀ x, skip x = skip (Source.line b ++ suf) → ∀ ps, ∃ ps', Words G ps x ps' b := by
  have hsuf : Tail suf := by
    rintro c u rfl
    by_contra hc
    rw [skip_of_not (by simpa using hc)] at hs
    cases hs
  have hnone : hd suf = none := by unfold hd; rw [hs]; rfl
  induction h with
  | @one a h =>
    intro x hx ps
    obtain ⟨c, u, e1, e2, _⟩ := word_first R h
    have hx' : skip x = Source.word a ++ suf := by
      rw [hx]
      show skip (Source.word a ++ suf) = _
      rw [e1, List.cons_append, skip_of_not e2]
    obtain ⟨ps', t', h1, h2⟩ := attr_direct R h hsuf (by rw [hnone]; simp) (by rw [hnone]; simp) (by rw [hnone]; simp) hx' ps
    exact ⟨ps', .word h1 (.done _ _ (by rw [h2, hs]))⟩
  | percent =>
    intro x hx ps
    have hx' : skip x = '%' :: suf := hx.trans (skip_of_not (by decide))
    exact ⟨ps, .word (percent_direct R hs hx' ps) (.done _ _ rfl)⟩
  | @more a b h hl ih =>
    intro x hx ps
    obtain ⟨c, u, e1, e2, _⟩ := word_first R h
    obtain ⟨a', b', c', u', rfl, f1, f2, f3⟩ := line_first R hl
    have ew : Source.line (a :: a' :: b') ++ suf = Source.word a ++ ' ' :: (Source.line (a' :: b') ++ suf) := by
      show Source.word a ++ ' ' :: Source.line (a' :: b') ++ suf = _
      simp
    have hx' : skip x = Source.word a ++ ' ' :: (Source.line (a' :: b') ++ suf) := by
      rw [hx, ew, e1, List.cons_append, skip_of_not e2]
    have hne : ∃ r, Source.line (a' :: b') ++ suf = c' :: r := by
      cases b' with
      | nil => exact ⟨u' ++ suf, by show Source.word a' ++ suf = _; rw [f1]; rfl⟩
      | cons a'' b'' => exact ⟨u' ++ ' ' :: Source.line (a'' :: b'') ++ suf, by show Source.word a' ++ ' ' :: Source.line (a'' :: b'') ++ suf = _; rw [f1]; rfl⟩
    obtain ⟨r, hr⟩ := hne
    have hhd : hd (' ' :: (Source.line (a' :: b') ++ suf)) = some c' := by
      unfold hd
      rw [skip_of_blank (by decide), hr, skip_of_not f2]
      rfl
    obtain ⟨k1, k2⟩ := (List.isChain_cons_cons.mp hb).1
    obtain ⟨ps', t', h1, h2⟩ := attr_direct R h (t := ' ' :: (Source.line (a' :: b') ++ suf))
      (by intro c u hcu
          have : c = ' ' := by simpa using (congrArg List.head? hcu).symm
          subst this; decide)
      (by rw [hhd]; simpa using f3)
      (by intro hO c hc
          rw [hhd] at hc
          cases hc
          have := k1 hO
          rw [f1] at this
          have h' : letter c' = false := by simpa using this
          exact h')
      (by intro he hc
          rw [hhd] at hc
          cases hc
          exact k2 he (by rw [f1]; rfl))
      hx' ps
    obtain ⟨ps'', hw⟩ := ih hb.tail t' (by rw [h2, skip_of_blank (by decide)]) ps'
    exact ⟨ps'', .word h1 hw⟩

end

end NC.Gram
