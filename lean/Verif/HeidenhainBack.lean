import Verif.HeidenhainProofs

/-!
# Heidenhain lines: words written apart are read as they are
-/

namespace NC.Hei
open NC NC.Gram NC.Spec.Hei

/-! ## First characters -/

/-- The text does not begin with such a character. -/
def HeadNot (p : Char → Bool) (s : Str) : Prop := ∀ c u, s = c :: u → p c = false

theorem headNot_nil (p : Char → Bool) : HeadNot p [] := fun _ _ h => by cases h

theorem headNot_cons {p : Char → Bool} {c : Char} {s : Str} (h : p c = false) : HeadNot p (c :: s) :=
  fun _ _ e => by cases e; exact h

theorem headNot_append {p : Char → Bool} {a b : Str} (ha : HeadNot p a) (hb : HeadNot p b) : HeadNot p (a ++ b) := by
  cases a with
  | nil => exact hb
  | cons c a => exact headNot_cons (ha c a rfl)

theorem headNot_all {p : Char → Bool} {a : Str} (h : ∀ c ∈ a, p c = false) : HeadNot p a :=
  fun c u e => h c (by rw [e]; simp)

theorem headNot_opt {p : Char → Bool} {o : Option Char} (h : ∀ c, o = some c → p c = false) : HeadNot p o.toList := by
  cases o with
  | none => exact headNot_nil p
  | some c => exact headNot_cons (h c rfl)

/-- The end or a blank: none of the characters without blanks. -/
theorem headNot_tail {p : Char → Bool} {x : Str} (hx : Tail x) (h1 : p ' ' = false) (h2 : p '\t' = false) : HeadNot p x := by
  intro c u e
  rcases isBlank_iff.mp (hx c u e) with rfl | rfl
  · exact h1
  · exact h2

theorem headNot_getD {p : Char → Bool} {v : Option Str} (h : ∀ x, v = some x → Digits x)
    (hp : ∀ c, isDig c = true → p c = false) : HeadNot p (v.getD []) := by
  cases v with
  | none => exact headNot_nil p
  | some x => exact headNot_all (fun c hc => hp c (isDig_iff.mpr ((h x rfl).2 c hc)))

theorem headNot_numeral {p : Char → Bool} {v v2 : Option Str} {d : Option Char} (hn : Number v d v2)
    (hp : ∀ c, isDig c = true → p c = false) (hdot : p '.' = false) : HeadNot p (numeral v d v2) := by
  unfold numeral
  refine headNot_append (headNot_append (headNot_getD hn.whole hp) (headNot_opt ?_)) (headNot_getD hn.part hp)
  intro c hc; rw [hn.dot c hc]; exact hdot

/-- Words begin with one of these. -/
def Start (c : Char) : Prop := WordChar c ∨ c = ';' ∨ c = '#' ∨ c = '=' ∨ c = '"'

theorem letter_code {c : Char} (h : Letter c) : (97 ≤ c.toNat ∧ c.toNat ≤ 122) ∨ (65 ≤ c.toNat ∧ c.toNat ≤ 90) := by
  rcases h with ⟨h1, h2⟩ | ⟨h1, h2⟩
  · left; exact ⟨h1, h2⟩
  · right; exact ⟨h1, h2⟩

theorem not_letter {c : Char} (h : isAlpha c = false) : ¬ Letter c := by
  intro hc; rw [isAlpha_iff.mpr hc] at h; cases h

theorem dig_code {c : Char} (h : isDig c = true) : 48 ≤ c.toNat ∧ c.toNat ≤ 57 := isDig_iff.mp h

theorem start_not_dig {c : Char} (h : Start c) : isDig c = false := by
  by_contra hc
  have h2 := dig_code (by simpa using hc)
  rcases h with (h | rfl | rfl | rfl) | rfl | rfl | rfl | rfl
  · have := letter_code h; omega
  all_goals simp at h2

theorem start_not {c d : Char} (h : Start c) (h1 : isAlpha d = false)
    (h2 : d ≠ '.' ∧ d ≠ ':' ∧ d ≠ '/' ∧ d ≠ ';' ∧ d ≠ '#' ∧ d ≠ '=' ∧ d ≠ '"') : c ≠ d := by
  rintro rfl
  rcases h with (h | h | h | h) | h | h | h | h
  · exact not_letter h1 h
  · exact h2.1 h
  · exact h2.2.1 h
  · exact h2.2.2.1 h
  · exact h2.2.2.2.1 h
  · exact h2.2.2.2.2.1 h
  · exact h2.2.2.2.2.2.1 h
  · exact h2.2.2.2.2.2.2 h

theorem start_not_space {c : Char} (h : Start c) : isSpace c = false := by
  by_contra hc
  rcases isSpace_iff.mp (by simpa using hc) with rfl | rfl | rfl | rfl | rfl | rfl <;>
    exact start_not h (by decide) (by decide) rfl

theorem start_not_blank {c : Char} (h : Start c) : isBlank c = false := by
  by_contra hc
  rcases isBlank_iff.mp (by simpa using hc) with rfl | rfl <;> exact start_not h (by decide) (by decide) rfl

theorem word_start {w : Str} (h : IsWord w) : ∃ c u, w = c :: u ∧ Start c := by
  rcases h with h | h | rfl | rfl | ⟨t, _, _, rfl⟩
  · rcases h with ⟨n, _, a, _, rfl⟩ | ⟨n, _, rfl⟩ | rfl | rfl
    · exact ⟨_, _, rfl, .inl (.inl (isAlpha_iff.mp (by decide)))⟩
    · exact ⟨_, _, rfl, .inl (.inl (isAlpha_iff.mp (by decide)))⟩
    · exact ⟨_, _, rfl, .inl (.inl (isAlpha_iff.mp (by decide)))⟩
    · exact ⟨_, _, rfl, .inl (.inl (isAlpha_iff.mp (by decide)))⟩
  · obtain ⟨h1, h2⟩ := h
    cases w with
    | nil => exact absurd rfl h1
    | cons c u => exact ⟨c, u, rfl, .inl (h2 c (by simp))⟩
  · exact ⟨_, _, rfl, by unfold Start; simp⟩
  · exact ⟨_, _, rfl, by unfold Start; simp⟩
  · exact ⟨_, _, rfl, by unfold Start; simp⟩

theorem shows_start {t : Str} {w : Item} (h : Shows t w) : ∃ c u, t = c :: u ∧ Start c := by
  cases h with
  | comment => exact ⟨_, _, rfl, by unfold Start; simp⟩
  | program =>
    rename_i b _ _ _ _ _ _ _ _ _ _ _ _ _ _ _
    cases b
    · exact ⟨_, _, rfl, .inl (.inl (isAlpha_iff.mp (by decide)))⟩
    · exact ⟨_, _, rfl, .inl (.inl (isAlpha_iff.mp (by decide)))⟩
  | cycle => exact ⟨_, _, rfl, .inl (.inl (isAlpha_iff.mp (by decide)))⟩
  | param => exact ⟨_, _, rfl, .inl (.inl (isAlpha_iff.mp (by decide)))⟩
  | general hw =>
    obtain ⟨c, u, rfl, hc⟩ := word_start hw
    exact ⟨c, _, rfl, hc⟩

/-! ## Terminals -/

theorem optChar_back {c : Char} {o : Option Char} {y : Str} (ho : ∀ x, o = some x → x = c)
    (hy : HeadNot (fun x => x = c) y) : optChar c (o.toList ++ y) = (o, y) := by
  cases o with
  | none =>
    cases y with
    | nil => rfl
    | cons d y =>
      have := hy d y rfl
      simp only [decide_eq_false_iff_not] at this
      show optChar c (d :: y) = _
      unfold optChar
      dsimp only
      rw [if_neg this]
  | some x =>
    rw [ho x rfl]
    show optChar c (c :: y) = _
    unfold optChar
    dsimp only
    rw [if_pos rfl]

/-- A sign. -/
def isSign (c : Char) : Bool := c = '+' || c = '-'

theorem sign_back {g : Option Char} {y : Str} (hg : Sign g) (hy : HeadNot isSign y) : sign (g.toList ++ y) = (g, y) := by
  cases g with
  | none =>
    show sign y = _
    unfold sign
    split
    · rename_i r; have := hy _ r rfl; simp [isSign] at this
    · rename_i r; have := hy _ r rfl; simp [isSign] at this
    · rfl
  | some c => rcases hg c rfl with rfl | rfl <;> rfl

theorem optDigits_back {v : Option Str} {z : Str} (hv : ∀ x, v = some x → Digits x) (hz : HeadNot isDig z) :
    optRun isDig (v.getD [] ++ z) = (v, z) := by
  cases v with
  | none => exact optRun_back_none hz
  | some x => exact optRun_back (hv x rfl).1 (fun c hc => isDig_iff.mpr ((hv x rfl).2 c hc)) hz

/-- The number part is read. -/
theorem number_back {v v2 : Option Str} {d : Option Char} {z : Str} (hn : Number v d v2) (hz : HeadNot isDig z)
    (hz' : HeadNot (fun x => x = '.') z) :
    optRun isDig (numeral v d v2 ++ z) = (v, d.toList ++ (v2.getD [] ++ z)) ∧
      optChar '.' (d.toList ++ (v2.getD [] ++ z)) = (d, v2.getD [] ++ z) ∧ optRun isDig (v2.getD [] ++ z) = (v2, z) := by
  have h2 : optRun isDig (v2.getD [] ++ z) = (v2, z) := optDigits_back hn.part hz
  have h1 : optChar '.' (d.toList ++ (v2.getD [] ++ z)) = (d, v2.getD [] ++ z) := by
    refine optChar_back hn.dot (headNot_append (headNot_getD hn.part ?_) hz')
    intro c hc
    by_contra he
    simp only [decide_eq_false_iff_not, not_not] at he
    subst he
    simp [isDig] at hc
  refine ⟨?_, h1, h2⟩
  unfold numeral
  rw [List.append_assoc, List.append_assoc]
  refine optDigits_back hn.whole ?_
  cases d with
  | none =>
    cases v2 with
    | none => exact hz
    | some x => have := hn.sep rfl; cases this
  | some c => rw [hn.dot c rfl]; exact headNot_cons (by decide)

/-- What remains behind an optional part `p`: blanks in front of nothing are eaten. -/
def behind (p x : Str) : Str := if p = [] then skip x else x

theorem skip_behind {b p x : Str} (hb : Blanks b) (hp : HeadNot isBlank p) : skip (b ++ (p ++ x)) = p ++ behind p x := by
  rw [skip_append_blanks hb]
  unfold behind
  cases p with
  | nil => rfl
  | cons c p => rw [if_neg (by simp), List.cons_append, skip_of_not (hp c p rfl)]

theorem skip_behind' (p x : Str) : skip (behind p x) = skip x := by
  unfold behind; split
  · exact skip_skip x
  · rfl

theorem behind_headNot {f : Char → Bool} {p x : Str} (hx : Tail x) (h1 : f ' ' = false) (h2 : f '\t' = false)
    (hs : p = [] → HeadNot f (skip x)) : HeadNot f (behind p x) := by
  unfold behind; split
  · rename_i h; exact hs h
  · exact headNot_tail hx h1 h2

theorem blanks1_back {b r : Str} (hb : Blanks b) (hb' : b ≠ []) (hr : HeadNot isBlank r) : blanks1 (b ++ r) = some r := by
  cases b with
  | nil => exact absurd rfl hb'
  | cons c b =>
    rw [List.cons_append]
    unfold blanks1
    dsimp only
    rw [if_pos (isBlank_iff.mpr (hb c (by simp))), skip_append_blanks (fun x hx => hb x (by simp [hx])), skip_of_head hr]

theorem lit_back (w r : Str) : lit w (w ++ r) = some r := by
  unfold lit
  rw [if_pos (List.isPrefixOf_iff_prefix.mpr ⟨r, rfl⟩)]
  simp

theorem lit_none {w s : Str} (h : ¬ w <+: s) : lit w s = none := by
  unfold lit
  rw [if_neg]
  simpa [List.isPrefixOf_iff_prefix] using h

theorem prefix_tail {o t x : Str} (ho : ∀ c ∈ o, isBlank c = false) (hx : Tail x) (h : o <+: t ++ x) : o <+: t := by
  induction o generalizing t with
  | nil => exact List.nil_prefix
  | cons c o ih =>
    cases t with
    | nil =>
      exfalso
      obtain ⟨r, hr⟩ := h
      cases x with
      | nil => cases hr
      | cons d x =>
        have e : c = d := by injection hr
        have h1 := hx d x rfl
        rw [← e, ho c (by simp)] at h1
        cases h1
    | cons d t =>
      rw [List.cons_append] at h
      obtain ⟨e, h⟩ := List.cons_prefix_cons.mp h
      rw [e]
      exact List.cons_prefix_cons.mpr ⟨rfl, ih (fun y hy => ho y (by simp [hy])) h⟩

/-! ## Rules -/

/-- What may stand behind a word `w`. -/
structure After (w : Item) (x : Str) : Prop where
  tail : Tail x
  bars : ¬ Next (Bars w) (skip x)
  start : ∀ c u, skip x = c :: u → Start c

theorem After.not {w : Item} {x : Str} (h : After w x) {p : Char → Bool} (hp : ∀ c, Start c → p c = false) :
    HeadNot p (skip x) := fun c u e => hp c (h.start c u e)

theorem After.barred {w : Item} {x : Str} (h : After w x) {p : Char → Bool} (hp : ∀ c, p c = true → Bars w c) :
    HeadNot p (skip x) := by
  intro c u e
  by_contra hc
  exact h.bars ⟨c, u, e, hp c (by simpa using hc)⟩

theorem cycleDef_back {w s1 s2 x : Str} {v v2 : Option Str} {d : Option Char} (h1 : Blanks s1) (h1' : s1 ≠ [])
    (hw : w = c!"DEF" ∨ w = c!"CALL") (h2 : Blanks s2) (hn : Number v d v2) (hx : After (.cycle ⟨w, v, d, v2⟩) x) :
    ∃ y, cycleDef (c!"CYCL" ++ s1 ++ w ++ s2 ++ numeral v d v2 ++ x) = .got ⟨w, v, d, v2⟩ y ∧ skip y = skip x := by
  have e : c!"CYCL" ++ s1 ++ w ++ s2 ++ numeral v d v2 ++ x = c!"CYCL" ++ (s1 ++ (w ++ (s2 ++ (numeral v d v2 ++ x)))) := by
    simp only [List.append_assoc]
  rw [e]
  unfold cycleDef
  rw [lit_back]
  dsimp only
  rw [blanks1_back h1 h1' (by rcases hw with rfl | rfl <;> exact headNot_cons (by decide))]
  have hdc : defCall (w ++ (s2 ++ (numeral v d v2 ++ x))) = some (w, s2 ++ (numeral v d v2 ++ x)) := by
    unfold defCall
    rcases hw with rfl | rfl
    · rw [lit_back]
    · rw [lit_none (by simp), lit_back]
  show ∃ y, expect _ (defCall _) _ = _ ∧ _
  rw [hdc]
  show ∃ y, Res.got _ _ = _ ∧ _
  dsimp only
  have hblank : HeadNot isBlank (numeral v d v2) := headNot_numeral hn (fun c hc => by
    by_contra hb
    rcases isBlank_iff.mp (by simpa using hb) with rfl | rfl <;> simp [isDig] at hc) (by decide)
  rw [skip_behind h2 hblank]
  have hz1 : HeadNot isDig (behind (numeral v d v2) x) :=
    behind_headNot hx.tail (by decide) (by decide) (fun _ => hx.not (fun c hc => start_not_dig hc))
  have hz2 : HeadNot (fun x => x = '.') (behind (numeral v d v2) x) := by
    refine behind_headNot hx.tail (by decide) (by decide) (fun h0 => hx.barred (fun c hc => ?_))
    simp only [decide_eq_true_eq] at hc
    have hv : v = none := by
      cases v with
      | none => rfl
      | some y => exact absurd (by unfold numeral at h0; simp at h0; exact h0.1) (hn.whole y rfl).1
    have hd : d = none := by
      cases d with
      | none => rfl
      | some y => unfold numeral at h0; simp at h0
    have hv2 : v2 = none := by
      cases v2 with
      | none => rfl
      | some y => rw [hd] at hn; have := hn.sep rfl; cases this
    subst hv hd hv2
    exact hc
  obtain ⟨a1, a2, a3⟩ := number_back hn hz1 hz2
  rw [a1]; dsimp only
  rw [a2]; dsimp only
  rw [a3]
  exact ⟨_, rfl, skip_behind' _ _⟩

theorem intDigits_back {top : Nat} {d y : Str} (hd : Digits d) (hn : readNat d ≤ top) (hy : HeadNot isDig y) :
    intDigits top (d ++ y) = some (readNat d, y) := by
  unfold intDigits
  rw [optRun_back hd.1 (fun c hc => isDig_iff.mpr (hd.2 c hc)) hy]
  dsimp only
  rw [if_pos hn]

theorem int32_back {i y : Str} {z : Int} {id : Nat} (hi : IntText i z) (hz : -2 ^ 31 ≤ z) (hz' : z < 2 ^ 31)
    (hid : (id : Int) = z % 2 ^ 32) (hy : HeadNot isDig y) : int32 (i ++ y) = some (id, y) := by
  cases hi with
  | plain hd =>
    have h1 := intDigits_back (top := 2 ^ 31 - 1) hd (by omega) hy
    have : int32 (i ++ y) = intDigits (2 ^ 31 - 1) (i ++ y) := by
      cases hi : i with
      | nil => exact absurd hi hd.1
      | cons c u =>
        have hc : isDig c = true := isDig_iff.mpr (hd.2 c (by rw [hi]; simp))
        rw [List.cons_append]
        unfold int32
        split
        · rename_i h; injection h with h _; subst h; simp [isDig] at hc
        · rename_i h; injection h with h _; subst h; simp [isDig] at hc
        · rfl
    rw [this, h1]
    have : readNat i = id := by omega
    rw [this]
  | plus hd =>
    have h1 := intDigits_back (top := 2 ^ 31 - 1) hd (by omega) hy
    rename_i d
    show intDigits (2 ^ 31 - 1) (d ++ y) = _
    rw [h1]
    have : readNat d = id := by omega
    rw [this]
  | minus hd =>
    have h1 := intDigits_back (top := 2 ^ 31) hd (by omega) hy
    rename_i d
    show (match intDigits (2 ^ 31) (d ++ y) with
      | some (n, r) => some ((2 ^ 32 - n) % 2 ^ 32, r)
      | none => none) = _
    rw [h1]
    dsimp only
    have : (2 ^ 32 - readNat d) % 2 ^ 32 = id := by omega
    rw [this]

theorem cycleParam_back {i s1 s2 v x : Str} {z : Int} {id : Nat} {g d : Option Char} {v2 : Option Str}
    (hi : IntText i z) (hz : -2 ^ 31 ≤ z) (hz' : z < 2 ^ 31) (hid : (id : Int) = z % 2 ^ 32) (h1 : Blanks s1)
    (h2 : Blanks s2) (hg : Sign g) (hv : v = [] ∨ Digits v) (hn : Number none d v2)
    (hx : After (.param ⟨id, g, v, d, v2⟩) x) :
    ∃ y, cycleParam ('Q' :: i ++ s1 ++ c!"=" ++ s2 ++ g.toList ++ v ++ numeral none d v2 ++ x) = .got ⟨id, g, v, d, v2⟩ y ∧
      skip y = skip x := by
  obtain ⟨v', hv', hN⟩ : ∃ v' : Option Str, v'.getD [] = v ∧ Number v' d v2 := by
    rcases hv with rfl | hv
    · exact ⟨none, rfl, hn⟩
    · exact ⟨some v, rfl, ⟨fun x hx => by cases hx; exact hv, hn.dot, hn.part, hn.sep⟩⟩
  have e : 'Q' :: i ++ s1 ++ c!"=" ++ s2 ++ g.toList ++ v ++ numeral none d v2 ++ x =
      'Q' :: (i ++ (s1 ++ (c!"=" ++ (s2 ++ ((g.toList ++ numeral v' d v2) ++ x))))) := by
    rw [← hv']; simp [numeral, List.append_assoc]
  rw [e]
  show ∃ y, expect _ (int32 _) _ = _ ∧ _
  have hdn : HeadNot isDig (s1 ++ (c!"=" ++ (s2 ++ ((g.toList ++ numeral v' d v2) ++ x)))) :=
    headNot_append (headNot_all (fun c hc => by rcases h1 c hc with rfl | rfl <;> decide)) (headNot_cons (by decide))
  rw [int32_back hi hz hz' hid hdn]
  show ∃ y, expect (skip _) (lit _ (skip _)) _ = _ ∧ _
  have hsk : skip (s1 ++ (c!"=" ++ (s2 ++ ((g.toList ++ numeral v' d v2) ++ x)))) =
      c!"=" ++ (s2 ++ ((g.toList ++ numeral v' d v2) ++ x)) := by
    rw [skip_append_blanks h1]; exact skip_of_not (by decide)
  dsimp only
  rw [hsk, lit_back]
  show ∃ y, paramValue _ _ = _ ∧ _
  unfold paramValue
  dsimp only
  have hbl : ∀ c, isDig c = true → isBlank c = false := fun c hc => by
    by_contra hb
    rcases isBlank_iff.mp (by simpa using hb) with rfl | rfl <;> simp [isDig] at hc
  have hsg : ∀ c, isDig c = true → isSign c = false := fun c hc => by
    by_contra hb
    simp only [isSign, Bool.not_eq_false, Bool.or_eq_true, decide_eq_true_eq] at hb
    rcases hb with rfl | rfl <;> simp [isDig] at hc
  have hblank : HeadNot isBlank (g.toList ++ numeral v' d v2) :=
    headNot_append (headNot_opt (fun c hc => by rcases hg c hc with rfl | rfl <;> decide)) (headNot_numeral hN hbl (by decide))
  rw [skip_behind h2 hblank, List.append_assoc]
  have hz0 : HeadNot isSign (behind (g.toList ++ numeral v' d v2) x) :=
    behind_headNot hx.tail (by decide) (by decide) (fun _ => hx.not (fun c hc => by
      by_contra hb
      simp only [isSign, Bool.not_eq_false, Bool.or_eq_true, decide_eq_true_eq] at hb
      rcases hb with rfl | rfl <;> exact start_not hc (by decide) (by decide) rfl))
  rw [sign_back hg (headNot_append (headNot_numeral hN hsg (by decide)) hz0)]
  have hz1 : HeadNot isDig (behind (g.toList ++ numeral v' d v2) x) :=
    behind_headNot hx.tail (by decide) (by decide) (fun _ => hx.not (fun c hc => start_not_dig hc))
  have hz2 : HeadNot (fun x => x = '.') (behind (g.toList ++ numeral v' d v2) x) := by
    refine behind_headNot hx.tail (by decide) (by decide) (fun h0 => hx.barred (fun c hc => ?_))
    simp only [decide_eq_true_eq] at hc
    simp only [numeral, List.append_eq_nil_iff] at h0
    obtain ⟨h0, ⟨h01, h02⟩, h03⟩ := h0
    have hg0 : g = none := by cases g with | none => rfl | some y => cases h0
    have hd0 : d = none := by cases d with | none => rfl | some y => cases h02
    have hv0 : v2 = none := by
      cases v2 with
      | none => rfl
      | some y => exact absurd h03 (hn.part y rfl).1
    rw [hv'] at h01
    subst hg0 hd0 hv0 h01
    exact hc
  obtain ⟨a1, a2, a3⟩ := number_back hN hz1 hz2
  dsimp only
  rw [a1]; dsimp only
  rw [a2]; dsimp only
  rw [a3]
  exact ⟨_, by rw [hv'], skip_behind' _ _⟩

theorem comment_cons (t : Str) : comment (';' :: t) =
    match t.dropWhile (fun c => decide (c ≠ '~')) with
    | [] => .got ⟨t, false⟩ []
    | ['~'] => .got ⟨t.takeWhile (fun c => decide (c ≠ '~')), true⟩ []
    | r => .stop r := rfl

theorem expect_some {α β : Type} (at_ : Str) (a : α) (k : α → Res β) : expect at_ (some a) k = k a := rfl

theorem comment_back {x : Str} {t : Bool} (hx : '~' ∉ x) :
    comment (';' :: x ++ (if t then ['~'] else [])) = .got ⟨x, t⟩ [] := by
  have h1 : ∀ c ∈ x, (fun c : Char => decide (c ≠ '~')) c = true := by
    intro c hc
    simp only [ne_eq, decide_eq_true_eq]
    rintro rfl
    exact hx hc
  cases t with
  | false =>
    simp only [Bool.false_eq_true, if_false, List.append_nil]
    rw [comment_cons]
    have : x.dropWhile (fun c => decide (c ≠ '~')) = [] := dropWhile_all h1
    rw [this]
  | true =>
    simp only [if_true, List.cons_append]
    rw [comment_cons]
    have e1 : (x ++ ['~']).dropWhile (fun c => decide (c ≠ '~')) = ['~'] := by
      rw [List.dropWhile_append_of_pos h1]; simp
    have e2 : (x ++ ['~']).takeWhile (fun c => decide (c ≠ '~')) = x := by
      rw [List.takeWhile_append_of_pos h1]; simp
    rw [e1, e2]
    rfl

theorem spaces_back {x : Str} (hx : Tail x) (hs : HeadNot isSpace (skip x)) : spaces x = some (skip x) := by
  have key : ∀ y : Str, HeadNot isSpace (skip y) → y.dropWhile isSpace = skip y := by
    intro y
    induction y with
    | nil => intro _; rfl
    | cons c y ih =>
      intro h
      by_cases hc : isBlank c = true
      · rw [skip_of_blank hc] at h ⊢
        rw [List.dropWhile_cons_of_pos (by rcases isBlank_iff.mp hc with rfl | rfl <;> decide)]
        exact ih h
      · have hc' : isBlank c = false := by simpa using hc
        rw [skip_of_not hc'] at h ⊢
        have := h c y rfl
        rw [List.dropWhile_cons_of_neg (by simp [this])]
  cases x with
  | nil => rfl
  | cons c y =>
    have hc := hx c y rfl
    unfold spaces
    dsimp only
    rw [if_pos (by rcases isBlank_iff.mp hc with rfl | rfl <;> decide)]
    rw [skip_of_blank hc] at hs ⊢
    rw [key y hs]

theorem name_not_blank {c : Char} (h : NameChar c) : isBlank c = false := by
  by_contra hb
  have h := inName_iff.mpr h
  rcases isBlank_iff.mp (by simpa using hb) with rfl | rfl <;> exact absurd h (by decide)

theorem startProgram_back {b : BeginEnd} {n : Str} {u : Measure} {s1 s2 s3 x : Str} (h1 : Blanks s1) (h1' : s1 ≠ [])
    (h2 : Blanks s2) (h2' : s2 ≠ []) (h3 : Blanks s3) (h3' : s3 ≠ []) (hn : ∀ c ∈ n, NameChar c) (hn' : n ≠ [])
    (hx : After (.program ⟨b, n, u⟩) x) :
    startProgram (beginEndWord b ++ s1 ++ c!"PGM" ++ s2 ++ n ++ s3 ++ measureWord u ++ x) = .got ⟨b, n, u⟩ (skip x) := by
  have e : beginEndWord b ++ s1 ++ c!"PGM" ++ s2 ++ n ++ s3 ++ measureWord u ++ x =
      beginEndWord b ++ (s1 ++ (c!"PGM" ++ (s2 ++ (n ++ (s3 ++ (measureWord u ++ x)))))) := by simp only [List.append_assoc]
  rw [e]
  have hbe : ∀ r, beginEnd (beginEndWord b ++ r) = some (b, r) := by
    intro r
    unfold beginEnd
    cases b with
    | start => rw [show beginEndWord .start = c!"BEGIN" from rfl, lit_back]
    | finish => rw [show beginEndWord .finish = c!"END" from rfl, lit_none (by simp), lit_back]
  unfold startProgram
  rw [hbe]
  dsimp only
  unfold programRest
  have hP : HeadNot isBlank (c!"PGM" ++ (s2 ++ (n ++ (s3 ++ (measureWord u ++ x))))) := headNot_cons (by decide)
  rw [blanks1_back h1 h1' hP]
  rw [expect_some]
  rw [lit_back]
  have hnb : HeadNot isBlank (n ++ (s3 ++ (measureWord u ++ x))) := by
    cases n with
    | nil => exact absurd rfl hn'
    | cons c n => exact headNot_cons (name_not_blank (hn c (by simp)))
  rw [expect_some]
  rw [blanks1_back h2 h2' hnb]
  have hp : ∀ c ∈ n, inName c = true := fun c hc => inName_iff.mpr (hn c hc)
  have hs3 : ∀ y, (s3 ++ y).takeWhile inName = [] ∧ (s3 ++ y).dropWhile inName = s3 ++ y := by
    intro y
    cases s3 with
    | nil => exact absurd rfl h3'
    | cons c s =>
      have : inName c = false := by rcases h3 c (by simp) with rfl | rfl <;> decide
      exact ⟨List.takeWhile_cons_of_neg (by simp [this]), List.dropWhile_cons_of_neg (by simp [this])⟩
  rw [expect_some]
  rw [List.dropWhile_append_of_pos hp, (hs3 _).2, List.takeWhile_append_of_pos hp, (hs3 _).1, List.append_nil]
  rw [blanks1_back h3 h3' (by cases u <;> exact headNot_cons (by decide))]
  have hm : ∀ r, measure (measureWord u ++ r) = some (u, r) := by
    intro r
    unfold measure
    cases u with
    | mm => rw [show measureWord .mm = c!"MM" from rfl, lit_back]
    | inch => rw [show measureWord .inch = c!"INCH" from rfl, lit_none (by simp), lit_back]
  rw [expect_some]
  rw [hm]
  rw [expect_some]
  rw [spaces_back hx.tail (hx.not (fun c hc => start_not_space hc))]
  rw [expect_some]
  have : notName (skip x) = some () := by
    cases hs : skip x with
    | nil => rfl
    | cons c y =>
      unfold notName
      dsimp only
      rw [if_neg]
      intro hc
      exact hx.bars ⟨c, y, hs, inName_iff.mp hc⟩
  rw [this, expect_some]

theorem op_shape {o : Str} (h : o ∈ operations) : o.length = 3 ∧ (∀ c ∈ o, isBlank c = false) ∧ (o.head? = some 'K' ∨ o.head? = some 'P') := by
  have : ∀ o ∈ operations, o.length = 3 ∧ (∀ c ∈ o, isBlank c = false) ∧ (o.head? = some 'K' ∨ o.head? = some 'P') := by decide
  exact this o h

theorem symbol_head {c : Char} {r : Str} (h1 : c ≠ 'K') (h2 : c ≠ 'P') : symbol operations (c :: r) = none := by
  rw [symbol_none]
  refine longest_eq_none (fun o ho hne hp => ?_)
  obtain ⟨-, -, hh⟩ := op_shape ho
  cases o with
  | nil => exact hne rfl
  | cons d o =>
    have e := (List.cons_prefix_cons.mp hp).1
    rcases hh with h | h
    · injection h with h; exact h1 (by rw [← e, h])
    · injection h with h; exact h2 (by rw [← e, h])

theorem word_back {w tail x : Str} (hw : IsWord w) (hp : Plain w tail) (hx : Tail x) :
    word (w ++ (tail ++ x)) = .got w (tail ++ x) := by
  by_cases ho : Operation w
  · have hm := operations_iff.mpr ho
    unfold word
    have : symbol operations (w ++ (tail ++ x)) = some (w, tail ++ x) := by
      refine symbol_eq (longest_eq_some hm ?_ ⟨_, rfl⟩ ?_) rfl
      · intro h; have := (op_shape hm).1; rw [h] at this; cases this
      · intro y hy _
        rw [(op_shape hm).1, (op_shape hy).1]
    rw [this]
  · rcases hw with h | h | rfl | rfl | ⟨t, ht, ht', rfl⟩
    · exact absurd h ho
    · unfold word
      have h1 : symbol operations (w ++ (tail ++ x)) = none := by
        rw [symbol_none]
        refine longest_eq_none (fun o ho' _ hpre => ?_)
        rw [← List.append_assoc] at hpre
        exact hp.op h o (operations_iff.mp ho') (prefix_tail (op_shape ho').2.1 hx hpre)
      rw [h1]
      dsimp only
      rw [optRun_back h.1 (fun c hc => inWord_iff.mpr (h.2 c hc))]
      cases tail with
      | nil => exact headNot_tail hx (by decide) (by decide)
      | cons c u =>
        refine headNot_cons ?_
        by_contra hc
        exact hp.run h ⟨c, u, rfl, inWord_iff.mp (by simpa using hc)⟩
    · unfold word
      rw [show c!"#" ++ (tail ++ x) = '#' :: (tail ++ x) from rfl, symbol_head (by decide) (by decide)]
      dsimp only
      rw [optRun_back_none (headNot_cons (by decide))]
      rfl
    · unfold word
      rw [show c!"=" ++ (tail ++ x) = '=' :: (tail ++ x) from rfl, symbol_head (by decide) (by decide)]
      dsimp only
      rw [optRun_back_none (headNot_cons (by decide))]
      rfl
    · unfold word
      have e : ('"' :: t ++ ['"']) ++ (tail ++ x) = '"' :: (t ++ ('"' :: (tail ++ x))) := by simp
      rw [e, symbol_head (by decide) (by decide)]
      dsimp only
      rw [optRun_back_none (headNot_cons (by decide))]
      show quoted ('"' :: (t ++ ('"' :: (tail ++ x)))) = _
      have hq : optRun inQuotes (t ++ ('"' :: (tail ++ x))) = (some t, '"' :: (tail ++ x)) :=
        optRun_back ht (fun c hc => inQuotes_iff.mpr (ht' c hc)) (headNot_cons (by decide))
      have hc : ∀ r, quoted ('"' :: r) = match optRun inQuotes r with
          | (none, _) => .stop r
          | (some w, '"' :: r) => .got ('"' :: w ++ ['"']) r
          | (some _, r) => .stop r := fun _ => rfl
      rw [hc, hq]
      rfl

theorem generalRest_back {w s1 x : Str} {g q : Option Char} {v : Option Str} {d : Option Char} {v2 : Option Str}
    {t : Option Char} (h1 : Blanks s1) (hg : Sign g) (hq : ∀ c, q = some c → c = 'Q') (hn : Number v d v2)
    (ht : ∀ c, t = some c → c = '~') (hx : After (.general ⟨w, g, q, v, d, v2, t⟩) x) :
    ∃ y, generalRest w (s1 ++ (g.toList ++ (q.toList ++ (numeral v d v2 ++ t.toList)) ++ x)) = (⟨w, g, q, v, d, v2, t⟩, y) ∧
      skip y = skip x := by
  have hdig : ∀ a : Char, isDig a = false → ∀ c, isDig c = true → (fun x : Char => decide (x = a)) c = false := by
    intro a ha c hc
    simp only [decide_eq_false_iff_not]
    rintro rfl
    rw [hc] at ha; cases ha
  have hbl : ∀ c, isDig c = true → isBlank c = false := fun c hc => by
    by_contra hb
    rcases isBlank_iff.mp (by simpa using hb) with rfl | rfl <;> simp [isDig] at hc
  have hsg : ∀ c, isDig c = true → isSign c = false := fun c hc => by
    by_contra hb
    simp only [isSign, Bool.not_eq_false, Bool.or_eq_true, decide_eq_true_eq] at hb
    rcases hb with rfl | rfl <;> simp [isDig] at hc
  have hP : ∀ p : Char → Bool, (∀ c, isDig c = true → p c = false) → p '.' = false → p '~' = false →
      HeadNot p (numeral v d v2 ++ t.toList) := by
    intro p h1 h2 h3
    exact headNot_append (headNot_numeral hn h1 h2) (headNot_opt (fun c hc => by rw [ht c hc]; exact h3))
  have hblank : HeadNot isBlank (g.toList ++ (q.toList ++ (numeral v d v2 ++ t.toList))) := by
    refine headNot_append (headNot_opt (fun c hc => by rcases hg c hc with rfl | rfl <;> decide)) (headNot_append
      (headNot_opt (fun c hc => by rw [hq c hc]; decide)) (hP _ hbl (by decide) (by decide)))
  have hbare : g.toList ++ (q.toList ++ (numeral v d v2 ++ t.toList)) = [] →
      g = none ∧ q = none ∧ v = none ∧ d = none ∧ v2 = none ∧ t = none := by
    intro h0
    simp only [numeral, List.append_eq_nil_iff] at h0
    obtain ⟨a1, a2, ⟨⟨a3, a4⟩, a5⟩, a6⟩ := h0
    refine ⟨?_, ?_, ?_, ?_, ?_, ?_⟩
    · cases g with | none => rfl | some y => cases a1
    · cases q with | none => rfl | some y => cases a2
    · cases v with | none => rfl | some y => exact absurd a3 (hn.whole y rfl).1
    · cases d with | none => rfl | some y => cases a4
    · cases v2 with | none => rfl | some y => exact absurd a5 (hn.part y rfl).1
    · cases t with | none => rfl | some y => cases a6
  unfold generalRest
  dsimp only
  rw [skip_behind h1 hblank]
  generalize hz : behind (g.toList ++ (q.toList ++ (numeral v d v2 ++ t.toList))) x = z
  have hskip : skip z = skip x := by rw [← hz]; exact skip_behind' _ _
  have z1 : HeadNot isSign z := by
    rw [← hz]
    exact behind_headNot hx.tail (by decide) (by decide) (fun _ => hx.not (fun c hc => by
      by_contra hb
      simp only [isSign, Bool.not_eq_false, Bool.or_eq_true, decide_eq_true_eq] at hb
      rcases hb with rfl | rfl <;> exact start_not hc (by decide) (by decide) rfl))
  have z2 : HeadNot (fun x => x = 'Q') z := by
    rw [← hz]
    refine behind_headNot hx.tail (by decide) (by decide) (fun h0 => hx.barred (fun c hc => ?_))
    simp only [decide_eq_true_eq] at hc
    obtain ⟨rfl, rfl, rfl, rfl, rfl, rfl⟩ := hbare h0
    exact .inr hc
  have z3 : HeadNot isDig z := by
    rw [← hz]
    exact behind_headNot hx.tail (by decide) (by decide) (fun _ => hx.not (fun c hc => start_not_dig hc))
  have z4 : HeadNot (fun x => x = '.') z := by
    rw [← hz]
    refine behind_headNot hx.tail (by decide) (by decide) (fun h0 => hx.barred (fun c hc => ?_))
    simp only [decide_eq_true_eq] at hc
    obtain ⟨rfl, rfl, rfl, rfl, rfl, rfl⟩ := hbare h0
    exact .inl hc
  have z5 : HeadNot (fun x => x = '~') z := by
    rw [← hz]
    exact behind_headNot hx.tail (by decide) (by decide) (fun _ => hx.not (fun c hc => by
      simp only [decide_eq_false_iff_not]
      exact start_not hc (by decide) (by decide)))
  have e : g.toList ++ (q.toList ++ (numeral v d v2 ++ t.toList)) ++ z =
      g.toList ++ (q.toList ++ (numeral v d v2 ++ (t.toList ++ z))) := by simp only [List.append_assoc]
  rw [e]
  have hT : ∀ p : Char → Bool, p '~' = false → HeadNot p z → HeadNot p (t.toList ++ z) := by
    intro p h3 h4
    exact headNot_append (headNot_opt (fun c hc => by rw [ht c hc]; exact h3)) h4
  have b1 : sign (g.toList ++ (q.toList ++ (numeral v d v2 ++ (t.toList ++ z)))) =
      (g, q.toList ++ (numeral v d v2 ++ (t.toList ++ z))) := by
    refine sign_back hg (headNot_append (headNot_opt (fun c hc => by rw [hq c hc]; decide)) ?_)
    exact headNot_append (headNot_numeral hn hsg (by decide)) (hT _ (by decide) z1)
  have b2 : optChar 'Q' (q.toList ++ (numeral v d v2 ++ (t.toList ++ z))) = (q, numeral v d v2 ++ (t.toList ++ z)) := by
    refine optChar_back hq ?_
    exact headNot_append (headNot_numeral hn (hdig 'Q' (by decide)) (by decide)) (hT _ (by decide) z2)
  obtain ⟨a1, a2, a3⟩ := number_back hn (hT isDig (by decide) z3) (hT (fun x => x = '.') (by decide) z4)
  have b3 : optChar '~' (t.toList ++ z) = (t, z) := optChar_back ht z5
  rw [b1]; dsimp only
  rw [b2]; dsimp only
  rw [a1]; dsimp only
  rw [a2]; dsimp only
  rw [a3]; dsimp only
  rw [b3]
  exact ⟨_, rfl, hskip⟩

/-! ## Words -/

theorem item_skip (s : Str) : item (skip s) = item s := by unfold item; rw [skip_skip]

theorem cycleDef_fail {s : Str} (h : ¬ c!"CYCL" <+: s) : cycleDef s = .fail := by
  unfold cycleDef; rw [lit_none h]

theorem cycleParam_fail {c : Char} {s : Str} (h : c ≠ 'Q') : cycleParam (c :: s) = .fail := by
  unfold cycleParam
  split
  · rename_i e; injection e with e _; exact absurd e h
  · rfl

theorem comment_fail {c : Char} {s : Str} (h : c ≠ ';') : comment (c :: s) = .fail := by
  unfold comment
  split
  · rename_i e; injection e with e _; exact absurd e h
  · rfl

theorem startProgram_fail {s : Str} (h : ¬ c!"BEGIN" <+: s) (h' : ¬ c!"END" <+: s) : startProgram s = .fail := by
  unfold startProgram beginEnd
  rw [lit_none h, lit_none h']

theorem not_next_bars {w : Item} {x : Str} (hx : ¬ Next (Bars w) x) : ∀ c u, x = c :: u → ¬ Bars w c :=
  fun c u e h => hx ⟨c, u, e, h⟩

/-- A word written clearly is read, whatever follows behind a blank. -/
theorem item_back {t x : Str} {w : Item} (ht : Shows t w) (hc : Clear t w) (hx : After w x)
    (hcom : ∀ c, w = .comment c → x = []) : ∃ y, item (t ++ x) = .got w y ∧ skip y = skip x := by
  have hsk : skip (t ++ x) = t ++ x := by
    obtain ⟨c, u, rfl, hs⟩ := shows_start ht
    exact skip_of_not (start_not_blank hs)
  unfold item
  rw [hsk]
  cases ht with
  | comment h =>
    rename_i x0 t0
    rw [hcom _ rfl, List.append_nil]
    have h1 : cycleDef (';' :: x0 ++ (if t0 then ['~'] else [])) = .fail := cycleDef_fail (by simp)
    have h2 : cycleParam (';' :: x0 ++ (if t0 then ['~'] else [])) = .fail := cycleParam_fail (by decide)
    rw [h1, h2, comment_back h]
    exact ⟨[], rfl, rfl⟩
  | program h1 h1' h2 h2' h3 h3' hn hn' he =>
    rename_i b n u s1 s2 s3 e
    have he0 : e = [] := by
      rcases List.eq_nil_or_concat e with rfl | ⟨e', c, rfl⟩
      · rfl
      · exfalso
        have hc : (beginEndWord b ++ s1 ++ c!"PGM" ++ s2 ++ n ++ s3 ++ measureWord u ++ (e'.concat c)).getLast? =
            (measureWord u).getLast? := hc
        rw [List.concat_eq_append, ← List.append_assoc, List.getLast?_append_of_ne_nil _ (by simp)] at hc
        have hsp := he c (by simp)
        cases u with
        | mm =>
          have : c = 'M' := by simpa [measureWord] using hc
          subst this; simp at hsp
        | inch =>
          have : c = 'H' := by simpa [measureWord] using hc
          subst this; simp at hsp
    subst he0
    rw [List.append_nil]
    have hcd : cycleDef (beginEndWord b ++ s1 ++ c!"PGM" ++ s2 ++ n ++ s3 ++ measureWord u ++ x) = .fail := by
      refine cycleDef_fail ?_
      cases b <;> simp [beginEndWord]
    have hcp : cycleParam (beginEndWord b ++ s1 ++ c!"PGM" ++ s2 ++ n ++ s3 ++ measureWord u ++ x) = .fail := by
      cases b <;> exact cycleParam_fail (by decide)
    have hco : comment (beginEndWord b ++ s1 ++ c!"PGM" ++ s2 ++ n ++ s3 ++ measureWord u ++ x) = .fail := by
      cases b <;> exact comment_fail (by decide)
    rw [hcd, hcp, hco, startProgram_back h1 h1' h2 h2' h3 h3' hn hn' hx]
    exact ⟨_, rfl, skip_skip x⟩
  | cycle h1 h1' hw h2 hn =>
    obtain ⟨y, e, hy⟩ := cycleDef_back h1 h1' hw h2 hn hx
    rw [e]
    exact ⟨y, rfl, hy⟩
  | param hi hz hz' hid h1 h2 hg hv hn =>
    obtain ⟨y, e, hy⟩ := cycleParam_back hi hz hz' hid h1 h2 hg hv hn hx
    rw [e]
    rw [cycleDef_fail (by simp)]
    exact ⟨y, rfl, hy⟩
  | general hw h1 hg hq hn htl =>
    rename_i w s1 g q v d v2 tl
    obtain ⟨tail, etl, hp⟩ := hc
    have et : tail = s1 ++ (g.toList ++ (q.toList ++ (numeral v d v2 ++ tl.toList))) := by
      have : w ++ (s1 ++ (g.toList ++ (q.toList ++ (numeral v d v2 ++ tl.toList)))) = w ++ tail := by
        rw [← etl]; simp only [List.append_assoc]
      exact (List.append_cancel_left this).symm
    have ewhole : w ++ s1 ++ g.toList ++ q.toList ++ numeral v d v2 ++ tl.toList ++ x = w ++ (tail ++ x) := by
      rw [et]; simp only [List.append_assoc]
    rw [ewhole]
    have hno : ∀ o : Str, (∀ c ∈ o, isBlank c = false) → ¬ o <+: w ++ tail → ¬ o <+: w ++ (tail ++ x) := by
      intro o ho hne hpre
      rw [← List.append_assoc] at hpre
      exact hne (prefix_tail ho hx.tail hpre)
    obtain ⟨c, u, rfl, hs⟩ := word_start hw
    have hcom : c ≠ ';' := by
      rintro rfl
      rcases hw with h | h | h | h | ⟨t, _, _, h⟩
      · rcases h with ⟨_, _, _, _, h⟩ | ⟨_, _, h⟩ | h | h <;> cases h
      · have := h.2 ';' (by simp); have := inWord_iff.mpr this; simp [inWord, isAlpha] at this
      · cases h
      · cases h
      · cases h
    have hQ : c ≠ 'Q' := by
      rintro rfl
      exact hp.q ⟨_, _, rfl, rfl⟩
    rw [cycleDef_fail (hno _ (by decide) hp.cycl)]
    have e2 : cycleParam (c :: u ++ (tail ++ x)) = .fail := cycleParam_fail hQ
    have e3 : comment (c :: u ++ (tail ++ x)) = .fail := comment_fail hcom
    rw [e2, e3, startProgram_fail (hno _ (by decide) hp.begin) (hno _ (by decide) hp.finish)]
    have eg : ∃ y, general (c :: u ++ (tail ++ x)) = .got ⟨c :: u, g, q, v, d, v2, tl⟩ y ∧ skip y = skip x := by
      unfold general
      rw [word_back hw hp hx.tail]
      dsimp only
      obtain ⟨y, ey, hy⟩ := generalRest_back h1 hg hq hn htl hx
      have e4 : tail ++ x = s1 ++ (g.toList ++ (q.toList ++ (numeral v d v2 ++ tl.toList)) ++ x) := by
        rw [et, List.append_assoc]
      rw [e4, ey]
      exact ⟨y, rfl, hy⟩
    obtain ⟨y, ey, hy⟩ := eg
    rw [ey]
    exact ⟨y, rfl, hy⟩

theorem item_end {s : Str} (h : skip s = []) : item s = .fail := by
  rw [← item_skip, h]; decide

theorem apart_start {s : Str} {ws : List Item} (h : Apart s ws) : ∃ c u, s = c :: u ∧ Start c := by
  cases h with
  | last ht => obtain ⟨c, u, rfl, hs⟩ := shows_start ht; exact ⟨c, _, rfl, hs⟩
  | cons ht => obtain ⟨c, u, rfl, hs⟩ := shows_start ht; exact ⟨c, _, rfl, hs⟩

theorem blanks_tail {e : Str} (he : Blanks e) : Tail e :=
  fun c u h => isBlank_iff.mpr (he c (by rw [h]; simp))

theorem skip_all_blanks {e : Str} (he : Blanks e) : skip e = [] := by
  have := skip_append_blanks (r := []) he
  rw [List.append_nil] at this
  exact this

theorem apart_length {s : Str} {ws : List Item} (h : Apart s ws) : ws.length ≤ s.length ∧ ws ≠ [] := by
  induction h with
  | last ht => have := List.length_pos_of_ne_nil (shows_ne ht); simp; omega
  | cons ht _ _ _ _ _ ih => have := List.length_pos_of_ne_nil (shows_ne ht); simp; omega

theorem items_back {s : Str} {ws : List Item} (h : Apart s ws) : ∀ (n : Nat) (z : Str), ws.length ≤ n → skip z = skip s →
    ∃ r, items n z = (ws, false, r) ∧ skip r = [] := by
  induction h with
  | last ht hc he hcom =>
    rename_i t e w
    intro n z hn hz
    obtain ⟨m, rfl⟩ : ∃ m, n = m + 1 := ⟨n - 1, by simp at hn; omega⟩
    have hA : After w e := ⟨blanks_tail he, (by rw [skip_all_blanks he]; rintro ⟨_, _, h, _⟩; cases h),
      (by rw [skip_all_blanks he]; intro c u h; cases h)⟩
    obtain ⟨y, ey, hy⟩ := item_back ht hc hA hcom
    rw [← item_skip, ← hz, item_skip] at ey
    rw [skip_all_blanks he] at hy
    have hi : items m y = ([], false, y) := by
      cases m with
      | zero => rfl
      | succ m => unfold items; rw [item_end hy]
    refine ⟨y, ?_, hy⟩
    show (match item z with
      | .got a r => (a :: (items m r).1, (items m r).2)
      | .fail => ([], false, z)
      | .stop at_ => ([], true, at_)) = _
    rw [ey]
    dsimp only
    rw [hi]
  | cons ht hc he he' hr hbar ih =>
    rename_i t e r w ws
    intro n z hn hz
    obtain ⟨m, rfl⟩ : ∃ m, n = m + 1 := ⟨n - 1, by simp at hn; omega⟩
    obtain ⟨c0, u0, er, hs0⟩ := apart_start hr
    have hsr : skip (e ++ r) = r := by
      rw [skip_append_blanks he, er]; exact skip_of_not (start_not_blank hs0)
    have hA : After w (e ++ r) := by
      refine ⟨?_, ?_, ?_⟩
      · intro c u h
        cases e with
        | nil => exact absurd rfl he'
        | cons d e => injection h with h _; subst h; exact isBlank_iff.mpr (he d (by simp))
      · rw [hsr]; exact hbar
      · rw [hsr, er]; intro c u h; injection h with h _; subst h; exact hs0
    have hcm : ∀ c, w = .comment c → e ++ r = [] := by
      rintro c rfl
      exact absurd ⟨c0, u0, er, trivial⟩ hbar
    obtain ⟨y, ey, hy⟩ := item_back ht hc hA hcm
    rw [← List.append_assoc, ← item_skip, ← hz, item_skip] at ey
    obtain ⟨q, hq, hq'⟩ := ih m y (by simp at hn; omega) (by rw [hy, hsr, er, skip_of_not (start_not_blank hs0)])
    refine ⟨q, ?_, hq'⟩
    show (match item z with
      | .got a r => (a :: (items m r).1, (items m r).2)
      | .fail => ([], false, z)
      | .stop at_ => ([], true, at_)) = _
    rw [ey]
    dsimp only
    rw [hq]

theorem rest_back {pre ws : List Item} {b s : Str} (hb : Blanks b) (h : Apart s ws) : rest pre (b ++ s) = .accept (pre ++ ws) := by
  obtain ⟨r, hr, hs⟩ := items_back h (b ++ s).length (b ++ s) (by have := (apart_length h).1; simp; omega)
    (skip_append_blanks hb)
  unfold rest
  rw [hr]
  cases ws with
  | nil => exact absurd rfl (apart_length h).2
  | cons w ws =>
    dsimp only
    rw [if_pos hs]

/-- A neat line is read as it is written. -/
theorem phrase_neat {s : Str} {ws : List Item} (h : Neat s ws) : phrase s = .accept ws := by
  cases h with
  | plain hb ha =>
    rename_i b s
    obtain ⟨c, u, e, hs⟩ := apart_start ha
    have hsk : skip (b ++ s) = s := by
      rw [skip_append_blanks hb, e]; exact skip_of_not (start_not_blank hs)
    have hl : lineNumber s = .fail := by
      unfold lineNumber uint
      rw [optRun_back_none]
      rw [e]
      exact headNot_cons (start_not_dig hs)
    unfold phrase
    rw [hsk, hl]
    exact rest_back (pre := []) (b := []) (by intro c hc; cases hc) ha
  | numbered hnum hb ha =>
    rename_i a b s n ws
    cases hnum with
    | mk hb0 hd hn hc =>
      rename_i b0 d c
      have hsk : skip (b0 ++ d ++ [c] ++ b ++ s) = d ++ (c :: (b ++ s)) := by
        have e : b0 ++ d ++ [c] ++ b ++ s = b0 ++ (d ++ (c :: (b ++ s))) := by simp
        rw [e, skip_append_blanks hb0]
        refine skip_append hd.1 (fun x hx => ?_)
        by_contra hbl
        have := isDig_iff.mpr (hd.2 x hx)
        rcases isBlank_iff.mp (by simpa using hbl) with rfl | rfl <;> simp [isDig] at this
      have hcb : isBlank c = true := isBlank_iff.mpr hc
      have hl : lineNumber (d ++ (c :: (b ++ s))) = .got (readNat d) (b ++ s) := by
        unfold lineNumber uint
        rw [optRun_back hd.1 (fun x hx => isDig_iff.mpr (hd.2 x hx)) (headNot_cons (by rcases hc with rfl | rfl <;> decide))]
        dsimp only
        rw [if_pos hn]
        dsimp only
        rw [if_pos hcb]
      unfold phrase
      rw [hsk, hl]
      exact rest_back (pre := [.number _]) hb ha

end NC.Hei
