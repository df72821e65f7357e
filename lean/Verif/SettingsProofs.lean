import Verif.Spec.Settings
import Verif.Props.Enums

/-! # The values of a settings file -/

namespace NC.Conf
open NC NC.Enums NC.AttrPath NC.Spec.Conf NC.Props

/-! ## Scanning -/

theorem drop_app {p : Char → Bool} {a r : Str} (ha : ∀ c ∈ a, p c = true) (hr : ∀ c t, r = c :: t → p c = false) :
    (a ++ r).dropWhile p = r := by
  induction a with
  | nil =>
    cases r with
    | nil => rfl
    | cons c t => simp [hr c t rfl]
  | cons x a ih => simp [ha x (by simp), ih (fun c hc => ha c (by simp [hc]))]

theorem take_app {p : Char → Bool} {a r : Str} (ha : ∀ c ∈ a, p c = true) (hr : ∀ c t, r = c :: t → p c = false) :
    (a ++ r).takeWhile p = a := by
  induction a with
  | nil =>
    cases r with
    | nil => rfl
    | cons c t => simp [hr c t rfl]
  | cons x a ih => simp [ha x (by simp), ih (fun c hc => ha c (by simp [hc]))]

theorem take_all (p : Char → Bool) (s : Str) : ∀ c ∈ s.takeWhile p, p c = true := by
  intro c hc
  induction s with
  | nil => simp at hc
  | cons x s ih =>
    by_cases hx : p x = true
    · rw [List.takeWhile_cons_of_pos hx] at hc
      rcases List.mem_cons.mp hc with rfl | h
      · exact hx
      · exact ih h
    · rw [List.takeWhile_cons_of_neg hx] at hc; simp at hc

theorem drop_head (p : Char → Bool) (s : Str) : ∀ c t, s.dropWhile p = c :: t → p c = false := by
  intro c t h
  induction s with
  | nil => simp at h
  | cons x s ih =>
    by_cases hx : p x = true
    · rw [List.dropWhile_cons_of_pos hx] at h; exact ih h
    · rw [List.dropWhile_cons_of_neg hx] at h
      simp only [List.cons.injEq] at h
      rw [← h.1]; simpa using hx

theorem sp_not_dig {c : Char} (h : isSp c = true) : isDig c = false := by
  by_contra hd
  rw [isDig_not_sp (by simpa using hd)] at h
  cases h

/-- What cannot follow directly. -/
def Stops (r : Str) : Prop := ∀ c t, r = c :: t → isDig c = false

/-- What can follow a sign that is not there. -/
def Starts (r : Str) : Prop := ∀ c t, r = c :: t → isSp c = false ∧ c ≠ '-' ∧ c ≠ '+'

theorem starts_digits {d r : Str} (hd : Digits d) (hne : d ≠ []) : Starts (d ++ r) := by
  intro c t h
  cases d with
  | nil => exact absurd rfl hne
  | cons x d =>
    simp only [List.cons_append, List.cons.injEq] at h
    obtain ⟨rfl, -⟩ := h
    have hx := hd x (by simp)
    refine ⟨isDig_not_sp hx, ?_, ?_⟩ <;> (rintro rfl; revert hx; decide)

/-- How a text is scanned. -/
theorem scan_split {a g d r : Str} {neg : Bool} (ha : Blank a) (hg : Sign g neg) (hd : Digits d) (hr : Stops r)
    (hs : g = [] → Starts (d ++ r)) : scan (a ++ (g ++ (d ++ r))) = (neg, d, r) := by
  have h1 : (a ++ (g ++ (d ++ r))).dropWhile isSp = g ++ (d ++ r) := by
    refine drop_app ha ?_
    intro c t h
    rcases hg with ⟨rfl, -⟩ | ⟨rfl, -⟩ | ⟨rfl, -⟩
    · exact (hs rfl c t (by simpa using h)).1
    · simp only [List.cons_append, List.nil_append, List.cons.injEq] at h
      rw [← h.1]; decide
    · simp only [List.cons_append, List.nil_append, List.cons.injEq] at h
      rw [← h.1]; decide
  have h2 : splitSign (g ++ (d ++ r)) = (neg, d ++ r) := by
    rcases hg with ⟨rfl, rfl⟩ | ⟨rfl, rfl⟩ | ⟨rfl, rfl⟩
    · rw [List.nil_append]
      exact splitSign_other (fun c t h => (hs rfl c t h).2)
    · rfl
    · rfl
  unfold scan
  rw [h1, h2]
  dsimp only
  rw [take_app hd hr, drop_app hd hr]

/-- A sign is split off. -/
theorem splitSign_spec (s : Str) : ∃ g, Sign g (splitSign s).1 ∧ s = g ++ (splitSign s).2 ∧
    (g = [] → ∀ c t, s = c :: t → c ≠ '-' ∧ c ≠ '+') := by
  unfold splitSign
  split
  · exact ⟨c!"-", .inr (.inr ⟨rfl, rfl⟩), rfl, fun h => by simp at h⟩
  · exact ⟨c!"+", .inr (.inl ⟨rfl, rfl⟩), rfl, fun h => by simp at h⟩
  · rename_i h1 h2
    refine ⟨[], .inl ⟨rfl, rfl⟩, rfl, fun _ c t h => ⟨?_, ?_⟩⟩
    · rintro rfl; exact h1 _ h
    · rintro rfl; exact h2 _ h

/-- What was scanned. -/
theorem scan_spec (s : Str) : ∃ a g, s = a ++ (g ++ ((scan s).2.1 ++ (scan s).2.2)) ∧ Blank a ∧ Sign g (scan s).1 ∧
    Digits (scan s).2.1 ∧ Stops (scan s).2.2 ∧ (g = [] → Starts ((scan s).2.1 ++ (scan s).2.2)) := by
  obtain ⟨g, hg, hs, hst⟩ := splitSign_spec (s.dropWhile isSp)
  refine ⟨s.takeWhile isSp, g, ?_, take_all _ _, hg, take_all _ _, drop_head _ _, ?_⟩
  · show s = s.takeWhile isSp ++ (g ++ (((splitSign (s.dropWhile isSp)).2).takeWhile isDig ++ ((splitSign (s.dropWhile isSp)).2).dropWhile isDig))
    rw [List.takeWhile_append_dropWhile, ← hs, List.takeWhile_append_dropWhile]
  · intro hg0 c t h
    have h' : s.dropWhile isSp = c :: t := by
      rw [hs, hg0, List.nil_append]
      have : (splitSign (s.dropWhile isSp)).2.takeWhile isDig ++ (splitSign (s.dropWhile isSp)).2.dropWhile isDig = c :: t := h
      rwa [List.takeWhile_append_dropWhile] at this
    exact ⟨drop_head _ _ c t h', hst hg0 c t h'⟩

theorem blank_iff (s : Str) : blank s = true ↔ Blank s := by
  unfold blank Blank; rw [List.all_eq_true]

theorem stops_blank {b : Str} (hb : Blank b) : Stops b := by
  intro c t h; exact sp_not_dig (hb c (by simp [h]))

theorem signed_cast (neg : Bool) (d : Str) : ((signed neg d : Int) : ℚ) = withSign neg (readNat d) := by
  cases neg <;> simp [signed, withSign]

/-! ## Numbers -/

/-- A text whose digits are followed by white space is a whole number. -/
theorem whole_iff (s : Str) (z : Int) :
    Whole s z ↔ (scan s).2.1 ≠ [] ∧ blank (scan s).2.2 = true ∧ signed (scan s).1 (scan s).2.1 = z := by
  constructor
  · rintro ⟨a, g, neg, d, b, rfl, ha, hg, hd, hne, hb, hz⟩
    rw [scan_split ha hg hd (stops_blank hb) (fun _ => starts_digits hd hne)]
    refine ⟨hne, (blank_iff b).mpr hb, ?_⟩
    rw [← signed_cast] at hz
    exact_mod_cast hz.symm
  · rintro ⟨h1, h2, h3⟩
    obtain ⟨a, g, hs, ha, hg, hd, -, -⟩ := scan_spec s
    refine ⟨a, g, _, _, _, hs, ha, hg, hd, h1, (blank_iff _).mp h2, ?_⟩
    rw [← h3, signed_cast]

/-- `int`. -/
theorem intOf_iff (s : Str) (z : Int) : intOf s = some z ↔ Fits s z := by
  unfold intOf Fits
  dsimp only
  rw [whole_iff]
  constructor
  · intro h
    split at h
    · rename_i hc; injection h with h; subst h; exact ⟨⟨hc.1, hc.2.1, rfl⟩, hc.2.2⟩
    · cases h
  · rintro ⟨⟨h1, h2, rfl⟩, h3⟩
    rw [if_pos ⟨h1, h2, h3⟩]

theorem stops_fraction {f fd x b : Str} {e : Int} (hf : Fraction f fd) (hx : Exponent x e) (hb : Blank b) :
    Stops (f ++ (x ++ b)) := by
  intro c t h
  rcases hf with ⟨rfl, -⟩ | ⟨rfl, -⟩
  · rcases hx with ⟨rfl, -⟩ | ⟨y, g, neg, d, hy, rfl, -⟩
    · exact stops_blank hb c t (by simpa using h)
    · simp only [List.nil_append, List.cons_append, List.cons.injEq] at h
      rw [← h.1]; rcases hy with rfl | rfl <;> decide
  · simp only [List.cons_append, List.cons.injEq] at h
    rw [← h.1]; decide

theorem exp_none {b : Str} (hb : Blank b) : expOf b = some (0, b) := by
  unfold expOf
  split
  · exact absurd (hb 'e' (by simp)) (by decide)
  · exact absurd (hb 'E' (by simp)) (by decide)
  · rfl

theorem expOf_cons {c : Char} (hc : c = 'e' ∨ c = 'E') (t : Str) : expOf (c :: t) =
    if (splitSign t).2.takeWhile isDig = [] then none
    else some (signed (splitSign t).1 ((splitSign t).2.takeWhile isDig), (splitSign t).2.dropWhile isDig) := by
  rcases hc with rfl | rfl <;> rfl

theorem exp_split {x b : Str} {e : Int} (hx : Exponent x e) (hb : Blank b) : expOf (x ++ b) = some (e, b) := by
  rcases hx with ⟨rfl, rfl⟩ | ⟨y, g, neg, d, hy, rfl, hg, hd, hne, he⟩
  · exact exp_none hb
  · have h2 : splitSign (g ++ (d ++ b)) = (neg, d ++ b) := by
      rcases hg with ⟨rfl, rfl⟩ | ⟨rfl, rfl⟩ | ⟨rfl, rfl⟩
      · rw [List.nil_append]
        exact splitSign_other (fun c t h => (starts_digits hd hne c t h).2)
      · rfl
      · rfl
    have h3 : (d ++ b).takeWhile isDig = d := take_app hd (stops_blank hb)
    have h4 : (d ++ b).dropWhile isDig = b := drop_app hd (stops_blank hb)
    have h5 : signed neg d = e := by rw [← signed_cast] at he; exact_mod_cast he.symm
    rw [List.cons_append, List.append_assoc, expOf_cons hy, h2]
    dsimp only
    rw [h3, h4, if_neg hne, h5]

theorem exp_spec {s r : Str} {e : Int} (h : expOf s = some (e, r)) : ∃ x, s = x ++ r ∧ Exponent x e := by
  have key : ∀ (c : Char) (t : Str), (c = 'e' ∨ c = 'E') →
      (if (splitSign t).2.takeWhile isDig = [] then none
       else some (signed (splitSign t).1 ((splitSign t).2.takeWhile isDig), (splitSign t).2.dropWhile isDig)) = some (e, r) →
      ∃ x, c :: t = x ++ r ∧ Exponent x e := by
    intro c t hc h
    split at h
    · cases h
    · rename_i hne
      injection h with h
      injection h with h1 h2
      obtain ⟨g, hg, hs, -⟩ := splitSign_spec t
      refine ⟨c :: (g ++ (splitSign t).2.takeWhile isDig), ?_, .inr ⟨c, g, _, _, hc, rfl, hg, take_all _ _, hne, ?_⟩⟩
      · rw [← h2, List.cons_append, List.append_assoc, List.takeWhile_append_dropWhile, ← hs]
      · rw [← h1, signed_cast]
  unfold expOf at h
  split at h
  · exact key 'e' _ (.inl rfl) h
  · exact key 'E' _ (.inr rfl) h
  · injection h with h
    injection h with h1 h2
    exact ⟨[], h2, .inl ⟨rfl, h1.symm⟩⟩

theorem frac_split {f fd x b : Str} {e : Int} (hf : Fraction f fd) (hx : Exponent x e) (hb : Blank b) :
    fracDigits (f ++ (x ++ b)) = fd ∧ afterFrac (f ++ (x ++ b)) = x ++ b := by
  have hst : Stops (x ++ b) := by simpa using stops_fraction (.inl ⟨rfl, rfl⟩) hx hb
  rcases hf with ⟨rfl, rfl⟩ | ⟨rfl, hd⟩
  · rw [List.nil_append]
    have : ∀ t, x ++ b ≠ '.' :: t := by
      intro t h
      rcases hx with ⟨rfl, -⟩ | ⟨y, g, neg, d, hy, rfl, -⟩
      · have := hb '.' (by rw [List.nil_append] at h; simp [h]); revert this; decide
      · simp only [List.cons_append, List.cons.injEq] at h
        rcases hy with rfl | rfl <;> exact absurd h.1 (by decide)
    constructor
    · unfold fracDigits; split
      · rename_i t h; exact absurd h (this _)
      · rfl
    · unfold afterFrac; split
      · rename_i t h; exact absurd h (this _)
      · rfl
  · exact ⟨take_app hd hst, drop_app hd hst⟩

theorem frac_spec (s : Str) : ∃ f, s = f ++ afterFrac s ∧ Fraction f (fracDigits s) := by
  by_cases h : ∃ t, s = '.' :: t
  · obtain ⟨t, rfl⟩ := h
    exact ⟨'.' :: t.takeWhile isDig, by
      show '.' :: t = '.' :: t.takeWhile isDig ++ t.dropWhile isDig
      rw [List.cons_append, List.takeWhile_append_dropWhile], .inr ⟨rfl, take_all _ _⟩⟩
  · have h1 : afterFrac s = s := by
      unfold afterFrac; split
      · exact absurd ⟨_, rfl⟩ h
      · rfl
    have h2 : fracDigits s = [] := by
      unfold fracDigits; split
      · exact absurd ⟨_, rfl⟩ h
      · rfl
    rw [h1, h2]
    exact ⟨[], rfl, .inl ⟨rfl, rfl⟩⟩

/-- The scanned text of a number. -/
theorem scan_number {a g i f fd x b : Str} {neg : Bool} {e : Int} (ha : Blank a) (hg : Sign g neg) (hi : Digits i)
    (hf : Fraction f fd) (hne : i ≠ [] ∨ fd ≠ []) (hx : Exponent x e) (hb : Blank b) :
    scan (a ++ (g ++ (i ++ (f ++ (x ++ b))))) = (neg, i, f ++ (x ++ b)) := by
  refine scan_split ha hg hi (stops_fraction hf hx hb) (fun _ => ?_)
  by_cases h0 : i = []
  · subst h0
    rcases hf with ⟨rfl, rfl⟩ | ⟨rfl, hd⟩
    · simp at hne
    · intro c t h
      simp only [List.nil_append, List.cons_append, List.cons.injEq] at h
      rw [← h.1]; decide
  · exact starts_digits hi h0

/-- `double`. -/
theorem dblOf_iff (s : Str) (q : ℚ) : dblOf s = some q ↔ Number s q := by
  constructor
  · intro h
    unfold dblOf at h
    dsimp only at h
    split at h
    · cases h
    · rename_i hne
      split at h
      · cases h
      · rename_i e rest he
        split at h
        · rename_i hb
          injection h with h
          obtain ⟨a, g, hs, ha, hg, hd, -, -⟩ := scan_spec s
          obtain ⟨f, hf, hfr⟩ := frac_spec (scan s).2.2
          obtain ⟨x, hx, hex⟩ := exp_spec he
          refine ⟨a, g, _, _, f, _, x, e, rest, ?_, ha, hg, hd, hfr, ?_, hex, (blank_iff _).mp hb, ?_⟩
          · rw [← hx, ← hf]; exact hs
          · by_contra hc
            push Not at hc
            exact hne hc
          · rw [← h]; rfl
        · cases h
  · rintro ⟨a, g, neg, i, f, fd, x, e, b, rfl, ha, hg, hi, hf, hne, hx, hb, rfl⟩
    unfold dblOf
    dsimp only
    rw [scan_number ha hg hi hf hne hx hb]
    dsimp only
    obtain ⟨h1, h2⟩ := frac_split hf hx hb
    rw [h1, h2, if_neg (by rintro ⟨c1, c2⟩; rcases hne with h | h <;> contradiction), exp_split hx hb]
    dsimp only
    rw [if_pos ((blank_iff b).mpr hb)]
    rfl

/-! ## Truth values -/

theorem truth_head (v : Bool) (b : Str) : ∃ c t, truthWord v ++ b = c :: t ∧ isSp c = false ∧ isDig c = false ∧ c ≠ '-' ∧ c ≠ '+' := by
  cases v
  · exact ⟨'f', _, rfl, by decide, by decide, by decide, by decide⟩
  · exact ⟨'t', _, rfl, by decide, by decide, by decide, by decide⟩

theorem alphaOf_iff (s : Str) (v : Bool) : alphaOf s = some v ↔ ∃ b, s = truthWord v ++ b ∧ Blank b := by
  unfold alphaOf
  constructor
  · intro h
    split at h
    · rename_i hp
      split at h
      · rename_i hb
        injection h with h; subst h
        obtain ⟨r, rfl⟩ := List.isPrefixOf_iff_prefix.mp hp
        exact ⟨r, rfl, (blank_iff r).mp hb⟩
      · cases h
    · split at h
      · rename_i hp
        split at h
        · rename_i hb
          injection h with h; subst h
          obtain ⟨r, rfl⟩ := List.isPrefixOf_iff_prefix.mp hp
          exact ⟨r, rfl, (blank_iff r).mp hb⟩
        · cases h
      · cases h
  · rintro ⟨b, rfl, hb⟩
    cases v
    · have h1 : ¬ (c!"true".isPrefixOf (truthWord false ++ b)) = true := by simp [truthWord, List.isPrefixOf]
      have h2 : (c!"false".isPrefixOf (truthWord false ++ b)) = true := by simp [truthWord, List.isPrefixOf]
      rw [if_neg h1, if_pos h2]
      exact if_pos ((blank_iff b).mpr hb)
    · have h2 : (c!"true".isPrefixOf (truthWord true ++ b)) = true := by simp [truthWord, List.isPrefixOf]
      rw [if_pos h2]
      exact if_pos ((blank_iff b).mpr hb)

/-- `bool`. -/
theorem boolOf_iff (s : Str) (v : Bool) : boolOf s = some v ↔ Truth s v := by
  unfold boolOf
  dsimp only
  constructor
  · intro h
    split at h
    · rename_i hc
      split at h
      · rename_i hb
        injection h with h
        left
        refine ⟨_, (whole_iff s _).mpr ⟨hc.1, hb, rfl⟩, ?_⟩
        rcases hc.2 with h0 | h1
        · left; refine ⟨h0, ?_⟩; rw [← h, h0]; decide
        · right; refine ⟨h1, ?_⟩; rw [← h, h1]; decide
      · cases h
    · rename_i hc
      right
      obtain ⟨b, hb, hbl⟩ := (alphaOf_iff _ v).mp h
      obtain ⟨a, g, hs, ha, hg, hd, -, -⟩ := scan_spec s
      refine ⟨a, g, _, _, (scan s).2.2.takeWhile isSp, b, ?_, ha, hg, hd, take_all _ _, hbl, ?_⟩
      · rw [← hb, List.takeWhile_append_dropWhile]; exact hs
      · intro hne
        have : ¬ (signed (scan s).1 (scan s).2.1 = 0 ∨ signed (scan s).1 (scan s).2.1 = 1) := fun hx => hc ⟨hne, hx⟩
        push Not at this
        rw [← signed_cast]
        exact ⟨by exact_mod_cast this.1, by exact_mod_cast this.2⟩
  · rintro (⟨z, hw, hz⟩ | ⟨a, g, neg, d, m, b, rfl, ha, hg, hd, hm, hb, hv⟩)
    · obtain ⟨h1, h2, h3⟩ := (whole_iff s z).mp hw
      rw [h3, if_pos ⟨h1, hz.elim (fun h => .inl h.1) (fun h => .inr h.1)⟩, if_pos h2]
      rcases hz with ⟨rfl, rfl⟩ | ⟨rfl, rfl⟩ <;> rfl
    · obtain ⟨c, t, hct, hc1, hc2, hc3, hc4⟩ := truth_head v b
      have hst : Stops (m ++ (truthWord v ++ b)) := by
        intro y u h
        cases m with
        | nil => rw [List.nil_append, hct] at h; simp only [List.cons.injEq] at h; rw [← h.1]; exact hc2
        | cons z m => simp only [List.cons_append, List.cons.injEq] at h; rw [← h.1]; exact sp_not_dig (hm z (by simp))
      have hdrop : (m ++ (truthWord v ++ b)).dropWhile isSp = truthWord v ++ b :=
        drop_app hm (fun y u h => by rw [hct] at h; simp only [List.cons.injEq] at h; rw [← h.1]; exact hc1)
      by_cases hs : g = [] ∧ d = []
      · obtain ⟨rfl, rfl⟩ := hs
        have hneg : neg = false := by rcases hg with ⟨-, h⟩ | ⟨h, -⟩ | ⟨h, -⟩ <;> first | exact h | simp at h
        subst hneg
        have : scan (a ++ ([] ++ ([] ++ (m ++ (truthWord v ++ b))))) = (false, [], truthWord v ++ b) := by
          have h := scan_split (a := a ++ m) (g := []) (d := []) (r := truthWord v ++ b) (neg := false)
            (fun y hy => (List.mem_append.mp hy).elim (ha y) (hm y)) (.inl ⟨rfl, rfl⟩) (fun y hy => by simp at hy)
            (fun y u h => by rw [hct] at h; simp only [List.cons.injEq] at h; rw [← h.1]; exact hc2)
            (fun _ y u h => by
              rw [List.nil_append, hct] at h; simp only [List.cons.injEq] at h; rw [← h.1]; exact ⟨hc1, hc3, hc4⟩)
          simpa using h
        rw [this]
        dsimp only
        rw [if_neg (fun h => h.1 rfl), (alphaOf_iff _ v).mpr]
        refine ⟨b, ?_, hb⟩
        have := drop_app (p := isSp) (a := []) (r := truthWord v ++ b) (by simp)
          (fun y u h => by rw [hct] at h; simp only [List.cons.injEq] at h; rw [← h.1]; exact hc1)
        simpa using this
      · rw [scan_split ha hg hd hst]
        · dsimp only
          rw [if_neg, hdrop, (alphaOf_iff _ v).mpr ⟨b, rfl, hb⟩]
          rintro ⟨h1, h2⟩
          have hv' := hv h1
          rw [← signed_cast] at hv'
          rcases h2 with h2 | h2
          · exact hv'.1 (by rw [h2]; rfl)
          · exact hv'.2 (by rw [h2]; rfl)
        · intro hg0
          exact starts_digits hd (fun hd0 => hs ⟨hg0, hd0⟩)

/-! ## Names -/

theorem readWord_spec (s : Str) : ∃ a, s = a ++ ((Enums.readWord s).1 ++ (Enums.readWord s).2) ∧ Blank a ∧ (∀ c ∈ (Enums.readWord s).1, isSp c = false) ∧
    ∀ c t, (Enums.readWord s).2 = c :: t → isSp c = true := by
  refine ⟨s.takeWhile isSp, ?_, take_all _ _, ?_, ?_⟩
  · show s = s.takeWhile isSp ++ ((s.dropWhile isSp).takeWhile (fun c => !isSp c) ++ (s.dropWhile isSp).dropWhile (fun c => !isSp c))
    rw [List.takeWhile_append_dropWhile, List.takeWhile_append_dropWhile]
  · intro c hc
    have := take_all (fun c => !isSp c) (s.dropWhile isSp) c hc
    simpa using this
  · intro c t h
    have := drop_head (fun c => !isSp c) (s.dropWhile isSp) c t h
    simpa using this

theorem readWord_split {a w b : Str} (ha : Blank a) (hb : Blank b) (hw : w ≠ []) (hs : ∀ c ∈ w, isSp c = false) :
    Enums.readWord (a ++ (w ++ b)) = (w, b) := by
  have h1 : (a ++ (w ++ b)).dropWhile isSp = w ++ b := by
    refine drop_app ha ?_
    intro c t h
    cases w with
    | nil => exact absurd rfl hw
    | cons x w => simp only [List.cons_append, List.cons.injEq] at h; rw [← h.1]; exact hs x (by simp)
  have hb' : ∀ c t, b = c :: t → (!isSp c) = false := by
    intro c t h; rw [hb c (by simp [h])]; rfl
  have hs' : ∀ c ∈ w, (!isSp c) = true := by intro c hc; rw [hs c hc]; rfl
  unfold Enums.readWord
  dsimp only
  rw [h1, take_app hs' hb', drop_app hs' hb']

/-- An enumeration is read when its text is one word that names a value. -/
theorem enumOf_word {α : Type} (ofStr : Str → Out Str α) (hnil : ∀ e, ofStr [] ≠ .ok e) (s : Str) (e : α) :
    enumOf ofStr s = some e ↔ ∃ w, Word s w ∧ ofStr w = .ok e := by
  unfold enumOf streamIn
  constructor
  · intro h
    cases hw : ofStr (Enums.readWord s).1 with
    | ok x =>
      rw [hw] at h
      simp only [Out.bind_ok, Out.pure_eq] at h
      split at h
      · rename_i hb
        injection h with h; subst h
        obtain ⟨a, hs, ha, hns, -⟩ := readWord_spec s
        refine ⟨(Enums.readWord s).1, ⟨a, _, hs, ha, (blank_iff _).mp hb, ?_, hns⟩, hw⟩
        intro h0; rw [h0] at hw; exact hnil _ hw
      · cases h
    | throw x => rw [hw] at h; simp at h
    | ub => rw [hw] at h; simp at h
  · rintro ⟨w, ⟨a, b, rfl, ha, hb, hw, hs⟩, he⟩
    rw [readWord_split ha hb hw hs]
    dsimp only
    rw [he]
    simp only [Out.bind_ok, Out.pure_eq]
    rw [if_pos ((blank_iff b).mpr hb)]

/-- An enumeration whose values have one name each. -/
theorem enumOf_faithful {α : Type} {toStr : α → Str} {ofStr : Str → Out Str α}
    (hf : ∀ s e, ofStr s = .ok e ↔ s = toStr e) (hn : ∀ e, toStr e ≠ []) (s : Str) (e : α) :
    enumOf ofStr s = some e ↔ Word s (toStr e) := by
  rw [enumOf_word ofStr (fun e h => hn e ((hf _ _).mp h).symm)]
  constructor
  · rintro ⟨w, hw, he⟩; rw [(hf _ _).mp he] at hw; exact hw
  · intro h; exact ⟨_, h, (hf _ _).mpr rfl⟩

end NC.Conf
