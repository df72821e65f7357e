import Verif.Lines
import Verif.NumProofs
import Verif.Spec.Lines
import Verif.FramingProofs

/-! # Helper lemmas about lines, messages and times -/

namespace NC.Srv
open NC.Spec.Lines

theorem mem_takeWhile {p : Char → Bool} {l : Str} {c : Char} (h : c ∈ l.takeWhile p) : p c = true := by
  induction l with
  | nil => simp at h
  | cons a l ih =>
    rw [List.takeWhile_cons] at h
    split at h
    · rename_i ha
      rcases List.mem_cons.mp h with rfl | h
      · exact ha
      · exact ih h
    · simp at h

/-! ## Lines -/

theorem rtrim_pred (c : Char) : (isSp c || c == '\r') = isSp c := by
  by_cases h : c = '\r'
  · subst h; decide
  · simp [h]

theorem dropEnd_trimmed (l : Str) : TrimmedEnd l ((l.reverse.dropWhile isSp).reverse) := by
  have h := List.takeWhile_append_dropWhile (p := isSp) (l := l.reverse)
  refine ⟨⟨(l.reverse.takeWhile isSp).reverse, ?_, ?_⟩, ?_⟩
  · rw [← List.reverse_append, h, List.reverse_reverse]
  · intro c hc
    exact mem_takeWhile (List.mem_reverse.mp hc)
  · intro c hc
    rw [List.getLast?_reverse] at hc
    have hne : l.reverse.dropWhile isSp ≠ [] := by intro q; rw [q] at hc; simp at hc
    have := List.head_dropWhile_not isSp hne
    rw [List.head?_eq_some_head hne] at hc
    have : isSp ((l.reverse.dropWhile isSp).head hne) = false := this
    simp only [Option.some.injEq] at hc
    rw [← hc]; exact this

theorem rtrim_eq (l : Str) : rtrim l = (l.reverse.dropWhile isSp).reverse := by
  unfold rtrim
  congr 2
  funext c
  exact rtrim_pred c

theorem rtrim_trimmed (l : Str) : TrimmedEnd l (rtrim l) := by
  rw [rtrim_eq]; exact dropEnd_trimmed l

theorem splitFrom_eq (cur s : Str) : splitFrom cur s = (piecesFrom '\n' cur s).map rtrim := by
  induction s generalizing cur with
  | nil => unfold splitFrom piecesFrom; split <;> simp
  | cons c s ih =>
    unfold splitFrom piecesFrom
    split
    · rw [List.map_cons, ih]
    · rw [ih]

theorem splitLines_eq (s : Str) : splitLines s = (contentLines s).map rtrim := splitFrom_eq [] s

/-- A piece without delimiter, followed by one. -/
theorem piecesFrom_delim (d : Char) (cur l s : Str) (hl : d ∉ l) :
    piecesFrom d cur (l ++ d :: s) = (cur ++ l) :: piecesFrom d [] s := by
  induction l generalizing cur with
  | nil => simp [piecesFrom]
  | cons c l ih =>
    simp only [List.mem_cons, not_or] at hl
    rw [List.cons_append, piecesFrom, if_neg (Ne.symm hl.1), ih _ hl.2]
    simp

/-- A last piece without delimiter. -/
theorem piecesFrom_last (d : Char) (cur l : Str) (hl : d ∉ l) (hne : cur ++ l ≠ []) :
    piecesFrom d cur l = [cur ++ l] := by
  induction l generalizing cur with
  | nil => simp [piecesFrom] at *; exact hne
  | cons c l ih =>
    simp only [List.mem_cons, not_or] at hl
    rw [piecesFrom, if_neg (Ne.symm hl.1), ih _ hl.2 (by simp)]
    simp

theorem isLines_cons {l s : Str} {ls : List Str} (hl : '\n' ∉ l) (h : IsLines s ls) :
    IsLines (l ++ '\n' :: s) (l :: ls) := by
  obtain ⟨h1, h2⟩ := h
  refine ⟨by simpa using ⟨hl, h1⟩, ?_⟩
  rcases h2 with h2 | ⟨h2, l', hg, hne⟩
  · left; rw [h2]; simp
  · right
    cases ls with
    | nil => simp at hg
    | cons x xs =>
      refine ⟨by rw [h2]; rfl, l', ?_, hne⟩
      rw [List.getLast?_cons_cons]; exact hg

theorem pieces_isLines (cur s : Str) (hc : '\n' ∉ cur) : IsLines (cur ++ s) (piecesFrom '\n' cur s) := by
  induction s generalizing cur with
  | nil =>
    unfold piecesFrom
    split
    · rename_i h; subst h; exact ⟨by simp, Or.inl rfl⟩
    · rename_i h
      exact ⟨by simpa using hc, Or.inr ⟨by simp [join], cur, rfl, h⟩⟩
  | cons c s ih =>
    unfold piecesFrom
    split
    · rename_i h
      subst h
      exact isLines_cons hc (by simpa using ih [] (by simp))
    · rename_i h
      have := ih (cur ++ [c]) (by simp [hc, Ne.symm h])
      simpa using this

theorem pieces_full : ∀ (ls : List Str), (∀ l ∈ ls, '\n' ∉ l) →
    pieces '\n' (ls.map (· ++ c!"\n")).flatten = ls := by
  intro ls
  induction ls with
  | nil => intro _; rfl
  | cons l ls ih =>
    intro h
    have := piecesFrom_delim '\n' [] l (ls.map (· ++ c!"\n")).flatten (h l (by simp))
    rw [List.map_cons, List.flatten_cons, pieces]
    rw [List.append_assoc, List.singleton_append, this]
    have := ih (fun x hx => h x (by simp [hx]))
    rw [pieces] at this
    rw [this]; rfl

theorem pieces_join : ∀ (ls : List Str), (∀ l ∈ ls, '\n' ∉ l) → (∃ l, ls.getLast? = some l ∧ l ≠ []) →
    pieces '\n' (join ls) = ls := by
  intro ls
  induction ls with
  | nil => rintro _ ⟨l, hl, _⟩; simp at hl
  | cons l ls ih =>
    rintro h ⟨x, hx, hne⟩
    cases ls with
    | nil =>
      simp only [List.getLast?_singleton, Option.some.injEq] at hx
      subst hx
      rw [join, pieces, piecesFrom_last _ _ _ (h l (by simp)) (by simpa using hne)]; rfl
    | cons y ys =>
      rw [join, pieces, piecesFrom_delim _ _ _ _ (h l (by simp))]
      · rw [List.getLast?_cons_cons] at hx
        have := ih (fun z hz => h z (by simp only [List.mem_cons] at hz ⊢; exact Or.inr hz)) ⟨x, hx, hne⟩
        rw [pieces] at this
        rw [this]; rfl
      · intro q; cases q

theorem isLines_iff (s : Str) (ls : List Str) : IsLines s ls ↔ ls = contentLines s := by
  constructor
  · rintro ⟨h1, h2 | ⟨h2, h3⟩⟩
    · rw [h2, contentLines, pieces_full ls h1]
    · rw [h2, contentLines, pieces_join ls h1 h3]
  · rintro rfl
    have := pieces_isLines [] s (by simp)
    exact this

/-! ## Trimming -/

theorem trim_trimmed (l : Str) : Trimmed l (trim l) := by
  have h := List.takeWhile_append_dropWhile (p := isSp) (l := l)
  obtain ⟨⟨w, hw, hs⟩, hlast⟩ := dropEnd_trimmed (l.dropWhile isSp)
  have ht : trim l = ((l.dropWhile isSp).reverse.dropWhile isSp).reverse := rfl
  rw [← ht] at hw hlast
  refine ⟨⟨l.takeWhile isSp, w, ?_, ?_, hs⟩, ?_, hlast⟩
  · rw [List.append_assoc, ← hw, h]
  · intro c hc; exact mem_takeWhile hc
  · intro c hc
    have hne : l.dropWhile isSp ≠ [] := by
      intro q; rw [q] at hw
      have : trim l = [] := by
        cases h' : trim l with
        | nil => rfl
        | cons a b => rw [h'] at hw; simp at hw
      rw [this] at hc; simp at hc
    have hn := List.head_dropWhile_not isSp hne
    have : (l.dropWhile isSp).head? = some c := by
      rw [hw, List.head?_append, hc]; rfl
    rw [List.head?_eq_some_head hne, Option.some.injEq] at this
    rw [← this]; exact hn

theorem Trimmed.unique {l t u : Str} (ht : Trimmed l t) (hu : Trimmed l u) : t = u := by
  have key : ∀ {l t : Str}, Trimmed l t → t = trim l := by
    intro l t h
    obtain ⟨⟨v, w, rfl, hv, hw⟩, h1, h2⟩ := h
    have hd : ∀ (v r : Str), (∀ c ∈ v, isSp c = true) → (v ++ r).dropWhile isSp = r.dropWhile isSp := by
      intro v r hv
      induction v with
      | nil => rfl
      | cons a v ih =>
        rw [List.cons_append, List.dropWhile_cons, if_pos (hv a (by simp))]
        exact ih (fun c hc => hv c (by simp [hc]))
    have hk : ∀ (r : Str), (∀ c, r.head? = some c → isSp c = false) → r.dropWhile isSp = r := by
      intro r hr
      cases r with
      | nil => rfl
      | cons a r => rw [List.dropWhile_cons, if_neg (by simp [hr a rfl])]
    unfold trim
    rw [List.append_assoc, hd _ _ hv]
    cases t with
    | nil =>
      rw [List.nil_append, dropWhile_all hw]; rfl
    | cons a t =>
      rw [hk (a :: t ++ w) (by intro c hc; exact h1 c hc), List.reverse_append, hd _ _ (by simpa using hw),
        hk _ (by intro c hc; rw [List.head?_reverse] at hc; exact h2 c hc), List.reverse_reverse]
  rw [key ht, key hu]

theorem trim_ne_nil {s : Str} (h : ∃ c ∈ s, isSp c = false) : trim s ≠ [] := by
  intro q
  obtain ⟨⟨v, w, hs, hv, hw⟩, _⟩ := trim_trimmed s
  obtain ⟨c, hc, hf⟩ := h
  rw [q] at hs
  rw [hs] at hc
  simp only [List.append_nil, List.mem_append] at hc
  rcases hc with hc | hc
  · rw [hv c hc] at hf; cases hf
  · rw [hw c hc] at hf; cases hf

theorem trim_digits {s : Str} (h : ∀ c ∈ s, isDig c = true) : trim s = s := by
  refine (Trimmed.unique ?_ (trim_trimmed s)).symm
  refine ⟨⟨[], [], by simp, by simp, by simp⟩, ?_, ?_⟩
  · intro c hc; exact isDig_not_sp (h c (List.mem_of_mem_head? hc))
  · intro c hc; exact isDig_not_sp (h c (List.mem_of_getLast? hc))

theorem trim_space (s : Str) : trim (' ' :: s) = trim s := by
  unfold trim
  rw [List.dropWhile_cons, if_pos (by decide)]

/-! ## Messages -/

theorem cutAt_none {pat s : Str} (hne : pat ≠ []) (h : ¬ pat <:+: s) : cutAt pat s = none := by
  induction s with
  | nil => unfold cutAt; rw [if_neg hne]
  | cons c s ih =>
    unfold cutAt
    rw [if_neg, ih, Option.map_none]
    · intro q; exact h (q.trans (List.suffix_cons c s).isInfix)
    · intro q; exact h (List.isPrefixOf_iff_prefix.mp q).isInfix

theorem cutAt_some {pat s : Str} (hne : pat ≠ []) (h : pat <:+: s) :
    ∃ a b, cutAt pat s = some (a, b) ∧ s = a ++ pat ++ b ∧ ¬ pat <:+: (a ++ pat).dropLast := by
  induction s with
  | nil => exact absurd (List.eq_nil_of_infix_nil h) hne
  | cons c s ih =>
    unfold cutAt
    by_cases hp : pat.isPrefixOf (c :: s) = true
    · rw [if_pos hp]
      obtain ⟨r, hr⟩ := List.isPrefixOf_iff_prefix.mp hp
      refine ⟨[], r, ?_, by rw [List.nil_append]; exact hr.symm, ?_⟩
      · rw [← hr, List.drop_left]
      · rw [List.nil_append]
        intro q
        have := q.length_le
        rw [List.length_dropLast] at this
        have : 0 < pat.length := List.length_pos_iff.mpr hne
        omega
    · rw [if_neg hp]
      have h' : pat <:+: s := by
        rcases List.infix_cons_iff.mp h with q | q
        · exact absurd (List.isPrefixOf_iff_prefix.mpr q) hp
        · exact q
      obtain ⟨a, b, h1, h2, h3⟩ := ih h'
      refine ⟨c :: a, b, by rw [h1]; rfl, by rw [h2]; rfl, ?_⟩
      have hne' : a ++ pat ≠ [] := by simp [hne]
      rw [List.cons_append, List.dropLast_cons_of_ne_nil hne']
      intro q
      rcases List.infix_cons_iff.mp q with q | q
      · apply hp
        rw [List.isPrefixOf_iff_prefix, h2]
        have : c :: (a ++ pat).dropLast <+: c :: (a ++ pat ++ b) := by
          rw [List.cons_prefix_cons]
          exact ⟨rfl, (List.dropLast_prefix _).trans (List.prefix_append _ _)⟩
        exact q.trans this
      · exact h3 q

theorem checkFrom_iff {ε σ : Type} (ck : σ → Nat → Str → Out ε (σ × Bool × Str)) (ls : List Str) :
    ∀ (s : σ) (n : Nat) (s' : σ) (ms : List Str), checkFrom ck s n ls = .ok (s', ms) ↔
      ∃ rs, Rejects ck s n ls s' rs ∧ ms = rs.map (fun r => reword (r.1 + 1) r.2.1 r.2.2) := by
  induction ls with
  | nil =>
    intro s n s' ms
    simp only [checkFrom]
    constructor
    · intro h; cases h; exact ⟨[], .done _ _, rfl⟩
    · rintro ⟨rs, hr, rfl⟩; cases hr; rfl
  | cons l ls ih =>
    intro s n s' ms
    rw [checkFrom]
    by_cases hl : l = []
    · subst hl
      rw [if_pos rfl, ih]
      constructor
      · rintro ⟨rs, hr, rfl⟩; exact ⟨rs, .blank hr, rfl⟩
      · rintro ⟨rs, hr, rfl⟩
        cases hr with
        | blank hr => exact ⟨rs, hr, rfl⟩
        | accepted hn _ _ => exact absurd rfl hn
        | rejected hn _ _ => exact absurd rfl hn
    · rw [if_neg hl, Out.bind_eq_ok]
      constructor
      · rintro ⟨⟨s₁, v, m⟩, h1, h2⟩
        rw [Out.bind_eq_ok] at h2
        obtain ⟨⟨s₂, q⟩, h2, h3⟩ := h2
        obtain ⟨rs, hr, rfl⟩ := (ih _ _ _ _).mp h2
        cases v with
        | true => cases h3; exact ⟨rs, .accepted hl h1 hr, rfl⟩
        | false => cases h3; exact ⟨_, .rejected hl h1 hr, rfl⟩
      · rintro ⟨rs, hr, rfl⟩
        cases hr with
        | blank hr => exact absurd rfl hl
        | accepted hn h1 hr =>
          exact ⟨_, h1, Out.bind_eq_ok.mpr ⟨_, (ih _ _ _ _).mpr ⟨_, hr, rfl⟩, rfl⟩⟩
        | rejected hn h1 hr =>
          exact ⟨_, h1, Out.bind_eq_ok.mpr ⟨_, (ih _ _ _ _).mpr ⟨_, hr, rfl⟩, rfl⟩⟩

theorem colon_not_dig {s : Str} (h : ∀ c ∈ s, isDig c = true) : ':' ∉ s := by
  intro q; have := h _ q; revert this; decide

theorem atoi_natStr {n : Nat} (h : n ≤ 2147483647) : atoi (natStr n) = n := by
  rw [atoi_digits (natStr_isDig n) (by rw [readNat_natStr]; exact h), readNat_natStr]

theorem lower_succ (n : Nat) : lower ((n + 1 : Nat) : Int) = n := by
  unfold lower; rw [if_pos (by omega)]; omega

/-- Two pieces. -/
theorem diag_two {ε : Type} {n : Nat} (hn : n + 1 ≤ 2147483647) {m : Str} (hc : ':' ∉ m) (hs : ∃ c ∈ m, isSp c = false) :
    diagOf (ε := ε) (natStr (n + 1) ++ c!":" ++ m) = .ok (some ⟨n, 0, trim m⟩) := by
  have hm : m ≠ [] := by rintro rfl; simp at hs
  have hp : pieces ':' (natStr (n + 1) ++ c!":" ++ m) = [natStr (n + 1), m] := by
    rw [pieces, List.append_assoc, List.singleton_append,
      piecesFrom_delim _ _ _ _ (colon_not_dig (natStr_isDig _)), piecesFrom_last _ _ _ hc (by simpa using hm)]
    rfl
  unfold diagOf
  rw [hp]
  simp only [List.map_cons, List.map_nil, trim_digits (natStr_isDig _), atoi_natStr hn, lower_succ]
  rw [if_pos (Or.inr (Or.inr (trim_ne_nil hs)))]

/-- Three pieces. -/
theorem diag_three {ε : Type} {n : Nat} (hn : n + 1 ≤ 2147483647) {ds m : Str} (hd : ∀ c ∈ ds, isDig c = true)
    (h0 : 0 < readNat ds) (h1 : readNat ds ≤ 2147483647)
    (hc : ':' ∉ m) (hs : ∃ c ∈ m, isSp c = false) :
    diagOf (ε := ε) (natStr (n + 1) ++ c!":" ++ (ds ++ c!":" ++ m)) =
      .ok (some ⟨n, (readNat ds - 1 : Nat), trim m⟩) := by
  have hm : m ≠ [] := by rintro rfl; simp at hs
  have hp : pieces ':' (natStr (n + 1) ++ c!":" ++ (ds ++ c!":" ++ m)) = [natStr (n + 1), ds, m] := by
    rw [pieces, List.append_assoc, List.singleton_append,
      piecesFrom_delim _ _ _ _ (colon_not_dig (natStr_isDig _)), List.append_assoc, List.singleton_append,
      piecesFrom_delim _ _ _ _ (colon_not_dig hd), piecesFrom_last _ _ _ hc (by simpa using hm)]
    rfl
  unfold diagOf
  rw [hp]
  simp only [List.map_cons, List.map_nil, trim_digits (natStr_isDig _), trim_digits hd, atoi_natStr hn, lower_succ,
    atoi_digits hd h1]
  have : lower (readNat ds : Int) = (readNat ds - 1 : Nat) := by
    unfold lower; rw [if_pos (by omega)]; omega
  rw [this, if_pos (Or.inr (Or.inr (trim_ne_nil hs)))]

theorem diag_calm {ε : Type} {n : Nat} (hn : n + 1 ≤ 2147483647) {l m : Str} (h : Calm l m) :
    ∃ d, diagOf (ε := ε) (reword (n + 1) l m) = .ok (some d) ∧ d.line = n ∧ Says l m d.character d.message := by
  cases h with
  | @placed ds rest hne hd h0 h1 hc hs hi =>
    refine ⟨⟨n, (readNat ds - 1 : Nat), trim rest⟩, ?_, rfl, .placed hne hd h0 (trim_trimmed _)⟩
    have : reword (n + 1) l (c!"1:" ++ ds ++ c!":" ++ rest) = natStr (n + 1) ++ c!":" ++ (ds ++ c!":" ++ rest) := by
      unfold reword
      rw [cutAt_none (by simp) hi]
      simp [List.append_assoc]
    rw [this, diag_three hn hd h0 h1 hc hs]
  | plain hh hc hs hi =>
    have hne : m ≠ [] := by rintro rfl; simp at hs
    refine ⟨⟨n, 0, trim m⟩, ?_, rfl, .plain hne hh (trim_trimmed _)⟩
    have : reword (n + 1) l m = natStr (n + 1) ++ c!":" ++ (' ' :: m) := by
      unfold reword
      rw [cutAt_none (by simp) hi]
      simp only [hne, if_false, hh, List.append_assoc, List.cons_append, List.nil_append]
    rw [this, diag_two hn (by simp [hc]) (by obtain ⟨c, h1, h2⟩ := hs; exact ⟨c, by simp [h1], h2⟩), trim_space]
  | silent hc =>
    refine ⟨⟨n, 0, c!"'" ++ l ++ c!"'"⟩, ?_, rfl, .silent⟩
    have : reword (n + 1) l [] = natStr (n + 1) ++ c!":" ++ (' ' :: (c!"'" ++ l ++ c!"'")) := by
      unfold reword
      rw [cutAt_none (by simp) (by decide)]
      simp [List.append_assoc]
    rw [this, diag_two hn (by simp [hc]) ⟨'\'', by simp, by decide⟩, trim_space]
    have : trim (c!"'" ++ l ++ c!"'") = c!"'" ++ l ++ c!"'" := by
      refine (Trimmed.unique ?_ (trim_trimmed _)).symm
      refine ⟨⟨[], [], by simp, by simp, by simp⟩, ?_, ?_⟩
      · intro c hc; simp at hc; subst hc; decide
      · intro c hc; rw [List.getLast?_append] at hc; simp at hc; subst hc; decide
    rw [this]

end NC.Srv
