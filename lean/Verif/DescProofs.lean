import Verif.ServerProofs
import Verif.LinesProofs

/-!
# Lemmas about macro descriptions
-/

namespace NC.Srv
open NC NC.Spec.Server

/-! ## Tables -/

theorem find_emplace {α : Type} (m : List (Str × α)) (k k' : Str) (v : α) :
    find k' (emplace m k v) = (find k' m).or (if k' = k then some v else none) := by
  unfold emplace
  cases hk : find k m with
  | some x =>
    simp only
    by_cases h : k' = k
    · subst h; rw [hk]; rfl
    · rw [if_neg h]; simp
  | none =>
    simp only
    rw [find_append]
    by_cases h : k' = k
    · subst h; rw [hk]; simp [find]
    · rw [if_neg h]
      have : find k' [(k, v)] = none := by simp only [find, if_neg (fun q : k = k' => h q.symm)]
      rw [this]

theorem find_titles (tds : List (Str × Str)) (m : List (Str × (Str × Str))) (k k' : Str) :
    find k' (tds.foldl (fun d td => emplace d k td) m) = (find k' m).or (if k' = k then tds.head? else none) := by
  induction tds generalizing m with
  | nil => simp
  | cons t tds ih =>
    rw [List.foldl_cons, ih, find_emplace]
    by_cases h : k' = k
    · simp only [h, if_true, List.head?_cons]
      cases find k m <;> simp
    · simp [h]

theorem described_cons (e : Str × List (Str × Str)) (f : DescFile) (k : Str) :
    described (e :: f) k = (if e.1 = k then e.2.head? else none).or (described f k) := by
  unfold described
  rw [List.filterMap_cons]
  cases (if e.1 = k then e.2.head? else none) <;> simp

theorem described_append (f f' : DescFile) (k : Str) : described (f ++ f') k = (described f k).or (described f' k) := by
  induction f with
  | nil => simp [described]
  | cons e f ih => rw [List.cons_append, described_cons, ih, described_cons, Option.or_assoc]

theorem find_addMacros (f : DescFile) (m : MacroDesc) (k : Str) :
    find k (addMacros f m).desc = (find k m.desc).or (described f k) := by
  induction f generalizing m with
  | nil => simp [addMacros, described]
  | cons e f ih =>
    obtain ⟨c, tds⟩ := e
    rw [addMacros, ih, described_cons]
    simp only
    rw [find_titles, Option.or_assoc]
    by_cases h : k = c
    · simp [h]
    · simp only [if_neg h, if_neg (fun q : c = k => h q.symm), Option.none_or]

/-- The keys of the table are distinct. -/
def Keys {α : Type} (m : List (Str × α)) : Prop := (m.map Prod.fst).Nodup

theorem find_none_iff {α : Type} (m : List (Str × α)) (k : Str) : find k m = none ↔ k ∉ m.map Prod.fst := by
  induction m with
  | nil => simp [find]
  | cons e m ih =>
    simp only [find, List.map_cons, List.mem_cons, not_or]
    by_cases h : e.1 = k
    · simp [h]
    · rw [if_neg h, ih]; exact ⟨fun q => ⟨fun q' => h q'.symm, q⟩, fun q => q.2⟩

theorem Keys.emplace {α : Type} {m : List (Str × α)} (h : Keys m) (k : Str) (v : α) : Keys (emplace m k v) := by
  unfold Srv.emplace
  cases hk : find k m with
  | some x => exact h
  | none =>
    unfold Keys
    simp only [List.map_append, List.map_cons, List.map_nil]
    exact List.Nodup.append h (by simp) (by simpa using (find_none_iff m k).mp hk)

theorem Keys.addMacros {f : DescFile} {m : MacroDesc} (h : Keys m.desc) : Keys (addMacros f m).desc := by
  induction f generalizing m with
  | nil => exact h
  | cons e f ih =>
    obtain ⟨c, tds⟩ := e
    rw [Srv.addMacros]
    apply ih
    simp only
    clear ih
    generalize m.desc = d at h
    induction tds generalizing d with
    | nil => exact h
    | cons t tds ih2 => rw [List.foldl_cons]; exact ih2 _ (h.emplace c t)

theorem Keys.mem {α : Type} {m : List (Str × α)} (h : Keys m) {k : Str} {v : α} : (k, v) ∈ m ↔ find k m = some v := by
  induction m with
  | nil => simp [find]
  | cons e m ih =>
    obtain ⟨k', v'⟩ := e
    unfold Keys at h
    rw [List.map_cons, List.nodup_cons] at h
    simp only [find, List.mem_cons, Prod.mk.injEq]
    by_cases hk : k' = k
    · subst hk
      simp only [if_true, Option.some.injEq, true_and]
      constructor
      · rintro (q | q)
        · exact q.symm
        · exact absurd (List.mem_map_of_mem (f := Prod.fst) q) h.1
      · intro q; exact .inl q.symm
    · rw [if_neg hk, ← ih h.2]
      exact ⟨fun q => q.resolve_left (fun q => hk q.1.symm), .inr⟩

/-! ## Ranges in descriptions -/

theorem searchAny_sound {α : Type} {f : Str → Option α} {s : Str} {x : α} (h : searchAny f s = some x) :
    ∃ p q, s = p ++ q ∧ f q = some x := by
  induction s with
  | nil => exact ⟨[], [], rfl, h⟩
  | cons c s ih =>
    rw [searchAny] at h
    cases hf : f (c :: s) with
    | some a => rw [hf] at h; cases h; exact ⟨[], c :: s, rfl, hf⟩
    | none =>
      rw [hf] at h
      obtain ⟨p, q, rfl, hq⟩ := ih h
      exact ⟨c :: p, q, rfl, hq⟩

theorem searchAny_complete {α : Type} {f : Str → Option α} {p q : Str} (h : f q ≠ none) : searchAny f (p ++ q) ≠ none := by
  induction p with
  | nil =>
    cases q with
    | nil => exact h
    | cons c q =>
      rw [List.nil_append, searchAny]
      cases hf : f (c :: q) with
      | some a => simp
      | none => exact absurd hf h
  | cons c p ih =>
    rw [List.cons_append, searchAny]
    cases hf : f (c :: (p ++ q)) with
    | some a => simp
    | none => exact ih

theorem lit_some {p s r : Str} : lit p s = some r ↔ s = p ++ r := by
  unfold lit
  constructor
  · intro h
    split at h
    · next hp =>
      cases h
      obtain ⟨t, rfl⟩ := List.isPrefixOf_iff_prefix.mp hp
      simp
    · cases h
  · rintro rfl
    rw [if_pos (List.isPrefixOf_iff_prefix.mpr (List.prefix_append _ _))]
    simp

theorem takeDrop_digits {ds r : Str} (h : ∀ c ∈ ds, isDig c = true) (hr : NoDigit r) :
    (ds ++ r).takeWhile isDig = ds ∧ (ds ++ r).dropWhile isDig = r := by
  induction ds with
  | nil =>
    cases r with
    | nil => exact ⟨rfl, rfl⟩
    | cons c r => have := hr c r rfl; simp [this]
  | cons d ds ih =>
    have hd := h d (by simp)
    have := ih (fun c hc => h c (by simp [hc]))
    simp [hd, this]

theorem noDigit_dropWhile (r : Str) : NoDigit (r.dropWhile isDig) := by
  intro c t h
  have := List.head?_dropWhile_not isDig r
  rw [h] at this
  simpa using this

theorem digits_takeWhile {r : Str} (h : r.takeWhile isDig ≠ []) : Digits (r.takeWhile isDig) :=
  ⟨h, fun _ hc => mem_takeWhile hc⟩

theorem hashNum_some {s a r : Str} : hashNum s = some (a, r) ↔ s = '#' :: (a ++ r) ∧ Digits a ∧ NoDigit r := by
  constructor
  · intro h
    unfold hashNum at h
    split at h
    · next r' =>
      split at h
      · cases h
      · next hne =>
        cases h
        exact ⟨by rw [List.takeWhile_append_dropWhile], digits_takeWhile hne, noDigit_dropWhile _⟩
    · cases h
  · rintro ⟨rfl, hd, hn⟩
    have := takeDrop_digits hd.2 hn
    simp only [hashNum, this, if_neg hd.1]

theorem numPair_some {s a b r : Str} :
    numPair s = some ((a, b), r) ↔ s = '#' :: (a ++ c!"-#" ++ b ++ r) ∧ Digits a ∧ Digits b ∧ NoDigit r := by
  unfold numPair
  simp only [Option.bind_eq_bind, Option.bind_eq_some_iff, Option.pure_def, Option.some.injEq, Prod.mk.injEq, Prod.exists]
  constructor
  · rintro ⟨a', s1, h1, s2, h2, b', s3, h3, ⟨rfl, rfl⟩, rfl⟩
    rw [hashNum_some] at h1 h3
    rw [lit_some] at h2
    obtain ⟨rfl, d1, n1⟩ := h1
    obtain ⟨rfl, d2, n2⟩ := h3
    subst h2
    exact ⟨by simp, d1, d2, n2⟩
  · rintro ⟨rfl, d1, d2, n⟩
    refine ⟨a, c!"-#" ++ b ++ r, ?_, '#' :: (b ++ r), ?_, b, r, ?_, ⟨rfl, rfl⟩, rfl⟩
    · rw [hashNum_some]
      refine ⟨by simp, d1, ?_⟩
      intro c t h; cases h; decide
    · rw [lit_some]; simp
    · rw [hashNum_some]; exact ⟨rfl, d2, n⟩

theorem matchR1_some {s : Str} {l : List (Str × Str)} : matchR1 s = some l ↔
    ∃ a b r, s = c!"Range: " ++ '#' :: (a ++ c!"-#" ++ b ++ r) ∧ Digits a ∧ Digits b ∧ NoDigit r ∧ l = [(a, b)] := by
  unfold matchR1
  simp only [Option.bind_eq_bind, Option.bind_eq_some_iff, Option.pure_def, Option.some.injEq, Prod.exists, lit_some]
  constructor
  · rintro ⟨s1, rfl, a, b, r, h, rfl⟩
    obtain ⟨rfl, d1, d2, n⟩ := numPair_some.mp h
    exact ⟨a, b, r, rfl, d1, d2, n, rfl⟩
  · rintro ⟨a, b, r, rfl, d1, d2, n, rfl⟩
    exact ⟨_, rfl, a, b, r, numPair_some.mpr ⟨rfl, d1, d2, n⟩, rfl⟩

theorem matchR2_some {s : Str} {l : List (Str × Str)} : matchR2 s = some l ↔
    ∃ a b e f r, s = c!"Range: " ++ '#' :: (a ++ c!"-#" ++ b ++ c!" - #" ++ (e ++ c!"-#" ++ f ++ r)) ∧
      Digits a ∧ Digits b ∧ Digits e ∧ Digits f ∧ NoDigit r ∧ l = [(a, b), (e, f)] := by
  unfold matchR2
  simp only [Option.bind_eq_bind, Option.bind_eq_some_iff, Option.pure_def, Option.some.injEq, Prod.exists, lit_some]
  constructor
  · rintro ⟨s1, rfl, a, b, r, h, s2, rfl, e, f, r', h', rfl⟩
    obtain ⟨rfl, d1, d2, n⟩ := numPair_some.mp h
    obtain ⟨rfl, d3, d4, n'⟩ := numPair_some.mp h'
    exact ⟨a, b, e, f, r', by simp, d1, d2, d3, d4, n', rfl⟩
  · rintro ⟨a, b, e, f, r, rfl, d1, d2, d3, d4, n, rfl⟩
    refine ⟨_, rfl, a, b, c!" - #" ++ (e ++ c!"-#" ++ f ++ r), ?_, '#' :: (e ++ c!"-#" ++ f ++ r), by simp, e, f, r,
      numPair_some.mpr ⟨rfl, d3, d4, n⟩, rfl⟩
    rw [numPair_some]
    refine ⟨by simp, d1, d2, ?_⟩
    intro c t h; cases h; decide

theorem rangePairs_sound {d : Str} {p : Str × Str} (h : p ∈ rangePairs d) :
    Digits p.1 ∧ Digits p.2 ∧ Documents d (readNat p.1) (readNat p.2) := by
  unfold rangePairs at h
  cases h2 : searchAny matchR2 d with
  | some l =>
    rw [h2] at h
    obtain ⟨pre, q, rfl, hq⟩ := searchAny_sound h2
    obtain ⟨a, b, e, f, r, rfl, d1, d2, d3, d4, n, rfl⟩ := matchR2_some.mp hq
    simp only [Option.orElse_some, Option.getD_some, List.mem_cons, List.not_mem_nil, or_false] at h
    rcases h with rfl | rfl
    · refine ⟨d1, d2, ?_⟩
      have := Documents.one (pre := pre) (post := c!" - #" ++ (e ++ c!"-#" ++ f ++ r)) d1 d2 (by intro c t h; cases h; decide)
      simpa [List.append_assoc] using this
    · refine ⟨d3, d4, ?_⟩
      have := Documents.two (pre := pre) (post := r) d1 d2 d3 d4 n
      simpa [List.append_assoc] using this
  | none =>
    rw [h2] at h
    cases h1 : searchAny matchR1 d with
    | some l =>
      rw [h1] at h
      obtain ⟨pre, q, rfl, hq⟩ := searchAny_sound h1
      obtain ⟨a, b, r, rfl, d1, d2, n, rfl⟩ := matchR1_some.mp hq
      simp only [Option.orElse_none, Option.getD_some, List.mem_cons, List.not_mem_nil, or_false] at h
      subst h
      refine ⟨d1, d2, ?_⟩
      have := Documents.one (pre := pre) (post := r) d1 d2 n
      simpa [List.append_assoc] using this
    | none => rw [h1] at h; simp at h

/-- What a text begins with, read in one way only. -/
theorem numPair_unique {a b r a' b' r' : Str} (h : a ++ c!"-#" ++ b ++ r = a' ++ c!"-#" ++ b' ++ r')
    (d1 : Digits a) (d2 : Digits b) (n : NoDigit r) (d1' : Digits a') (d2' : Digits b') (n' : NoDigit r') :
    a = a' ∧ b = b' ∧ r = r' := by
  have e1 : numPair ('#' :: (a ++ c!"-#" ++ b ++ r)) = some ((a, b), r) := numPair_some.mpr ⟨rfl, d1, d2, n⟩
  have e2 : numPair ('#' :: (a' ++ c!"-#" ++ b' ++ r')) = some ((a', b'), r') := numPair_some.mpr ⟨rfl, d1', d2', n'⟩
  rw [h, e2] at e1
  cases e1
  exact ⟨rfl, rfl, rfl⟩

theorem rangePairs_complete {d : Str} {x y : Nat} (h : Documents d x y) (ho : OneRange d) :
    ∃ p ∈ rangePairs d, readNat p.1 = x ∧ readNat p.2 = y := by
  unfold rangePairs
  cases h with
  | @one pre post ds es d1 d2 n =>
    have e : pre ++ c!"Range: #" ++ ds ++ c!"-#" ++ es ++ post = pre ++ (c!"Range: " ++ '#' :: (ds ++ c!"-#" ++ es ++ post)) := by
      simp [List.append_assoc]
    cases h2 : searchAny matchR2 (pre ++ c!"Range: #" ++ ds ++ c!"-#" ++ es ++ post) with
    | some l =>
      obtain ⟨pre', q, he, hq⟩ := searchAny_sound h2
      obtain ⟨a, b, e', f, r, rfl, g1, g2, g3, g4, n', rfl⟩ := matchR2_some.mp hq
      have hp : pre = pre' := ho pre ('#' :: (ds ++ c!"-#" ++ es ++ post)) pre' _ (by rw [e]; simp [List.append_assoc])
        (he.trans (List.append_assoc _ _ _).symm)
      subst hp
      rw [e] at he
      have := List.append_cancel_left (List.append_cancel_left he)
      simp only [List.cons.injEq, true_and] at this
      rw [List.append_assoc _ c!" - #"] at this
      obtain ⟨rfl, rfl, -⟩ := numPair_unique this d1 d2 n g1 g2 (by intro c t h; cases h; decide)
      exact ⟨(ds, es), by simp, rfl, rfl⟩
    | none =>
      cases h1 : searchAny matchR1 (pre ++ c!"Range: #" ++ ds ++ c!"-#" ++ es ++ post) with
      | none =>
        exfalso
        rw [e] at h1
        refine searchAny_complete (f := matchR1) (p := pre) ?_ h1
        rw [matchR1_some.mpr ⟨ds, es, post, rfl, d1, d2, n, rfl⟩]
        simp
      | some l =>
        obtain ⟨pre', q, he, hq⟩ := searchAny_sound h1
        obtain ⟨a, b, r, rfl, g1, g2, n', rfl⟩ := matchR1_some.mp hq
        have hp : pre = pre' := ho pre ('#' :: (ds ++ c!"-#" ++ es ++ post)) pre' _ (by rw [e]; simp [List.append_assoc])
          (he.trans (List.append_assoc _ _ _).symm)
        subst hp
        rw [e] at he
        have := List.append_cancel_left (List.append_cancel_left he)
        simp only [List.cons.injEq, true_and] at this
        obtain ⟨rfl, rfl, -⟩ := numPair_unique this d1 d2 n g1 g2 n'
        exact ⟨(ds, es), by simp, rfl, rfl⟩
  | @two pre post ds es fs gs d1 d2 d3 d4 n =>
    have e : pre ++ c!"Range: #" ++ ds ++ c!"-#" ++ es ++ c!" - #" ++ fs ++ c!"-#" ++ gs ++ post =
        pre ++ (c!"Range: " ++ '#' :: (ds ++ c!"-#" ++ es ++ c!" - #" ++ (fs ++ c!"-#" ++ gs ++ post))) := by
      simp [List.append_assoc]
    cases h2 : searchAny matchR2 (pre ++ c!"Range: #" ++ ds ++ c!"-#" ++ es ++ c!" - #" ++ fs ++ c!"-#" ++ gs ++ post) with
    | none =>
      exfalso
      rw [e] at h2
      refine searchAny_complete (f := matchR2) (p := pre) ?_ h2
      rw [matchR2_some.mpr ⟨ds, es, fs, gs, post, rfl, d1, d2, d3, d4, n, rfl⟩]
      simp
    | some l =>
      obtain ⟨pre', q, he, hq⟩ := searchAny_sound h2
      obtain ⟨a, b, e', f, r, rfl, g1, g2, g3, g4, n', rfl⟩ := matchR2_some.mp hq
      have hp : pre = pre' := ho pre _ pre' _ (by rw [e, ← List.append_assoc]) (he.trans (List.append_assoc _ _ _).symm)
      subst hp
      rw [e] at he
      have := List.append_cancel_left (List.append_cancel_left he)
      simp only [List.cons.injEq, true_and, List.append_assoc] at this
      have k : ds ++ c!"-#" ++ es ++ (c!" - #" ++ (fs ++ c!"-#" ++ gs ++ post)) = a ++ c!"-#" ++ b ++ (c!" - #" ++ (e' ++ c!"-#" ++ f ++ r)) := by
        simpa [List.append_assoc] using this
      obtain ⟨rfl, rfl, k3⟩ := numPair_unique k d1 d2 (by intro c t h; cases h; decide) g1 g2 (by intro c t h; cases h; decide)
      have k2 := List.append_cancel_left (as := c!" - #") k3
      obtain ⟨rfl, rfl, -⟩ := numPair_unique k2 d3 d4 n g3 g4 n'
      exact ⟨(fs, gs), by simp, rfl, rfl⟩

/-! ## The table of ranges -/

theorem rangesOf_mem {b : Bool} {k : Str} {ps : List (Str × Str)} {l : List ((Int × Int) × Str)}
    (h : rangesOf b k ps = .ok l) (r : (Int × Int) × Str) :
    r ∈ l ↔ r.2 = k ∧ ∃ p ∈ ps, stoi p.1 = .ok r.1.1 ∧ stoi p.2 = .ok r.1.2 := by
  induction ps generalizing l with
  | nil => cases h; simp
  | cons p ps ih =>
    simp only [rangesOf, Out.bind_eq_ok] at h
    obtain ⟨a, h1, b', h2, h⟩ := h
    cases h
    rw [List.mem_append, ih h2]
    have : r ∈ a ↔ r.2 = k ∧ stoi p.1 = .ok r.1.1 ∧ stoi p.2 = .ok r.1.2 := by
      unfold rangeOf at h1
      obtain ⟨⟨x, y⟩, k'⟩ := r
      cases e1 : stoi p.1 with
      | ok u =>
        rw [e1] at h1
        cases e2 : stoi p.2 with
        | ok v =>
          rw [e2] at h1
          cases h1
          simp only [List.mem_singleton, Prod.mk.injEq, Out.ok.injEq]
          constructor
          · rintro ⟨⟨rfl, rfl⟩, rfl⟩; exact ⟨rfl, rfl, rfl⟩
          · rintro ⟨rfl, rfl, rfl⟩; exact ⟨⟨rfl, rfl⟩, rfl⟩
        | throw e => rw [e2] at h1; cases b <;> cases h1; simp
        | ub => rw [e2] at h1; cases b <;> cases h1; simp
      | throw e => rw [e1] at h1; cases b <;> cases h1; simp
      | ub => rw [e1] at h1; cases b <;> cases h1; simp
    rw [this]
    simp only [List.mem_cons, exists_eq_or_imp]
    tauto

theorem readRanges_mem {b : Bool} {m : List (Str × (Str × Str))} {l : List ((Int × Int) × Str)}
    (h : readRanges b m = .ok l) (r : (Int × Int) × Str) :
    r ∈ l ↔ ∃ t d, (r.2, t, d) ∈ m ∧ ∃ p ∈ rangePairs d, stoi p.1 = .ok r.1.1 ∧ stoi p.2 = .ok r.1.2 := by
  induction m generalizing l with
  | nil => cases h; simp
  | cons e m ih =>
    obtain ⟨k, t, d⟩ := e
    simp only [readRanges, Out.bind_eq_ok] at h
    obtain ⟨a, h1, b', h2, h⟩ := h
    cases h
    rw [List.mem_append, rangesOf_mem h1, ih h2]
    constructor
    · rintro (⟨rfl, p, hp, h⟩ | ⟨t', d', hm, h⟩)
      · exact ⟨t, d, by simp, p, hp, h⟩
      · exact ⟨t', d', List.mem_cons_of_mem _ hm, h⟩
    · rintro ⟨t', d', hm, p, hp, h⟩
      rcases List.mem_cons.mp hm with q | q
      · cases q; exact .inl ⟨rfl, p, hp, h⟩
      · exact .inr ⟨t', d', q, p, hp, h⟩

/-- The loaded descriptions, in terms of the files. -/
theorem readMacros_table {b : Bool} {fu : Option DescFile} {fb : DescFile} {md : MacroDesc}
    (hM : readMacros b (fu.map File.good) (.good fb) = .ok (md, none)) :
    Keys md.desc ∧ (∀ k, find k md.desc = described (fu.getD [] ++ fb) k) ∧ readRanges b md.desc = .ok md.ranges := by
  have hu : ∃ u : MacroDesc, Keys u.desc ∧ (∀ k, find k u.desc = described (fu.getD []) k) ∧
      md.desc = (addMacros fb u).desc ∧ readRanges b md.desc = .ok md.ranges := by
    cases fu with
    | none =>
      refine ⟨{}, List.nodup_nil, fun k => rfl, ?_⟩
      unfold readMacros at hM
      simp only [Option.map_none, Out.bind_eq_ok] at hM
      obtain ⟨r, hr, hM⟩ := hM
      cases hM; exact ⟨rfl, hr⟩
    | some d =>
      refine ⟨addMacros d {}, Keys.addMacros List.nodup_nil, fun k => ?_, ?_⟩
      · rw [find_addMacros]; rfl
      · unfold readMacros at hM
        simp only [Option.map_some, Out.bind_eq_ok] at hM
        obtain ⟨r, hr, hM⟩ := hM
        cases hM; exact ⟨rfl, hr⟩
  obtain ⟨u, hk, hf, he, hr⟩ := hu
  refine ⟨by rw [he]; exact hk.addMacros, fun k => ?_, hr⟩
  rw [he, find_addMacros, hf, described_append]

end NC.Srv
