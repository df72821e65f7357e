import Verif.Net
import Verif.Spec.Net
import Verif.Props.Wrapper

/-! # Lemmas on the .NET side of the interface -/

namespace NC.Net
open NC NC.Wrap NC.Props NC.Spec.Net

theorem bind_ok {ε α β : Type} (a : α) (f : α → Out ε β) : (Out.ok a).bind f = f a := rfl

/-! ## UTF-8 -/

theorem ofNat_toNat (c : Char) : Char.ofNat c.toNat = c := by simp

theorem decode_lead {a : Char} {j m : Nat} (h : lead a.toNat = some (j + 1, m)) (r : Str) : decode 0 0 (a :: r) = decode (j + 1) m r := by
  simp only [decode]
  rw [if_neg (by simp), h]
  rfl

theorem decode_cont {a : Char} (k acc : Nat) {b : Nat} (h : a.toNat = 128 + b) (hb : b < 64) (r : Str) :
    decode (k + 2) acc (a :: r) = decode (k + 1) (acc * 64 + b) r := by
  simp only [decode]
  rw [if_pos (by omega), if_neg (by omega), show a.toNat - 128 = b by omega]
  rfl

theorem decode_last {a : Char} (acc : Nat) {b : Nat} (h : a.toNat = 128 + b) (hb : b < 64) (r : Str) :
    decode 1 acc (a :: r) = Char.ofNat (acc * 64 + b) :: decode 0 0 r := by
  simp only [decode]
  rw [if_pos (by omega), show a.toNat - 128 = b by omega]
  simp

theorem decode_char {c : Char} {x : List Nat} (h : Utf8Char c x) (s : Str) (hs : s.map Char.toNat = x) (r : Str) :
    decode 0 0 (s ++ r) = c :: decode 0 0 r := by
  have val : c.toNat < 0x110000 := by
    have := c.valid
    simp only [UInt32.isValidChar, Nat.isValidChar] at this
    show c.val.toNat < _
    omega
  have hc := ofNat_toNat c
  cases h with
  | one h1 =>
    obtain ⟨a, l0, rfl, g0, hs⟩ := List.map_eq_cons_iff.mp hs
    obtain rfl := List.map_eq_nil_iff.mp hs
    have hs := g0
    show decode 0 0 (a :: r) = _
    simp only [decode, hs, lead]
    simp [h1]
  | @two a b h1 h2 h3 h4 =>
    obtain ⟨p, l0, rfl, g0, hs⟩ := List.map_eq_cons_iff.mp hs
    obtain ⟨q, l1, rfl, g1, hs⟩ := List.map_eq_cons_iff.mp hs
    obtain rfl := List.map_eq_nil_iff.mp hs
    have hs := And.intro g0 (g1)
    have e1 : lead p.toNat = some (0 + 1, a) := by
      rw [hs.1]
      unfold lead
      rw [if_neg (by omega), if_neg (by omega), if_pos (by omega)]
      simp
    show decode 0 0 (p :: q :: r) = _
    rw [decode_lead e1, decode_last _ hs.2 h2, show a * 64 + b = c.toNat by omega, hc]
  | @three a b d h1 h2 h3 h4 h5 =>
    obtain ⟨p, l0, rfl, g0, hs⟩ := List.map_eq_cons_iff.mp hs
    obtain ⟨q, l1, rfl, g1, hs⟩ := List.map_eq_cons_iff.mp hs
    obtain ⟨t, l2, rfl, g2, hs⟩ := List.map_eq_cons_iff.mp hs
    obtain rfl := List.map_eq_nil_iff.mp hs
    have hs := And.intro g0 ( And.intro g1 (g2))
    have e1 : lead p.toNat = some (1 + 1, a) := by
      rw [hs.1]
      unfold lead
      rw [if_neg (by omega), if_neg (by omega), if_neg (by omega), if_pos (by omega)]
      simp
    show decode 0 0 (p :: q :: t :: r) = _
    rw [decode_lead e1, decode_cont 0 _ hs.2.1 h2, decode_last _ hs.2.2 h3, show (a * 64 + b) * 64 + d = c.toNat by omega, hc]
  | @four a b d e h1 h2 h3 h4 h5 h6 =>
    obtain ⟨p, l0, rfl, g0, hs⟩ := List.map_eq_cons_iff.mp hs
    obtain ⟨q, l1, rfl, g1, hs⟩ := List.map_eq_cons_iff.mp hs
    obtain ⟨t, l2, rfl, g2, hs⟩ := List.map_eq_cons_iff.mp hs
    obtain ⟨u, l3, rfl, g3, hs⟩ := List.map_eq_cons_iff.mp hs
    obtain rfl := List.map_eq_nil_iff.mp hs
    have hs := And.intro g0 ( And.intro g1 ( And.intro g2 (g3)))
    have e1 : lead p.toNat = some (2 + 1, a) := by
      rw [hs.1]
      unfold lead
      rw [if_neg (by omega), if_neg (by omega), if_neg (by omega), if_neg (by omega), if_pos (by omega)]
      simp
    show decode 0 0 (p :: q :: t :: u :: r) = _
    rw [decode_lead e1, decode_cont 1 _ hs.2.1 h2, decode_cont 0 _ hs.2.2.1 h3, decode_last _ hs.2.2.2 h4,
      show ((a * 64 + b) * 64 + d) * 64 + e = c.toNat by omega, hc]

theorem fromUtf8_of {t : Str} {b : List Nat} (h : Utf8 t b) : ∀ s : Str, s.map Char.toNat = b → fromUtf8 s = t := by
  induction h with
  | nil =>
    intro s hs
    rw [List.map_eq_nil_iff.mp hs]; rfl
  | @cons c t x y h1 _ ih =>
    intro s hs
    obtain ⟨s1, s2, rfl, k1, k2⟩ := List.map_eq_append_iff.mp hs
    unfold fromUtf8
    rw [decode_char h1 s1 k1]
    exact congrArg (c :: ·) (ih s2 k2)

/-- The code page of a platform. -/
def page : Platform → Option (Char → Char)
  | .linux => none
  | .windows _ dec => some dec

theorem fromNative_of {pl : Platform} {s t : Str} (h : Text (page pl) s t) : fromNative pl s = t := by
  cases pl with
  | linux => exact fromUtf8_of h.2 s rfl
  | windows enc dec => exact h.2

theorem upTo_eq {s : Str} (h : '\x00' ∉ s) : s.takeWhile (fun c => decide (c ≠ '\x00')) = s := upToNul_eq h

/-! ## Memory -/

theorem bytesAt_at (A : Heap) (s : Str) (B : Heap) (h : '\x00' ∉ s) : bytesAt (A ++ some (.chars s) :: B) (.addr A.length) = .ok s := by
  unfold bytesAt
  rw [cell_at]
  exact congrArg Out.ok (upTo_eq h)

theorem textAt_at {pl : Platform} (A : Heap) {s t : Str} (B : Heap) (h : Text (page pl) s t) :
    textAt pl (A ++ some (.chars s) :: B) (.addr A.length) = .ok (some t) := by
  unfold textAt
  simp only
  rw [bytesAt_at A s B h.1, bind_ok, fromNative_of h]

/-- The words in memory as texts. -/
def Words (pl : Platform) (v : Block) (ws : List (Str × Str)) : Prop :=
  List.Forall₂ (fun a w => Text (page pl) a.word w.1 ∧ Text (page pl) (Spec.Source.value a) w.2) v ws

def given (ws : List (Str × Str)) : List NetWord := ws.map (fun w => (some w.1, some w.2))

theorem wordsAt_eq {pl : Platform} {v : Block} {ws : List (Str × Str)} (h : Words pl v ws) :
    ∀ (A B : Heap) (rest : List (Ptr × Ptr)), wordsAt pl (A ++ wordCells v ++ B) v.length (wordPtrs A.length v ++ rest) = .ok (given ws, rest) := by
  induction h with
  | nil => intro A B rest; rfl
  | @cons a w v ws h1 _ ih =>
    intro A B rest
    have e1 : A ++ wordCells (a :: v) ++ B = A ++ some (.chars a.word) :: (some (.chars (valueText a)) :: wordCells v ++ B) := by
      simp [wordCells]
    have e2 : A ++ wordCells (a :: v) ++ B =
        (A ++ [some (.chars a.word)]) ++ some (.chars (valueText a)) :: (wordCells v ++ B) := by simp [wordCells]
    have e3 : A ++ wordCells (a :: v) ++ B = (A ++ [some (.chars a.word), some (.chars (valueText a))]) ++ wordCells v ++ B := by
      simp [wordCells]
    have t1 : textAt pl (A ++ wordCells (a :: v) ++ B) (.addr A.length) = .ok (some w.1) := by
      rw [e1]; exact textAt_at A _ h1.1
    have t2 : textAt pl (A ++ wordCells (a :: v) ++ B) (.addr (A.length + 1)) = .ok (some w.2) := by
      rw [e2, show A.length + 1 = (A ++ [some (Obj.chars a.word)]).length by simp]
      exact textAt_at _ _ (by rw [valueText_eq]; exact h1.2)
    have t3 : wordsAt pl (A ++ wordCells (a :: v) ++ B) v.length (wordPtrs (A.length + 2) v ++ rest) = .ok (given ws, rest) := by
      rw [e3, show A.length + 2 = (A ++ [some (Obj.chars a.word), some (Obj.chars (valueText a))]).length by simp]
      exact ih _ B rest
    show wordsAt pl _ (v.length + 1) ((.addr A.length, .addr (A.length + 1)) :: (wordPtrs (A.length + 2) v ++ rest)) = _
    simp only [wordsAt]
    rw [t1, bind_ok, t2, bind_ok, t3, bind_ok]
    rfl

theorem message_eq (h : Heap) {m t : Str} (hm : '\x00' ∉ m) (ht : Utf8 t (m.map Char.toNat)) :
    ∃ k, message ((fillMessage h m .null).1) (fillMessage h m .null).2 = .ok (h ++ List.replicate k none, t) := by
  unfold fillMessage
  by_cases h0 : m = []
  · subst h0
    rw [if_pos rfl]
    have : t = [] := (fromUtf8_of ht [] rfl).symm
    exact ⟨0, by simp [message, this]⟩
  · rw [if_neg h0]
    refine ⟨1, ?_⟩
    simp only [alloc, message]
    rw [bytesAt_at h m [] hm, bind_ok, release_at, bind_ok, fromUtf8_of ht m rfl]
    rfl

theorem takeWords_eq {pl : Platform} {v : Block} {ws : List (Str × Str)} (h : Words pl v ws) (A B : Heap) :
    ∃ k, takeWords pl ((fillWords A v .null 0).1 ++ B) (fillWords A v .null 0).2.1 (fillWords A v .null 0).2.2 =
      .ok (A ++ List.replicate k none ++ B, given ws) := by
  obtain ⟨k, _, hk⟩ := C40_words_released A B v
  by_cases hv : v = []
  · subst hv
    cases h
    exact ⟨0, by simp [takeWords, fillWords, given]⟩
  · refine ⟨k, ?_⟩
    rw [fillWords_ne A .null 0 hv] at hk ⊢
    simp only at hk ⊢
    have e : A ++ wordCells v ++ [some (.words (wordPtrs A.length v))] ++ B =
        (A ++ wordCells v) ++ some (.words (wordPtrs A.length v)) :: B := by simp
    rw [e] at hk ⊢
    unfold takeWords
    rw [if_neg (fun h0 => hv (List.length_eq_zero_iff.mp h0)), cell_at]
    simp only
    have hw := wordsAt_eq h A (some (.words (wordPtrs A.length v)) :: B) []
    rw [List.append_nil] at hw
    rw [hw, bind_ok, hk, bind_ok]

/-! ## Dictionaries -/

theorem entry_put (d : List ((Int × Int) × ℚ)) (k : Int × Int) (v : ℚ) (x : Int × Int) :
    entry (put d k v) x = if x = k then some v else entry d x := by
  induction d with
  | nil =>
    by_cases h : x = k
    · simp [put, entry, h]
    · have : ¬ k = x := fun h' => h h'.symm
      simp [put, entry, h, this]
  | cons e t ih =>
    unfold put
    by_cases h1 : e.1 = k
    · rw [if_pos h1]
      by_cases h : x = k
      · simp [entry, h]
      · have h2 : ¬ k = x := fun h' => h h'.symm
        have h3 : ¬ e.1 = x := by rw [h1]; exact h2
        simp [entry, h, h2, h3]
    · rw [if_neg h1]
      by_cases h2 : e.1 = x
      · have : ¬ x = k := by rw [← h2]; exact h1
        simp [entry, h2, this]
      · simp only [entry] at ih ⊢
        rw [List.find?_cons_of_neg (by simpa using h2), List.find?_cons_of_neg (by simpa using h2)]
        exact ih

theorem entry_none {d : List ((Int × Int) × ℚ)} {k : Int × Int} (h : ∀ e ∈ d, e.1 ≠ k) : entry d k = none := by
  unfold entry
  rw [List.find?_eq_none.mpr (by intro e he; simpa using h e he)]
  rfl

theorem entry_putAll (x : Int × Int) : ∀ (es : List ((Int × Int) × ℚ)) (d : List ((Int × Int) × ℚ)), (es.map (·.1)).Nodup →
    entry (putAll d (es.map (·.1)) (es.map (·.2))) x = (entry es x).or (entry d x) := by
  intro es
  induction es with
  | nil => intro d _; simp [putAll, entry]
  | cons e es ih =>
    intro d hn
    rw [List.map_cons, List.nodup_cons] at hn
    simp only [List.map_cons, putAll]
    rw [ih _ hn.2, entry_put]
    by_cases h : x = e.1
    · subst h
      have h0 : entry es e.1 = none := by
        refine entry_none ?_
        intro y hy he
        exact hn.1 (List.mem_map.mpr ⟨y, hy, he⟩)
      rw [h0]
      simp [entry]
    · have h2 : ¬ e.1 = x := fun h' => h h'.symm
      rw [if_neg h]
      congr 1
      simp [entry, h2]

theorem entry_mem {es : List ((Int × Int) × ℚ)} (hn : (es.map (·.1)).Nodup) {e : (Int × Int) × ℚ} (he : e ∈ es) :
    entry es e.1 = some e.2 := by
  induction es with
  | nil => cases he
  | cons a es ih =>
    rw [List.map_cons, List.nodup_cons] at hn
    rcases List.mem_cons.mp he with rfl | he
    · simp [entry]
    · have : ¬ a.1 = e.1 := fun h => hn.1 (List.mem_map.mpr ⟨e, he, h.symm⟩)
      simp only [entry] at ih ⊢
      rw [List.find?_cons_of_neg (by simpa using this)]
      exact ih hn.2 he

/-! ## Parts -/

theorem blocksAt_eq {pl : Platform} {bs : List Block} {ws : List (List (Str × Str))} (h : List.Forall₂ (Words pl) bs ws) :
    ∀ (A B : Heap) (vv : List Int) (rest : List (Ptr × Ptr)),
    blocksAt pl (A ++ wordCells bs.flatten ++ B) bs.length (bs.map (fun b => (b.length : Int)) ++ vv) (wordPtrs A.length bs.flatten ++ rest) =
      .ok (ws.map given, vv, rest) := by
  induction h with
  | nil => intro A B vv rest; simp [blocksAt, wordPtrs]
  | @cons b w bs ws h1 _ ih =>
    intro A B vv rest
    simp only [List.flatten_cons, List.length_cons, List.map_cons, List.cons_append, blocksAt, Int.toNat_natCast]
    rw [wordPtrs_append, List.append_assoc (wordPtrs A.length b)]
    have e1 : A ++ wordCells (b ++ bs.flatten) ++ B = A ++ wordCells b ++ (wordCells bs.flatten ++ B) := by
      rw [wordCells_append]; simp
    have e2 : A ++ wordCells (b ++ bs.flatten) ++ B = (A ++ wordCells b) ++ wordCells bs.flatten ++ B := by
      rw [wordCells_append]; simp
    have t1 : wordsAt pl (A ++ wordCells (b ++ bs.flatten) ++ B) b.length
        (wordPtrs A.length b ++ (wordPtrs (A.length + 2 * b.length) bs.flatten ++ rest)) =
        .ok (given w, wordPtrs (A.length + 2 * b.length) bs.flatten ++ rest) := by
      rw [e1]; exact wordsAt_eq h1 A _ _
    rw [t1, bind_ok, e2, show A.length + 2 * b.length = (A ++ wordCells b).length by simp [wordCells_length], ih, bind_ok]

theorem partsAt_eq {pl : Platform} {r : List (List Block)} {ws : List (List (List (Str × Str)))}
    (h : List.Forall₂ (List.Forall₂ (Words pl)) r ws) : ∀ (A B : Heap),
    partsAt pl (A ++ wordCells r.flatten.flatten ++ B) (r.map (fun p => (p.length : Int))) (r.flatten.map (fun b => (b.length : Int)))
      (wordPtrs A.length r.flatten.flatten) = .ok (ws.map (List.map given)) := by
  induction h with
  | nil => intro A B; rfl
  | @cons p w r ws h1 _ ih =>
    intro A B
    simp only [List.flatten_cons, List.flatten_append, List.map_cons, List.map_append, partsAt, Int.toNat_natCast]
    rw [wordPtrs_append]
    have e1 : A ++ wordCells (p.flatten ++ r.flatten.flatten) ++ B = A ++ wordCells p.flatten ++ (wordCells r.flatten.flatten ++ B) := by
      rw [wordCells_append]; simp
    have e2 : A ++ wordCells (p.flatten ++ r.flatten.flatten) ++ B = (A ++ wordCells p.flatten) ++ wordCells r.flatten.flatten ++ B := by
      rw [wordCells_append]; simp
    have t1 : blocksAt pl (A ++ wordCells (p.flatten ++ r.flatten.flatten) ++ B) p.length
        (p.map (fun b => (b.length : Int)) ++ r.flatten.map (fun b => (b.length : Int)))
        (wordPtrs A.length p.flatten ++ wordPtrs (A.length + 2 * p.flatten.length) r.flatten.flatten) =
        .ok (w.map given, r.flatten.map (fun b => (b.length : Int)), wordPtrs (A.length + 2 * p.flatten.length) r.flatten.flatten) := by
      rw [e1]; exact blocksAt_eq h1 A _ _ _
    rw [t1, bind_ok]
    simp only
    rw [e2, show A.length + 2 * p.flatten.length = (A ++ wordCells p.flatten).length by simp [wordCells_length], ih, bind_ok]

theorem sum_lengths (r : List (List Block)) : (r.map (fun p => (p.length : Int))).sum.toNat = r.flatten.length := by
  have : (r.map (fun p => (p.length : Int))).sum = (r.flatten.length : Int) := by
    induction r with
    | nil => rfl
    | cons p r ih => simp [ih]
  rw [this]; rfl

/-! ## Texts -/

theorem textsAt_eq {pl : Platform} {ss ts : List Str} (h : List.Forall₂ (Text (page pl)) ss ts) : ∀ (A B : Heap),
    textsAt pl (A ++ ss.map (fun s => some (.chars s)) ++ B) ((List.range ss.length).map (fun i => .addr (A.length + i))) =
      .ok (ts.map some) := by
  induction h with
  | nil => intro A B; rfl
  | @cons s t ss ts h1 _ ih =>
    intro A B
    have e3 : (List.range (s :: ss).length).map (fun i => Ptr.addr (A.length + i)) =
        .addr A.length :: (List.range ss.length).map (fun i => .addr ((A ++ [some (Obj.chars s)]).length + i)) := by
      rw [List.length_cons, List.range_succ_eq_map, List.map_cons, List.map_map]
      congr 1
      apply List.map_congr_left
      intro i _
      simp only [Function.comp, List.length_append, List.length_singleton]
      congr 1; omega
    have e1 : A ++ (s :: ss).map (fun s => some (Obj.chars s)) ++ B = A ++ some (.chars s) :: (ss.map (fun s => some (.chars s)) ++ B) := by
      simp
    have e2 : A ++ (s :: ss).map (fun s => some (Obj.chars s)) ++ B = (A ++ [some (.chars s)]) ++ ss.map (fun s => some (.chars s)) ++ B := by
      simp
    have t1 : textAt pl (A ++ (s :: ss).map (fun s => some (Obj.chars s)) ++ B) (.addr A.length) = .ok (some t) := by
      rw [e1]; exact textAt_at A _ h1
    rw [e3]
    simp only [textsAt]
    rw [t1, bind_ok, e2, ih, bind_ok]
    rfl

/-! ## Path values -/

theorem totalsAt_at {pl : Platform} (A B : Heap) {s t : Str} (l : List ℚ) (h : Text (page pl) s t) :
    totalsAt pl (A ++ some (.chars s) :: some (.totals l (.addr A.length)) :: B) (.addr (A.length + 1)) = .ok (l, some t) := by
  unfold totalsAt
  simp only
  have e : A ++ some (.chars s) :: some (.totals l (.addr A.length)) :: B =
      (A ++ [some (.chars s)]) ++ some (.totals l (.addr A.length)) :: B := by simp
  have c : cell (A ++ some (.chars s) :: some (.totals l (.addr A.length)) :: B) (.addr (A.length + 1)) = some (.totals l (.addr A.length)) := by
    rw [e, show A.length + 1 = (A ++ [some (Obj.chars s)]).length by simp, cell_at]
  rw [c]
  simp only
  rw [textAt_at A _ h, bind_ok]

theorem disposeTotals_at (A B : Heap) (s : Str) (l : List ℚ) :
    disposeTotals (A ++ some (.chars s) :: some (.totals l (.addr A.length)) :: B) (.addr (A.length + 1)) = .ok (A ++ none :: none :: B) := by
  have e : A ++ some (.chars s) :: some (.totals l (.addr A.length)) :: B =
      (A ++ [some (.chars s)]) ++ some (.totals l (.addr A.length)) :: B := by simp
  have c : cell (A ++ some (.chars s) :: some (.totals l (.addr A.length)) :: B) (.addr (A.length + 1)) = some (.totals l (.addr A.length)) := by
    rw [e, show A.length + 1 = (A ++ [some (Obj.chars s)]).length by simp, cell_at]
  unfold disposeTotals
  simp only
  rw [c]
  simp only
  rw [release_at]
  simp only
  have e2 : A ++ none :: some (Obj.totals l (.addr A.length)) :: B = (A ++ [none]) ++ some (.totals l (.addr A.length)) :: B := by simp
  rw [e2, show A.length + 1 = (A ++ [(none : Option Obj)]).length by simp, release_at]
  simp

/-- The pointers to the words of ranges. -/
def rangePtrs (n : Nat) : List (Str × ℚ × ℚ × ℚ) → List (Ptr × ℚ × ℚ × ℚ)
  | [] => []
  | e :: t => (.addr n, e.2) :: rangePtrs (n + 1) t

theorem mkRanges_eq (w : List (Str × ℚ × ℚ × ℚ)) : ∀ h : Heap,
    mkRanges h w = (h ++ w.map (fun e => some (.chars e.1)), rangePtrs h.length w) := by
  induction w with
  | nil => intro h; simp [mkRanges, rangePtrs]
  | cons e t ih => intro h; simp [mkRanges, rangePtrs, alloc, ih]

theorem rangesAt_eq {pl : Platform} {w : List (Str × ℚ × ℚ × ℚ)} {u : List (Str × ℚ × ℚ × ℚ)}
    (h : List.Forall₂ (fun a b : Str × ℚ × ℚ × ℚ => Text (page pl) a.1 b.1 ∧ a.2 = b.2) w u) : ∀ (A B : Heap),
    rangesAt pl (A ++ w.map (fun e => some (.chars e.1)) ++ B) w.length (rangePtrs A.length w) = .ok (u.map (fun e => (some e.1, e.2))) := by
  induction h with
  | nil => intro A B; rfl
  | @cons a b w u h1 _ ih =>
    intro A B
    have e1 : A ++ (a :: w).map (fun e => some (Obj.chars e.1)) ++ B = A ++ some (.chars a.1) :: (w.map (fun e => some (.chars e.1)) ++ B) := by
      simp
    have e2 : A ++ (a :: w).map (fun e => some (Obj.chars e.1)) ++ B = (A ++ [some (.chars a.1)]) ++ w.map (fun e => some (.chars e.1)) ++ B := by
      simp
    have t1 : textAt pl (A ++ (a :: w).map (fun e => some (Obj.chars e.1)) ++ B) (.addr A.length) = .ok (some b.1) := by
      rw [e1]; exact textAt_at A _ h1.1
    simp only [rangePtrs, List.length_cons, rangesAt]
    rw [t1, bind_ok, e2, show A.length + 1 = (A ++ [some (Obj.chars a.1)]).length by simp, ih, bind_ok, h1.2]
    rfl

theorem freeRanges_eq (w : List (Str × ℚ × ℚ × ℚ)) : ∀ (A B : Heap),
    freeRanges (A ++ w.map (fun e => some (.chars e.1)) ++ B) w.length (rangePtrs A.length w) = .ok (A ++ List.replicate w.length none ++ B) := by
  induction w with
  | nil => intro A B; simp [freeRanges]
  | cons a w ih =>
    intro A B
    have e1 : A ++ (a :: w).map (fun e => some (Obj.chars e.1)) ++ B = A ++ some (.chars a.1) :: (w.map (fun e => some (.chars e.1)) ++ B) := by
      simp
    have e2 : A ++ none :: (w.map (fun e => some (Obj.chars e.1)) ++ B) = (A ++ [none]) ++ w.map (fun e => some (.chars e.1)) ++ B := by
      simp
    rw [e1]
    simp only [rangePtrs, List.length_cons, freeRanges]
    rw [release_at]
    simp only
    rw [e2, show A.length + 1 = (A ++ [(none : Option Obj)]).length by simp, ih]
    simp [List.replicate_succ]

end NC.Net
