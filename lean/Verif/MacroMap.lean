import Verif.Base

/-!
# Macro variable table (parser/fanuc/MacroDefines.h)

`std::map<macro_map_key, double, macro_map_key_cmp>` as a list sorted by the
code's comparator, with the operations the code uses: `lower_bound`, `emplace`
and `insert_or_assign`.
-/

namespace NC

/-- `macro_map_key` (MacroDefines.h:10-14). -/
structure MKey where
  id : Nat
  line : Int
deriving DecidableEq, Repr

/-- `macro_map_key_cmp` (MacroDefines.h:16-26), same case order as the code. -/
def mcmp (l r : MKey) : Bool :=
  if l.id < r.id then false
  else if l.id = r.id ∧ l.line ≤ r.line then false
  else true

/-- The in-order contents of the `macro_map` (MacroDefines.h:28). -/
abbrev MacroMap (V : Type) := List (MKey × V)

namespace MacroMap
variable {V : Type}

/-- `std::map::lower_bound`: first entry whose key is not before `k`. -/
def lowerBound (m : MacroMap V) (k : MKey) : Option (MKey × V) :=
  m.find? (fun e => !mcmp e.1 k)

/-- `std::map::emplace`: keeps an existing entry with an equivalent key. -/
def emplace : MacroMap V → MKey → V → MacroMap V
  | [], k, v => [(k, v)]
  | e :: m, k, v =>
    if mcmp e.1 k then e :: emplace m k v
    else if mcmp k e.1 then (k, v) :: e :: m
    else e :: m

/-- `std::map::insert_or_assign`: replaces the value of an equivalent key. -/
def assign : MacroMap V → MKey → V → MacroMap V
  | [], k, v => [(k, v)]
  | e :: m, k, v =>
    if mcmp e.1 k then e :: assign m k v
    else if mcmp k e.1 then (k, v) :: e :: m
    else (e.1, v) :: m

/-- The lookup idiom of MacroEvaluatedCodeVerifier.cpp:49-55 and
CodeGroupsVerifier.cpp:41-44: `lower_bound({id, line})`, then check the id. -/
def valueAt (m : MacroMap V) (id : Nat) (line : Int) : Option V :=
  match m.lowerBound ⟨id, line⟩ with
  | some e => if e.1.id = id then some e.2 else none
  | none => none

/-- The lookup idiom of expressions, ValueCalculator.cpp:263-266:
`lower_bound({id, INT_MAX})`. -/
def valueMax (m : MacroMap V) (id : Nat) : Option V := m.valueAt id 2147483647

/-- Invariant of `std::map`: strictly ordered by the comparator. -/
def Sorted (m : MacroMap V) : Prop := List.Pairwise (fun a b => mcmp a.1 b.1 = true) m

/-- Entry stored for exactly this key. -/
def get (m : MacroMap V) (k : MKey) : Option V := (m.find? (fun e => e.1 == k)).map (·.2)

end MacroMap

/-! ## The comparator -/

theorem mcmp_iff {l r : MKey} :
    mcmp l r = true ↔ r.id < l.id ∨ (l.id = r.id ∧ r.line < l.line) := by
  unfold mcmp; split
  · simp; omega
  · split
    · simp; omega
    · simp; omega

theorem mcmp_irrefl (a : MKey) : mcmp a a = false := by
  rw [Bool.eq_false_iff, Ne, mcmp_iff]; omega

theorem mcmp_trans {a b c : MKey} (h1 : mcmp a b = true) (h2 : mcmp b c = true) :
    mcmp a c = true := by
  rw [mcmp_iff] at *; omega

theorem mcmp_total {a b : MKey} (h1 : mcmp a b = false) (h2 : mcmp b a = false) : a = b := by
  rw [Bool.eq_false_iff, Ne, mcmp_iff] at *
  cases a; cases b; simp at *; omega

/-! ## Map operations keep the invariant and act on single keys -/

namespace MacroMap
variable {V : Type}

theorem sorted_nil : Sorted ([] : MacroMap V) := List.Pairwise.nil

theorem mem_emplace {m : MacroMap V} {k : MKey} {v : V} {e : MKey × V}
    (h : e ∈ m.emplace k v) : e = (k, v) ∨ e ∈ m := by
  induction m with
  | nil => simp [emplace] at h; exact Or.inl h
  | cons a m ih =>
    unfold emplace at h
    split at h
    · simp only [List.mem_cons] at h
      rcases h with h | h
      · right; simp [h]
      · rcases ih h with h | h
        · exact Or.inl h
        · right; simp [h]
    · split at h
      · simp only [List.mem_cons] at h
        rcases h with h | h | h
        · exact Or.inl h
        · right; simp [h]
        · right; simp [h]
      · exact Or.inr h

theorem key_assign {m : MacroMap V} {k : MKey} {v : V} {e : MKey × V}
    (h : e ∈ m.assign k v) : e.1 = k ∨ ∃ e' ∈ m, e'.1 = e.1 := by
  induction m with
  | nil => simp [assign] at h; left; rw [h]
  | cons a m ih =>
    unfold assign at h
    split at h
    · simp only [List.mem_cons] at h
      rcases h with h | h
      · right; exact ⟨a, by simp, by rw [h]⟩
      · rcases ih h with h | ⟨e', h1, h2⟩
        · exact Or.inl h
        · right; exact ⟨e', by simp [h1], h2⟩
    · split at h
      · simp only [List.mem_cons] at h
        rcases h with h | h | h
        · left; rw [h]
        · right; exact ⟨a, by simp, by rw [h]⟩
        · right; exact ⟨e, by simp [h], rfl⟩
      · simp only [List.mem_cons] at h
        rcases h with h | h
        · right; exact ⟨a, by simp, by rw [h]⟩
        · right; exact ⟨e, by simp [h], rfl⟩

theorem sorted_emplace {m : MacroMap V} (hs : m.Sorted) (k : MKey) (v : V) :
    (m.emplace k v).Sorted := by
  induction m with
  | nil => simp [emplace, Sorted]
  | cons a m ih =>
    unfold Sorted at hs ih ⊢
    rw [List.pairwise_cons] at hs
    unfold emplace
    split
    · rename_i h
      rw [List.pairwise_cons]
      refine ⟨fun e he => ?_, ih hs.2⟩
      rcases mem_emplace he with rfl | he
      · exact h
      · exact hs.1 e he
    · split
      · rename_i h
        rw [List.pairwise_cons, List.pairwise_cons]
        refine ⟨fun e he => ?_, hs⟩
        simp only [List.mem_cons] at he
        rcases he with rfl | he
        · exact h
        · exact mcmp_trans h (hs.1 e he)
      · rw [List.pairwise_cons]; exact hs

theorem sorted_assign {m : MacroMap V} (hs : m.Sorted) (k : MKey) (v : V) :
    (m.assign k v).Sorted := by
  induction m with
  | nil => simp [assign, Sorted]
  | cons a m ih =>
    unfold Sorted at hs ih ⊢
    rw [List.pairwise_cons] at hs
    unfold assign
    split
    · rename_i h
      rw [List.pairwise_cons]
      refine ⟨fun e he => ?_, ih hs.2⟩
      rcases key_assign he with h' | ⟨e', he', h'⟩
      · rw [h']; exact h
      · rw [← h']; exact hs.1 e' he'
    · split
      · rename_i h
        rw [List.pairwise_cons, List.pairwise_cons]
        refine ⟨fun e he => ?_, hs⟩
        simp only [List.mem_cons] at he
        rcases he with rfl | he
        · exact h
        · exact mcmp_trans h (hs.1 e he)
      · rw [List.pairwise_cons]; exact ⟨fun e he => hs.1 e he, hs.2⟩

@[simp] theorem get_nil (k : MKey) : get ([] : MacroMap V) k = none := rfl

theorem get_cons (e : MKey × V) (m : MacroMap V) (k : MKey) :
    get (e :: m) k = if e.1 = k then some e.2 else get m k := by
  unfold get
  rw [List.find?_cons]
  by_cases h : e.1 = k
  · simp [h]
  · have h' : (e.1 == k) = false := by simpa using h
    simp [h, h']

theorem get_none_of_lt {m : MacroMap V} {k : MKey} (h : ∀ e ∈ m, mcmp k e.1 = true) :
    m.get k = none := by
  induction m with
  | nil => rfl
  | cons a m ih =>
    rw [get_cons, if_neg, ih (fun e he => h e (by simp [he]))]
    intro hk
    have := h a (by simp)
    rw [hk, mcmp_irrefl] at this
    exact absurd this (by decide)

theorem get_emplace {m : MacroMap V} (hs : m.Sorted) (k k' : MKey) (v : V) :
    (m.emplace k v).get k' =
      if k' = k then some ((m.get k).getD v) else m.get k' := by
  induction m with
  | nil =>
    simp only [emplace, get_cons, get_nil]
    by_cases h : k = k' <;> simp [h, eq_comm]
  | cons a m ih =>
    unfold Sorted at hs
    rw [List.pairwise_cons] at hs
    unfold emplace
    split
    · rename_i h
      have hak : a.1 ≠ k := by rintro rfl; rw [mcmp_irrefl] at h; exact absurd h (by decide)
      rw [get_cons, ih hs.2, get_cons, get_cons]
      by_cases h1 : a.1 = k'
      · simp only [h1, if_true]
        rw [if_neg]
        rintro rfl; exact hak h1
      · simp [h1, hak]
    · split
      · rename_i h0 h
        have hn : get (a :: m) k = none := by
          apply get_none_of_lt
          intro e he
          simp only [List.mem_cons] at he
          rcases he with rfl | he
          · exact h
          · exact mcmp_trans h (hs.1 e he)
        rw [get_cons]
        by_cases h1 : k = k'
        · subst h1; simp [hn]
        · simp only [h1, if_false]; rw [if_neg (fun h => h1 h.symm)]
      · rename_i h0 h
        have hak : a.1 = k := mcmp_total (by simpa using h0) (by simpa using h)
        by_cases h1 : k' = k
        · subst h1; simp [get_cons, hak]
        · simp [h1]

theorem get_assign {m : MacroMap V} (hs : m.Sorted) (k k' : MKey) (v : V) :
    (m.assign k v).get k' = if k' = k then some v else m.get k' := by
  induction m with
  | nil =>
    simp only [assign, get_cons, get_nil]
    by_cases h : k = k' <;> simp [h, eq_comm]
  | cons a m ih =>
    unfold Sorted at hs
    rw [List.pairwise_cons] at hs
    unfold assign
    split
    · rename_i h
      have hak : a.1 ≠ k := by rintro rfl; rw [mcmp_irrefl] at h; exact absurd h (by decide)
      rw [get_cons, ih hs.2, get_cons]
      by_cases h1 : a.1 = k'
      · simp only [h1, if_true]
        rw [if_neg]
        rintro rfl; exact hak h1
      · simp [h1]
    · split
      · rw [get_cons]
        by_cases h1 : k = k'
        · subst h1; simp
        · simp only [h1, if_false]; rw [if_neg (fun h => h1 h.symm)]
      · rename_i h0 h
        have hak : a.1 = k := mcmp_total (by simpa using h0) (by simpa using h)
        rw [get_cons, get_cons]
        by_cases h1 : k' = k
        · subst h1; simp [hak]
        · have : ¬ a.1 = k' := by rw [hak]; exact fun h => h1 h.symm
          simp [h1, this]

theorem mem_of_get {m : MacroMap V} {k : MKey} {v : V} (h : m.get k = some v) : (k, v) ∈ m := by
  induction m with
  | nil => simp at h
  | cons a m ih =>
    rw [get_cons] at h
    split at h
    · rename_i hk; simp at h; simp [← hk, ← h]
    · simp [ih h]

theorem get_of_mem {m : MacroMap V} (hs : m.Sorted) {k : MKey} {v : V} (h : (k, v) ∈ m) :
    m.get k = some v := by
  induction m with
  | nil => simp at h
  | cons a m ih =>
    unfold Sorted at hs
    rw [List.pairwise_cons] at hs
    rw [get_cons]
    simp only [List.mem_cons] at h
    rcases h with h | h
    · simp [← h]
    · rw [if_neg, ih hs.2 h]
      intro hk
      have := hs.1 _ h
      simp only [hk, mcmp_irrefl] at this
      exact absurd this (by decide)

/-- Key lemma: on a sorted table `valueAt` finds the entry with the greatest
line not after the requested one. -/
theorem valueAt_eq_some {m : MacroMap V} (hs : m.Sorted) (id : Nat) (L : Int) (v : V) :
    m.valueAt id L = some v ↔
      ∃ l, l ≤ L ∧ m.get ⟨id, l⟩ = some v ∧ ∀ l', l < l' → l' ≤ L → m.get ⟨id, l'⟩ = none := by
  induction m with
  | nil => simp [valueAt, lowerBound]
  | cons a m ih =>
    have hs' := hs
    unfold Sorted at hs
    rw [List.pairwise_cons] at hs
    obtain ⟨⟨ai, al⟩, av⟩ := a
    by_cases hc : mcmp ⟨ai, al⟩ ⟨id, L⟩ = true
    · have h1 : valueAt ((⟨ai, al⟩, av) :: m) id L = valueAt m id L := by
        simp [valueAt, lowerBound, hc]
      rw [h1, ih hs.2]
      rw [mcmp_iff] at hc
      have hg : ∀ l, l ≤ L → get ((⟨ai, al⟩, av) :: m) ⟨id, l⟩ = get m ⟨id, l⟩ := by
        intro l hl
        rw [get_cons, if_neg]
        simp only [MKey.mk.injEq, not_and]
        simp only at hc
        omega
      constructor
      · rintro ⟨l, h1, h2, h3⟩
        exact ⟨l, h1, by rw [hg l h1]; exact h2, fun l' a b => by rw [hg l' b]; exact h3 l' a b⟩
      · rintro ⟨l, h1, h2, h3⟩
        exact ⟨l, h1, by rw [← hg l h1]; exact h2, fun l' a b => by rw [← hg l' b]; exact h3 l' a b⟩
    · have h1 : valueAt ((⟨ai, al⟩, av) :: m) id L = if ai = id then some av else none := by
        simp [valueAt, lowerBound, hc]
      rw [h1]
      have hc' : ¬ (id < ai ∨ (ai = id ∧ L < al)) := by
        intro h; exact hc (mcmp_iff.mpr h)
      -- no entry of the tail has this id and a line after al
      have htail : ∀ l w, get m ⟨id, l⟩ = some w → ai = id → l < al := by
        intro l w hw hai
        have := hs.1 _ (mem_of_get hw)
        rw [mcmp_iff] at this
        simp only at this; omega
      constructor
      · intro h
        split at h
        · rename_i hai
          simp at h; subst h; subst hai
          refine ⟨al, by omega, by simp [get_cons], fun l' h1 h2 => ?_⟩
          rw [get_cons, if_neg (by simp; omega)]
          by_contra hne
          obtain ⟨w, hw⟩ := Option.ne_none_iff_exists'.mp hne
          have := htail l' w hw rfl
          omega
        · simp at h
      · rintro ⟨l, h1, h2, h3⟩
        by_cases hai : ai = id
        · subst hai
          rw [if_pos rfl]
          rw [get_cons] at h2
          split at h2
          · exact h2
          · exfalso
            have hl := htail l v h2 rfl
            have := h3 al hl (by omega)
            simp [get_cons] at this
        · exfalso
          rw [get_cons, if_neg (by simp [hai])] at h2
          have := hs.1 _ (mem_of_get h2)
          rw [mcmp_iff] at this
          simp only at this
          omega

theorem valueAt_eq_none {m : MacroMap V} (hs : m.Sorted) (id : Nat) (L : Int) :
    m.valueAt id L = none ↔ ∀ l, l ≤ L → m.get ⟨id, l⟩ = none := by
  constructor
  · intro h l hl
    by_contra hne
    -- strong induction on the distance to L
    have key : ∀ (d : Nat) (l : Int), l ≤ L → (L - l).toNat = d → m.get ⟨id, l⟩ ≠ none → False := by
      intro d
      induction d using Nat.strong_induction_on with
      | _ d ih =>
        intro l hl hd hne
        obtain ⟨w, hw⟩ := Option.ne_none_iff_exists'.mp hne
        by_cases hx : ∀ l', l < l' → l' ≤ L → m.get ⟨id, l'⟩ = none
        · have := (valueAt_eq_some hs id L w).mpr ⟨l, hl, hw, hx⟩
          rw [h] at this; exact absurd this (by simp)
        · push Not at hx
          obtain ⟨l', h1, h2, h3⟩ := hx
          exact ih (L - l').toNat (by omega) l' h2 rfl h3
    exact key _ l hl rfl hne
  · intro h
    by_contra hne
    obtain ⟨w, hw⟩ := Option.ne_none_iff_exists'.mp hne
    obtain ⟨l, h1, h2, _⟩ := (valueAt_eq_some hs id L w).mp hw
    rw [h l h1] at h2; exact absurd h2 (by simp)

end MacroMap
end NC
