import Verif.Wrapper

/-! Lemmas about the C interface. -/

namespace NC.Wrap
open NC

/-- The cells `mkWords` adds. -/
def wordCells : Block → Heap
  | [] => []
  | a :: t => some (.chars a.word) :: some (.chars (valueText a)) :: wordCells t

/-- The pointers `mkWords` returns when it starts at address `n`. -/
def wordPtrs (n : Nat) : Block → List (Ptr × Ptr)
  | [] => []
  | _ :: t => (.addr n, .addr (n + 1)) :: wordPtrs (n + 2) t

theorem mkWords_eq (v : Block) : ∀ h : Heap, mkWords h v = (h ++ wordCells v, wordPtrs h.length v) := by
  induction v with
  | nil => intro h; simp [mkWords, wordCells, wordPtrs]
  | cons a t ih =>
    intro h
    simp only [mkWords, mkWord, alloc, ih]
    simp [wordCells, wordPtrs, List.append_assoc]

theorem wordPtrs_length (v : Block) : ∀ n, (wordPtrs n v).length = v.length := by
  induction v with
  | nil => intro n; rfl
  | cons a t ih => intro n; simp [wordPtrs, ih]

theorem wordCells_length (v : Block) : (wordCells v).length = 2 * v.length := by
  induction v with
  | nil => rfl
  | cons a t ih => simp [wordCells, ih]; omega

theorem wordCells_append (u v : Block) : wordCells (u ++ v) = wordCells u ++ wordCells v := by
  induction u with
  | nil => rfl
  | cons a t ih => simp [wordCells, ih]

theorem wordPtrs_append (u v : Block) : ∀ n, wordPtrs n (u ++ v) = wordPtrs n u ++ wordPtrs (n + 2 * u.length) v := by
  induction u with
  | nil => intro n; simp [wordPtrs]
  | cons a t ih => intro n; simp [wordPtrs, ih]; congr 1; omega

/-- Read a C string. -/
def cstr (h : Heap) (p : Ptr) : Option Str :=
  match cell h p with
  | some (.chars s) => some (s.takeWhile (· ≠ '\x00'))
  | _ => none

theorem cell_at (A : Heap) (o : Obj) (B : Heap) : cell (A ++ some o :: B) (.addr A.length) = some o := by
  simp [cell]

theorem release_at (A : Heap) (o : Obj) (B : Heap) :
    release (A ++ some o :: B) (.addr A.length) = .ok (A ++ none :: B) := by
  simp [release]

/-- What the caller reads from the array. -/
def readWords (h : Heap) : List (Ptr × Ptr) → Option (List (Str × Str))
  | [] => some []
  | w :: t =>
    match cstr h w.1, cstr h w.2, readWords h t with
    | some a, some b, some r => some ((a, b) :: r)
    | _, _, _ => none

/-- A text up to a NUL character. -/
def upToNul (s : Str) : Str := s.takeWhile (· ≠ '\x00')

theorem readWords_eq (v : Block) : ∀ (A B : Heap), readWords (A ++ wordCells v ++ B) (wordPtrs A.length v) =
    some (v.map (fun a => (upToNul a.word, upToNul (valueText a)))) := by
  induction v with
  | nil => intro A B; rfl
  | cons a t ih =>
    intro A B
    have h1 : cstr (A ++ wordCells (a :: t) ++ B) (.addr A.length) = some (upToNul a.word) := by
      have : A ++ wordCells (a :: t) ++ B = A ++ some (.chars a.word) :: (some (.chars (valueText a)) :: wordCells t ++ B) := by
        simp [wordCells]
      unfold cstr; rw [this, cell_at]; rfl
    have e2 : A ++ wordCells (a :: t) ++ B =
        (A ++ [some (.chars a.word)]) ++ some (.chars (valueText a)) :: (wordCells t ++ B) := by simp [wordCells]
    have h2 : cstr (A ++ wordCells (a :: t) ++ B) (.addr (A.length + 1)) = some (upToNul (valueText a)) := by
      have hl : A.length + 1 = (A ++ [some (Obj.chars a.word)]).length := by simp
      unfold cstr; rw [e2, hl, cell_at]; rfl
    have e3 : A ++ wordCells (a :: t) ++ B =
        (A ++ [some (.chars a.word), some (.chars (valueText a))]) ++ wordCells t ++ B := by simp [wordCells]
    have h3 : readWords (A ++ wordCells (a :: t) ++ B) (wordPtrs (A.length + 2) t) =
        some (t.map (fun a => (upToNul a.word, upToNul (valueText a)))) := by
      have hl : A.length + 2 = (A ++ [some (Obj.chars a.word), some (Obj.chars (valueText a))]).length := by simp
      rw [e3, hl, ih]
    simp only [wordPtrs, readWords, h1, h2, h3, List.map_cons]

theorem freeWords_eq (v : Block) : ∀ (A B : Heap) (rest : List (Ptr × Ptr)),
    freeWords (A ++ wordCells v ++ B) v.length (wordPtrs A.length v ++ rest) =
      .ok (A ++ List.replicate (2 * v.length) none ++ B, rest) := by
  induction v with
  | nil => intro A B rest; simp [freeWords, wordCells, wordPtrs]
  | cons a t ih =>
    intro A B rest
    have e1 : A ++ wordCells (a :: t) ++ B = A ++ some (.chars a.word) :: (some (.chars (valueText a)) :: wordCells t ++ B) := by
      simp [wordCells]
    have e2 : A ++ none :: (some (.chars (valueText a)) :: wordCells t ++ B) =
        (A ++ [none]) ++ some (.chars (valueText a)) :: (wordCells t ++ B) := by simp
    have hl : A.length + 1 = (A ++ [(none : Option Obj)]).length := by simp
    have e3 : (A ++ [none]) ++ none :: (wordCells t ++ B) = (A ++ [none, none]) ++ wordCells t ++ B := by simp
    have hl2 : A.length + 2 = (A ++ [(none : Option Obj), none]).length := by simp
    have hrep : 2 * (a :: t).length = 2 + 2 * t.length := by simp; omega
    simp only [wordPtrs, List.length_cons, List.cons_append, freeWords]
    rw [e1, release_at]
    simp only
    rw [e2, hl, release_at]
    simp only
    rw [e3, hl2, ih]
    congr 2
    rw [List.length_cons] at hrep
    rw [hrep, List.replicate_add]
    simp [List.replicate]

/-! ## Split results -/

theorem wordCells_flatten (bs : List Block) : wordCells bs.flatten = (bs.map wordCells).flatten := by
  induction bs with
  | nil => rfl
  | cons b t ih => simp [wordCells_append, ih]

theorem freeBlocks_eq (bs : List Block) : ∀ (A B : Heap) (vv : List Int) (rest : List (Ptr × Ptr)),
    freeBlocks (A ++ wordCells bs.flatten ++ B) bs.length (bs.map (fun b => (b.length : Int)) ++ vv)
      (wordPtrs A.length bs.flatten ++ rest) =
      .ok (A ++ List.replicate (2 * bs.flatten.length) none ++ B, vv, rest) := by
  induction bs with
  | nil => intro A B vv rest; simp [freeBlocks, wordCells, wordPtrs]
  | cons b t ih =>
    intro A B vv rest
    simp only [List.flatten_cons, List.length_cons, List.map_cons, List.cons_append, freeBlocks, Int.toNat_natCast]
    have e1 : A ++ wordCells (b ++ t.flatten) ++ B = A ++ wordCells b ++ (wordCells t.flatten ++ B) := by
      rw [wordCells_append]; simp
    rw [e1, wordPtrs_append, List.append_assoc (wordPtrs A.length b), freeWords_eq]
    simp only
    have hl : A.length + 2 * b.length = (A ++ List.replicate (2 * b.length) (none : Option Obj)).length := by simp
    rw [← List.append_assoc, hl, ih]
    congr 2
    rw [List.append_assoc A, ← List.replicate_add, List.length_append, ← Nat.mul_add]

theorem freeParts_eq (r : List (List Block)) : ∀ (A B : Heap),
    freeParts (A ++ wordCells r.flatten.flatten ++ B) r.length (r.map (fun p => (p.length : Int)))
      (r.flatten.map (fun b => (b.length : Int))) (wordPtrs A.length r.flatten.flatten) =
      .ok (A ++ List.replicate (2 * r.flatten.flatten.length) none ++ B) := by
  induction r with
  | nil => intro A B; simp [freeParts, wordCells]
  | cons p t ih =>
    intro A B
    simp only [List.flatten_cons, List.flatten_append, List.length_cons, List.map_cons, List.map_append, freeParts,
      Int.toNat_natCast]
    have e1 : A ++ wordCells (p.flatten ++ t.flatten.flatten) ++ B =
        A ++ wordCells p.flatten ++ (wordCells t.flatten.flatten ++ B) := by
      rw [wordCells_append]; simp
    rw [e1, wordPtrs_append, freeBlocks_eq]
    simp only
    have hl : A.length + 2 * p.flatten.length = (A ++ List.replicate (2 * p.flatten.length) (none : Option Obj)).length := by
      simp
    rw [← List.append_assoc, hl, ih]
    congr 1
    rw [List.append_assoc A, ← List.replicate_add, List.length_append, ← Nat.mul_add]

/-! ## Texts -/

theorem mkTexts_eq (ts : List Str) (hne : ∀ s ∈ ts, s ≠ []) : ∀ h : Heap,
    mkTexts h ts = (h ++ ts.map (fun s => some (.chars s)), (List.range ts.length).map (fun i => .addr (h.length + i))) := by
  induction ts with
  | nil => intro h; simp [mkTexts]
  | cons s t ih =>
    intro h
    have hs : s ≠ [] := hne s List.mem_cons_self
    have e : fillMessage h s .garbage = alloc h (.chars s) := by unfold fillMessage; rw [if_neg hs]
    simp only [mkTexts, e, alloc]
    rw [ih (fun x hx => hne x (List.mem_cons_of_mem _ hx))]
    simp only [List.length_append, List.length_singleton, List.length_cons, List.map_cons, List.append_assoc,
      List.singleton_append, List.range_succ_eq_map, List.map_map]
    congr 2
    apply List.map_congr_left
    intro i _
    simp only [Function.comp, List.length_nil]
    congr 1
    omega

theorem freeTexts_eq (ts : List Str) : ∀ (A B : Heap) (rest : List Ptr),
    freeTexts (A ++ ts.map (fun s => some (.chars s)) ++ B) ts.length
      ((List.range ts.length).map (fun i => .addr (A.length + i)) ++ rest) =
      .ok (A ++ List.replicate ts.length none ++ B) := by
  induction ts with
  | nil => intro A B rest; simp [freeTexts]
  | cons s t ih =>
    intro A B rest
    have e1 : A ++ (s :: t).map (fun s => some (Obj.chars s)) ++ B =
        A ++ some (.chars s) :: (t.map (fun s => some (.chars s)) ++ B) := by simp
    have e2 : A ++ none :: (t.map (fun s => some (Obj.chars s)) ++ B) =
        (A ++ [none]) ++ t.map (fun s => some (.chars s)) ++ B := by simp
    have e3 : (List.range (s :: t).length).map (fun i => Ptr.addr (A.length + i)) =
        .addr A.length :: (List.range t.length).map (fun i => .addr ((A ++ [(none : Option Obj)]).length + i)) := by
      rw [List.length_cons, List.range_succ_eq_map, List.map_cons, List.map_map]
      congr 1
      apply List.map_congr_left
      intro i _
      simp only [Function.comp, List.length_append, List.length_singleton]
      congr 1; omega
    rw [e3, e1, List.length_cons, List.cons_append]
    simp only [freeTexts, release_at]
    rw [e2, ih]
    congr 2
    rw [List.append_assoc]; rfl

theorem freeTexts_garbage (n : Nat) (ps : List Ptr) : ∀ h : Heap, .garbage ∈ ps.take n →
    freeTexts h n ps = .ub ∨ ∃ e, freeTexts h n ps = .throw e := by
  induction n generalizing ps with
  | zero => intro h hm; simp at hm
  | succ n ih =>
    intro h hm
    cases ps with
    | nil => simp at hm
    | cons p ps =>
      rw [List.take_succ_cons, List.mem_cons] at hm
      rcases hm with rfl | hm
      · left; rfl
      · simp only [freeTexts]
        cases release h p with
        | ok h1 => exact ih ps h1 hm
        | throw e => exact Or.inr ⟨e, rfl⟩
        | ub => exact Or.inl rfl

/-! ## Configuration -/

theorem setInsert_mem (x y : Str) (l : List Str) : y ∈ setInsert x l ↔ y = x ∨ y ∈ l := by
  induction l with
  | nil => simp [setInsert]
  | cons z t ih =>
    unfold setInsert
    by_cases h1 : x = z
    · subst h1; rw [if_pos rfl]; simp
    · rw [if_neg h1]
      by_cases h2 : strLt x z = true
      · rw [if_pos h2]; simp
      · rw [if_neg h2, List.mem_cons, ih, List.mem_cons]; tauto

theorem strLt_irrefl (a : Str) : strLt a a = false := by
  induction a with
  | nil => rfl
  | cons x t ih => simp [strLt, ih]

theorem strLt_trans : ∀ {a b c : Str}, strLt a b = true → strLt b c = true → strLt a c = true := by
  intro a
  induction a with
  | nil => intro b c h1 h2; cases b <;> cases c <;> simp_all [strLt]
  | cons x t ih =>
    intro b c h1 h2
    cases b with
    | nil => simp [strLt] at h1
    | cons y u =>
      cases c with
      | nil => simp [strLt] at h2
      | cons z v =>
        simp only [strLt] at h1 h2 ⊢
        by_cases hxy : x = y
        · subst hxy
          rw [if_pos rfl] at h1
          by_cases hxz : x = z
          · subst hxz; rw [if_pos rfl] at h2 ⊢; exact ih h1 h2
          · rw [if_neg hxz] at h2 ⊢; exact h2
        · rw [if_neg hxy] at h1
          by_cases hyz : y = z
          · subst hyz; rw [if_neg hxy]; exact h1
          · rw [if_neg hyz] at h2
            have h1' : x.toNat < y.toNat := by simpa using h1
            have h2' : y.toNat < z.toNat := by simpa using h2
            have h3 : x.toNat < z.toNat := lt_trans h1' h2'
            have h4 : x ≠ z := by rintro rfl; omega
            rw [if_neg h4]; simpa using h3

theorem strLt_total : ∀ {a b : Str}, strLt a b = false → a ≠ b → strLt b a = true := by
  intro a
  induction a with
  | nil => intro b h1 h2; cases b <;> simp_all [strLt]
  | cons x t ih =>
    intro b h1 h2
    cases b with
    | nil => rfl
    | cons y u =>
      simp only [strLt] at h1 ⊢
      by_cases hxy : x = y
      · subst hxy
        rw [if_pos rfl] at h1 ⊢
        exact ih h1 (fun h => h2 (by rw [h]))
      · rw [if_neg hxy] at h1
        rw [if_neg (fun h => hxy h.symm)]
        have h3 : ¬ x.toNat < y.toNat := by simpa using h1
        have h4 : x.toNat ≠ y.toNat := fun h => hxy (Char.toNat_inj.mp h)
        have h5 : y.toNat < x.toNat := by omega
        simpa using h5

/-- The elements of a `std::set` are listed in strictly increasing order. -/
def SetSorted (l : List Str) : Prop := l.Pairwise (fun a b => strLt a b = true)

theorem setInsert_sorted (x : Str) (l : List Str) (h : SetSorted l) : SetSorted (setInsert x l) := by
  induction l with
  | nil => exact List.pairwise_singleton _ _
  | cons z t ih =>
    obtain ⟨h1, h2⟩ := List.pairwise_cons.mp h
    unfold setInsert
    by_cases e : x = z
    · rw [if_pos e]; exact h
    · rw [if_neg e]
      by_cases hl : strLt x z = true
      · rw [if_pos hl]
        refine List.pairwise_cons.mpr ⟨?_, h⟩
        intro y hy
        rcases List.mem_cons.mp hy with rfl | hy
        · exact hl
        · exact strLt_trans hl (h1 y hy)
      · rw [if_neg hl]
        refine List.pairwise_cons.mpr ⟨?_, ih h2⟩
        intro y hy
        rcases (setInsert_mem x y t).mp hy with rfl | hy
        · exact strLt_total (by simpa using hl) e
        · exact h1 y hy

theorem setSorted_nodup {l : List Str} (h : SetSorted l) : l.Nodup := by
  refine List.Pairwise.imp ?_ h
  intro a b hab e
  subst e
  rw [strLt_irrefl] at hab
  cases hab

theorem addGroup_find (m : Ver.Groups) (c c' : Ver.Code) (key : Str) :
    Ver.Groups.find (addGroup m c key) c' =
      if c' = c then some (match Ver.Groups.find m c with | none => [key] | some gs => setInsert key gs)
      else Ver.Groups.find m c' := by
  induction m with
  | nil =>
    unfold Ver.Groups.find addGroup
    by_cases h : c' = c
    · subst h; simp
    · have : ¬ c = c' := fun h' => h h'.symm
      simp [h, this]
  | cons e t ih =>
    unfold addGroup
    by_cases he : e.1 = c
    · rw [if_pos he]
      unfold Ver.Groups.find
      by_cases h : c' = c
      · subst h; simp [he]
      · have h' : ¬ c = c' := fun h' => h h'.symm
        have h2 : ¬ e.1 = c' := by rw [he]; exact h'
        simp [h, h', h2]
    · rw [if_neg he]
      by_cases h2 : e.1 = c'
      · have h : ¬ c' = c := by rw [← h2]; exact he
        rw [if_neg h]
        unfold Ver.Groups.find; simp [h2]
      · have hf : ∀ l : Ver.Groups, Ver.Groups.find (e :: l) c' = Ver.Groups.find l c' := by
          intro l; unfold Ver.Groups.find; simp [h2]
        have hf' : ∀ l : Ver.Groups, Ver.Groups.find (e :: l) c = Ver.Groups.find l c := by
          intro l; unfold Ver.Groups.find; simp [he]
        rw [hf, ih, hf, hf']

/-- Code `c` is in group `k`. -/
def InGroup (m : Ver.Groups) (c : Ver.Code) (k : Str) : Prop := ∃ gs, m.find c = some gs ∧ k ∈ gs

theorem inGroup_add (m : Ver.Groups) (c c' : Ver.Code) (k k' : Str) :
    InGroup (addGroup m c k) c' k' ↔ InGroup m c' k' ∨ (c' = c ∧ k' = k) := by
  unfold InGroup
  rw [addGroup_find]
  by_cases h : c' = c
  · subst h
    rw [if_pos rfl]
    cases hf : Ver.Groups.find m c' with
    | none => simp
    | some gs => simp [setInsert_mem]; tauto
  · rw [if_neg h]; simp [h]

/-- Every group set is a set, and every code is listed once. -/
def Proper (m : Ver.Groups) : Prop := (∀ e ∈ m, SetSorted e.2) ∧ (m.map (·.1)).Nodup

theorem addGroup_keys (m : Ver.Groups) (c : Ver.Code) (k : Str) :
    ∀ x, x ∈ (addGroup m c k).map (·.1) ↔ x = c ∨ x ∈ m.map (·.1) := by
  induction m with
  | nil => intro x; simp [addGroup]
  | cons e t ih =>
    intro x
    unfold addGroup
    by_cases he : e.1 = c
    · rw [if_pos he]; simp only [List.map_cons, List.mem_cons, he]; tauto
    · rw [if_neg he, List.map_cons, List.mem_cons, ih, List.map_cons, List.mem_cons]; tauto

theorem addGroup_proper (m : Ver.Groups) (c : Ver.Code) (k : Str) (h : Proper m) : Proper (addGroup m c k) := by
  induction m with
  | nil => exact ⟨by simp [addGroup, SetSorted], by simp [addGroup]⟩
  | cons e t ih =>
    obtain ⟨h1, h2⟩ := h
    rw [List.map_cons, List.nodup_cons] at h2
    have ht : Proper t := ⟨fun x hx => h1 x (List.mem_cons_of_mem _ hx), h2.2⟩
    unfold addGroup
    by_cases he : e.1 = c
    · rw [if_pos he]
      refine ⟨?_, ?_⟩
      · intro x hx
        rcases List.mem_cons.mp hx with rfl | hx
        · exact setInsert_sorted k e.2 (h1 e List.mem_cons_self)
        · exact h1 x (List.mem_cons_of_mem _ hx)
      · rw [List.map_cons, List.nodup_cons]; exact ⟨by rw [← he]; exact h2.1, h2.2⟩
    · rw [if_neg he]
      obtain ⟨h3, h4⟩ := ih ht
      refine ⟨?_, ?_⟩
      · intro x hx
        rcases List.mem_cons.mp hx with rfl | hx
        · exact h1 x List.mem_cons_self
        · exact h3 x hx
      · rw [List.map_cons, List.nodup_cons]
        refine ⟨?_, h4⟩
        rw [addGroup_keys]
        rintro (h | h)
        · exact he h
        · exact h2.1 h

theorem addGroups_spec (cs rest : List Ver.Code) (k : Str) : ∀ m : Ver.Groups, Proper m →
    ∃ m', addGroups m k cs.length (cs ++ rest) = .ok m' ∧ Proper m' ∧
      ∀ c k', InGroup m' c k' ↔ InGroup m c k' ∨ (c ∈ cs ∧ k' = k) := by
  induction cs with
  | nil => intro m hm; exact ⟨m, rfl, hm, by simp⟩
  | cons c t ih =>
    intro m hm
    obtain ⟨m', h1, h2, h3⟩ := ih (addGroup m c k) (addGroup_proper m c k hm)
    refine ⟨m', by simpa [addGroups] using h1, h2, ?_⟩
    intro c' k'
    rw [h3, inGroup_add, List.mem_cons]; tauto

theorem unflatten_spec (cfg : List (Str × List Ver.Code)) : ∀ m : Ver.Groups, Proper m →
    ∃ m', unflatten m (cfg.map (·.1)) (cfg.map (fun e => e.2.length)) (cfg.flatMap (·.2)) = .ok m' ∧ Proper m' ∧
      ∀ c k, InGroup m' c k ↔ InGroup m c k ∨ ∃ e ∈ cfg, e.1 = k ∧ c ∈ e.2 := by
  induction cfg with
  | nil => intro m hm; exact ⟨m, rfl, hm, by simp⟩
  | cons e t ih =>
    intro m hm
    obtain ⟨m1, h1, h2, h3⟩ := addGroups_spec e.2 (t.flatMap (·.2)) e.1 m hm
    obtain ⟨m', h4, h5, h6⟩ := ih m1 h2
    refine ⟨m', ?_, h5, ?_⟩
    · simp only [List.map_cons, List.flatMap_cons, unflatten, h1, List.drop_left, h4]
    · intro c k
      rw [h6, h3]
      simp only [List.mem_cons, exists_eq_or_imp]
      constructor
      · rintro ((h | ⟨h, rfl⟩) | h)
        · exact Or.inl h
        · exact Or.inr (Or.inl ⟨rfl, h⟩)
        · exact Or.inr (Or.inr h)
      · rintro (h | ⟨rfl, h⟩ | h)
        · exact Or.inl (Or.inl h)
        · exact Or.inl (Or.inr ⟨h, rfl⟩)
        · exact Or.inr h

theorem setWord_find (m : WordMap) (k k' : Str) (g : WordGrammar) :
    WordMap.find (setWord m k g) k' = if k' = k then some g else WordMap.find m k' := by
  induction m with
  | nil =>
    unfold WordMap.find setWord
    by_cases h : k' = k
    · subst h; simp
    · have : ¬ k = k' := fun h' => h h'.symm
      simp [h, this]
  | cons e t ih =>
    unfold setWord
    by_cases he : e.1 = k
    · rw [if_pos he]
      unfold WordMap.find
      by_cases h : k' = k
      · subst h; simp
      · have h' : ¬ k = k' := fun h' => h h'.symm
        have h2 : ¬ e.1 = k' := by rw [he]; exact h'
        simp [h, h', h2]
    · rw [if_neg he]
      by_cases h2 : e.1 = k'
      · have h : ¬ k' = k := by rw [← h2]; exact he
        rw [if_neg h]
        unfold WordMap.find; simp [h2]
      · have hf : ∀ l : WordMap, WordMap.find (e :: l) k' = WordMap.find l k' := by
          intro l; unfold WordMap.find; simp [h2]
        rw [hf, ih, hf]

theorem buildGrammar_spec (l : List (Str × WordGrammar)) : ∀ (m : WordMap) (k : Str),
    WordMap.find (buildGrammar m l) k =
      match l.reverse.find? (fun e => e.1 == k) with
      | some e => some e.2
      | none => WordMap.find m k := by
  induction l with
  | nil => intro m k; rfl
  | cons e t ih =>
    intro m k
    rw [buildGrammar, ih, List.reverse_cons, List.find?_append]
    cases hf : t.reverse.find? (fun e => e.1 == k) with
    | some e' => rfl
    | none =>
      simp only [Option.none_or]
      rw [setWord_find]
      by_cases h : k = e.1
      · subst h; simp
      · have : ¬ e.1 = k := fun h' => h h'.symm
        simp [h, this]

end NC.Wrap
