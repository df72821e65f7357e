import Verif.Spec.Tables2
import Verif.Props.Settings

/-! # Properties C82, C83: word tables and code groups are what their files say -/

namespace NC.Props
open NC NC.Enums NC.Conf NC.Spec.Conf

/-! ## Entries -/

theorem uintOf_iff (s : Str) (n : Nat) : uintOf s = some n ↔ Unsigned s n := by
  unfold uintOf Unsigned
  dsimp only
  have hz : ∀ neg d, readNat d ≤ 4294967295 →
      ((if neg = true then (4294967296 - readNat d) % 4294967296 else readNat d : Nat) : Int) = signed neg d % 4294967296 := by
    intro neg d h
    unfold signed
    cases neg
    · simp only [Bool.false_eq_true, if_false]; omega
    · simp only [if_true]; omega
  have hb : ∀ neg d, readNat d ≤ 4294967295 ↔ -4294967295 ≤ signed neg d ∧ signed neg d ≤ 4294967295 := by
    intro neg d
    unfold signed
    cases neg
    · simp only [Bool.false_eq_true, if_false]; omega
    · simp only [if_true]; omega
  constructor
  · intro h
    split at h
    · rename_i hc
      injection h with h
      refine ⟨_, (whole_iff s _).mpr ⟨hc.1, hc.2.1, rfl⟩, ((hb _ _).mp hc.2.2).1, ((hb _ _).mp hc.2.2).2, ?_⟩
      rw [← h]
      exact hz _ _ hc.2.2
    · cases h
  · rintro ⟨z, hw, h1, h2, h3⟩
    obtain ⟨g1, g2, rfl⟩ := (whole_iff s z).mp hw
    have hle := (hb (scan s).1 (scan s).2.1).mpr ⟨h1, h2⟩
    rw [if_pos ⟨g1, g2, hle⟩]
    congr 1
    have := hz (scan s).1 (scan s).2.1 hle
    rw [← h3] at this
    exact_mod_cast this

theorem wordType_iff (x : Str) (e : WordType) : enumOf wordTypeOfStr x = some e ↔ Word x (wordTypeToStr e) :=
  enumOf_faithful C45_names.2.2.2.2.2.2.2.2.2.2.2.2.2.2.2.2.1 (fun e => by cases e <;> simp [wordTypeToStr]) x e

theorem readEntry_iff (t : PTree) (g : WordGrammar) : readEntry t = some g ↔ Entry t g := by
  constructor
  · intro h
    unfold readEntry at h
    obtain ⟨word, h1, h⟩ := Option.bind_eq_some_iff.mp h
    obtain ⟨rf, h2, h⟩ := Option.bind_eq_some_iff.mp h
    obtain ⟨rt, h3, h⟩ := Option.bind_eq_some_iff.mp h
    obtain ⟨df, h4, h⟩ := Option.bind_eq_some_iff.mp h
    obtain ⟨dt, h5, h⟩ := Option.bind_eq_some_iff.mp h
    obtain ⟨u, h6, h⟩ := Option.bind_eq_some_iff.mp h
    obtain ⟨ty, h7, h⟩ := Option.bind_eq_some_iff.mp h
    injection h with h
    subst h
    exact ⟨(fld1 (fun x => textOf_iff x _)).mp h1, (fld1 (fun x => intOf_iff x _)).mp h2, (fld1 (fun x => intOf_iff x _)).mp h3,
      (fld1 (fun x => uintOf_iff x _)).mp h4, (fld1 (fun x => uintOf_iff x _)).mp h5, (fld1 (fun x => boolOf_iff x _)).mp h6,
      (fld1 (fun x => wordType_iff x _)).mp h7⟩
  · rintro ⟨h1, h2, h3, h4, h5, h6, h7⟩
    unfold readEntry
    refine Option.bind_eq_some_iff.mpr ⟨_, (fld1 (fun x => textOf_iff x _)).mpr h1, ?_⟩
    refine Option.bind_eq_some_iff.mpr ⟨_, (fld1 (fun x => intOf_iff x _)).mpr h2, ?_⟩
    refine Option.bind_eq_some_iff.mpr ⟨_, (fld1 (fun x => intOf_iff x _)).mpr h3, ?_⟩
    refine Option.bind_eq_some_iff.mpr ⟨_, (fld1 (fun x => uintOf_iff x _)).mpr h4, ?_⟩
    refine Option.bind_eq_some_iff.mpr ⟨_, (fld1 (fun x => uintOf_iff x _)).mpr h5, ?_⟩
    refine Option.bind_eq_some_iff.mpr ⟨_, (fld1 (fun x => boolOf_iff x _)).mpr h6, ?_⟩
    refine Option.bind_eq_some_iff.mpr ⟨_, (fld1 (fun x => wordType_iff x _)).mpr h7, ?_⟩
    rfl

/-! ## Tables -/

theorem find_putWord (m : WordMap) (k : Str) (v : WordGrammar) (w : Str) :
    (putWord m k v).find w = if k = w then some v else m.find w := by
  have hc : ∀ (e : Str × WordGrammar) (t : WordMap), WordMap.find (e :: t) w = if e.1 = w then some e.2 else WordMap.find t w := by
    intro e t
    unfold WordMap.find
    by_cases h : e.1 = w
    · rw [List.find?_cons_of_pos (by simp [h]), if_pos h]; rfl
    · rw [List.find?_cons_of_neg (by simp [h]), if_neg h]
  induction m with
  | nil => unfold putWord; rw [hc]
  | cons e t ih =>
    unfold putWord
    by_cases he : e.1 = k
    · rw [if_pos he, hc, hc]
      by_cases hk : k = w
      · rw [if_pos hk, if_pos hk]
      · rw [if_neg hk, if_neg hk, if_neg (by rw [he]; exact hk)]
    · rw [if_neg he, hc, ih, hc]
      by_cases hk : k = w
      · simp only [if_pos hk]; rw [if_neg (by rw [← hk]; exact he)]
      · simp only [if_neg hk]

/-- The last entry of a name in a list, as read. -/
def lastOf (l : List (Str × PTree)) (w : Str) : Option WordGrammar := (l.reverse.find? (fun e => e.1 == w)).bind (fun e => readEntry e.2)

theorem lastOf_cons (e : Str × PTree) (l : List (Str × PTree)) (w : Str) (g : WordGrammar) (hg : readEntry e.2 = some g)
    (hl : ∀ x ∈ l, ∃ v, readEntry x.2 = some v) : lastOf (e :: l) w = (lastOf l w).or (if e.1 = w then some g else none) := by
  unfold lastOf
  rw [List.reverse_cons, List.find?_append]
  cases h : l.reverse.find? (fun e => e.1 == w) with
  | none =>
    by_cases hk : e.1 = w
    · simp [hk, hg]
    · simp [hk]
  | some x =>
    obtain ⟨v, hv⟩ := hl x (by have := List.mem_of_find?_eq_some h; simpa using this)
    simp [hv]

/-- Reading a table to its end. -/
theorem readWords_ok : ∀ (l : List (Str × PTree)) (m m' : WordMap), readWords l m = (m', true) →
    (∀ e ∈ l, ∃ g, readEntry e.2 = some g) ∧ ∀ w, m'.find w = (lastOf l w).or (m.find w) := by
  intro l
  induction l with
  | nil =>
    intro m m' h
    injection h with h
    subst h
    exact ⟨by simp, fun w => by simp [lastOf]⟩
  | cons e l ih =>
    obtain ⟨k, t⟩ := e
    intro m m' h
    unfold readWords at h
    cases hg : readEntry t with
    | none => rw [hg] at h; simp at h
    | some g =>
      rw [hg] at h
      dsimp only at h
      obtain ⟨h1, h2⟩ := ih _ _ h
      refine ⟨?_, fun w => ?_⟩
      · intro x hx
        rcases List.mem_cons.mp hx with rfl | hx
        · exact ⟨g, hg⟩
        · exact h1 x hx
      · rw [h2 w, find_putWord, lastOf_cons (k, t) l w g hg h1, Option.or_assoc]
        congr 1
        by_cases hk : k = w
        · simp [hk]
        · simp [hk]

theorem readWords_end : ∀ (l : List (Str × PTree)) (m : WordMap), (∀ e ∈ l, ∃ g, readEntry e.2 = some g) → (readWords l m).2 = true := by
  intro l
  induction l with
  | nil => intro m _; rfl
  | cons e l ih =>
    obtain ⟨k, t⟩ := e
    intro m h
    obtain ⟨g, hg⟩ := h (k, t) (by simp)
    unfold readWords
    rw [hg]
    exact ih _ (fun x hx => h x (by simp [hx]))

theorem lastOf_iff (t : PTree) (w : Str) (g : WordGrammar) : lastOf t.kids w = some g ↔ ∃ c, Last t w c ∧ Entry c g := by
  unfold lastOf Last
  rw [Option.bind_eq_some_iff]
  constructor
  · rintro ⟨e, h1, h2⟩
    obtain ⟨hk, pre, post, hl, hpre⟩ := List.find?_eq_some_iff_append.mp h1
    have hk : e.1 = w := by simpa using hk
    refine ⟨e.2, ⟨post.reverse, pre.reverse, ?_, ?_⟩, (readEntry_iff _ _).mp h2⟩
    · have := congrArg List.reverse hl
      rw [List.reverse_reverse] at this
      rw [this, ← hk]; simp
    · intro x hx
      have := hpre x (by simpa using hx)
      simpa using this
  · rintro ⟨c, ⟨pre, post, hl, hpost⟩, h2⟩
    refine ⟨(w, c), ?_, (readEntry_iff _ _).mpr h2⟩
    rw [hl]
    refine List.find?_eq_some_iff_append.mpr ⟨by simp, post.reverse, pre.reverse, by simp, ?_⟩
    intro x hx
    have := hpost x (by simpa using hx)
    simpa using this

theorem readTable_iff {t n : PTree} {u : Str} (h : At t [u] n) : (readTable t u).2 = true ↔ ∀ e ∈ n.kids, ∃ g, Entry e.2 g := by
  unfold readTable
  rw [(child_iff _ _ _).mpr h]
  dsimp only
  constructor
  · intro h e he
    obtain ⟨h1, -⟩ := readWords_ok n.kids [] (readWords n.kids []).1 (by rw [← h])
    obtain ⟨g, hg⟩ := h1 e he
    exact ⟨g, (readEntry_iff _ _).mp hg⟩
  · intro h
    exact readWords_end _ _ (fun e he => (h e he).imp (fun g hg => (readEntry_iff _ _).mpr hg))

theorem readTable_table {t n : PTree} {u : Str} (h : At t [u] n) (ho : (readTable t u).2 = true) : Table n (readTable t u).1 := by
  refine ⟨(readTable_iff h).mp ho, fun w g => ?_⟩
  have ho' := ho
  unfold readTable at ho' ⊢
  rw [(child_iff _ _ _).mpr h] at ho' ⊢
  dsimp only at ho' ⊢
  obtain ⟨-, h2⟩ := readWords_ok n.kids [] (readWords n.kids []).1 (by rw [← ho'])
  rw [h2 w, ← lastOf_iff]
  simp [WordMap.find]

theorem readTable_child {t : PTree} {u : Str} (h : (readTable t u).2 = true) : ∃ n, At t [u] n := by
  unfold readTable at h
  cases hc : t.child u with
  | none => rw [hc] at h; simp at h
  | some n => exact ⟨n, (child_iff _ _ _).mp hc⟩

/-- C82: an accepted word grammar has the words of the file, each with the ranges, the
uniqueness and the kind its last entry declares, and the operations in the order of the file.
Partial: see `C82_violated_negative`. -/
theorem C82_tables_partial (t : PTree) (w : Words) (h : readGrammar t = (w, true)) : Grammar t w := by
  unfold readGrammar at h
  dsimp only at h
  split at h
  · simp at h
  · rename_i h1
    split at h
    · simp at h
    · rename_i h2
      rw [Bool.not_eq_false] at h1 h2
      split at h
      · rename_i o ho
        obtain ⟨h, -⟩ := Prod.ext_iff.mp h
        dsimp only at h
        subst h
        obtain ⟨m, hm⟩ := readTable_child h1
        obtain ⟨i, hi⟩ := readTable_child h2
        exact ⟨⟨m, hm, readTable_table hm h1⟩, ⟨i, hi, readTable_table hi h2⟩, o, (child_iff _ _ _).mp ho, rfl⟩
      · simp at h

/-- C82: a word grammar is accepted exactly when both tables and the operations are there and every entry can be read. -/
theorem C82_accepted (t : PTree) : (readGrammar t).2 = true ↔
    (∃ n, At t [c!"metric"] n ∧ ∀ e ∈ n.kids, ∃ g, Entry e.2 g) ∧ (∃ n, At t [c!"imperial"] n ∧ ∀ e ∈ n.kids, ∃ g, Entry e.2 g) ∧
      ∃ n, At t [c!"operations"] n := by
  constructor
  · intro h
    obtain ⟨⟨m, h1, h2⟩, ⟨i, h3, h4⟩, ⟨o, h5, -⟩⟩ := C82_tables_partial t (readGrammar t).1 (by rw [← h])
    exact ⟨⟨m, h1, h2.1⟩, ⟨i, h3, h4.1⟩, o, h5⟩
  · rintro ⟨⟨m, h1, h2⟩, ⟨i, h3, h4⟩, ⟨o, h5⟩⟩
    unfold readGrammar
    dsimp only
    rw [if_neg (by rw [(readTable_iff h1).mpr h2]; decide), if_neg (by rw [(readTable_iff h3).mpr h4]; decide),
      (child_iff _ _ _).mpr h5]

theorem readWords_stop : ∀ (pre : List (Str × PTree)) (e : Str × PTree) (post : List (Str × PTree)) (m : WordMap),
    (∀ x ∈ pre, ∃ g, readEntry x.2 = some g) → readEntry e.2 = none → readWords (pre ++ e :: post) m = ((readWords pre m).1, false) := by
  intro pre
  induction pre with
  | nil =>
    intro e post m _ h
    obtain ⟨k, t⟩ := e
    show readWords ((k, t) :: post) m = (m, false)
    unfold readWords
    rw [h]
  | cons x pre ih =>
    obtain ⟨k, t⟩ := x
    intro e post m hp h
    obtain ⟨g, hg⟩ := hp (k, t) (by simp)
    show readWords ((k, t) :: (pre ++ e :: post)) m = _
    unfold readWords
    rw [hg]
    exact ih e post _ (fun y hy => hp y (by simp [hy])) h

/-- C82: what is kept of a refused file are the words before the first entry that cannot be read;
with those the lines are checked from then on (C08). -/
theorem C82_violated_kept (t n : PTree) (pre : List (Str × PTree)) (e : Str × PTree) (post : List (Str × PTree))
    (h : At t [c!"metric"] n) (hk : n.kids = pre ++ e :: post) (hp : ∀ x ∈ pre, ∃ g, Entry x.2 g) (he : ∀ g, ¬ Entry e.2 g) :
    ∃ m, readGrammar t = (⟨⟨m, []⟩, []⟩, false) ∧
      ∀ w g, m.find w = some g ↔ ∃ c, Last (.node [] pre) w c ∧ Entry c g := by
  have hpre : ∀ x ∈ pre, ∃ g, readEntry x.2 = some g := fun x hx => (hp x hx).imp (fun g hg => (readEntry_iff _ _).mpr hg)
  have hnone : readEntry e.2 = none := by
    cases hr : readEntry e.2 with
    | none => rfl
    | some g => exact absurd ((readEntry_iff _ _).mp hr) (he g)
  have hr : readTable t c!"metric" = ((readWords pre []).1, false) := by
    unfold readTable
    rw [(child_iff _ _ _).mpr h]
    dsimp only
    rw [hk, readWords_stop pre e post [] hpre hnone]
  refine ⟨(readWords pre []).1, ?_, fun w g => ?_⟩
  · unfold readGrammar
    rw [hr]
    exact if_pos rfl
  · have ho := readWords_end pre [] hpre
    obtain ⟨-, h2⟩ := readWords_ok pre [] (readWords pre []).1 (by rw [← ho])
    rw [h2 w, ← lastOf_iff]
    show (lastOf pre w).or (WordMap.find [] w) = some g ↔ lastOf pre w = some g
    simp [WordMap.find]

/-- C82: a negative number of decimals is accepted as a large one. -/
theorem C82_violated_negative : uintOf c!"-1" = some 4294967295 := by decide

/-! ## Groups -/

/-- A code is in a group. -/
def grouped (m : Ver.Groups) (name : Str) (c : Ver.Code) : Prop := ∃ ns, m.find c = some ns ∧ name ∈ ns

theorem mem_insertName (l : List Str) (k x : Str) : x ∈ insertName l k ↔ x = k ∨ x ∈ l := by
  induction l with
  | nil => simp [insertName]
  | cons e t ih =>
    unfold insertName
    split
    · simp
    · split
      · rename_i h; subst h; simp
      · rw [List.mem_cons, ih, List.mem_cons]; tauto

theorem find_addGroup (m : Ver.Groups) (c : Ver.Code) (n : Str) (d : Ver.Code) :
    Ver.Groups.find (addGroup m c n) d = if c = d then some (insertName ((Ver.Groups.find m c).getD []) n) else Ver.Groups.find m d := by
  have hc : ∀ (e : Ver.Code × List Str) (t : Ver.Groups) d, Ver.Groups.find (e :: t) d = if e.1 = d then some e.2 else Ver.Groups.find t d := by
    intro e t d
    unfold Ver.Groups.find
    by_cases h : e.1 = d
    · rw [List.find?_cons_of_pos (by simp [h]), if_pos h]; rfl
    · rw [List.find?_cons_of_neg (by simp [h]), if_neg h]
  induction m with
  | nil => unfold addGroup; rw [hc]; rfl
  | cons e t ih =>
    unfold addGroup
    by_cases he : e.1 = c
    · rw [if_pos he, hc, hc, hc, if_pos he]
      by_cases hk : c = d
      · rw [if_pos hk, if_pos hk]; rfl
      · rw [if_neg hk, if_neg hk, if_neg (by rw [he]; exact hk)]
    · rw [if_neg he, hc, ih, hc, hc, if_neg he]
      by_cases hk : c = d
      · simp only [if_pos hk]; rw [if_neg (by rw [← hk]; exact he)]
      · simp only [if_neg hk]

theorem grouped_add (m : Ver.Groups) (c : Ver.Code) (n name : Str) (d : Ver.Code) :
    grouped (addGroup m c n) name d ↔ (c = d ∧ name = n) ∨ grouped m name d := by
  unfold grouped
  rw [find_addGroup]
  by_cases h : c = d
  · subst h
    rw [if_pos rfl]
    constructor
    · rintro ⟨ns, h1, h2⟩
      injection h1 with h1
      subst h1
      rcases (mem_insertName _ _ _).mp h2 with h | h
      · exact .inl ⟨rfl, h⟩
      · cases hf : Ver.Groups.find m c with
        | none => rw [hf] at h; simp at h
        | some l => rw [hf] at h; exact .inr ⟨l, rfl, h⟩
    · rintro (⟨-, rfl⟩ | ⟨ns, h1, h2⟩)
      · exact ⟨_, rfl, (mem_insertName _ _ _).mpr (.inl rfl)⟩
      · refine ⟨_, rfl, (mem_insertName _ _ _).mpr (.inr ?_)⟩
        rw [h1]; exact h2
  · rw [if_neg h]
    constructor
    · exact .inr
    · rintro (⟨h', -⟩ | h')
      · exact absurd h' h
      · exact h'

/-- The code of an entry as read. -/
def codeOfEntry (t : PTree) : Option Ver.Code :=
  match t.get uintOf c!"code", t.get uintOf c!"rest" with
  | some c, some r => some (c, r)
  | _, _ => none

theorem codeOfEntry_iff (t : PTree) (c : Ver.Code) : codeOfEntry t = some c ↔ CodeEntry t c := by
  unfold CodeEntry
  rw [← fld1 (fun x => uintOf_iff x c.1), ← fld1 (fun x => uintOf_iff x c.2)]
  unfold codeOfEntry
  cases t.get uintOf c!"code" <;> cases t.get uintOf c!"rest" <;> simp [Prod.ext_iff]

theorem readGroup_cons (name k : Str) (t : PTree) (l : List (Str × PTree)) (m : Ver.Groups) :
    readGroup name ((k, t) :: l) m =
      match codeOfEntry t with
      | some c => readGroup name l (addGroup m c name)
      | none => (m, false) := by
  show (match t.get uintOf c!"code", t.get uintOf c!"rest" with
    | some c, some r => readGroup name l (addGroup m (c, r) name)
    | _, _ => (m, false)) = _
  unfold codeOfEntry
  cases t.get uintOf c!"code" <;> cases t.get uintOf c!"rest" <;> rfl

theorem readGroup_ok (name : Str) : ∀ (l : List (Str × PTree)) (m : Ver.Groups), (readGroup name l m).2 = true →
    (∀ e ∈ l, ∃ c, CodeEntry e.2 c) ∧
      ∀ x d, grouped (readGroup name l m).1 x d ↔ grouped m x d ∨ (x = name ∧ ∃ e ∈ l, CodeEntry e.2 d) := by
  intro l
  induction l with
  | nil => intro m _; exact ⟨by simp, fun x d => by simp [readGroup]⟩
  | cons e l ih =>
    obtain ⟨k, t⟩ := e
    intro m h
    rw [readGroup_cons] at h ⊢
    cases hc : codeOfEntry t with
    | none => rw [hc] at h; simp at h
    | some c =>
      rw [hc] at h
      dsimp only at h ⊢
      obtain ⟨h1, h2⟩ := ih _ h
      have hce := (codeOfEntry_iff t c).mp hc
      refine ⟨?_, fun x d => ?_⟩
      · intro y hy
        rcases List.mem_cons.mp hy with rfl | hy
        · exact ⟨c, hce⟩
        · exact h1 y hy
      · rw [h2 x d, grouped_add]
        constructor
        · rintro ((⟨rfl, rfl⟩ | h) | ⟨rfl, e, he, hd⟩)
          · exact .inr ⟨rfl, (k, t), by simp, hce⟩
          · exact .inl h
          · exact .inr ⟨rfl, e, by simp [he], hd⟩
        · rintro (h | ⟨rfl, e, he, hd⟩)
          · exact .inl (.inr h)
          · rcases List.mem_cons.mp he with rfl | he
            · have := (codeOfEntry_iff t d).mpr hd
              rw [hc] at this
              injection this with this
              exact .inl (.inl ⟨this, rfl⟩)
            · exact .inr ⟨rfl, e, he, hd⟩

theorem readGroup_end (name : Str) : ∀ (l : List (Str × PTree)) (m : Ver.Groups), (∀ e ∈ l, ∃ c, CodeEntry e.2 c) →
    (readGroup name l m).2 = true := by
  intro l
  induction l with
  | nil => intro m _; rfl
  | cons e l ih =>
    obtain ⟨k, t⟩ := e
    intro m h
    obtain ⟨c, hc⟩ := h (k, t) (by simp)
    rw [readGroup_cons, (codeOfEntry_iff t c).mpr hc]
    exact ih _ (fun x hx => h x (by simp [hx]))

theorem readAllGroups_ok : ∀ (l : List (Str × PTree)) (m : Ver.Groups), (readAllGroups l m).2 = true →
    (∀ a ∈ l, ∀ e ∈ a.2.kids, ∃ c, CodeEntry e.2 c) ∧
      ∀ x d, grouped (readAllGroups l m).1 x d ↔ grouped m x d ∨ ∃ a ∈ l, a.1 = x ∧ ∃ e ∈ a.2.kids, CodeEntry e.2 d := by
  intro l
  induction l with
  | nil => intro m _; exact ⟨by simp, fun x d => by simp [readAllGroups]⟩
  | cons a l ih =>
    obtain ⟨name, arr⟩ := a
    intro m h
    unfold readAllGroups at h ⊢
    dsimp only at h ⊢
    by_cases hg : (readGroup name arr.kids m).2 = true
    · rw [if_pos hg] at h ⊢
      obtain ⟨g1, g2⟩ := readGroup_ok name arr.kids m hg
      obtain ⟨h1, h2⟩ := ih _ h
      refine ⟨?_, fun x d => ?_⟩
      · intro b hb
        rcases List.mem_cons.mp hb with rfl | hb
        · exact g1
        · exact h1 b hb
      · rw [h2 x d, g2 x d]
        constructor
        · rintro ((h | ⟨rfl, e, he, hd⟩) | ⟨b, hb, hx, he⟩)
          · exact .inl h
          · exact .inr ⟨(x, arr), by simp, rfl, e, he, hd⟩
          · exact .inr ⟨b, by simp [hb], hx, he⟩
        · rintro (h | ⟨b, hb, hx, e, he, hd⟩)
          · exact .inl (.inl h)
          · rcases List.mem_cons.mp hb with rfl | hb
            · exact .inl (.inr ⟨hx.symm, e, he, hd⟩)
            · exact .inr ⟨b, hb, hx, e, he, hd⟩
    · rw [if_neg hg] at h
      simp at h

theorem readAllGroups_end : ∀ (l : List (Str × PTree)) (m : Ver.Groups), (∀ a ∈ l, ∀ e ∈ a.2.kids, ∃ c, CodeEntry e.2 c) →
    (readAllGroups l m).2 = true := by
  intro l
  induction l with
  | nil => intro m _; rfl
  | cons a l ih =>
    obtain ⟨name, arr⟩ := a
    intro m h
    unfold readAllGroups
    dsimp only
    rw [if_pos (readGroup_end name arr.kids m (h (name, arr) (by simp)))]
    exact ih _ (fun x hx => h x (by simp [hx]))

/-- C83: in an accepted file of code groups a code belongs to exactly the groups that list it. -/
theorem C83_groups (t n : PTree) (g : Ver.Groups) (hn : At t [c!"groups"] n) (h : readGroups t = (g, true)) (name : Str) (c : Ver.Code) :
    (∃ ns, g.find c = some ns ∧ name ∈ ns) ↔ InGroup n name c := by
  unfold readGroups at h
  rw [(child_iff _ _ _).mpr hn] at h
  dsimp only at h
  have h2 := (readAllGroups_ok n.kids [] (by rw [h])).2 name c
  rw [h] at h2
  dsimp only at h2
  show grouped g name c ↔ _
  rw [h2]
  unfold InGroup
  constructor
  · rintro (⟨ns, hf, -⟩ | ⟨a, ha, hx, e, he, hd⟩)
    · simp [Ver.Groups.find] at hf
    · exact ⟨a.2, e.1, e.2, by rw [← hx]; exact ha, he, hd⟩
  · rintro ⟨arr, k, e, ha, he, hd⟩
    exact .inr ⟨(name, arr), ha, rfl, (k, e), he, hd⟩

/-- C83: a file of code groups is accepted exactly when every entry can be read. -/
theorem C83_accepted (t : PTree) : (readGroups t).2 = true ↔
    ∃ n, At t [c!"groups"] n ∧ ∀ a ∈ n.kids, ∀ e ∈ a.2.kids, ∃ c, CodeEntry e.2 c := by
  constructor
  · intro h
    unfold readGroups at h
    cases hc : t.child c!"groups" with
    | none => rw [hc] at h; simp at h
    | some n =>
      rw [hc] at h
      exact ⟨n, (child_iff _ _ _).mp hc, (readAllGroups_ok _ _ h).1⟩
  · rintro ⟨n, h1, h2⟩
    unfold readGroups
    rw [(child_iff _ _ _).mpr h1]
    exact readAllGroups_end _ _ h2

/-! ## Cases -/

/-- An entry of a word table. -/
def wordEntry (w lo hi d u ty : Str) : Str × PTree :=
  (w, .node [] [leaf c!"word" w, leaf c!"range_from" lo, leaf c!"range_to" hi, leaf c!"decimal_from" c!"0",
    leaf c!"decimal_to" d, leaf c!"unique" u, leaf c!"type" ty])

/-- A word grammar. -/
def sampleGrammar : PTree := .node [] [
  leaf c!"version" c!"1.0",
  (c!"operations", .node [] [leaf [] c!"SIN", leaf [] c!"COS"]),
  (c!"imperial", .node [] [wordEntry c!"X" c!"-999" c!"999" c!"9999" c!"true" c!"length"]),
  (c!"metric", .node [] [wordEntry c!"X" c!"-1" c!"1" c!"9" c!"true" c!"length", wordEntry c!"G" c!"0" c!"999" c!"9" c!"false" c!"code",
    wordEntry c!"X" c!"-99999" c!"99999" c!"999" c!"true" c!"length"])]

/-- It is accepted, and the second X counts. -/
example : ∃ w, readGrammar sampleGrammar = (w, true) ∧ w.ops = [c!"SIN", c!"COS"] ∧
    w.tables.metric.find c!"X" = some ⟨c!"X", -99999, 99999, 0, 999, true, .length⟩ :=
  ⟨(readGrammar sampleGrammar).1, by rw [Prod.ext_iff]; exact ⟨rfl, by decide +kernel⟩, by decide +kernel, by decide +kernel⟩

/-- Groups of codes. -/
def sampleGroups : PTree := .node [] [(c!"groups", .node [] [
  (c!"1", .node [] [([], .node [] [leaf c!"code" c!"0", leaf c!"rest" c!"0"]), ([], .node [] [leaf c!"code" c!"5", leaf c!"rest" c!"1"])]),
  (c!"0", .node [] [([], .node [] [leaf c!"code" c!"5", leaf c!"rest" c!"1"])])])]

/-- They are accepted, and G5.1 is in two groups. -/
example : readGroups sampleGroups = ([((0, 0), [c!"1"]), ((5, 1), [c!"0", c!"1"])], true) := by decide +kernel

end NC.Props
