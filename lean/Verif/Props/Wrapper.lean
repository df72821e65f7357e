import Verif.WrapperProofs
import Verif.Spec.Verify
import Verif.Spec.Source

/-! # Properties C40 and C56: the C interface -/

namespace NC.Props
open NC NC.Wrap

/-- No word of the list contains a NUL character. -/
def NoNul (v : Block) : Prop := ∀ a ∈ v, '\x00' ∉ a.word ∧ '\x00' ∉ Spec.Source.value a

theorem valueText_eq (a : Attr) : valueText a = Spec.Source.value a := by
  cases a with
  | dec d => simp [valueText, decText, Spec.Source.value, Spec.Source.pieces]
  | str w v =>
    unfold valueText Spec.Source.value Spec.Source.closing
    dsimp only
    split
    · rename_i h; subst h; rfl
    · rename_i h
      split
      · exact absurd rfl h
      · simp
  | chr w c => rfl

theorem attrText_eq (a : Attr) : attrText a = Spec.Source.word a := by
  cases a with
  | dec d =>
    show d.word ++ valueText (.dec d) = d.word ++ Spec.Source.value (.dec d)
    rw [valueText_eq]
  | str w v =>
    show w ++ v ++ (if w = c!"(" then c!")" else []) = w ++ Spec.Source.value (.str w v)
    rw [← valueText_eq]
    unfold valueText
    dsimp only
    split <;> simp
  | chr w c =>
    unfold attrText
    dsimp only
    by_cases h : c = '\x00'
    · subst h; simp [Spec.Source.word]
    · rw [if_neg h]
      unfold Spec.Source.word
      split
      · rename_i h'; cases h'; exact absurd rfl h
      · rfl

theorem blockText_eq (b : Block) : blockText b = Spec.Source.line b := by
  unfold blockText
  induction b with
  | nil => rfl
  | cons a t ih =>
    cases t with
    | nil => simp [Spec.Source.line, attrText_eq]
    | cons a' t' =>
      rw [List.map_cons, List.map_cons, List.intercalate_cons_cons, ← List.map_cons, ih, attrText_eq]
      simp [Spec.Source.line]

theorem partText_eq (p : List Block) : partText p = Spec.Source.text p := by
  unfold partText Spec.Source.text
  rw [List.flatMap_def]
  simp only [blockText_eq]

/-- What a client reads from a word array and its length. -/
def clientWords (h : Heap) (p : Ptr) (n : Nat) : Option (List (Str × Str)) :=
  if n = 0 then some []
  else
    match cell h p with
    | some (.words ws) => readWords h (ws.take n)
    | _ => none

theorem upToNul_eq {s : Str} (h : '\x00' ∉ s) : upToNul s = s := by
  unfold upToNul
  induction s with
  | nil => rfl
  | cons c t ih =>
    have hc : c ≠ '\x00' := fun h' => h (h' ▸ List.mem_cons_self)
    rw [List.takeWhile_cons, if_pos (by simpa using hc), ih (fun h' => h (List.mem_cons_of_mem _ h'))]

private theorem map_noNul {v : Block} (hn : NoNul v) :
    v.map (fun a => (upToNul a.word, upToNul (valueText a))) = v.map (fun a => (a.word, Spec.Source.value a)) := by
  apply List.map_congr_left
  intro a ha
  rw [valueText_eq, upToNul_eq (hn a ha).1, upToNul_eq (hn a ha).2]

theorem fillWords_ne {v : Block} (h : Heap) (p : Ptr) (n : Nat) (hv : v ≠ []) :
    fillWords h v p n =
      (h ++ wordCells v ++ [some (.words (wordPtrs h.length v))], .addr (h ++ wordCells v).length, v.length) := by
  unfold fillWords
  rw [if_neg hv, mkWords_eq]; rfl

/-- C40 (words of a line): a client that starts with a null pointer and length
0 reads back, in order, the address and the value text of every word; later
allocations `B` do not matter. -/
theorem C40_words_read_back (h B : Heap) (v : Block) (hn : NoNul v) :
    clientWords ((fillWords h v .null 0).1 ++ B) (fillWords h v .null 0).2.1 (fillWords h v .null 0).2.2 =
      some (v.map (fun a => (a.word, Spec.Source.value a))) := by
  by_cases hv : v = []
  · subst hv; rfl
  · rw [fillWords_ne h .null 0 hv]
    unfold clientWords
    have hl : v.length ≠ 0 := fun h0 => hv (List.length_eq_zero_iff.mp h0)
    rw [if_neg hl]
    have e : h ++ wordCells v ++ [some (.words (wordPtrs h.length v))] ++ B =
        (h ++ wordCells v) ++ some (.words (wordPtrs h.length v)) :: B := by simp
    simp only
    rw [e, cell_at]
    simp only
    rw [List.take_of_length_le (by rw [wordPtrs_length]), readWords_eq, map_noNul hn]

/-- C40 (words of a line): disposing releases every cell that was allocated, each
once, and nothing else. -/
theorem C40_words_released (h B : Heap) (v : Block) :
    ∃ k, (fillWords h v .null 0).1.length = h.length + k ∧
      disposeWords ((fillWords h v .null 0).1 ++ B) (fillWords h v .null 0).2.1 (fillWords h v .null 0).2.2 =
        .ok (h ++ List.replicate k none ++ B) := by
  by_cases hv : v = []
  · subst hv; exact ⟨0, rfl, by simp [fillWords, disposeWords]⟩
  · rw [fillWords_ne h .null 0 hv]
    refine ⟨2 * v.length + 1, by simp [wordCells_length], ?_⟩
    have e : h ++ wordCells v ++ [some (.words (wordPtrs h.length v))] ++ B =
        (h ++ wordCells v) ++ some (.words (wordPtrs h.length v)) :: B := by simp
    simp only
    unfold disposeWords
    simp only
    rw [e, cell_at]
    simp only
    have hf := freeWords_eq v h (some (.words (wordPtrs h.length v)) :: B) []
    rw [List.append_nil] at hf
    rw [hf]
    simp only
    have hl : (h ++ wordCells v).length = (h ++ List.replicate (2 * v.length) (none : Option Obj)).length := by
      simp [wordCells_length]
    rw [hl, release_at]
    congr 1
    rw [List.replicate_succ']; simp

/-- Cut a list into pieces of the given lengths. -/
def cut {α : Type} : List Nat → List α → List (List α)
  | [], _ => []
  | n :: ns, l => l.take n :: cut ns (l.drop n)

private theorem cut_flatten {α : Type} (l : List (List α)) : ∀ rest : List α,
    cut (l.map List.length) (l.flatten ++ rest) = l := by
  induction l with
  | nil => intro rest; rfl
  | cons x t ih =>
    intro rest
    simp only [List.map_cons, List.flatten_cons, cut, List.append_assoc]
    rw [List.take_left, List.drop_left, ih]

/-- What a client reads from the result of `SplitFile`: the words, cut into
blocks and parts by the two length arrays. -/
def clientSplit (h : Heap) (o : SplitOut) : Option (List (List (List (Str × Str)))) :=
  match cell h o.value, cell h o.valueLength, cell h o.valueValueLength with
  | some (.words ws), some (.ints vl), some (.ints vv) =>
    (readWords h ws).map (fun l => cut ((vl.take o.length).map Int.toNat) (cut (vv.map Int.toNat) l))
  | _, _, _ => none

theorem fillSplit_eq (h : Heap) (r : List (List Block)) : fillSplit h r =
    (h ++ wordCells r.flatten.flatten ++ [some (.words (wordPtrs h.length r.flatten.flatten)),
        some (.ints (r.map (fun p => (p.length : Int)))), some (.ints (r.flatten.map (fun b => (b.length : Int))))],
      ⟨.addr (h ++ wordCells r.flatten.flatten).length, .addr ((h ++ wordCells r.flatten.flatten).length + 2),
       .addr ((h ++ wordCells r.flatten.flatten).length + 1), r.length⟩) := by
  simp only [fillSplit, mkWords_eq, alloc]
  simp [List.append_assoc]
  omega

theorem three_cells (A B : Heap) (a b c : Obj) :
    cell (A ++ [some a, some b, some c] ++ B) (.addr A.length) = some a ∧
    cell (A ++ [some a, some b, some c] ++ B) (.addr (A.length + 1)) = some b ∧
    cell (A ++ [some a, some b, some c] ++ B) (.addr (A.length + 2)) = some c := by
  refine ⟨?_, ?_, ?_⟩ <;> simp [cell]

/-- C40 (split result): the nested structure is reconstructed exactly, whatever
mixture of empty parts and empty blocks it has. -/
theorem C40_split_read_back (h B : Heap) (r : List (List Block)) (hn : ∀ p ∈ r, ∀ b ∈ p, NoNul b) :
    clientSplit ((fillSplit h r).1 ++ B) (fillSplit h r).2 =
      some (r.map (fun p => p.map (fun b => b.map (fun a => (a.word, Spec.Source.value a))))) := by
  rw [fillSplit_eq]
  obtain ⟨c1, c2, c3⟩ := three_cells (h ++ wordCells r.flatten.flatten) B
    (.words (wordPtrs h.length r.flatten.flatten)) (.ints (r.map (fun p => (p.length : Int))))
    (.ints (r.flatten.map (fun b => (b.length : Int))))
  have hnn : NoNul r.flatten.flatten := by
    intro a ha
    obtain ⟨b, hb, ha⟩ := List.mem_flatten.mp ha
    obtain ⟨p, hp, hb⟩ := List.mem_flatten.mp hb
    exact hn p hp b hb a ha
  unfold clientSplit
  simp only [c1, c2, c3]
  rw [List.append_assoc (h ++ wordCells r.flatten.flatten), readWords_eq, map_noNul hnn, Option.map_some]
  congr 1
  have hv : (r.flatten.map (fun b => (b.length : Int))).map Int.toNat =
      (r.flatten.map (fun b => b.map (fun a : Attr => (a.word, Spec.Source.value a)))).map List.length := by
    simp [List.map_map, Function.comp_def]
  have hl : ((r.map (fun p => (p.length : Int))).take r.length).map Int.toNat =
      (r.map (fun p => p.map (fun b => b.map (fun a : Attr => (a.word, Spec.Source.value a))))).map List.length := by
    rw [List.take_of_length_le (by simp)]
    simp [List.map_map, Function.comp_def]
  have e1 : r.flatten.flatten.map (fun a : Attr => (a.word, Spec.Source.value a)) =
      (r.flatten.map (fun b => b.map (fun a : Attr => (a.word, Spec.Source.value a)))).flatten ++ [] := by
    rw [List.append_nil, List.map_flatten]
  have e2 : r.flatten.map (fun b => b.map (fun a : Attr => (a.word, Spec.Source.value a))) =
      (r.map (fun p => p.map (fun b => b.map (fun a : Attr => (a.word, Spec.Source.value a))))).flatten ++ [] := by
    rw [List.append_nil, List.map_flatten]
  rw [hv, hl, e1, cut_flatten, e2, cut_flatten]

/-- C40 (split result): disposing releases every cell that was allocated, each
once, and nothing else. -/
theorem C40_split_released (h B : Heap) (r : List (List Block)) :
    ∃ k, (fillSplit h r).1.length = h.length + k ∧
      disposeSplit ((fillSplit h r).1 ++ B) (fillSplit h r).2 = .ok (h ++ List.replicate k none ++ B) := by
  rw [fillSplit_eq]
  refine ⟨2 * r.flatten.flatten.length + 3, by simp only [List.length_append, wordCells_length]; simp; omega, ?_⟩
  obtain ⟨c1, c2, c3⟩ := three_cells (h ++ wordCells r.flatten.flatten) B
    (.words (wordPtrs h.length r.flatten.flatten)) (.ints (r.map (fun p => (p.length : Int))))
    (.ints (r.flatten.map (fun b => (b.length : Int))))
  unfold disposeSplit
  simp only [c1, c2, c3]
  rw [List.append_assoc (h ++ wordCells r.flatten.flatten), freeParts_eq]
  simp only
  have hl : (h ++ wordCells r.flatten.flatten).length =
      (h ++ List.replicate (2 * r.flatten.flatten.length) (none : Option Obj)).length := by
    simp only [List.length_append, wordCells_length, List.length_replicate]
  rw [hl]
  generalize hA : h ++ List.replicate (2 * r.flatten.flatten.length) (none : Option Obj) = A
  have e : h ++ List.replicate (2 * r.flatten.flatten.length + 3) none ++ B = A ++ none :: none :: none :: B := by
    rw [← hA, List.replicate_add, ← List.append_assoc]
    simp [List.replicate]
  rw [e]
  unfold release3
  simp only [List.cons_append, List.nil_append]
  rw [release_at]
  simp only [Out.bind_ok]
  have s1 : ∀ (x y z : Option Obj) (t : Heap), A ++ x :: y :: z :: t = (A ++ [x, y]) ++ z :: t := by intros; simp
  have s2 : ∀ (x y : Option Obj) (t : Heap), A ++ x :: y :: t = (A ++ [x]) ++ y :: t := by intros; simp
  have l1 : ∀ x y : Option Obj, A.length + 2 = (A ++ [x, y]).length := by intros; simp
  have l2 : ∀ x : Option Obj, A.length + 1 = (A ++ [x]).length := by intros; simp
  rw [s1, l1 none (some (.ints (r.map (fun p => (p.length : Int))))), release_at]
  simp only [Out.bind_ok]
  rw [← s1, s2, l2 none, release_at, ← s2]

private def word1 : Attr := .dec { word := c!"X", sign := some '-', value := some c!"1", dot := some '.', value2 := some c!"5" }
private def word2 : Attr := .str c!"(" c!"hole"

example : clientWords (fillWords [] [word1, word2] .null 0).1 (.addr 4) 2 =
    some [(c!"X", c!"-1.5"), (c!"(", c!"hole)")] := by decide
example : clientSplit (fillSplit [none] [[], [[word1], []], [[word2, word1]]]).1
      (fillSplit [none] [[], [[word1], []], [[word2, word1]]]).2 =
    some [[], [[(c!"X", c!"-1.5")], []], [[(c!"(", c!"hole)"), (c!"X", c!"-1.5")]]] := by decide
example : NoNul [word1, word2] := by unfold NoNul; decide

/-- What a client reads from the result of `SplitFileString`. -/
def clientTexts (h : Heap) (p : Ptr) (n : Nat) : Option (List Str) :=
  match cell h p with
  | some (.ptrs ps) => (ps.take n).mapM (cstr h)
  | _ => none

/-- C40 (text split) in full: the texts are read back and releasing them is
defined and complete. -/
def C40_texts_full (h B : Heap) (r : List (List Block)) : Prop :=
  clientTexts ((fillTexts h r).1 ++ B) (fillTexts h r).2.1 (fillTexts h r).2.2 =
    some (r.map (fun p => upToNul (Spec.Source.text p))) ∧
  ∃ k, disposeTexts ((fillTexts h r).1 ++ B) (fillTexts h r).2.1 (fillTexts h r).2.2 = .ok (h ++ List.replicate k none ++ B)

theorem partText_ne {p : List Block} (h : p ≠ []) : partText p ≠ [] := by
  cases p with
  | nil => exact absurd rfl h
  | cons b t => simp [partText]

private theorem mapM_some {α β : Type} (f : α → Option β) (g : α → β) : ∀ l : List α, (∀ x ∈ l, f x = some (g x)) →
    l.mapM f = some (l.map g) := by
  intro l
  induction l with
  | nil => intro _; rfl
  | cons x t ih =>
    intro h
    rw [List.mapM_cons, h x List.mem_cons_self, ih (fun y hy => h y (List.mem_cons_of_mem _ hy))]
    rfl

/-- C40 (text split) when no part is empty.  Missing: empty parts, for which it
fails. -/
theorem C40_texts_partial (h B : Heap) (r : List (List Block)) (hne : ∀ p ∈ r, p ≠ []) : C40_texts_full h B r := by
  have hne' : ∀ s ∈ r.map partText, s ≠ [] := by
    intro s hs
    obtain ⟨p, hp, rfl⟩ := List.mem_map.mp hs
    exact partText_ne (hne p hp)
  have hfill : fillTexts h r = (h ++ (r.map partText).map (fun s => some (.chars s)) ++
      [some (.ptrs ((List.range (r.map partText).length).map (fun i => .addr (h.length + i))))],
      .addr (h ++ (r.map partText).map (fun s => some (Obj.chars s))).length, r.length) := by
    simp only [fillTexts, mkTexts_eq _ hne', alloc]
  unfold C40_texts_full
  rw [hfill]
  simp only
  generalize hts : r.map partText = ts
  have hlen : r.length = ts.length := by rw [← hts, List.length_map]
  have e : h ++ ts.map (fun s => some (Obj.chars s)) ++
      [some (.ptrs ((List.range ts.length).map (fun i => .addr (h.length + i))))] ++ B =
      (h ++ ts.map (fun s => some (Obj.chars s))) ++
        some (.ptrs ((List.range ts.length).map (fun i => .addr (h.length + i)))) :: B := by simp
  constructor
  · unfold clientTexts
    rw [e, cell_at]
    simp only
    rw [List.take_of_length_le (by simp [hlen])]
    have hm : r.map (fun p => upToNul (Spec.Source.text p)) = ts.map upToNul := by
      rw [← hts, List.map_map]
      exact List.map_congr_left (fun p _ => by rw [← partText_eq]; rfl)
    rw [hm]
    generalize hH : (h ++ ts.map (fun s => some (Obj.chars s)) ++
      some (.ptrs ((List.range ts.length).map (fun i => .addr (h.length + i)))) :: B) = H
    have hc : ∀ i, i < ts.length → cstr H (.addr (h.length + i)) = some (upToNul (ts.getD i [])) := by
      intro i hi
      have : cell H (.addr (h.length + i)) = some (.chars (ts.getD i [])) := by
        rw [← hH]
        unfold cell
        simp only
        rw [List.append_assoc, List.getElem?_append_right (by omega), Nat.add_sub_cancel_left,
          List.getElem?_append_left (by simpa using hi), List.getElem?_map]
        simp [List.getElem?_eq_getElem hi]
      unfold cstr
      rw [this]; rfl
    rw [mapM_some (cstr H) (fun p => match p with | .addr n => upToNul (ts.getD (n - h.length) []) | _ => [])]
    · rw [List.map_map]
      congr 1
      apply List.ext_getElem
      · simp
      · intro i h1 h2
        have hi : i < ts.length := by simpa using h2
        simp [List.getElem?_eq_getElem hi]
    · intro x hx
      obtain ⟨i, hi, rfl⟩ := List.mem_map.mp hx
      rw [hc i (List.mem_range.mp hi)]
      simp
  · refine ⟨ts.length + 1, ?_⟩
    unfold disposeTexts
    simp only
    rw [e, cell_at]
    simp only
    have hf := freeTexts_eq ts h (some (.ptrs ((List.range ts.length).map (fun i => .addr (h.length + i)))) :: B) []
    rw [List.append_nil] at hf
    rw [hlen, hf]
    simp only
    have hl : (h ++ ts.map (fun s => some (Obj.chars s))).length =
        (h ++ List.replicate ts.length (none : Option Obj)).length := by simp
    rw [hl, release_at]
    congr 1
    rw [List.replicate_succ']; simp

theorem mkTexts_garbage (ts : List Str) : ∀ h : Heap, [] ∈ ts → .garbage ∈ (mkTexts h ts).2 := by
  induction ts with
  | nil => intro h hm; simp at hm
  | cons s t ih =>
    intro h hm
    rcases List.mem_cons.mp hm with rfl | hm
    · simp [mkTexts, fillMessage]
    · simp only [mkTexts, List.mem_cons]; exact Or.inr (ih _ hm)

theorem mkTexts_length (ts : List Str) : ∀ h : Heap, (mkTexts h ts).2.length = ts.length := by
  induction ts with
  | nil => intro h; rfl
  | cons s t ih => intro h; simp [mkTexts, ih]

/-- C40 fails for every text split with an empty part: the pointer of that part
is never set, and disposing releases it. -/
theorem C40_violated_empty_part (h B : Heap) (r : List (List Block)) (he : [] ∈ r) : ¬ C40_texts_full h B r := by
  rintro ⟨_, k, hd⟩
  have hg : .garbage ∈ (mkTexts h (r.map partText)).2 :=
    mkTexts_garbage _ h (List.mem_map.mpr ⟨[], he, rfl⟩)
  have hcell : cell ((fillTexts h r).1 ++ B) (fillTexts h r).2.1 = some (.ptrs (mkTexts h (r.map partText)).2) := by
    simp only [fillTexts, alloc, List.append_assoc, List.singleton_append]
    exact cell_at _ _ _
  have hp : (fillTexts h r).2.1 ≠ .null := by simp [fillTexts, alloc]
  have hlen : (fillTexts h r).2.2 = r.length := rfl
  have hfree := freeTexts_garbage r.length (mkTexts h (r.map partText)).2 ((fillTexts h r).1 ++ B)
    (by rw [List.take_of_length_le (by rw [mkTexts_length, List.length_map])]; exact hg)
  unfold disposeTexts at hd
  split at hd
  · rename_i hp'; exact hp hp'
  · rw [hcell, hlen] at hd
    simp only at hd
    rcases hfree with hfree | ⟨e, hfree⟩ <;> rw [hfree] at hd <;> cases hd

/-- C40: the empty part does occur: splitting by a text found in the first line. -/
example : Splitter.byText c!"T1" none [c!"T1 M6", c!"X1", c!"T1"] = [[], [c!"T1 M6", c!"X1"], [c!"T1"]] := by decide

/-- C40 (macro values): the three arrays list the whole table in order. -/
theorem C40_macros (h B : Heap) (m : MacroMap ℚ) (hm : m ≠ []) :
    ∃ ids lines vals, cell ((fillMacros h m .null .null .null).1 ++ B) (fillMacros h m .null .null .null).2.1 = some (.ints ids) ∧
      cell ((fillMacros h m .null .null .null).1 ++ B) (fillMacros h m .null .null .null).2.2.1 = some (.ints lines) ∧
      cell ((fillMacros h m .null .null .null).1 ++ B) (fillMacros h m .null .null .null).2.2.2.1 = some (.nums vals) ∧
      (fillMacros h m .null .null .null).2.2.2.2 = m.length ∧
      ids.zip (lines.zip vals) = m.map (fun e => ((e.1.id : Int), e.1.line, e.2)) := by
  have hf : fillMacros h m .null .null .null = (h ++ [some (.ints (m.map (fun e => (e.1.id : Int)))),
      some (.ints (m.map (fun e => e.1.line))), some (.nums (m.map (·.2)))],
      .addr h.length, .addr (h.length + 1), .addr (h.length + 2), m.length) := by
    simp [fillMacros, hm, alloc]
  rw [hf]
  obtain ⟨c1, c2, c3⟩ := three_cells h B (.ints (m.map (fun e => (e.1.id : Int))))
    (.ints (m.map (fun e => e.1.line))) (.nums (m.map (·.2)))
  refine ⟨_, _, _, c1, c2, c3, rfl, ?_⟩
  rw [List.zip_map', List.zip_map']

/-- C40 (macro values of one line): the first elements of the two arrays are
exactly the entries of that line. -/
theorem C40_line_macros (h B : Heap) (m : MacroMap ℚ) (line junk : Int) (junkQ : ℚ) :
    let o := fillLineMacros h m line junk junkQ .null .null
    o.2.2.2 = (m.filter (fun e => decide (e.1.line = line))).length ∧
    (o.2.2.2 ≠ 0 → ∃ ids vals, cell (o.1 ++ B) o.2.1 = some (.ints ids) ∧ cell (o.1 ++ B) o.2.2.1 = some (.nums vals) ∧
      (ids.take o.2.2.2).zip (vals.take o.2.2.2) =
        (m.filter (fun e => decide (e.1.line = line))).map (fun e => ((e.1.id : Int), e.2))) := by
  intro o
  by_cases he : lineEntries m line = []
  · have ho : o = (h, .null, .null, 0) := by simp [o, fillLineMacros, he]
    rw [ho]
    unfold lineEntries at he
    exact ⟨by rw [he]; rfl, fun h0 => absurd rfl h0⟩
  · have ho : o = (h ++ [some (.ints ((lineEntries m line).map (fun e => (e.1.id : Int)) ++
          List.replicate (m.length - (lineEntries m line).length) junk)),
        some (.nums ((lineEntries m line).map (·.2) ++ List.replicate (m.length - (lineEntries m line).length) junkQ))],
        .addr h.length, .addr (h.length + 1), (lineEntries m line).length) := by
      simp [o, fillLineMacros, he, alloc]
    rw [ho]
    refine ⟨rfl, fun _ => ⟨(lineEntries m line).map (fun e => (e.1.id : Int)) ++
        List.replicate (m.length - (lineEntries m line).length) junk,
      (lineEntries m line).map (·.2) ++ List.replicate (m.length - (lineEntries m line).length) junkQ,
      by simp [cell], by simp [cell], ?_⟩⟩
    simp only
    rw [List.take_append_of_le_length (by simp), List.take_append_of_le_length (by simp),
      List.take_of_length_le (by simp), List.take_of_length_le (by simp)]
    simp [List.zip_map', lineEntries]

/-- C56 (code groups): from the flattened arrays of any group configuration the
parser builds the table in which a code is in a group exactly when the
configuration lists it there; no read is out of bounds and the result is a
table of sets. -/
theorem C56_groups (cfg : List (Str × List Ver.Code)) :
    ∃ m, unflatten [] (cfg.map (·.1)) (cfg.map (fun e => e.2.length)) (cfg.flatMap (·.2)) = .ok m ∧
      Spec.Verify.SetOfGroups m ∧
      ∀ c k, (∃ gs, m.find c = some gs ∧ k ∈ gs) ↔ ∃ e ∈ cfg, e.1 = k ∧ c ∈ e.2 := by
  obtain ⟨m, h1, h2, h3⟩ := unflatten_spec cfg [] ⟨by simp, by simp⟩
  refine ⟨m, h1, fun e he => setSorted_nodup (h2.1 e he), fun c k => ?_⟩
  have h4 := h3 c k
  unfold InGroup at h4
  have h0 : Ver.Groups.find [] c = none := rfl
  rw [h0] at h4
  simpa using h4

/-- C56 (word grammar): the grammar of an address is the last one given for it. -/
theorem C56_grammar (l : List (Str × WordGrammar)) (k : Str) :
    (buildGrammar [] l).find k = (l.reverse.find? (fun e => e.1 == k)).map (·.2) := by
  rw [buildGrammar_spec]
  cases l.reverse.find? (fun e => e.1 == k) <;> rfl

example : unflatten [] [c!"motion", c!"plane"] [2, 1] [(0, 0), (1, 0), (17, 0)] =
    .ok [((0, 0), [c!"motion"]), ((1, 0), [c!"motion"]), ((17, 0), [c!"plane"])] := by decide

end NC.Props
