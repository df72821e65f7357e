import Verif.NetProofs
import Verif.SplitFile
import Verif.PipeDemo
import Verif.MacroProofs

/-! # C109: the .NET interface hands over what was found and leaves nothing behind -/

namespace NC.Props
open NC NC.Wrap NC.Net NC.Spec.Net

/-- **C109** for calls that check a line. Missing: answers of which .NET reads bytes that were not set. -/
theorem C109_parse_partial (h : Heap) (f : Found) (t : Str) (h0 : '\x00' ∉ f.msg) (ht : Utf8 t (f.msg.map Char.toNat)) :
    ∃ k, parseOnly h 0 f = .ok (h ++ List.replicate k none, f.ok, t) := by
  obtain ⟨k, hk⟩ := message_eq h h0 ht
  refine ⟨k, ?_⟩
  unfold parseOnly
  simp only
  rw [hk, bind_ok]
  cases f.ok <;> rfl

/-- **C109** for calls that return the words of a line: the caller gets the words, in their order, and the message; the
memory is as before, and what was allocated is released. -/
theorem C109_call_partial (pl : Platform) (h : Heap) (f : Found) (ws : List (Str × Str)) (t : Str)
    (hw : List.Forall₂ (fun a w => Text (page pl) a.word w.1 ∧ Text (page pl) (Spec.Source.value a) w.2) f.words ws)
    (h0 : '\x00' ∉ f.msg) (ht : Utf8 t (f.msg.map Char.toNat)) :
    ∃ k, call pl h 0 f = .ok (h ++ List.replicate k none, ⟨f.ok, ws.map (fun w => (some w.1, some w.2)), t⟩) := by
  obtain ⟨k, hk⟩ := message_eq (fillWords h f.words .null 0).1 h0 ht
  obtain ⟨n, hn⟩ := takeWords_eq (pl := pl) hw h (List.replicate k none)
  refine ⟨n + k, ?_⟩
  unfold call
  simp only
  rw [hk, bind_ok, hn, bind_ok, List.replicate_add, ← List.append_assoc]
  cases f.ok <;> rfl

/-- **C109** is violated if the bytes beside the answer are not zero: a refused line is reported as right. -/
theorem C109_violated_answer (pl : Platform) (h : Heap) (f : Found) (high : Nat) (hh : high ≠ 0) (hf : f.ok = false) {r : Heap × Got}
    (hc : call pl h high f = .ok r) : r.2.ok = true := by
  unfold call at hc
  simp only at hc
  cases hm : message (fillMessage (fillWords h f.words .null 0).1 f.msg .null).1 (fillMessage (fillWords h f.words .null 0).1 f.msg .null).2 with
  | ok m =>
    rw [hm, bind_ok] at hc
    cases hw : takeWords pl m.1 (fillWords h f.words .null 0).2.1 (fillWords h f.words .null 0).2.2 with
    | ok w =>
      rw [hw, bind_ok] at hc
      injection hc with hc
      subst hc
      show answer high f.ok = true
      unfold answer
      rw [hf]
      simpa using hh
    | throw e => rw [hw] at hc; cases hc
    | ub => rw [hw] at hc; cases hc
  | throw e => rw [hm] at hc; cases hc
  | ub => rw [hm] at hc; cases hc

/-- The keys of variables are all different. -/
def OwnKeys (m : MacroMap ℚ) : Prop := (m.map (fun e => ((e.1.id : Int), e.1.line))).Nodup

/-- **C109** for the variables: the dictionary has exactly the values of the table. -/
theorem C109_macros (h : Heap) (m : MacroMap ℚ) (hm : OwnKeys m) :
    ∃ k d, macroValues h m = .ok (h ++ List.replicate k none, d) ∧ (∀ e ∈ m, entry d ((e.1.id : Int), e.1.line) = some e.2) ∧
      (∀ i l, (∀ e ∈ m, ((e.1.id : Int), e.1.line) ≠ (i, l)) → entry d (i, l) = none) := by
  by_cases h0 : m = []
  · subst h0
    refine ⟨0, [], by simp [macroValues, fillMacros], by simp, fun _ _ _ => rfl⟩
  · have hf : fillMacros h m .null .null .null = (h ++ [some (.ints (m.map (fun e => (e.1.id : Int)))),
        some (.ints (m.map (fun e => e.1.line))), some (.nums (m.map (·.2)))],
        .addr h.length, .addr (h.length + 1), .addr (h.length + 2), m.length) := by
      unfold fillMacros
      rw [if_neg h0]
      simp [alloc]
    obtain ⟨c1, c2, c3⟩ := three_cells h [] (.ints (m.map (fun e => (e.1.id : Int)))) (.ints (m.map (fun e => e.1.line))) (.nums (m.map (·.2)))
    rw [List.append_nil] at c1 c2 c3
    have hr : disposeMacros (h ++ [some (.ints (m.map (fun e => (e.1.id : Int)))), some (.ints (m.map (fun e => e.1.line))),
        some (.nums (m.map (·.2)))]) (.addr h.length) (.addr (h.length + 1)) (.addr (h.length + 2)) = .ok (h ++ List.replicate 3 none) := by
      unfold disposeMacros release3
      rw [release_at]
      simp only [Out.bind_ok]
      have s2 : ∀ (x y : Option Obj) (t : Heap), h ++ x :: y :: t = (h ++ [x]) ++ y :: t := by intros; simp
      have s1 : ∀ (x y z : Option Obj) (t : Heap), h ++ x :: y :: z :: t = (h ++ [x, y]) ++ z :: t := by intros; simp
      rw [s2, show h.length + 1 = (h ++ [(none : Option Obj)]).length by simp, release_at]
      simp only [Out.bind_ok]
      rw [← s2, s1, show h.length + 2 = (h ++ [(none : Option Obj), none]).length by simp, release_at]
      simp [List.replicate]
    have hz : (m.map (fun e => (e.1.id : Int))).zip (m.map (fun e => e.1.line)) = m.map (fun e => ((e.1.id : Int), e.1.line)) := by
      rw [List.zip_map', ]
    obtain ⟨es, hes⟩ : ∃ es : List ((Int × Int) × ℚ), es = m.map (fun e => (((e.1.id : Int), e.1.line), e.2)) := ⟨_, rfl⟩
    have k1 : es.map (·.1) = m.map (fun e => ((e.1.id : Int), e.1.line)) := by rw [hes, List.map_map]; rfl
    have k2 : es.map (·.2) = m.map (·.2) := by rw [hes, List.map_map]; rfl
    have kn : (es.map (·.1)).Nodup := by rw [k1]; exact hm
    refine ⟨3, putAll [] (es.map (·.1)) (es.map (·.2)), ?_, ?_, ?_⟩
    · unfold macroValues
      rw [hf]
      simp only
      rw [if_neg (fun h1 => h0 (List.length_eq_zero_iff.mp h1))]
      unfold intsAt numsAt
      rw [c1, c2, c3]
      simp only [List.length_map, le_refl, ↓reduceIte]
      rw [bind_ok, bind_ok, bind_ok, hr, bind_ok]
      rw [List.take_of_length_le (by simp), List.take_of_length_le (by simp), List.take_of_length_le (by simp), hz, k1, k2]
    · intro e he
      rw [entry_putAll _ _ _ kn]
      have : entry es (((e.1.id : Int), e.1.line), e.2).1 = some e.2 :=
        entry_mem kn (e := (((e.1.id : Int), e.1.line), e.2)) (by rw [hes]; exact List.mem_map.mpr ⟨e, he, rfl⟩)
      simp only at this
      rw [this]; rfl
    · intro i l hn
      rw [entry_putAll _ _ _ kn, entry_none]
      · rfl
      · intro x hx
        rw [hes] at hx
        obtain ⟨e, he, rfl⟩ := List.mem_map.mp hx
        exact hn e he

/-- **C109** for the variables of a line: they are entered into the caller's dictionary, and nothing else changes there. -/
theorem C109_line_macros (h : Heap) (m : MacroMap ℚ) (hm : OwnKeys m) (line junk : Int) (junkQ : ℚ) (d : List ((Int × Int) × ℚ)) :
    ∃ k d', lineMacroValues h m line junk junkQ d = .ok (h ++ List.replicate k none, (m.filter (fun e => decide (e.1.line = line))).length, d') ∧
      (∀ e ∈ m, e.1.line = line → entry d' ((e.1.id : Int), line) = some e.2) ∧
      (∀ i l, (∀ e ∈ m, e.1.line = line → ((e.1.id : Int), line) ≠ (i, l)) → entry d' (i, l) = entry d (i, l)) := by
  by_cases h0 : lineEntries m line = []
  · refine ⟨0, d, ?_, ?_, fun _ _ _ => rfl⟩
    · have : (m.filter (fun e => decide (e.1.line = line))).length = 0 := by
        rw [show m.filter (fun e => decide (e.1.line = line)) = [] from h0]; rfl
      rw [this]
      simp [lineMacroValues, fillLineMacros, h0]
    · intro e he hl
      have : e ∈ lineEntries m line := List.mem_filter.mpr ⟨he, by simpa using hl⟩
      rw [h0] at this; cases this
  · obtain ⟨ls, hls⟩ : ∃ ls, ls = lineEntries m line := ⟨_, rfl⟩
    rw [← hls] at h0
    have hlen : ls.length ≤ m.length := by rw [hls]; exact List.length_filter_le _ _
    have hf : fillLineMacros h m line junk junkQ .null .null = (h ++ [some (.ints (ls.map (fun e => (e.1.id : Int)) ++ List.replicate (m.length - ls.length) junk)),
        some (.nums (ls.map (·.2) ++ List.replicate (m.length - ls.length) junkQ))], .addr h.length, .addr (h.length + 1), ls.length) := by
      unfold fillLineMacros
      rw [← hls, if_neg h0]
      simp [alloc]
    have c1 : ∀ a b : Obj, cell (h ++ [some a, some b]) (.addr h.length) = some a := fun a b => cell_at h a [some b]
    have c2 : ∀ a b : Obj, cell (h ++ [some a, some b]) (.addr (h.length + 1)) = some b := by
      intro a b
      have := cell_at (h ++ [some a]) b []
      simpa using this
    have hr : ∀ a b : Obj, disposeMacros (h ++ [some a, some b]) (.addr h.length) .null (.addr (h.length + 1)) = .ok (h ++ List.replicate 2 none) := by
      intro a b
      unfold disposeMacros release3
      rw [release_at]
      simp only [Out.bind_ok, release]
      have := release_at (h ++ [(none : Option Obj)]) b []
      simp only [List.length_append, List.length_singleton, List.append_assoc, List.singleton_append] at this
      exact this
    obtain ⟨es, hes⟩ : ∃ es : List ((Int × Int) × ℚ), es = ls.map (fun e => (((e.1.id : Int), line), e.2)) := ⟨_, rfl⟩
    have hl : ∀ e ∈ ls, e ∈ m ∧ e.1.line = line := by
      intro e he
      rw [hls] at he
      obtain ⟨h1, h2⟩ := List.mem_filter.mp he
      exact ⟨h1, by simpa using h2⟩
    have k0 : es.map (·.1) = ls.map (fun e => ((e.1.id : Int), e.1.line)) := by
      rw [hes, List.map_map]
      exact List.map_congr_left (fun e he => by rw [(hl e he).2]; rfl)
    have k1 : es.map (·.1) = (ls.map (fun e => (e.1.id : Int))).map (fun i => (i, line)) := by rw [hes, List.map_map, List.map_map]; rfl
    have k2 : es.map (·.2) = ls.map (·.2) := by rw [hes, List.map_map]; rfl
    have kn : (es.map (·.1)).Nodup := by
      rw [k0, hls]
      exact List.Nodup.sublist (List.Sublist.map _ List.filter_sublist) hm
    refine ⟨2, putAll d (es.map (·.1)) (es.map (·.2)), ?_, ?_, ?_⟩
    · unfold lineMacroValues
      rw [hf]
      simp only
      rw [if_neg (fun h1 => h0 (List.length_eq_zero_iff.mp h1))]
      unfold intsAt numsAt
      rw [c1, c2]
      simp only
      rw [if_pos (by simp), if_pos (by simp), bind_ok, bind_ok, hr, bind_ok, List.take_left' (by simp), List.take_left' (by simp), k1, k2, hls]
      rfl
    · intro e he hle
      rw [entry_putAll _ _ _ kn]
      have : entry es (((e.1.id : Int), line), e.2).1 = some e.2 :=
        entry_mem kn (e := (((e.1.id : Int), line), e.2)) (by
          rw [hes]; exact List.mem_map.mpr ⟨e, by rw [hls]; exact List.mem_filter.mpr ⟨he, by simpa using hle⟩, rfl⟩)
      simp only at this
      rw [this]; rfl
    · intro i l hn
      rw [entry_putAll _ _ _ kn, entry_none (d := es)]
      · rfl
      · intro x hx
        rw [hes] at hx
        obtain ⟨e, he, rfl⟩ := List.mem_map.mp hx
        exact hn e (hl e he).1 (hl e he).2

/-- **C109** for the paths, the times and the ranges of the words. -/
theorem C109_path (pl : Platform) (h : Heap) (p t : Totals) (w u : List (Str × ℚ × ℚ × ℚ)) (pt tt : Str) (hp : Text (page pl) p.tool pt)
    (ht : Text (page pl) t.tool tt) (hw : List.Forall₂ (fun a b : Str × ℚ × ℚ × ℚ => Text (page pl) a.1 b.1 ∧ a.2 = b.2) w u) :
    ∃ k, pathValues pl h p t w = .ok (h ++ List.replicate k none, ⟨(p.nums, some pt), (t.nums, some tt), u.map (fun e => (some e.1, e.2))⟩) := by
  obtain ⟨A1, hA1⟩ : ∃ A : Heap, A = h ++ [some (.chars p.tool), some (.totals p.nums (.addr h.length))] := ⟨_, rfl⟩
  obtain ⟨A2, hA2⟩ : ∃ A : Heap, A = A1 ++ [some (.chars t.tool), some (.totals t.nums (.addr A1.length))] := ⟨_, rfl⟩
  obtain ⟨C, hC⟩ : ∃ C : Heap, C = w.map (fun e => some (.chars e.1)) := ⟨_, rfl⟩
  have hf : fillPath h p t w = (A2 ++ C ++ [some (.ranges (rangePtrs A2.length w))],
      ⟨.addr (h.length + 1), .addr (A1.length + 1), .addr (A2 ++ C).length, w.length⟩) := by
    simp only [fillPath, mkTotals, alloc, mkRanges_eq, hA2, hA1, hC]
    simp
  obtain ⟨R, hR⟩ : ∃ R : Heap, R = [some (.ranges (rangePtrs A2.length w))] := ⟨_, rfl⟩
  have e1 : A2 ++ C ++ R = h ++ some (.chars p.tool) :: some (.totals p.nums (.addr h.length)) ::
      ([some (.chars t.tool), some (.totals t.nums (.addr A1.length))] ++ C ++ R) := by simp [hA2, hA1]
  have e2 : A2 ++ C ++ R = A1 ++ some (.chars t.tool) :: some (.totals t.nums (.addr A1.length)) :: (C ++ R) := by simp [hA2]
  have t1 : totalsAt pl (A2 ++ C ++ R) (.addr (h.length + 1)) = .ok (p.nums, some pt) := by rw [e1]; exact totalsAt_at h _ _ hp
  have t2 : totalsAt pl (A2 ++ C ++ R) (.addr (A1.length + 1)) = .ok (t.nums, some tt) := by rw [e2]; exact totalsAt_at A1 _ _ ht
  have t3 : takeRanges pl (A2 ++ C ++ R) (.addr (A2 ++ C).length) w.length = .ok (u.map (fun e => (some e.1, e.2))) := by
    unfold takeRanges
    by_cases h0 : w.length = 0
    · rw [if_pos h0]
      have : u.length = 0 := by rw [← hw.length_eq]; exact h0
      rw [List.length_eq_zero_iff.mp this]; rfl
    · rw [if_neg h0, hR, cell_at]
      simp only
      rw [hC]
      exact rangesAt_eq hw A2 _
  obtain ⟨B1, hB1⟩ : ∃ B : Heap, B = h ++ [none, none] := ⟨_, rfl⟩
  obtain ⟨B2, hB2⟩ : ∃ B : Heap, B = B1 ++ [none, none] := ⟨_, rfl⟩
  have l1 : A1.length = B1.length := by simp [hA1, hB1]
  have l2 : A2.length = B2.length := by simp [hA2, hB2, l1]
  have d1 : disposeTotals (A2 ++ C ++ R) (.addr (h.length + 1)) =
      .ok (B1 ++ some (.chars t.tool) :: some (.totals t.nums (.addr B1.length)) :: (C ++ R)) := by
    rw [e1, disposeTotals_at, l1, hB1]
    simp
  have d2 : disposeTotals (B1 ++ some (.chars t.tool) :: some (.totals t.nums (.addr B1.length)) :: (C ++ R)) (.addr (B1.length + 1)) =
      .ok (B2 ++ C ++ R) := by
    rw [disposeTotals_at, hB2]; simp
  have d3 : disposeRanges (B2 ++ C ++ R) (.addr (B2 ++ C).length) w.length = .ok (B2 ++ List.replicate w.length none ++ [none]) := by
    unfold disposeRanges
    simp only
    have hc : cell (B2 ++ C ++ R) (.addr (B2 ++ C).length) = some (.ranges (rangePtrs B2.length w)) := by
      rw [hR, l2, cell_at]
    rw [hc]
    simp only
    have hfr := freeRanges_eq w B2 R
    rw [← hC] at hfr
    rw [hfr]
    simp only
    rw [show (B2 ++ C).length = (B2 ++ List.replicate w.length (none : Option Obj)).length by simp [hC], hR, release_at]
  refine ⟨4 + (w.length + 1), ?_⟩
  unfold pathValues
  rw [hf, ← hR]
  simp only
  rw [t1, bind_ok, t2, bind_ok, t3, bind_ok]
  have hd : disposePath (A2 ++ C ++ R) ⟨.addr (h.length + 1), .addr (A1.length + 1), .addr (A2 ++ C).length, w.length⟩ =
      .ok (B2 ++ List.replicate w.length none ++ [none]) := by
    unfold disposePath
    simp only
    rw [d1]
    simp only [Out.bind_ok]
    rw [l1, d2]
    simp only [Out.bind_ok]
    rw [show (A2 ++ C).length = (B2 ++ C).length by simp [l2], d3]
  rw [hd, bind_ok]
  congr 2
  rw [hB2, hB1, List.replicate_add]
  simp only [List.replicate, List.append_assoc, List.cons_append, List.nil_append]
  rw [← List.replicate_succ', List.replicate_succ]

/-- **C109** for files split into words. Missing: files without parts, whose arrays are not released. -/
theorem C109_split_partial (pl : Platform) (h : Heap) (ok : Bool) (r : List (List Block)) (ws : List (List (List (Str × Str)))) (m t : Str)
    (hr : r ≠ []) (hw : List.Forall₂ (List.Forall₂ (List.Forall₂ (fun (a : Attr) (w : Str × Str) =>
      Text (page pl) a.word w.1 ∧ Text (page pl) (Spec.Source.value a) w.2))) r ws)
    (h0 : '\x00' ∉ m) (ht : Utf8 t (m.map Char.toNat)) :
    ∃ k, split pl h 0 ok r m =
      .ok (h ++ List.replicate k none, ok, ws.map (List.map (List.map (fun w => (some w.1, some w.2)))), t) := by
  obtain ⟨k, hk⟩ := message_eq (fillSplit h r).1 h0 ht
  obtain ⟨n, _, hn⟩ := C40_split_released h (List.replicate k none) r
  have hmsg : ∃ B, (fillMessage (fillSplit h r).1 m .null).1 = (fillSplit h r).1 ++ B := by
    unfold fillMessage
    by_cases h1 : m = []
    · exact ⟨[], by rw [if_pos h1]; simp⟩
    · exact ⟨[some (.chars m)], by rw [if_neg h1]; rfl⟩
  obtain ⟨B, hB⟩ := hmsg
  have three := three_cells (h ++ wordCells r.flatten.flatten) B
    (.words (wordPtrs h.length r.flatten.flatten)) (.ints (r.map (fun p => (p.length : Int))))
    (.ints (r.flatten.map (fun b => (b.length : Int))))
  have three' := three_cells (h ++ wordCells r.flatten.flatten) (List.replicate k none)
    (.words (wordPtrs h.length r.flatten.flatten)) (.ints (r.map (fun p => (p.length : Int))))
    (.ints (r.flatten.map (fun b => (b.length : Int))))
  refine ⟨n + k, ?_⟩
  unfold split
  simp only
  rw [hk, hB]
  rw [fillSplit_eq] at hn ⊢
  simp only at hn ⊢
  unfold intsAt
  rw [three.2.1, three.2.2]
  simp only
  rw [if_pos (by simp), bind_ok, List.take_of_length_le (by simp), sum_lengths, if_pos (by rw [List.length_map]),
    bind_ok, bind_ok, List.take_of_length_le (by rw [List.length_map])]
  have hp : takeParts pl (h ++ wordCells r.flatten.flatten ++ [some (.words (wordPtrs h.length r.flatten.flatten)),
        some (.ints (r.map (fun p => (p.length : Int)))), some (.ints (r.flatten.map (fun b => (b.length : Int))))] ++ List.replicate k none)
      ⟨.addr (h ++ wordCells r.flatten.flatten).length, .addr ((h ++ wordCells r.flatten.flatten).length + 2),
       .addr ((h ++ wordCells r.flatten.flatten).length + 1), r.length⟩ (r.map (fun p => (p.length : Int)))
      (r.flatten.map (fun b => (b.length : Int))) = .ok (h ++ List.replicate n none ++ List.replicate k none, ws.map (List.map given)) := by
    unfold takeParts
    simp only
    rw [if_neg (fun h1 => hr (List.length_eq_zero_iff.mp h1)), three'.1]
    simp only
    have hq := partsAt_eq (pl := pl) hw h ([some (.words (wordPtrs h.length r.flatten.flatten)),
        some (.ints (r.map (fun p => (p.length : Int)))), some (.ints (r.flatten.map (fun b => (b.length : Int))))] ++ List.replicate k none)
    rw [← List.append_assoc] at hq
    rw [hq, bind_ok, hn, bind_ok]
  rw [hp, bind_ok, List.replicate_add, ← List.append_assoc]
  cases ok <;> rfl

/-- **C109** is violated by files without parts, as when the first line is refused: the three arrays are never released. -/
theorem C109_violated_split (pl : Platform) (h : Heap) (ok : Bool) (m t : Str) (h0 : '\x00' ∉ m) (ht : Utf8 t (m.map Char.toNat)) :
    ∃ a b c k, split pl h 0 ok [] m = .ok (h ++ [some a, some b, some c] ++ List.replicate k none, ok, [], t) := by
  obtain ⟨k, hk⟩ := message_eq (fillSplit h []).1 h0 ht
  have hmsg : ∃ B, (fillMessage (fillSplit h []).1 m .null).1 = (fillSplit h []).1 ++ B := by
    unfold fillMessage
    by_cases h1 : m = []
    · exact ⟨[], by rw [if_pos h1]; simp⟩
    · exact ⟨[some (.chars m)], by rw [if_neg h1]; rfl⟩
  obtain ⟨B, hB⟩ := hmsg
  refine ⟨.words [], .ints [], .ints [], k, ?_⟩
  have three := three_cells h B (.words []) (.ints []) (.ints [])
  have hf : fillSplit h [] = (h ++ [some (.words []), some (.ints []), some (.ints [])],
      ⟨.addr h.length, .addr (h.length + 2), .addr (h.length + 1), 0⟩) := by
    rw [fillSplit_eq]; simp [wordCells, wordPtrs]
  unfold split
  simp only
  rw [hk, hB, hf]
  simp only
  unfold intsAt
  rw [three.2.1, three.2.2]
  simp only [List.length_nil, le_refl, ↓reduceIte, List.take_nil]
  cases ok <;> rfl

/-- **C109** for files split into texts. Missing: parts without blocks, whose texts are never set. -/
theorem C109_texts_partial (pl : Platform) (h : Heap) (ok : Bool) (r : List (List Block)) (ts : List Str) (m t : Str)
    (hr : ∀ p ∈ r, p ≠ []) (hw : List.Forall₂ (fun p s => Text (page pl) (Spec.Source.text p) s) r ts)
    (h0 : '\x00' ∉ m) (ht : Utf8 t (m.map Char.toNat)) :
    ∃ k, Net.splitTexts pl h 0 ok r m = .ok (h ++ List.replicate k none, ok, ts.map some, t) := by
  have hne' : ∀ s ∈ r.map partText, s ≠ [] := by
    intro s hs
    obtain ⟨p, hp, rfl⟩ := List.mem_map.mp hs
    exact partText_ne (hr p hp)
  obtain ⟨k, hk⟩ := message_eq (fillTexts h r).1 h0 ht
  obtain ⟨_, n, hn⟩ := C40_texts_partial h (List.replicate k none) r hr
  have hmsg : ∃ B, (fillMessage (fillTexts h r).1 m .null).1 = (fillTexts h r).1 ++ B := by
    unfold fillMessage
    by_cases h1 : m = []
    · exact ⟨[], by rw [if_pos h1]; simp⟩
    · exact ⟨[some (.chars m)], by rw [if_neg h1]; rfl⟩
  obtain ⟨B, hB⟩ := hmsg
  obtain ⟨ss, hss⟩ : ∃ ss, ss = r.map partText := ⟨_, rfl⟩
  have hw' : List.Forall₂ (Text (page pl)) ss ts := by
    rw [hss, List.forall₂_map_left_iff]
    exact hw.imp (fun a b hab => by rw [partText_eq]; exact hab)
  have hfill : fillTexts h r = (h ++ ss.map (fun s => some (.chars s)) ++
      [some (.ptrs ((List.range ss.length).map (fun i => .addr (h.length + i))))],
      .addr (h ++ ss.map (fun s => some (Obj.chars s))).length, r.length) := by
    simp only [fillTexts, mkTexts_eq _ hne', alloc, hss]
  refine ⟨n + k, ?_⟩
  unfold Net.splitTexts
  simp only
  rw [hk, hB]
  rw [hfill] at hn ⊢
  simp only at hn ⊢
  have e : h ++ ss.map (fun s => some (Obj.chars s)) ++ [some (.ptrs ((List.range ss.length).map (fun i => .addr (h.length + i))))] ++ B =
      (h ++ ss.map (fun s => some (Obj.chars s))) ++ some (.ptrs ((List.range ss.length).map (fun i => .addr (h.length + i)))) :: B := by simp
  rw [e, cell_at]
  simp only
  rw [List.take_of_length_le (by simp [hss]), textsAt_eq hw' h, bind_ok, bind_ok, hn, bind_ok, List.replicate_add, ← List.append_assoc]
  cases ok <;> rfl

theorem textsAt_garbage (pl : Platform) (h : Heap) : ∀ ps : List Ptr, .garbage ∈ ps → textsAt pl h ps = .ub := by
  intro ps
  induction ps with
  | nil => intro hm; cases hm
  | cons p ps ih =>
    intro hm
    have two : textAt pl h p = .ub ∨ ∃ s, textAt pl h p = .ok s := by
      have hb : bytesAt h p = .ub ∨ ∃ s, bytesAt h p = .ok s := by
        unfold bytesAt
        split
        · exact Or.inr ⟨_, rfl⟩
        · exact Or.inl rfl
      unfold textAt
      cases p with
      | null => exact Or.inr ⟨_, rfl⟩
      | addr n =>
        rcases hb with hb | ⟨s, hb⟩
        · exact Or.inl (by simp only; rw [hb]; rfl)
        · exact Or.inr ⟨_, by simp only; rw [hb]; rfl⟩
      | garbage =>
        rcases hb with hb | ⟨s, hb⟩
        · exact Or.inl (by simp only; rw [hb]; rfl)
        · exact Or.inr ⟨_, by simp only; rw [hb]; rfl⟩
    unfold textsAt
    rcases List.mem_cons.mp hm with hp | hm
    · rw [← hp]; rfl
    · rcases two with hp | ⟨s, hp⟩
      · rw [hp]; rfl
      · rw [hp, bind_ok, ih hm]; rfl

/-- **C109** is violated by files split into texts with a part without blocks: a pointer is read that was never set. -/
theorem C109_violated_texts (pl : Platform) (h : Heap) (high : Nat) (ok : Bool) (r : List (List Block)) (m : Str) (hr : [] ∈ r) :
    Net.splitTexts pl h high ok r m = .ub := by
  have hg : .garbage ∈ (mkTexts h (r.map partText)).2 := mkTexts_garbage _ h (List.mem_map.mpr ⟨[], hr, rfl⟩)
  have hmsg : ∃ B, (fillMessage (fillTexts h r).1 m .null).1 = (fillTexts h r).1 ++ B := by
    unfold fillMessage
    by_cases h1 : m = []
    · exact ⟨[], by rw [if_pos h1]; simp⟩
    · exact ⟨[some (.chars m)], by rw [if_neg h1]; rfl⟩
  obtain ⟨B, hB⟩ := hmsg
  have hcell : cell ((fillTexts h r).1 ++ B) (fillTexts h r).2.1 = some (.ptrs (mkTexts h (r.map partText)).2) := by
    simp only [fillTexts, alloc, List.append_assoc, List.singleton_append]
    exact cell_at _ _ _
  have hlen : (mkTexts h (r.map partText)).2.length = (fillTexts h r).2.2 := by
    rw [mkTexts_length]; simp [fillTexts]
  unfold Net.splitTexts
  simp only
  rw [hB, hcell]
  simp only
  rw [List.take_of_length_le (le_of_eq hlen), textsAt_garbage pl _ _ hg]
  rfl

/-- That happens when a file is split at a text of its first line, and with every empty file. -/
example : (match (SplitFile.splitFile Pipe.demo { kind := .text, text := c!"X1" } ⟨Pipe.fresh Pipe.demo, {}⟩ [c!"G1 X1", c!"X2"]).2 with
    | .parts ([] :: _) _ => true
    | _ => false) = true := by decide +kernel

example : (SplitFile.splitFile Pipe.demo { kind := .tool } ⟨Pipe.fresh Pipe.demo, {}⟩ []).2 = .parts [[]] none := by decide +kernel

/-- The letter ą in UTF-8. -/
example : Utf8 [Char.ofNat 261] [0xC4, 0x85] := .cons (x := [0xC0 + 4, 0x80 + 5]) (y := []) (.two (by decide) (by decide) (by decide) (by decide)) .nil

/-- A Windows that knows ą as the byte 185. -/
def polishWindows : Platform :=
  .windows (fun c => if c = Char.ofNat 261 then Char.ofNat 185 else c) (fun c => if c = Char.ofNat 185 then Char.ofNat 261 else c)

/-- X-1.5 (ą) with the message ą. -/
def netFound : Found :=
  ⟨false, [.dec { word := c!"X", sign := some '-', value := some c!"1", dot := some '.', value2 := some c!"5" }, .str c!"(" [Char.ofNat 185]],
    [Char.ofNat 0xC4, Char.ofNat 0x85]⟩

/-- The caller gets X, -1.5, a comment with ą and the message ą; five arrays have been released. -/
example : call polishWindows [some (.ints [7])] 0 netFound =
    .ok ([some (.ints [7]), none, none, none, none, none, none],
      ⟨false, [(some c!"X", some c!"-1.5"), (some c!"(", some [Char.ofNat 261, ')'])], [Char.ofNat 261]⟩) := by decide +kernel

/-- A line that is refused is right for a caller that finds a 3 beside the answer. -/
example : (match call polishWindows [] 3 netFound with | .ok r => r.2.ok | _ => false) = true := by decide +kernel

/-- Two variables of a line of three. -/
example : lineMacroValues [] [(⟨1, 1⟩, 5), (⟨1, 2⟩, 6), (⟨2, 2⟩, 7)] 2 99 99 [((1, 2), 0)] =
    .ok ([none, none], 2, [((1, 2), 6), ((2, 2), 7)]) ∧ OwnKeys [(⟨1, 1⟩, 5), (⟨1, 2⟩, 6), (⟨2, 2⟩, 7)] := by
  unfold OwnKeys; decide +kernel

/-- Totals of path and time with their tools, and the range of X. -/
example : (match pathValues .linux [] ⟨[22, 17, 5, 22], c!"1"⟩ ⟨[3, 2, 1, 3], c!"1"⟩ [(c!"X", -6, 9, 9)] with
    | .ok r => decide (r.1 = [none, none, none, none, none, none]) && decide (r.2.ranges = [(some c!"X", -6, 9, 9)])
    | _ => false) = true := by decide +kernel

/-- A file with a faulty line has no parts. -/
example : (SplitFile.splitFile Pipe.demo { kind := .blocks, step := 5 } ⟨Pipe.fresh Pipe.demo, {}⟩ [c!"?"]).2 = .refused none := by
  decide +kernel

end NC.Props
