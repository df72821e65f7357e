import Verif.SplitterProofs

/-! # Properties C22, C23, C53, C54: splitting programs -/

namespace NC.Props
open NC NC.Splitter NC.Spec.Split

/-- A word with a plain number, for the examples. -/
private def w (c : Char) (v : Str) : Attr :=
  .dec { word := [c], value := some v }

private def cfg0 : Splitter.Cfg := ⟨false, false, false⟩

/-- C22 (block count). -/
theorem C22_lossless_by_count (c : Splitter.Cfg) (n : Int) (ro : Bool) (rp : Option Block) (prog : List Block)
    (parts : List (List Block)) (h : byCount c n ro rp prog = .ok parts) :
    ∃ pieces, pieces.flatten = prog ∧ Dressed rp pieces parts ∧ ∀ q ∈ pieces.tail, q ≠ [] := by
  unfold byCount at h
  split at h
  · cases h
  · obtain ⟨p, ps, h1, h2, h3⟩ := loop_ok (lift_eq_ok.mp h)
    exact ⟨p :: ps, by simpa using h1, h2 ▸ dressed_buildFrom rp p ps, h3.nonempty⟩

/-- C22 (tool change). -/
theorem C22_lossless_by_tool (c : Splitter.Cfg) (rp : Option Block) (prog : List Block)
    (parts : List (List Block)) (h : byTool c rp prog = .ok parts) :
    ∃ pieces, pieces.flatten = prog ∧ Dressed rp pieces parts ∧ ∀ q ∈ pieces.tail, q ≠ [] := by
  obtain ⟨p, ps, h1, h2, h3⟩ := loop_ok (lift_eq_ok.mp h)
  exact ⟨p :: ps, by simpa using h1, h2 ▸ dressed_buildFrom rp p ps, h3.nonempty⟩

/-- C22 (path length and machining time). -/
theorem C22_lossless_by_work (c : Splitter.Cfg) (lim : Int) (ro : Bool) (work : List ℚ) (rp : Option Block)
    (prog : List Block) (parts : List (List Block)) (h : byWork c lim ro work rp prog = .ok parts) :
    ∃ pieces, pieces.flatten = prog ∧ Dressed rp pieces parts ∧ ∀ q ∈ pieces.tail, q ≠ [] := by
  unfold byWork at h
  split at h
  · cases h
  · obtain ⟨p, ps, h1, h2, h3⟩ := loop_ok (lift_eq_ok.mp h)
    exact ⟨p :: ps, by simpa using h1, h2 ▸ dressed_buildFrom rp p ps, h3.nonempty⟩

/-- C22 (text), with the place of the cuts: exactly before the lines that
contain the text. -/
theorem C22_lossless_by_text (text : Str) (rp : Option Str) (lines : List Str) :
    ∃ pieces, pieces.flatten = lines ∧ Dressed rp pieces (byText text rp lines) ∧
      (∀ x ∈ pieces.headD [], ¬ text <:+: x) ∧
      ∀ q ∈ pieces.tail, ∃ x t, q = x :: t ∧ text <:+: x ∧ ∀ y ∈ t, ¬ text <:+: y := by
  obtain ⟨p, ps, h1, h2, h3, h4⟩ := textLoop_ok (text := text) (rp := rp) (xs := lines) (cur := [])
  exact ⟨p :: ps, by simpa using h1, by unfold byText; rw [h2]; exact dressed_buildFrom rp p ps, h3, h4⟩

/-- C22: when the numbers of the G and M words are readable, a split by tool never fails and the others fail
exactly if the number of blocks or the amount is not positive; so the theorems above are not about failing calls
only. -/
theorem C22_succeeds (c : Splitter.Cfg) (n : Int) (ro : Bool) (work : List ℚ) (rp : Option Block)
    (prog : List Block)
    (h : ∀ b ∈ prog, ∀ (d : Dec) (v : Str), Attr.dec d ∈ b → d.word = ['G'] ∨ d.word = ['M'] →
      d.value = some v → ∃ k, stoi v = .ok k) :
    ((∃ o, byCount c n ro rp prog = .ok o) ↔ 0 < n) ∧ (∃ o, byTool c rp prog = .ok o) ∧
    ((∃ o, byWork c n ro work rp prog = .ok o) ↔ 0 < n) := by
  have hs : ∀ b ∈ prog, ∀ st : Splitter.St, ∃ st', scan c st b = .ok st' := fun b hb => scan_ok (h b hb)
  unfold byCount byTool byWork
  refine ⟨⟨?_, ?_⟩, ?_, ⟨?_, ?_⟩⟩
  · rintro ⟨o, ho⟩
    by_contra hn
    rw [if_pos (by omega)] at ho; cases ho
  · intro hn
    rw [if_neg (by omega)]
    obtain ⟨o, ho⟩ := loop_succeeds (ctl := countCtl n ro) (rp := rp) (k := 0) (st := {}) (i := 0) (cur := []) hs
    exact ⟨o, by rw [ho]; rfl⟩
  · obtain ⟨o, ho⟩ := loop_succeeds (ctl := toolCtl) (rp := rp) (k := ()) (st := {}) (i := 0) (cur := []) hs
    exact ⟨o, by rw [ho]; rfl⟩
  · rintro ⟨o, ho⟩
    by_contra hn
    rw [if_pos (by omega)] at ho; cases ho
  · intro hn
    rw [if_neg (by omega)]
    obtain ⟨o, ho⟩ := loop_succeeds (ctl := workCtl n ro work) (rp := rp) (k := 0) (st := {}) (i := 0) (cur := []) hs
    exact ⟨o, by rw [ho]; rfl⟩

/-- Three blocks by two, with a retraction block. -/
example : byCount cfg0 2 false (some [w 'Z' c!"9"]) [[w 'X' c!"1"], [w 'X' c!"2"], [w 'X' c!"3"]] =
    .ok [[[w 'X' c!"1"], [w 'X' c!"2"], [w 'Z' c!"9"]], [[w 'Z' c!"9"], [w 'X' c!"3"]]] := by decide +kernel

/-- C23: splitting by n blocks, every part but the last one has at least n
blocks (whatever the program). -/
theorem C23_at_least (c : Splitter.Cfg) (n : Int) (ro : Bool) (rp : Option Block) (prog : List Block)
    (parts : List (List Block)) (h : byCount c n ro rp prog = .ok parts) :
    ∃ pieces, pieces.flatten = prog ∧ Dressed rp pieces parts ∧ ∀ q ∈ pieces.dropLast, n ≤ (q.length : Int) := by
  unfold byCount at h
  split at h
  · cases h
  · obtain ⟨p, ps, h1, h2, h3⟩ := loop_ok (lift_eq_ok.mp h)
    refine ⟨p :: ps, by simpa using h1, h2 ▸ dressed_buildFrom rp p ps, ?_⟩
    obtain ⟨a, b⟩ := h3.count_ge
    intro q hq
    cases ps with
    | nil => simp at hq
    | cons q' ps =>
      rw [List.dropLast_cons_of_ne_nil (by simp)] at hq
      rcases List.mem_cons.mp hq with rfl | hq
      · simpa using a (by simp)
      · exact b q hq

/-- C23: exactly n blocks, and at most n in the last part, when the program
uses no drilling cycle and cuts are not restricted to rapid motions. -/
theorem C23_exact (c : Splitter.Cfg) (n : Int) (rp : Option Block) (prog : List Block)
    (hc : ∀ b ∈ prog, ∀ m ∈ motions b, isCycle m = false ∧ m ≠ 80)
    (parts : List (List Block)) (h : byCount c n false rp prog = .ok parts) :
    ∃ pieces, pieces.flatten = prog ∧ Dressed rp pieces parts ∧
      (∀ q ∈ pieces.dropLast, (q.length : Int) = n) ∧ ∀ q ∈ pieces, (q.length : Int) ≤ n := by
  unfold byCount at h
  split at h
  · cases h
  · rename_i hn
    obtain ⟨p, ps, h1, h2, h3⟩ := loop_ok (lift_eq_ok.mp h)
    have hle := h3.count_le (bs := prog) (by omega) (P := fun st => st.drill = false)
      (fun st st' b hb hd hs => scan_no_cycle hd (hc b hb) hs) (by omega) rfl (fun b hb => h1 ▸ hb)
    obtain ⟨a, b⟩ := h3.count_ge
    refine ⟨p :: ps, by simpa using h1, h2 ▸ dressed_buildFrom rp p ps, ?_, ?_⟩
    · intro q hq
      cases ps with
      | nil => simp at hq
      | cons q' ps =>
        rw [List.dropLast_cons_of_ne_nil (by simp)] at hq
        rcases List.mem_cons.mp hq with rfl | hq
        · have := a (by simp)
          have := hle.1
          omega
        · have := b q hq
          have := hle.2 q (List.mem_of_mem_dropLast hq)
          omega
    · intro q hq
      rcases List.mem_cons.mp hq with rfl | hq
      · have := hle.1; omega
      · exact hle.2 q hq

example : ∀ b ∈ [[w 'G' c!"1", w 'X' c!"1"], [w 'G' c!"54"]], ∀ m ∈ motions b, isCycle m = false ∧ m ≠ 80 := by
  decide +kernel

/-- C23: only a drilling cycle puts a cut off: a block that follows n or more blocks in its part is under a
drilling cycle or ends one. -/
theorem C23_only_cycles_delay (c : Splitter.Cfg) (n : Int) (rp : Option Block) (prog : List Block)
    (parts : List (List Block)) (h : byCount c n false rp prog = .ok parts) :
    ∃ pieces, pieces.flatten = prog ∧ Dressed rp pieces parts ∧
      ∀ (before : List (List Block)) (u : List Block) (b : Block) (v : List Block) (later : List (List Block)),
        pieces = before ++ (u ++ b :: v) :: later → n ≤ (u.length : Int) →
        ∃ m, motionAfter (before.flatten ++ u ++ [b]) = some m ∧ (isCycle m = true ∨ m = 80) := by
  unfold byCount at h
  split at h
  · cases h
  · obtain ⟨p, ps, h1, h2, h3⟩ := loop_ok (lift_eq_ok.mp h)
    refine ⟨p :: ps, by simpa using h1, h2 ▸ dressed_buildFrom rp p ps, ?_⟩
    obtain ⟨a, b⟩ := h3.count_over (by omega) [] init_late
    intro before u x v later he hle
    cases before with
    | nil =>
      simp only [List.nil_append, List.cons.injEq] at he
      obtain ⟨rfl, rfl⟩ := he
      simpa using a u x v rfl (by simpa using hle)
    | cons p' before =>
      simp only [List.cons_append, List.cons.injEq] at he
      obtain ⟨rfl, he⟩ := he
      simpa using b before u x v later he hle

/-- After the cycle is ended the program is cut again. -/
example : byCount cfg0 1 false none [[w 'G' c!"81", w 'X' c!"1"], [w 'X' c!"2"], [w 'G' c!"80"], [w 'X' c!"3"], [w 'X' c!"4"]] =
    .ok [[[w 'G' c!"81", w 'X' c!"1"], [w 'X' c!"2"], [w 'G' c!"80"]], [[w 'X' c!"3"]], [[w 'X' c!"4"]]] := by
  decide +kernel

/-- C23: no cut falls inside a modal drilling cycle: if the motion in effect
before a part is a drilling cycle, the part starts with a block that selects
another motion.  For block count, path length and time alike. -/
theorem C23_not_in_cycle (c : Splitter.Cfg) (n : Int) (ro : Bool) (work : List ℚ) (rp : Option Block)
    (prog : List Block) (parts : List (List Block))
    (h : byCount c n ro rp prog = .ok parts ∨ byWork c n ro work rp prog = .ok parts) :
    ∃ pieces, pieces.flatten = prog ∧ Dressed rp pieces parts ∧
      ∀ (before : List (List Block)) (b : Block) (q : List Block) (later : List (List Block)) (m : Int),
        pieces = before ++ (b :: q) :: later → before ≠ [] →
        motionAfter before.flatten = some m → isCycle m = true → motions b ≠ [] := by
  have main : ∀ {κ : Type} (ctl : Ctl κ) (k : κ) (p : List Block) (ps : List (List Block)),
      (∀ k st, ctl.keep k st = false → inCycle st = false) → Cuts c ctl k {} 0 p ps →
      ∀ (before : List (List Block)) (b : Block) (q : List Block) (later : List (List Block)) (m : Int),
        p :: ps = before ++ (b :: q) :: later → before ≠ [] →
        motionAfter before.flatten = some m → isCycle m = true → motions b ≠ [] := by
    intro κ ctl k p ps hk hcuts before b q later m he hb hm hcy hmo
    cases before with
    | nil => exact hb rfl
    | cons p' before =>
      simp only [List.cons_append, List.cons.injEq] at he
      obtain ⟨rfl, he⟩ := he
      obtain ⟨k', st', st'', ha, hs, hke⟩ := hcuts.cut_cond [] init_agree before b q later he
      simp only [List.nil_append] at ha
      rw [List.flatten_cons] at hm
      have := scan_cycle ha hm hcy hmo hs
      rw [hk _ _ hke] at this
      cases this
  rcases h with h | h
  · unfold byCount at h
    split at h
    · cases h
    · obtain ⟨p, ps, h1, h2, h3⟩ := loop_ok (lift_eq_ok.mp h)
      exact ⟨p :: ps, by simpa using h1, h2 ▸ dressed_buildFrom rp p ps,
        main _ _ _ _ (fun k st hk => keepCond_false_cycle hk) h3⟩
  · unfold byWork at h
    split at h
    · cases h
    · obtain ⟨p, ps, h1, h2, h3⟩ := loop_ok (lift_eq_ok.mp h)
      exact ⟨p :: ps, by simpa using h1, h2 ▸ dressed_buildFrom rp p ps,
        main _ _ _ _ (fun k st hk => keepCond_false_cycle hk) h3⟩

/-- The drilling block and its repetition stay together though n = 1. -/
example : byCount cfg0 1 false none [[w 'G' c!"81", w 'X' c!"1"], [w 'X' c!"2"], [w 'G' c!"0"]] =
    .ok [[[w 'G' c!"81", w 'X' c!"1"], [w 'X' c!"2"]], [[w 'G' c!"0"]]] := by decide +kernel

example : motionAfter [[w 'G' c!"81", w 'X' c!"1"], [w 'X' c!"2"]] = some 81 := by decide +kernel

/-- C23: restricted to rapid motions, a part other than the first starts with
a block under G0. -/
theorem C23_rapid_only (c : Splitter.Cfg) (n : Int) (work : List ℚ) (rp : Option Block)
    (prog : List Block) (parts : List (List Block))
    (h : byCount c n true rp prog = .ok parts ∨ byWork c n true work rp prog = .ok parts) :
    ∃ pieces, pieces.flatten = prog ∧ Dressed rp pieces parts ∧
      ∀ (before : List (List Block)) (b : Block) (q : List Block) (later : List (List Block)),
        pieces = before ++ (b :: q) :: later → before ≠ [] →
        motionAfter (before.flatten ++ [b]) = some 0 := by
  have main : ∀ {κ : Type} (ctl : Ctl κ) (k : κ) (p : List Block) (ps : List (List Block)),
      (∀ k st, ctl.keep k st = false → st.activeG = 0) → Cuts c ctl k {} 0 p ps →
      ∀ (before : List (List Block)) (b : Block) (q : List Block) (later : List (List Block)),
        p :: ps = before ++ (b :: q) :: later → before ≠ [] →
        motionAfter (before.flatten ++ [b]) = some 0 := by
    intro κ ctl k p ps hk hcuts before b q later he hb
    cases before with
    | nil => exact absurd rfl hb
    | cons p' before =>
      simp only [List.cons_append, List.cons.injEq] at he
      obtain ⟨rfl, he⟩ := he
      obtain ⟨k', st', st'', ha, hs, hke⟩ := hcuts.cut_cond [] init_agree before b q later he
      simp only [List.nil_append] at ha
      have h0 := hk _ _ hke
      have := (scan_agree ha hs).mot (by omega) (by omega)
      rw [List.flatten_cons, motionAfter_snoc, this, h0]
  have hk : ∀ below st, keepCond true below st = false → st.activeG = 0 := by
    intro below st h
    simp only [keepCond, Bool.or_eq_false_iff, Bool.true_and, decide_eq_false_iff_not, not_not] at h
    exact h.2
  rcases h with h | h
  · unfold byCount at h
    split at h
    · cases h
    · obtain ⟨p, ps, h1, h2, h3⟩ := loop_ok (lift_eq_ok.mp h)
      exact ⟨p :: ps, by simpa using h1, h2 ▸ dressed_buildFrom rp p ps, main _ _ _ _ (fun k st => hk _ st) h3⟩
  · unfold byWork at h
    split at h
    · cases h
    · obtain ⟨p, ps, h1, h2, h3⟩ := loop_ok (lift_eq_ok.mp h)
      exact ⟨p :: ps, by simpa using h1, h2 ▸ dressed_buildFrom rp p ps, main _ _ _ _ (fun k st => hk _ st) h3⟩

/-- C53: splitting by tool change, the first part has at most one tool
exchange and every other part exactly one, in its first block. -/
theorem C53_tool_parts (c : Splitter.Cfg) (rp : Option Block) (prog : List Block)
    (parts : List (List Block)) (h : byTool c rp prog = .ok parts) :
    ∃ first rest, first ++ rest.flatten = prog ∧ Dressed rp (first :: rest) parts ∧
      first.countP (exchanges c.toolNumberExchanges) ≤ 1 ∧
      ∀ q ∈ rest, ∃ b t, q = b :: t ∧ exchanges c.toolNumberExchanges b = true ∧
        ∀ x ∈ t, exchanges c.toolNumberExchanges x = false := by
  obtain ⟨p, ps, h1, h2, h3⟩ := loop_ok (lift_eq_ok.mp h)
  exact ⟨p, ps, h1, h2 ▸ dressed_buildFrom rp p ps, by simpa using h3.tool.1, h3.tool.2⟩

example : byTool cfg0 none [[w 'M' c!"6"], [w 'X' c!"1"], [w 'T' c!"2", w 'M' c!"06"], [w 'X' c!"2"]] =
    .ok [[[w 'M' c!"6"], [w 'X' c!"1"]], [[w 'T' c!"2", w 'M' c!"06"], [w 'X' c!"2"]]] := by decide +kernel

/-- C53: and nothing is cut off before the first exchange: if no block asks for two exchanges and there are further parts, the first part
has exactly one exchange. -/
theorem C53_first_part (c : Splitter.Cfg) (rp : Option Block) (prog : List Block)
    (parts : List (List Block)) (h : byTool c rp prog = .ok parts) (h1 : ∀ b ∈ prog, timesAsked c.toolNumberExchanges b ≤ 1) :
    ∃ first rest, first ++ rest.flatten = prog ∧ Dressed rp (first :: rest) parts ∧
      (rest ≠ [] → first.countP (exchanges c.toolNumberExchanges) = 1) := by
  obtain ⟨p, ps, e, h2, h3⟩ := loop_ok (lift_eq_ok.mp h)
  refine ⟨p, ps, e, h2 ▸ dressed_buildFrom rp p ps, fun hr => ?_⟩
  have a : p.countP (exchanges c.toolNumberExchanges) ≤ 1 := by simpa using h3.tool.1
  have b := h3.tool_first (e ▸ h1) hr
  have z : ({} : St).toolCnt = 0 := rfl
  rw [z] at b
  omega

/-- No block of the program asks twice. -/
example : ∀ b ∈ ([[w 'M' c!"6"], [w 'X' c!"1"], [w 'T' c!"2", w 'M' c!"06"], [w 'X' c!"2"]] : List Block), timesAsked false b ≤ 1 := by decide +kernel

/-- A first block that asks twice is cut off from what is before it. -/
example : byTool cfg0 none [[w 'X' c!"1"], [w 'M' c!"6", w 'M' c!"6"]] = .ok [[[w 'X' c!"1"]], [[w 'M' c!"6", w 'M' c!"6"]]] := by decide +kernel

/-- C54: splitting by path length or time, every part but the last one
contains at least the requested amount of work motion. -/
theorem C54_at_least (c : Splitter.Cfg) (lim : Int) (ro : Bool) (work : List ℚ) (rp : Option Block)
    (prog : List Block) (parts : List (List Block)) (h : byWork c lim ro work rp prog = .ok parts) :
    ∃ pieces, pieces.flatten = prog ∧ Dressed rp pieces parts ∧
      ∀ (before : List (List Block)) (q : List Block) (later : List (List Block)),
        pieces = before ++ q :: later → later ≠ [] →
        (lim : ℚ) ≤ workOf work before.flatten.length q.length := by
  unfold byWork at h
  split at h
  · cases h
  · obtain ⟨p, ps, h1, h2, h3⟩ := loop_ok (lift_eq_ok.mp h)
    refine ⟨p :: ps, by simpa using h1, h2 ▸ dressed_buildFrom rp p ps, ?_⟩
    intro before q later he hl
    obtain ⟨a, b⟩ := h3.work_ge
    cases before with
    | nil =>
      simp at he; obtain ⟨rfl, rfl⟩ := he
      simpa using a hl
    | cons p' before =>
      simp only [List.cons_append, List.cons.injEq] at he
      obtain ⟨rfl, he⟩ := he
      simpa using b before q later he hl

/-- C54: and no part keeps going after the limit is reached (no drilling
cycles, cuts not restricted to rapid motions). -/
theorem C54_no_more_than_needed (c : Splitter.Cfg) (lim : Int) (work : List ℚ) (rp : Option Block)
    (prog : List Block) (parts : List (List Block))
    (hc : ∀ b ∈ prog, ∀ m ∈ motions b, isCycle m = false ∧ m ≠ 80)
    (h : byWork c lim false work rp prog = .ok parts) :
    ∃ pieces, pieces.flatten = prog ∧ Dressed rp pieces parts ∧
      ∀ (before : List (List Block)) (q : List Block) (later : List (List Block)),
        pieces = before ++ q :: later →
        ∀ j, 0 < j → j < q.length → workOf work before.flatten.length j < lim := by
  unfold byWork at h
  split at h
  · cases h
  · obtain ⟨p, ps, h1, h2, h3⟩ := loop_ok (lift_eq_ok.mp h)
    refine ⟨p :: ps, by simpa using h1, h2 ▸ dressed_buildFrom rp p ps, ?_⟩
    intro before q later he j hj hjq
    obtain ⟨a, b⟩ := h3.work_lt (bs := prog) (P := fun st => st.drill = false)
      (fun st st' b hb hd hs => scan_no_cycle hd (hc b hb) hs) rfl (fun b hb => h1 ▸ hb)
    cases before with
    | nil =>
      simp at he; obtain ⟨rfl, rfl⟩ := he
      simpa using a j hjq
    | cons p' before =>
      simp only [List.cons_append, List.cons.injEq] at he
      obtain ⟨rfl, he⟩ := he
      simpa using b before q later he j hj hjq

/-- C54: only a drilling cycle puts a cut off: a block that follows the limit or more in its part is under a drilling
cycle or ends one. -/
theorem C54_only_cycles_delay (c : Splitter.Cfg) (lim : Int) (work : List ℚ) (rp : Option Block)
    (prog : List Block) (parts : List (List Block)) (h : byWork c lim false work rp prog = .ok parts) :
    ∃ pieces, pieces.flatten = prog ∧ Dressed rp pieces parts ∧
      ∀ (before : List (List Block)) (u : List Block) (b : Block) (v : List Block) (later : List (List Block)),
        pieces = before ++ (u ++ b :: v) :: later → (lim : ℚ) ≤ workOf work before.flatten.length u.length →
        ∃ m, motionAfter (before.flatten ++ u ++ [b]) = some m ∧ (isCycle m = true ∨ m = 80) := by
  unfold byWork at h
  split at h
  · cases h
  · rename_i hl
    obtain ⟨p, ps, h1, h2, h3⟩ := loop_ok (lift_eq_ok.mp h)
    refine ⟨p :: ps, by simpa using h1, h2 ▸ dressed_buildFrom rp p ps, ?_⟩
    obtain ⟨a, b⟩ := h3.work_over (by exact_mod_cast not_le.mp hl) [] init_late
    intro before u x v later he hle
    cases before with
    | nil =>
      simp only [List.nil_append, List.cons.injEq] at he
      obtain ⟨rfl, rfl⟩ := he
      simpa using a u x v rfl (by simpa using hle)
    | cons p' before =>
      simp only [List.cons_append, List.cons.injEq] at he
      obtain ⟨rfl, he⟩ := he
      simpa using b before u x v later he (by simpa using hle)

example : byWork cfg0 10 false [6, 6, 1] none [[w 'X' c!"6"], [w 'X' c!"12"], [w 'X' c!"13"]] =
    .ok [[[w 'X' c!"6"], [w 'X' c!"12"]], [[w 'X' c!"13"]]] := by decide +kernel

/-- C55: restricted to rapid motions, the cut is made at the first block under
G0 once n blocks are reached.  Proved when rapid traverse is not configured to
cancel cycles; otherwise see `C55_violated`. -/
theorem C55_first_rapid_block_partial (c : Splitter.Cfg) (hc : c.rapidCancels = false) (n : Int)
    (rp : Option Block) (prog : List Block) (parts : List (List Block))
    (h : byCount c n true rp prog = .ok parts) :
    ∃ pieces, pieces.flatten = prog ∧ Dressed rp pieces parts ∧
      ∀ (before : List (List Block)) (u : List Block) (b : Block) (v : List Block) (later : List (List Block)),
        pieces = before ++ (u ++ b :: v) :: later → n ≤ (u.length : Int) →
        motionAfter (before.flatten ++ u ++ [b]) ≠ some 0 := by
  unfold byCount at h
  split at h
  · cases h
  · rename_i hn
    obtain ⟨p, ps, h1, h2, h3⟩ := loop_ok (lift_eq_ok.mp h)
    refine ⟨p :: ps, by simpa using h1, h2 ▸ dressed_buildFrom rp p ps, ?_⟩
    obtain ⟨a, b⟩ := h3.rapid hc (by omega) [] (by simp [motionAfter])
    intro before u x v later he hle
    cases before with
    | nil =>
      simp only [List.nil_append, List.cons.injEq] at he
      obtain ⟨rfl, rfl⟩ := he
      simpa using a u x v rfl (by omega)
    | cons p' before =>
      simp only [List.cons_append, List.cons.injEq] at he
      obtain ⟨rfl, he⟩ := he
      simpa using b before u x v later he hle

/-- With a work coordinate selection after G0, the splitter no longer sees the
rapid motion when rapid traverse cancels cycles: no cut although G0 is in
effect . -/
theorem C55_violated : ¬ ∀ (c : Splitter.Cfg) (n : Int) (prog : List Block) (parts : List (List Block)),
    byCount c n true none prog = .ok parts →
    (∀ b ∈ prog, ∀ m ∈ motions b, m = 0) → motionAfter (prog.take 1) = some 0 →
    ∀ q ∈ parts, (q.length : Int) ≤ n := by
  intro h
  have := h ⟨true, false, false⟩ 1
    [[w 'G' c!"0", w 'X' c!"1"], [w 'G' c!"54", w 'X' c!"2"], [w 'X' c!"3"]]
    [[[w 'G' c!"0", w 'X' c!"1"], [w 'G' c!"54", w 'X' c!"2"], [w 'X' c!"3"]]]
    (by decide +kernel) (by decide +kernel) (by decide +kernel)
    [[w 'G' c!"0", w 'X' c!"1"], [w 'G' c!"54", w 'X' c!"2"], [w 'X' c!"3"]] (by decide +kernel)
  simp at this

end NC.Props
