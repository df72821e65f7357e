import Verif.Props.SimTools
import Verif.NumProofs

/-!
# Properties of the simulation of blocks: the tool in use
-/

namespace NC.Props
open NC NC.Path NC.Ver NC.AttrPath NC.Spec.Sim

section
variable {K : Type} [Field K] [LinearOrder K] [FloorRing K]

/-- The machine is a lathe. -/
def isLathe (c : Cfg K) : Bool := decide (c.mtype = .lathe)

omit [Field K] [LinearOrder K] [FloorRing K] in
theorem toolNumber_names (c : Cfg K) (v : Str) : Names (isLathe c) v (toolNumber c v) := by
  unfold toolNumber isLathe
  split
  · rename_i h
    obtain ⟨h1, h2⟩ := h
    have := Names.half (lathe := decide (c.mtype = .lathe)) (v.take (v.length / 2)) (v.drop (v.length / 2))
      (by simp [h1]) (by rw [List.length_take, List.length_drop]; omega)
      (by rw [List.length_take, List.length_drop]; omega)
    rwa [List.take_append_drop] at this
  · rename_i h
    rw [not_and_or] at h
    refine Names.whole v ?_
    rcases h with h | h
    · left; simpa using h
    · right; omega

omit [LinearOrder K] [FloorRing K] in
theorem readWord_toolNumber {c : Cfg K} (hc : AxesOk c) {d : Dec} {x : Act K} (h : readWord c d = .ok x) :
    toolOfAct x = if isTool d then [toolNumber c (d.value.getD [])] else [] := by
  by_cases ht : isTool d = true
  · rw [if_pos ht]
    unfold isTool at ht
    simp only [Bool.and_eq_true, decide_eq_true_eq] at ht
    obtain ⟨⟨⟨h1, h2⟩, h3⟩, h4⟩ := ht
    have hr : readWord c d = readTool c d := by
      unfold readWord
      rw [if_neg (by rw [h1]; exact code_ne_param hc (by decide)), if_pos h1]
    rw [hr] at h
    unfold readTool at h
    cases hq : d.value with
    | none => rw [hq] at h2; cases h2
    | some v =>
      rw [hq] at h
      dsimp only at h
      rw [h3, h4, if_neg (by simp)] at h
      cases h
      rfl
  · rw [if_neg ht]
    by_contra h'
    exact ht ((readWord_tool hc h).mp h')

omit [LinearOrder K] [FloorRing K] in
theorem visitAll_toolNumbers {c : Cfg K} (hc : AxesOk c) {v : Vis K} {b : Block} (h : visitAll c {} b = .ok v) :
    v.tools = ((words b).filter isTool).map (fun d => toolNumber c (d.value.getD [])) := by
  have := visitAll_words (P := fun ds r => r.tools = (ds.filter isTool).map (fun d => toolNumber c (d.value.getD [])))
    (by rfl) h [] rfl ?_ ?_ ?_
  · exact this
  · intro ds r d x _ hp hr
    rw [on_tools, hp, List.filter_append, List.map_append, readWord_toolNumber hc hr, List.filter_singleton]
    cases isTool d <;> rfl
  · intro ds r p m hp; exact hp
  · intro ds r hp; exact hp

omit [LinearOrder K] [FloorRing K] in
/-- The tool a block takes. -/
theorem visitAll_chosen {c : Cfg K} (hc : AxesOk c) {v : Vis K} {b : Block} (h : visitAll c {} b = .ok v) :
    (if atTool c v then toolOf v else none) =
      (chosen c.toolExchanges b).map (fun d => toolNumber c (d.value.getD [])) := by
  have hT := visitAll_toolNumbers hc h
  have hM := visitAll_isM6 hc h
  unfold chosen
  rw [← hM]
  cases hm : v.m6 with
  | true =>
    rw [if_pos rfl]
    have ht : toolOf v = v.tools.head? := by unfold toolOf; rw [hm, if_pos rfl]
    rw [← List.head?_map, ← hT, ← ht]
    by_cases ha : atTool c v = true
    · rw [if_pos ha]
    · rw [if_neg ha]
      cases hq : toolOf v with
      | none => rfl
      | some t => exact absurd ((toolOf_atTool hq).mpr (Or.inr hm)) ha
  | false =>
    have hf : ∀ a b : Option Dec, (if false = true then a else b) = b := fun _ _ => rfl
    rw [hf]
    have ht : toolOf v = v.tools.getLast? := by unfold toolOf; rw [hm, if_neg (by simp)]
    cases he : c.toolExchanges with
    | true =>
      rw [if_pos rfl, ← List.getLast?_map, ← hT, ← ht]
      by_cases ha : atTool c v = true
      · rw [if_pos ha]
      · rw [if_neg ha]
        cases hq : toolOf v with
        | none => rfl
        | some t => exact absurd ((toolOf_atTool hq).mpr (Or.inl he)) ha
    | false =>
      rw [hf]
      have hno : ¬ atTool c v = true := by
        intro ha
        cases hq : toolOf v with
        | none =>
          unfold atTool at ha
          rw [he, hm, hq] at ha
          simp at ha
        | some t =>
          rcases (toolOf_atTool hq).mp ha with h' | h'
          · rw [he] at h'; cases h'
          · rw [hm] at h'; cases h'
      rw [if_neg hno]
      rfl

omit [FloorRing K] in
theorem ready_tool (c : Cfg K) (v : Vis K) (s : St K) :
    (started c v (dwell v (exchanged c v (begun c v s)))).tool = (toolOf v).getD s.tool := by
  have h0 : (exchanged c v (begun c v s)).tool = (toolOf v).getD s.tool := by
    unfold exchanged
    split
    · rename_i h; rw [h]; exact (begun_kept c v s).2.1
    · rename_i t h; rw [h]; exact (fetchTool_kept c _).1
  obtain ⟨y, hy⟩ := dwell_fields v (exchanged c v (begun c v s))
  have h1 : (dwell v (exchanged c v (begun c v s))).tool = (toolOf v).getD s.tool := by rw [hy]; exact h0
  unfold started
  split
  · exact h1
  · split
    · exact h1
    · exact h1

/-- The tool after a block that was accepted. -/
theorem eval_tool {F : Fns K} {c : Cfg K} (hc : AxesOk c) {inch : Inch} {b : Block} {s s' : St K}
    (hg : s.g = -1 ∨ Good s.g) (h : Eval F c inch b s (.ok ()) s') :
    s'.tool = ((chosen c.toolExchanges b).map (fun d => toolNumber c (d.value.getD []))).getD s.tool := by
  generalize ho : (Out.ok () : Out Exc Unit) = o at h
  cases h with
  | empty hb => subst hb; simp [chosen, words]; rfl
  | unread e _ => cases ho
  | unreadUb _ => cases ho
  | alone v t hv ht ha hw =>
    rw [← visitAll_chosen hc hv, ha, if_neg (by simp)]
    exact ((fetchTool_kept c (storeTool c (begun c v s))).1).trans (begun_kept c v s).2.1
  | aloneErr v t n hv ht ha hw => cases ho
  | badTool v t e hv ht ha hq => cases ho
  | badToolUb v t hv ht ha hq => cases ho
  | before v hv ht ha hb hr hgg hvg =>
    rw [← visitAll_chosen hc hv, ha, if_neg (by simp)]
    obtain ⟨y, hy⟩ := dwell_fields v (begun c v s)
    rw [hy]
    exact (begun_kept c v s).2.1
  | halt v S M o hb hv ht hS hn hm ho' =>
    have r := ready_tool c v s
    have hgd := good_ready (c := c) (v := v) (s := s) hg
    rw [← hS] at r hgd
    have hcs : (if atTool c v then toolOf v else none) = toolOf v := by
      cases hq : toolOf v with
      | none => simp
      | some t => rw [(ht t hq).1, if_pos rfl]
    rcases finish_ok ho.symm with h | h
    · exact absurd h ho'
    · subst h
      obtain ⟨m1, _⟩ := motion_false (hgd hn (visitAll_good (by intro g hg; cases hg) hv)) hm
      rw [m1, r, ← visitAll_chosen hc hv, hcs]
  | done v S M s' o hb hv ht hS hn hm ha =>
    have r := ready_tool c v s
    rw [← hS] at r
    have hcs : (if atTool c v then toolOf v else none) = toolOf v := by
      cases hq : toolOf v with
      | none => simp
      | some t => rw [(ht t hq).1, if_pos rfl]
    have hM := motion_only F c v (current v S) S
    rw [hm] at hM
    obtain ⟨w, f, cy, h1, x, hM⟩ := hM
    dsimp only at hM
    rw [← visitAll_chosen hc hv, hcs, ← r]
    have hT : M.tool = S.tool := by rw [hM]
    rw [← hT]
    rw [account_eq] at ha
    split at ha
    · cases ha
      unfold savePositions
      split
      · rfl
      · split
        · rfl
        · rfl
    · cases ha; cases ho
    · cases ha; cases ho

/-- **C78.** After a block that exchanges the tool, the tool reported is the one its T word names; after every
other block it is the tool reported before. -/
theorem C78_block (F : Fns K) {c : Cfg K} (hx : AxesOk c) (inch : Inch) (line : Int) (b : Block)
    (p : St K × MacroMap ℚ) (hp : Inv p.1) (hi : p.1.path.toolId = p.1.tool)
    (h : (evaluate F c inch line b p).2 = .ok ()) :
    (∀ d, chosen c.toolExchanges b = some d →
      ∃ v, d.value = some v ∧ Names (isLathe c) v (evaluate F c inch line b p).1.1.path.toolId) ∧
    (chosen c.toolExchanges b = none → (evaluate F c inch line b p).1.1.path.toolId = p.1.path.toolId) := by
  have hE := evaluate_eval F c inch line b p
  rw [h] at hE
  have h1 := eval_tool hx hp.good hE
  have h2 := (eval_kept hi hp.good hE).1
  rw [h2, h1]
  refine ⟨fun d hd => ?_, fun hn => ?_⟩
  · have hd' : isTool d = true := by
      unfold chosen at hd
      split at hd
      · exact (List.mem_filter.mp (List.mem_of_mem_head? hd)).2
      · split at hd
        · exact (List.mem_filter.mp (List.mem_of_mem_getLast? hd)).2
        · cases hd
    unfold isTool at hd'
    simp only [Bool.and_eq_true, decide_eq_true_eq] at hd'
    obtain ⟨v, hv⟩ := Option.isSome_iff_exists.mp hd'.1.1.2
    refine ⟨v, hv, ?_⟩
    rw [hd, Option.map_some, Option.getD_some, hv]
    exact toolNumber_names c v
  · rw [hn, hi]; rfl

/-- **C78.** After a program without errors the tool reported is the one named by the last T word that exchanged
a tool, if there was one. -/
theorem C78_program (F : Fns K) {c : Cfg K} (hc : WF c) (hx : AxesOk c) (inch : Inch) (prog : Prog) (m : MacroMap ℚ)
    (h : AllOk F c inch prog (initial c, m)) :
    (∀ d, (prog.filterMap (fun x => chosen c.toolExchanges x.2)).getLast? = some d →
      ∃ v, d.value = some v ∧ Names (isLathe c) v (final F c inch prog (initial c, m)).1.path.toolId) ∧
    (prog.filterMap (fun x => chosen c.toolExchanges x.2) = [] →
      (final F c inch prog (initial c, m)).1.path.toolId = []) := by
  have key : ∀ (prog : Prog) (p : St K × MacroMap ℚ), Inv p.1 → p.1.path.toolId = p.1.tool → AllOk F c inch prog p →
      (∀ d, (prog.filterMap (fun x => chosen c.toolExchanges x.2)).getLast? = some d →
        ∃ v, d.value = some v ∧ Names (isLathe c) v (final F c inch prog p).1.path.toolId) ∧
      (prog.filterMap (fun x => chosen c.toolExchanges x.2) = [] →
        (final F c inch prog p).1.path.toolId = p.1.path.toolId) := by
    intro prog
    induction prog with
    | nil => intro p _ _ _; exact ⟨fun d hd => (nomatch hd), fun _ => rfl⟩
    | cons x l ih =>
      intro p hp hi ha
      obtain ⟨b1, b2⟩ := C78_block F hx inch x.1 x.2 p hp hi ha.1
      have hE := evaluate_eval F c inch x.1 x.2 p
      rw [ha.1] at hE
      obtain ⟨i1, i2⟩ := ih _ (evaluate_inv F hc inch x.1 x.2 p hp) (eval_kept hi hp.good hE).1 ha.2
      have fn : final F c inch (x :: l) p = final F c inch l (evaluate F c inch x.1 x.2 p).1 := rfl
      rw [fn]
      have hf : List.filterMap (fun x => chosen c.toolExchanges x.2) (x :: l) =
          match chosen c.toolExchanges x.2 with
          | none => List.filterMap (fun x => chosen c.toolExchanges x.2) l
          | some e => e :: List.filterMap (fun x => chosen c.toolExchanges x.2) l := by
        rw [List.filterMap_cons]; cases chosen c.toolExchanges x.2 <;> rfl
      rw [hf]
      cases hx : chosen c.toolExchanges x.2 with
      | none =>
        exact ⟨i1, fun hn => (i2 hn).trans (b2 hx)⟩
      | some e =>
        refine ⟨fun d hd => ?_, fun hn => (nomatch hn)⟩
        by_cases hl : l.filterMap (fun x => chosen c.toolExchanges x.2) = []
        · rw [hl] at hd
          cases hd
          rw [i2 hl]
          exact b1 e hx
        · rw [List.getLast?_cons_of_ne_nil hl] at hd
          exact i1 d hd
  exact key prog (initial c, m) (initial_inv hc) rfl h

/-! ## The variables of the tool number -/

/-- The variables a controller keeps the tool number in. -/
def toolVariable (i : Nat) : Prop := i = 4120 ∨ i = 4320 ∨ i = 4520

omit [Field K] [LinearOrder K] [FloorRing K] in
theorem get_toolMacros {m : MacroMap ℚ} (hm : m.Sorted) (line : Int) (q : ℚ) (k : MKey) :
    (toolVariable k.id ∧ k.line = line → (toolMacros m line q).get k = some q) ∧
    (¬ (toolVariable k.id ∧ k.line = line) → (toolMacros m line q).get k = m.get k) := by
  have s1 := MacroMap.sorted_assign hm ⟨4120, line⟩ q
  have s2 := MacroMap.sorted_assign s1 ⟨4320, line⟩ q
  unfold toolMacros toolVariable
  rw [MacroMap.get_assign s2, MacroMap.get_assign s1, MacroMap.get_assign hm]
  obtain ⟨i, l⟩ := k
  dsimp only
  simp only [MKey.mk.injEq]
  constructor
  · rintro ⟨h | h | h, rfl⟩ <;> subst h <;> simp
  · intro h
    rw [if_neg (fun e => h ⟨Or.inr (Or.inr e.1), e.2⟩), if_neg (fun e => h ⟨Or.inr (Or.inl e.1), e.2⟩),
      if_neg (fun e => h ⟨Or.inl e.1, e.2⟩)]

/-- The variables after a block. -/
theorem evaluate_variables (F : Fns K) {c : Cfg K} (hx : AxesOk c) (inch : Inch) (line : Int) (b : Block)
    (p : St K × MacroMap ℚ) :
    ((evaluate F c inch line b p).1.2 = p.2 ∨ ∃ d q, chosen c.toolExchanges b = some d ∧
      stodE (toolNumber c (d.value.getD [])) = .ok q ∧ (evaluate F c inch line b p).1.2 = toolMacros p.2 line q) ∧
    ((evaluate F c inch line b p).2 = .ok () → chosen c.toolExchanges b = none ∨ ∃ d q, chosen c.toolExchanges b = some d ∧
      stodE (toolNumber c (d.value.getD [])) = .ok q ∧ (evaluate F c inch line b p).1.2 = toolMacros p.2 line q) := by
  unfold evaluate
  dsimp only
  split
  · rename_i hb
    subst hb
    exact ⟨Or.inl rfl, fun _ => Or.inl (by cases c.toolExchanges <;> rfl)⟩
  · rename_i hb
    cases hv : visitAll c {} b with
    | throw e => exact ⟨Or.inl rfl, fun h => by cases h⟩
    | ub => exact ⟨Or.inl rfl, fun h => by cases h⟩
    | ok v =>
      dsimp only
      have hch := visitAll_chosen hx hv
      unfold evalVis toolPart
      dsimp only
      cases ht : toolOf v with
      | none =>
        rw [ht, ite_self] at hch
        dsimp only
        have hn := Option.map_eq_none_iff.mp hch.symm
        exact ⟨Or.inl rfl, fun _ => Or.inl hn⟩
      | some t =>
        rw [ht] at hch
        dsimp only
        by_cases h : c.toolExchanges = true ∨ v.m6 = true
        · rw [if_pos h]
          have hat := (toolOf_atTool ht).mpr h
          rw [hat, if_pos rfl] at hch
          obtain ⟨d, hd, hdt⟩ := Option.map_eq_some_iff.mp hch.symm
          cases hq : stodE t with
          | throw e => exact ⟨Or.inl rfl, fun h => by cases h⟩
          | ub => exact ⟨Or.inl rfl, fun h => by cases h⟩
          | ok q =>
            dsimp only
            have hal : ∀ S, tAlone c v S = (S, .ok true) := by
              intro S; unfold tAlone; rw [if_pos hat]
            rw [hal]
            dsimp only
            have : ∃ d q, chosen c.toolExchanges b = some d ∧ stodE (toolNumber c (d.value.getD [])) = .ok q ∧
                toolMacros p.2 line q = toolMacros p.2 line q := ⟨d, q, hd, by rw [hdt]; exact hq, rfl⟩
            exact ⟨Or.inr ⟨d, q, hd, by rw [hdt]; exact hq, rfl⟩, fun _ => Or.inr ⟨d, q, hd, by rw [hdt]; exact hq, rfl⟩⟩
        · rw [if_neg h]
          have hat : ¬ atTool c v = true := fun e => h ((toolOf_atTool ht).mp e)
          rw [if_neg hat] at hch
          have hn := Option.map_eq_none_iff.mp hch.symm
          dsimp only
          unfold tAlone
          rw [if_neg hat]
          cases tWithG v with
          | none => exact ⟨Or.inl rfl, fun _ => Or.inl hn⟩
          | some n => exact ⟨Or.inl rfl, fun _ => Or.inl hn⟩

/-- **C78.** After a tool exchange the three variables of the tool number hold, from the line of the block on, the
number of the tool now in use. -/
theorem C78_variables (F : Fns K) {c : Cfg K} (hx : AxesOk c) (inch : Inch) (line : Int) (b : Block)
    (p : St K × MacroMap ℚ) (hm : p.2.Sorted) (hp : Inv p.1) (hi : p.1.path.toolId = p.1.tool) {d : Dec}
    (hd : chosen c.toolExchanges b = some d) (hv : ∀ v, d.value = some v → v ≠ [] ∧ ∀ x ∈ v, isDig x = true)
    (h : (evaluate F c inch line b p).2 = .ok ()) {i : Nat} (ht : toolVariable i) :
    (evaluate F c inch line b p).1.2.get ⟨i, line⟩ =
      some (readNat (evaluate F c inch line b p).1.1.path.toolId : ℚ) := by
  obtain ⟨d', q, hd', hq, e⟩ := ((evaluate_variables F hx inch line b p).2 h).resolve_left (by rw [hd]; simp)
  rw [hd] at hd'
  cases hd'
  have hE := evaluate_eval F c inch line b p
  rw [h] at hE
  have h1 := eval_tool hx hp.good hE
  have h2 := (eval_kept hi hp.good hE).1
  rw [hd, Option.map_some, Option.getD_some] at h1
  obtain ⟨v, hdv, _⟩ := (C78_block F hx inch line b p hp hi h).1 d hd
  obtain ⟨v1, v2⟩ := hv v hdv
  rw [hdv, Option.getD_some] at hq h1
  have hne : toolNumber c v ≠ [] ∧ AllDig (toolNumber c v) := by
    unfold toolNumber
    split
    · rename_i hl
      refine ⟨?_, fun x hx => v2 x (List.mem_of_mem_take hx)⟩
      intro e0
      have := congrArg List.length e0
      rw [List.length_take] at this
      simp only [List.length_nil] at this
      omega
    · exact ⟨v1, v2⟩
  have hs := stod_int false hne.2 hne.1
  have hq2 : q = (readNat (toolNumber c v) : ℚ) := by
    unfold stodE at hq
    have hs' : stod (toolNumber c v) = .ok (readNat (toolNumber c v) : ℚ) := hs
    rw [hs'] at hq
    cases hq
    rfl
  rw [e, (get_toolMacros hm line q ⟨i, line⟩).1 ⟨ht, rfl⟩, h2, h1, hq2]

/-- **C78.** No block changes any other variable, or those of the tool number on another line; a block that does
not exchange the tool changes none. -/
theorem C78_other_variables (F : Fns K) {c : Cfg K} (hx : AxesOk c) (inch : Inch) (line : Int) (b : Block)
    (p : St K × MacroMap ℚ) (hm : p.2.Sorted) (k : MKey)
    (hk : chosen c.toolExchanges b = none ∨ ¬ (toolVariable k.id ∧ k.line = line)) :
    (evaluate F c inch line b p).1.2.get k = p.2.get k := by
  rcases (evaluate_variables F hx inch line b p).1 with e | ⟨d, q, hd, _, e⟩
  · rw [e]
  · rw [e]
    rcases hk with hk | hk
    · rw [hd] at hk; cases hk
    · exact (get_toolMacros hm line q k).2 hk

end

section
open SimDemo

/-- A lathe that exchanges tools by T alone. -/
def turret : Cfg ℚ := { mill with mtype := .lathe, toolExchanges := true }

/-- `C78_block`, `C78_variables`: on a lathe T0212 takes tool 02 with offset 12. -/
example : chosen turret.toolExchanges [w c!"T" c!"0212"] = some { word := c!"T", value := some c!"0212" } ∧
    (evaluate qf turret false 7 [w c!"T" c!"0212"] (start turret)).2 = .ok () ∧
    (evaluate qf turret false 7 [w c!"T" c!"0212"] (start turret)).1.1.path.toolId = c!"02" ∧
    (evaluate qf turret false 7 [w c!"T" c!"0212"] (start turret)).1.2.get ⟨4120, 7⟩ = some 2 := by decide +kernel

/-- `C78_block`: T1 M6 T2 takes T1 and only prepares T2. -/
example : chosen false [w c!"T" c!"1", w c!"M" c!"6", w c!"T" c!"2"] = some { word := c!"T", value := some c!"1" } ∧
    (evaluate qf mill false 7 [w c!"T" c!"1", w c!"M" c!"6", w c!"T" c!"2"] (start mill)).2 = .ok () ∧
    (evaluate qf mill false 7 [w c!"T" c!"1", w c!"M" c!"6", w c!"T" c!"2"] (start mill)).1.1.path.toolId = c!"1" := by
  decide +kernel

/-- `C78_program`: T1 is taken, then T2 is taken. -/
example :
    let prog : Prog := [(1, [w c!"T" c!"1", w c!"M" c!"6"]), (2, [w c!"X" c!"1"]), (3, [w c!"M" c!"6", w c!"T" c!"2"]),
      (4, [w c!"X" c!"2"])]
    AllOk qf mill false prog (start mill) ∧
    (prog.filterMap (fun x => chosen mill.toolExchanges x.2)).getLast? = some { word := c!"T", value := some c!"2" } ∧
    (final qf mill false prog (start mill)).1.path.toolId = c!"2" := by
  refine ⟨?_, by decide +kernel, by decide +kernel⟩
  simp only [AllOk]
  decide +kernel

/-- **C78, violated.** A tool prepared by T in one block is not taken by M6 in a later one: the exchange is timed
but the tool reported stays the old one. -/
theorem C78_violated_prepared :
    let prog : Prog := [(1, [w c!"T" c!"1", w c!"M" c!"6"]), (2, [w c!"T" c!"2"]), (3, [w c!"M" c!"6"])]
    (final qf mill false (prog.take 1) (start mill)).1.path.toolId = c!"1" ∧
    (final qf mill false prog (start mill)).1.path.toolId = c!"1" ∧
    (final qf mill false (prog.take 1) (start mill)).1.time.total = some (5 + 4) ∧
    (final qf mill false prog (start mill)).1.time.total = some (5 + 4 + 5) ∧
    AllOk qf mill false prog (start mill) := by
  refine ⟨by decide +kernel, by decide +kernel, by decide +kernel, by decide +kernel, ?_⟩
  simp only [AllOk]
  decide +kernel

end
end NC.Props
