import Verif.Props.Hover
import Verif.Props.Config

/-!
# C74: a code is explained with its own description
-/

namespace NC.Props
open NC NC.Srv NC.Spec.Server NC.Demo

variable {S G C σ : Type} {W : World S G C σ}

theorem copied_ok {params : Json} {k : Str} {l : List (Str × Json)} (h : copied params k = .ok l) :
    l = [] ∨ ∃ v, l = [(k, v)] := by
  unfold copied at h
  rw [Out.bind_eq_ok] at h
  obtain ⟨r, -, h⟩ := h
  cases r with
  | none => cases h; exact .inl rfl
  | some v => cases h; exact .inr ⟨v, rfl⟩

/-- What a resolve request is answered with. -/
theorem resolve_full {st st' : Srv.St S G C} {d : Json} {outs : List Json} {l : Str}
    (hl : textAt [c!"params", c!"label"] d = some l) (h : resolve W st d = .ok (st', outs)) :
    ∃ id r dd, outs = [response id r] ∧ labelDesc W st l = .ok dd ∧ textAt [c!"label"] r = some l ∧
      path [c!"detail"] r = some (textOrNull dd.1) ∧ path [c!"documentation"] r = some (textOrNull dd.2) := by
  rw [textAt_eq] at hl
  obtain ⟨p, hp, hl⟩ := path_cons.mp hl
  simp only [resolve, Out.bind_eq_ok] at h
  obtain ⟨ji, hji, id, hi, b, hb, h⟩ := h
  have hb' : b = true := by
    cases d with
    | obj m =>
      simp only [Json.hasMember, Json.member?, Out.bind_ok] at hb
      simp only [path] at hp
      cases hq : Json.assoc c!"params" m with
      | none => rw [hq] at hp; cases hp
      | some v => rw [hq] at hb; cases hb; rfl
    | _ => cases hp
  subst hb'
  rw [if_pos rfl] at h
  simp only [Out.bind_eq_ok] at h
  obtain ⟨params, hp', label, hlab, fmt, hf, kind, hk, data, hd, l', hl', dd, hdd, h⟩ := h
  rw [get_ok] at hp' hlab
  rw [hp] at hp'; cases hp'
  rw [hl] at hlab; cases hlab
  cases hl'
  cases h
  refine ⟨id, _, dd, rfl, hdd, ?_, ?_, ?_⟩
  · rfl
  · rcases copied_ok hf with rfl | ⟨_, rfl⟩ <;> rcases copied_ok hk with rfl | ⟨_, rfl⟩ <;>
      rcases copied_ok hd with rfl | ⟨_, rfl⟩ <;> rfl
  · rcases copied_ok hf with rfl | ⟨_, rfl⟩ <;> rcases copied_ok hk with rfl | ⟨_, rfl⟩ <;>
      rcases copied_ok hd with rfl | ⟨_, rfl⟩ <;> rfl

/-- Two names of a code: as in the file, and with a leading zero. -/
def names (code : Str) : List Str :=
  code :: (if code.length = 1 ∨ code.length = 3 ∧ code[1]? = some '.' then ['0' :: code] else [])

theorem names_eq (code : Str) : names code = code :: (if hasSynonym code then ['0' :: code] else []) := by
  unfold names hasSynonym
  by_cases h : code.length = 1 ∨ code.length = 3 ∧ code[1]? = some '.'
  · rw [if_pos h, if_pos (by simpa using h)]
  · rw [if_neg h, if_neg (by simpa using h)]

theorem find_addTitles_other (code : Str) (k : Str) (hk : k ∉ names code) :
    ∀ (tds : List (Str × Str)) (m : List (Str × (Str × Str))), find k (addTitles code tds m) = find k m := by
  rw [names_eq] at hk
  simp only [List.mem_cons, not_or] at hk
  intro tds
  induction tds with
  | nil => intro m; rfl
  | cons td tds ih =>
    intro m
    rw [addTitles]
    rw [ih]
    split
    · next hs =>
      rw [hs] at hk
      simp only [if_true, List.mem_cons, List.not_mem_nil, or_false] at hk
      rw [find_emplace, find_emplace, if_neg hk.1, if_neg hk.2]; simp
    · rw [find_emplace, if_neg hk.1]; simp

/-- Names that are in the table keep their description. -/
theorem find_addTitles_some (code k : Str) (v : Str × Str) :
    ∀ (tds : List (Str × Str)) (m : List (Str × (Str × Str))), find k m = some v → find k (addTitles code tds m) = some v := by
  intro tds
  induction tds with
  | nil => intro m h; exact h
  | cons td tds ih =>
    intro m h
    rw [addTitles]
    apply ih
    split
    · rw [find_emplace, find_emplace, h]; rfl
    · rw [find_emplace, h]; rfl

theorem find_addTitles_new (code k : Str) (hk : k ∈ names code) (td : Str × Str) (tds : List (Str × Str))
    (m : List (Str × (Str × Str))) (h : ∀ k' ∈ names code, find k' m = none) :
    find k (addTitles code (td :: tds) m) = some td := by
  rw [names_eq] at hk h
  have hc : find code m = none := h code (by simp)
  have hc' : find code (emplace m code td) = some td := by rw [find_emplace, hc]; simp
  rw [addTitles]
  apply find_addTitles_some
  by_cases hs : hasSynonym code = true
  · rw [if_pos hs] at hk h ⊢
    rw [hc', find_emplace, find_emplace]
    simp only [List.mem_cons, List.not_mem_nil, or_false] at hk
    rcases hk with rfl | rfl
    · simp [hc]
    · have h0 := h ('0' :: code) (by simp)
      rw [h0, if_neg (by simp)]
      simp
  · rw [if_neg hs] at hk ⊢
    simp only [List.mem_cons, List.not_mem_nil, or_false] at hk
    subst hk
    exact hc'

theorem find_addCodes_other (k : Str) : ∀ (f : DescFile) (c : Codes), k ∉ offered f → find k (addCodes f c).desc = find k c.desc := by
  intro f
  induction f with
  | nil => intro c _; rfl
  | cons e f ih =>
    obtain ⟨code, tds⟩ := e
    intro c h
    unfold offered at h
    rw [List.flatMap_cons, List.mem_append, not_or] at h
    rw [addCodes, ih _ h.2]
    exact find_addTitles_other code k h.1 tds c.desc

/-- The table of a file without double names: each name of an entry has that
entry's first description. -/
theorem find_addCodes {f : DescFile} (hn : (offered f).Nodup) {code k : Str} {td : Str × Str} {tds : List (Str × Str)}
    (he : (code, td :: tds) ∈ f) (hk : k ∈ names code) :
    ∀ (c : Codes), (∀ k ∈ offered f, find k c.desc = none) → find k (addCodes f c).desc = some td := by
  induction f with
  | nil => cases he
  | cons e f ih =>
    intro c hc
    have hof : offered (e :: f) = names e.1 ++ offered f := by
      unfold offered; rw [List.flatMap_cons]; rfl
    rw [hof] at hn hc
    have hd := List.disjoint_of_nodup_append hn
    rcases List.mem_cons.mp he with rfl | he'
    · rw [addCodes, find_addCodes_other k f _ (hd hk)]
      exact find_addTitles_new code k hk td tds c.desc (fun k' h' => hc k' (List.mem_append_left _ h'))
    · obtain ⟨code', tds'⟩ := e
      rw [addCodes]
      refine ih (List.Nodup.of_append_right hn) he' _ ?_
      intro k' h'
      dsimp only
      rw [find_addTitles_other code' k' (fun q => hd q h')]
      exact hc k' (List.mem_append_right _ h')

/-- A text, or null for the empty text. -/
def TextOrNull (s : Str) (j : Json) : Prop := s ≠ [] ∧ j = .str s ∨ s = [] ∧ j = .null

theorem textOrNull_iff (s : Str) (j : Json) : textOrNull s = j ↔ TextOrNull s j := by
  unfold textOrNull TextOrNull
  by_cases h : s = [] <;> simp [h, eq_comm]

/-- The description file of a code letter. -/
def FileOf (F : Files S G C) (c : Char) (f : DescFile) : Prop :=
  (c ∈ ['G', 'g'] ∧ F.gDesc = .good f) ∨ (c ∈ ['M', 'm'] ∧ F.mDesc = .good f)

/-- C74: with readable files, and after any history, resolving a suggestion for
a code answers with title and text of the entry of that code in the description
file of its letter. -/
theorem C74_resolved (F : Files S G C) {s : S} {g : G} {gc mc : C} (hL : Loaded W F s g gc mc) (c : Char) (f : DescFile)
    (hf : FileOf F c f) (hn : (offered f).Nodup) (code k : Str) (td : Str × Str) (tds : List (Str × Str))
    (he : (code, td :: tds) ∈ f) (hk : k ∈ names code)
    (ds : List Json) {st st' : Srv.St S G C} {outs : List (List Json)} (h : run W {} (ds.map (F, ·)) = .ok (st, outs))
    (d : Json) (hm : method d = some c!"completionItem/resolve") (hl : textAt [c!"params", c!"label"] d = some (c :: k))
    {o : List Json} (ha : handle W F st d = .ok (st', o)) :
    ∃ id r t x, o = [response id r] ∧ textAt [c!"label"] r = some (c :: k) ∧ path [c!"detail"] r = some t ∧
      TextOrNull td.1 t ∧ path [c!"documentation"] r = some x ∧ TextOrNull td.2 x := by
  have hI := run_inv hL ds {} st outs h .start
  cases handle_step ha with
  | resolve _ hh =>
    obtain ⟨id, r, dd, rfl, h1, h2, h3, h4⟩ := resolve_full hl hh
    have hdd : dd = td := by
      rcases hf with ⟨hc, hf⟩ | ⟨hc, hf⟩
      · simp only [List.mem_cons, List.not_mem_nil, or_false] at hc
        simp only [labelDesc, if_pos hc] at h1
        rcases hI.gCodes with q | ⟨t, q, ht⟩
        · rw [q] at h1; cases h1
        · rw [hf] at ht; cases ht
          rw [q] at h1
          simp only [find_addCodes hn he hk {} (fun _ _ => rfl)] at h1
          cases h1; rfl
      · simp only [List.mem_cons, List.not_mem_nil, or_false] at hc
        have hc' : ¬ (c = 'G' ∨ c = 'g') := by rcases hc with rfl | rfl <;> decide
        simp only [labelDesc, if_neg hc', if_pos hc] at h1
        rcases hI.mCodes with q | ⟨t, q, ht⟩
        · rw [q] at h1; cases h1
        · rw [hf] at ht; cases ht
          rw [q] at h1
          simp only [find_addCodes hn he hk {} (fun _ _ => rfl)] at h1
          cases h1; rfl
    subst hdd
    exact ⟨id, r, _, _, rfl, h2, h3, (textOrNull_iff _ _).mp rfl, h4, (textOrNull_iff _ _).mp rfl⟩
  | quiet hq => exact absurd (by decide) (hq _ hm).1
  | text h' h'' => rw [hm] at h'; cases h'; exact absurd h'' (by decide)
  | _ h' => rw [hm] at h'; cases h'

/-- C74: the same for macros with a description of their own; user descriptions
come first. -/
theorem C74_resolved_macro (F : Files S G C) {s : S} {g : G} {gc mc : C} (hL : Loaded W F s g gc mc)
    (fb : DescFile) (fu : Option DescFile) (hb : F.macroDesc = .good fb) (hu : F.userDesc = fu.map File.good)
    {md : MacroDesc} (hM : readMacros W.logging F.userDesc F.macroDesc = .ok (md, none)) (k : Str) (td : Str × Str)
    (hd : described (fu.getD [] ++ fb) k = some td)
    (ds : List Json) {st st' : Srv.St S G C} {outs : List (List Json)} (h : run W {} (ds.map (F, ·)) = .ok (st, outs))
    (d : Json) (hm : method d = some c!"completionItem/resolve") (hl : textAt [c!"params", c!"label"] d = some ('#' :: k))
    {o : List Json} (ha : handle W F st d = .ok (st', o)) :
    ∃ id r t x, o = [response id r] ∧ textAt [c!"label"] r = some ('#' :: k) ∧ path [c!"detail"] r = some t ∧
      TextOrNull td.1 t ∧ path [c!"documentation"] r = some x ∧ TextOrNull td.2 x := by
  have hI := run_inv hL ds {} st outs h .start
  cases handle_step ha with
  | resolve _ hh =>
    obtain ⟨id, r, dd, rfl, h1, h2, h3, h4⟩ := resolve_full hl hh
    have hdd : dd = td := by
      have e1 : ¬ ('#' = 'G' ∨ '#' = 'g') := by decide
      have e2 : ¬ ('#' = 'M' ∨ '#' = 'm') := by decide
      simp only [labelDesc, if_neg e1, if_neg e2, if_true] at h1
      rcases hI.macroDesc with q | ⟨c, e, q, hc⟩
      · rw [q] at h1; cases h1
      · rw [hM] at hc; cases hc
        rw [q] at h1
        rw [hu, hb] at hM
        have := C09_exact hM k td hd
        simp only [this] at h1
        cases h1; rfl
    subst hdd
    exact ⟨id, r, _, _, rfl, h2, h3, (textOrNull_iff _ _).mp rfl, h4, (textOrNull_iff _ _).mp rfl⟩
  | quiet hq => exact absurd (by decide) (hq _ hm).1
  | text h' h'' => rw [hm] at h'; cases h'; exact absurd h'' (by decide)
  | _ h' => rw [hm] at h'; cases h'

/-! ## Hover -/

theorem extractCode_zeros (z : Nat) (k : Str) (hk : k ≠ []) (h0 : k.head? ≠ some '0' ∨ k.length = 1) :
    extractCode (List.replicate z '0' ++ k) = k := by
  induction z with
  | zero =>
    rcases k with _ | ⟨a, _ | ⟨b, k⟩⟩
    · exact absurd rfl hk
    · unfold extractCode; split <;> simp_all
    · rcases h0 with h0 | h0
      · unfold extractCode
        split
        · next q => cases q; exact absurd rfl h0
        · rfl
      · simp at h0
  | succ z ih =>
    rw [List.replicate_succ, List.cons_append]
    cases hq : List.replicate z '0' ++ k with
    | nil => simp at hq; exact absurd hq.2 hk
    | cons a r => rw [extractCode, ← hq, ih]

theorem fetchG_table {F : Files S G C} {st st' : Srv.St S G C} {c : Codes} (hI : Srv.Inv W F st)
    (h : fetchG F st = .ok (st', c)) : readCodes F.gDesc = .ok c := by
  obtain ⟨-, -, -, -, -, -, h⟩ := fetchG_ok h
  rcases h with ⟨q, -⟩ | ⟨-, q, -⟩
  · rcases hI.gCodes with q' | ⟨c', q', hc⟩
    · rw [q] at q'; cases q'
    · rw [q] at q'; cases q'; exact hc
  · exact q

theorem fetchM_table {F : Files S G C} {st s1 st' : Srv.St S G C} {c : Codes} (hI : Srv.Inv W F st)
    (h1 : s1.mCodes = st.mCodes) (h : fetchM F s1 = .ok (st', c)) : readCodes F.mDesc = .ok c := by
  obtain ⟨-, -, -, -, -, -, h⟩ := fetchM_ok h
  rcases h with ⟨q, -⟩ | ⟨-, q, -⟩
  · rw [h1] at q
    rcases hI.mCodes with q' | ⟨c', q', hc⟩
    · rw [q] at q'; cases q'
    · rw [q] at q'; cases q'; exact hc
  · exact q

/-- The text of a hover about a code: the code as written and its title in bold,
a rule, and the description with empty lines between its lines. -/
def hoverText (token title text : Str) : Str :=
  c!"**" ++ token ++ c!": " ++ title ++ c!"** \n\n---\n\n" ++ (text.map (fun x => if x = '\n' then c!"\n\n" else [x])).flatten

/-- C74: with readable files, after any history, hovering over a code (written
with any number of leading zeros) shows title and text of the entry of that code
in the description file of its letter. -/
theorem C74_hovered (F : Files S G C) {s : S} {g : G} {gc mc : C} (hL : Loaded W F s g gc mc) (c : Char) (f : DescFile)
    (hf : FileOf F c f) (hn : (offered f).Nodup) (code : Str) (td : Str × Str) (tds : List (Str × Str))
    (he : (code, td :: tds) ∈ f) (hne : code ≠ []) (h0 : code.head? ≠ some '0' ∨ code.length = 1) (z : Nat)
    (ds : List Json) (hcl : ∀ d ∈ ds, Clean d) {st st' : Srv.St S G C} {outs : List (List Json)}
    (h : run W {} (ds.map (F, ·)) = .ok (st, outs)) (u t : Str) (hu : latest u ds = some t) (hnu : ∀ c ∈ u, c.toNat ≠ 0)
    (d : Json) (hd : docUri d = some u) (hm : method d = some c!"textDocument/hover") (line ch : Int)
    (hpl : intAt [c!"params", c!"position", c!"line"] d = some line)
    (hpc : intAt [c!"params", c!"position", c!"character"] d = some ch) (hline : 0 ≤ line)
    {o : List Json} (ha : handle W F st d = .ok (st', o)) (l : Str) (hl : (contentLines t)[line.toNat]? = some l)
    (a b : Nat) (ht : TokenAt IsCode l a b) (hs : slice l a b = c :: (List.replicate z '0' ++ code))
    (h1 : (a : Int) ≤ ch) (h2 : ch < b) :
    ∃ id r, o = [response id r] ∧
      textAt [c!"contents"] r = some (hoverText (c :: (List.replicate z '0' ++ code)) td.1 td.2) := by
  have hI := run_inv hL ds {} st outs h .start
  cases handle_step ha with
  | hover _ hh =>
    obtain ⟨line', ch', uri, id, r, q1, q2, q3, q4, h5, rfl⟩ := hover_ok hh
    rw [hpl] at q1; cases q1
    rw [hpc] at q2; cases q2
    rw [hd] at q3; cases q3
    rw [cstr_of_clean hnu] at h5
    refine ⟨id, r, rfl, ?_⟩
    have hcl' : ∀ e ∈ ds.map (F, ·), Clean e.2 := by
      intro e he; obtain ⟨x, hx, rfl⟩ := List.mem_map.mp he; exact hcl x hx
    have hu' : latest u ((ds.map (F, ·)).map (·.2)) = some t := by
      rw [List.map_map]
      simpa [Function.comp_def] using hu
    have htext : textFor (ctxFor st u line) line = l := by
      rw [textFor_latest hcl' h u t hu' line hline, hl]; rfl
    have hsearch := (search_iff longest_code apart_code l ch ⟨a, b, slice l a b⟩).mpr ⟨ht, h1, h2, rfl⟩
    unfold hoverIn at h5
    dsimp only at h5
    rw [htext, hsearch] at h5
    simp only [Out.bind_eq_ok] at h5
    obtain ⟨⟨s1, cg⟩, e1, ⟨s2, cm⟩, e2, h5⟩ := h5
    cases h5
    have tg := fetchG_table hI e1
    have tm := fetchM_table hI (fetchG_ok e1).2.2.2.2.1 e2
    have hnm : code ∈ names code := by unfold names; simp
    have : describe c cg cm code (c :: (List.replicate z '0' ++ code)) =
        hoverText (c :: (List.replicate z '0' ++ code)) td.1 td.2 := by
      rcases hf with ⟨hc, hf⟩ | ⟨hc, hf⟩
      · simp only [List.mem_cons, List.not_mem_nil, or_false] at hc
        rw [hf] at tg; cases tg
        simp only [describe, if_pos hc, find_addCodes hn he hnm {} (fun _ _ => rfl)]
        rfl
      · simp only [List.mem_cons, List.not_mem_nil, or_false] at hc
        have hc' : ¬ (c = 'G' ∨ c = 'g') := by rcases hc with rfl | rfl <;> decide
        rw [hf] at tm; cases tm
        simp only [describe, if_neg hc', find_addCodes hn he hnm {} (fun _ _ => rfl)]
        rfl
    rw [← this]
    unfold hoverResult
    rw [hs]
    simp only [List.headD_cons, List.drop_succ_cons, List.drop_zero]
    rw [extractCode_zeros z code hne h0]
    rfl
  | quiet hq => exact absurd (by decide) (hq _ hm).1
  | text h' h'' => rw [hm] at h'; cases h'; exact absurd h'' (by decide)
  | _ h' => rw [hm] at h'; cases h'

/-- A resolve request. -/
def resolved (id : Int) (label : Str) : Json :=
  .obj [(c!"id", .int id), (c!"method", .str c!"completionItem/resolve"),
    (c!"params", .obj [(c!"label", .str label), (c!"data", .int 1)])]

/-- The hypotheses can be met: resolving after a completion, hovering over a code
with leading zeros. -/
example : (offered gFile).Nodup ∧ FileOf files 'G' gFile ∧ c!"00" ∈ names c!"0" ∧
    (∃ st outs st' r, run w0 {} ([opened c!"u" c!"X G000", completed 1].map (files, ·)) = .ok (st, outs) ∧
      handle w0 files st (resolved 2 c!"G00") = .ok (st', [response 2 r]) ∧
      path [c!"detail"] r = some (.str c!"Rapid") ∧ path [c!"documentation"] r = some (.str c!"Rapid traverse")) ∧
    (∃ st outs st' r, run w0 {} ([opened c!"u" c!"X G000"].map (files, ·)) = .ok (st, outs) ∧
      handle w0 files st (hovered 2 c!"u" 0 3) = .ok (st', [response 2 r]) ∧
      textAt [c!"contents"] r = some c!"**G000: Rapid** \n\n---\n\nRapid traverse") :=
  ⟨by decide, .inl ⟨by decide, rfl⟩, by decide, ⟨_, _, _, _, rfl, rfl, rfl, rfl⟩, ⟨_, _, _, _, rfl, rfl, rfl⟩⟩

end NC.Props
