import Verif.Props.Server
import Verif.TokenProofs

/-!
# Hover: C48, and the answering part of C04
-/

namespace NC.Props
open NC NC.Srv NC.Spec.Server NC.Demo

variable {S G C σ : Type} {W : World S G C σ}

/-- Kinds of token that hover knows. -/
def Hoverable (t : Str) : Prop := IsCode t ∨ IsCodeMacro t ∨ IsMacro t

/-- A longest token of one of the kinds. -/
def HoverToken (line : Str) (a b : Nat) : Prop :=
  TokenAt IsCode line a b ∨ TokenAt IsCodeMacro line a b ∨ TokenAt IsMacro line a b

/-- The contents shown begin with the token, possibly in bold type. -/
def Shows (contents tok : Str) : Prop := tok <+: contents ∨ c!"**" ++ tok <+: contents

theorem describe_shows (c : Char) (g m : Codes) (code tok more : Str) : Shows (describe c g m code (tok ++ more)) tok := by
  have h1 : ∀ t d, Shows (markdown (tok ++ more) t d) tok := by
    intro t d
    right
    unfold markdown
    refine ⟨more ++ c!": " ++ t ++ c!"** \n\n---\n\n" ++ doubleNewlines d, ?_⟩
    simp [List.append_assoc]
  unfold describe
  split
  · split
    · exact h1 _ _
    · exact .inl ⟨more, rfl⟩
  · split
    · exact h1 _ _
    · exact .inl ⟨more, rfl⟩

theorem macroHover_shows {md : Option MacroDesc} {mm : MacroMap ℚ} {line : Int} {tok c : Str}
    (h : macroHover W md mm line tok = .ok c) : Shows c tok := by
  unfold macroHover at h
  dsimp only at h
  rw [Out.bind_eq_ok] at h
  obtain ⟨id, -, h⟩ := h
  cases md with
  | none => cases h
  | some md =>
    simp only [Out.bind_eq_ok] at h
    obtain ⟨d, -, h⟩ := h
    have h1 : ∀ x t d, Shows (markdown (tok ++ x) t d) tok := by
      intro x t d
      right
      unfold markdown
      refine ⟨x ++ c!": " ++ t ++ c!"** \n\n---\n\n" ++ doubleNewlines d, ?_⟩
      simp [List.append_assoc]
    cases hv : mm.valueAt id (line + 1) with
    | none =>
      rw [hv] at h
      split at h
      · cases h; simpa using h1 [] d.1 d.2
      · cases h; exact .inl ⟨_, rfl⟩
    | some q =>
      rw [hv] at h
      split at h
      · cases h; dsimp only; rw [List.append_assoc]; exact h1 _ _ _
      · cases h; left; simp only [Option.isSome_some, if_true, List.append_assoc]; exact ⟨_, rfl⟩

/-- What a hover result is about. -/
theorem hoverIn_result {F : Files S G C} {st st' : Srv.St S G C} {ctx : Option Ctx} {line ch : Int} {r : Json}
    (h : hoverIn W F st ctx line ch = .ok (st', r)) :
    r = .null ∨ r = .obj [] ∨ ∃ (a b : Nat) (contents : Str), r = .obj [(c!"contents", .str contents), (c!"range", makeRange line a b)] ∧
      HoverToken (textFor ctx line) a b ∧ (a : Int) ≤ ch ∧ ch < b ∧ Shows contents (slice (textFor ctx line) a b) := by
  unfold hoverIn at h
  dsimp only at h
  split at h
  · rename_i t ht
    obtain ⟨h1, h2, h3, h4⟩ := (search_iff longest_code apart_code _ _ _).mp ht
    simp only [Out.bind_eq_ok] at h
    obtain ⟨⟨s1, g⟩, -, ⟨s2, m⟩, -, h⟩ := h
    cases h
    refine .inr (.inr ⟨t.start, t.stop, _, rfl, .inl h1, h2, h3, ?_⟩)
    rw [← h4]
    simpa using describe_shows (t.text.headD ' ') g m (extractCode (t.text.drop 1)) t.text []
  · split at h
    · cases h; exact .inl rfl
    · split at h
      · rename_i t ht
        obtain ⟨h1, h2, h3, h4⟩ := (search_iff longest_codeHash apart_codeHash _ _ _).mp ht
        rw [Out.bind_eq_ok] at h
        obtain ⟨id, -, h⟩ := h
        split at h
        · simp only [Out.bind_eq_ok] at h
          obtain ⟨⟨s1, g⟩, -, ⟨s2, m⟩, -, h⟩ := h
          cases h
          refine .inr (.inr ⟨t.start, t.stop, _, rfl, .inr (.inl h1), h2, h3, ?_⟩)
          rw [← h4, List.append_assoc, List.append_assoc]
          exact describe_shows _ _ _ _ _ _
        · cases h; exact .inr (.inl rfl)
      · split at h
        · rename_i t ht
          obtain ⟨h1, h2, h3, h4⟩ := (search_iff longest_hash apart_hash _ _ _).mp ht
          rw [Out.bind_eq_ok] at h
          obtain ⟨c, hc, h⟩ := h
          cases h
          refine .inr (.inr ⟨t.start, t.stop, _, rfl, .inr (.inr h1), h2, h3, ?_⟩)
          rw [← h4]
          exact macroHover_shows hc
        · cases h; exact .inl rfl

/-- The line asked about is that of the latest text. -/
theorem textFor_latest {ds : List (Files S G C × Json)} (hcl : ∀ d ∈ ds, Clean d.2) {st : Srv.St S G C}
    {outs : List (List Json)} (h : run W {} ds = .ok (st, outs)) (u t : Str) (hu : latest u (ds.map (·.2)) = some t)
    (line : Int) (hl : 0 ≤ line) : textFor (ctxFor st u line) line = ((contentLines t)[line.toNat]?).getD [] := by
  have := contexts_follow u ds {} st outs none hcl h rfl
  unfold latest at hu
  rw [hu] at this
  simp only [Option.map_some, Option.map_eq_some_iff] at this
  obtain ⟨c, hc, hcl⟩ := this
  unfold ctxFor
  rw [hc]
  simp only
  split
  · simp [textFor, hcl]
  · rename_i hn
    simp only [textFor]
    rw [List.getElem?_eq_none]
    · rfl
    · rw [← hcl]; omega

/-- C48: after any history, a hover answer that carries a range names a token of
the asked line of the latest text: the range is not empty, lies in the line,
contains the asked character, is as long as it can be, and the contents begin
with the token. -/
theorem C48_hover_range {ds : List (Files S G C × Json)} (hcl : ∀ d ∈ ds, Clean d.2) {st : Srv.St S G C}
    {outs : List (List Json)} (h : run W {} ds = .ok (st, outs)) (u t : Str) (hu : latest u (ds.map (·.2)) = some t)
    (hn : ∀ c ∈ u, c.toNat ≠ 0) (F : Files S G C) (d : Json) (hd : docUri d = some u)
    (hm : method d = some c!"textDocument/hover") (line ch : Int) (hpl : intAt [c!"params", c!"position", c!"line"] d = some line)
    (hpc : intAt [c!"params", c!"position", c!"character"] d = some ch) (hline : 0 ≤ line)
    {st' : Srv.St S G C} {o : List Json} (ha : handle W F st d = .ok (st', o)) :
    ∃ id r, o = [response id r] ∧
      ∀ range, path [c!"range"] r = some range → ∃ (a b : Nat) (contents : Str), range = makeRange line a b ∧
        path [c!"contents"] r = some (.str contents) ∧ a < b ∧
        ∃ l, (contentLines t)[line.toNat]? = some l ∧ b ≤ l.length ∧ (a : Int) ≤ ch ∧ ch < b ∧
          HoverToken l a b ∧ Shows contents (slice l a b) := by
  cases handle_step ha with
  | hover _ hh =>
    obtain ⟨line', ch', uri, id, r, h1, h2, h3, h4, h5, rfl⟩ := hover_ok hh
    rw [hpl] at h1; cases h1
    rw [hpc] at h2; cases h2
    rw [hd] at h3; cases h3
    rw [cstr_of_clean hn] at h5
    refine ⟨id, r, rfl, ?_⟩
    intro range hr
    rcases hoverIn_result h5 with rfl | rfl | ⟨a, b, contents, rfl, k1, k2, k3, k4⟩
    · cases hr
    · cases hr
    · cases hr
      rw [textFor_latest hcl h u t hu line hline] at k1 k4
      have hab : a < b ∧ b ≤ (((contentLines t)[line.toNat]?).getD []).length := by
        rcases k1 with q | q | q <;> exact ⟨q.1, q.2.1⟩
      refine ⟨a, b, contents, rfl, rfl, hab.1, ?_⟩
      cases hl : (contentLines t)[line.toNat]? with
      | none => exfalso; rw [hl] at hab; have g1 := hab.1; have g2 : b ≤ 0 := hab.2; omega
      | some l =>
        rw [hl] at k1 k4 hab
        exact ⟨l, rfl, hab.2, k2, k3, k1, k4⟩
  | quiet hq => exact absurd (by decide) (hq _ hm).1
  | text h' h'' => rw [hm] at h'; cases h'; exact absurd h'' (by decide)
  | _ h' => rw [hm] at h'; cases h'

/-- The code under the position is always found. -/
theorem hoverIn_code {F : Files S G C} {st : Srv.St S G C} {ctx : Option Ctx} {line ch : Int} {a b : Nat}
    (ht : TokenAt IsCode (textFor ctx line) a b) (h1 : (a : Int) ≤ ch) (h2 : ch < b) {st' : Srv.St S G C} {r : Json}
    (h : hoverIn W F st ctx line ch = .ok (st', r)) : path [c!"range"] r = some (makeRange line a b) := by
  have := (search_iff longest_code apart_code (textFor ctx line) ch ⟨a, b, slice (textFor ctx line) a b⟩).mpr ⟨ht, h1, h2, rfl⟩
  unfold hoverIn at h
  dsimp only at h
  rw [this] at h
  simp only [Out.bind_eq_ok] at h
  obtain ⟨⟨s1, g⟩, -, ⟨s2, m⟩, -, h⟩ := h
  cases h
  rfl

/-- C48, the other way round: if the asked character belongs to a code, the
answer is about that code. -/
theorem C48_code_found {ds : List (Files S G C × Json)} (hcl : ∀ d ∈ ds, Clean d.2) {st : Srv.St S G C}
    {outs : List (List Json)} (h : run W {} ds = .ok (st, outs)) (u t : Str) (hu : latest u (ds.map (·.2)) = some t)
    (hn : ∀ c ∈ u, c.toNat ≠ 0) (F : Files S G C) (d : Json) (hd : docUri d = some u)
    (hm : method d = some c!"textDocument/hover") (line ch : Int) (hpl : intAt [c!"params", c!"position", c!"line"] d = some line)
    (hpc : intAt [c!"params", c!"position", c!"character"] d = some ch) (hline : 0 ≤ line)
    {st' : Srv.St S G C} {o : List Json} (ha : handle W F st d = .ok (st', o))
    (l : Str) (hl : (contentLines t)[line.toNat]? = some l) (a b : Nat) (ht : TokenAt IsCode l a b)
    (h1 : (a : Int) ≤ ch) (h2 : ch < b) :
    ∃ id r, o = [response id r] ∧ path [c!"range"] r = some (makeRange line a b) := by
  cases handle_step ha with
  | hover _ hh =>
    obtain ⟨line', ch', uri, id, r, q1, q2, q3, q4, h5, rfl⟩ := hover_ok hh
    rw [hpl] at q1; cases q1
    rw [hpc] at q2; cases q2
    rw [hd] at q3; cases q3
    rw [cstr_of_clean hn] at h5
    refine ⟨id, r, rfl, hoverIn_code ?_ h1 h2 h5⟩
    rw [textFor_latest hcl h u t hu line hline, hl]
    exact ht
  | quiet hq => exact absurd (by decide) (hq _ hm).1
  | text h' h'' => rw [hm] at h'; cases h'; exact absurd h'' (by decide)
  | _ h' => rw [hm] at h'; cases h'

/-! ## When hover answers at all (C04) -/

theorem extractCode_digits {s : Str} (h : ∀ c ∈ s, isDig c = true) (hne : s ≠ []) :
    (∀ c ∈ extractCode s, isDig c = true) ∧ extractCode s ≠ [] ∧ readNat (extractCode s) = readNat s := by
  induction s with
  | nil => exact absurd rfl hne
  | cons c s ih =>
    cases s with
    | nil =>
      have : extractCode [c] = [c] := by unfold extractCode; split <;> simp_all
      rw [this]; exact ⟨h, hne, rfl⟩
    | cons e s =>
      by_cases hc : c = '0'
      · subst hc
        have h1 := ih (fun x hx => h x (List.mem_cons_of_mem _ hx)) (by simp)
        have : extractCode ('0' :: e :: s) = extractCode (e :: s) := by rw [extractCode]
        rw [this]
        refine ⟨h1.1, h1.2.1, ?_⟩
        rw [h1.2.2]
        simp [readNat, digVal]
      · have : extractCode (c :: e :: s) = c :: e :: s := by
          unfold extractCode
          split
          · next q => cases q; exact absurd rfl hc
          · rfl
        rw [this]; exact ⟨h, hne, rfl⟩

/-- Every macro number in a line fits an `int`. -/
def SmallMacros (l : Str) : Prop := ∀ a b, TokenAt IsMacro l a b → readNat (slice l (a + 1) b) ≤ 2147483647

theorem slice_drop (l : Str) (a b k : Nat) : (slice l a b).drop k = slice l (a + k) b := by
  unfold slice
  rw [List.drop_take, List.drop_drop]
  congr 1; omega

/-- The part of a code-and-macro token behind the letter is a macro token. -/
theorem codeMacro_inner {l : Str} {a b : Nat} (h : TokenAt IsCodeMacro l a b) : TokenAt IsMacro l (a + 1) b := by
  obtain ⟨h1, h2, ⟨c, m, h3, hc, hm⟩, h4⟩ := h
  have hs : slice l (a + 1) b = m := by rw [← slice_drop, h3]; rfl
  have hlt : a + 1 < b := by
    obtain ⟨ds, rfl, hne, -⟩ := hm
    have := congrArg List.length h3
    unfold slice at this
    rw [List.length_take, List.length_drop] at this
    simp only [List.length_cons] at this
    omega
  refine ⟨hlt, h2, by rw [hs]; exact hm, ?_⟩
  intro b' hb hb' hm'
  refine h4 b' hb hb' ⟨c, slice l (a + 1) b', ?_, hc, hm'⟩
  have e1 : (l.drop a) = c :: l.drop (a + 1) := by
    have : (slice l a b).head? = some c := by rw [h3]; rfl
    unfold slice at this
    cases hd : l.drop a with
    | nil => rw [hd] at this; simp at this
    | cons x xs =>
      rw [hd] at this
      rw [List.head?_take] at this
      simp only [show b - a ≠ 0 by omega, if_false, List.head?_cons, Option.some.injEq] at this
      subst this
      have : l.drop (a + 1) = xs := by rw [← List.drop_drop, hd]; rfl
      rw [this]
  unfold slice
  rw [e1, show b' - a = (b' - (a + 1)) + 1 by omega, List.take_succ_cons]

theorem macroId_ok {ds : Str} (h : ∀ c ∈ ds, isDig c = true) (hne : ds ≠ []) (hr : readNat ds ≤ 2147483647) :
    macroId (extractCode ds) = .ok (readNat ds) := by
  obtain ⟨h1, h2, h3⟩ := extractCode_digits h hne
  unfold macroId
  rw [stoi_digits h1 h2 (by rw [h3]; exact hr), h3]
  simp

theorem macroDesc_ok {b : Bool} {md : MacroDesc} {code : Str} {z : Int} (h : stoi code = .ok z) :
    ∃ d, Srv.macroDesc b md code = .ok d := by
  unfold Srv.macroDesc
  cases find code md.desc with
  | some d => exact ⟨d, rfl⟩
  | none =>
    simp only [h]
    split <;> exact ⟨_, rfl⟩

theorem fetch_total {F : Files S G C} {st : Srv.St S G C} (hg : F.gDesc ≠ .absent) (hm : F.mDesc ≠ .absent) :
    ∃ s1 g s2 m, fetchG F st = .ok (s1, g) ∧ fetchM F s1 = .ok (s2, m) := by
  have rc : ∀ f : File DescFile, f ≠ .absent → ∃ c, readCodes f = .ok c := by
    intro f hf
    cases f with
    | absent => exact absurd rfl hf
    | bad p e => exact ⟨_, rfl⟩
    | good d => exact ⟨_, rfl⟩
  have h1 : ∃ s1 g, fetchG F st = .ok (s1, g) := by
    unfold fetchG
    cases st.gCodes with
    | some c => exact ⟨_, _, rfl⟩
    | none =>
      obtain ⟨c, hc⟩ := rc _ hg
      simp only [hc, Out.bind_ok]
      exact ⟨_, _, rfl⟩
  obtain ⟨s1, g, h1⟩ := h1
  have h2 : ∃ s2 m, fetchM F s1 = .ok (s2, m) := by
    unfold fetchM
    cases s1.mCodes with
    | some c => exact ⟨_, _, rfl⟩
    | none =>
      obtain ⟨c, hc⟩ := rc _ hm
      simp only [hc, Out.bind_ok]
      exact ⟨_, _, rfl⟩
  obtain ⟨s2, m, h2⟩ := h2
  exact ⟨s1, g, s2, m, h1, h2⟩

theorem hoverIn_total {F : Files S G C} {st : Srv.St S G C} (hg : F.gDesc ≠ .absent) (hm : F.mDesc ≠ .absent)
    (ctx : Option Ctx) (hmd : ctx ≠ none → st.macroDesc ≠ none) (line ch : Int) (hs : SmallMacros (textFor ctx line)) :
    ∃ st' r, hoverIn W F st ctx line ch = .ok (st', r) := by
  obtain ⟨s1, g, s2, m, h1, h2⟩ := fetch_total (st := st) hg hm
  unfold hoverIn
  dsimp only
  cases hsc : search matchCode ch 0 0 (textFor ctx line) with
  | some t => simp only [h1, h2, Out.bind_ok]; exact ⟨_, _, rfl⟩
  | none =>
    dsimp only
    by_cases hmac : macrosFor ctx = []
    · rw [if_pos hmac]; exact ⟨_, _, rfl⟩
    rw [if_neg hmac]
    have hctx : ctx ≠ none := by rintro rfl; exact hmac rfl
    cases hsh : search matchCodeHash ch 0 0 (textFor ctx line) with
    | some t =>
      dsimp only
      obtain ⟨k1, -, -, k4⟩ := (search_iff longest_codeHash apart_codeHash _ _ _).mp hsh
      have hin := codeMacro_inner k1
      have hd : t.text.drop 2 = slice (textFor ctx line) (t.start + 1 + 1) t.stop := by rw [k4, slice_drop]
      obtain ⟨ds, e, hne, hdig⟩ := hin.2.2.1
      have he : slice (textFor ctx line) (t.start + 1 + 1) t.stop = ds := by rw [← slice_drop, e]; rfl
      rw [hd, he, macroId_ok hdig hne (by rw [← he]; exact hs _ _ hin)]
      simp only [Out.bind_ok]
      cases (macrosFor ctx).valueAt (readNat ds) (line + 1) with
      | some q => simp only [h1, h2, Out.bind_ok]; exact ⟨_, _, rfl⟩
      | none => exact ⟨_, _, rfl⟩
    | none =>
      dsimp only
      cases hsm : search matchHash ch 0 0 (textFor ctx line) with
      | none => exact ⟨_, _, rfl⟩
      | some t =>
        dsimp only
        obtain ⟨k1, -, -, k4⟩ := (search_iff longest_hash apart_hash _ _ _).mp hsm
        obtain ⟨ds, e, hne, hdig⟩ := k1.2.2.1
        have hd : t.text.drop 1 = ds := by rw [k4, e]; rfl
        have hle : readNat ds ≤ 2147483647 := by
          have := hs _ _ k1
          rw [← slice_drop, e] at this
          exact this
        have : ∃ c, macroHover W st.macroDesc (macrosFor ctx) line t.text = .ok c := by
          unfold macroHover
          dsimp only
          rw [hd, macroId_ok hdig hne hle]
          simp only [Out.bind_ok]
          cases hmd' : st.macroDesc with
          | none => exact absurd hmd' (hmd hctx)
          | some md =>
            obtain ⟨g1, g2, g3⟩ := extractCode_digits hdig hne
            obtain ⟨d, hd⟩ := macroDesc_ok (b := W.logging) (md := md) (stoi_digits g1 g2 (by rw [g3]; exact hle))
            simp only [hd, Out.bind_ok]
            split <;> exact ⟨_, rfl⟩
        obtain ⟨c, hc⟩ := this
        simp only [hc, Out.bind_ok]
        exact ⟨_, _, rfl⟩

/-- Open documents imply that the macro descriptions were asked for. -/
theorem run_opened : ∀ (ds : List (Files S G C × Json)) (st st' : Srv.St S G C) (outs : List (List Json)),
    run W st ds = .ok (st', outs) → (st.contexts ≠ [] → st.macroDesc ≠ none) → st'.contexts ≠ [] → st'.macroDesc ≠ none := by
  intro ds
  induction ds with
  | nil => intro st st' outs h hi; cases h; exact hi
  | cons e ds ih =>
    obtain ⟨F, d⟩ := e
    intro st st' outs h hi
    obtain ⟨s, o, os, h1, h2, rfl⟩ := run_cons_ok h
    refine ih s st' os h2 ?_
    cases handle_step h1 with
    | text hm hmt he hu hp =>
      intro _
      obtain ⟨p, r, e, ds', -, -, hf, -⟩ := publish_ok hp
      obtain ⟨-, -, -, -, -, -, hk⟩ := fetchMacros_ok hf
      rcases hk with ⟨hn, rfl, -⟩ | ⟨md, -, -, hm, -⟩
      · exact hn
      · rw [hm]; simp
    | close hm he =>
      intro hne
      refine hi ?_
      intro q
      rw [q] at hne
      exact hne rfl
    | init hm hid => exact hi
    | completion hm hid h =>
      have k := (completion_ok h).1
      rw [k.contexts, k.macroDesc]; exact hi
    | resolve hm h => obtain ⟨_, _, -, rfl, -⟩ := resolve_ok h; exact hi
    | hover hm h =>
      obtain ⟨_, _, _, _, _, -, -, -, -, h, -⟩ := hover_ok h
      have k := hoverIn_kept h
      rw [k.contexts, k.macroDesc]; exact hi
    | lens hm h =>
      obtain ⟨_, _, -, -, k, -⟩ := codeLens_ok h
      rw [k.contexts, k.macroDesc]; exact hi
    | lensResolve hm h => obtain ⟨_, _, _, -, -, -, rfl, -⟩ := codeLensResolve_ok h; exact hi
    | shutdown hm hid => exact hi
    | exit hm => exact hi
    | quiet hq => exact hi

theorem get_of_path {k : Str} {j v : Json} (h : path [k] j = some v) : j.get (ε := Exc) k = .ok v := get_ok.mpr h

/-- C04 (part): a hover request is answered if the description files exist and
the macro numbers of the line fit an `int`. -/
theorem C04_hover_answered_partial {ds : List (Files S G C × Json)} {st : Srv.St S G C} {outs : List (List Json)}
    (h : run W {} ds = .ok (st, outs)) (F : Files S G C) (hg : F.gDesc ≠ .absent) (hm : F.mDesc ≠ .absent)
    (d : Json) (u : Str) (line ch id : Int) (hmeth : method d = some c!"textDocument/hover") (hu : docUri d = some u)
    (hl : intAt [c!"params", c!"position", c!"line"] d = some line)
    (hc : intAt [c!"params", c!"position", c!"character"] d = some ch) (hid : intAt [c!"id"] d = some id)
    (hs : ∀ c, find (Json.cstr u) st.contexts = some c → ∀ l, c.lines[line.toNat]? = some l → SmallMacros l) :
    ∃ st' r, handle W F st d = .ok (st', [response id r]) := by
  obtain ⟨i, he, -⟩ := handle_of_method (W := W) (F := F) (st := st) hmeth
  rw [he]
  obtain ⟨x, hx, hl1⟩ := path_cons.mp (intAt_eq.mp hl).1
  obtain ⟨pos, hpos, hl2⟩ := path_cons.mp hl1
  obtain ⟨x', hx', hc1⟩ := path_cons.mp (intAt_eq.mp hc).1
  rw [hx] at hx'; cases hx'
  obtain ⟨pos', hpos', hc2⟩ := path_cons.mp hc1
  rw [hpos] at hpos'; cases hpos'
  obtain ⟨x', hx', hu1⟩ := path_cons.mp (textAt_eq.mp hu)
  rw [hx] at hx'; cases hx'
  obtain ⟨y, hy, hu2⟩ := path_cons.mp hu1
  have small : SmallMacros (textFor (ctxFor st (Json.cstr u) line) line) := by
    unfold ctxFor
    cases hf : find (Json.cstr u) st.contexts with
    | none => rintro a b ⟨q1, q2, -⟩; simp [textFor] at q2; omega
    | some c =>
      simp only
      split
      · simp only [textFor]
        cases hll : c.lines[line.toNat]? with
        | none => rintro a b ⟨q1, q2, -⟩; simp at q2; omega
        | some l => exact hs c hf l hll
      · rintro a b ⟨q1, q2, -⟩; simp [textFor] at q2; omega
  have hmd : ctxFor st (Json.cstr u) line ≠ none → st.macroDesc ≠ none := by
    intro q
    refine run_opened ds {} st outs h (fun q => absurd rfl q) ?_
    intro q'
    apply q
    unfold ctxFor; rw [q']; rfl
  obtain ⟨st', r, hr⟩ := hoverIn_total (W := W) hg hm (ctxFor st (Json.cstr u) line) hmd line ch small
  refine ⟨st', r, ?_⟩
  have e1 : dispatch W F st d i c!"textDocument/hover" = hover W F st d := rfl
  rw [e1]
  unfold hover
  rw [get_of_path hx]
  simp only [Out.bind_ok]
  rw [get_of_path hpos]
  simp only [Out.bind_ok]
  rw [get_of_path hl2]
  simp only [Out.bind_ok]
  rw [getInt_ok.mpr ⟨rfl, (intAt_eq.mp hl).2⟩]
  simp only [Out.bind_ok]
  rw [get_of_path hc2]
  simp only [Out.bind_ok]
  rw [getInt_ok.mpr ⟨rfl, (intAt_eq.mp hc).2⟩]
  simp only [Out.bind_ok]
  rw [get_of_path hy]
  simp only [Out.bind_ok]
  rw [get_of_path hu2]
  simp only [Out.bind_ok]
  rw [getCStr_ok.mpr ⟨u, rfl, rfl⟩]
  simp only [Out.bind_ok]
  rw [get_of_path (intAt_eq.mp hid).1]
  simp only [Out.bind_ok]
  rw [getInt_ok.mpr ⟨rfl, (intAt_eq.mp hid).2⟩]
  simp only [Out.bind_ok, hr]
  rfl

/-- `C48_code_found` applies to G54 in the second line of a document. -/
example : ∃ st o, run w0 {} [(files, opened c!"u" c!"X1\nG54 X#100")] = .ok (st, o) ∧
    ∃ st' r, handle w0 files st (hovered 7 c!"u" 1 2) = .ok (st', r) ∧
    ∃ id j, r = [response id j] ∧ path [c!"range"] j = some (makeRange 1 (0 : Nat) (3 : Nat)) := by
  refine ⟨_, _, rfl, _, _, rfl, ?_⟩
  refine C48_code_found (W := w0) (ds := [(files, opened c!"u" c!"X1\nG54 X#100")])
    (by intro d hd; rw [List.mem_singleton.mp hd]; exact opened_clean (by decide) (by decide)) rfl c!"u"
    c!"X1\nG54 X#100" rfl (by decide) files (hovered 7 c!"u" 1 2) rfl rfl 1 2 rfl rfl (by decide) rfl
    c!"G54 X#100" (by decide) 0 3 ⟨by decide, by decide, .whole (c := 'G') (ds := c!"54") (by decide) (by decide) (by decide), ?_⟩
    (by decide) (by decide)
  intro b h1 h2 h
  have hb : b ≤ 9 := h2
  have e : ∃ m, slice c!"G54 X#100" 0 b = 'G' :: '5' :: '4' :: ' ' :: m := by interval_cases b <;> exact ⟨_, rfl⟩
  obtain ⟨m, e⟩ := e
  have sp : isDig ' ' = false := by decide
  have key : ∀ {ds x : Str}, ds ≠ [] → (∀ d ∈ ds, isDig d = true) → x.length ≤ 2 → x.head? ≠ some ' ' → x.head? ≠ some '4' → x.head? ≠ some '5' →
      ds ++ x ≠ '5' :: '4' :: ' ' :: m := by
    intro ds x h1 h2 h3 h4 h5 h6 q
    rcases ds with _ | ⟨a, _ | ⟨b, _ | ⟨c, ds⟩⟩⟩
    · exact h1 rfl
    · cases q; exact h5 rfl
    · cases q; exact h4 rfl
    · cases q; have := h2 ' ' (by simp); rw [sp] at this; cases this
  rw [e] at h
  generalize hg : 'G' :: '5' :: '4' :: ' ' :: m = g at h
  cases h with
  | @whole c ds hc h1 h2 => exact key (x := []) h1 h2 (by simp) (by simp) (by simp) (by simp) (by simpa using (List.cons.inj hg).2.symm)
  | @point c ds hc h1 h2 => exact key (x := c!".") h1 h2 (by simp) (by simp) (by simp) (by simp) (List.cons.inj hg).2.symm
  | @frac c ds d hc h1 h2 h3 => exact key (x := ['.', d]) h1 h2 (by simp) (by simp) (by simp) (by simp) (List.cons.inj hg).2.symm

/-- `C48_hover_range` applies to a macro behind a code letter's word. -/
example : ∃ st o, run w0 {} [(files, opened c!"u" c!"X1\nG54 X#100")] = .ok (st, o) ∧
    ∃ st' r, handle w0 files st (hovered 7 c!"u" 1 6) = .ok (st', r) ∧
    ∃ id j, r = [response id j] ∧ path [c!"range"] j = some (makeRange 1 5 9) ∧
      ∃ (a b : Nat) (contents : Str), makeRange 1 5 9 = makeRange 1 a b ∧ path [c!"contents"] j = some (.str contents) ∧
        HoverToken c!"G54 X#100" a b ∧ Shows contents (slice c!"G54 X#100" a b) := by
  refine ⟨_, _, rfl, _, _, rfl, ?_⟩
  obtain ⟨id, j, h1, h2⟩ := C48_hover_range (W := w0) (ds := [(files, opened c!"u" c!"X1\nG54 X#100")])
    (by intro d hd; rw [List.mem_singleton.mp hd]; exact opened_clean (by decide) (by decide)) rfl c!"u"
    c!"X1\nG54 X#100" rfl (by decide) files (hovered 7 c!"u" 1 6) rfl rfl 1 6 rfl rfl (by decide) rfl
  refine ⟨id, j, h1, ?_⟩
  have hj : path [c!"range"] j = some (makeRange 1 5 9) := by
    cases h1
    rfl
  obtain ⟨a, b, c, h3, h4, -, l, hl, -, -, -, h5, h6⟩ := h2 _ hj
  cases hl
  exact ⟨hj, a, b, c, h3, h4, h5, h6⟩

end NC.Props
