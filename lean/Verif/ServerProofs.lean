import Verif.Spec.Server

/-!
# Lemmas on the language server
-/

namespace NC.Srv
open NC NC.Spec.Server

section access
variable {ε : Type}

theorem member?_ok {j : Json} {k : Str} {r : Option Json} :
    j.member? (ε := ε) k = .ok r ↔ ∃ m, j = .obj m ∧ r = Json.assoc k m := by
  cases j <;> simp [Json.member?, eq_comm]

theorem get_ok {j v : Json} {k : Str} : j.get (ε := ε) k = .ok v ↔ path [k] j = some v := by
  cases j with
  | obj m => simp only [Json.get, Json.member?, Out.bind_ok, path]; cases Json.assoc k m <;> simp
  | _ => simp [Json.get, Json.member?, path]

theorem path_cons {j v : Json} {k : Str} {ks : List Str} :
    path (k :: ks) j = some v ↔ ∃ w, path [k] j = some w ∧ path ks w = some v := by
  cases j with
  | obj m => simp only [path]; cases Json.assoc k m <;> simp
  | _ => simp [path]

theorem getStr_ok {j : Json} {s : Str} : j.getStr (ε := ε) = .ok s ↔ j = .str s := by
  cases j <;> simp [Json.getStr]

theorem getCStr_ok {j : Json} {s : Str} : j.getCStr (ε := ε) = .ok s ↔ ∃ t, j = .str t ∧ s = Json.cstr t := by
  cases j <;> simp [Json.getCStr, Json.getStr, eq_comm]

theorem getInt_ok {j : Json} {z : Int} : j.getInt (ε := ε) = .ok z ↔ j = .int z ∧ Json.isInt32 z = true := by
  cases j with
  | int y =>
    simp only [Json.getInt]
    by_cases h : Json.isInt32 y = true
    · simp only [h, if_true, Out.ok.injEq, Json.int.injEq]
      exact ⟨fun q => ⟨q, q ▸ h⟩, fun q => q.1⟩
    · simp only [h, Json.int.injEq]
      constructor
      · intro q; cases q
      · rintro ⟨rfl, q⟩; exact absurd q h
  | _ => simp [Json.getInt]

theorem textAt_eq {p : List Str} {j : Json} {s : Str} : textAt p j = some s ↔ path p j = some (.str s) := by
  unfold textAt
  cases path p j with
  | none => simp
  | some v => cases v <;> simp

theorem intAt_eq {p : List Str} {j : Json} {z : Int} :
    intAt p j = some z ↔ path p j = some (.int z) ∧ Json.isInt32 z = true := by
  unfold intAt Json.isInt32
  cases path p j with
  | none => simp
  | some v =>
    cases v with
    | int y =>
      simp only [Option.some.injEq, Json.int.injEq, Bool.and_eq_true, decide_eq_true_eq]
      by_cases h : -2147483648 ≤ y ∧ y ≤ 2147483647
      · rw [if_pos h]; simp only [Option.some.injEq]
        exact ⟨fun q => ⟨q, q ▸ h⟩, fun q => q.1⟩
      · rw [if_neg h]; simp only [reduceCtorEq, false_iff]
        rintro ⟨rfl, q⟩; exact h q
    | _ => simp

theorem first_ok {j v : Json} : j.first (ε := ε) = .ok v ↔ ∃ l, j = .arr (v :: l) := by
  cases j with
  | arr l => cases l <;> simp [Json.first]
  | _ => simp [Json.first]

theorem getCStr_path {p : List Str} {j : Json} {s : Str}
    (h : ∃ v, path p j = some v ∧ v.getCStr (ε := ε) = .ok s) : ∃ t, textAt p j = some t ∧ s = Json.cstr t := by
  obtain ⟨v, hv, hs⟩ := h
  obtain ⟨t, rfl, ht⟩ := getCStr_ok.mp hs
  exact ⟨t, textAt_eq.mpr hv, ht⟩

end access

theorem cstr_of_clean {s : Str} (h : ∀ c ∈ s, c.toNat ≠ 0) : Json.cstr s = s := by
  unfold Json.cstr
  induction s with
  | nil => rfl
  | cons c s ih =>
    rw [List.takeWhile_cons, if_pos (by simpa using h c (by simp)), ih (fun x hx => h x (by simp [hx]))]

section steps
variable {S G C σ : Type} {W : World S G C σ} {F : Files S G C} {st st' : St S G C} {d : Json} {outs : List Json}

theorem methodOf_ok {m : Str} (h : methodOf d = .ok m) :
    method d = some m ∨ (m = [] ∧ method d = none) := by
  unfold methodOf at h
  rw [Out.bind_eq_ok] at h
  obtain ⟨r, hr, h⟩ := h
  obtain ⟨o, rfl, rfl⟩ := member?_ok.mp hr
  cases ha : Json.assoc c!"method" o with
  | none =>
    rw [ha] at h; cases h
    refine .inr ⟨rfl, ?_⟩
    simp [method, textAt, path, ha]
  | some v =>
    rw [ha] at h
    have := getStr_ok.mp h
    subst this
    left
    simp [method, textAt, path, ha]

theorem idOf_ok {id : Int} (h : idOf d = .ok id) : ∀ z, intAt [c!"id"] d = some z → id = z := by
  intro z hz
  obtain ⟨hp, hi⟩ := intAt_eq.mp hz
  unfold idOf at h
  rw [Out.bind_eq_ok] at h
  obtain ⟨r, hr, h⟩ := h
  obtain ⟨o, rfl, rfl⟩ := member?_ok.mp hr
  simp only [path] at hp
  cases ha : Json.assoc c!"id" o with
  | none => rw [ha] at hp; cases hp
  | some v =>
    rw [ha] at hp h
    cases hp
    simp only [hi, if_true] at h
    cases h; rfl

/-- What a successful step is. -/
inductive Step (W : World S G C σ) (F : Files S G C) (st : St S G C) (d : Json) : St S G C → List Json → Prop
  | text {u t m : Str} {s' : St S G C} {os : List Json} : method d = some m → m ∈ texts → event d = some (u, some t) → docUri d = some u →
      publish W F st (Json.cstr u) (Json.cstr t) = .ok (s', os) → Step W F st d s' os
  | close {u : Str} : method d = some c!"textDocument/didClose" → event d = some (u, none) →
      Step W F st d { st with contexts := eraseKey (Json.cstr u) st.contexts } []
  | init {id : Int} : method d = some c!"initialize" → idOf d = .ok id → Step W F st d st [response id capabilities]
  | completion {id : Int} {s' : St S G C} {os : List Json} : method d = some c!"textDocument/completion" → idOf d = .ok id →
      completion F st id = .ok (s', os) → Step W F st d s' os
  | resolve {s' : St S G C} {os : List Json} : method d = some c!"completionItem/resolve" → resolve W st d = .ok (s', os) →
      Step W F st d s' os
  | hover {s' : St S G C} {os : List Json} : method d = some c!"textDocument/hover" → hover W F st d = .ok (s', os) →
      Step W F st d s' os
  | lens {s' : St S G C} {os : List Json} : method d = some c!"textDocument/codeLens" → codeLens st d = .ok (s', os) →
      Step W F st d s' os
  | lensResolve {s' : St S G C} {os : List Json} : method d = some c!"codeLens/resolve" → codeLensResolve st d = .ok (s', os) →
      Step W F st d s' os
  | shutdown {id : Int} : method d = some c!"shutdown" → idOf d = .ok id →
      Step W F st d { st with exit := true } [response id .null]
  | exit : method d = some c!"exit" → Step W F st d { st with exit := true } []
  | quiet : (∀ m, method d = some m → m ∉ requests ∧ m ∉ texts ∧ m ≠ c!"textDocument/didClose" ∧ m ≠ c!"exit") →
      Step W F st d st []

theorem didOpen_ok (hm : method d = some c!"textDocument/didOpen") (h : didOpen W F st d = .ok (st', outs)) :
    Step W F st d st' outs := by
  simp only [didOpen, Out.bind_eq_ok] at h
  obtain ⟨p, hp, doc, hdoc, ju, hju, uri, hu, jt, hjt, text, ht, h⟩ := h
  rw [get_ok] at hp hdoc hju hjt
  obtain ⟨u, hu', rfl⟩ := getCStr_path (p := [c!"params", c!"textDocument", c!"uri"]) (j := d)
    ⟨ju, path_cons.mpr ⟨p, hp, path_cons.mpr ⟨doc, hdoc, hju⟩⟩, hu⟩
  obtain ⟨t, ht', rfl⟩ := getCStr_path (p := [c!"params", c!"textDocument", c!"text"]) (j := d)
    ⟨jt, path_cons.mpr ⟨p, hp, path_cons.mpr ⟨doc, hdoc, hjt⟩⟩, ht⟩
  refine .text hm (by decide) (u := u) (t := t) ?_ hu' h
  unfold event docUri
  rw [hm, hu', ht', if_pos rfl]

theorem didChange_ok (hm : method d = some c!"textDocument/didChange") (h : didChange W F st d = .ok (st', outs)) :
    Step W F st d st' outs := by
  simp only [didChange, Out.bind_eq_ok] at h
  obtain ⟨p, hp, doc, hdoc, cc, hcc, a, ha, ju, hju, uri, hu, jt, hjt, text, ht, h⟩ := h
  rw [get_ok] at hp hdoc hju hjt hcc
  obtain ⟨l, rfl⟩ := first_ok.mp ha
  obtain ⟨u, hu', rfl⟩ := getCStr_path (p := [c!"params", c!"textDocument", c!"uri"]) (j := d)
    ⟨ju, path_cons.mpr ⟨p, hp, path_cons.mpr ⟨doc, hdoc, hju⟩⟩, hu⟩
  obtain ⟨t, ht', rfl⟩ := getCStr_path (p := [c!"text"]) (j := a) ⟨jt, hjt, ht⟩
  refine .text hm (by decide) (u := u) (t := t) ?_ hu' h
  have hc : changedText d = some t := by
    unfold changedText
    rw [path_cons.mpr ⟨p, hp, hcc⟩]
    exact ht'
  unfold event docUri
  rw [hm, hu', hc, if_neg (by decide), if_pos rfl]

theorem didClose_ok (hm : method d = some c!"textDocument/didClose") (h : didClose st d = .ok (st', outs)) :
    Step W F st d st' outs := by
  simp only [didClose, Out.bind_eq_ok] at h
  obtain ⟨p, hp, doc, hdoc, ju, hju, uri, hu, h⟩ := h
  rw [get_ok] at hp hdoc hju
  obtain ⟨u, hu', rfl⟩ := getCStr_path (p := [c!"params", c!"textDocument", c!"uri"]) (j := d)
    ⟨ju, path_cons.mpr ⟨p, hp, path_cons.mpr ⟨doc, hdoc, hju⟩⟩, hu⟩
  cases h
  refine .close (u := u) hm ?_
  unfold event docUri
  rw [hm, hu', if_neg (by decide), if_neg (by decide), if_pos rfl]

theorem handle_step (h : handle W F st d = .ok (st', outs)) : Step W F st d st' outs := by
  simp only [handle, Out.bind_eq_ok] at h
  obtain ⟨id, hid, m, hm, h⟩ := h
  rcases methodOf_ok hm with hm | ⟨rfl, hm'⟩
  · clear * - hm hid h
    unfold dispatch at h
    by_cases e0 : m = c!"initialize"
    · subst e0; rw [if_pos rfl] at h; cases h; exact .init hm hid
    rw [if_neg e0] at h
    by_cases e1 : m = c!"initialized"
    · subst e1; rw [if_pos rfl] at h; cases h; exact .quiet (by intro m q; rw [hm] at q; cases q; decide)
    rw [if_neg e1] at h
    by_cases e2 : m = c!"workspace/didChangeConfiguration"
    · subst e2; rw [if_pos rfl] at h; cases h; exact .quiet (by intro m q; rw [hm] at q; cases q; decide)
    rw [if_neg e2] at h
    by_cases e3 : m = c!"textDocument/didOpen"
    · subst e3; rw [if_pos rfl] at h; exact didOpen_ok hm h
    rw [if_neg e3] at h
    by_cases e4 : m = c!"textDocument/didChange"
    · subst e4; rw [if_pos rfl] at h; exact didChange_ok hm h
    rw [if_neg e4] at h
    by_cases e5 : m = c!"textDocument/didClose"
    · subst e5; rw [if_pos rfl] at h; exact didClose_ok hm h
    rw [if_neg e5] at h
    by_cases e6 : m = c!"textDocument/completion"
    · subst e6; rw [if_pos rfl] at h; exact .completion hm hid h
    rw [if_neg e6] at h
    by_cases e7 : m = c!"completionItem/resolve"
    · subst e7; rw [if_pos rfl] at h; exact .resolve hm h
    rw [if_neg e7] at h
    by_cases e8 : m = c!"textDocument/hover"
    · subst e8; rw [if_pos rfl] at h; exact .hover hm h
    rw [if_neg e8] at h
    by_cases e9 : m = c!"textDocument/codeLens"
    · subst e9; rw [if_pos rfl] at h; exact .lens hm h
    rw [if_neg e9] at h
    by_cases e10 : m = c!"codeLens/resolve"
    · subst e10; rw [if_pos rfl] at h; exact .lensResolve hm h
    rw [if_neg e10] at h
    by_cases e11 : m = c!"$/cancelRequest"
    · subst e11; rw [if_pos rfl] at h; cases h; exact .quiet (by intro m q; rw [hm] at q; cases q; decide)
    rw [if_neg e11] at h
    by_cases e12 : m = c!"shutdown"
    · subst e12; rw [if_pos rfl] at h; cases h; exact .shutdown hm hid
    rw [if_neg e12] at h
    by_cases e13 : m = c!"exit"
    · subst e13; rw [if_pos rfl] at h; cases h; exact .exit hm
    rw [if_neg e13] at h
    cases h
    refine .quiet ?_
    intro m' q
    rw [hm] at q; cases q
    simp only [requests, texts, List.mem_cons, List.not_mem_nil, or_false, not_or]
    exact ⟨⟨e0, e6, e7, e8, e9, e10, e12⟩, ⟨e3, e4⟩, e5, e13⟩
  · have : dispatch W F st d id [] = .ok (st, []) := rfl
    rw [this] at h
    cases h
    exact .quiet (by intro m q; rw [hm'] at q; cases q)

theorem event_none_of_method {m : Str} (hm : method d = some m) (h1 : m ∉ texts) (h2 : m ≠ c!"textDocument/didClose") :
    event d = none := by
  simp only [texts, List.mem_cons, List.not_mem_nil, or_false, not_or] at h1
  unfold event
  rw [hm, if_neg (by simpa using h1.1), if_neg (by simpa using h1.2), if_neg (by simpa using h2)]

theorem event_none_of_no_method (hm : method d = none) : event d = none := by
  unfold event; rw [hm]; rfl

/-! ## What each step keeps -/

theorem fetchG_ok {c : Codes} (h : fetchG F st = .ok (st', c)) :
    st'.contexts = st.contexts ∧ st'.parser = st.parser ∧ st'.exit = st.exit ∧ st'.macroDesc = st.macroDesc ∧
    st'.mCodes = st.mCodes ∧ st'.gCodes = some c ∧ (st.gCodes = some c ∧ st' = st ∨ st.gCodes = none ∧
      readCodes F.gDesc = .ok c ∧ st'.suggestions = st.suggestions ++ c.codes.map ('G' :: ·)) := by
  unfold fetchG at h
  cases hg : st.gCodes with
  | some x => rw [hg] at h; cases h; simp [hg]
  | none =>
    rw [hg] at h
    simp only [Out.bind_eq_ok] at h
    obtain ⟨x, hx, h⟩ := h
    cases h
    simp [hx]

theorem fetchM_ok {c : Codes} (h : fetchM F st = .ok (st', c)) :
    st'.contexts = st.contexts ∧ st'.parser = st.parser ∧ st'.exit = st.exit ∧ st'.macroDesc = st.macroDesc ∧
    st'.gCodes = st.gCodes ∧ st'.mCodes = some c ∧ (st.mCodes = some c ∧ st' = st ∨ st.mCodes = none ∧
      readCodes F.mDesc = .ok c ∧ st'.suggestions = st.suggestions ++ c.codes.map ('M' :: ·)) := by
  unfold fetchM at h
  cases hg : st.mCodes with
  | some x => rw [hg] at h; cases h; simp [hg]
  | none =>
    rw [hg] at h
    simp only [Out.bind_eq_ok] at h
    obtain ⟨x, hx, h⟩ := h
    cases h
    simp [hx]

theorem fetchMacros_ok {e : Option Str} (h : fetchMacros W F st = .ok (st', e)) :
    st'.contexts = st.contexts ∧ st'.parser = st.parser ∧ st'.exit = st.exit ∧ st'.gCodes = st.gCodes ∧
    st'.mCodes = st.mCodes ∧ st'.currentUri = st.currentUri ∧
    (st.macroDesc ≠ none ∧ st' = st ∧ e = none ∨
      ∃ md, st.macroDesc = none ∧ readMacros W.logging F.userDesc F.macroDesc = .ok (md, e) ∧
        st'.macroDesc = some md ∧ st'.suggestions = st.suggestions ++ (match e with
          | none => md.macros.map ('#' :: ·) | some _ => [])) := by
  unfold fetchMacros at h
  cases hg : st.macroDesc with
  | some x => rw [hg] at h; cases h; simp [hg]
  | none =>
    rw [hg] at h
    simp only [Out.bind_eq_ok] at h
    obtain ⟨⟨md, x⟩, hx, h⟩ := h
    cases x <;> cases h <;> simp [hx]

/-- Everything a request leaves alone. -/
structure Kept (st st' : St S G C) : Prop where
  contexts : st'.contexts = st.contexts
  parser : st'.parser = st.parser
  exit : st'.exit = st.exit
  macroDesc : st'.macroDesc = st.macroDesc

theorem Kept.refl (st : St S G C) : Kept st st := ⟨rfl, rfl, rfl, rfl⟩

theorem Kept.trans {a b c : St S G C} (h : Kept a b) (k : Kept b c) : Kept a c :=
  ⟨k.contexts.trans h.contexts, k.parser.trans h.parser, k.exit.trans h.exit, k.macroDesc.trans h.macroDesc⟩

theorem fetchG_kept {c : Codes} (h : fetchG F st = .ok (st', c)) : Kept st st' := by
  have := fetchG_ok h
  exact ⟨this.1, this.2.1, this.2.2.1, this.2.2.2.1⟩

theorem fetchM_kept {c : Codes} (h : fetchM F st = .ok (st', c)) : Kept st st' := by
  have := fetchM_ok h
  exact ⟨this.1, this.2.1, this.2.2.1, this.2.2.2.1⟩

theorem hoverIn_kept {ctx : Option Ctx} {line ch : Int} {r : Json}
    (h : hoverIn W F st ctx line ch = .ok (st', r)) : Kept st st' := by
  unfold hoverIn at h
  dsimp only at h
  split at h
  · simp only [Out.bind_eq_ok] at h
    obtain ⟨⟨s1, g⟩, h1, ⟨s2, m⟩, h2, h⟩ := h
    cases h
    exact (fetchG_kept h1).trans (fetchM_kept h2)
  · split at h
    · cases h; exact .refl _
    · split at h
      · simp only [Out.bind_eq_ok] at h
        obtain ⟨id, -, h⟩ := h
        split at h
        · simp only [Out.bind_eq_ok] at h
          obtain ⟨⟨s1, g⟩, h1, ⟨s2, m⟩, h2, h⟩ := h
          cases h
          exact (fetchG_kept h1).trans (fetchM_kept h2)
        · cases h; exact .refl _
      · split at h
        · simp only [Out.bind_eq_ok] at h
          obtain ⟨s, -, h⟩ := h
          cases h; exact .refl _
        · cases h; exact .refl _

/-- A successful hover request. -/
theorem hover_ok (h : hover W F st d = .ok (st', outs)) :
    ∃ line ch uri id r, intAt [c!"params", c!"position", c!"line"] d = some line ∧
      intAt [c!"params", c!"position", c!"character"] d = some ch ∧ docUri d = some uri ∧
      intAt [c!"id"] d = some id ∧ hoverIn W F st (ctxFor st (Json.cstr uri) line) line ch = .ok (st', r) ∧
      outs = [response id r] := by
  simp only [hover, Out.bind_eq_ok] at h
  obtain ⟨p, hp, pos, hpos, jl, hjl, line, hl, jc, hjc, ch, hc, doc, hdoc, ju, hju, uri, hu, ji, hji, id, hi,
    ⟨s1, r⟩, hr, h⟩ := h
  cases h
  rw [get_ok] at hp hpos hjl hjc hdoc hju hji
  obtain ⟨rfl, hl'⟩ := getInt_ok.mp hl
  obtain ⟨rfl, hc'⟩ := getInt_ok.mp hc
  obtain ⟨rfl, hi'⟩ := getInt_ok.mp hi
  obtain ⟨u, hu', rfl⟩ := getCStr_path (p := [c!"params", c!"textDocument", c!"uri"]) (j := d)
    ⟨ju, path_cons.mpr ⟨p, hp, path_cons.mpr ⟨doc, hdoc, hju⟩⟩, hu⟩
  exact ⟨line, ch, u, id, r,
    intAt_eq.mpr ⟨path_cons.mpr ⟨p, hp, path_cons.mpr ⟨pos, hpos, hjl⟩⟩, hl'⟩,
    intAt_eq.mpr ⟨path_cons.mpr ⟨p, hp, path_cons.mpr ⟨pos, hpos, hjc⟩⟩, hc'⟩, hu', intAt_eq.mpr ⟨hji, hi'⟩, hr, rfl⟩

theorem codeLens_ok (h : codeLens st d = .ok (st', outs)) :
    ∃ uri id, docUri d = some uri ∧ intAt [c!"id"] d = some id ∧ Kept st st' ∧
      outs = [response id (lensResult (find (Json.cstr uri) st.contexts))] := by
  simp only [codeLens, Out.bind_eq_ok] at h
  obtain ⟨p, hp, doc, hdoc, ju, hju, uri, hu, ji, hji, id, hi, h⟩ := h
  rw [get_ok] at hp hdoc hju hji
  obtain ⟨rfl, hi'⟩ := getInt_ok.mp hi
  obtain ⟨u, hu', rfl⟩ := getCStr_path (p := [c!"params", c!"textDocument", c!"uri"]) (j := d)
    ⟨ju, path_cons.mpr ⟨p, hp, path_cons.mpr ⟨doc, hdoc, hju⟩⟩, hu⟩
  refine ⟨u, id, hu', intAt_eq.mpr ⟨hji, hi'⟩, ?_, ?_⟩
  · cases h; split <;> exact ⟨rfl, rfl, rfl, rfl⟩
  · cases h; rfl

theorem codeLensResolve_ok (h : codeLensResolve st d = .ok (st', outs)) :
    ∃ range line id, path [c!"params", c!"range"] d = some range ∧ intAt [c!"start", c!"line"] range = some line ∧
      intAt [c!"id"] d = some id ∧ st' = st ∧
      outs = [response id (lensResolved (find st.currentUri st.contexts) range line)] := by
  simp only [codeLensResolve, Out.bind_eq_ok] at h
  obtain ⟨p, hp, range, hr, start, hs, jl, hjl, line, hl, ji, hji, id, hi, h⟩ := h
  rw [get_ok] at hp hr hs hjl hji
  obtain ⟨rfl, hi'⟩ := getInt_ok.mp hi
  obtain ⟨rfl, hl'⟩ := getInt_ok.mp hl
  cases h
  exact ⟨range, line, id, path_cons.mpr ⟨p, hp, hr⟩, intAt_eq.mpr ⟨path_cons.mpr ⟨start, hs, hjl⟩, hl'⟩,
    intAt_eq.mpr ⟨hji, hi'⟩, rfl, rfl⟩

theorem resolve_ok (h : resolve W st d = .ok (st', outs)) :
    ∃ id r, intAt [c!"id"] d = some id ∧ st' = st ∧ outs = [response id r] := by
  simp only [resolve, Out.bind_eq_ok] at h
  obtain ⟨ji, hji, id, hi, b, hb, h⟩ := h
  rw [get_ok] at hji
  obtain ⟨rfl, hi'⟩ := getInt_ok.mp hi
  split at h
  · simp only [Out.bind_eq_ok] at h
    obtain ⟨params, -, label, -, fmt, -, kind, -, data, -, l, -, dd, -, h⟩ := h
    cases h
    exact ⟨id, _, intAt_eq.mpr ⟨hji, hi'⟩, rfl, rfl⟩
  · cases h
    exact ⟨id, _, intAt_eq.mpr ⟨hji, hi'⟩, rfl, rfl⟩

theorem completion_ok {id : Int} (h : completion F st id = .ok (st', outs)) :
    Kept st st' ∧ outs = [response id (.arr (suggestionsFrom 1 st'.suggestions))] := by
  simp only [completion, Out.bind_eq_ok] at h
  obtain ⟨⟨s1, g⟩, h1, ⟨s2, m⟩, h2, h⟩ := h
  cases h
  exact ⟨(fetchG_kept h1).trans (fetchM_kept h2), rfl⟩

theorem publish_ok {uri text : Str} (h : publish W F st uri text = .ok (st', outs)) :
    ∃ p r e ds, ncParse W F st.parser text = .ok (p, r) ∧ diagsOf (ε := Exc) r.messages = .ok ds ∧
      fetchMacros W F { st with parser := p, contexts := eraseKey uri st.contexts ++
        [(uri, ⟨contentLines text, r.macros, r.lenses⟩)] } = .ok (st', e) ∧
      outs = [publication uri ((match e with
          | some e => if e = [] then [] else [macroDescDiag W e]
          | none => []) ++ ds.map diagJson)] := by
  simp only [publish, Out.bind_eq_ok] at h
  obtain ⟨⟨p, r⟩, h1, ⟨s2, e⟩, h2, ds, h3, h⟩ := h
  cases h
  exact ⟨p, r, e, ds, h1, h3, h2, rfl⟩

theorem publish_ctx {uri text : Str} (h : publish W F st uri text = .ok (st', outs)) :
    ∃ p r, ncParse W F st.parser text = .ok (p, r) ∧ st'.parser = p ∧ st'.exit = st.exit ∧
      st'.contexts = eraseKey uri st.contexts ++ [(uri, ⟨contentLines text, r.macros, r.lenses⟩)] := by
  obtain ⟨p, r, e, ds, h1, h2, h3, -⟩ := publish_ok h
  have := fetchMacros_ok h3
  exact ⟨p, r, h1, this.2.1, this.2.2.1, this.1⟩

/-! ## Contexts -/

theorem find_eraseKey {α : Type} (k u : Str) (m : List (Str × α)) :
    find u (eraseKey k m) = if u = k then none else find u m := by
  induction m with
  | nil => simp [eraseKey, find]
  | cons e m ih =>
    unfold eraseKey at ih ⊢
    by_cases he : e.1 = k
    · rw [List.filter_cons_of_neg (by simpa using he), ih, find]
      by_cases hu : u = k
      · simp [hu]
      · rw [if_neg hu, if_neg hu, if_neg (by rw [he]; exact fun q => hu q.symm)]
    · rw [List.filter_cons_of_pos (by simpa using he), find, find, ih]
      by_cases heu : e.1 = u
      · rw [if_pos heu, if_pos heu, if_neg (by rw [← heu]; exact he)]
      · rw [if_neg heu, if_neg heu]

theorem find_append {α : Type} (u : Str) (m m' : List (Str × α)) :
    find u (m ++ m') = (find u m).or (find u m') := by
  induction m with
  | nil => simp [find]
  | cons e m ih =>
    rw [List.cons_append, find, find, ih]
    split <;> simp

theorem find_replace {α : Type} (k u : Str) (v : α) (m : List (Str × α)) :
    find u (eraseKey k m ++ [(k, v)]) = if u = k then some v else find u m := by
  rw [find_append, find_eraseKey]
  by_cases h : u = k
  · subst h; simp [find]
  · rw [if_neg h, if_neg h]
    simp only [find]
    rw [if_neg (fun q => h q.symm)]
    simp

/-- What a step does to the contexts. -/
theorem step_contexts (h : handle W F st d = .ok (st', outs)) (hc : Clean d) :
    (∃ u t p r, event d = some (u, some t) ∧ ncParse W F st.parser t = .ok (p, r) ∧ st'.parser = p ∧
      st'.contexts = eraseKey u st.contexts ++ [(u, ⟨contentLines t, r.macros, r.lenses⟩)] ∧
      publish W F st u t = .ok (st', outs)) ∨
    (∃ u, event d = some (u, none) ∧ st'.parser = st.parser ∧ st'.macroDesc = st.macroDesc ∧
      st'.contexts = eraseKey u st.contexts) ∨
    (event d = none ∧ st'.parser = st.parser ∧ st'.macroDesc = st.macroDesc ∧ st'.contexts = st.contexts) := by
  have hs := handle_step h
  have quiet : ∀ {m : Str}, method d = some m → m ∉ texts → m ≠ c!"textDocument/didClose" → event d = none :=
    fun a b c => event_none_of_method a b c
  cases hs with
  | text hm hmt he hu hp =>
    rename_i u t m
    have hcl := hc u (some t) he
    rw [cstr_of_clean hcl.1, cstr_of_clean (hcl.2 t rfl)] at hp
    obtain ⟨p, r, h1, h2, -, h3⟩ := publish_ctx hp
    exact .inl ⟨u, t, p, r, he, h1, h2, h3, hp⟩
  | close hm he =>
    rename_i u
    have hcl := hc u none he
    refine .inr (.inl ⟨u, he, rfl, rfl, ?_⟩)
    rw [cstr_of_clean hcl.1]
  | init hm hid => exact .inr (.inr ⟨quiet hm (by decide) (by decide), rfl, rfl, rfl⟩)
  | completion hm hid h =>
    have k := (completion_ok h).1
    exact .inr (.inr ⟨quiet hm (by decide) (by decide), k.parser, k.macroDesc, k.contexts⟩)
  | resolve hm h =>
    obtain ⟨_, _, -, rfl, -⟩ := resolve_ok h
    exact .inr (.inr ⟨quiet hm (by decide) (by decide), rfl, rfl, rfl⟩)
  | hover hm h =>
    obtain ⟨_, _, _, _, _, -, -, -, -, h, -⟩ := hover_ok h
    have k := hoverIn_kept h
    exact .inr (.inr ⟨quiet hm (by decide) (by decide), k.parser, k.macroDesc, k.contexts⟩)
  | lens hm h =>
    obtain ⟨_, _, -, -, k, -⟩ := codeLens_ok h
    exact .inr (.inr ⟨quiet hm (by decide) (by decide), k.parser, k.macroDesc, k.contexts⟩)
  | lensResolve hm h =>
    obtain ⟨_, _, _, -, -, -, rfl, -⟩ := codeLensResolve_ok h
    exact .inr (.inr ⟨quiet hm (by decide) (by decide), rfl, rfl, rfl⟩)
  | shutdown hm hid => exact .inr (.inr ⟨quiet hm (by decide) (by decide), rfl, rfl, rfl⟩)
  | exit hm => exact .inr (.inr ⟨quiet hm (by decide) (by decide), rfl, rfl, rfl⟩)
  | quiet hq =>
    refine .inr (.inr ⟨?_, rfl, rfl, rfl⟩)
    cases hm : method d with
    | none => exact event_none_of_no_method hm
    | some m => exact quiet hm (hq m hm).2.1 (hq m hm).2.2.1

/-- Replies and the end of the server. -/
theorem step_replies (h : handle W F st d = .ok (st', outs)) :
    ((∀ u, docUri d = some u → ∀ c ∈ u, c.toNat ≠ 0) → Replies d outs) ∧
      st'.exit = (st.exit || decide (Ends d)) := by
  have hs := handle_step h
  have req : ∀ {m : Str} {id : Int} {r : Json}, method d = some m → m ∈ requests →
      (∀ z, intAt [c!"id"] d = some z → id = z) → Replies d [response id r] := by
    intro m id r hm hr hi
    unfold Replies
    rw [hm]
    simp only [hr, if_true]
    intro z hz
    rw [← hi z hz]
    exact ⟨_, rfl, _, rfl⟩
  have nope : ∀ {m : Str}, method d = some m → m ≠ c!"shutdown" → m ≠ c!"exit" → decide (Ends d) = false := by
    intro m hm h1 h2
    rw [decide_eq_false_iff_not]
    rintro (q | q) <;> rw [hm] at q <;> cases q
    · exact h1 rfl
    · exact h2 rfl
  cases hs with
  | text hm hmt he hu hp =>
    rename_i u t m
    obtain ⟨p, r, h1, h2, h3, h4⟩ := publish_ctx hp
    obtain ⟨p', r', e, ds, -, -, -, rfl⟩ := publish_ok hp
    have hr : m ∉ requests := by
      simp only [texts, List.mem_cons, List.not_mem_nil, or_false] at hmt
      rcases hmt with rfl | rfl <;> decide
    constructor
    · intro hc
      rw [cstr_of_clean (hc u hu)]
      unfold Replies
      rw [hm]
      simp only [hr, hmt, if_true, if_false]
      exact ⟨_, u, rfl, hu, rfl, rfl, rfl, _, rfl⟩
    · rw [h3, nope hm (fun q => hr (by rw [q]; decide)), Bool.or_false]
      rintro rfl; revert hmt; decide
  | close hm he =>
    refine ⟨fun _ => ?_, by rw [nope hm (by decide) (by decide), Bool.or_false]⟩
    unfold Replies; rw [hm]; rfl
  | init hm hid => exact ⟨fun _ => req hm (by decide) (idOf_ok hid), by rw [nope hm (by decide) (by decide), Bool.or_false]⟩
  | completion hm hid h =>
    obtain ⟨k, rfl⟩ := completion_ok h
    exact ⟨fun _ => req hm (by decide) (idOf_ok hid), by rw [k.exit, nope hm (by decide) (by decide), Bool.or_false]⟩
  | resolve hm h =>
    obtain ⟨id, r, hi, rfl, rfl⟩ := resolve_ok h
    exact ⟨fun _ => req hm (by decide) (by intro z hz; rw [hi] at hz; exact Option.some.inj hz),
      by rw [nope hm (by decide) (by decide), Bool.or_false]⟩
  | hover hm h =>
    obtain ⟨_, _, _, id, r, -, -, -, hi, hh, rfl⟩ := hover_ok h
    have k := hoverIn_kept hh
    exact ⟨fun _ => req hm (by decide) (by intro z hz; rw [hi] at hz; exact Option.some.inj hz),
      by rw [k.exit, nope hm (by decide) (by decide), Bool.or_false]⟩
  | lens hm h =>
    obtain ⟨_, id, -, hi, k, rfl⟩ := codeLens_ok h
    exact ⟨fun _ => req hm (by decide) (by intro z hz; rw [hi] at hz; exact Option.some.inj hz),
      by rw [k.exit, nope hm (by decide) (by decide), Bool.or_false]⟩
  | lensResolve hm h =>
    obtain ⟨_, _, id, -, -, hi, rfl, rfl⟩ := codeLensResolve_ok h
    exact ⟨fun _ => req hm (by decide) (by intro z hz; rw [hi] at hz; exact Option.some.inj hz),
      by rw [nope hm (by decide) (by decide), Bool.or_false]⟩
  | shutdown hm hid =>
    refine ⟨fun _ => req hm (by decide) (idOf_ok hid), ?_⟩
    have : decide (Ends d) = true := decide_eq_true (.inl hm)
    rw [this, Bool.or_true]
  | exit hm =>
    refine ⟨fun _ => by unfold Replies; rw [hm]; rfl, ?_⟩
    have : decide (Ends d) = true := decide_eq_true (.inr hm)
    rw [this, Bool.or_true]
  | quiet hq =>
    cases hm : method d with
    | none =>
      have : decide (Ends d) = false := by
        rw [decide_eq_false_iff_not]
        rintro (q | q) <;> rw [hm] at q <;> cases q
      exact ⟨fun _ => by unfold Replies; rw [hm], by rw [this, Bool.or_false]⟩
    | some m =>
      obtain ⟨h1, h2, h3, h4⟩ := hq m hm
      refine ⟨fun _ => by unfold Replies; rw [hm]; simp only [h1, h2, if_false], ?_⟩
      rw [nope hm (fun q => h1 (by rw [q]; decide)) h4, Bool.or_false]

/-! ## Unchanging files -/

/-- What has been read agrees with the files. -/
structure Inv (W : World S G C σ) (F : Files S G C) (st : St S G C) : Prop where
  settings : st.parser.settings = none ∨ ∃ s, st.parser.settings = some s ∧ F.settings = some (.good s)
  grammar : st.parser.grammar = none ∨ ∃ a, st.parser.grammar = some a ∧ F.grammar = .good a
  gGroups : st.parser.gGroups = none ∨ ∃ a, st.parser.gGroups = some a ∧ F.gGroups = .good a
  mGroups : st.parser.mGroups = none ∨ ∃ a, st.parser.mGroups = some a ∧ F.mGroups = .good a
  gCodes : st.gCodes = none ∨ ∃ c, st.gCodes = some c ∧ readCodes F.gDesc = .ok c
  mCodes : st.mCodes = none ∨ ∃ c, st.mCodes = some c ∧ readCodes F.mDesc = .ok c
  macroDesc : st.macroDesc = none ∨ ∃ c e, st.macroDesc = some c ∧ readMacros W.logging F.userDesc F.macroDesc = .ok (c, e)
  opened : st.contexts ≠ [] → st.macroDesc ≠ none

theorem Inv.start : Inv W F ({} : St S G C) :=
  ⟨.inl rfl, .inl rfl, .inl rfl, .inl rfl, .inl rfl, .inl rfl, .inl rfl, fun h => absurd rfl h⟩

/-- All configuration files can be read, and this is what they say. -/
structure Loaded (W : World S G C σ) (F : Files S G C) (s : S) (g : G) (gc mc : C) : Prop where
  settings : F.settings = none ∧ s = W.defaults ∨ F.settings = some (.good s)
  grammar : F.grammar = .good g
  gGroups : F.gGroups = .good gc
  mGroups : F.mGroups = .good mc

theorem lazyRead_good {α : Type} {cur : Option α} {f : File α} {a : α} (hf : f = .good a)
    (hc : cur = none ∨ ∃ b, cur = some b ∧ f = .good b) : lazyRead cur f = .ok (a, true) := by
  subst hf
  rcases hc with rfl | ⟨b, rfl, h⟩
  · rfl
  · cases h; rfl

theorem ncParse_loaded {s : S} {g : G} {gc mc : C} (hL : Loaded W F s g gc mc) (hI : Inv W F st) (t : Str) :
    ∃ p, ncParse W F st.parser t = (runCode W s g gc mc t >>= fun r => .ok (p, r)) ∧
      p.grammar = some g ∧ p.gGroups = some gc ∧ p.mGroups = some mc ∧
      (p.settings = none ∨ ∃ s, p.settings = some s ∧ F.settings = some (.good s)) := by
  have hs : ∃ p, readSettings W st.parser F.settings = (s, p, true) ∧ p.grammar = st.parser.grammar ∧
      p.gGroups = st.parser.gGroups ∧ p.mGroups = st.parser.mGroups ∧
      (p.settings = none ∨ ∃ s, p.settings = some s ∧ F.settings = some (.good s)) := by
    unfold readSettings
    rcases hL.settings with ⟨h, rfl⟩ | h
    · rw [h]
      refine ⟨_, rfl, rfl, rfl, rfl, ?_⟩
      rcases hI.settings with q | ⟨x, hx, q⟩
      · exact .inl q
      · rw [h] at q; cases q
    · rw [h]
      rcases hI.settings with q | ⟨x, hx, q⟩
      · rw [q]; exact ⟨_, rfl, rfl, rfl, rfl, .inr ⟨s, rfl, rfl⟩⟩
      · rw [h] at q; cases q
        simp only [hx]
        exact ⟨_, rfl, rfl, rfl, rfl, .inr ⟨s, hx, rfl⟩⟩
  obtain ⟨p, hp, e1, e2, e3, e4⟩ := hs
  unfold ncParse
  rw [hp]
  simp only [Bool.not_true, Bool.false_eq_true, if_false]
  rw [e1, lazyRead_good hL.grammar hI.grammar]
  simp only [Out.bind_ok, Bool.not_true, Bool.false_eq_true, if_false]
  rw [e2, lazyRead_good hL.gGroups hI.gGroups]
  simp only [Out.bind_ok, Bool.not_true, Bool.false_eq_true, if_false]
  rw [e3, lazyRead_good hL.mGroups hI.mGroups]
  simp only [Out.bind_ok, Bool.not_true, Bool.false_eq_true, if_false]
  exact ⟨_, rfl, rfl, rfl, rfl, e4⟩

/-- Readers only ever hold what the files say, also when these are unreadable
(then nothing is claimed here). -/
theorem fetchG_inv (hI : Inv W F st) :
    ∃ f : Codes → St S G C, (∀ c, readCodes F.gDesc = .ok c → Inv W F (f c) ∧ Kept st (f c)) ∧
      fetchG F st = (readCodes F.gDesc >>= fun c => .ok (f c, c)) := by
  rcases hI.gCodes with h | ⟨c, h, hc⟩
  · refine ⟨fun c => { st with gCodes := some c, suggestions := st.suggestions ++ c.codes.map ('G' :: ·) }, ?_, ?_⟩
    · intro c hc
      exact ⟨⟨hI.settings, hI.grammar, hI.gGroups, hI.mGroups, .inr ⟨c, rfl, hc⟩, hI.mCodes, hI.macroDesc, hI.opened⟩,
        ⟨rfl, rfl, rfl, rfl⟩⟩
    · unfold fetchG; rw [h]
  · refine ⟨fun _ => st, fun _ _ => ⟨hI, .refl _⟩, ?_⟩
    unfold fetchG; rw [h, hc]; rfl

theorem fetchM_inv (hI : Inv W F st) :
    ∃ f : Codes → St S G C, (∀ c, readCodes F.mDesc = .ok c → Inv W F (f c) ∧ Kept st (f c)) ∧
      fetchM F st = (readCodes F.mDesc >>= fun c => .ok (f c, c)) := by
  rcases hI.mCodes with h | ⟨c, h, hc⟩
  · refine ⟨fun c => { st with mCodes := some c, suggestions := st.suggestions ++ c.codes.map ('M' :: ·) }, ?_, ?_⟩
    · intro c hc
      exact ⟨⟨hI.settings, hI.grammar, hI.gGroups, hI.mGroups, hI.gCodes, .inr ⟨c, rfl, hc⟩, hI.macroDesc, hI.opened⟩,
        ⟨rfl, rfl, rfl, rfl⟩⟩
    · unfold fetchM; rw [h]
  · refine ⟨fun _ => st, fun _ _ => ⟨hI, .refl _⟩, ?_⟩
    unfold fetchM; rw [h, hc]; rfl

/-- Both tables, as the files say. -/
theorem fetch_both (hI : Inv W F st) :
    ∃ f : Codes → Codes → St S G C,
      (∀ g m, readCodes F.gDesc = .ok g → readCodes F.mDesc = .ok m → Inv W F (f g m)) ∧
      ∀ {α : Type} (k : St S G C → Codes → Codes → Out Exc α),
        (fetchG F st >>= fun x => fetchM F x.1 >>= fun y => k y.1 x.2 y.2) =
          (readCodes F.gDesc >>= fun g => readCodes F.mDesc >>= fun m => k (f g m) g m) := by
  obtain ⟨fg, hfg, eg⟩ := fetchG_inv hI
  have : ∀ g : Codes, ∃ fm : Codes → St S G C, readCodes F.gDesc = .ok g →
      (∀ c, readCodes F.mDesc = .ok c → Inv W F (fm c)) ∧
      fetchM F (fg g) = (readCodes F.mDesc >>= fun c => .ok (fm c, c)) := by
    intro g
    by_cases hg : readCodes F.gDesc = .ok g
    · obtain ⟨fm, h1, h2⟩ := fetchM_inv (hfg g hg).1
      exact ⟨fm, fun _ => ⟨fun c hc => (h1 c hc).1, h2⟩⟩
    · exact ⟨fun _ => st, fun q => absurd q hg⟩
  choose fm hfm using this
  refine ⟨fm, fun g m hg hm => (hfm g hg).1 m hm, ?_⟩
  intro α k
  rw [eg]
  cases hg : readCodes F.gDesc with
  | ok g =>
    simp only [Out.bind_ok]
    rw [(hfm g hg).2]
    cases readCodes F.mDesc <;> rfl
  | throw e => rfl
  | ub => rfl

/-- The written messages of a step. -/
def answer (x : Out Exc (St S G C × List Json)) : Out Exc (List Json) := x >>= fun r => .ok r.2

theorem hoverIn_inv (hI : Inv W F st) (ctx : Option Ctx) (line ch : Int) {st' : St S G C} {r : Json}
    (h : hoverIn W F st ctx line ch = .ok (st', r)) : Inv W F st' := by
  obtain ⟨f, hf, eq⟩ := fetch_both hI
  have key : ∀ (k : Codes → Codes → Json), (fetchG F st >>= fun x => fetchM F x.1 >>= fun y =>
      (.ok (y.1, k x.2 y.2) : Out Exc _)) = .ok (st', r) → Inv W F st' := by
    intro k hk
    rw [eq (fun s g m => .ok (s, k g m))] at hk
    simp only [Out.bind_eq_ok] at hk
    obtain ⟨g, hg, m, hm, hk⟩ := hk
    cases hk
    exact hf g m hg hm
  unfold hoverIn at h
  dsimp only at h
  split at h
  · rename_i t _
    exact key (fun g m => hoverResult (describe (t.text.headD ' ') g m (extractCode (t.text.drop 1)) t.text) line t) h
  · split at h
    · cases h; exact hI
    · split at h
      · rename_i t _
        rw [Out.bind_eq_ok] at h
        obtain ⟨id, -, h⟩ := h
        split at h
        · rename_i q _
          exact key (fun g m => hoverResult (describe (t.text.headD ' ') g m (toStringTrunc q)
            (t.text ++ letterOf (t.text.headD ' ') ++ toStringTrunc q ++ c!")")) line t) h
        · cases h; exact hI
      · split at h
        · simp only [Out.bind_eq_ok] at h
          obtain ⟨s, -, h⟩ := h
          cases h; exact hI
        · cases h; exact hI

theorem hoverIn_same {st₁ st₂ : St S G C} (h1 : Inv W F st₁) (h2 : Inv W F st₂) (ctx : Option Ctx)
    (hm : ctx ≠ none → st₁.macroDesc = st₂.macroDesc) (line ch : Int) :
    (hoverIn W F st₁ ctx line ch >>= fun r => .ok r.2) =
      ((hoverIn W F st₂ ctx line ch >>= fun r => .ok r.2) : Out Exc Json) := by
  obtain ⟨f1, -, e1⟩ := fetch_both h1
  obtain ⟨f2, -, e2⟩ := fetch_both h2
  have key : ∀ (k : Codes → Codes → Json),
      ((fetchG F st₁ >>= fun x => fetchM F x.1 >>= fun y => (.ok (y.1, k x.2 y.2) : Out Exc (St S G C × Json)))
        >>= fun r => .ok r.2) =
      ((fetchG F st₂ >>= fun x => fetchM F x.1 >>= fun y => (.ok (y.1, k x.2 y.2) : Out Exc (St S G C × Json)))
        >>= fun r => (.ok r.2 : Out Exc Json)) := by
    intro k
    rw [e1 (fun s g m => .ok (s, k g m)), e2 (fun s g m => .ok (s, k g m))]
    cases readCodes F.gDesc with
    | ok g => cases readCodes F.mDesc <;> rfl
    | throw e => rfl
    | ub => rfl
  unfold hoverIn
  dsimp only
  cases search matchCode ch 0 0 (textFor ctx line) with
  | some t =>
    exact key (fun g m => hoverResult (describe (t.text.headD ' ') g m (extractCode (t.text.drop 1)) t.text) line t)
  | none =>
    dsimp only
    by_cases hmac : macrosFor ctx = []
    · rw [if_pos hmac, if_pos hmac]; rfl
    · rw [if_neg hmac, if_neg hmac]
      have hctx : ctx ≠ none := by rintro rfl; exact hmac rfl
      rw [hm hctx]
      cases search matchCodeHash ch 0 0 (textFor ctx line) with
      | some t =>
        dsimp only
        cases macroId (extractCode (List.drop 2 t.text)) with
        | ok id =>
          simp only [Out.bind_ok]
          cases (macrosFor ctx).valueAt id (line + 1) with
          | some q =>
            exact key (fun g m => hoverResult (describe (t.text.headD ' ') g m (toStringTrunc q)
              (t.text ++ letterOf (t.text.headD ' ') ++ toStringTrunc q ++ c!")")) line t)
          | none => rfl
        | throw e => rfl
        | ub => rfl
      | none =>
        dsimp only
        cases search matchHash ch 0 0 (textFor ctx line) with
        | none => rfl
        | some t =>
          dsimp only
          cases macroHover W st₂.macroDesc (macrosFor ctx) line t.text <;> rfl

theorem Inv.of_kept (hI : Inv W F st) (k : Kept st st') (hg : st'.gCodes = st.gCodes) (hm : st'.mCodes = st.mCodes) :
    Inv W F st' := by
  refine ⟨?_, ?_, ?_, ?_, ?_, ?_, ?_, ?_⟩
  · rw [k.parser]; exact hI.settings
  · rw [k.parser]; exact hI.grammar
  · rw [k.parser]; exact hI.gGroups
  · rw [k.parser]; exact hI.mGroups
  · rw [hg]; exact hI.gCodes
  · rw [hm]; exact hI.mCodes
  · rw [k.macroDesc]; exact hI.macroDesc
  · rw [k.macroDesc, k.contexts]; exact hI.opened

theorem publish_inv {s : S} {g : G} {gc mc : C} (hL : Loaded W F s g gc mc) (hI : Inv W F st) {u t : Str}
    (h : publish W F st u t = .ok (st', outs)) :
    Inv W F st' ∧ ∃ r ds e, runCode W s g gc mc t = .ok r ∧ diagsOf (ε := Exc) r.messages = .ok ds ∧
      st'.contexts = eraseKey u st.contexts ++ [(u, ⟨contentLines t, r.macros, r.lenses⟩)] ∧
      outs = [publication u ((match e with
          | some e => if e = [] then [] else [macroDescDiag W e]
          | none => []) ++ ds.map diagJson)] ∧
      (st.macroDesc = none → ∃ md, readMacros W.logging F.userDesc F.macroDesc = .ok (md, e)) ∧
      (st.macroDesc ≠ none → e = none) := by
  obtain ⟨p, r, e, ds, h1, h2, h3, h4⟩ := publish_ok h
  obtain ⟨p', hp, g1, g2, g3, g4⟩ := ncParse_loaded hL hI t
  rw [hp, Out.bind_eq_ok] at h1
  obtain ⟨r', hr, h1⟩ := h1
  cases h1
  obtain ⟨k1, k2, k3, k4, k5, -, k6⟩ := fetchMacros_ok h3
  constructor
  · refine ⟨?_, ?_, ?_, ?_, ?_, ?_, ?_, ?_⟩
    · rw [k2]; exact g4
    · rw [k2]; exact .inr ⟨g, g1, hL.grammar⟩
    · rw [k2]; exact .inr ⟨gc, g2, hL.gGroups⟩
    · rw [k2]; exact .inr ⟨mc, g3, hL.mGroups⟩
    · rw [k4]; exact hI.gCodes
    · rw [k5]; exact hI.mCodes
    · rcases k6 with ⟨-, rfl, -⟩ | ⟨md, -, hr, hm, -⟩
      · exact hI.macroDesc
      · exact .inr ⟨md, e, hm, hr⟩
    · intro _
      rcases k6 with ⟨hn, rfl, -⟩ | ⟨md, -, hr, hm, -⟩
      · exact hn
      · rw [hm]; simp
  · refine ⟨r, ds, e, hr, h2, k1, h4, ?_, ?_⟩
    · intro hn
      rcases k6 with ⟨hnn, -, -⟩ | ⟨md, -, hr, hm, -⟩
      · exact absurd hn hnn
      · exact ⟨md, hr⟩
    · intro hn
      rcases k6 with ⟨hnn, -, he⟩ | ⟨md, hmd, hr, hm, -⟩
      · exact he
      · exact absurd hmd hn

theorem handle_inv {s : S} {g : G} {gc mc : C} (hL : Loaded W F s g gc mc) (hI : Inv W F st)
    (h : handle W F st d = .ok (st', outs)) : Inv W F st' := by
  have hs := handle_step h
  cases hs with
  | text hm hmt he hu hp => exact (publish_inv hL hI hp).1
  | close hm he =>
    refine ⟨hI.settings, hI.grammar, hI.gGroups, hI.mGroups, hI.gCodes, hI.mCodes, hI.macroDesc, ?_⟩
    intro hne
    refine hI.opened ?_
    rintro q
    rw [q] at hne
    exact hne rfl
  | init hm hid => exact hI
  | completion hm hid h =>
    simp only [completion, Out.bind_eq_ok] at h
    obtain ⟨⟨s1, g⟩, h1, ⟨s2, m⟩, h2, h⟩ := h
    cases h
    obtain ⟨f, hf, e⟩ := fetchG_inv hI
    rw [e, Out.bind_eq_ok] at h1
    obtain ⟨c, hc, h1⟩ := h1
    cases h1
    obtain ⟨f', hf', e'⟩ := fetchM_inv (hf _ hc).1
    rw [e', Out.bind_eq_ok] at h2
    obtain ⟨c', hc', h2⟩ := h2
    cases h2
    exact (hf' _ hc').1
  | resolve hm h => obtain ⟨_, _, -, rfl, -⟩ := resolve_ok h; exact hI
  | hover hm h =>
    obtain ⟨_, _, _, _, _, -, -, -, -, h, -⟩ := hover_ok h
    exact hoverIn_inv hI _ _ _ h
  | lens hm h =>
    simp only [codeLens, Out.bind_eq_ok] at h
    obtain ⟨p, hp, doc, hdoc, ju, hju, uri, hu, ji, hji, id, hi, h⟩ := h
    cases h
    split
    · exact hI.of_kept ⟨rfl, rfl, rfl, rfl⟩ rfl rfl
    · exact hI
  | lensResolve hm h => obtain ⟨_, _, _, -, -, -, rfl, -⟩ := codeLensResolve_ok h; exact hI
  | shutdown hm hid => exact ⟨hI.settings, hI.grammar, hI.gGroups, hI.mGroups, hI.gCodes, hI.mCodes, hI.macroDesc, hI.opened⟩
  | exit hm => exact ⟨hI.settings, hI.grammar, hI.gGroups, hI.mGroups, hI.gCodes, hI.mCodes, hI.macroDesc, hI.opened⟩
  | quiet hq => exact hI

end steps
end NC.Srv
