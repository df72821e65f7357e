import Verif.Props.Document
import Verif.Props.Hover
import Verif.Props.Survive

/-!
# C88: no message ends the server by an exception

The server of `Verif.Whole`: every handler, every history.
-/

namespace NC.Props
open NC NC.Srv NC.Pipe NC.Spec.Server
open NC.Spec.Lines (IsLines)

theorem returns_ok {ε α : Type} (a : α) : Returns (.ok a : Out ε α) := nofun
theorem returns_ub {ε α : Type} : Returns (.ub : Out ε α) := nofun

theorem returns_bind {ε α β : Type} {x : Out ε α} {f : α → Out ε β} (hx : Returns x) (hf : ∀ a, x = .ok a → Returns (f a)) : Returns (x >>= f) := by
  cases x with
  | ok a => exact hf a rfl
  | throw e => exact absurd rfl (hx e)
  | ub => exact nofun

theorem member_returns (d : Json) (k : Str) : Returns (d.member? (ε := Exc) k) := by
  unfold Json.member?; split <;> exact nofun
theorem get_returns (d : Json) (k : Str) : Returns (d.get (ε := Exc) k) :=
  returns_bind (member_returns d k) (fun a _ => by split <;> exact nofun)
theorem first_returns (d : Json) : Returns (d.first (ε := Exc)) := by unfold Json.first; split <;> exact nofun
theorem getStr_returns (d : Json) : Returns (d.getStr (ε := Exc)) := by unfold Json.getStr; split <;> exact nofun
theorem getCStr_returns (d : Json) : Returns (d.getCStr (ε := Exc)) := returns_bind (getStr_returns d) (fun _ _ => nofun)
theorem getInt_returns (d : Json) : Returns (d.getInt (ε := Exc)) := by
  unfold Json.getInt; split <;> (try split) <;> exact nofun
theorem hasMember_returns (d : Json) (k : Str) : Returns (d.hasMember (ε := Exc) k) := returns_bind (member_returns d k) (fun _ _ => nofun)
theorem copied_returns (d : Json) (k : Str) : Returns (copied d k) := returns_bind (member_returns d k) (fun _ _ => nofun)

theorem part_returns (c : Bool) (s : Str) : Returns (part c s) := by
  unfold part segment; split <;> (try split) <;> exact nofun

theorem lensText_returns (t : Totals) (a b c d : ℚ) : Returns (lensText t a b c d) := by
  unfold lensText
  refine returns_bind (part_returns _ _) (fun _ _ => returns_bind (part_returns _ _) (fun _ _ => returns_bind (part_returns _ _) (fun _ _ =>
    returns_bind (part_returns _ _) (fun _ _ => returns_bind (part_returns _ _) (fun _ _ => returns_bind (part_returns _ _) (fun _ _ =>
    returns_bind (part_returns _ _) (fun _ _ => nofun)))))))

theorem addLens_returns (a : Acc) (n : Nat) (t : Totals) : Returns (addLens a n t) := by
  unfold addLens
  split
  · exact nofun
  · exact returns_bind (lensText_returns _ _ _ _ _) (fun _ _ => nofun)

theorem diagsOf_returns : ∀ ms : List Str, Returns (diagsOf (ε := Exc) ms) := by
  intro ms
  induction ms with
  | nil => exact nofun
  | cons m ms ih =>
    refine returns_bind ?_ (fun _ _ => returns_bind ih (fun _ _ => nofun))
    unfold diagOf
    dsimp only
    split <;> exact nofun

theorem macroDesc_returns (b : Bool) (m : MacroDesc) (code : Str) : Returns (Srv.macroDesc b m code) := by
  unfold Srv.macroDesc
  split
  · exact nofun
  · split
    · split <;> exact nofun
    · split <;> exact nofun

theorem labelDesc_returns {S G C σ : Type} (W : World S G C σ) (st : Srv.St S G C) (l : Str) : Returns (labelDesc W st l) := by
  unfold labelDesc
  cases l with
  | nil => exact nofun
  | cons c code =>
    dsimp only
    split_ifs
    · split <;> exact nofun
    · split <;> exact nofun
    · split
      · exact nofun
      · exact macroDesc_returns _ _ _
    · exact nofun

section
variable (R : Whole.Rest) {S : Setup} (hD : DeclaredIn S)
include hD

/-- The loop over the lines comes back. -/
theorem loop_returns : ∀ (ls : List Str) (p : Parser) (a : Acc) (n : Nat), (∀ l ∈ ls, '[' ∉ l) → p.gram.st.opened = 0 →
    Returns (parseLoop (Whole.server R) (S, p) a n ls) := by
  intro ls
  induction ls with
  | nil => intro p a n _ _; exact nofun
  | cons l ls ih =>
    intro p a n hl hp
    unfold parseLoop
    split
    · exact ih p a (n + 1) (fun x hx => hl x (by simp [hx])) hp
    · obtain ⟨h1, h2⟩ := line_survives hD serverOptions ((n + 1 : Nat) : Int) (hl l (by simp)) hp
      refine returns_bind ?_ (fun r hr => ?_)
      · show Returns (Whole.parseLine (S, p) (n + 1) l)
        unfold Whole.parseLine
        dsimp only
        cases hx : (Pipe.parse S serverOptions ((n + 1 : Nat) : Int) l p).2 with
        | ok a => exact nofun
        | throw e => exact absurd hx (h1 e)
        | ub => exact nofun
      · obtain ⟨x, v, m⟩ := r
        obtain ⟨_, _, _, rfl⟩ := parseLine_ok hr
        dsimp only
        refine returns_bind ?_ (fun a' _ => ih _ a' (n + 1) (fun x hx => hl x (by simp [hx])) h2)
        split
        · exact addLens_returns _ _ _
        · exact nofun

end

theorem readMacros_returns (b : Bool) (u : Option (File DescFile)) {f : File DescFile} (hf : f ≠ .absent) : Returns (readMacros b u f) := by
  have h1 : ∀ k p, Returns (rangeOf b k p) := by
    intro k p
    unfold rangeOf
    split
    · split
      · exact nofun
      · split <;> exact nofun
    · split <;> exact nofun
  have h2 : ∀ k ps, Returns (rangesOf b k ps) := by
    intro k ps
    induction ps with
    | nil => exact nofun
    | cons p ps ih => exact returns_bind (h1 k p) (fun _ _ => returns_bind ih (fun _ _ => nofun))
  have h3 : ∀ m, Returns (readRanges b m) := by
    intro m
    induction m with
    | nil => exact nofun
    | cons p ps ih => exact returns_bind (h2 _ _) (fun _ _ => returns_bind ih (fun _ _ => nofun))
  unfold readMacros
  cases f with
  | absent => exact absurd rfl hf
  | bad p e =>
    dsimp only
    split <;> exact nofun
  | good d =>
    dsimp only
    split
    · exact nofun
    · exact returns_bind (h3 _) (fun _ _ => nofun)

/-- A text the server endures: no opening bracket, and the numbers of its variables fit an `int`. -/
def Endured (t : Str) : Prop := '[' ∉ t ∧ ∀ ls, IsLines t ls → ∀ l ∈ ls, SmallMacros l

theorem small_nil : SmallMacros [] := by
  intro a b h
  have := h.1
  have := h.2.1
  simp only [List.length_nil] at this
  omega

section
variable (R : Whole.Rest) {F : Files Conf.Settings Conf.Words Ver.Groups} {s : Conf.Settings} {g : Conf.Words} {gc mc : Ver.Groups}
  (hL : Loaded (Whole.server R) F s g gc mc) (hg : F.gDesc ≠ .absent) (hm : F.mDesc ≠ .absent) (hmac : F.macroDesc ≠ .absent)
  {S : Setup} (hS : Pipe.configure (Conf.setupOf R.env s g gc mc) = .ok S) (hD : DeclaredIn S)
  {st : Srv.St Conf.Settings Conf.Words Ver.Groups} (hI : Inv (Whole.server R) F st)

/-- The lines of the open documents. -/
def SmallContexts (st : Srv.St Conf.Settings Conf.Words Ver.Groups) : Prop := ∀ c ∈ st.contexts, ∀ l ∈ c.2.lines, SmallMacros l

include hL hmac hS hD hI

theorem publish_returns {u t : Str} (ht : '[' ∉ t) : Returns (publish (Whole.server R) F st u t) := by
  obtain ⟨p, hp, -⟩ := ncParse_loaded hL hI t
  unfold publish
  rw [hp]
  refine returns_bind (returns_bind ?_ (fun _ _ => nofun)) (fun r _ => ?_)
  · unfold runCode
    have : (Whole.server R).fresh s g gc mc = .ok (S, Pipe.fresh S) := by
      show Whole.freshParser R.env s g gc mc = _
      unfold Whole.freshParser
      rw [hS]
    rw [this]
    refine returns_bind (returns_ok _) (fun a ha => ?_)
    cases ha
    refine returns_bind (loop_returns R hD _ _ _ _ ?_ rfl) (fun _ _ => nofun)
    intro l hl hin
    rw [splitLines_eq, List.mem_map] at hl
    obtain ⟨k, hk, rfl⟩ := hl
    refine ht ?_
    have h1 : '[' ∈ k := by
      rw [rtrim_eq] at hin
      have := List.mem_reverse.mp hin
      have := (List.dropWhile_sublist _).subset this
      exact List.mem_reverse.mp this
    have h2 := (C07_document_lines t _).mpr rfl
    rcases h2.2 with e | ⟨e, -⟩
    · rw [e]
      simp only [List.mem_flatten, List.mem_map]
      exact ⟨_, ⟨k, hk, rfl⟩, by simp [h1]⟩
    · rw [e]
      clear e h2 hin
      generalize contentLines t = ks at hk
      induction ks with
      | nil => cases hk
      | cons x xs ih =>
        cases xs with
        | nil =>
          rw [List.mem_singleton] at hk
          subst hk
          exact h1
        | cons y ys =>
          show '[' ∈ x ++ '\n' :: Spec.Lines.join (y :: ys)
          rcases List.mem_cons.mp hk with rfl | hk
          · simp [h1]
          · have := ih hk
            simp [this]
  · obtain ⟨p', r⟩ := r
    dsimp only
    refine returns_bind ?_ (fun x _ => ?_)
    · unfold fetchMacros
      split
      · exact nofun
      · refine returns_bind (readMacros_returns _ _ hmac) (fun x _ => ?_)
        split <;> exact nofun
    · obtain ⟨st2, e⟩ := x
      exact returns_bind (diagsOf_returns _) (fun _ _ => nofun)

include hg hm

/-- Every handler comes back. -/
theorem handle_returns {d : Json} (hc : Clean d) (hC : SmallContexts st) (ht : ∀ u t, event d = some (u, some t) → '[' ∉ t) :
    Returns (handle (Whole.server R) F st d) := by
  unfold handle
  refine returns_bind (returns_bind (member_returns _ _) (fun _ _ => nofun)) (fun id _ => ?_)
  refine returns_bind (returns_bind (member_returns _ _) (fun r _ => by split <;> first | exact getStr_returns _ | exact nofun)) (fun m hm' => ?_)
  rcases methodOf_ok hm' with hme | ⟨rfl, -⟩
  swap
  · exact nofun
  obtain ⟨s1, a, s2, b, f1, f2⟩ := fetch_total (st := st) hg hm
  unfold dispatch
  by_cases e0 : m = c!"initialize"
  · rw [if_pos e0]
    exact nofun
  rw [if_neg e0]
  by_cases e1 : m = c!"initialized"
  · rw [if_pos e1]
    exact nofun
  rw [if_neg e1]
  by_cases e2 : m = c!"workspace/didChangeConfiguration"
  · rw [if_pos e2]
    exact nofun
  rw [if_neg e2]
  by_cases e3 : m = c!"textDocument/didOpen"
  · rw [if_pos e3]
    subst e3
    unfold didOpen
    refine returns_bind (get_returns _ _) (fun p hp => returns_bind (get_returns _ _) (fun doc hdoc => returns_bind (get_returns _ _) (fun ju hju =>
      returns_bind (getCStr_returns _) (fun uri hu => returns_bind (get_returns _ _) (fun jt hjt => returns_bind (getCStr_returns _) (fun text htx => ?_))))))
    rw [get_ok] at hp hdoc hju hjt
    obtain ⟨u, hu', rfl⟩ := getCStr_path (p := [c!"params", c!"textDocument", c!"uri"]) (j := d)
      ⟨ju, path_cons.mpr ⟨p, hp, path_cons.mpr ⟨doc, hdoc, hju⟩⟩, hu⟩
    obtain ⟨t, ht', rfl⟩ := getCStr_path (p := [c!"params", c!"textDocument", c!"text"]) (j := d)
      ⟨jt, path_cons.mpr ⟨p, hp, path_cons.mpr ⟨doc, hdoc, hjt⟩⟩, htx⟩
    have he : event d = some (u, some t) := by
      unfold event docUri
      rw [hme, hu', ht', if_pos rfl]
    rw [cstr_of_clean ((hc u _ he).2 t rfl)]
    exact publish_returns R hL hmac hS hD hI (ht u t he)
  rw [if_neg e3]
  by_cases e4 : m = c!"textDocument/didChange"
  · rw [if_pos e4]
    subst e4
    unfold didChange
    refine returns_bind (get_returns _ _) (fun p hp => returns_bind (get_returns _ _) (fun doc hdoc => returns_bind (get_returns _ _) (fun cc hcc =>
      returns_bind (first_returns _) (fun a ha => returns_bind (get_returns _ _) (fun ju hju =>
      returns_bind (getCStr_returns _) (fun uri hu => returns_bind (get_returns _ _) (fun jt hjt => returns_bind (getCStr_returns _) (fun text htx => ?_))))))))
    rw [get_ok] at hp hdoc hju hjt hcc
    obtain ⟨l, rfl⟩ := first_ok.mp ha
    obtain ⟨u, hu', rfl⟩ := getCStr_path (p := [c!"params", c!"textDocument", c!"uri"]) (j := d)
      ⟨ju, path_cons.mpr ⟨p, hp, path_cons.mpr ⟨doc, hdoc, hju⟩⟩, hu⟩
    obtain ⟨t, ht', rfl⟩ := getCStr_path (p := [c!"text"]) (j := a) ⟨jt, hjt, htx⟩
    have hch : changedText d = some t := by
      unfold changedText
      rw [path_cons.mpr ⟨p, hp, hcc⟩]
      exact ht'
    have he : event d = some (u, some t) := by
      unfold event docUri
      rw [hme, hu', hch, if_neg (by decide), if_pos rfl]
    rw [cstr_of_clean ((hc u _ he).2 t rfl)]
    exact publish_returns R hL hmac hS hD hI (ht u t he)
  rw [if_neg e4]
  by_cases e5 : m = c!"textDocument/didClose"
  · rw [if_pos e5]
    unfold didClose
    exact returns_bind (get_returns _ _) (fun p hp => returns_bind (get_returns _ _) (fun doc hdoc => returns_bind (get_returns _ _) (fun ju hju =>
      returns_bind (getCStr_returns _) (fun uri hu => nofun))))
  rw [if_neg e5]
  by_cases e6 : m = c!"textDocument/completion"
  · rw [if_pos e6]
    unfold completion
    rw [f1]
    simp only [Out.bind_ok]
    rw [f2]
    exact nofun
  rw [if_neg e6]
  by_cases e7 : m = c!"completionItem/resolve"
  · rw [if_pos e7]
    unfold resolve
    refine returns_bind (get_returns _ _) (fun _ _ => returns_bind (getInt_returns _) (fun _ _ => returns_bind (hasMember_returns _ _) (fun x _ => ?_)))
    split
    · exact returns_bind (get_returns _ _) (fun _ _ => returns_bind (get_returns _ _) (fun _ _ => returns_bind (copied_returns _ _) (fun _ _ =>
        returns_bind (copied_returns _ _) (fun _ _ => returns_bind (copied_returns _ _) (fun _ _ => returns_bind (getStr_returns _) (fun _ _ =>
        returns_bind (labelDesc_returns _ _ _) (fun _ _ => nofun)))))))
    · exact nofun
  rw [if_neg e7]
  by_cases e8 : m = c!"textDocument/hover"
  · rw [if_pos e8]
    unfold hover
    refine returns_bind (get_returns _ _) (fun _ _ => returns_bind (get_returns _ _) (fun _ _ => returns_bind (get_returns _ _) (fun _ _ =>
      returns_bind (getInt_returns _) (fun line _ => returns_bind (get_returns _ _) (fun _ _ => returns_bind (getInt_returns _) (fun ch _ =>
      returns_bind (get_returns _ _) (fun _ _ => returns_bind (get_returns _ _) (fun _ _ => returns_bind (getCStr_returns _) (fun uri _ =>
      returns_bind (get_returns _ _) (fun _ _ => returns_bind (getInt_returns _) (fun _ _ => returns_bind ?_ (fun _ _ => nofun))))))))))))
    have hfind : ∀ c, ctxFor st uri line = some c → ∃ k, (k, c) ∈ st.contexts := by
      intro c hcx
      unfold ctxFor at hcx
      cases hf : find uri st.contexts with
      | none => rw [hf] at hcx; cases hcx
      | some c' =>
        rw [hf] at hcx
        dsimp only at hcx
        split at hcx
        · cases hcx
          have : ∀ (m : List (Str × Ctx)), find uri m = some c → ∃ k, (k, c) ∈ m := by
            intro m
            induction m with
            | nil => intro h; cases h
            | cons e m ih =>
              intro h
              unfold find at h
              split at h
              · cases h; exact ⟨e.1, by simp⟩
              · obtain ⟨k, hk⟩ := ih h
                exact ⟨k, by simp [hk]⟩
          exact this _ hf
        · cases hcx
    have hsm : SmallMacros (textFor (ctxFor st uri line) line) := by
      unfold textFor
      cases hcx : ctxFor st uri line with
      | none => exact small_nil
      | some c =>
        dsimp only
        obtain ⟨k, hk⟩ := hfind c hcx
        cases hl : c.lines[line.toNat]? with
        | none => exact small_nil
        | some l => exact hC _ hk l (List.mem_of_getElem? hl)
    obtain ⟨st', r, hr⟩ := hoverIn_total (W := Whole.server R) (F := F) (st := st) hg hm (ctxFor st uri line) (fun hne => by
      cases hcx : ctxFor st uri line with
      | none => exact absurd hcx hne
      | some c =>
        obtain ⟨k, hk⟩ := hfind c hcx
        exact hI.opened (List.ne_nil_of_mem hk)) line ch hsm
    rw [hr]
    exact nofun
  rw [if_neg e8]
  by_cases e9 : m = c!"textDocument/codeLens"
  · rw [if_pos e9]
    unfold codeLens
    exact returns_bind (get_returns _ _) (fun _ _ => returns_bind (get_returns _ _) (fun _ _ => returns_bind (get_returns _ _) (fun _ _ =>
      returns_bind (getCStr_returns _) (fun _ _ => returns_bind (get_returns _ _) (fun _ _ => returns_bind (getInt_returns _) (fun _ _ => nofun))))))
  rw [if_neg e9]
  by_cases e10 : m = c!"codeLens/resolve"
  · rw [if_pos e10]
    unfold codeLensResolve
    exact returns_bind (get_returns _ _) (fun _ _ => returns_bind (get_returns _ _) (fun _ _ => returns_bind (get_returns _ _) (fun _ _ =>
      returns_bind (get_returns _ _) (fun _ _ => returns_bind (getInt_returns _) (fun _ _ => returns_bind (get_returns _ _) (fun _ _ =>
      returns_bind (getInt_returns _) (fun _ _ => nofun)))))))
  rw [if_neg e10]
  by_cases e11 : m = c!"$/cancelRequest"
  · rw [if_pos e11]
    exact nofun
  rw [if_neg e11]
  by_cases e12 : m = c!"shutdown"
  · rw [if_pos e12]
    exact nofun
  rw [if_neg e12]
  by_cases e13 : m = c!"exit"
  · rw [if_pos e13]
    exact nofun
  rw [if_neg e13]
  exact nofun

omit hI in
/-- C88 (partial: texts without opening brackets, numbers of variables that fit an `int`): with
configuration files that can be read and description files that exist, no history of messages, of
whatever form, ends the server by an exception. -/
theorem C88_endures_partial (ds : List Json) (hc : ∀ d ∈ ds, Clean d) (ht : ∀ d ∈ ds, ∀ u t, event d = some (u, some t) → Endured t) (e : Srv.Exc) :
    run (Whole.server R) {} (ds.map (F, ·)) ≠ .throw e := by
  suffices h : ∀ (ds : List Json) (st : Srv.St Conf.Settings Conf.Words Ver.Groups), Inv (Whole.server R) F st → SmallContexts st →
      (∀ d ∈ ds, Clean d) → (∀ d ∈ ds, ∀ u t, event d = some (u, some t) → Endured t) → Returns (run (Whole.server R) st (ds.map (F, ·))) from
    h ds {} .start (by intro c hc; cases hc) hc ht e
  intro ds
  induction ds with
  | nil => intro _ _ _ _ _; exact nofun
  | cons d ds ih =>
    intro st hI hC hc ht
    refine returns_bind (handle_returns R hL hg hm hmac hS hD hI (hc d (by simp)) hC (fun u t he => (ht d (by simp) u t he).1)) (fun r hr => ?_)
    obtain ⟨st', o⟩ := r
    refine returns_bind (ih st' (handle_inv hL hI hr) ?_ (fun x hx => hc x (by simp [hx])) (fun x hx => ht x (by simp [hx]))) (fun _ _ => nofun)
    have herase : ∀ u, ∀ c ∈ eraseKey u st.contexts, c ∈ st.contexts := fun u c h => (List.mem_filter.mp h).1
    rcases step_contexts hr (hc d (by simp)) with ⟨u, t, p, r, he, -, -, hx, -⟩ | ⟨u, he, -, -, hx⟩ | ⟨he, -, -, hx⟩
    · intro c hcx
      rw [hx, List.mem_append] at hcx
      rcases hcx with hcx | hcx
      · exact hC c (herase u c hcx)
      · rw [List.mem_singleton] at hcx
        subst hcx
        exact (ht d (by simp) u t he).2 _ ((C07_document_lines t _).mpr rfl)
    · intro c hcx
      rw [hx] at hcx
      exact hC c (herase u c hcx)
    · rw [SmallContexts, hx]
      exact hC
end

/-- A line shorter than ten characters has small macro numbers. -/
theorem small_short {l : Str} (h : l.length ≤ 10) : SmallMacros l := by
  rintro a b ⟨h1, h2, ⟨ds, h3, -, h4⟩, -⟩
  have e : slice l (a + 1) b = ds := by rw [← slice_drop, h3]; rfl
  rw [e]
  have hl : ds.length ≤ 9 := by
    have : (slice l a b).length ≤ l.length := by
      unfold slice
      rw [List.length_take, List.length_drop]
      omega
    rw [h3, List.length_cons] at this
    omega
  have := readNat_lt h4
  have : 10 ^ ds.length ≤ 10 ^ 9 := Nat.pow_le_pow_right (by decide) hl
  omega

/-- The hypotheses of `C88_endures_partial` are met by a document with a variable that is looked at. -/
example : Loaded (Whole.server plainRest) shipped Conf.defaults ⟨demo.tables, demo.ops⟩ demo.gcodes demo.mcodes ∧ DeclaredIn shippedSetup ∧
    shipped.gDesc ≠ .absent ∧ shipped.mDesc ≠ .absent ∧ shipped.macroDesc ≠ .absent ∧ Endured c!"#1=5\nX#1" ∧
    (∀ d ∈ [Demo.opened c!"f" c!"#1=5\nX#1", Demo.hovered 1 c!"f" 1 2], Clean d) ∧
    (run (Whole.server plainRest) {} [(shipped, Demo.opened c!"f" c!"#1=5\nX#1"), (shipped, Demo.hovered 1 c!"f" 1 2)]).isOk = true := by
  refine ⟨⟨.inl ⟨rfl, rfl⟩, rfl, rfl, rfl⟩, ?_, by simp [shipped], by simp [shipped], by simp [shipped], ⟨by decide, ?_⟩, ?_, by decide +kernel⟩
  · constructor
    · decide +kernel
    · decide
  · intro ls h l hl
    rw [(C07_document_lines _ _)] at h
    subst h
    refine small_short ?_
    revert l
    decide
  · intro d hd u t he
    simp only [List.mem_cons, List.not_mem_nil, or_false] at hd
    rcases hd with rfl | rfl
    · cases he
      exact ⟨by decide, fun s hs => by cases hs; decide⟩
    · cases he

/-- The exception that ended the server. -/
def ended {ε α : Type} : Out ε α → Option ε
  | .throw e => some e
  | _ => none

/-- C88 violated: looking at a variable with a large number ends the server, although the document
was opened without complaint. -/
theorem C88_violated_hover :
    (run (Whole.server plainRest) {} [(shipped, Demo.opened c!"f" c!"(#3000000000)")]).isOk = true ∧
    ended (run (Whole.server plainRest) {} [(shipped, Demo.opened c!"f" c!"(#3000000000)"), (shipped, Demo.hovered 1 c!"f" 0 2)]) =
      some (.num .outOfRange) := by
  decide +kernel

/-- C88 violated: opening a document that gives a kept address the value of a function ends the server. -/
theorem C88_violated_open :
    ended (run (Whole.server plainRest) {} [(shipped, Demo.opened c!"f" c!"F[SIN[30]]")]) = some (.num .invalidArgument) := by
  decide +kernel

end NC.Props
