import Verif.Props.Document
import Verif.Props.Filled

/-!
# C87 for documents with variables
-/

namespace NC.Props
open NC NC.Message NC.Gram NC.Ver NC.AttrPath NC.Pipe NC.Calc NC.Spec NC.Spec.Tables NC.Spec.Check NC.Spec.Verify NC.Spec.Units NC.Spec.Document
open NC.Spec.Assign NC.Spec.Filled
open NC.Spec (Source.line Source.word)
open NC.Spec.Lines (Rejects TrimmedEnd IsLines Calm Says)

/-- A line without its trailing white space: blank, an assignment or words. -/
def textOf : Option Item → Str
  | none => []
  | some it => lineOf it

/-- The lines that are not blank with their numbers; `n` lines are in front. -/
def numbered : Nat → List (Option Item) → List (Int × Item)
  | _, [] => []
  | n, none :: t => numbered (n + 1) t
  | n, some it :: t => (((n + 1 : Nat) : Int), it) :: numbered (n + 1) t

/-- `text` consists of the given lines and the lines `rest`; white space may follow each line. -/
def OfItems (text : Str) (ls : List (Option Item)) (rest : List Str) : Prop :=
  ∃ ks, IsLines text (ks ++ rest) ∧ List.Forall₂ (fun k o => TrimmedEnd k (textOf o)) ks ls

theorem split_items {text : Str} {ls : List (Option Item)} {rest : List Str} (h : OfItems text ls rest) :
    Srv.splitLines text = ls.map textOf ++ rest.map Srv.rtrim := by
  obtain ⟨ks, h1, h2⟩ := h
  rw [Srv.splitLines_eq, (C07_document_lines _ _).mp h1, List.map_append]
  congr 1
  clear h1
  induction h2 with
  | nil => rfl
  | cons h _ ih => rw [List.map_cons, List.map_cons, rtrim_of h, ih]

theorem numbered_range : ∀ (ls : List (Option Item)) (n : Nat), ∀ x ∈ numbered n ls, (n : Int) < x.1 ∧ x.1 ≤ (n + ls.length : Nat) := by
  intro ls
  induction ls with
  | nil => intro n x hx; cases hx
  | cons o ls ih =>
    intro n x hx
    cases o with
    | none =>
      have := ih (n + 1) x hx
      simp only [List.length_cons]
      push_cast at this ⊢
      omega
    | some it =>
      simp only [numbered, List.mem_cons] at hx
      rcases hx with rfl | hx
      · simp only [List.length_cons]; push_cast; omega
      · have := ih (n + 1) x hx
        simp only [List.length_cons]
        push_cast at this ⊢
        omega

theorem numbered_sorted : ∀ (ls : List (Option Item)) (n : Nat), (numbered n ls).Pairwise (fun x y => x.1 < y.1) := by
  intro ls
  induction ls with
  | nil => intro n; exact .nil
  | cons o ls ih =>
    intro n
    cases o with
    | none => exact ih (n + 1)
    | some it =>
      refine List.pairwise_cons.mpr ⟨fun y hy => ?_, ih (n + 1)⟩
      exact (numbered_range ls (n + 1) y hy).1

theorem resolved_numbers {S : Setup} {env : Nat → Option ℚ} {xs ys : List (Int × Item)} (h : Resolved S env xs ys) : ys.map Prod.fst = xs.map Prod.fst := by
  induction h with
  | nil env => rfl
  | assign _ _ ih => simp [ih]
  | plain _ ih => simp [ih]
  | filled _ _ _ _ _ _ ih => simp [ih]

theorem line_ne {S : Setup} (hR : RegularTables (rangesOf S) S.tables.metric S.ops) {b : Block}
    (h : Declared (rangesOf S) S.tables.metric S.ops b) : Source.line b ≠ [] := by
  obtain ⟨a, b', c, u, rfl, e, _⟩ := line_first (regularG hR S.lang) h.1
  cases b' with
  | nil => unfold Spec.Source.line; rw [e]; simp
  | cons x t => unfold Spec.Source.line; rw [e]; simp

theorem resolved_ne {S : Setup} (hR : RegularTables (rangesOf S) S.tables.metric S.ops) {env : Nat → Option ℚ} {xs ys : List (Int × Item)} (h : Resolved S env xs ys) :
    (∀ y ∈ ys, Fits S y.2) → ∀ x ∈ xs, lineOf x.2 ≠ [] := by
  induction h with
  | nil env => intro _ x hx; cases hx
  | assign _ _ ih =>
    intro hf x hx
    rcases List.mem_cons.mp hx with rfl | hx
    · simp [lineOf, Assign.text]
    · exact ih (fun y hy => hf y (by simp [hy])) x hx
  | @plain env n b t t' _ ih =>
    intro hf x hx
    rcases List.mem_cons.mp hx with rfl | hx
    · exact line_ne hR (hf (n, .words b) (by simp)).1
    · exact ih (fun y hy => hf y (by simp [hy])) x hx
  | filled hd _ _ _ _ _ ih =>
    intro hf x hx
    rcases List.mem_cons.mp hx with rfl | hx
    · exact line_ne hR hd
    · exact ih (fun y hy => hf y (by simp [hy])) x hx

/-- Lines that a program accepts are not among the rejected ones. -/
theorem rejects_program {S : Setup} : ∀ (ls : List (Option Item)) (p : Parser) (n : Nat) (rest : List Str) (s' : Setup × Parser) (rs : List (Nat × Str × Str)),
    (∀ x ∈ numbered n ls, lineOf x.2 ≠ []) →
    (program S serverOptions p ((numbered n ls).map (fun x => (x.1, lineOf x.2)))).2 = .ok ((numbered n ls).map (fun _ => (true, none))) →
    Rejects Whole.parseLine (S, p) n (ls.map textOf ++ rest) s' rs →
    Rejects Whole.parseLine (S, (program S serverOptions p ((numbered n ls).map (fun x => (x.1, lineOf x.2)))).1) (n + ls.length) rest s' rs := by
  intro ls
  induction ls with
  | nil => intro p n rest s' rs _ _ h; exact h
  | cons o ls ih =>
    intro p n rest s' rs hne hp h
    cases o with
    | none =>
      cases h with
      | blank h =>
        have := ih p (n + 1) rest s' rs hne hp h
        rw [List.length_cons, show n + (ls.length + 1) = n + 1 + ls.length by omega]
        exact this
      | accepted hne => exact absurd rfl hne
      | rejected hne => exact absurd rfl hne
    | some it =>
      have hne' : lineOf it ≠ [] := hne (((n + 1 : Nat) : Int), it) (by simp [numbered])
      simp only [numbered, List.map_cons] at hp ⊢
      obtain ⟨c1, c2⟩ := program_cons S serverOptions p ((n + 1 : Nat) : Int) (lineOf it) ((numbered (n + 1) ls).map (fun x => (x.1, lineOf x.2)))
      have em2 : ((numbered (n + 1) ls).map (fun x => (x.1, lineOf x.2))).map (fun _ => ((true, none) : Answer)) = (numbered (n + 1) ls).map (fun _ => (true, none)) := by
        rw [List.map_map]; rfl
      rw [List.map_cons, em2] at c1
      obtain ⟨h1, h2⟩ := c1.mp hp
      rw [c2 h1]
      rw [List.map_cons, List.cons_append] at h
      generalize hk : textOf (some it) = k at h
      have hk : lineOf it = k := hk
      rw [hk] at hne' h1 h2 ⊢
      cases h with
      | blank h => exact absurd rfl hne'
      | accepted _ hx h =>
        obtain ⟨m', a1, -, rfl⟩ := parseLine_ok hx
        have := ih _ (n + 1) rest s' rs (fun x hx => hne x (by simp [numbered, hx])) h2 h
        rw [List.length_cons, show n + (ls.length + 1) = n + 1 + ls.length by omega]
        exact this
      | rejected _ hx h =>
        obtain ⟨m', a1, -⟩ := parseLine_ok hx
        rw [h1] at a1
        simp at a1

/-- The lines in front are in order: with the values of the variables in their places, they pass. -/
structure InOrder (S : Setup) (ls : List (Option Item)) (ys : List (Int × Item)) : Prop where
  resolved : Resolved S (constants S) (numbered 0 ls) ys
  fits : ∀ y ∈ ys, Fits S y.2
  passing : AllPassing S serverOptions S.units (AttrPath.initial S.cfg) [] (ys.map (fun y => blockOf y.2))

section
variable {S : Setup} (hR : Ready S) (hO : Orderly S) {lg : Enums.ELanguage} (hl : S.lang = .known lg)
  {ls : List (Option Item)} {ys : List (Int × Item)} (hlen : ls.length < 2147483647) (h : InOrder S ls ys)
include hR hO hl hlen h

omit hl in
theorem order_bounds : ys.Pairwise (fun x y => x.1 < y.1) ∧ ∀ y ∈ ys, 0 ≤ y.1 ∧ y.1 ≤ 2147483647 ∧ y.1 < ((ls.length + 1 : Nat) : Int) := by
  have e := resolved_numbers h.resolved
  constructor
  · have := numbered_sorted ls 0
    rw [← List.pairwise_map (f := Prod.fst) (R := (· < ·))] at this ⊢
    rw [e]; exact this
  · intro y hy
    have : y.1 ∈ (numbered 0 ls).map Prod.fst := by rw [← e]; exact List.mem_map.mpr ⟨y, hy, rfl⟩
    obtain ⟨x, hx, hxy⟩ := List.mem_map.mp this
    have := numbered_range ls 0 x hx
    rw [← hxy]
    push_cast at this ⊢
    omega

/-- The parser after the lines in front. -/
abbrev ahead (S : Setup) (ls : List (Option Item)) : Parser :=
  (program S serverOptions (fresh S) ((numbered 0 ls).map (fun x => (x.1, lineOf x.2)))).1

theorem order_after : (program S serverOptions (fresh S) ((numbered 0 ls).map (fun x => (x.1, lineOf x.2)))).2 = .ok ((numbered 0 ls).map (fun _ => (true, none))) ∧
    (ahead S ls).macros.Sorted ∧ (∀ i l, ((ls.length + 1 : Nat) : Int) ≤ l → (ahead S ls).macros.get ⟨i, l⟩ = none) ∧ 0 ≤ bal (ahead S ls).gram.st ∧
    (ahead S ls).units = inForce S.units (ys.map (fun y => blockOf y.2)).flatten ∧
    (ahead S ls).path = simulatedAll S serverOptions S.units (AttrPath.initial S.cfg) (ys.map (fun y => blockOf y.2)) ∧
    (S.cfg.operatorRotation = false → RotInv (ys.map (fun y => blockOf y.2)) (ahead S ls).rot) ∧
    ∀ env, computed (spTr S.tr) (constants S) (ys.map Prod.snd) = some env → ∀ i, ¬ Kept i →
      (ahead S ls).macros.valueMax i = env i ∧ (ahead S ls).macros.valueAt i ((ls.length + 1 : Nat) : Int) = env i := by
  obtain ⟨hlt, hr⟩ := order_bounds hR hO hlen h
  obtain ⟨f1, f2⟩ := fresh_values S
  have hnew : ∀ y ∈ ys, ∀ i l, y.1 ≤ l → (fresh S).macros.get ⟨i, l⟩ = none := fun y hy i l hl => by
    have := (hr y hy).1
    show (initMacros S).get ⟨i, l⟩ = none
    rw [f1, if_neg (by omega)]
  obtain ⟨r1, r2⟩ := resolved_run hR hl serverOptions rfl h.resolved (fresh S) (fresh S) (agree_refl _) (show (0 : Int) ≤ bal {} by decide) (show (0 : Int) ≤ bal {} by decide)
    h.fits hlt (fun y hy => (hr y hy).2.1) (fresh_sorted S) hnew (fun i _ => f2 i)
  obtain ⟨s1, s2⟩ := items_iff hR hl serverOptions rfl hO.gcodes hO.mcodes ys (fresh S) [] (constants S) h.fits hlt (fun y hy => (hr y hy).2.1) (fresh_sorted S) hnew
    (show (0 : Int) ≤ bal {} by decide) (fun _ _ => Ver.rotInv_nil) (fun i _ => f2 i)
  have hy := s1.mpr ⟨resolved_computed hR h.resolved, h.passing⟩
  have hx := r1.mpr hy
  obtain ⟨⟨a1, a2, a3, a4⟩, a5⟩ := r2 hx
  obtain ⟨b1, b2, b3, b4, b5, b6, b7⟩ := s2 hy
  have late := b7 ((ls.length + 1 : Nat) : Int) (fun y hy => (hr y hy).2.2) (fun i l hl => by
    show (initMacros S).get ⟨i, l⟩ = none
    rw [f1, if_neg (by omega)])
  refine ⟨hx, by rw [ahead, a1]; exact b6, by rw [ahead, a1]; exact late, a5, by rw [ahead, a3]; exact b3, by rw [ahead, a2]; exact b1,
    fun q => by rw [ahead, a4]; exact b4 rfl q, fun env he i hi => ?_⟩
  have hv := b2 env he i hi
  rw [ahead, a1]
  refine ⟨hv, ?_⟩
  rw [← MacroMap.valueMax_eq b6 (L := ((ls.length + 1 : Nat) : Int)) (by push_cast; omega) (fun id l hl => late id l hl.le)]
  exact hv

end

/-! ## The text of an assignment has no colon -/

theorem dig_colon (d : Fin 10) : dig d ≠ ':' := by revert d; decide

theorem digs_colon (ds : List (Fin 10)) : ':' ∉ ds.map dig := by
  intro h
  obtain ⟨d, -, h⟩ := List.mem_map.mp h
  exact dig_colon d h

theorem prNum_colon (ip fp : List (Fin 10)) : ':' ∉ prNum ip fp := by
  unfold prNum
  split
  · exact digs_colon ip
  · simp only [List.mem_append, List.mem_cons, not_or]
    exact ⟨digs_colon ip, by decide, digs_colon fp⟩

mutual
theorem prE_colon : ∀ e : E, ':' ∉ e.pr
  | .one t => by unfold E.pr; exact prT_colon t
  | .bin e op t => by
    unfold E.pr
    simp only [List.mem_append, not_or]
    exact ⟨⟨prE_colon e, by cases op <;> decide⟩, prT_colon t⟩
theorem prT_colon : ∀ t : T, ':' ∉ t.pr
  | .one f => by unfold T.pr; exact prF_colon f
  | .bin t op f => by
    unfold T.pr
    simp only [List.mem_append, not_or]
    exact ⟨⟨prT_colon t, by cases op <;> decide⟩, prF_colon f⟩
theorem prF_colon : ∀ f : F, ':' ∉ f.pr
  | .num ip fp _ => by unfold F.pr; exact prNum_colon ip fp
  | .br e => by
    unfold F.pr
    have := prE_colon e
    simp only [List.cons_append, List.mem_cons, List.mem_append, List.not_mem_nil, not_or]
    exact ⟨by decide, this, by decide, by simp⟩
  | .mac f => by
    unfold F.pr
    have := prF_colon f
    simp only [List.mem_cons, not_or]
    exact ⟨by decide, this⟩
  | .neg f => by
    unfold F.pr
    have := prF_colon f
    simp only [List.mem_cons, not_or]
    exact ⟨by decide, this⟩
  | .pos f => by
    unfold F.pr
    have := prF_colon f
    simp only [List.mem_cons, not_or]
    exact ⟨by decide, this⟩
  | .fn g e => by
    unfold F.pr
    have h1 := prE_colon e
    have h2 : ':' ∉ g.txt := by cases g <;> decide
    simp only [List.mem_cons, List.mem_append, List.not_mem_nil, not_or]
    exact ⟨⟨h2, by decide, h1⟩, by decide, by simp⟩
end

theorem assign_colon (ip : List (Fin 10)) (e : E) : ':' ∉ Assign.text ip e := by
  unfold Assign.text
  simp only [List.cons_append, List.mem_cons, List.mem_append, not_or]
  exact ⟨by decide, digs_colon ip, by decide, prE_colon e⟩

theorem reads_of {b : Block} {d : Dec} {v : Str} (hd : d ∈ decs b) (hm : d.mac.isSome = true) (hv : d.value = some v) : readNat v ∈ reads b := by
  unfold reads
  exact List.mem_filterMap.mpr ⟨d, hd, by rw [if_pos hm, hv]; rfl⟩

/-! ## Documents -/

section
variable (R : Whole.Rest) (F : Srv.Files Conf.Settings Conf.Words Ver.Groups) {s : Conf.Settings} {g : Conf.Words} {gc mc : Ver.Groups}
  (hL : Srv.Loaded (Whole.server R) F s g gc mc) {md : Srv.MacroDesc} (hM : Srv.readMacros R.logging F.userDesc F.macroDesc = .ok (md, none))
  {S : Setup} (hS : Pipe.configure (Conf.setupOf R.env s g gc mc) = .ok S) (hO : Orderly S) (hR : Ready S)
  (ds : List Json) (hcl : ∀ d ∈ ds, Spec.Server.Clean d) {st st' : Srv.St Conf.Settings Conf.Words Ver.Groups} {os : List (List Json)}
  {out : List Json} (hrun : Srv.run (Whole.server R) {} (ds.map (F, ·)) = .ok (st, os))
  (d : Json) (u t : Str) (he : Spec.Server.event d = some (u, some t)) (hc : Spec.Server.Clean d)
  (hh : Srv.handle (Whole.server R) F st d = .ok (st', out))
  (ls : List (Option Item)) (ys : List (Int × Item)) (hlen : ls.length < 2147483647) (hord : InOrder S ls ys)
include hL hM hS hO hR hcl hrun he hc hh hlen hord

/-- C87 with variables (partial: words as the tables declare them, ordinary numbers and variables in the place of numbers, assignments;
no line reads a variable in which the controller keeps words): a document that passes with the values of the variables in their
places has no diagnostics, whatever the server did before. -/
theorem C87_variables_clean_partial (ht : OfItems t ls []) : out = [Srv.publication u []] := by
  obtain ⟨q, rs, dl, h1, h2, rfl⟩ := published R F hL hM hS ds hcl hrun d u t he hc hh
  rw [split_items ht] at h1
  have hl := configured_lang R hS
  obtain ⟨a1, -⟩ := order_after hR hO hl hlen hord
  have := rejects_program ls (fresh S) 0 _ q rs (resolved_ne hR.regular hord.resolved hord.fits) a1 h1
  cases this with
  | done => cases h2; rfl

/-- The diagnostic of a flawed line behind lines that are in order. -/
theorem flawed_line {k : Str} {it : Item} (hk : lineOf it = k) (hne : k ≠ []) {rest : List Str} (ht : OfItems t (ls ++ [some it]) rest)
    (hf : ∀ r m, (parse S serverOptions ((ls.length + 1 : Nat) : Int) k (ahead S ls)).2 = .ok (r, m) → r = false ∧ Calm k (m.getD [])) :
    ∃ (m : Option Str) (d : Srv.Diag) (more : List Json), (parse S serverOptions ((ls.length + 1 : Nat) : Int) k (ahead S ls)).2 = .ok (false, m) ∧
      d.line = ls.length ∧ Says k (m.getD []) d.character d.message ∧ out = [Srv.publication u (Srv.diagJson d :: more)] := by
  obtain ⟨q, rs, dl, h1, h2, rfl⟩ := published R F hL hM hS ds hcl hrun d u t he hc hh
  have hl := configured_lang R hS
  obtain ⟨a1, -⟩ := order_after hR hO hl hlen hord
  rw [split_items ht, List.map_append, List.append_assoc] at h1
  have h3 := rejects_program ls (fresh S) 0 _ q rs (resolved_ne hR.regular hord.resolved hord.fits) a1 h1
  rw [Nat.zero_add, List.map_cons, List.cons_append] at h3
  generalize hk' : textOf (some it) = k' at h3
  have hk' : lineOf it = k' := hk'
  rw [hk] at hk'
  subst hk'
  cases h3 with
  | blank h => exact absurd rfl hne
  | accepted _ hx h =>
    obtain ⟨m', h4, -, -⟩ := parseLine_ok hx
    exact absurd (hf _ _ h4).1 (by decide)
  | @rejected _ _ _ _ _ m _ rs' _ hx h =>
    obtain ⟨m', h4, rfl, -⟩ := parseLine_ok hx
    obtain ⟨-, c1⟩ := hf _ _ h4
    obtain ⟨d, d1, d2, d3⟩ := Srv.diag_calm (ε := Srv.Exc) (n := ls.length) (by omega) c1
    rw [List.map_cons] at h2
    unfold Srv.diagsOf at h2
    rw [d1] at h2
    simp only [Out.bind_eq_ok] at h2
    obtain ⟨a, ha, ms, -, h2⟩ := h2
    cases ha
    cases h2
    exact ⟨m', d, ms.map Srv.diagJson, h4, d2, d3, rfl⟩

/-- C87 with variables (partial: as before): behind lines that are in order, an assignment whose expression has no value gives the
first diagnostic; it is on its line and quotes it. -/
theorem C87_no_value_partial {ip : List (Fin 10)} (hip : Numeral (rangesOf S) ip) {e : E} (hfe : FitE (rangesOf S) (namesOf S) e) (hre : ∀ i ∈ readsE e, ¬ Kept i)
    {env : Nat → Option ℚ} (henv : computed (spTr S.tr) (constants S) (ys.map Prod.snd) = some env) (hv : e.val (spTr S.tr) env = none)
    {rest : List Str} (ht : OfItems t (ls ++ [some (.assign ip e)]) rest) :
    ∃ more, out = [Srv.publication u (Srv.diagJson ⟨ls.length, 0, c!"'" ++ Assign.text ip e ++ c!"'"⟩ :: more)] := by
  have hl := configured_lang R hS
  obtain ⟨-, -, -, a4, -, -, -, a8⟩ := order_after hR hO hl hlen hord
  have hv' : e.val (spTr S.tr) (ahead S ls).macros.valueMax = none := by
    rw [val_readsE _ e hfe (fun i hi => (a8 env henv i (hre i hi)).1), hv]
  obtain ⟨q, -, -, -, -, hq⟩ := C98_no_value hR serverOptions rfl ((ls.length + 1 : Nat) : Int) (ahead S ls) a4 hip hfe [] (by simp) hv'
  rw [List.append_nil] at hq
  have hans : ∀ r m, (parse S serverOptions ((ls.length + 1 : Nat) : Int) (Assign.text ip e) (ahead S ls)).2 = .ok (r, m) → r = false ∧ m = some [] := by
    intro r m hm
    rcases hq with hq | hq
    · rw [hq] at hm; cases hm; exact ⟨rfl, rfl⟩
    · rw [hq] at hm; cases hm
  obtain ⟨m, d, more, h1, h2, h3, h4⟩ := flawed_line R F hL hM hS hO hR ds hcl hrun d u t he hc hh ls ys hlen hord (k := Assign.text ip e) rfl (by simp [Assign.text]) ht (by
    intro r m hm
    obtain ⟨rfl, rfl⟩ := hans r m hm
    exact ⟨rfl, .silent (assign_colon ip e)⟩)
  obtain ⟨-, rfl⟩ := hans _ _ h1
  obtain ⟨x, dc, dm⟩ := d
  obtain rfl : x = ls.length := h2
  refine ⟨more, ?_⟩
  rw [h4]
  have h3 : Says (Assign.text ip e) [] dc dm := h3
  generalize hm : ([] : Str) = m at h3
  cases h3 with
  | placed => simp at hm
  | plain hne => exact absurd hm.symm hne
  | silent => rfl

/-- A refused line whose message is that of a check. -/
theorem checked_line {k : Str} {it : Item} (hk : lineOf it = k) (hne : k ≠ []) {rest : List Str} (ht : OfItems t (ls ++ [some it]) rest)
    (hf : ∀ r m, (parse S serverOptions ((ls.length + 1 : Nat) : Int) k (ahead S ls)).2 = .ok (r, m) →
      r = false ∧ ∃ m', m = some m' ∧ Calm k m' ∧ m'.head? ≠ some '1' ∧ ∃ c ∈ m', isSp c = false) :
    ∃ m' dm more, (parse S serverOptions ((ls.length + 1 : Nat) : Int) k (ahead S ls)).2 = .ok (false, some m') ∧ Spec.Lines.Trimmed m' dm ∧ dm ≠ [] ∧
      out = [Srv.publication u (Srv.diagJson ⟨ls.length, 0, dm⟩ :: more)] := by
  obtain ⟨m, d, more, h1, h2, h3, h4⟩ := flawed_line R F hL hM hS hO hR ds hcl hrun d u t he hc hh ls ys hlen hord hk hne ht (by
    intro r m hm
    obtain ⟨hr, m', rfl, hc, -⟩ := hf r m hm
    exact ⟨hr, hc⟩)
  obtain ⟨-, m', rfl, c1, c2, c3⟩ := hf _ _ h1
  obtain ⟨x, dc, dm⟩ := d
  obtain rfl : x = ls.length := h2
  have h3 : Says k m' dc dm := h3
  cases h3 with
  | placed => simp at c2
  | plain _ _ h =>
    refine ⟨m', dm, more, h1, h, ?_, h4⟩
    rintro rfl
    obtain ⟨⟨v, w, e, hv, hw⟩, -⟩ := h
    obtain ⟨c, hc, hs⟩ := c3
    rw [e] at hc
    simp only [List.append_nil, List.mem_append] at hc
    rcases hc with hc | hc
    · rw [hv c hc] at hs; cases hs
    · rw [hw c hc] at hs; cases hs
  | silent => simp at c3

omit hL hM hS hO hR hcl hrun he hc hh hlen hord in
/-- The answer to a line of words that does not pass. -/
theorem flawed_answer {lg : Enums.ELanguage} (hl : S.lang = .known lg) (hO : Orderly S) {b : Block} (hb : Common S b) {n : Nat} {p : Parser}
    (hno : (parse S serverOptions (n : Int) (Source.line b) p).2 ≠ .ok (true, none)) (data : Str) (r : Bool) (m : Option Str)
    (hm : (parse S serverOptions (n : Int) (Source.line b) p).2 = .ok (r, m)) :
    r = false ∧ ∃ m', m = some m' ∧ Calm data m' ∧ m'.head? ≠ some '1' ∧ ∃ c ∈ m', isSp c = false := by
  obtain ⟨g', hg⟩ := written_words (lang := S.lang) hO.tables hb.1 { p.gram with msg := [] } [] (by simp)
  rw [List.append_nil] at hg
  cases r with
  | true =>
    have := C38_success_partial S _ hl serverOptions _ _ p _ m rfl hb.2.2 (Prod.ext rfl hm)
    subst this
    exact absurd hm hno
  | false =>
    obtain ⟨t', rfl, hne⟩ := C38_failure_partial S _ hl serverOptions _ _ p _ m hb.2.2 (by
      rintro ⟨g2, hg2⟩
      have := hg.symm.trans hg2
      simp at this) (Prod.ext rfl hm)
    exact ⟨rfl, t', rfl, refused_calm (parse_refuses hl hO.soft rfl hb.2.2 hg) hm data⟩

/-- C87 with variables (partial: as before): behind lines that are in order, a line of words that does not pass with the values of the
variables in their places gives the first diagnostic, and it is on its line. -/
theorem C87_variables_first_partial {b b' : Block} (hd : Declared (rangesOf S) S.tables.metric S.ops b) (hb' : Common S b')
    {env : Nat → Option ℚ} (henv : computed (spTr S.tr) (constants S) (ys.map Prod.snd) = some env)
    (hfill : Filled env (untouched S) b b') (hsp : Spelled b') (hre : ∀ i ∈ reads b, ¬ Kept i) (hsw : lastSwitch b' = none)
    (hf : ¬ Passing S serverOptions (inForce S.units (ys.map (fun y => blockOf y.2)).flatten)
      (simulatedAll S serverOptions S.units (AttrPath.initial S.cfg) (ys.map (fun y => blockOf y.2))) (ys.map (fun y => blockOf y.2)) b')
    {rest : List Str} (ht : OfItems t (ls ++ [some (.words b)]) rest) :
    ∃ m more, m ≠ [] ∧ out = [Srv.publication u (Srv.diagJson ⟨ls.length, 0, m⟩ :: more)] := by
  have hl := configured_lang R hS
  obtain ⟨-, -, -, -, a5, a6, a7, a8⟩ := order_after hR hO hl hlen hord
  have hf' : Filled (fun i => (ahead S ls).macros.valueAt i ((ls.length + 1 : Nat) : Int)) (untouched S) b b' :=
    filled_congr hfill (fun i hi => (a8 env henv i (hre i hi)).2.symm)
  obtain ⟨r1, -⟩ := parse_filled hR.regular hR.pallet hR.measure serverOptions rfl ((ls.length + 1 : Nat) : Int) (ahead S ls) (ahead S ls) (agree_refl _) hd hb'.1 hf' hsp
    (by unfold inForce; rw [hsw]; rfl)
  obtain ⟨k1, -⟩ := passing_line hl hO hb' (ls.length + 1) (ahead S ls) _ a7
  have hno : (parse S serverOptions ((ls.length + 1 : Nat) : Int) (Source.line b') (ahead S ls)).2 ≠ .ok (true, none) := by
    intro q
    have := k1.mp q
    rw [a5, a6] at this
    exact hf this
  obtain ⟨m', dm, more, -, -, h3, h4⟩ := checked_line R F hL hM hS hO hR ds hcl hrun d u t he hc hh ls ys hlen hord (k := Source.line b) rfl (line_ne hR.regular hd) ht (by
    intro r m hm
    rw [r1] at hm
    exact flawed_answer hl hO hb' hno _ r m hm)
  exact ⟨dm, more, h3, h4⟩

/-- C87 with variables (partial: as before; words that may stand once do): behind lines that are in order, a line with a variable that
has no value gives the first diagnostic; it is on its line and names such a variable. -/
theorem C87_missing_partial {b : Block} (hd : Declared (rangesOf S) S.tables.metric S.ops b) (hsp : Spelled b)
    (huniq : ∀ w, DeclaredUnique (Pipe.tableOf S.tables (inForce S.units (ys.map (fun y => blockOf y.2)).flatten)) w → occurs w b ≤ 1)
    {env : Nat → Option ℚ} (henv : computed (spTr S.tr) (constants S) (ys.map Prod.snd) = some env)
    (hre : ∀ i ∈ reads b, ¬ Kept i)
    {w : Dec} (hw : w ∈ decs b) (hwu : w.word ∉ untouched S) (hwm : w.mac.isSome = true) {v : Str} (hwv : w.value = some v) (hnone : env (readNat v) = none)
    {rest : List Str} (ht : OfItems t (ls ++ [some (.words b)]) rest) :
    ∃ x ∈ decs b, ∃ v' more, x.mac.isSome = true ∧ x.value = some v' ∧ env (readNat v') = none ∧
      out = [Srv.publication u (Srv.diagJson ⟨ls.length, 0, c!"Missing value for #" ++ v'⟩ :: more)] := by
  have hl := configured_lang R hS
  obtain ⟨-, -, -, -, a5, -, -, a8⟩ := order_after hR hO hl hlen hord
  obtain ⟨msg, h1, -, h3⟩ := C99_missing hR.regular serverOptions rfl ((ls.length + 1 : Nat) : Int) (ahead S ls) hd hsp hw hwu hwm hwv
    (by rw [(a8 env henv _ (hre _ (reads_of hw hwm hwv))).2]; exact hnone)
  obtain ⟨x, hx, v', x1, x2, x3, rfl⟩ := h3 (by rw [a5]; exact huniq)
  rw [(a8 env henv _ (hre _ (reads_of hx x1 x2))).2] at x3
  have hdig : Spec.Words.Digits v' := by
    obtain ⟨hval, -⟩ := declared_word hd hx
    cases hval.number with
    | whole q1 => rw [q1] at x1; cases x1
    | point q1 => rw [q1] at x1; cases x1
    | fraction q1 => rw [q1] at x1; cases x1
    | macro_ _ q2 q3 => rw [q2] at x2; cases x2; exact q3.1
  have hmsg : outText (makeMessage .MissingValue S.lang ['#' :: v']) = c!"Missing value for #" ++ v' := by
    rw [hl]
    show weave [c!"Missing value for "] ['#' :: v'] = _
    simp [weave]
  have hmild : Mild .MissingValue ['#' :: v'] := by
    refine told_of (by decide) (fun s hs => ?_)
    rw [List.mem_singleton.mp hs]
    refine soft_of (fun c hc => ?_)
    rcases List.mem_cons.mp hc with rfl | hc
    · decide
    · have := hdig.2 c hc
      exact ⟨isDig_char this _ (by decide), isDig_char this _ (by decide)⟩
  have hcalm := told_calm .English hmild (Source.line b)
  have hexc : excText (.known .English) .MissingValue ['#' :: v'] = c!"Missing value for #" ++ v' := by
    rw [← hmsg, hl]; rfl
  rw [hexc] at hcalm
  rw [hmsg] at h1
  obtain ⟨m', dm, more, g1, g2, -, g4⟩ := checked_line R F hL hM hS hO hR ds hcl hrun d u t he hc hh ls ys hlen hord (k := Source.line b) rfl (line_ne hR.regular hd) ht (by
    intro r m hm
    rw [h1] at hm
    cases hm
    exact ⟨rfl, _, rfl, hcalm⟩)
  rw [h1] at g1
  cases g1
  refine ⟨x, hx, v', more, x1, x2, x3, ?_⟩
  have : dm = c!"Missing value for #" ++ v' := by
    refine Srv.Trimmed.unique g2 ⟨⟨[], [], by simp, by simp, by simp⟩, ?_, ?_⟩
    · intro c hc; cases hc; decide
    · intro c hc
      rw [List.getLast?_append] at hc
      cases hv : v'.getLast? with
      | none => exact absurd (List.getLast?_eq_none_iff.mp hv) hdig.1
      | some y =>
        rw [hv] at hc
        cases hc
        have := hdig.2 c (List.mem_of_getLast? hv)
        exact isDig_not_sp this
  rw [g4, this]

end

/-! ## An example -/

theorem shipped_ready : Ready shippedSetup where
  regular := demo_ready.regular
  signs := demo_ready.signs
  named := demo_ready.named
  axes := by
    have : ∀ a ∈ shippedSetup.cfg.axes, a.length = 1 ∧ ∀ c ∈ a, 'A' ≤ c ∧ c ≤ 'Z' := by decide +kernel
    intro a ha
    obtain ⟨h1, h2⟩ := this a ha
    obtain ⟨c, rfl⟩ := List.length_eq_one_iff.mp h1
    exact ⟨c, rfl, h2 c (by simp)⟩
  unique := demo_ready.unique
  pallet := by decide +kernel
  measure := by decide +kernel

/-- The lines of `withVariables` with a blank line among them. -/
def spaced : List (Option Item) := [some (.assign [1] second), some (.assign [2] quarter), none, some (.words goodWords[0]), some (.words openWords)]
def spacedValues : List (Int × Item) := [(1, .assign [1] second), (2, .assign [2] quarter), (4, .words goodWords[0]), (5, .words closedWords)]

theorem spaced_fits : ∀ y ∈ spacedValues, Fits shippedSetup y.2 := by
  intro y hy
  have : ∃ z ∈ withValues, z.2 = y.2 := by
    simp only [spacedValues, List.mem_cons, List.not_mem_nil, or_false] at hy
    rcases hy with rfl | rfl | rfl | rfl <;> simp [withValues]
  obtain ⟨z, hz, e⟩ := this
  rw [← e]
  exact withValues_fits (S := shippedSetup) rfl rfl rfl rfl z hz

/-- The document passes. -/
theorem spaced_order : InOrder shippedSetup spaced spacedValues := by
  have h0 : Resolved shippedSetup (constants shippedSetup) (numbered 0 spaced) spacedValues := by
    refine .assign (v := 11) (by decide +kernel) (.assign (v := -1 / 4) (by decide +kernel) (.plain (.filled open_declared.1 (open_filled ?_ ?_) open_spelled.2 ?_ (by decide) (.nil _))))
    · decide +kernel
    · decide +kernel
    · intro i hi hk
      have := kept_from hk
      have : i = 1 ∨ i = 2 := by
        have e : reads openWords = [1, 2] := by decide
        rw [e] at hi
        simpa using hi
      omega
  have h1 : spacedValues.Pairwise (fun x y => x.1 < y.1) := by simp [spacedValues]
  have h2 : ∀ y ∈ spacedValues, 0 ≤ y.1 ∧ y.1 ≤ 2147483647 := by simp [spacedValues]
  exact ⟨h0, spaced_fits, (C99_program_partial shipped_ready (lg := .English) rfl serverOptions rfl shipped_orderly.2.gcodes shipped_orderly.2.mcodes h0
    spaced_fits h1 h2).1.mp (by decide +kernel)⟩

/-- Variable 1 over nothing. -/
def hopeless : E := .one (.bin (.one (.mac (.num [1] [] (by simp)))) .div (.num [0] [] (by simp)))

def beginning : Str := ['#', '1', '=', 'A', 'B', 'S', '[', 'A', 'B', 'S', '[', '5', ']', '+', '[', '2', '*', '3', ']', ']', '\n'] ++ ['#', '2', '=', '0', '-', '1', '/', '4', '\n']

/-- The values of the variables behind the assignments. -/
def bothValues : Nat → Option ℚ := fun i => if i = 2 then some (-1 / 4) else if i = 1 then some 11 else constants shippedSetup i

theorem both_computed (t : List Block) : computed (spTr shippedSetup.tr) (constants shippedSetup) ([.assign [1] second, .assign [2] quarter] ++ t.map .words) = some bothValues := by
  have h1 : second.val (spTr shippedSetup.tr) (constants shippedSetup) = some 11 := by decide +kernel
  have h2 : quarter.val (spTr shippedSetup.tr) (fun i => if i = worthOf [1] then some 11 else constants shippedSetup i) = some (-1 / 4) := by decide +kernel
  rw [List.cons_append, computed, h1]
  dsimp only
  rw [List.cons_append, computed, h2]
  dsimp only
  have e1 : worthOf [1] = 1 := by decide
  have e2 : worthOf [2] = 2 := by decide
  rw [e1, e2]
  induction t with
  | nil => rfl
  | cons b t ih => exact ih

theorem both_order : InOrder shippedSetup [some (.assign [1] second), some (.assign [2] quarter)] [(1, .assign [1] second), (2, .assign [2] quarter)] := by
  have h0 : Resolved shippedSetup (constants shippedSetup) (numbered 0 [some (.assign [1] second), some (.assign [2] quarter)]) [(1, .assign [1] second), (2, .assign [2] quarter)] :=
    .assign (v := 11) (by decide +kernel) (.assign (v := -1 / 4) (by decide +kernel) (.nil _))
  have hf : ∀ y ∈ [((1 : Int), Item.assign [1] second), (2, .assign [2] quarter)], Fits shippedSetup y.2 := by
    intro y hy
    refine spaced_fits y ?_
    simp only [List.mem_cons, List.not_mem_nil, or_false] at hy
    rcases hy with rfl | rfl <;> simp [spacedValues]
  exact ⟨h0, hf, (C99_program_partial shipped_ready (lg := .English) rfl serverOptions rfl shipped_orderly.2.gcodes shipped_orderly.2.mcodes h0
    hf (by simp) (by simp)).1.mp (by decide +kernel)⟩

theorem handled {text : Str} (h : (Srv.handle (Whole.server plainRest) shipped {} (Demo.opened c!"f" text)).isOk = true) :
    ∃ r, Srv.handle (Whole.server plainRest) shipped {} (Demo.opened c!"f" text) = .ok r := by
  cases hx : Srv.handle (Whole.server plainRest) shipped {} (Demo.opened c!"f" text) with
  | ok r => exact ⟨r, rfl⟩
  | throw e => rw [hx] at h; cases h
  | ub => rw [hx] at h; cases h

/-- `C87_variables_clean_partial`: a document with a blank line. -/
example : InOrder shippedSetup spaced spacedValues ∧ OfItems (beginning ++ c!" \nS500 M3\nG1 X#1 Y#2 F100 (c)") spaced [] ∧
    ∃ r, Srv.handle (Whole.server plainRest) shipped {} (Demo.opened c!"f" (beginning ++ c!" \nS500 M3\nG1 X#1 Y#2 F100 (c)")) = .ok r := by
  refine ⟨spaced_order, ?_, handled (by decide +kernel)⟩
  refine ⟨[['#', '1', '=', 'A', 'B', 'S', '[', 'A', 'B', 'S', '[', '5', ']', '+', '[', '2', '*', '3', ']', ']'], ['#', '2', '=', '0', '-', '1', '/', '4'], c!" ", c!"S500 M3", c!"G1 X#1 Y#2 F100 (c)"],
    ⟨by decide, .inr ⟨by decide, c!"G1 X#1 Y#2 F100 (c)", by decide, by decide⟩⟩, ?_⟩
  refine .cons ?_ (.cons ?_ (.cons ?_ (.cons ?_ (.cons ?_ .nil))))
  · exact ⟨⟨[], by decide, by decide⟩, by decide⟩
  · exact ⟨⟨[], by decide, by decide⟩, by decide⟩
  · exact ⟨⟨c!" ", by decide, by decide⟩, by decide⟩
  · exact ⟨⟨[], by decide, by decide⟩, by decide⟩
  · exact ⟨⟨[], by decide, by decide⟩, by decide⟩

/-- `C87_no_value_partial`: a division by zero behind the assignments. -/
example : FitE (rangesOf shippedSetup) (namesOf shippedSetup) hopeless ∧ Numeral (rangesOf shippedSetup) [3] ∧ (∀ i ∈ readsE hopeless, ¬ Kept i) ∧
    hopeless.val (spTr shippedSetup.tr) bothValues = none ∧
    OfItems (beginning ++ ['#', '3', '=', '#', '1', '/', '0', '\n', '!']) ([some (.assign [1] second), some (.assign [2] quarter)] ++ [some (.assign [3] hopeless)]) [c!"!"] ∧
    ∃ r, Srv.handle (Whole.server plainRest) shipped {} (Demo.opened c!"f" (beginning ++ ['#', '3', '=', '#', '1', '/', '0', '\n', '!'])) = .ok r := by
  refine ⟨?_, numeral_of _ (by decide), ?_, by decide +kernel, ?_, handled (by decide +kernel)⟩
  · unfold hopeless
    simp only [FitE, FitT, FitF, LowOk, HighOk]
    and_intros <;> first | trivial | exact modest_of _ _ (by decide) | exact numeral_of _ (by decide)
  · intro i hi hk
    have := kept_from hk
    have : i < 4102 := (show ∀ i ∈ readsE hopeless, i < 4102 by decide) i hi
    omega
  · refine ⟨[['#', '1', '=', 'A', 'B', 'S', '[', 'A', 'B', 'S', '[', '5', ']', '+', '[', '2', '*', '3', ']', ']'], ['#', '2', '=', '0', '-', '1', '/', '4'], ['#', '3', '=', '#', '1', '/', '0']],
      ⟨by decide, .inr ⟨by decide, c!"!", by decide, by decide⟩⟩, ?_⟩
    refine .cons ?_ (.cons ?_ (.cons ?_ .nil)) <;> exact ⟨⟨[], by decide, by decide⟩, by decide⟩

/-- `C87_variables_first_partial` and `C87_missing_partial`: a cut without spindle speed behind the assignments; the same line without them. -/
example : Common shippedSetup closedWords ∧ Filled bothValues (untouched shippedSetup) openWords closedWords ∧
    ¬ Passing shippedSetup serverOptions (inForce shippedSetup.units ([(1, .assign [1] second), (2, .assign [2] quarter)].map (fun y : Int × Item => blockOf y.2)).flatten)
      (simulatedAll shippedSetup serverOptions shippedSetup.units (AttrPath.initial shippedSetup.cfg) ([(1, .assign [1] second), (2, .assign [2] quarter)].map (fun y : Int × Item => blockOf y.2)))
      ([(1, .assign [1] second), (2, .assign [2] quarter)].map (fun y : Int × Item => blockOf y.2)) closedWords ∧
    OfItems (beginning ++ c!"G1 X#1 Y#2 F100 (c)\n") ([some (.assign [1] second), some (.assign [2] quarter)] ++ [some (.words openWords)]) [] ∧
    (∃ r, Srv.handle (Whole.server plainRest) shipped {} (Demo.opened c!"f" (beginning ++ c!"G1 X#1 Y#2 F100 (c)\n")) = .ok r) ∧
    InOrder shippedSetup [] [] ∧ OfItems c!"G1 X#1 Y#2 F100 (c)" ([] ++ [some (.words openWords)]) [] ∧ constants shippedSetup 2 = none ∧
    (∀ w, DeclaredUnique (Pipe.tableOf shippedSetup.tables shippedSetup.units) w → occurs w openWords ≤ 1) ∧
    (∃ r, Srv.handle (Whole.server plainRest) shipped {} (Demo.opened c!"f" c!"G1 X#1 Y#2 F100 (c)") = .ok r) := by
  have hc : Common shippedSetup closedWords :=
    have := spaced_fits (5, .words closedWords) (by simp [spacedValues])
    ⟨this.1, this.2.2, this.2.1⟩
  refine ⟨hc, open_filled (by decide +kernel) (by decide +kernel), ?_, ?_, handled (by decide +kernel), ⟨.nil _, by simp, trivial⟩, ?_, by decide +kernel,
    (C30_unique _ _).mp (by decide +kernel), handled (by decide +kernel)⟩
  · intro h
    obtain ⟨-, -, -, -, a5, a6, a7, -⟩ := order_after shipped_ready shipped_orderly.2 (lg := .English) rfl (by decide) both_order
    obtain ⟨k1, -⟩ := passing_line (l := .English) rfl shipped_orderly.2 hc 3 (ahead shippedSetup [some (.assign [1] second), some (.assign [2] quarter)]) _ a7
    rw [a5, a6] at k1
    exact absurd (k1.mpr h) (by decide +kernel)
  · refine ⟨[['#', '1', '=', 'A', 'B', 'S', '[', 'A', 'B', 'S', '[', '5', ']', '+', '[', '2', '*', '3', ']', ']'], ['#', '2', '=', '0', '-', '1', '/', '4'], c!"G1 X#1 Y#2 F100 (c)"],
      ⟨by decide, .inl (by decide)⟩, ?_⟩
    refine .cons ?_ (.cons ?_ (.cons ?_ .nil)) <;> exact ⟨⟨[], by decide, by decide⟩, by decide⟩
  · refine ⟨[c!"G1 X#1 Y#2 F100 (c)"], ⟨by decide, .inr ⟨by decide, _, rfl, by decide⟩⟩, ?_⟩
    refine .cons ?_ .nil
    exact ⟨⟨[], by decide, by decide⟩, by decide⟩

end NC.Props
