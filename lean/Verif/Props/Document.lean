import Verif.Refused
import Verif.Whole
import Verif.Spec.Document
import Verif.Props.Written
import Verif.Props.Lens
import Verif.Props.Lines
import Verif.Props.Serving
import Verif.Props.Check
import Verif.Demo

/-!
# C87: a document without flaws has no diagnostics, otherwise the first one is on the first flawed line

The server of `Verif.Whole`, with its readers and its line parser.
-/

namespace NC.Props
open NC NC.Message NC.Gram NC.Ver NC.AttrPath NC.Pipe NC.Spec.Tables NC.Spec.Check NC.Spec.Verify NC.Spec.Units NC.Spec.Document
open NC.Spec (Source.line Source.word)
open NC.Spec.Lines (Rejects TrimmedEnd IsLines)

/-- The configuration of the parser is in order: sets of groups, a regular word table, and names that
a message can carry. -/
structure Orderly (S : Setup) : Prop where
  gcodes : SetOfGroups S.gcodes
  mcodes : SetOfGroups S.mcodes
  tables : RegularTables (Pipe.tableOf S.tables S.units) S.tables.metric S.ops
  words : ∀ u, ∀ e ∈ Pipe.tableOf S.tables u, e.2.unique = true → Bland e.1
  axes : ∀ e ∈ S.limits.axes, Bland e.1
  groups : ∀ e ∈ S.gcodes ++ S.mcodes, ∀ g ∈ e.2, Bland g

/-- Words as the tables declare them, ordinary numbers, no macros. -/
def Common (S : Setup) (b : Block) : Prop :=
  Declared (Pipe.tableOf S.tables S.units) S.tables.metric S.ops b ∧ Ordinary S.lathe S.limits b ∧ '#' ∉ Source.line b

theorem bland_soft {s : Str} (h : Bland s) : soft s = true := soft_of (fun c hc => ⟨fun e => h.1 (e ▸ hc), fun e => h.2 (e ▸ hc)⟩)

theorem Orderly.soft {S : Setup} (h : Orderly S) : SoftNames S :=
  ⟨fun u e he q => bland_soft (h.words u e he q), fun e he => bland_soft (h.axes e he),
    fun e he g hg => bland_soft (h.groups e (by simp [he]) g hg), fun e he g hg => bland_soft (h.groups e (by simp [he]) g hg)⟩

theorem common_ne {S : Setup} (hS : Orderly S) {b : Block} (h : Common S b) : Source.line b ≠ [] := by
  obtain ⟨a, b', c, u, rfl, e, _⟩ := line_first (regularG hS.tables S.lang) h.1.1
  cases b' with
  | nil => unfold Spec.Source.line; rw [e]; simp
  | cons x t => unfold Spec.Source.line; rw [e]; simp

/-- A line that passes is parsed without a message; the parser goes on as its words say. -/
theorem passing_line {S : Setup} {l : Enums.ELanguage} (hl : S.lang = .known l) (hS : Orderly S) {b : Block} (hb : Common S b) (n : Nat)
    (p : Parser) (done : List Block) (hrot : S.cfg.operatorRotation = false → RotInv done p.rot) :
    ((Pipe.parse S serverOptions n (Source.line b) p).2 = .ok (true, none) ↔ Passing S serverOptions p.units p.path done b) ∧
    ((Pipe.parse S serverOptions n (Source.line b) p).2 = .ok (true, none) →
      (Pipe.parse S serverOptions n (Source.line b) p).1.units = inForce p.units b ∧
      (Pipe.parse S serverOptions n (Source.line b) p).1.path = simulated S serverOptions p.units p.path b ∧
      (S.cfg.operatorRotation = false → RotInv (done ++ [b]) (Pipe.parse S serverOptions n (Source.line b) p).1.rot)) := by
  obtain ⟨g, hg⟩ := written_words (lang := S.lang) hS.tables hb.1 { p.gram with msg := [] } [] (by simp)
  rw [List.append_nil] at hg
  obtain ⟨h1, h2⟩ := C85_line_partial S l hl serverOptions n rfl hS.gcodes hS.mcodes _ hb.2.2 p g b hg hb.2.1 done (fun _ => hrot)
  exact ⟨h1, fun h => ⟨(h2 h).1, (h2 h).2.1, (h2 h).2.2.2 rfl⟩⟩

theorem parseLine_ok {S : Setup} {p : Parser} {n : Nat} {s : Str} {x : Setup × Parser} {r : Bool} {m : Str}
    (h : Whole.parseLine (S, p) n s = .ok (x, r, m)) : ∃ m', (Pipe.parse S serverOptions n s p).2 = .ok (r, m') ∧ m = m'.getD [] ∧
      x = (S, (Pipe.parse S serverOptions n s p).1) := by
  unfold Whole.parseLine at h
  dsimp only at h
  cases hx : (Pipe.parse S serverOptions n s p).2 with
  | ok a =>
    rw [hx] at h
    obtain ⟨r', m'⟩ := a
    simp only [Out.ok.injEq, Prod.mk.injEq] at h
    obtain ⟨h1, rfl, h3⟩ := h
    exact ⟨m', rfl, h3.symm, h1.symm⟩
  | throw e => rw [hx] at h; cases h
  | ub => rw [hx] at h; cases h

/-- Lines that pass are not among the rejected ones. -/
theorem rejects_after {S : Setup} {l : Enums.ELanguage} (hl : S.lang = .known l) (hS : Orderly S) :
    ∀ (ls : List (Option Block)) (p : Parser) (n : Nat) (done : List Block) (rest : List Str) (s' : Setup × Parser) (rs : List (Nat × Str × Str)),
    (∀ b ∈ blocks ls, Common S b) → (S.cfg.operatorRotation = false → RotInv done p.rot) →
    AllPassing S serverOptions p.units p.path done (blocks ls) → Rejects Whole.parseLine (S, p) n (ls.map Spec.Document.line ++ rest) s' rs →
    ∃ q, Rejects Whole.parseLine (S, q) (n + ls.length) rest s' rs ∧ q.units = inForce p.units (blocks ls).flatten ∧
      q.path = simulatedAll S serverOptions p.units p.path (blocks ls) ∧ (S.cfg.operatorRotation = false → RotInv (done ++ blocks ls) q.rot) := by
  intro ls
  induction ls with
  | nil =>
    intro p n done rest s' rs _ hrot _ h
    exact ⟨p, h, rfl, rfl, fun ho => by rw [show blocks [] = [] from rfl, List.append_nil]; exact hrot ho⟩
  | cons o ls ih =>
    intro p n done rest s' rs hc hrot hp h
    cases o with
    | none =>
      cases h with
      | blank h =>
        obtain ⟨q, h1, h2⟩ := ih p (n + 1) done rest s' rs hc hrot hp h
        refine ⟨q, ?_, h2⟩
        rw [List.length_cons, show n + (ls.length + 1) = n + 1 + ls.length by omega]
        exact h1
      | accepted hne => exact absurd rfl hne
      | rejected hne => exact absurd rfl hne
    | some b =>
      have hb : Common S b := hc b (by simp [blocks])
      have e : blocks (some b :: ls) = b :: blocks ls := rfl
      rw [e] at hp ⊢
      obtain ⟨hp1, hp2⟩ := hp
      obtain ⟨k1, k2⟩ := passing_line hl hS hb (n + 1) p done hrot
      have hacc := k1.mpr hp1
      obtain ⟨u1, u2, u3⟩ := k2 hacc
      have go : ∀ {x m}, Whole.parseLine (S, p) (n + 1) (Source.line b) = .ok (x, true, m) →
          Rejects Whole.parseLine x (n + 1) (ls.map Spec.Document.line ++ rest) s' rs →
          ∃ q, Rejects Whole.parseLine (S, q) (n + (ls.length + 1)) rest s' rs ∧ q.units = inForce p.units (b :: blocks ls).flatten ∧
            q.path = simulatedAll S serverOptions p.units p.path (b :: blocks ls) ∧
            (S.cfg.operatorRotation = false → RotInv (done ++ b :: blocks ls) q.rot) := by
        intro x m hx hr
        obtain ⟨_, _, _, rfl⟩ := parseLine_ok hx
        push_cast at u1 u2 u3 hr hp2
        obtain ⟨q, h1, h2, h3, h4⟩ := ih _ (n + 1) (done ++ [b]) rest s' rs (fun c hc' => hc c (by rw [e]; simp [hc'])) u3 (by
          rw [u1, u2]; exact hp2) hr
        refine ⟨q, ?_, ?_, ?_, fun ho => ?_⟩
        · rw [show n + (ls.length + 1) = n + 1 + ls.length by omega]
          exact h1
        · rw [h2, u1]
          unfold inForce lastSwitch
          rw [List.flatten_cons, List.filterMap_append, List.getLast?_append]
          cases (List.filterMap unitOf (blocks ls).flatten).getLast? <;> simp
        · rw [h3, u1, u2]; rfl
        · have := h4 ho
          rwa [List.append_assoc] at this
      have hne' := common_ne hS hb
      rw [List.map_cons, List.cons_append] at h
      generalize hk : Spec.Document.line (some b) = k at h
      have hk : Source.line b = k := hk
      rw [hk] at hne' hacc
      cases h with
      | blank h => exact absurd rfl hne'
      | accepted hne hx h => exact go (by rw [hk]; exact hx) h
      | rejected hne hx h =>
        obtain ⟨m', h1, _⟩ := parseLine_ok hx
        push_cast at hacc h1
        rw [hacc] at h1
        simp at h1

/-- White space at the end does not matter. -/
theorem rtrim_of {k t : Str} (h : TrimmedEnd k t) : Srv.rtrim k = t := by
  obtain ⟨⟨w, rfl, hw⟩, ht⟩ := h
  rw [Srv.rtrim_eq, List.reverse_append]
  have h1 : ∀ (v x : Str), (∀ c ∈ v, isSp c = true) → (v ++ x).dropWhile isSp = x.dropWhile isSp := by
    intro v x hv
    induction v with
    | nil => rfl
    | cons c v ih => rw [List.cons_append, List.dropWhile_cons_of_pos (hv c (by simp))]; exact ih (fun c hc => hv c (by simp [hc]))
  rw [h1 _ _ (fun c hc => hw c (List.mem_reverse.mp hc))]
  have h2 : t.reverse.dropWhile isSp = t.reverse := by
    cases hr : t.reverse with
    | nil => rfl
    | cons c u =>
      have : t.getLast? = some c := by rw [← List.head?_reverse, hr]; rfl
      rw [List.dropWhile_cons_of_neg (by rw [ht c this]; decide)]
  rw [h2, List.reverse_reverse]

theorem split_written {text : Str} {ls : List (Option Block)} {rest : List Str} (h : Written text ls rest) :
    Srv.splitLines text = ls.map Spec.Document.line ++ rest.map Srv.rtrim := by
  obtain ⟨ks, h1, h2⟩ := h
  rw [Srv.splitLines_eq, (C07_document_lines _ _).mp h1, List.map_append]
  congr 1
  clear h1
  induction h2 with
  | nil => rfl
  | cons h _ ih => rw [List.map_cons, List.map_cons, rtrim_of h, ih]

section
variable (R : Whole.Rest) (F : Srv.Files Conf.Settings Conf.Words Ver.Groups) {s : Conf.Settings} {g : Conf.Words} {gc mc : Ver.Groups}
  (hL : Srv.Loaded (Whole.server R) F s g gc mc) {md : Srv.MacroDesc} (hM : Srv.readMacros R.logging F.userDesc F.macroDesc = .ok (md, none))
  {S : Setup} (hS : Pipe.configure (Conf.setupOf R.env s g gc mc) = .ok S) (hO : Orderly S)
  (ds : List Json) (hcl : ∀ d ∈ ds, Spec.Server.Clean d) {st st' : Srv.St Conf.Settings Conf.Words Ver.Groups} {os : List (List Json)}
  {out : List Json} (hrun : Srv.run (Whole.server R) {} (ds.map (F, ·)) = .ok (st, os))
  (d : Json) (u t : Str) (he : Spec.Server.event d = some (u, some t)) (hc : Spec.Server.Clean d)
  (hh : Srv.handle (Whole.server R) F st d = .ok (st', out))
include hL hM hS hcl hrun he hc hh

omit hM hL hcl hrun he hc hh in
theorem configured_lang : S.lang = .known .English := by
  unfold Pipe.configure at hS
  simp only [Out.bind_eq_ok] at hS
  obtain ⟨e, -, b, -, h⟩ := hS
  cases h
  rfl

/-- The diagnostics are those of the rejected lines. -/
theorem published : ∃ q rs dl, Rejects Whole.parseLine (S, Pipe.fresh S) 0 (Srv.splitLines t) q rs ∧
    Srv.diagsOf (ε := Srv.Exc) (rs.map (fun r => Srv.reword (r.1 + 1) r.2.1 r.2.2)) = .ok dl ∧ out = [Srv.publication u (dl.map Srv.diagJson)] := by
  obtain ⟨hI, -⟩ := contexts_loaded F hL u ds {} st os none hcl hrun .start rfl
  rcases Srv.step_contexts hh hc with ⟨v, t', p, r, he', -, -, -, hp⟩ | ⟨v, he', -, -, -⟩ | ⟨he', -, -, -⟩
  · rw [he] at he'; cases he'
    obtain ⟨-, r, l, e, hr, hl, -, ho, hn, hs⟩ := Srv.publish_inv hL hI hp
    have : e = none := by
      by_cases q : st.macroDesc = none
      · obtain ⟨md', q⟩ := hn q
        have q : Srv.readMacros R.logging F.userDesc F.macroDesc = .ok (md', e) := q
        rw [hM] at q; cases q; rfl
      · exact hs q
    subst this
    obtain ⟨p0, q, rs, h1, h2, h3⟩ := C06_server_messages hr
    have : p0 = (S, Pipe.fresh S) := by
      have h1 : Whole.freshParser R.env s g gc mc = .ok p0 := h1
      unfold Whole.freshParser at h1
      rw [hS] at h1
      cases h1
      rfl
    subst this
    rw [h3] at hl
    exact ⟨q, rs, l, h2, hl, by simpa using ho⟩
  · rw [he] at he'; cases he'
  · rw [he] at he'; cases he'

include hO

/-- C87 (partial: words as the tables declare them, ordinary numbers, no macros): a document whose
blocks pass has no diagnostics, whatever the server did before. -/
theorem C87_clean_partial (ls : List (Option Block)) (ht : Written t ls []) (hb : ∀ b ∈ blocks ls, Common S b)
    (hp : AllPassing S serverOptions S.units (AttrPath.initial S.cfg) [] (blocks ls)) : out = [Srv.publication u []] := by
  obtain ⟨q, rs, dl, h1, h2, rfl⟩ := published R F hL hM hS ds hcl hrun d u t he hc hh
  rw [split_written ht] at h1
  obtain ⟨p, h3, _⟩ := rejects_after (configured_lang R hS) hO ls (Pipe.fresh S) 0 [] _ q rs hb (fun _ => rotInv_nil) hp h1
  cases h3 with
  | done => cases h2; rfl

/-- C87 (partial: as before): when the first lines of a document pass and then a block is flawed,
the first diagnostic is on the line of that block, whatever follows. -/
theorem C87_first_partial (ls : List (Option Block)) (b : Block) (rest : List Str) (hlen : ls.length < 2147483647)
    (ht : Written t (ls ++ [some b]) rest) (hb : ∀ x ∈ blocks ls, Common S x) (hbb : Common S b)
    (hp : AllPassing S serverOptions S.units (AttrPath.initial S.cfg) [] (blocks ls))
    (hf : ¬ Passing S serverOptions (inForce S.units (blocks ls).flatten)
      (simulatedAll S serverOptions S.units (AttrPath.initial S.cfg) (blocks ls)) (blocks ls) b) :
    ∃ m more, m ≠ [] ∧ out = [Srv.publication u (Srv.diagJson ⟨ls.length, 0, m⟩ :: more)] := by
  obtain ⟨q, rs, dl, h1, h2, rfl⟩ := published R F hL hM hS ds hcl hrun d u t he hc hh
  have hl := configured_lang R hS
  rw [split_written ht, List.map_append, List.append_assoc] at h1
  obtain ⟨p, h3, hu, hpa, hr⟩ := rejects_after hl hO ls (Pipe.fresh S) 0 [] _ q rs hb (fun _ => rotInv_nil) hp h1
  rw [List.nil_append] at hr
  rw [Nat.zero_add] at h3
  obtain ⟨k1, -⟩ := passing_line hl hO hbb (ls.length + 1) p (blocks ls) hr
  have hno : (Pipe.parse S serverOptions (ls.length + 1 : Nat) (Source.line b) p).2 ≠ .ok (true, none) := by
    intro h
    have := k1.mp h
    rw [hu, hpa] at this
    exact hf this
  obtain ⟨g', hg⟩ := written_words (lang := S.lang) hO.tables hbb.1 { p.gram with msg := [] } [] (by simp)
  rw [List.append_nil] at hg
  have hrej : ∀ {x r m}, Whole.parseLine (S, p) (ls.length + 1) (Source.line b) = .ok (x, r, m) →
      r = false ∧ Spec.Lines.Calm (Source.line b) m ∧ m.head? ≠ some '1' ∧ ∃ c ∈ m, isSp c = false := by
    intro x r m hx
    obtain ⟨m', h4, h5, _⟩ := parseLine_ok hx
    cases r with
    | true =>
      have := C38_success_partial S _ hl serverOptions _ _ p _ m' rfl hbb.2.2 (Prod.ext rfl h4)
      subst this
      exact absurd h4 hno
    | false =>
      obtain ⟨t', rfl, hne⟩ := C38_failure_partial S _ hl serverOptions _ _ p _ m' hbb.2.2 (by
        rintro ⟨g2, hg2⟩
        have := hg.symm.trans hg2
        simp at this) (Prod.ext rfl h4)
      obtain rfl : m = t' := h5
      exact ⟨rfl, refused_calm (parse_refuses hl hO.soft rfl hbb.2.2 hg) h4 (Source.line b)⟩
  have hne := common_ne hO hbb
  rw [List.map_cons, List.cons_append] at h3
  generalize hk : Spec.Document.line (some b) = k at h3
  have hk : Source.line b = k := hk
  cases h3 with
  | blank h => exact absurd hk hne
  | accepted _ hx h =>
    rw [hk] at hrej
    exact absurd (hrej hx).1 (by decide)
  | @rejected _ _ _ _ _ m _ rs' _ hx h =>
    rw [hk] at hrej
    obtain ⟨-, c1, c2, c3⟩ := hrej hx
    obtain ⟨d, d1, d2, d3⟩ := Srv.diag_calm (ε := Srv.Exc) (n := ls.length) (by omega) c1
    obtain ⟨x, dc, dm⟩ := d
    obtain rfl : x = ls.length := d2
    have hd : dc = 0 ∧ dm ≠ [] := by
      dsimp only at d3
      cases d3 with
      | placed => simp at c2
      | plain _ _ h =>
        refine ⟨rfl, ?_⟩
        rintro rfl
        obtain ⟨⟨v, w, e, hv, hw⟩, -⟩ := h
        obtain ⟨c, hc, hs⟩ := c3
        rw [e] at hc
        simp only [List.append_nil, List.mem_append] at hc
        rcases hc with hc | hc
        · rw [hv c hc] at hs; cases hs
        · rw [hw c hc] at hs; cases hs
      | silent => simp at c3
    obtain ⟨rfl, hm⟩ := hd
    rw [List.map_cons] at h2
    unfold Srv.diagsOf at h2
    rw [d1] at h2
    simp only [Out.bind_eq_ok] at h2
    obtain ⟨a, ha, ms, -, h2⟩ := h2
    cases ha
    cases h2
    exact ⟨dm, ms.map Srv.diagJson, hm, rfl⟩
end

/-! ## An example -/

/-- The default settings, the tables of the mill and the groups of `demo`. -/
def shipped : Srv.Files Conf.Settings Conf.Words Ver.Groups where
  settings := none
  grammar := .good ⟨demo.tables, demo.ops⟩
  gGroups := .good demo.gcodes
  mGroups := .good demo.mcodes
  gDesc := .good Demo.gFile
  mDesc := .good Demo.mFile
  macroDesc := .good Demo.macroFile
  userDesc := none

/-- A server for the example. -/
def plainRest : Whole.Rest := ⟨⟨demo.F, demo.tr, demo.pi, demo.e⟩, false, true, fun _ => none, fun _ => .null⟩

/-- The configured parser of `shipped`. -/
def shippedSetup : Setup :=
  let S := Conf.setupOf plainRest.env Conf.defaults ⟨demo.tables, demo.ops⟩ demo.gcodes demo.mcodes
  { S with cfg := { S.cfg with exchange := S.cfg.exchange.map (fun e => (e.1, 0)), base := S.cfg.base.map (fun e => (e.1, 0)) } }

theorem shipped_orderly : Pipe.configure (Conf.setupOf plainRest.env Conf.defaults ⟨demo.tables, demo.ops⟩ demo.gcodes demo.mcodes) = .ok shippedSetup ∧ Orderly shippedSetup := by
  have hb : ∀ e ∈ millMetric ++ millImperial, e.2.unique = true → Bland e.1 := by unfold Bland; decide +kernel
  refine ⟨?_, ?_, ?_, ?_, ?_, ?_, ?_⟩
  · have h1 : Pipe.zeroPoints ⟨0, 0, 0⟩ (Conf.cfgOf Conf.defaults).exchange = .ok shippedSetup.cfg.exchange := by decide +kernel
    have h2 : Pipe.zeroPoints ⟨0, 0, 0⟩ (Conf.cfgOf Conf.defaults).base = .ok shippedSetup.cfg.base := by decide +kernel
    exact Out.bind_eq_ok.mpr ⟨_, h1, Out.bind_eq_ok.mpr ⟨_, h2, rfl⟩⟩
  · unfold SetOfGroups; decide
  · unfold SetOfGroups; decide
  · exact mill_regular.1
  · intro u e he
    cases u
    · exact hb e (List.mem_append.mpr (.inl he))
    · exact hb e (List.mem_append.mpr (.inr he))
  · unfold Bland; decide
  · unfold Bland; decide

/-- The hypotheses of `C87_clean_partial` and `C87_first_partial` are met by documents that the server
handles: the first passes, in the second a cut comes after a blank line and without a spindle speed. -/
example : Srv.Loaded (Whole.server plainRest) shipped Conf.defaults ⟨demo.tables, demo.ops⟩ demo.gcodes demo.mcodes ∧
    (∃ md, Srv.readMacros plainRest.logging shipped.userDesc shipped.macroDesc = .ok (md, none)) ∧
    (∃ r, Srv.handle (Whole.server plainRest) shipped {} (Demo.opened c!"f" c!"S500 M3\nG1 X5 F100\nG20") = .ok r) ∧
    (∃ r, Srv.handle (Whole.server plainRest) shipped {} (Demo.opened c!"f" c!"\nG1 X5 F100\n!") = .ok r) ∧
    Written c!"S500 M3\nG1 X5 F100\nG20" (goodWords.map some) [] ∧ Written c!"\nG1 X5 F100\n!" ([none] ++ [some goodWords[1]]) [c!"!"] ∧
    AllPassing shippedSetup serverOptions shippedSetup.units (AttrPath.initial shippedSetup.cfg) [] goodWords ∧
    ¬ Passing shippedSetup serverOptions shippedSetup.units (AttrPath.initial shippedSetup.cfg) [] goodWords[1] := by
  have h1 : ReadAs shippedSetup {} (lines [c!"S500 M3", c!"G1 X5 F100", c!"G20"]) goodWords :=
    .cons (Prod.ext rfl (by decide +kernel)) (.cons (Prod.ext rfl (by decide +kernel)) (.cons (Prod.ext rfl (by decide +kernel)) (.nil _)))
  have h2 : ReadAs shippedSetup {} (lines [c!"G1 X5 F100"]) [goodWords[1]] := .cons (Prod.ext rfl (by decide +kernel)) (.nil _)
  have h3 : ∀ b ∈ goodWords, Ordinary shippedSetup.lathe shippedSetup.limits b := by
    intro b hb
    refine ordinary_of ?_
    revert b
    decide
  have hO := shipped_orderly.2
  have ok : ∀ {α} {x : Out Srv.Exc α}, x.isOk = true → ∃ r, x = .ok r := by
    intro α x h
    cases x with
    | ok r => exact ⟨r, rfl⟩
    | throw e => cases h
    | ub => cases h
  refine ⟨⟨.inl ⟨rfl, rfl⟩, rfl, rfl, rfl⟩, ⟨_, rfl⟩, ?_, ?_, ?_, ?_, ?_, ?_⟩
  · exact ok (by decide +kernel)
  · exact ok (by decide +kernel)
  · refine ⟨[c!"S500 M3", c!"G1 X5 F100", c!"G20"], ⟨by decide, .inr ⟨by decide, c!"G20", by decide, by decide⟩⟩, ?_⟩
    refine .cons ?_ (.cons ?_ (.cons ?_ .nil)) <;> exact ⟨⟨[], by decide, by decide⟩, by decide⟩
  · refine ⟨[[], c!"G1 X5 F100"], ⟨by decide, .inr ⟨by decide, c!"!", by decide, by decide⟩⟩, ?_⟩
    refine .cons ?_ (.cons ?_ .nil) <;> exact ⟨⟨[], by decide, by decide⟩, by decide⟩
  · exact (C85_program_partial shippedSetup .English rfl serverOptions rfl hO.gcodes hO.mcodes _ _ h1 (by decide) h3).1.mp (by decide +kernel)
  · have := (C85_program_partial shippedSetup .English rfl serverOptions rfl hO.gcodes hO.mcodes _ _ h2 (by decide)
      (fun b hb => h3 b (by rw [List.mem_singleton.mp hb]; decide))).1
    intro h
    exact absurd (this.mpr ⟨h, trivial⟩) (by decide +kernel)

end NC.Props
