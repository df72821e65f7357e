import Verif.Shipped
import Verif.Props.Document
import Verif.Props.DocVars

/-!
# C103: every shipped control is usable
-/

namespace NC.Props
open NC NC.Message NC.Gram NC.Ver NC.AttrPath NC.Pipe NC.Conf NC.Shipped NC.Spec.Words NC.Spec.Proper NC.Spec.Tables NC.Spec.Check NC.Spec.Verify NC.Spec.Units NC.Spec.Document
open NC.Spec (Source.line Source.word)
open NC.Spec.Assign (Signs Sole joints Item)

/-- What is read of the files of a control. -/
abbrev Shipped.words (k : Control) : Words := (readGrammar k.words).1
abbrev Shipped.gs (k : Control) : Groups := (readGroups k.gcodes).1
abbrev Shipped.ms (k : Control) : Groups := (readGroups k.mcodes).1

/-- C103: the files of every shipped control are read to their ends. -/
theorem C103_read : ∀ k ∈ controls, (readGrammar k.words).2 = true ∧ (readGroups k.gcodes).2 = true ∧ (readGroups k.mcodes).2 = true := by
  decide +kernel

/-- C103: the metric and the imperial table of a shipped control declare the same addresses, for the same purposes. -/
theorem C103_same : ∀ k ∈ controls, (Shipped.words k).tables.metric.map (fun e => (e.1, e.2.unique, e.2.wtype)) =
    (Shipped.words k).tables.imperial.map (fun e => (e.1, e.2.unique, e.2.wtype)) := by
  decide +kernel

/-- The names of the shipped tables are those of the mill. -/
theorem shipped_names : ∀ k ∈ controls, decNames (Shipped.words k).tables.metric (Shipped.words k).ops = decNames millMetric millOps ∧
    assignNames (Shipped.words k).tables.metric (Shipped.words k).ops = assignNames millMetric millOps := by
  decide +kernel

theorem shipped_regular : ∀ k ∈ controls, ∀ u, RegularTables (Pipe.tableOf (Shipped.words k).tables u) (Shipped.words k).tables.metric (Shipped.words k).ops := by
  intro k hk u
  obtain ⟨e1, e2⟩ := shipped_names k hk
  have h := mill_regular.1
  unfold RegularTables at h ⊢
  rw [e1, e2]
  refine ⟨h.blanks, h.starts, h.comma, h.equals, h.noEquals, h.notO, ?_, h.ends⟩
  have hp : ∀ k ∈ controls, ∀ u ∈ [Units.metric, Units.imperial], ∀ w ∈ decNames millMetric millOps, w.head? = some 'O' →
      ((Pipe.tableOf (Shipped.words k).tables u).find w).isSome = false := by decide +kernel
  exact hp k hk u (by cases u <;> simp)

theorem shipped_signs : ∀ k ∈ controls, ∀ u, Signs (Pipe.tableOf (Shipped.words k).tables u) (decNames (Shipped.words k).tables.metric (Shipped.words k).ops)
    (assignNames (Shipped.words k).tables.metric (Shipped.words k).ops) := by
  intro k hk u
  obtain ⟨e1, e2⟩ := shipped_names k hk
  have h := demo_ready.signs
  rw [e1, e2]
  have hp : ∀ k ∈ controls, ∀ u ∈ [Units.metric, Units.imperial], WordMap.find (Pipe.tableOf (Shipped.words k).tables u) c!"#" ≠ none ∧
      WordMap.find (Pipe.tableOf (Shipped.words k).tables u) c!"=" ≠ none := by decide +kernel
  obtain ⟨p1, p2⟩ := hp k hk u (by cases u <;> simp)
  exact ⟨h.hash, h.eq, h.plus, h.minus, h.times, p1, p2, h.assigns⟩

/-- Settings as machines have them: the axes are capital letters, and no comment stands for a change of pallets or a measurement. -/
structure Customary (s : Settings) : Prop where
  axes : ∀ e ∈ s.axes, ∃ c, e.1 = [c] ∧ 'A' ≤ c ∧ c ≤ 'Z'
  pallet : s.palletCode ≠ c!"("
  measure : s.measureCode ≠ c!"("

theorem capital_bland {c : Char} (h1 : 'A' ≤ c) (h2 : c ≤ 'Z') : Bland [c] := by
  constructor
  · intro h
    have := List.mem_singleton.mp h
    subst this
    exact absurd h1 (by decide)
  · intro h
    have := List.mem_singleton.mp h
    subst this
    exact absurd h2 (by decide)

/-- C103: with every shipped control and all customary settings the parser of a document is configured such that words, expressions and
documents can be written. -/
theorem C103_ready {k : Control} (hk : k ∈ controls) {s : Settings} (hs : Customary s) {E : Conf.Env} {S : Setup}
    (hS : configure (setupOf E s (Shipped.words k) (Shipped.gs k) (Shipped.ms k)) = .ok S) : Orderly S ∧ Ready S := by
  unfold configure at hS
  simp only [Out.bind_eq_ok] at hS
  obtain ⟨e, -, b, -, h⟩ := hS
  cases h
  have hg : ∀ k ∈ controls, (∀ e ∈ Shipped.gs k, e.2.Nodup) ∧ (∀ e ∈ Shipped.ms k, e.2.Nodup) ∧
      ∀ e ∈ Shipped.gs k ++ Shipped.ms k, ∀ g ∈ e.2, ':' ∉ g ∧ 'i' ∉ g := by decide +kernel
  have hw : ∀ k ∈ controls, ∀ u ∈ [Units.metric, Units.imperial], ∀ e ∈ Pipe.tableOf (Shipped.words k).tables u, e.2.unique = true →
      (':' ∉ e.1 ∧ 'i' ∉ e.1) ∧ e.1 ∉ c!"#" :: joints ∧ e.1 ∉ (Shipped.words k).ops := by decide +kernel
  have hu : ∀ u, u ∈ [Units.metric, Units.imperial] := by intro u; cases u <;> simp
  have hn : ∀ k ∈ controls, ∀ u ∈ [Units.metric, Units.imperial], ∀ w ∈ decNames (Shipped.words k).tables.metric (Shipped.words k).ops,
      WordMap.find (Pipe.tableOf (Shipped.words k).tables u) w = none → w ∈ (Shipped.words k).ops := by decide +kernel
  obtain ⟨g1, g2, g3⟩ := hg k hk
  constructor
  · refine ⟨g1, g2, shipped_regular k hk _, fun u e he hq => (hw k hk u (hu u) e he hq).1, ?_, g3⟩
    intro e he
    obtain ⟨c, h1, h2, h3⟩ := hs.axes e he
    rw [h1]
    exact capital_bland h2 h3
  · refine ⟨shipped_regular k hk _, shipped_signs k hk _, hn k hk _ (hu _), ?_, ?_, hs.pallet, hs.measure⟩
    · intro a ha
      obtain ⟨e, he, rfl⟩ := List.mem_map.mp ha
      exact hs.axes e he
    · rintro u w ⟨wg, h1, h2⟩
      exact (hw k hk u (hu u) (w, wg) (UnitConv.find_mem h1) h2).2

/-- A word at address `w` for a code and what stands behind its dot. -/
def codeWord (w : Str) (c : Code) : Dec :=
  if c.2 = 0 then { word := w, value := some (Nat.toDigits 10 c.1) }
  else { word := w, value := some (Nat.toDigits 10 c.1), dot := some '.', value2 := some (Nat.toDigits 10 c.2) }

example : Source.line [.dec (codeWord c!"G" (54, 0))] = c!"G54" ∧ Source.line [.dec (codeWord c!"G" (54, 1))] = c!"G54.1" := by decide

/-- C103: every code that a shipped control puts into a group can be written, with metric and with imperial defaults, after any lines. -/
theorem C103_codes {k : Control} (hk : k ∈ controls) (u : Units) (lang : Lang) (hist : List Str) (blanks : Str)
    (hbl : ∀ c ∈ blanks, c = ' ' ∨ c = '\t') :
    (∀ e ∈ Shipped.gs k, verdict (built (Pipe.tableOf (Shipped.words k).tables u) (Shipped.words k).tables.metric (Shipped.words k).ops lang) hist
      (Source.line [.dec (codeWord c!"G" e.1)] ++ blanks) = .ret [.dec (codeWord c!"G" e.1)] true none) ∧
    (∀ e ∈ Shipped.ms k, verdict (built (Pipe.tableOf (Shipped.words k).tables u) (Shipped.words k).tables.metric (Shipped.words k).ops lang) hist
      (Source.line [.dec (codeWord c!"M" e.1)] ++ blanks) = .ret [.dec (codeWord c!"M" e.1)] true none) := by
  have hu : u ∈ [Units.metric, Units.imperial] := by cases u <;> simp
  have key : ∀ w ∈ [c!"G", c!"M"], ∀ c : Code, (Digits (Nat.toDigits 10 c.1) ∧ Digits (Nat.toDigits 10 c.2) ∧ readNat (Nat.toDigits 10 c.1) ≤ 2147483647 ∧
      readNat (Nat.toDigits 10 c.2) ≤ 2147483647 ∧
      ∀ wg ∈ (WordMap.find (Pipe.tableOf (Shipped.words k).tables u) w).toList, wg.rangeFrom ≤ readNat (Nat.toDigits 10 c.1) ∧ (readNat (Nat.toDigits 10 c.1) : Int) ≤ wg.rangeTo ∧
        (c.2 ≠ 0 → wg.decTo ≠ 0 ∧ wg.decFrom ≤ readNat (Nat.toDigits 10 c.2) ∧ readNat (Nat.toDigits 10 c.2) ≤ wg.decTo)) →
      Declared (Pipe.tableOf (Shipped.words k).tables u) (Shipped.words k).tables.metric (Shipped.words k).ops [.dec (codeWord w c)] := by
    rintro w hw c ⟨d1, d2, s1, s2, hr⟩
    have hwd : ∀ w ∈ [c!"G", c!"M"], w ∈ decNames millMetric millOps ∧ w ∉ operators ∧ w ≠ [] ∧ w.head? ≠ some ']' := by decide +kernel
    obtain ⟨w1, w2, w3, w4⟩ := hwd w hw
    refine ⟨.one (.address ?_ ?_ ?_), List.isChain_singleton _⟩
    · rw [(shipped_names k hk).1]
      unfold codeWord; split <;> exact w1
    · unfold codeWord; split <;> rfl
    · by_cases hc : c.2 = 0
      · unfold codeWord
        rw [if_pos hc]
        refine ⟨.inl rfl, rfl, rfl, w2, ⟨w3, w4⟩, .whole rfl rfl ⟨d1, s1⟩ rfl rfl ?_⟩
        intro wg hwg
        obtain ⟨r1, r2, -⟩ := hr wg (by rw [Option.mem_toList]; exact hwg)
        exact ⟨d1, r1, r2, fun _ => ⟨rfl, rfl⟩, by intro f hf; cases hf⟩
      · unfold codeWord
        rw [if_neg hc]
        refine ⟨.inl rfl, rfl, rfl, w2, ⟨w3, w4⟩, .point rfl rfl ⟨d1, s1⟩ rfl ?_ ?_⟩
        · intro f hf; cases hf; exact ⟨d2, s2⟩
        · intro wg hwg
          obtain ⟨r1, r2, r3⟩ := hr wg (by rw [Option.mem_toList]; exact hwg)
          obtain ⟨r4, r5, r6⟩ := r3 hc
          refine ⟨d1, r1, r2, fun h => absurd h r4, ?_⟩
          intro f hf; cases hf; exact ⟨d2, rfl, r5, r6⟩
  have data : ∀ k ∈ controls, ∀ u ∈ [Units.metric, Units.imperial], ∀ p ∈ [(c!"G", Shipped.gs k), (c!"M", Shipped.ms k)], ∀ e ∈ p.2,
      ((Nat.toDigits 10 e.1.1 ≠ [] ∧ ∀ c ∈ Nat.toDigits 10 e.1.1, isDig c = true) ∧ (Nat.toDigits 10 e.1.2 ≠ [] ∧ ∀ c ∈ Nat.toDigits 10 e.1.2, isDig c = true) ∧
      readNat (Nat.toDigits 10 e.1.1) ≤ 2147483647 ∧ readNat (Nat.toDigits 10 e.1.2) ≤ 2147483647 ∧
      ∀ wg ∈ (WordMap.find (Pipe.tableOf (Shipped.words k).tables u) p.1).toList, wg.rangeFrom ≤ readNat (Nat.toDigits 10 e.1.1) ∧ (readNat (Nat.toDigits 10 e.1.1) : Int) ≤ wg.rangeTo ∧
        (e.1.2 ≠ 0 → wg.decTo ≠ 0 ∧ wg.decFrom ≤ readNat (Nat.toDigits 10 e.1.2) ∧ readNat (Nat.toDigits 10 e.1.2) ≤ wg.decTo)) := by decide +kernel
  constructor
  · intro e he
    exact C86_line _ _ _ lang (shipped_regular k hk u) _ (key c!"G" (by simp) e.1 (data k hk u hu (c!"G", Shipped.gs k) (by simp) e he)) hist blanks hbl
  · intro e he
    exact C86_line _ _ _ lang (shipped_regular k hk u) _ (key c!"M" (by simp) e.1 (data k hk u hu (c!"M", Shipped.ms k) (by simp) e he)) hist blanks hbl

/-! ## Documents -/

section
variable (R : Whole.Rest) (F : Srv.Files Conf.Settings Conf.Words Ver.Groups) {s : Conf.Settings} (hs : Customary s) {k : Control} (hk : k ∈ controls)
  (hL : Srv.Loaded (Whole.server R) F s (Shipped.words k) (Shipped.gs k) (Shipped.ms k))
  {md : Srv.MacroDesc} (hM : Srv.readMacros R.logging F.userDesc F.macroDesc = .ok (md, none))
  {S : Setup} (hS : configure (setupOf R.env s (Shipped.words k) (Shipped.gs k) (Shipped.ms k)) = .ok S)
  (ds : List Json) (hcl : ∀ d ∈ ds, Spec.Server.Clean d) {st st' : Srv.St Conf.Settings Conf.Words Ver.Groups} {os : List (List Json)}
  {out : List Json} (hrun : Srv.run (Whole.server R) {} (ds.map (F, ·)) = .ok (st, os))
  (d : Json) (u t : Str) (he : Spec.Server.event d = some (u, some t)) (hc : Spec.Server.Clean d)
  (hh : Srv.handle (Whole.server R) F st d = .ok (st', out))
include hs hk hL hM hS hcl hrun he hc hh

/-- C103 (partial: as C87): with every shipped control and customary settings, a document whose blocks pass has no diagnostics; and when its first
blocks pass and then one is flawed, the first diagnostic is on the line of that block. -/
theorem C103_documents_partial (ls : List (Option Block)) (hb : ∀ b ∈ blocks ls, Common S b)
    (hp : AllPassing S serverOptions S.units (AttrPath.initial S.cfg) [] (blocks ls)) :
    (Written t ls [] → out = [Srv.publication u []]) ∧
    (∀ (b : Block) (rest : List Str), ls.length < 2147483647 → Written t (ls ++ [some b]) rest → Common S b →
      ¬ Passing S serverOptions (inForce S.units (blocks ls).flatten)
        (simulatedAll S serverOptions S.units (AttrPath.initial S.cfg) (blocks ls)) (blocks ls) b →
      ∃ m more, m ≠ [] ∧ out = [Srv.publication u (Srv.diagJson ⟨ls.length, 0, m⟩ :: more)]) := by
  have hO := (C103_ready hk hs hS).1
  exact ⟨fun ht => C87_clean_partial R F hL hM hS hO ds hcl hrun d u t he hc hh ls ht hb hp,
    fun b rest hlen ht hbb hf => C87_first_partial R F hL hM hS hO ds hcl hrun d u t he hc hh ls b rest hlen ht hb hbb hp hf⟩

/-- C103 (partial: as C87): the same for documents with assignments and variables. -/
theorem C103_variables_partial (ls : List (Option Item)) (ys : List (Int × Item)) (hlen : ls.length < 2147483647) (hord : InOrder S ls ys)
    (ht : OfItems t ls []) : out = [Srv.publication u []] := by
  obtain ⟨hO, hR⟩ := C103_ready hk hs hS
  exact C87_variables_clean_partial R F hL hM hS hO hR ds hcl hrun d u t he hc hh ls ys hlen hord ht

end

/-! ## An example: a lathe -/

/-- The files of a shipped lathe control, without settings. -/
def latheFiles : Srv.Files Conf.Settings Conf.Words Ver.Groups :=
  { shipped with grammar := .good (Shipped.words controls[8]), gGroups := .good (Shipped.gs controls[8]), mGroups := .good (Shipped.ms controls[8]) }

theorem defaults_customary : Customary Conf.defaults := by
  refine ⟨?_, by decide, by decide⟩
  intro e he
  have : e = (c!"X", (-500, 500)) ∨ e = (c!"Y", (-500, 500)) ∨ e = (c!"Z", (0, 1000)) := by simpa [Conf.defaults] using he
  rcases this with rfl | rfl | rfl <;> exact ⟨_, rfl, by decide, by decide⟩

/-- What a server with these files publishes for a document. -/
def publishes (t : Str) : Option (List Str) :=
  match Srv.handle (Whole.server plainRest) latheFiles {} (Demo.opened c!"f" t) with
  | .ok r => some (r.2.map Json.render)
  | _ => none

/-- The hypotheses of `C103_ready` and `C103_documents_partial` are met by the default settings and a control that is none of the mill; and a
document in which a cut comes without a spindle speed. -/
example : controls[8] ∈ controls ∧ controls[8].name = c!"haas_lathe" ∧ Customary Conf.defaults ∧
    Srv.Loaded (Whole.server plainRest) latheFiles Conf.defaults (Shipped.words controls[8]) (Shipped.gs controls[8]) (Shipped.ms controls[8]) ∧
    (configure (setupOf plainRest.env Conf.defaults (Shipped.words controls[8]) (Shipped.gs controls[8]) (Shipped.ms controls[8]))).isOk = true ∧
    publishes c!"S500 M3\nG1 X5 F100\n" = some [(Srv.publication c!"f" []).render] ∧
    publishes c!"\nG1 X5 F100\n" = some [(Srv.publication c!"f" [Srv.diagJson ⟨1, 0, c!"Value S not set"⟩]).render] := by
  exact ⟨by simp [controls], rfl, defaults_customary, ⟨.inl ⟨rfl, rfl⟩, rfl, rfl, rfl⟩, by decide +kernel, by decide +kernel, by decide +kernel⟩

end NC.Props
