import Verif.ShippedText
import Verif.JsonWriteProofs
import Verif.Props.Same
import Verif.Props.Shipped

/-!
# C113: configuration files are read as the JSON they are
-/

namespace NC.Props
open NC NC.Enums NC.AttrPath NC.Conf NC.Form NC.Hand NC.JFile NC.Spec.Form NC.Spec.Hand NC.Spec.Conf NC.Spec.JsonText

/-- C113: a file is read as a tree exactly if its text spells this tree in the grammar of JSON. -/
theorem C113_exact (t : Str) (p : PTree) : readJson t = some p ↔ Text p t := readJson_iff t p

/-- C113: a text spells one tree only. -/
theorem C113_single (t : Str) (p q : PTree) (hp : Text p t) (hq : Text q t) : p = q :=
  Option.some.inj (((readJson_iff t p).mpr hp).symm.trans ((readJson_iff t q).mpr hq))

/-- C113: the layout plays no part: two spellings of a tree are the same settings, words and groups. -/
theorem C113_layout (p : PTree) (t u : Str) (ht : Text p t) (hu : Text p u) :
    settingsFile t = settingsFile u ∧ grammarFile t = grammarFile u ∧ groupsFile t = groupsFile u := by
  have h : readJson t = readJson u := by rw [(readJson_iff t p).mpr ht, (readJson_iff u p).mpr hu]
  unfold settingsFile grammarFile groupsFile
  rw [h]
  exact ⟨rfl, rfl, rfl⟩

/-- C81, texts: settings are taken exactly from a JSON text in which every setting is there and readable.
Partial: a number in front of `true` or `false` is overlooked. -/
theorem C81_text_partial (t : Str) (s : Settings) : settingsFile t = some s ↔ ∃ p, Text p t ∧ Written p s := by
  unfold settingsFile
  rw [Option.bind_eq_some_iff]
  constructor
  · rintro ⟨p, h1, h2⟩
    exact ⟨p, (readJson_iff t p).mp h1, (C81_exact_partial p s).mp h2⟩
  · rintro ⟨p, h1, h2⟩
    exact ⟨p, (readJson_iff t p).mpr h1, (C81_exact_partial p s).mpr h2⟩

/-- C113: a file that is no JSON configures nothing, and each reader says so. -/
theorem C113_refused (t : Str) (h : ∀ p, ¬ Text p t) : settingsFile t = none ∧ (grammarFile t).2 = false ∧ (groupsFile t).2 = false := by
  have hn : readJson t = none := by
    cases hr : readJson t with
    | none => rfl
    | some p => exact absurd ((readJson_iff t p).mp hr) (h p)
  unfold settingsFile grammarFile groupsFile
  rw [hn]
  exact ⟨rfl, rfl, rfl⟩

/-- A text with an escape, blanks, a number and a literal, and its tree. -/
example : Text (.node [] [(c!"a\"b", .node [] [([], .node c!"-1.5e3" []), ([], .node c!"true" [])])]) c!" {\"a\\u0022b\" :[-1.5e3,\r\n\ttrue] }\n" := by
  rw [← C113_exact]; exact spelt (by decide +kernel)

/-- A comma too many, a word in front and a word behind are refused. -/
example : ∀ t ∈ [c!"{\"a\":1,}", c!"x {}", c!"{} x", c!"{\"a\" 1}", c!"[01]", c!"\"\\ud800\"", c!""], ∀ p, ¬ Text p t := by
  intro t ht p h
  rw [← C113_exact] at h
  have : ∀ t ∈ [c!"{\"a\":1,}", c!"x {}", c!"{} x", c!"{\"a\" 1}", c!"[01]", c!"\"\\ud800\"", c!""], (readJson t).isSome = false := by decide +kernel
  have := this t ht
  rw [h] at this
  cases this

/-! ## What the form writes -/

/-- C107, the bytes: the text of a file that is known to the server is read, and means what it says. -/
theorem C107_text (f : File) (h : Proper f) (nl : Str) (hnl : Space nl) : ∃ s, settingsFile (f.text nl) = some s ∧ Spec.Form.Kept f s := by
  obtain ⟨s, h1, h2⟩ := C107_file_partial f h
  refine ⟨s, ?_, h2⟩
  unfold settingsFile
  rw [(readJson_iff _ _).mpr (File.text_spells f hnl)]
  exact h1

/-- C107, the bytes: whatever is entered in the form, the bytes it exports are read by the server and mean what they say. -/
theorem C107_export_text (d : Defs) (c : Culture) (o : File) (p : Panels) (r : File) (hc : Chosen d p)
    (ho : ∀ e ∈ o.exchange ++ o.base ++ o.zero, Spec.Form.Finite e.2) (h : exportFile d c o p = some r) (nl : Str) (hnl : Space nl) :
    ∃ s, settingsFile (r.text nl) = some s ∧ Spec.Form.Kept r s := by
  obtain ⟨s, h1, h2⟩ := C107_export_partial d c o p r hc ho h
  refine ⟨s, ?_, h2⟩
  unfold settingsFile
  rw [(readJson_iff _ _).mpr (File.text_spells r hnl)]
  exact h1

example : ∃ s, settingsFile (formFile.text c!"\r\n") = some s ∧ Spec.Form.Kept formFile s :=
  C107_text formFile formFile_proper _ (by unfold Space; decide)

/-! ## The same texts, the same parser -/

/-- C112, texts: a client with a grammar, groups and settings, and a server with files that spell them, have the same parser, but for
the language of the messages. -/
theorem C112_text_partial (E : Env) (g : GrammarFile) (gc mc : GroupsFile) (f : File) (p : ParserObj) (l : ELanguage) (d : EFanucParserType)
    (t : EMachineTool) (hm : Listed g.metric) (hi : Listed g.imperial) (ho : ∀ o ∈ g.ops, Clear o) (hgc : Coded gc.groups) (hmc : Coded mc.groups)
    (hd : f.driver = .of d) (ht : f.tool = t.toStr) (hf : Fit f) (hp : Proper f)
    (tg tgc tmc tf : Str) (h1 : Text g.tree tg) (h2 : Text gc.tree tgc) (h3 : Text mc.tree tmc) (h4 : Text f.tree tf) :
    ∃ w G M s, grammarFile tg = (w, true) ∧ groupsFile tgc = (G, true) ∧ groupsFile tmc = (M, true) ∧ settingsFile tf = some s ∧
      connect E (clientOf g gc mc p l d) (given f t) =
        .ok ({ setupOf E s w G M with lang := .known l }, ⟨p.evalMacro, p.groups, p.path, p.analysis, p.zeroPoint⟩) := by
  obtain ⟨w, G, M, s, e1, e2, e3, e4, e5⟩ := C112_same_partial E g gc mc f p l d t hm hi ho hgc hmc hd ht hf hp
  refine ⟨w, G, M, s, ?_, ?_, ?_, ?_, e5⟩
  · unfold grammarFile; rw [(readJson_iff _ _).mpr h1]; exact e1
  · unfold groupsFile; rw [(readJson_iff _ _).mpr h2]; exact e2
  · unfold groupsFile; rw [(readJson_iff _ _).mpr h3]; exact e3
  · unfold settingsFile; rw [(readJson_iff _ _).mpr h4]; exact e4

mutual

/-- A tree with every value in quotes. -/
def inQuotes : PTree → J
  | .node d [] => .str d
  | .node _ (e :: k) => .obj (inQuotesL (e :: k))

/-- Its children. -/
def inQuotesL : List (Str × PTree) → List (Str × J)
  | [] => []
  | (a, x) :: k => (a, inQuotes x) :: inQuotesL k

end

mutual

theorem inQuotes_good : (p : PTree) → (inQuotes p).Good
  | .node d [] => by rw [inQuotes, J.Good]; all_goals simp
  | .node _ (e :: k) => by rw [inQuotes, J.Good]; exact inQuotesL_good (e :: k)

theorem inQuotesL_good : (k : List (Str × PTree)) → GoodM (inQuotesL k)
  | [] => by rw [inQuotesL, GoodM]; trivial
  | (a, x) :: k => by rw [inQuotesL, GoodM]; exact ⟨inQuotes_good x, inQuotesL_good k⟩

end

theorem inQuotes_text {p : PTree} (h : same (inQuotes p).tree p = true) : Text p ((inQuotes p).write c!"\r\n" 0) := by
  have := write_text (nl := c!"\r\n") (by unfold Space; decide) (inQuotes p) (inQuotes_good p)
  rwa [same_eq _ _ h] at this

/-- The client of C112 and files for the server. -/
example (E : Env) : ∃ tg tgc tmc w G M s o, grammarFile tg = (w, true) ∧ groupsFile tgc = (G, true) ∧ groupsFile tmc = (M, true) ∧
    settingsFile (formFile.text c!"\n") = some s ∧
    connect E (clientOf ⟨c!"1.0", smallClient.ops, smallClient.imperial, smallClient.metric⟩ ⟨c!"1.0", smallClient.gcodes⟩ ⟨c!"1.0", []⟩
      smallClient.settings .English .HaasMill) (given formFile .mill_4axis) = .ok (setupOf E s w G M, o) := by
  obtain ⟨w, G, M, s, h1, h2, h3, h4, h5⟩ := C112_text_partial E ⟨c!"1.0", smallClient.ops, smallClient.imperial, smallClient.metric⟩
    ⟨c!"1.0", smallClient.gcodes⟩ ⟨c!"1.0", []⟩ formFile smallClient.settings .English .HaasMill .mill_4axis
    ⟨smallClient_ready.metric, by unfold Sized Spec.Form.Small Natural; decide⟩ ⟨smallClient_ready.imperial, by unfold Sized Spec.Form.Small Natural; decide⟩
    smallClient_ready.ops ⟨smallClient_ready.gcodes, by unfold Natural; decide⟩ ⟨smallClient_ready.mcodes, by simp⟩ rfl (by decide)
    formFile_fit formFile_proper _ _ _ _ (inQuotes_text (by decide +kernel)) (inQuotes_text (by decide +kernel)) (inQuotes_text (by decide +kernel))
    (File.text_spells formFile (nl := c!"\n") (by unfold Space; decide))
  exact ⟨_, _, _, w, G, M, s, _, h1, h2, h3, h4, h5⟩

/-! ## The shipped files -/

/-- C103, texts: the bytes of the files of every shipped control are read to their ends, and give the words and groups of this control. -/
theorem C103_texts : List.Forall₂ (fun (k : Shipped.Control) (t : Shipped.Texts) => k.name = t.name ∧ grammarFile t.words = (Shipped.words k, true) ∧
    groupsFile t.gcodes = (Shipped.gs k, true) ∧ groupsFile t.mcodes = (Shipped.ms k, true)) Shipped.controls Shipped.texts := by
  have hr := C103_read
  have h := Shipped.texts_read
  generalize Shipped.controls = ks at hr h ⊢
  generalize Shipped.texts = ts at h ⊢
  induction h with
  | nil => exact .nil
  | @cons k t ks ts h _ ih =>
    refine .cons ?_ (ih (fun k hk => hr k (List.mem_cons_of_mem _ hk)))
    obtain ⟨h0, h1, h2, h3⟩ := h
    obtain ⟨r1, r2, r3⟩ := hr k (List.mem_cons_self ..)
    unfold grammarFile groupsFile
    rw [h1, h2, h3]
    exact ⟨h0, Prod.ext rfl r1, Prod.ext rfl r2, Prod.ext rfl r3⟩

end NC.Props
