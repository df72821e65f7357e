import Verif.NetFiles
import Verif.Props.Hand
import Verif.Props.Tables2

/-!
# The same files, the same parser (C112)
-/

namespace NC.Props
open NC NC.Enums NC.AttrPath NC.Conf NC.Form NC.Hand NC.Spec.Form NC.Spec.Hand

theorem nat_json {n : Nat} (h : Natural n) : uintOf (natStr n) = some n := by
  rw [uintOf_iff]
  refine ⟨n, ⟨[], [], false, natStr n, [], by simp, by simp [Spec.Conf.Blank], .inl ⟨rfl, rfl⟩, natStr_digits _, natStr_ne_nil _, by simp [Spec.Conf.Blank], ?_⟩,
    by omega, by unfold Natural at h; omega, ?_⟩
  · rw [readNat_natStr]; simp [Spec.Conf.withSign]
  · unfold Natural at h; omega

theorem entry_json {w : WordObj} {s : Str} (h : w.word = some s) (hs : Sized w) : readEntry (wordTree w) = some (wordOf w) := by
  obtain ⟨h1, h2, h3, h4⟩ := hs
  have e1 : (wordTree w).get textOf c!"word" = some s := by rw [wordTree, h]; rfl
  have e2 : (wordTree w).get intOf c!"range_from" = some w.rangeFrom := int_json h1
  have e3 : (wordTree w).get intOf c!"range_to" = some w.rangeTo := int_json h2
  have e4 : (wordTree w).get uintOf c!"decimal_from" = some w.decFrom := nat_json h3
  have e5 : (wordTree w).get uintOf c!"decimal_to" = some w.decTo := nat_json h4
  have e6 : (wordTree w).get boolOf c!"unique" = some w.unique := bool_json _
  have e7 : (wordTree w).get (enumOf wordTypeOfStr) c!"type" = some w.wtype := by
    show enumOf wordTypeOfStr (wordTypeText w.wtype) = _
    cases w.wtype <;> decide
  unfold readEntry
  rw [e1, e2, e3, e4, e5, e6, e7, wordOf, h]
  rfl

theorem put_set (m : WordMap) (k : Str) (g : WordGrammar) : putWord m k g = Wrap.setWord m k g := by
  induction m with
  | nil => rfl
  | cons e m ih => rw [putWord, Wrap.setWord, ih]

theorem words_same (d : Dict WordObj) (h : Listed d) (m : WordMap) :
    Conf.readWords (d.map (fun e => (e.1, wordTree e.2))) m = (Wrap.buildGrammar m (d.map (fun e => (bytes e.1, wordOf e.2))), true) := by
  induction d generalizing m with
  | nil => rfl
  | cons e d ih =>
    obtain ⟨⟨⟨hn, hc⟩, hw⟩, hs⟩ := h
    obtain ⟨s, h1, h2⟩ := hw e (by simp)
    rw [List.map_cons, List.map_cons, Conf.readWords, entry_json h1 (hs e (by simp))]
    dsimp only
    rw [List.map_cons, List.nodup_cons] at hn
    rw [ih ⟨⟨⟨hn.2, fun x hx => hc x (by simp [hx])⟩, fun x hx => hw x (by simp [hx])⟩, fun x hx => hs x (by simp [hx])⟩,
      Wrap.buildGrammar, put_set, bytes_clear (hc e (by simp))]

/-- C112, words: the table of the .NET parser is the one the server reads. -/
theorem C112_words (d : Dict WordObj) (h : Listed d) (root : PTree) (units : Str) (hr : root.child units = some (tableTree d)) :
    ∃ m, table d = .ok m ∧ readTable root units = (m, true) := by
  have h1 := words_read d [] wordOf (fun e he => by
    obtain ⟨s, h1, h2⟩ := h.1.2 e he
    exact word_read h1 h2)
  simp only [List.nil_append, List.length_nil] at h1
  refine ⟨_, by rw [table, h1, then_ok], ?_⟩
  rw [readTable, hr]
  exact words_same d h []

theorem strLt_iff (x y : Str) : Wrap.strLt x y = true ↔ x < y := by
  induction x generalizing y with
  | nil => cases y <;> simp [Wrap.strLt]
  | cons a x ih =>
    cases y with
    | nil => simp [Wrap.strLt]
    | cons b y =>
      rw [Wrap.strLt, List.cons_lt_cons_iff]
      by_cases h : a = b
      · rw [if_pos h, ih]
        subst h
        simp
      · rw [if_neg h]
        simp only [decide_eq_true_eq, h, false_and, or_false]
        exact Iff.rfl

theorem insert_same (l : List Str) (x : Str) : Conf.insertName l x = Wrap.setInsert x l := by
  induction l with
  | nil => rfl
  | cons y l ih =>
    rw [Conf.insertName, Wrap.setInsert, ih]
    by_cases h : x = y
    · subst h
      rw [if_pos rfl, if_neg (lt_irrefl _), if_pos rfl]
    · rw [if_neg h]
      by_cases h2 : x < y
      · rw [if_pos h2, if_pos ((strLt_iff x y).mpr h2)]
      · rw [if_neg h2, if_neg (fun e => h e.symm), if_neg (fun e => h2 ((strLt_iff x y).mp e))]

theorem add_same (m : Ver.Groups) (c : Ver.Code) (k : Str) : Conf.addGroup m c k = Wrap.addGroup m c k := by
  induction m with
  | nil => rfl
  | cons e m ih => rw [Conf.addGroup, Wrap.addGroup, ih, insert_same]

theorem group_same (k : Str) (l : List Ver.Code) (h : ∀ c ∈ l, Natural c.1 ∧ Natural c.2) (rest : List Ver.Code) (m : Ver.Groups) :
    ∃ m', readGroup k (l.map codeTree) m = (m', true) ∧ Wrap.addGroups m k l.length (l ++ rest) = .ok m' := by
  induction l generalizing m with
  | nil => exact ⟨m, rfl, by rw [List.length_nil, Wrap.addGroups]⟩
  | cons c l ih =>
    obtain ⟨m', h1, h2⟩ := ih (fun x hx => h x (by simp [hx])) (Conf.addGroup m c k)
    obtain ⟨n1, n2⟩ := h c (by simp)
    have e1 : (codeTree c).2.get uintOf c!"code" = some c.1 := nat_json n1
    have e2 : (codeTree c).2.get uintOf c!"rest" = some c.2 := nat_json n2
    refine ⟨m', ?_, ?_⟩
    · rw [List.map_cons]
      show readGroup k (((codeTree c).1, (codeTree c).2) :: _) m = _
      rw [readGroup, e1, e2]
      exact h1
    · rw [List.length_cons, List.cons_append, Wrap.addGroups, ← add_same]
      exact h2

theorem groups_same (d : Dict (List Ver.Code)) (h : ∀ e ∈ d, ∀ c ∈ e.2, Natural c.1 ∧ Natural c.2) (m : Ver.Groups) :
    ∃ m', readAllGroups (d.map (fun e => (e.1, PTree.node [] (e.2.map codeTree)))) m = (m', true) ∧
      Wrap.unflatten m (d.map (·.1)) (d.map (fun e => e.2.length)) (d.flatMap (·.2)) = .ok m' := by
  induction d generalizing m with
  | nil => exact ⟨m, rfl, rfl⟩
  | cons e d ih =>
    obtain ⟨m1, h1, h2⟩ := group_same e.1 e.2 (h e (by simp)) (d.flatMap (·.2)) m
    obtain ⟨m', h3, h4⟩ := ih (fun x hx => h x (by simp [hx])) m1
    refine ⟨m', ?_, ?_⟩
    · rw [List.map_cons, readAllGroups]
      have h5 : readGroup e.1 (PTree.node [] (e.2.map codeTree)).kids m = (m1, true) := h1
      rw [h5]
      exact h3
    · simp only [List.map_cons, List.flatMap_cons, Wrap.unflatten, h2, List.drop_left, h4]

/-- C112, groups: those of the .NET parser are the ones the server reads. -/
theorem C112_groups (g : GroupsFile) (h : Coded g.groups) : ∃ m, groups g.groups = .ok m ∧ readGroups g.tree = (m, true) := by
  obtain ⟨m, h1, h2⟩ := groups_same g.groups h.2 []
  refine ⟨m, ?_, h1⟩
  unfold groups
  rw [flatten_eq]
  dsimp only
  rw [List.nil_append, List.nil_append, List.map_map, keys_clear h.1, ← List.flatMap_def]
  have h4 : List.map (List.length ∘ fun x : Str × List Ver.Code => x.2) g.groups = g.groups.map (fun e => e.2.length) := rfl
  rw [h4, h2]

/-- C112: a .NET client that reads a grammar, code groups and settings and hands them over, and a server that reads the
same files, have the same parser, but for the language of the messages. -/
theorem C112_same_partial (E : Env) (g : GrammarFile) (gc mc : GroupsFile) (f : File) (p : ParserObj) (l : ELanguage) (d : EFanucParserType)
    (t : EMachineTool) (hm : Listed g.metric) (hi : Listed g.imperial) (ho : ∀ o ∈ g.ops, Clear o) (hgc : Coded gc.groups) (hmc : Coded mc.groups)
    (hd : f.driver = .of d) (ht : f.tool = t.toStr) (hf : Fit f) (hp : Proper f) :
    ∃ w G M s, readGrammar g.tree = (w, true) ∧ readGroups gc.tree = (G, true) ∧ readGroups mc.tree = (M, true) ∧ readSettings f.tree = some s ∧
      connect E (clientOf g gc mc p l d) (given f t) =
        .ok ({ setupOf E s w G M with lang := .known l }, ⟨p.evalMacro, p.groups, p.path, p.analysis, p.zeroPoint⟩) := by
  obtain ⟨m, m1, m2⟩ := C112_words g.metric hm g.tree c!"metric" rfl
  obtain ⟨i, i1, i2⟩ := C112_words g.imperial hi g.tree c!"imperial" rfl
  obtain ⟨G, g1, g2⟩ := C112_groups gc hgc
  obtain ⟨M, n1, n2⟩ := C112_groups mc hmc
  obtain ⟨s, s1, s2⟩ := C110_same_partial f d t hd ht hf hp
  have hb : g.ops.map bytes = g.ops := by
    conv_rhs => rw [← List.map_id g.ops]
    exact List.map_congr_left (fun o h => bytes_clear (ho o h))
  refine ⟨⟨⟨m, i⟩, g.ops⟩, G, M, s, ?_, g2, n2, s2, ?_⟩
  · unfold readGrammar
    rw [m2, i2]
    have : g.tree.child c!"operations" = some (.node [] (g.ops.map (item []))) := rfl
    rw [this]
    simp [PTree.kids, item, PTree.data, List.map_map, Function.comp_def]
  · unfold connect clientOf
    dsimp only
    rw [m1, then_ok, i1, then_ok, g1, then_ok, n1, then_ok]
    show Out.bind (.ok (⟨p.evalMacro, p.groups, p.path, p.analysis, p.zeroPoint⟩ : Pipe.Options)) _ = _
    rw [then_ok, language_num, then_ok, driver_num, then_ok, s1, then_ok, hb]

/-- In English there is no difference: whatever the server finds out about a program with these files, the client does. -/
theorem C112_english_partial (E : Env) (g : GrammarFile) (gc mc : GroupsFile) (f : File) (p : ParserObj) (d : EFanucParserType)
    (t : EMachineTool) (hm : Listed g.metric) (hi : Listed g.imperial) (ho : ∀ o ∈ g.ops, Clear o) (hgc : Coded gc.groups) (hmc : Coded mc.groups)
    (hd : f.driver = .of d) (ht : f.tool = t.toStr) (hf : Fit f) (hp : Proper f) :
    ∃ w G M s o, readGrammar g.tree = (w, true) ∧ readGroups gc.tree = (G, true) ∧ readGroups mc.tree = (M, true) ∧ readSettings f.tree = some s ∧
      connect E (clientOf g gc mc p .English d) (given f t) = .ok (setupOf E s w G M, o) := by
  obtain ⟨w, G, M, s, h1, h2, h3, h4, h5⟩ := C112_same_partial E g gc mc f p .English d t hm hi ho hgc hmc hd ht hf hp
  exact ⟨w, G, M, s, _, h1, h2, h3, h4, h5⟩

/-- The client above, from files. -/
example (E : Env) : ∃ w G M s o, readGrammar (GrammarFile.tree ⟨c!"1.0", smallClient.ops, smallClient.imperial, smallClient.metric⟩) = (w, true) ∧
    readGroups (GroupsFile.tree ⟨c!"1.0", smallClient.gcodes⟩) = (G, true) ∧ readGroups (GroupsFile.tree ⟨c!"1.0", []⟩) = (M, true) ∧
    readSettings formFile.tree = some s ∧
    connect E (clientOf ⟨c!"1.0", smallClient.ops, smallClient.imperial, smallClient.metric⟩ ⟨c!"1.0", smallClient.gcodes⟩ ⟨c!"1.0", []⟩
      smallClient.settings .English .HaasMill) (given formFile .mill_4axis) = .ok (setupOf E s w G M, o) := by
  refine C112_english_partial E ⟨c!"1.0", smallClient.ops, smallClient.imperial, smallClient.metric⟩ ⟨c!"1.0", smallClient.gcodes⟩ ⟨c!"1.0", []⟩
    formFile smallClient.settings .HaasMill .mill_4axis ⟨smallClient_ready.metric, ?_⟩ ⟨smallClient_ready.imperial, ?_⟩ smallClient_ready.ops
    ⟨smallClient_ready.gcodes, ?_⟩ ⟨smallClient_ready.mcodes, by simp⟩ rfl (by decide) formFile_fit formFile_proper
  · unfold Sized Small Natural; decide
  · unfold Sized Small Natural; decide
  · unfold Natural; decide

end NC.Props
