import Verif.HandProofs
import Verif.Props.FormDemo
import Verif.Props.Wrapper

/-!
# Settings handed over by .NET (C110)
-/

namespace NC.Props
open NC NC.Enums NC.AttrPath NC.Conf NC.Form NC.Hand NC.Spec.Form NC.Spec.Hand

theorem key_iff (d : Dict ℚ) (k : Str) (v : ℚ) : key d k = .ok v ↔ First d k v := by
  rw [← look_iff, key]
  cases look d k <;> simp

/-- The settings when nothing is missing. -/
theorem set_ok (d : EFanucParserType) (h : Handed) {x y z : ℚ} {a b c e : Str} (hx : First h.zero c!"X" x) (hy : First h.zero c!"Y" y)
    (hz : First h.zero c!"Z" z) (ha : h.kin.palletCode = some a) (hb : h.kin.palletValue = some b) (hc : h.kin.measureCode = some c)
    (he : h.kin.measureValue = some e) : setSettings d h =
      .ok ⟨h.tool, h.ttype, d, fill bytes h.exchange [], fill bytes h.base [], fill bytes h.kin.axes [], h.kin.maxFeed, h.kin.maxFast, h.kin.spindle,
        h.kin.warehouse, h.kin.exchangeTime, h.kin.palletTime, h.kin.measureTime, h.kin.diameter2x, h.kin.autoMeasure, bytes a, bytes b,
        bytes c, bytes e, h.cnc.motion, h.cnc.plane, h.cnc.units, h.cnc.programming, h.cnc.feedMode, h.cnc.direction, h.cnc.depth,
        h.cnc.ret, h.cnc.rotation, h.cnc.cancel0, h.cnc.cancel1, h.cnc.cancel2, h.cnc.cancel3, h.cnc.cancelRapid, h.cnc.operatorRotation,
        h.cnc.toolExchanges, h.cnc.autoRapid, x, y, z⟩ := by
  have h1 : zeroCells h.zero = .ok [.dbl x, .dbl y, .dbl z] := by
    rw [zeroCells, (key_iff _ _ _).mpr hx, then_ok, (key_iff _ _ _).mpr hy, then_ok, (key_iff _ _ _).mpr hz, then_ok]
  have h2 : readKin (kinCells h.kin) = .ok ⟨h.kin.maxFeed, h.kin.maxFast, h.kin.spindle, h.kin.warehouse, h.kin.exchangeTime, h.kin.palletTime,
      h.kin.measureTime, h.kin.diameter2x, h.kin.autoMeasure, bytes a, bytes b, bytes c, bytes e⟩ := by
    rw [kinCells, ha, hb, hc, he]
    rfl
  rw [setSettings, h1, then_ok, tool_num, then_ok, type_num, then_ok, points_all, then_ok, points_all, then_ok, h2, then_ok, axes_all, then_ok,
    cnc_read, then_ok]
  rfl

/-- C110, the settings: a client that hands over what a settings file says gives the parser what the file says. -/
theorem C110_file (f : File) (d : EFanucParserType) (t : EMachineTool) (hd : f.driver = .of d) (ht : f.tool = t.toStr) (h : Fit f) :
    ∃ s, setSettings d (given f t) = .ok s ∧ Kept f s := by
  obtain ⟨x, hx⟩ := h.zero c!"X" (by simp)
  obtain ⟨y, hy⟩ := h.zero c!"Y" (by simp)
  obtain ⟨z, hz⟩ := h.zero c!"Z" (by simp)
  obtain ⟨t1, t2, t3, t4⟩ := h.texts
  refine ⟨_, set_ok d (given f t) hx hy hz rfl rfl rfl rfl, ?_⟩
  exact ⟨hd, ht, rfl, fill_holds _ h.exchange, fill_holds _ h.base, fill_holds _ h.axes, ⟨rfl, rfl⟩, ⟨rfl, rfl, rfl, rfl, rfl, rfl⟩,
    ⟨rfl, rfl, rfl, rfl, rfl, rfl, rfl, rfl, rfl, rfl⟩, ⟨bytes_clear t1, bytes_clear t2, bytes_clear t3, bytes_clear t4⟩,
    ⟨rfl, rfl, rfl, rfl, rfl, rfl, rfl, rfl⟩, hx, hy, hz⟩

theorem set_sorted {d : EFanucParserType} {h : Handed} {s : Settings} (hs : setSettings d h = .ok s) :
    (∀ a ∈ [c!"X", c!"Y", c!"Z"], ∃ v, First h.zero a v) ∧ ¬ Null h.kin ∧
      VMap.Sorted s.exchange ∧ VMap.Sorted s.base ∧ VMap.Sorted s.axes := by
  have key_some : ∀ k, (∃ v, key h.zero k = .ok v) ∨ key h.zero k = .throw (.noKey k) := by
    intro k; rw [key]; cases look h.zero k <;> simp
  rcases key_some c!"X" with ⟨x, hx⟩ | hx
  swap
  · rw [setSettings, zeroCells, hx] at hs; exact absurd hs (by simp [Out.bind])
  rcases key_some c!"Y" with ⟨y, hy⟩ | hy
  swap
  · rw [setSettings, zeroCells, hx, then_ok, hy] at hs; exact absurd hs (by simp [Out.bind])
  rcases key_some c!"Z" with ⟨z, hz⟩ | hz
  swap
  · rw [setSettings, zeroCells, hx, then_ok, hy, then_ok, hz] at hs; exact absurd hs (by simp [Out.bind])
  have h1 : zeroCells h.zero = .ok [.dbl x, .dbl y, .dbl z] := by rw [zeroCells, hx, then_ok, hy, then_ok, hz, then_ok]
  have h2 : ¬ Null h.kin := by
    intro hn
    have h3 : readKin (kinCells h.kin) = .ub := by
      rw [kinCells]
      rcases hn with hn | hn | hn | hn <;> rw [hn] <;>
        cases h.kin.palletCode <;> cases h.kin.palletValue <;> cases h.kin.measureCode <;> cases h.kin.measureValue <;> rfl
    rw [setSettings, h1, then_ok, tool_num, then_ok, type_num, then_ok, points_all, then_ok, points_all, then_ok, h3] at hs
    exact absurd hs (by simp [Out.bind])
  rw [key_iff] at hx hy hz
  refine ⟨?_, h2, ?_⟩
  · intro a ha
    simp only [List.mem_cons, List.not_mem_nil, or_false] at ha
    rcases ha with rfl | rfl | rfl
    · exact ⟨x, hx⟩
    · exact ⟨y, hy⟩
    · exact ⟨z, hz⟩
  · unfold Null at h2
    simp only [not_or] at h2
    obtain ⟨n1, n2, n3, n4⟩ := h2
    obtain ⟨a, ha⟩ := Option.ne_none_iff_exists'.mp n1
    obtain ⟨b, hb⟩ := Option.ne_none_iff_exists'.mp n2
    obtain ⟨c, hc⟩ := Option.ne_none_iff_exists'.mp n3
    obtain ⟨e, he⟩ := Option.ne_none_iff_exists'.mp n4
    rw [set_ok d h hx hy hz ha hb hc he] at hs
    injection hs with hs
    subst hs
    exact ⟨fill_sorted _ _ List.Pairwise.nil, fill_sorted _ _ List.Pairwise.nil, fill_sorted _ _ List.Pairwise.nil⟩

/-- C110, when settings are taken: the zero point has its three coordinates, and no text is missing. -/
theorem C110_taken (d : EFanucParserType) (h : Handed) :
    (∃ s, setSettings d h = .ok s) ↔ (∀ a ∈ [c!"X", c!"Y", c!"Z"], ∃ v, First h.zero a v) ∧ ¬ Null h.kin := by
  constructor
  · rintro ⟨s, hs⟩
    exact ⟨(set_sorted hs).1, (set_sorted hs).2.1⟩
  · rintro ⟨hz, hn⟩
    obtain ⟨x, hx⟩ := hz c!"X" (by simp)
    obtain ⟨y, hy⟩ := hz c!"Y" (by simp)
    obtain ⟨z, hz⟩ := hz c!"Z" (by simp)
    unfold Null at hn
    simp only [not_or] at hn
    obtain ⟨n1, n2, n3, n4⟩ := hn
    obtain ⟨a, ha⟩ := Option.ne_none_iff_exists'.mp n1
    obtain ⟨b, hb⟩ := Option.ne_none_iff_exists'.mp n2
    obtain ⟨c, hc⟩ := Option.ne_none_iff_exists'.mp n3
    obtain ⟨e, he⟩ := Option.ne_none_iff_exists'.mp n4
    exact ⟨_, set_ok d h hx hy hz ha hb hc he⟩

/-- C110 is violated: a text that was left at its default is null, and the native side makes a string of it. -/
theorem C110_violated_null (d : EFanucParserType) (h : Handed) (hz : ∀ a ∈ [c!"X", c!"Y", c!"Z"], ∃ v, First h.zero a v) (hn : Null h.kin) :
    setSettings d h = .ub := by
  obtain ⟨x, hx⟩ := hz c!"X" (by simp)
  obtain ⟨y, hy⟩ := hz c!"Y" (by simp)
  obtain ⟨z, hz⟩ := hz c!"Z" (by simp)
  have h1 : zeroCells h.zero = .ok [.dbl x, .dbl y, .dbl z] := by
    rw [zeroCells, (key_iff _ _ _).mpr hx, then_ok, (key_iff _ _ _).mpr hy, then_ok, (key_iff _ _ _).mpr hz, then_ok]
  have h3 : readKin (kinCells h.kin) = .ub := by
    rw [kinCells]
    rcases hn with hn | hn | hn | hn <;> rw [hn] <;>
      cases h.kin.palletCode <;> cases h.kin.palletValue <;> cases h.kin.measureCode <;> cases h.kin.measureValue <;> rfl
  rw [setSettings, h1, then_ok, tool_num, then_ok, type_num, then_ok, points_all, then_ok, points_all, then_ok, h3]
  rfl

/-- C110, both ways: the server that reads the file and the parser that a .NET client hands the file's members
over to have the same settings. -/
theorem C110_same_partial (f : File) (d : EFanucParserType) (t : EMachineTool) (hd : f.driver = .of d) (ht : f.tool = t.toStr) (h : Fit f)
    (hp : Proper f) : ∃ s, setSettings d (given f t) = .ok s ∧ readSettings f.tree = some s := by
  obtain ⟨s, hs, ks⟩ := C110_file f d t hd ht h
  obtain ⟨r, hr, kr⟩ := C107_file_partial f hp
  have h1 := (set_sorted hs).2.2
  have h2 : SameFile f f := ⟨rfl, rfl, rfl, rfl, fun _ _ => Iff.rfl, rfl, rfl, fun _ _ => Iff.rfl, fun _ _ => Iff.rfl, fun _ _ => Iff.rfl⟩
  rw [kept_ext h2 kr ks (kept_sorted hr) h1] at hr
  exact ⟨s, hs, hr⟩

theorem groups_read (d : Dict (List Ver.Code)) (h : Keyed d) : ∃ m, groups d = .ok m ∧ Grouped d m := by
  obtain ⟨m, h1, -, h3⟩ := C56_groups d
  refine ⟨m, ?_, ?_⟩
  · unfold groups
    rw [flatten_eq]
    dsimp only
    rw [List.nil_append, List.nil_append, List.map_map, keys_clear h, ← List.flatMap_def]
    have h4 : List.map (List.length ∘ fun x : Str × List Ver.Code => x.2) d = d.map (fun e => e.2.length) := rfl
    rw [h4, h1]
  · intro c k
    rw [h3 c k]
    constructor
    · rintro ⟨e, he, rfl, hc⟩
      refine ⟨e.2, ?_, hc⟩
      rw [← look_iff]
      have hn := h.1
      clear h1 h3 h
      induction d with
      | nil => simp at he
      | cons x d ih =>
        rw [List.map_cons, List.nodup_cons] at hn
        rw [look_cons]
        rcases List.mem_cons.mp he with rfl | he
        · rw [if_pos rfl]
        · rw [if_neg (fun e' : x.1 = e.1 => hn.1 (e' ▸ List.mem_map_of_mem (f := (·.1)) he))]
          exact ih he hn.2
    · rintro ⟨l, hl, hc⟩
      exact ⟨(k, l), first_mem hl, rfl, hc⟩

/-- C110, the parser: its tables, groups, options, language and driver are those the client gave, and the machine is
the one of the settings. -/
theorem C110_parser (E : Env) (c : Client) (h : Handed) (s : Settings) (hc : Ready c) (hs : setSettings c.driver h = .ok s) :
    ∃ S o, connect E c h = .ok (S, o) ∧ Connected E c s S o := by
  obtain ⟨m, hm, tm⟩ := table_read c.metric hc.metric
  obtain ⟨i, hi, ti⟩ := table_read c.imperial hc.imperial
  obtain ⟨g, hg, tg⟩ := groups_read c.gcodes hc.gcodes
  obtain ⟨n, hn, tn⟩ := groups_read c.mcodes hc.mcodes
  have ho : c.ops.map bytes = c.ops := by
    conv_rhs => rw [← List.map_id c.ops]
    exact List.map_congr_left (fun o h => bytes_clear (hc.ops o h))
  have hd : s.driver = c.driver := by
    obtain ⟨hz, hk⟩ := (C110_taken c.driver h).mp ⟨s, hs⟩
    obtain ⟨x, hx⟩ := hz c!"X" (by simp)
    obtain ⟨y, hy⟩ := hz c!"Y" (by simp)
    obtain ⟨z, hz⟩ := hz c!"Z" (by simp)
    unfold Null at hk
    simp only [not_or] at hk
    obtain ⟨n1, n2, n3, n4⟩ := hk
    obtain ⟨p, hp⟩ := Option.ne_none_iff_exists'.mp n1
    obtain ⟨q, hq⟩ := Option.ne_none_iff_exists'.mp n2
    obtain ⟨r, hr⟩ := Option.ne_none_iff_exists'.mp n3
    obtain ⟨e, he⟩ := Option.ne_none_iff_exists'.mp n4
    rw [set_ok c.driver h hx hy hz hp hq hr he] at hs
    injection hs with hs
    rw [← hs]
  refine ⟨{ setupOf E s ⟨⟨m, i⟩, c.ops.map bytes⟩ g n with lang := .known c.language },
    ⟨c.settings.evalMacro, c.settings.groups, c.settings.path, c.settings.analysis, c.settings.zeroPoint⟩, ?_, ?_⟩
  · rw [connect, hm, then_ok, hi, then_ok, hg, then_ok, hn, then_ok]
    show Out.bind (.ok (⟨c.settings.evalMacro, c.settings.groups, c.settings.path, c.settings.analysis, c.settings.zeroPoint⟩ : Pipe.Options)) _ = _
    rw [then_ok, language_num, then_ok, driver_num, then_ok, hs, then_ok]
  · exact ⟨tm, ti, ho, tg, tn, rfl, hd, fun _ _ _ => rfl, ⟨rfl, rfl, rfl, rfl, rfl⟩⟩

/-- C110, splitting: the request that arrives is the one that was made. -/
theorem C110_split (s : SplitObj) (a b : Str) (h1 : s.text = some a) (h2 : s.plane = some b) (ha : Clear a) (hb : Clear b) :
    readSplit (splitCells s) = .ok ⟨s.kind, s.step, s.time, s.path, a, s.rapidOnly, b⟩ := by
  rw [splitCells, h1, h2, textCell, textCell, Option.map_some, Option.map_some, bytes_clear ha, bytes_clear hb, readSplit, kind_num, then_ok]
  rfl

/-- C110, numbering: the request that arrives is the one that was made. -/
theorem C110_renumber (r : RenumberObj) (a : Str) (h : r.word = some a) (ha : Clear a) :
    readRenumber (renumberCells r) = .ok ⟨a, r.step, r.frequency, r.maxNumber, r.existingOnly, r.leadingZeroes⟩ := by
  rw [renumberCells, h, textCell, Option.map_some, bytes_clear ha, readRenumber]
  rfl

/-- C110 is violated by requests too: a split that is not by text has no text unless the client sets one, and none
at all is undefined. -/
theorem C110_violated_split (s : SplitObj) (h : s.text = none ∨ s.plane = none) : readSplit (splitCells s) = .ub := by
  rw [splitCells, textCell, textCell, readSplit, kind_num, then_ok]
  rcases h with h | h
  · rw [h]; rfl
  · rw [h]
    cases s.text <;> rfl

/-! ## A client -/

instance (s : Str) : Decidable (Clear s) := inferInstanceAs (Decidable (_ ∉ _))

instance {α : Type} (d : Dict α) : Decidable (Keyed d) := inferInstanceAs (Decidable (_ ∧ ∀ e ∈ d, Clear e.1))

theorem formFile_fit : Fit formFile where
  exchange := by decide
  base := by decide
  axes := by decide
  zero := by
    intro a ha
    simp only [List.mem_cons, List.not_mem_nil, or_false] at ha
    rcases ha with rfl | rfl | rfl
    · exact ⟨_, (look_iff _ _ _).mp rfl⟩
    · exact ⟨_, (look_iff _ _ _).mp rfl⟩
    · exact ⟨_, (look_iff _ _ _).mp rfl⟩
  texts := by decide

theorem formFile_proper : Proper formFile where
  driver := ⟨.HaasMill, rfl⟩
  tool := ⟨.mill_4axis, by decide⟩
  exchange := fun e he => finite_of _ 2 ((by decide +kernel : ∀ e ∈ formFile.exchange, e.2.den ∣ 10 ^ 2) e he)
  base := fun e he => finite_of _ 2 ((by decide +kernel : ∀ e ∈ formFile.base, e.2.den ∣ 10 ^ 2) e he)
  zeroes := fun e he => finite_of _ 2 ((by decide +kernel : ∀ e ∈ formFile.zero, e.2.den ∣ 10 ^ 2) e he)
  axes := fun e he => ⟨finite_of _ 2 ((by decide +kernel : ∀ e ∈ formFile.kin.axes, e.2.1.den ∣ 10 ^ 2) e he),
    finite_of _ 2 ((by decide +kernel : ∀ e ∈ formFile.kin.axes, e.2.2.den ∣ 10 ^ 2) e he)⟩
  feeds := ⟨finite_of _ 2 (by decide +kernel), finite_of _ 2 (by decide +kernel)⟩
  numbers := by unfold Small; decide
  zero := formFile_fit.zero

/-- The file above reaches a .NET parser and the server alike. -/
example : ∃ s, setSettings .HaasMill (given formFile .mill_4axis) = .ok s ∧ readSettings formFile.tree = some s :=
  C110_same_partial formFile .HaasMill .mill_4axis rfl (by decide) formFile_fit formFile_proper

/-- A client with two words, a group and an operator. -/
def smallClient : Client :=
  ⟨[(c!"G", ⟨some c!"G", 0, 150, 0, 1, false, .code⟩), (c!"X", ⟨some c!"X", -9999, 9999, 0, 3, true, .length⟩)],
   [(c!"G", ⟨some c!"G", 0, 150, 0, 1, false, .code⟩)], [c!"+", c!"-"], [(c!"motion", [(0, 0), (1, 0)])], [],
   ⟨true, true, false, true, false, true⟩, .Polish, .HaasMill⟩

theorem smallClient_ready : Ready smallClient where
  metric := ⟨by decide, by
    intro e he
    simp only [smallClient, List.mem_cons, List.not_mem_nil, or_false] at he
    rcases he with rfl | rfl
    · exact ⟨_, rfl, by decide⟩
    · exact ⟨_, rfl, by decide⟩⟩
  imperial := ⟨by decide, by
    intro e he
    simp only [smallClient, List.mem_cons, List.not_mem_nil, or_false] at he
    subst he
    exact ⟨_, rfl, by decide⟩⟩
  ops := by decide
  gcodes := by decide
  mcodes := by decide

/-- It gets its parser. -/
example (E : Env) : ∃ s S o, connect E smallClient (given formFile .mill_4axis) = .ok (S, o) ∧ Connected E smallClient s S o := by
  obtain ⟨s, hs, -⟩ := C110_file formFile .HaasMill .mill_4axis rfl (by decide) formFile_fit
  obtain ⟨S, o, h1, h2⟩ := C110_parser E smallClient _ s smallClient_ready hs
  exact ⟨s, S, o, h1, h2⟩

/-- A client that leaves the texts of the kinematics alone. -/
example : setSettings .HaasMill { given formFile .mill_4axis with kin := { (given formFile .mill_4axis).kin with palletValue := none } } = .ub :=
  C110_violated_null _ _ formFile_fit.zero (.inr (.inl rfl))

/-- A request to split by blocks, with texts. -/
example : readSplit (splitCells ⟨.blocks, 100, 0, 0, some [], true, some c!"50"⟩) = .ok ⟨.blocks, 100, 0, 0, [], true, c!"50"⟩ :=
  C110_split _ _ _ rfl rfl (by decide) (by decide)

example : readSplit (splitCells ⟨.blocks, 100, 0, 0, none, true, some c!"50"⟩) = .ub := C110_violated_split _ (.inl rfl)

example : readRenumber (renumberCells ⟨some c!"N", 10, 1, 9999, false, true⟩) = .ok ⟨c!"N", 10, 1, 9999, false, true⟩ :=
  C110_renumber _ _ rfl (by decide)

end NC.Props
