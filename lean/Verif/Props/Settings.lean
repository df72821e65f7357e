import Verif.SettingsProofs
import Verif.Props.Sim

/-! # Property C81: the settings are what the file says -/

namespace NC.Props
open NC NC.Enums NC.AttrPath NC.Conf NC.Spec.Conf

/-! ## Members -/

theorem child_iff (t : PTree) (k : Str) (c : PTree) : t.child k = some c ↔ At t [k] c := by
  constructor
  · intro h
    obtain ⟨d, l⟩ := t
    unfold PTree.child at h
    rw [Option.map_eq_some_iff] at h
    obtain ⟨e, he, rfl⟩ := h
    obtain ⟨hk, pre, post, hl, hpre⟩ := List.find?_eq_some_iff_append.mp he
    have hl : l = pre ++ e :: post := hl
    have hk : e.1 = k := by simpa using hk
    subst hl
    have := At.there d pre k e.2 post [] e.2 (fun x hx => by have := hpre x hx; simpa using this) (.here _)
    rw [← hk] at this ⊢
    exact this
  · intro h
    cases h with
    | there d pre k c' post p r hpre hr =>
      cases hr
      unfold PTree.child PTree.kids
      dsimp only
      rw [List.find?_append]
      have : pre.find? (fun e => e.1 == k) = none := by
        rw [List.find?_eq_none]; intro x hx; simpa using hpre x hx
      rw [this]
      simp

theorem at_two (t : PTree) (a k : Str) (c : PTree) : At t [a, k] c ↔ ∃ m, t.child a = some m ∧ m.child k = some c := by
  constructor
  · intro h
    cases h with
    | there d pre _ m post _ _ hpre hr =>
      exact ⟨m, (child_iff _ _ _).mpr (.there d pre a m post [] m hpre (.here _)), (child_iff _ _ _).mpr hr⟩
  · rintro ⟨m, h1, h2⟩
    have h1 := (child_iff _ _ _).mp h1
    cases h1 with
    | there d pre _ m' post _ _ hpre hr =>
      cases hr
      exact .there d pre a _ post [k] c hpre ((child_iff _ _ _).mp h2)

theorem fld1 {α : Type} {f : Str → Option α} {v : α} {P : Str → Prop} (hf : ∀ x, f x = some v ↔ P x) {t : PTree} {k : Str} :
    t.get f k = some v ↔ ∃ n, At t [k] n ∧ P n.data := by
  unfold PTree.get
  rw [Option.bind_eq_some_iff]
  constructor
  · rintro ⟨c, h1, h2⟩; exact ⟨c, (child_iff _ _ _).mp h1, (hf _).mp h2⟩
  · rintro ⟨c, h1, h2⟩; exact ⟨c, (child_iff _ _ _).mpr h1, (hf _).mpr h2⟩

theorem fld2 {α : Type} {f : Str → Option α} {v : α} {P : Str → Prop} (hf : ∀ x, f x = some v ↔ P x) {t m : PTree} {a k : Str}
    (hm : t.child a = some m) : m.get f k = some v ↔ ∃ n, At t [a, k] n ∧ P n.data := by
  rw [fld1 hf]
  constructor
  · rintro ⟨n, h1, h2⟩; exact ⟨n, (at_two _ _ _ _).mpr ⟨m, hm, (child_iff _ _ _).mpr h1⟩, h2⟩
  · rintro ⟨n, h1, h2⟩
    obtain ⟨m', h3, h4⟩ := (at_two _ _ _ _).mp h1
    rw [hm] at h3
    injection h3 with h3; subst h3
    exact ⟨n, (child_iff _ _ _).mp h4, h2⟩

/-! ## Sections that list values -/

/-- The loops over the members of a section. -/
def gather {V : Type} (val : PTree → Option V) : List (Str × PTree) → VMap V → Option (VMap V)
  | [], m => some m
  | e :: l, m => (val e.2).bind (fun v => gather val l (emplace m e.1 v))

theorem readPoints_gather (l : List (Str × PTree)) (m : VMap ℚ) : readPoints l m = gather (fun t => dblOf t.data) l m := by
  induction l generalizing m with
  | nil => rfl
  | cons e l ih =>
    show (dblOf e.2.data).bind _ = _
    unfold gather
    congr 1
    funext v
    exact ih _

/-- The ends of an axis as read. -/
def endsOf (t : PTree) : Option (ℚ × ℚ) :=
  (t.get dblOf c!"range_min").bind (fun lo => (t.get dblOf c!"range_max").map (fun hi => (lo, hi)))

theorem readAxes_gather (l : List (Str × PTree)) (m : VMap (ℚ × ℚ)) : readAxes l m = gather endsOf l m := by
  induction l generalizing m with
  | nil => rfl
  | cons e l ih =>
    show (e.2.get dblOf c!"range_min").bind (fun lo => (e.2.get dblOf c!"range_max").bind (fun hi => readAxes l (emplace m e.1 (lo, hi)))) = _
    unfold gather endsOf
    cases e.2.get dblOf c!"range_min" with
    | none => rfl
    | some lo =>
      cases e.2.get dblOf c!"range_max" with
      | none => rfl
      | some hi => exact ih _

theorem emplace_sorted {V : Type} {m : VMap V} (h : m.Sorted) (k : Str) (v : V) : (emplace m k v).Sorted := by
  unfold emplace; split
  · exact h
  · exact VMap.sorted_put h k v

theorem emplace_get {V : Type} (m : VMap V) (k : Str) (v : V) (a : Str) :
    (emplace m k v).get a = (m.get a).or (if k = a then some v else none) := by
  unfold emplace
  split
  · rename_i h
    by_cases hk : k = a
    · subst hk
      obtain ⟨x, hx⟩ := Option.isSome_iff_exists.mp h
      rw [hx]; rfl
    · rw [if_neg hk, Option.or_none]
  · rename_i h
    rw [VMap.get_put]
    by_cases hk : k = a
    · subst hk
      rw [if_pos rfl, if_pos rfl]
      have : m.get k = none := by simpa using h
      rw [this]; rfl
    · rw [if_neg hk, if_neg hk, Option.or_none]

theorem gather_spec {V : Type} (val : PTree → Option V) : ∀ (l : List (Str × PTree)) (m m' : VMap V), m.Sorted →
    gather val l m = some m' → m'.Sorted ∧ (∀ e ∈ l, ∃ v, val e.2 = some v) ∧
      ∀ a, m'.get a = (m.get a).or ((l.find? (fun e => e.1 == a)).bind (fun e => val e.2)) := by
  intro l
  induction l with
  | nil =>
    intro m m' hm h
    injection h with h; subst h
    exact ⟨hm, by simp, fun a => by simp⟩
  | cons e l ih =>
    intro m m' hm h
    unfold gather at h
    rw [Option.bind_eq_some_iff] at h
    obtain ⟨v, hv, h⟩ := h
    obtain ⟨h1, h2, h3⟩ := ih _ m' (emplace_sorted hm e.1 v) h
    refine ⟨h1, ?_, fun a => ?_⟩
    · intro x hx
      rcases List.mem_cons.mp hx with rfl | hx
      · exact ⟨v, hv⟩
      · exact h2 x hx
    · rw [h3 a, emplace_get, Option.or_assoc]
      congr 1
      by_cases hk : e.1 = a
      · rw [if_pos hk, List.find?_cons_of_pos (by simp [hk])]
        simp [hv]
      · rw [if_neg hk, List.find?_cons_of_neg (by simp [hk])]
        simp

theorem gather_some {V : Type} (val : PTree → Option V) : ∀ (l : List (Str × PTree)) (m : VMap V),
    (∀ e ∈ l, ∃ v, val e.2 = some v) → ∃ m', gather val l m = some m' := by
  intro l
  induction l with
  | nil => intro m _; exact ⟨m, rfl⟩
  | cons e l ih =>
    intro m h
    obtain ⟨v, hv⟩ := h e (by simp)
    obtain ⟨m', hm'⟩ := ih (emplace m e.1 v) (fun x hx => h x (by simp [hx]))
    refine ⟨m', ?_⟩
    unfold gather
    rw [hv]
    exact hm'

/-- A section is read as it is listed. -/
theorem gather_iff {V : Type} {val : PTree → Option V} {Val : PTree → V → Prop} (hv : ∀ t v, val t = some v ↔ Val t v)
    (t : PTree) (m : VMap V) : gather val t.kids [] = some m ↔ Listed Val t m := by
  have hfind : ∀ (m' : VMap V), (∀ a, m'.get a = (VMap.get ([] : VMap V) a).or ((t.kids.find? (fun e => e.1 == a)).bind (fun e => val e.2))) →
      ∀ a v, m'.get a = some v ↔ ∃ c, At t [a] c ∧ Val c v := by
    intro m' h a v
    rw [h a]
    show (none.or _) = some v ↔ _
    rw [Option.none_or, Option.bind_eq_some_iff]
    constructor
    · rintro ⟨e, h1, h2⟩
      refine ⟨e.2, (child_iff _ _ _).mp ?_, (hv _ _).mp h2⟩
      unfold PTree.child; rw [h1]; rfl
    · rintro ⟨c, h1, h2⟩
      have h1 := (child_iff _ _ _).mpr h1
      unfold PTree.child at h1
      rw [Option.map_eq_some_iff] at h1
      obtain ⟨e, he, rfl⟩ := h1
      exact ⟨e, he, (hv _ _).mpr h2⟩
  constructor
  · intro h
    obtain ⟨h1, h2, h3⟩ := gather_spec val _ _ _ List.Pairwise.nil h
    exact ⟨h1, fun e he => (h2 e he).imp (fun v hx => (hv _ _).mp hx), hfind m h3⟩
  · rintro ⟨h1, h2, h3⟩
    obtain ⟨m', hm'⟩ := gather_some val t.kids [] (fun e he => (h2 e he).imp (fun v hx => (hv _ _).mpr hx))
    obtain ⟨g1, -, g3⟩ := gather_spec val _ _ _ List.Pairwise.nil hm'
    rw [hm']
    congr 1
    refine VMap.ext g1 h1 (fun a => Option.ext (fun v => ?_))
    rw [hfind m' g3 a v, h3 a v]

theorem points_iff (t : PTree) (m : VMap ℚ) : readPoints t.kids [] = some m ↔ Listed (fun c q => Number c.data q) t m := by
  rw [readPoints_gather]; exact gather_iff (fun t v => dblOf_iff t.data v) t m

theorem axes_iff (t : PTree) (m : VMap (ℚ × ℚ)) : readAxes t.kids [] = some m ↔ Listed Ends t m := by
  rw [readAxes_gather]
  refine gather_iff (fun t v => ?_) t m
  unfold endsOf Ends
  rw [← fld1 (fun x => dblOf_iff x v.1), ← fld1 (fun x => dblOf_iff x v.2), Option.bind_eq_some_iff]
  constructor
  · rintro ⟨lo, h1, h2⟩
    rw [Option.map_eq_some_iff] at h2
    obtain ⟨hi, h2, rfl⟩ := h2
    exact ⟨h1, h2⟩
  · rintro ⟨h1, h2⟩
    exact ⟨v.1, h1, by rw [h2]; rfl⟩

/-! ## Names and texts -/

theorem textOf_iff (x v : Str) : textOf x = some v ↔ x = v := by simp [textOf]

theorem EMachineTool_iff (x : Str) (e : EMachineTool) : enumOf EMachineTool.ofStr x = some e ↔ Word x e.toStr :=
  enumOf_faithful C45_names.2.2.2.1.1 (fun e => by cases e <;> simp [EMachineTool.toStr]) x e

theorem EMachineToolType_iff (x : Str) (e : EMachineToolType) : enumOf EMachineToolType.ofStr x = some e ↔ Word x e.toStr :=
  enumOf_faithful C45_names.2.2.1.1 (fun e => by cases e <;> simp [EMachineToolType.toStr]) x e

theorem EFanucParserType_iff (x : Str) (e : EFanucParserType) : enumOf EFanucParserType.ofStr x = some e ↔ Word x e.toStr :=
  enumOf_faithful C45_names.2.1.1 (fun e => by cases e <;> simp [EFanucParserType.toStr]) x e

theorem EMotion_iff (x : Str) (e : EMotion) : enumOf EMotion.ofStr x = some e ↔ Word x e.toStr :=
  enumOf_faithful C45_names.2.2.2.2.2.2.2.2.1.1 (fun e => by cases e <;> simp [EMotion.toStr]) x e

theorem EWorkPlane_iff (x : Str) (e : EWorkPlane) : enumOf EWorkPlane.ofStr x = some e ↔ Word x e.toStr :=
  enumOf_faithful C45_names.2.2.2.2.2.2.2.2.2.1.1 (fun e => by cases e <;> simp [EWorkPlane.toStr]) x e

theorem EDriverUnits_iff (x : Str) (e : EDriverUnits) : enumOf EDriverUnits.ofStr x = some e ↔ Word x e.toStr :=
  enumOf_faithful C45_names.2.2.2.2.2.1.1 (fun e => by cases e <;> simp [EDriverUnits.toStr]) x e

theorem EProgrammingType_iff (x : Str) (e : EProgrammingType) : enumOf EProgrammingType.ofStr x = some e ↔ Word x e.toStr :=
  enumOf_faithful C45_names.2.2.2.2.2.2.2.2.2.2.1.1 (fun e => by cases e <;> simp [EProgrammingType.toStr]) x e

theorem EFeedMode_iff (x : Str) (e : EFeedMode) : enumOf EFeedMode.ofStr x = some e ↔ Word x e.toStr :=
  enumOf_faithful C45_names.2.2.2.2.2.2.2.2.2.2.2.1.1 (fun e => by cases e <;> simp [EFeedMode.toStr]) x e

theorem EDepthProgrammingType_iff (x : Str) (e : EDepthProgrammingType) : enumOf EDepthProgrammingType.ofStr x = some e ↔ Word x e.toStr :=
  enumOf_faithful C45_names.2.2.2.2.2.2.2.2.2.2.2.2.1.1 (fun e => by cases e <;> simp [EDepthProgrammingType.toStr]) x e

theorem EDrillGreturnMode_iff (x : Str) (e : EDrillGreturnMode) : enumOf EDrillGreturnMode.ofStr x = some e ↔ Word x e.toStr :=
  enumOf_faithful C45_names.2.2.2.2.2.2.2.2.2.2.2.2.2.1.1 (fun e => by cases e <;> simp [EDrillGreturnMode.toStr]) x e

theorem ERotationDirection_iff (x : Str) (e : ERotationDirection) :
    enumOf ERotationDirection.ofStr x = some e ↔ ∃ w ∈ directionNames e, Word x w := by
  rw [enumOf_word _ (by intro e; cases e <;> decide)]
  constructor
  · rintro ⟨w, hw, h⟩
    have := (C45_rotation_partial w e).1.mp h
    refine ⟨w, ?_, hw⟩
    cases e <;> simpa [directionNames] using this
  · rintro ⟨w, hm, hw⟩
    refine ⟨w, hw, (C45_rotation_partial w e).1.mpr ?_⟩
    cases e <;> simpa [directionNames] using hm

/-- The parts of an accepted file. -/
theorem readSettings_iff (t : PTree) (s : Settings) : readSettings t = some s ↔
    ∃ mpd te mb k ax cnc zp, t.get (enumOf EMachineTool.ofStr) c!"machine_tool" = some s.tool ∧
      t.get (enumOf EMachineToolType.ofStr) c!"machine_tool_type" = some s.ttype ∧
      t.get (enumOf EFanucParserType.ofStr) c!"driver" = some s.driver ∧
      t.child c!"machine_points_data" = some mpd ∧
      mpd.child c!"tool_exchange_point" = some te ∧
      readPoints te.kids [] = some s.exchange ∧
      mpd.child c!"machine_base_point" = some mb ∧
      readPoints mb.kids [] = some s.base ∧
      t.child c!"kinematics" = some k ∧
      k.child c!"cartesian_system_axis" = some ax ∧
      readAxes ax.kids [] = some s.axes ∧
      k.get dblOf c!"max_working_feed" = some s.maxFeed ∧
      k.get dblOf c!"max_fast_feed" = some s.maxFast ∧
      k.get intOf c!"maximum_spindle_speed" = some s.maxSpindle ∧
      k.get intOf c!"numer_of_items_in_the_warehouse" = some s.warehouse ∧
      k.get intOf c!"tool_exchange_time" = some s.exchangeTime ∧
      k.get intOf c!"pallet_exchange_time" = some s.palletTime ∧
      k.get intOf c!"tool_measurement_time" = some s.measureTime ∧
      k.get boolOf c!"diameter_programming_2x" = some s.diameter2x ∧
      k.get boolOf c!"auto_measure_after_tool_selection" = some s.autoMeasure ∧
      k.get textOf c!"pallet_exchange_code" = some s.palletCode ∧
      k.get textOf c!"pallet_exchange_code_value" = some s.palletValue ∧
      k.get textOf c!"tool_measurement_code" = some s.measureCode ∧
      k.get textOf c!"tool_measurement_code_value" = some s.measureValue ∧
      t.child c!"cnc_default_values" = some cnc ∧
      cnc.get (enumOf EMotion.ofStr) c!"default_motion" = some s.motion ∧
      cnc.get (enumOf EWorkPlane.ofStr) c!"default_work_plane" = some s.plane ∧
      cnc.get (enumOf EDriverUnits.ofStr) c!"default_driver_units" = some s.units ∧
      cnc.get (enumOf EProgrammingType.ofStr) c!"default_programming" = some s.programming ∧
      cnc.get (enumOf EFeedMode.ofStr) c!"default_feed_mode" = some s.feedMode ∧
      cnc.get (enumOf ERotationDirection.ofStr) c!"default_rotation_direction" = some s.direction ∧
      cnc.get (enumOf EDepthProgrammingType.ofStr) c!"drill_cycle_z_value" = some s.depth ∧
      cnc.get (enumOf EDrillGreturnMode.ofStr) c!"drill_cycle_return_value" = some s.ret ∧
      cnc.get intOf c!"default_rotation" = some s.rotation ∧
      cnc.get boolOf c!"rapid_traverse_cancel_cycle" = some s.cancel0 ∧
      cnc.get boolOf c!"linear_interpolation_cancel_cycle" = some s.cancel1 ∧
      cnc.get boolOf c!"circular_interpolation_cw_cancel_cycle" = some s.cancel2 ∧
      cnc.get boolOf c!"circular_interpolation_ccw_cancel_cycle" = some s.cancel3 ∧
      cnc.get boolOf c!"cycle_cancel_starts_rapid_traverse" = some s.cancelRapid ∧
      cnc.get boolOf c!"operator_turns_on_rotation" = some s.operatorRotation ∧
      cnc.get boolOf c!"tool_number_executes_exchange" = some s.toolExchanges ∧
      cnc.get boolOf c!"auto_rapid_traverse_after_tool_exchange" = some s.autoRapid ∧
      t.child c!"zero_point" = some zp ∧
      zp.get dblOf c!"X" = some s.zeroX ∧
      zp.get dblOf c!"Y" = some s.zeroY ∧
      zp.get dblOf c!"Z" = some s.zeroZ := by
  constructor
  · intro h
    unfold readSettings at h
    obtain ⟨tool, h_tool, h⟩ := Option.bind_eq_some_iff.mp h
    obtain ⟨ttype, h_ttype, h⟩ := Option.bind_eq_some_iff.mp h
    obtain ⟨driver, h_driver, h⟩ := Option.bind_eq_some_iff.mp h
    obtain ⟨mpd, h_mpd, h⟩ := Option.bind_eq_some_iff.mp h
    obtain ⟨te, h_te, h⟩ := Option.bind_eq_some_iff.mp h
    obtain ⟨exchange, h_exchange, h⟩ := Option.bind_eq_some_iff.mp h
    obtain ⟨mb, h_mb, h⟩ := Option.bind_eq_some_iff.mp h
    obtain ⟨base, h_base, h⟩ := Option.bind_eq_some_iff.mp h
    obtain ⟨k, h_k, h⟩ := Option.bind_eq_some_iff.mp h
    obtain ⟨ax, h_ax, h⟩ := Option.bind_eq_some_iff.mp h
    obtain ⟨axes, h_axes, h⟩ := Option.bind_eq_some_iff.mp h
    obtain ⟨maxFeed, h_maxFeed, h⟩ := Option.bind_eq_some_iff.mp h
    obtain ⟨maxFast, h_maxFast, h⟩ := Option.bind_eq_some_iff.mp h
    obtain ⟨maxSpindle, h_maxSpindle, h⟩ := Option.bind_eq_some_iff.mp h
    obtain ⟨warehouse, h_warehouse, h⟩ := Option.bind_eq_some_iff.mp h
    obtain ⟨exchangeTime, h_exchangeTime, h⟩ := Option.bind_eq_some_iff.mp h
    obtain ⟨palletTime, h_palletTime, h⟩ := Option.bind_eq_some_iff.mp h
    obtain ⟨measureTime, h_measureTime, h⟩ := Option.bind_eq_some_iff.mp h
    obtain ⟨diameter2x, h_diameter2x, h⟩ := Option.bind_eq_some_iff.mp h
    obtain ⟨autoMeasure, h_autoMeasure, h⟩ := Option.bind_eq_some_iff.mp h
    obtain ⟨palletCode, h_palletCode, h⟩ := Option.bind_eq_some_iff.mp h
    obtain ⟨palletValue, h_palletValue, h⟩ := Option.bind_eq_some_iff.mp h
    obtain ⟨measureCode, h_measureCode, h⟩ := Option.bind_eq_some_iff.mp h
    obtain ⟨measureValue, h_measureValue, h⟩ := Option.bind_eq_some_iff.mp h
    obtain ⟨cnc, h_cnc, h⟩ := Option.bind_eq_some_iff.mp h
    obtain ⟨motion, h_motion, h⟩ := Option.bind_eq_some_iff.mp h
    obtain ⟨plane, h_plane, h⟩ := Option.bind_eq_some_iff.mp h
    obtain ⟨units, h_units, h⟩ := Option.bind_eq_some_iff.mp h
    obtain ⟨programming, h_programming, h⟩ := Option.bind_eq_some_iff.mp h
    obtain ⟨feedMode, h_feedMode, h⟩ := Option.bind_eq_some_iff.mp h
    obtain ⟨direction, h_direction, h⟩ := Option.bind_eq_some_iff.mp h
    obtain ⟨depth, h_depth, h⟩ := Option.bind_eq_some_iff.mp h
    obtain ⟨ret, h_ret, h⟩ := Option.bind_eq_some_iff.mp h
    obtain ⟨rotation, h_rotation, h⟩ := Option.bind_eq_some_iff.mp h
    obtain ⟨cancel0, h_cancel0, h⟩ := Option.bind_eq_some_iff.mp h
    obtain ⟨cancel1, h_cancel1, h⟩ := Option.bind_eq_some_iff.mp h
    obtain ⟨cancel2, h_cancel2, h⟩ := Option.bind_eq_some_iff.mp h
    obtain ⟨cancel3, h_cancel3, h⟩ := Option.bind_eq_some_iff.mp h
    obtain ⟨cancelRapid, h_cancelRapid, h⟩ := Option.bind_eq_some_iff.mp h
    obtain ⟨operatorRotation, h_operatorRotation, h⟩ := Option.bind_eq_some_iff.mp h
    obtain ⟨toolExchanges, h_toolExchanges, h⟩ := Option.bind_eq_some_iff.mp h
    obtain ⟨autoRapid, h_autoRapid, h⟩ := Option.bind_eq_some_iff.mp h
    obtain ⟨zp, h_zp, h⟩ := Option.bind_eq_some_iff.mp h
    obtain ⟨zeroX, h_zeroX, h⟩ := Option.bind_eq_some_iff.mp h
    obtain ⟨zeroY, h_zeroY, h⟩ := Option.bind_eq_some_iff.mp h
    obtain ⟨zeroZ, h_zeroZ, h⟩ := Option.bind_eq_some_iff.mp h
    have hp := h
    injection hp with hp
    subst hp
    exact ⟨mpd, te, mb, k, ax, cnc, zp, h_tool, h_ttype, h_driver, h_mpd, h_te, h_exchange, h_mb, h_base, h_k, h_ax, h_axes, h_maxFeed, h_maxFast, h_maxSpindle, h_warehouse, h_exchangeTime, h_palletTime, h_measureTime, h_diameter2x, h_autoMeasure, h_palletCode, h_palletValue, h_measureCode, h_measureValue, h_cnc, h_motion, h_plane, h_units, h_programming, h_feedMode, h_direction, h_depth, h_ret, h_rotation, h_cancel0, h_cancel1, h_cancel2, h_cancel3, h_cancelRapid, h_operatorRotation, h_toolExchanges, h_autoRapid, h_zp, h_zeroX, h_zeroY, h_zeroZ⟩
  · rintro ⟨mpd, te, mb, k, ax, cnc, zp, h_tool, h_ttype, h_driver, h_mpd, h_te, h_exchange, h_mb, h_base, h_k, h_ax, h_axes, h_maxFeed, h_maxFast, h_maxSpindle, h_warehouse, h_exchangeTime, h_palletTime, h_measureTime, h_diameter2x, h_autoMeasure, h_palletCode, h_palletValue, h_measureCode, h_measureValue, h_cnc, h_motion, h_plane, h_units, h_programming, h_feedMode, h_direction, h_depth, h_ret, h_rotation, h_cancel0, h_cancel1, h_cancel2, h_cancel3, h_cancelRapid, h_operatorRotation, h_toolExchanges, h_autoRapid, h_zp, h_zeroX, h_zeroY, h_zeroZ⟩
    unfold readSettings
    refine Option.bind_eq_some_iff.mpr ⟨_, h_tool, ?_⟩
    refine Option.bind_eq_some_iff.mpr ⟨_, h_ttype, ?_⟩
    refine Option.bind_eq_some_iff.mpr ⟨_, h_driver, ?_⟩
    refine Option.bind_eq_some_iff.mpr ⟨_, h_mpd, ?_⟩
    refine Option.bind_eq_some_iff.mpr ⟨_, h_te, ?_⟩
    refine Option.bind_eq_some_iff.mpr ⟨_, h_exchange, ?_⟩
    refine Option.bind_eq_some_iff.mpr ⟨_, h_mb, ?_⟩
    refine Option.bind_eq_some_iff.mpr ⟨_, h_base, ?_⟩
    refine Option.bind_eq_some_iff.mpr ⟨_, h_k, ?_⟩
    refine Option.bind_eq_some_iff.mpr ⟨_, h_ax, ?_⟩
    refine Option.bind_eq_some_iff.mpr ⟨_, h_axes, ?_⟩
    refine Option.bind_eq_some_iff.mpr ⟨_, h_maxFeed, ?_⟩
    refine Option.bind_eq_some_iff.mpr ⟨_, h_maxFast, ?_⟩
    refine Option.bind_eq_some_iff.mpr ⟨_, h_maxSpindle, ?_⟩
    refine Option.bind_eq_some_iff.mpr ⟨_, h_warehouse, ?_⟩
    refine Option.bind_eq_some_iff.mpr ⟨_, h_exchangeTime, ?_⟩
    refine Option.bind_eq_some_iff.mpr ⟨_, h_palletTime, ?_⟩
    refine Option.bind_eq_some_iff.mpr ⟨_, h_measureTime, ?_⟩
    refine Option.bind_eq_some_iff.mpr ⟨_, h_diameter2x, ?_⟩
    refine Option.bind_eq_some_iff.mpr ⟨_, h_autoMeasure, ?_⟩
    refine Option.bind_eq_some_iff.mpr ⟨_, h_palletCode, ?_⟩
    refine Option.bind_eq_some_iff.mpr ⟨_, h_palletValue, ?_⟩
    refine Option.bind_eq_some_iff.mpr ⟨_, h_measureCode, ?_⟩
    refine Option.bind_eq_some_iff.mpr ⟨_, h_measureValue, ?_⟩
    refine Option.bind_eq_some_iff.mpr ⟨_, h_cnc, ?_⟩
    refine Option.bind_eq_some_iff.mpr ⟨_, h_motion, ?_⟩
    refine Option.bind_eq_some_iff.mpr ⟨_, h_plane, ?_⟩
    refine Option.bind_eq_some_iff.mpr ⟨_, h_units, ?_⟩
    refine Option.bind_eq_some_iff.mpr ⟨_, h_programming, ?_⟩
    refine Option.bind_eq_some_iff.mpr ⟨_, h_feedMode, ?_⟩
    refine Option.bind_eq_some_iff.mpr ⟨_, h_direction, ?_⟩
    refine Option.bind_eq_some_iff.mpr ⟨_, h_depth, ?_⟩
    refine Option.bind_eq_some_iff.mpr ⟨_, h_ret, ?_⟩
    refine Option.bind_eq_some_iff.mpr ⟨_, h_rotation, ?_⟩
    refine Option.bind_eq_some_iff.mpr ⟨_, h_cancel0, ?_⟩
    refine Option.bind_eq_some_iff.mpr ⟨_, h_cancel1, ?_⟩
    refine Option.bind_eq_some_iff.mpr ⟨_, h_cancel2, ?_⟩
    refine Option.bind_eq_some_iff.mpr ⟨_, h_cancel3, ?_⟩
    refine Option.bind_eq_some_iff.mpr ⟨_, h_cancelRapid, ?_⟩
    refine Option.bind_eq_some_iff.mpr ⟨_, h_operatorRotation, ?_⟩
    refine Option.bind_eq_some_iff.mpr ⟨_, h_toolExchanges, ?_⟩
    refine Option.bind_eq_some_iff.mpr ⟨_, h_autoRapid, ?_⟩
    refine Option.bind_eq_some_iff.mpr ⟨_, h_zp, ?_⟩
    refine Option.bind_eq_some_iff.mpr ⟨_, h_zeroX, ?_⟩
    refine Option.bind_eq_some_iff.mpr ⟨_, h_zeroY, ?_⟩
    refine Option.bind_eq_some_iff.mpr ⟨_, h_zeroZ, ?_⟩
    rfl

/-- C81: a settings file is accepted exactly when every setting is there and readable, and the
settings are then those it says.  Partial: a number in front of `true` or `false` is overlooked. -/
theorem C81_exact_partial (t : PTree) (s : Settings) : readSettings t = some s ↔ Written t s := by
  rw [readSettings_iff]
  constructor
  · rintro ⟨mpd, te, mb, k, ax, cnc, zp, h_tool, h_ttype, h_driver, h_mpd, h_te, h_exchange, h_mb, h_base, h_k, h_ax, h_axes, h_maxFeed, h_maxFast, h_maxSpindle, h_warehouse, h_exchangeTime, h_palletTime, h_measureTime, h_diameter2x, h_autoMeasure, h_palletCode, h_palletValue, h_measureCode, h_measureValue, h_cnc, h_motion, h_plane, h_units, h_programming, h_feedMode, h_direction, h_depth, h_ret, h_rotation, h_cancel0, h_cancel1, h_cancel2, h_cancel3, h_cancelRapid, h_operatorRotation, h_toolExchanges, h_autoRapid, h_zp, h_zeroX, h_zeroY, h_zeroZ⟩
    refine ⟨?_, ⟨te, (at_two _ _ _ _).mpr ⟨mpd, h_mpd, h_te⟩, (points_iff _ _).mp h_exchange⟩,
      ⟨mb, (at_two _ _ _ _).mpr ⟨mpd, h_mpd, h_mb⟩, (points_iff _ _).mp h_base⟩,
      ⟨ax, (at_two _ _ _ _).mpr ⟨k, h_k, h_ax⟩, (axes_iff _ _).mp h_axes⟩⟩
    unfold fields
    simp only [List.forall_mem_cons]
    exact ⟨(fld1 (fun x => EMachineTool_iff x _)).mp h_tool,
      (fld1 (fun x => EMachineToolType_iff x _)).mp h_ttype,
      (fld1 (fun x => EFanucParserType_iff x _)).mp h_driver,
      (fld2 (fun x => dblOf_iff x _) h_k).mp h_maxFeed,
      (fld2 (fun x => dblOf_iff x _) h_k).mp h_maxFast,
      (fld2 (fun x => intOf_iff x _) h_k).mp h_maxSpindle,
      (fld2 (fun x => intOf_iff x _) h_k).mp h_warehouse,
      (fld2 (fun x => intOf_iff x _) h_k).mp h_exchangeTime,
      (fld2 (fun x => intOf_iff x _) h_k).mp h_palletTime,
      (fld2 (fun x => intOf_iff x _) h_k).mp h_measureTime,
      (fld2 (fun x => boolOf_iff x _) h_k).mp h_diameter2x,
      (fld2 (fun x => boolOf_iff x _) h_k).mp h_autoMeasure,
      (fld2 (fun x => textOf_iff x _) h_k).mp h_palletCode,
      (fld2 (fun x => textOf_iff x _) h_k).mp h_palletValue,
      (fld2 (fun x => textOf_iff x _) h_k).mp h_measureCode,
      (fld2 (fun x => textOf_iff x _) h_k).mp h_measureValue,
      (fld2 (fun x => EMotion_iff x _) h_cnc).mp h_motion,
      (fld2 (fun x => EWorkPlane_iff x _) h_cnc).mp h_plane,
      (fld2 (fun x => EDriverUnits_iff x _) h_cnc).mp h_units,
      (fld2 (fun x => EProgrammingType_iff x _) h_cnc).mp h_programming,
      (fld2 (fun x => EFeedMode_iff x _) h_cnc).mp h_feedMode,
      (fld2 (fun x => ERotationDirection_iff x _) h_cnc).mp h_direction,
      (fld2 (fun x => EDepthProgrammingType_iff x _) h_cnc).mp h_depth,
      (fld2 (fun x => EDrillGreturnMode_iff x _) h_cnc).mp h_ret,
      (fld2 (fun x => intOf_iff x _) h_cnc).mp h_rotation,
      (fld2 (fun x => boolOf_iff x _) h_cnc).mp h_cancel0,
      (fld2 (fun x => boolOf_iff x _) h_cnc).mp h_cancel1,
      (fld2 (fun x => boolOf_iff x _) h_cnc).mp h_cancel2,
      (fld2 (fun x => boolOf_iff x _) h_cnc).mp h_cancel3,
      (fld2 (fun x => boolOf_iff x _) h_cnc).mp h_cancelRapid,
      (fld2 (fun x => boolOf_iff x _) h_cnc).mp h_operatorRotation,
      (fld2 (fun x => boolOf_iff x _) h_cnc).mp h_toolExchanges,
      (fld2 (fun x => boolOf_iff x _) h_cnc).mp h_autoRapid,
      (fld2 (fun x => dblOf_iff x _) h_zp).mp h_zeroX,
      (fld2 (fun x => dblOf_iff x _) h_zp).mp h_zeroY,
      (fld2 (fun x => dblOf_iff x _) h_zp).mp h_zeroZ,
      by simp⟩
  · rintro ⟨hs, ⟨te, h_ex, h_exchange⟩, ⟨mb, h_ba, h_base⟩, ⟨ax, h_axs, h_axes⟩⟩
    obtain ⟨mpd, h_mpd, h_te⟩ := (at_two _ _ _ _).mp h_ex
    obtain ⟨mpd', h_mpd', h_mb⟩ := (at_two _ _ _ _).mp h_ba
    rw [h_mpd] at h_mpd'
    injection h_mpd' with h'; subst h'
    obtain ⟨k, h_k, h_ax⟩ := (at_two _ _ _ _).mp h_axs
    replace h_exchange := (points_iff _ _).mpr h_exchange
    replace h_base := (points_iff _ _).mpr h_base
    replace h_axes := (axes_iff _ _).mpr h_axes
    unfold fields at hs
    simp only [List.forall_mem_cons] at hs
    obtain ⟨f_tool, f_ttype, f_driver, f_maxFeed, f_maxFast, f_maxSpindle, f_warehouse, f_exchangeTime, f_palletTime, f_measureTime, f_diameter2x, f_autoMeasure, f_palletCode, f_palletValue, f_measureCode, f_measureValue, f_motion, f_plane, f_units, f_programming, f_feedMode, f_direction, f_depth, f_ret, f_rotation, f_cancel0, f_cancel1, f_cancel2, f_cancel3, f_cancelRapid, f_operatorRotation, f_toolExchanges, f_autoRapid, f_zeroX, f_zeroY, f_zeroZ, -⟩ := hs
    have f_motion' := f_motion
    obtain ⟨_, hc, -⟩ := f_motion'
    obtain ⟨cnc, h_cnc, -⟩ := (at_two _ _ _ _).mp hc
    have f_zeroX' := f_zeroX
    obtain ⟨_, hz, -⟩ := f_zeroX'
    obtain ⟨zp, h_zp, -⟩ := (at_two _ _ _ _).mp hz
    exact ⟨mpd, te, mb, k, ax, cnc, zp, (fld1 (fun x => EMachineTool_iff x _)).mpr f_tool,
      (fld1 (fun x => EMachineToolType_iff x _)).mpr f_ttype,
      (fld1 (fun x => EFanucParserType_iff x _)).mpr f_driver,
      h_mpd,
      h_te,
      h_exchange,
      h_mb,
      h_base,
      h_k,
      h_ax,
      h_axes,
      (fld2 (fun x => dblOf_iff x _) h_k).mpr f_maxFeed,
      (fld2 (fun x => dblOf_iff x _) h_k).mpr f_maxFast,
      (fld2 (fun x => intOf_iff x _) h_k).mpr f_maxSpindle,
      (fld2 (fun x => intOf_iff x _) h_k).mpr f_warehouse,
      (fld2 (fun x => intOf_iff x _) h_k).mpr f_exchangeTime,
      (fld2 (fun x => intOf_iff x _) h_k).mpr f_palletTime,
      (fld2 (fun x => intOf_iff x _) h_k).mpr f_measureTime,
      (fld2 (fun x => boolOf_iff x _) h_k).mpr f_diameter2x,
      (fld2 (fun x => boolOf_iff x _) h_k).mpr f_autoMeasure,
      (fld2 (fun x => textOf_iff x _) h_k).mpr f_palletCode,
      (fld2 (fun x => textOf_iff x _) h_k).mpr f_palletValue,
      (fld2 (fun x => textOf_iff x _) h_k).mpr f_measureCode,
      (fld2 (fun x => textOf_iff x _) h_k).mpr f_measureValue,
      h_cnc,
      (fld2 (fun x => EMotion_iff x _) h_cnc).mpr f_motion,
      (fld2 (fun x => EWorkPlane_iff x _) h_cnc).mpr f_plane,
      (fld2 (fun x => EDriverUnits_iff x _) h_cnc).mpr f_units,
      (fld2 (fun x => EProgrammingType_iff x _) h_cnc).mpr f_programming,
      (fld2 (fun x => EFeedMode_iff x _) h_cnc).mpr f_feedMode,
      (fld2 (fun x => ERotationDirection_iff x _) h_cnc).mpr f_direction,
      (fld2 (fun x => EDepthProgrammingType_iff x _) h_cnc).mpr f_depth,
      (fld2 (fun x => EDrillGreturnMode_iff x _) h_cnc).mpr f_ret,
      (fld2 (fun x => intOf_iff x _) h_cnc).mpr f_rotation,
      (fld2 (fun x => boolOf_iff x _) h_cnc).mpr f_cancel0,
      (fld2 (fun x => boolOf_iff x _) h_cnc).mpr f_cancel1,
      (fld2 (fun x => boolOf_iff x _) h_cnc).mpr f_cancel2,
      (fld2 (fun x => boolOf_iff x _) h_cnc).mpr f_cancel3,
      (fld2 (fun x => boolOf_iff x _) h_cnc).mpr f_cancelRapid,
      (fld2 (fun x => boolOf_iff x _) h_cnc).mpr f_operatorRotation,
      (fld2 (fun x => boolOf_iff x _) h_cnc).mpr f_toolExchanges,
      (fld2 (fun x => boolOf_iff x _) h_cnc).mpr f_autoRapid,
      h_zp,
      (fld2 (fun x => dblOf_iff x _) h_zp).mpr f_zeroX,
      (fld2 (fun x => dblOf_iff x _) h_zp).mpr f_zeroY,
      (fld2 (fun x => dblOf_iff x _) h_zp).mpr f_zeroZ⟩

/-! ## The order of the members -/

theorem at_cons (t : PTree) (k : Str) (p : List Str) (n : PTree) : At t (k :: p) n ↔ ∃ m, t.child k = some m ∧ At m p n := by
  constructor
  · intro h
    cases h with
    | there d pre _ m post _ _ hpre hr => exact ⟨m, (child_iff _ _ _).mpr (.there d pre k m post [] m hpre (.here _)), hr⟩
  · rintro ⟨m, h1, h2⟩
    have h1 := (child_iff _ _ _).mp h1
    cases h1 with
    | there d pre _ m' post _ _ hpre hr => cases hr; exact .there d pre k _ post p n hpre h2

/-- Trees that cannot be told apart by looking up members. -/
structure AlikeFile (R : PTree → PTree → Prop) : Prop where
  data : ∀ a b, R a b → a.data = b.data
  fwd : ∀ a b, R a b → ∀ k c, a.child k = some c → ∃ c', b.child k = some c' ∧ R c c'
  back : ∀ a b, R a b → ∀ k c', b.child k = some c' → ∃ c, a.child k = some c ∧ R c c'
  kids : ∀ a b, R a b → ∀ e ∈ b.kids, ∃ e' ∈ a.kids, R e'.2 e.2
  kids' : ∀ a b, R a b → ∀ e ∈ a.kids, ∃ e' ∈ b.kids, R e.2 e'.2

theorem AlikeFile.flip {R : PTree → PTree → Prop} (h : AlikeFile R) : AlikeFile (fun a b => R b a) :=
  ⟨fun a b r => (h.data b a r).symm, fun a b r => h.back b a r, fun a b r => h.fwd b a r, fun a b r => h.kids' b a r,
    fun a b r => h.kids b a r⟩

theorem AlikeFile.at {R : PTree → PTree → Prop} (h : AlikeFile R) : ∀ (p : List Str) (a b n : PTree), R a b → At a p n → ∃ n', At b p n' ∧ R n n' := by
  intro p
  induction p with
  | nil => intro a b n r hn; cases hn; exact ⟨b, .here _, r⟩
  | cons k p ih =>
    intro a b n r hn
    obtain ⟨m, h1, h2⟩ := (at_cons _ _ _ _).mp hn
    obtain ⟨m', h3, h4⟩ := h.fwd a b r k m h1
    obtain ⟨n', h5, h6⟩ := ih m m' n h4 h2
    exact ⟨n', (at_cons _ _ _ _).mpr ⟨m', h3, h5⟩, h6⟩

theorem AlikeFile.listed {R : PTree → PTree → Prop} (h : AlikeFile R) {V : Type} {Val : PTree → V → Prop}
    (hv : ∀ a b v, R a b → Val a v → Val b v) (hv' : ∀ a b v, R a b → Val b v → Val a v) {a b : PTree} (r : R a b) {m : VMap V} :
    Listed Val a m → Listed Val b m := by
  rintro ⟨h1, h2, h3⟩
  refine ⟨h1, ?_, ?_⟩
  · intro e he
    obtain ⟨e', he', r'⟩ := h.kids a b r e he
    obtain ⟨v, hx⟩ := h2 e' he'
    exact ⟨v, hv _ _ _ r' hx⟩
  · intro x v
    rw [h3]
    constructor
    · rintro ⟨c, hc, hx⟩
      obtain ⟨c', hc', r'⟩ := h.at _ _ _ _ r hc
      exact ⟨c', hc', hv _ _ _ r' hx⟩
    · rintro ⟨c, hc, hx⟩
      obtain ⟨c', hc', r'⟩ := h.flip.at _ _ _ _ r hc
      exact ⟨c', hc', hv' _ _ _ r' hx⟩

theorem AlikeFile.written {R : PTree → PTree → Prop} (h : AlikeFile R) {a b : PTree} (r : R a b) {s : Settings} :
    Written a s → Written b s := by
  have hn : ∀ (R : PTree → PTree → Prop), AlikeFile R → ∀ a b (v : ℚ), R a b → Number a.data v → Number b.data v := by
    intro R h a b v r hx; rw [← h.data a b r]; exact hx
  have he : ∀ (R : PTree → PTree → Prop), AlikeFile R → ∀ a b v, R a b → Ends a v → Ends b v := by
    rintro R h a b v r ⟨⟨n, h1, h2⟩, m, h3, h4⟩
    obtain ⟨n', g1, r1⟩ := h.at _ _ _ _ r h1
    obtain ⟨m', g2, r2⟩ := h.at _ _ _ _ r h3
    exact ⟨⟨n', g1, hn R h _ _ _ r1 h2⟩, m', g2, hn R h _ _ _ r2 h4⟩
  rintro ⟨h1, ⟨n, h2, h3⟩, ⟨o, h4, h5⟩, ⟨p, h6, h7⟩⟩
  refine ⟨?_, ?_, ?_, ?_⟩
  · intro f hf
    obtain ⟨m, hm, hp⟩ := h1 f hf
    obtain ⟨m', hm', r'⟩ := h.at _ _ _ _ r hm
    exact ⟨m', hm', by rw [← h.data _ _ r']; exact hp⟩
  · obtain ⟨n', hn', r'⟩ := h.at _ _ _ _ r h2
    exact ⟨n', hn', h.listed (hn R h) (fun a b v r => hn _ h.flip b a v r) r' h3⟩
  · obtain ⟨n', hn', r'⟩ := h.at _ _ _ _ r h4
    exact ⟨n', hn', h.listed (hn R h) (fun a b v r => hn _ h.flip b a v r) r' h5⟩
  · obtain ⟨n', hn', r'⟩ := h.at _ _ _ _ r h6
    exact ⟨n', hn', h.listed (he R h) (fun a b v r => he _ h.flip b a v r) r' h7⟩

theorem sameList_to : ∀ {l m : List (Str × PTree)}, SameList l m → ∀ k a, (k, a) ∈ l → ∃ b, (k, b) ∈ m ∧ Same a b := by
  intro l
  induction l with
  | nil => intro m _ k a h; simp at h
  | cons e l ih =>
    intro m hs k a h
    cases hs with
    | cons k' a' b' _ m' hab hlm =>
      rcases List.mem_cons.mp h with h | h
      · injection h with h1 h2; subst h1 h2; exact ⟨b', by simp, hab⟩
      · obtain ⟨b, hb, r⟩ := ih hlm k a h
        exact ⟨b, by simp [hb], r⟩

theorem sameList_back : ∀ {l m : List (Str × PTree)}, SameList l m → ∀ k b, (k, b) ∈ m → ∃ a, (k, a) ∈ l ∧ Same a b := by
  intro l
  induction l with
  | nil => intro m hs k b h; cases hs; simp at h
  | cons e l ih =>
    intro m hs k b h
    cases hs with
    | cons k' a' b' _ m' hab hlm =>
      rcases List.mem_cons.mp h with h | h
      · injection h with h1 h2; subst h1 h2; exact ⟨a', by simp, hab⟩
      · obtain ⟨a, ha, r⟩ := ih hlm k b h
        exact ⟨a, by simp [ha], r⟩

theorem sameList_keys : ∀ {l m : List (Str × PTree)}, SameList l m → l.map (·.1) = m.map (·.1) := by
  intro l
  induction l with
  | nil => intro m h; cases h; rfl
  | cons e l ih =>
    intro m h
    cases h with
    | cons k' a' b' _ m' hab hlm => rw [List.map_cons, List.map_cons, ih hlm]

theorem child_mem {d : Str} {l : List (Str × PTree)} (hn : (l.map (·.1)).Nodup) (k : Str) (c : PTree) :
    (PTree.node d l).child k = some c ↔ (k, c) ∈ l := by
  show (l.find? (fun e => e.1 == k)).map (·.2) = some c ↔ _
  induction l with
  | nil => simp
  | cons e l ih =>
    rw [List.map_cons, List.nodup_cons] at hn
    by_cases hk : e.1 = k
    · rw [List.find?_cons_of_pos (by simp [hk])]
      constructor
      · intro h
        have h : e.2 = c := by simpa using h
        rw [← hk, ← h]; simp
      · intro h
        rcases List.mem_cons.mp h with h | h
        · rw [← h]; rfl
        · exact absurd (List.mem_map.mpr ⟨_, h, hk.symm⟩) hn.1
    · rw [List.find?_cons_of_neg (by simp [hk]), ih hn.2, List.mem_cons]
      constructor
      · exact .inr
      · rintro (h | h)
        · exact absurd (congrArg Prod.fst h).symm hk
        · exact h

theorem alike_same : AlikeFile Same := by
  have key : ∀ a b, Same a b → ∃ d k l m, a = .node d k ∧ b = .node d m ∧ (k.map (·.1)).Nodup ∧ (m.map (·.1)).Nodup ∧ k.Perm l ∧ SameList l m := by
    intro a b h
    cases h with
    | mk d k l m hn hp hs =>
      refine ⟨d, k, l, m, rfl, rfl, hn, ?_, hp, hs⟩
      rw [← sameList_keys hs]
      exact (hp.map _).nodup_iff.mp hn
  refine ⟨?_, ?_, ?_, ?_, ?_⟩
  · intro a b h
    obtain ⟨d, k, l, m, rfl, rfl, -⟩ := key a b h
    rfl
  · intro a b h x c hc
    obtain ⟨d, k, l, m, rfl, rfl, hn, hn', hp, hs⟩ := key a b h
    obtain ⟨c', h1, h2⟩ := sameList_to hs x c (hp.mem_iff.mp ((child_mem hn _ _).mp hc))
    exact ⟨c', (child_mem hn' _ _).mpr h1, h2⟩
  · intro a b h x c hc
    obtain ⟨d, k, l, m, rfl, rfl, hn, hn', hp, hs⟩ := key a b h
    obtain ⟨c', h1, h2⟩ := sameList_back hs x c ((child_mem hn' _ _).mp hc)
    exact ⟨c', (child_mem hn _ _).mpr (hp.mem_iff.mpr h1), h2⟩
  · intro a b h e he
    obtain ⟨d, k, l, m, rfl, rfl, hn, hn', hp, hs⟩ := key a b h
    obtain ⟨c', h1, h2⟩ := sameList_back hs e.1 e.2 he
    exact ⟨_, hp.mem_iff.mpr h1, h2⟩
  · intro a b h e he
    obtain ⟨d, k, l, m, rfl, rfl, hn, hn', hp, hs⟩ := key a b h
    obtain ⟨c', h1, h2⟩ := sameList_to hs e.1 e.2 (hp.mem_iff.mp he)
    exact ⟨_, h1, h2⟩

/-- C81: the order of the members, at every level, does not matter. -/
theorem C81_order {a b : PTree} (h : Same a b) : readSettings a = readSettings b := by
  refine Option.ext (fun s => ?_)
  rw [C81_exact_partial, C81_exact_partial]
  exact ⟨alike_same.written h, alike_same.flip.written h⟩

/-- C81: a file without one of the settings is refused. -/
theorem C81_missing (t : PTree) (d : Settings) (f : List Str × (Str → Prop)) (hf : f ∈ fields d) (h : ∀ n, ¬ At t f.1 n) :
    readSettings t = none := by
  cases hr : readSettings t with
  | none => rfl
  | some s =>
    exfalso
    have hw := (C81_exact_partial t s).mp hr
    have hp : ∀ s s' : Settings, (fields s).map (·.1) = (fields s').map (·.1) := fun _ _ => rfl
    have hm : f.1 ∈ (fields s).map (·.1) := by rw [hp s d]; exact List.mem_map.mpr ⟨f, hf, rfl⟩
    obtain ⟨g, hg, he⟩ := List.mem_map.mp hm
    obtain ⟨n, hn, -⟩ := hw.single g hg
    exact h n (he ▸ hn)

/-- C81: what the path calculation is given is well formed. -/
theorem C81_usable {t : PTree} {s : Settings} (h : readSettings t = some s) : WF (cfgOf s) := by
  obtain ⟨-, ⟨n, -, hx⟩, ⟨m, -, hb⟩, -⟩ := (C81_exact_partial t s).mp h
  refine ⟨hb.1, hx.1, ?_⟩
  have : motionOf s.motion = 0 ∨ motionOf s.motion = 1 := by cases s.motion <;> simp [motionOf]
  rcases this with h | h
  · exact .inr (.inl h)
  · exact .inr (.inr (.inl h))

theorem word_unique {x w w' : Str} (h : Word x w) (h' : Word x w') : w = w' := by
  obtain ⟨a, b, rfl, ha, hb, hw, hs⟩ := h
  obtain ⟨a', b', he, ha', hb', hw', hs'⟩ := h'
  have h1 := readWord_split ha hb hw hs
  rw [he, readWord_split ha' hb' hw' hs'] at h1
  exact (congrArg Prod.fst h1).symm

/-- C81: `heidenhain`, which the list of drivers offers (conf/nc_settings.json:13), makes a file unreadable. -/
theorem C81_violated_heidenhain {t n : PTree} (h : At t [c!"driver"] n) (hd : n.data = c!"heidenhain") : readSettings t = none := by
  cases hr : readSettings t with
  | none => rfl
  | some s =>
    exfalso
    obtain ⟨mpd, te, mb, k, ax, cnc, zp, -, -, hdr, -⟩ := (readSettings_iff t s).mp hr
    unfold PTree.get at hdr
    rw [(child_iff _ _ _).mpr h] at hdr
    have hdr : enumOf EFanucParserType.ofStr n.data = some s.driver := hdr
    rw [hd] at hdr
    have : enumOf EFanucParserType.ofStr c!"heidenhain" = none := by decide
    rw [this] at hdr
    cases hdr

/-- C81: a number in front of a truth value is overlooked. -/
theorem C81_violated_truth : Truth c!"7 true" true ∧ boolOf c!"7 true" = some true :=
  ⟨(boolOf_iff _ _).mp (by decide), by decide⟩

/-! ## A case -/

/-- A member without members. -/
def leaf (k v : Str) : Str × PTree := (k, .node v [])

/-- A settings file. -/
def sampleFile : PTree := .node [] [
  leaf c!"version" c!"1.0",
  leaf c!"machine_tool" c!"lathe_zxc", leaf c!"machine_tool_type" c!"lathe", leaf c!"driver" c!"haas_lathe",
  (c!"machine_points_data", .node [] [
    (c!"tool_exchange_point", .node [] [leaf c!"Z" c!"500.5", leaf c!"X" c!"0.0"]),
    (c!"machine_base_point", .node [] [leaf c!"X" c!"-1e2", leaf c!"Z" c!"300", leaf c!"X" c!"7"])]),
  (c!"kinematics", .node [] [
    (c!"cartesian_system_axis", .node [] [(c!"X", .node [] [leaf c!"range_max" c!"250.0", leaf c!"range_min" c!"-250.0"])]),
    leaf c!"max_working_feed" c!"20000", leaf c!"max_fast_feed" c!"30000", leaf c!"maximum_spindle_speed" c!"4000",
    leaf c!"numer_of_items_in_the_warehouse" c!"12", leaf c!"tool_exchange_time" c!"6", leaf c!"pallet_exchange_time" c!"1",
    leaf c!"tool_measurement_time" c!"3", leaf c!"diameter_programming_2x" c!"true",
    leaf c!"auto_measure_after_tool_selection" c!"false", leaf c!"pallet_exchange_code" c!"M",
    leaf c!"pallet_exchange_code_value" c!"60", leaf c!"tool_measurement_code" c!"O", leaf c!"tool_measurement_code_value" c!"9"]),
  (c!"cnc_default_values", .node [] [
    leaf c!"default_motion" c!"linear_interpolation", leaf c!"default_work_plane" c!"XZ", leaf c!"default_driver_units" c!"inch",
    leaf c!"default_programming" c!"incremental", leaf c!"default_feed_mode" c!"feed_per_revolution",
    leaf c!"default_rotation_direction" c!"CCLW", leaf c!"drill_cycle_z_value" c!"incremental",
    leaf c!"drill_cycle_return_value" c!"point_r", leaf c!"default_rotation" c!"1000",
    leaf c!"rapid_traverse_cancel_cycle" c!"true", leaf c!"linear_interpolation_cancel_cycle" c!"false",
    leaf c!"circular_interpolation_cw_cancel_cycle" c!"1", leaf c!"circular_interpolation_ccw_cancel_cycle" c!"0",
    leaf c!"cycle_cancel_starts_rapid_traverse" c!"true", leaf c!"operator_turns_on_rotation" c!"false",
    leaf c!"tool_number_executes_exchange" c!"true", leaf c!"auto_rapid_traverse_after_tool_exchange" c!"false"]),
  (c!"zero_point", .node [] [leaf c!"X" c!"1.5", leaf c!"Y" c!"0", leaf c!"Z" c!"-2"])]

/-- Its settings. -/
def sampleSettings : Settings :=
  { tool := .lathe_zxc, ttype := .Lathe, driver := .HaasLathe, exchange := [(c!"X", 0), (c!"Z", 1001 / 2)],
    base := [(c!"X", -100), (c!"Z", 300)], axes := [(c!"X", (-250, 250))], maxFeed := 20000, maxFast := 30000, maxSpindle := 4000,
    warehouse := 12, exchangeTime := 6, palletTime := 1, measureTime := 3, diameter2x := true, autoMeasure := false,
    palletCode := c!"M", palletValue := c!"60", measureCode := c!"O", measureValue := c!"9", motion := .LinearInterpolation,
    plane := .XZ, units := .Inch, programming := .Incremental, feedMode := .PerRevolution, direction := .Left,
    depth := .Incremental, ret := .G99, rotation := 1000, cancel0 := true, cancel1 := false, cancel2 := true, cancel3 := false,
    cancelRapid := true, operatorRotation := false, toolExchanges := true, autoRapid := false, zeroX := 3 / 2, zeroY := 0,
    zeroZ := -2 }

theorem sample_read : readSettings sampleFile = some sampleSettings := by decide +kernel

/-- The hypotheses can be met: the file says what is read. -/
example : Written sampleFile sampleSettings := (C81_exact_partial _ _).mp sample_read

/-- A fraction of a second is not accepted. -/
example : intOf c!"6.5" = none := by decide

/-- Two orders of the same members. -/
example : Same (.node [] [leaf c!"X" c!"1", leaf c!"Y" c!"2"]) (.node [] [leaf c!"Y" c!"2", leaf c!"X" c!"1"]) :=
  .mk [] _ [leaf c!"Y" c!"2", leaf c!"X" c!"1"] _ (by decide) (List.Perm.swap _ _ _)
    (.cons _ _ _ _ _ (.mk _ [] [] [] List.nodup_nil (List.Perm.refl _) .nil)
      (.cons _ _ _ _ _ (.mk _ [] [] [] List.nodup_nil (List.Perm.refl _) .nil) .nil))

/-- A file without a driver. -/
example : ∀ n, ¬ At (.node [] [leaf c!"machine_tool" c!"mill_3axis"]) [c!"driver"] n := by
  intro n h
  have := (child_iff _ _ _).mpr h
  have h0 : (PTree.node [] [leaf c!"machine_tool" c!"mill_3axis"]).child c!"driver" = none := by
    unfold PTree.child PTree.kids leaf; rfl
  rw [h0] at this
  cases this

end NC.Props
