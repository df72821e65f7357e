import Verif.Props.Form
import Mathlib.Data.Nat.Prime.Int
import Mathlib.Tactic.NormNum.Prime

/-! # Files that meet the hypotheses of C107 and C108 -/

namespace NC.Props
open NC NC.Enums NC.AttrPath NC.Conf NC.Form NC.Spec.Form

/-- The check of `Offered`. -/
def offeredB (d : Defs) (list value : Str) : Bool :=
  match look d.cncLists list, look d.cncNames list with
  | some l, some ns =>
    l.contains value && l.all (fun i => (look ns i).isSome) &&
      l.all (fun i => i == value || (match look ns i, look ns value with
        | some n, some m => n.map Char.toLower != m.map Char.toLower
        | _, _ => false))
  | _, _ => false

theorem offered_of {d : Defs} {list value : Str} (h : offeredB d list value = true) : Offered d list value := by
  unfold offeredB at h
  split at h
  · rename_i l ns h1 h2
    simp only [Bool.and_eq_true, List.all_eq_true, Bool.or_eq_true, beq_iff_eq] at h
    obtain ⟨⟨h3, h4⟩, h5⟩ := h
    refine ⟨l, ns, (look_iff _ _ _).mp h1, (look_iff _ _ _).mp h2, by simpa using h3, ?_, ?_⟩
    · intro i hi
      obtain ⟨n, hn⟩ := Option.isSome_iff_exists.mp (h4 i hi)
      exact ⟨n, (look_iff _ _ _).mp hn⟩
    · intro i hi n m hne hn hm
      rcases h5 i hi with h6 | h6
      · exact absurd h6 hne
      · rw [(look_iff _ _ _).mpr hn, (look_iff _ _ _).mpr hm] at h6
        simpa [Apart] using h6
  · cases h

/-- The 3-axis mill of the definitions (conf/nc_settings.json). -/
def formKin : Kin :=
  ⟨[(c!"X", (-500, 500)), (c!"Y", (-500, 500)), (c!"Z", (0, 1000))], 20000, 20000, 10000, 30, 6, 0, 0, false, false, [], [], [], []⟩

/-- Its default values. -/
def formCnc : Cnc :=
  ⟨.RapidTraverse, .XY, .Millimeter, .Absolute, .PerMinute, .Right, .Absolute, .G98, 1000, false, false, false, false, false, false, false, false⟩

/-- Its points. -/
def formExchange : Dict ℚ := [(c!"X", 0), (c!"Y", 0), (c!"Z", 500)]

/-- Its points. -/
def formBase : Dict ℚ := [(c!"X", 0), (c!"Y", 0), (c!"Z", 500), (c!"I", 0), (c!"J", 0), (c!"K", 0)]

/-- Its extras. -/
def formExtras : Dict Bool := [(c!"cnc_probe", false), (c!"pallet_changer", false)]

/-- The machine. -/
def formMachine : Machine := ⟨.Mill, formExtras, formKin, formCnc, formExchange, formBase⟩

/-- Some of the definitions (conf/nc_settings.json, conf/nc_settings_name_en.json). -/
def formDefs : Defs where
  drivers := [.of .FanucMill, .of .FanucLatheSystemA, .of .HaasMill, .heidenhain]
  driverName
    | .of .FanucMill => some c!"Fanuc Mill"
    | .of .FanucLatheSystemA => some c!"Fanuc Lathe System A"
    | .of .HaasMill => some c!"Haas Mill"
    | .heidenhain => some c!"Heidenhain"
    | _ => none
  machines := [(c!"mill_3axis", formMachine), (c!"mill_4axis", formMachine)]
  machineName := [(c!"mill_3axis", c!"3-Axis Mill"), (c!"mill_4axis", c!"4-Axis Mill")]
  extrasName := [(c!"pallet_changer", c!"Pallet Changer"), (c!"turning_option", c!"Turning option"), (c!"cnc_probe", c!"Probe")]
  kinLists := [(c!"pallet_exchange_code", [[], c!"M", c!"O"]), (c!"tool_measurement_code", [[], c!"M", c!"O"])]
  cncLists := [(c!"default_motion", [c!"rapid_traverse", c!"linear_interpolation"]), (c!"default_work_plane", [c!"XY", c!"XZ", c!"YZ"]),
    (c!"default_driver_units", [c!"millimeter", c!"inch"]), (c!"default_programming", [c!"absolute", c!"incremental"]),
    (c!"default_feed_mode", [c!"feed_per_minute", c!"feed_per_revolution"]), (c!"default_rotation_direction", [c!"right", c!"left"]),
    (c!"drill_cycle_z_value", [c!"absolute", c!"incremental"]), (c!"drill_cycle_return_value", [c!"beginning", c!"point_r"])]
  cncNames := [(c!"default_motion", [(c!"rapid_traverse", c!"Rapid Positioning"), (c!"linear_interpolation", c!"Linear Interpolation")]),
    (c!"default_work_plane", [(c!"XY", c!"XY"), (c!"XZ", c!"XZ"), (c!"YZ", c!"YZ")]),
    (c!"default_driver_units", [(c!"millimeter", c!"Millimeter"), (c!"inch", c!"Inch")]),
    (c!"default_programming", [(c!"absolute", c!"Absolute"), (c!"incremental", c!"Incremental")]),
    (c!"default_feed_mode", [(c!"feed_per_minute", c!"Feed per Minute"), (c!"feed_per_revolution", c!"Feed per Revolution")]),
    (c!"default_rotation_direction", [(c!"right", c!"Right"), (c!"left", c!"Left")]),
    (c!"drill_cycle_z_value", [(c!"absolute", c!"Absolute"), (c!"incremental", c!"Incremental")]),
    (c!"drill_cycle_return_value", [(c!"beginning", c!"Beginning"), (c!"point_r", c!"Point R")])]

/-- A file with a fractional exchange point. -/
def formFile : File :=
  ⟨.of .HaasMill, c!"mill_4axis", c!"M1", .Mill, formExtras, formKin, formCnc, [(c!"X", 1 / 4), (c!"Y", 0), (c!"Z", 500)], formBase,
    [(c!"X", 5 / 2), (c!"Y", -7), (c!"Z", 0)]⟩

theorem finite_of (q : ℚ) (k : Nat) (h : q.den ∣ 10 ^ k) : Spec.Form.Finite q := by
  obtain ⟨z, hz⟩ := (whole_iff_den q k).mpr h
  exact ⟨z, k, by rw [eq_div_iff (by positivity), hz]⟩

theorem formFile_axes : ∀ e ∈ formKin.axes, (∃ a : Int, e.2.1 = a ∧ |a| < 2 ^ 24) ∧ ∃ b : Int, e.2.2 = b ∧ |b| < 2 ^ 24 := by
  intro e he
  simp only [formKin, List.mem_cons, List.not_mem_nil, or_false] at he
  rcases he with rfl | rfl | rfl
  · exact ⟨⟨-500, by norm_num, by norm_num⟩, ⟨500, by norm_num, by norm_num⟩⟩
  · exact ⟨⟨-500, by norm_num, by norm_num⟩, ⟨500, by norm_num, by norm_num⟩⟩
  · exact ⟨⟨0, by norm_num, by norm_num⟩, ⟨1000, by norm_num, by norm_num⟩⟩

theorem formFile_importable : Importable formDefs formFile formMachine where
  driver := by decide +kernel
  driverNames := by
    intro v hv hn
    simp only [formDefs, List.mem_cons, List.not_mem_nil, or_false] at hv
    rcases hv with rfl | rfl | rfl | rfl <;> exact ⟨_, rfl⟩
  driversApart := by
    intro v hv n k hne h1 h2
    simp only [formDefs, List.mem_cons, List.not_mem_nil, or_false] at hv
    have h2 : k = c!"Haas Mill" := by injection h2 with h2; exact h2.symm
    subst h2
    rcases hv with rfl | rfl | rfl | rfl
    · injection h1 with h1; subst h1; unfold Apart; decide
    · injection h1 with h1; subst h1; unfold Apart; decide
    · exact absurd rfl hne
    · injection h1 with h1; subst h1; unfold Apart; decide
  machine := .there _ _ _ _ (by decide) (.here _ _ _)
  suits := by decide
  machineNames := by
    intro e he
    simp only [formDefs, List.mem_cons, List.not_mem_nil, or_false] at he
    rcases he with rfl | rfl
    · exact ⟨_, (look_iff _ _ _).mp rfl⟩
    · exact ⟨_, (look_iff _ _ _).mp rfl⟩
  machinesApart := by
    intro e he n k hne h1 h2
    simp only [formDefs, List.mem_cons, List.not_mem_nil, or_false] at he
    rcases he with rfl | rfl
    · rw [← look_iff] at h1 h2
      injection h1 with h1; injection h2 with h2
      subst h1; subst h2; unfold Apart; decide
    · exact absurd rfl hne
  ttype := rfl
  extras := by
    refine ⟨by simp [formFile, formExtras], fun e he => ?_⟩
    simp only [formFile, formExtras, List.mem_cons, List.not_mem_nil, or_false] at he
    rcases he with rfl | rfl
    · exact ⟨_, (look_iff _ _ _).mp rfl⟩
    · exact ⟨_, (look_iff _ _ _).mp rfl⟩
  pallet := ⟨[[], c!"M", c!"O"], (look_iff _ _ _).mp rfl, by decide, by unfold Apart; decide⟩
  measure := ⟨[[], c!"M", c!"O"], (look_iff _ _ _).mp rfl, by decide, by unfold Apart; decide⟩
  motion := offered_of (by decide +kernel)
  plane := offered_of (by decide +kernel)
  units := offered_of (by decide +kernel)
  programming := offered_of (by decide +kernel)
  feedMode := offered_of (by decide +kernel)
  direction := offered_of (by decide +kernel)
  depth := offered_of (by decide +kernel)
  ret := offered_of (by decide +kernel)
  axes := by
    refine ⟨by decide, fun e he => ?_, ?_⟩
    · obtain ⟨⟨a, ha, ha'⟩, b, hb, hb'⟩ := formFile_axes e he
      rw [ha, hb]
      have h1 : (2 : ℚ) ^ ((24 : Nat) : Int) ≤ 2 ^ 127 := by norm_num
      exact ⟨int_finite a, (abs_cast_lt ha').le.trans h1, int_finite b, (abs_cast_lt hb').le.trans h1⟩
    · intro a ha _
      simp only [List.mem_cons, List.not_mem_nil, or_false] at ha
      rcases ha with rfl | rfl | rfl
      · exact ⟨_, (look_iff _ _ _).mp rfl⟩
      · exact ⟨_, (look_iff _ _ _).mp rfl⟩
      · exact ⟨_, (look_iff _ _ _).mp rfl⟩
  feeds := ⟨int_finite 20000, int_finite 20000⟩
  numbers := by unfold Small; decide
  exchange := by
    intro a ha
    simp only [List.mem_cons, List.not_mem_nil, or_false] at ha
    rcases ha with rfl | rfl | rfl
    · exact ⟨_, (look_iff _ _ _).mp rfl, finite_of _ 2 (by decide +kernel)⟩
    · exact ⟨_, (look_iff _ _ _).mp rfl, finite_of _ 2 (by decide +kernel)⟩
    · exact ⟨_, (look_iff _ _ _).mp rfl, finite_of _ 2 (by decide +kernel)⟩
  base := by
    intro a ha
    simp only [List.mem_cons, List.not_mem_nil, or_false] at ha
    rcases ha with rfl | rfl | rfl
    · exact ⟨_, (look_iff _ _ _).mp rfl, finite_of _ 2 (by decide +kernel)⟩
    · exact ⟨_, (look_iff _ _ _).mp rfl, finite_of _ 2 (by decide +kernel)⟩
    · exact ⟨_, (look_iff _ _ _).mp rfl, finite_of _ 2 (by decide +kernel)⟩
  zero := by
    intro a ha
    simp only [List.mem_cons, List.not_mem_nil, or_false] at ha
    rcases ha with rfl | rfl | rfl
    · exact ⟨_, (look_iff _ _ _).mp rfl, finite_of _ 2 (by decide +kernel)⟩
    · exact ⟨_, (look_iff _ _ _).mp rfl, finite_of _ 2 (by decide +kernel)⟩
    · exact ⟨_, (look_iff _ _ _).mp rfl, finite_of _ 2 (by decide +kernel)⟩

theorem formFile_feeds : WholeSmall formFile.kin.maxFeed ∧ WholeSmall formFile.kin.maxFast :=
  ⟨⟨20000, by norm_num [formFile, formKin], by norm_num, by norm_num⟩, ⟨20000, by norm_num [formFile, formKin], by norm_num, by norm_num⟩⟩

/-- C108: the file comes back in English. -/
example (p : Panels) : ∃ q r, importFile formDefs .english formFile p = some q ∧ exportFile formDefs .english formFile q = some r ∧
    SameFile r formFile := by
  refine C108_same_partial formDefs formFile formMachine formFile_importable formFile_feeds .english formFile p ?_ (.inl rfl) ?_ ?_ ?_ ?_
  · intro e he
    obtain ⟨⟨a, ha, ha'⟩, b, hb, hb'⟩ := formFile_axes e he
    exact ⟨⟨a, 0, by rw [ha]; simp, ha', by norm_num, by norm_num⟩, ⟨b, 0, by rw [hb]; simp, hb', by norm_num, by norm_num⟩⟩
  · exact fun _ => ⟨rfl, rfl, rfl⟩
  · exact fun _ => ⟨rfl, rfl, rfl, rfl⟩
  · intro h; rcases h with h | h <;> cases h
  · exact fun _ _ _ => ⟨Iff.rfl, Iff.rfl, Iff.rfl⟩

/-- C108: in Polish its exchange point is at X25 afterwards instead of X0.25. -/
example (p : Panels) : ∃ q r k, importFile formDefs .polish formFile p = some q ∧ exportFile formDefs .polish formFile q = some r ∧ 0 < k ∧
    First r.exchange c!"X" (1 / 4 * 10 ^ k) ∧ ¬ First r.exchange c!"X" (1 / 4) := by
  refine C108_violated_point formDefs formFile formMachine formFile_importable formFile_feeds formFile p c!"X" (by simp) (1 / 4)
    ((look_iff _ _ _).mp rfl) ?_
  rintro ⟨z, hz⟩
  have h1 : ((1 / 4 : ℚ)).den = ((z : ℚ)).den := by rw [hz]
  rw [Rat.den_intCast] at h1
  exact absurd h1 (by decide +kernel)

/-- The file with other kinematics. -/
def formWith (k : Kin) : File := ⟨.of .HaasMill, c!"mill_4axis", c!"M1", .Mill, formExtras, k, formCnc, formFile.exchange, formBase, formFile.zero⟩

theorem formWith_importable (k : Kin) (h1 : Choice formDefs c!"pallet_exchange_code" k.palletCode) (h2 : k.measureCode = [])
    (h3 : (k.axes.map (·.1)).Nodup ∧ (∀ e ∈ k.axes, Spec.Form.Finite e.2.1 ∧ |e.2.1| ≤ 2 ^ 127 ∧ Spec.Form.Finite e.2.2 ∧ |e.2.2| ≤ 2 ^ 127) ∧
      ∀ a ∈ [c!"X", c!"Y", c!"Z"], ∃ r, First k.axes a r)
    (h4 : Spec.Form.Finite k.maxFeed ∧ Spec.Form.Finite k.maxFast)
    (h5 : Small k.spindle ∧ Small k.warehouse ∧ Small k.exchangeTime ∧ Small k.palletTime ∧ Small k.measureTime) :
    Importable formDefs (formWith k) formMachine := by
  have h := formFile_importable
  refine ⟨h.driver, h.driverNames, h.driversApart, h.machine, h.suits, h.machineNames, h.machinesApart, rfl, h.extras, h1, ?_, h.motion,
    h.plane, h.units, h.programming, h.feedMode, h.direction, h.depth, h.ret, ⟨h3.1, h3.2.1, fun a ha _ => h3.2.2 a ha⟩, h4,
    ⟨h5.1, h5.2.1, h5.2.2.1, h5.2.2.2.1, h5.2.2.2.2, h.numbers.2.2.2.2.2⟩, h.exchange, h.base, h.zero⟩
  show Choice formDefs c!"tool_measurement_code" k.measureCode
  rw [h2]
  exact formFile_importable.measure

theorem formKin_axes : (formKin.axes.map (·.1)).Nodup ∧
    (∀ e ∈ formKin.axes, Spec.Form.Finite e.2.1 ∧ |e.2.1| ≤ 2 ^ 127 ∧ Spec.Form.Finite e.2.2 ∧ |e.2.2| ≤ 2 ^ 127) ∧
    ∀ a ∈ [c!"X", c!"Y", c!"Z"], ∃ r, First formKin.axes a r :=
  ⟨formFile_importable.axes.1, formFile_importable.axes.2.1, fun a ha => formFile_importable.axes.2.2 a ha (by
    intro h; rcases h with h | h <;> cases h)⟩

theorem not_whole {q : ℚ} (h : q.den ≠ 1) : ¬ ∃ z : Int, q = z := by
  rintro ⟨z, rfl⟩
  exact h (Rat.den_intCast z)

/-- C108: a feed of 7500.5 cannot be exported. -/
example (c : Culture) (p : Panels) : ∃ q, importFile formDefs c (formWith { formKin with maxFeed := 15001 / 2 }) p = some q ∧
    exportFile formDefs c formFile q = none :=
  C108_violated_feed formDefs _ formMachine
    (formWith_importable { formKin with maxFeed := 15001 / 2 } formFile_importable.pallet rfl formKin_axes ⟨finite_of _ 1 (by decide +kernel), int_finite 20000⟩ (by unfold Small; decide))
    (not_whole (by decide +kernel)) c formFile p

theorem tenth_not_single : ¬ Single (1 / 10) := by
  rintro ⟨m, e, h, -, -, -⟩
  rcases le_or_gt 0 e with he | he
  · obtain ⟨k, hk, -⟩ := pow_int he
    exact not_whole (q := 1 / 10) (by decide +kernel) ⟨m * k, by rw [h, ← hk]; push_cast; rfl⟩
  · obtain ⟨n, hn⟩ := Int.eq_ofNat_of_zero_le (show 0 ≤ -e by omega)
    have : e = -(n : Int) := by omega
    subst this
    rw [zpow_neg, zpow_natCast] at h
    have h2 : (2 : ℚ) ^ n = 10 * m := by
      have : (2 : ℚ) ^ n ≠ 0 := by positivity
      field_simp at h
      linarith
    have h3 : (2 : Int) ^ n = 10 * m := by exact_mod_cast h2
    have h4 : (5 : Int) ∣ 2 ^ n := ⟨2 * m, by rw [h3]; ring⟩
    have h5 := Prime.dvd_of_dvd_pow (Nat.prime_iff_prime_int.mp (by norm_num : Nat.Prime 5)) h4
    omega

/-- C108: a range from 0.1 on is changed. -/
example (c : Culture) (p : Panels) : ∃ q r, importFile formDefs c
      (formWith { formKin with axes := [(c!"X", (1 / 10, 500)), (c!"Y", (-500, 500)), (c!"Z", (0, 1000))] }) p = some q ∧
    exportFile formDefs c formFile q = some r ∧ r.kin.axes ≠ [(c!"X", (1 / 10, 500)), (c!"Y", (-500, 500)), (c!"Z", (0, 1000))] := by
  refine C108_violated_range formDefs _ formMachine
    (formWith_importable { formKin with axes := [(c!"X", (1 / 10, 500)), (c!"Y", (-500, 500)), (c!"Z", (0, 1000))] } formFile_importable.pallet rfl ⟨by decide, ?_, ?_⟩ ⟨int_finite 20000, int_finite 20000⟩ (by unfold Small; decide))
    formFile_feeds c formFile p (c!"X", (1 / 10, 500)) (by simp [formWith]) tenth_not_single
  · intro e he
    simp only [List.mem_cons, List.not_mem_nil, or_false] at he
    rcases he with rfl | rfl | rfl
    · exact ⟨finite_of _ 1 (by decide +kernel), by rw [abs_le]; norm_num, finite_of _ 1 (by decide +kernel), by rw [abs_le]; norm_num⟩
    · exact ⟨finite_of _ 1 (by decide +kernel), by rw [abs_le]; norm_num, finite_of _ 1 (by decide +kernel), by rw [abs_le]; norm_num⟩
    · exact ⟨finite_of _ 1 (by decide +kernel), by rw [abs_le]; norm_num, finite_of _ 1 (by decide +kernel), by rw [abs_le]; norm_num⟩
  · intro a ha
    simp only [List.mem_cons, List.not_mem_nil, or_false] at ha
    rcases ha with rfl | rfl | rfl
    · exact ⟨_, (look_iff _ _ _).mp rfl⟩
    · exact ⟨_, (look_iff _ _ _).mp rfl⟩
    · exact ⟨_, (look_iff _ _ _).mp rfl⟩

/-- C108: the direction I of the base point becomes that of the file the form was opened with. -/
example (c : Culture) (p : Panels) : ∃ q r, importFile formDefs c formFile p = some q ∧
    exportFile formDefs c ⟨.heidenhain, [], [], .Mill, [], formKin, formCnc, [], [(c!"I", 90)], []⟩ q = some r ∧
    First r.base c!"I" 90 ∧ ¬ First r.base c!"I" 0 :=
  C108_violated_base formDefs formFile formMachine formFile_importable formFile_feeds c _ p c!"I" (by simp) 0 90
    ((look_iff _ _ _).mp rfl) (.here _ _ _) (by norm_num)

/-- C108: a code of the pallet exchange is forgotten when there is no pallet changer. -/
example (c : Culture) (p : Panels) : ∃ q r, importFile formDefs c (formWith { formKin with palletCode := c!"M" }) p = some q ∧
    exportFile formDefs c formFile q = some r ∧ r.kin.palletCode = [] ∧ r.kin.palletCode ≠ c!"M" :=
  C108_violated_pallet formDefs _ formMachine
    (formWith_importable { formKin with palletCode := c!"M" } ⟨[[], c!"M", c!"O"], (look_iff _ _ _).mp rfl, by decide, by unfold Apart; decide⟩ rfl formKin_axes
      ⟨int_finite 20000, int_finite 20000⟩ (by unfold Small; decide))
    formFile_feeds c formFile p (by rw [← look_iff]; decide) (by simp [formWith])

/-- C107: the file is read by the server. -/
example : ∃ s, readSettings formFile.tree = some s ∧ s.exchange.get c!"X" = some (1 / 4) ∧ s.driver = .HaasMill := by
  obtain ⟨s, h1, h2⟩ := C107_file_partial formFile (by
    refine ⟨⟨_, rfl⟩, ⟨.mill_4axis, rfl⟩, ?_, ?_, ?_, ?_, ⟨int_finite 20000, int_finite 20000⟩, ?_, ?_⟩
    · intro e he
      simp only [formFile, List.mem_cons, List.not_mem_nil, or_false] at he
      rcases he with rfl | rfl | rfl <;> exact finite_of _ 2 (by decide +kernel)
    · intro e he
      simp only [formFile, formBase, List.mem_cons, List.not_mem_nil, or_false] at he
      rcases he with rfl | rfl | rfl | rfl | rfl | rfl <;> exact finite_of _ 2 (by decide +kernel)
    · intro e he
      simp only [formFile, List.mem_cons, List.not_mem_nil, or_false] at he
      rcases he with rfl | rfl | rfl <;> exact finite_of _ 2 (by decide +kernel)
    · intro e he
      obtain ⟨⟨a, ha, -⟩, b, hb, -⟩ := formFile_axes e he
      rw [ha, hb]
      exact ⟨int_finite a, int_finite b⟩
    · unfold Small; decide
    · intro a ha
      obtain ⟨q, hq, -⟩ := formFile_importable.zero a ha
      exact ⟨q, hq⟩)
  refine ⟨s, h1, (h2.exchange _ _).mpr ((look_iff _ _ _).mp rfl), ?_⟩
  have := h2.driver
  injection this with this
  exact this.symm

end NC.Props
