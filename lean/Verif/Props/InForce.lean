import Verif.Whole
import Verif.Spec.InForce
import Verif.Props.Settings
import Verif.Props.SimModal
import Verif.Props.SimTotals
import Verif.Props.Pipeline

/-!
# The settings in force (C81)

From the text of a settings file to the machine that works with it.
-/

namespace NC.Props
open NC NC.Enums NC.AttrPath NC.Conf NC.Spec.Conf NC.Spec.Sim NC.Path

/-- A parser made from settings: everything but the two points is taken over. -/
theorem fresh_of {E : Env} {s : Settings} {g : Words} {gc mc : Ver.Groups} {S : Pipe.Setup} {p : Pipe.Parser}
    (h : Whole.freshParser E s g gc mc = .ok (S, p)) :
    ∃ e b, List.Forall₂ (fun x y => y.1 = x.1 ∧ replaced ⟨s.zeroX, s.zeroY, s.zeroZ⟩ x.1 x.2 = some y.2) s.exchange e ∧
      List.Forall₂ (fun x y => y.1 = x.1 ∧ replaced ⟨s.zeroX, s.zeroY, s.zeroZ⟩ x.1 x.2 = some y.2) s.base b ∧
      S = { setupOf E s g gc mc with cfg := { cfgOf s with exchange := e, base := b } } ∧ p = Pipe.fresh S := by
  unfold Whole.freshParser at h
  cases hc : Pipe.configure (setupOf E s g gc mc) with
  | ok S' =>
    rw [hc] at h
    have h := Out.ok.inj h
    obtain ⟨rfl, rfl⟩ := Prod.mk.inj h
    obtain ⟨e, b, he, hb, hS⟩ := (C46_points_partial _ _).mp hc
    exact ⟨e, b, he, hb, hS, rfl⟩
  | throw e => rw [hc] at h; cases h
  | ub => rw [hc] at h; cases h

section
variable {t : PTree} {s : Settings} {E : Env} {g : Words} {gc mc : Ver.Groups} {S : Pipe.Setup} {p : Pipe.Parser}

/-- **C81.** The machine that is made from a settings file is the one the file describes. -/
theorem C81_in_force (h : readSettings t = some s) (hf : Whole.freshParser E s g gc mc = .ok (S, p)) : InForce t S := by
  obtain ⟨hs, -, -, hax⟩ := (C81_exact_partial t s).mp h
  obtain ⟨e, b, -, -, rfl, -⟩ := fresh_of hf
  unfold fields at hs
  simp only [List.forall_mem_cons] at hs
  obtain ⟨h_tool, h_ttype, h_driver, h_maxFeed, h_maxFast, h_maxSpindle, h_warehouse, h_exchangeTime, h_palletTime,
    h_measureTime, h_diameter2x, h_autoMeasure, h_palletCode, h_palletValue, h_measureCode, h_measureValue, h_motion,
    h_plane, h_units, h_programming, h_feedMode, h_direction, h_depth, h_ret, h_rotation, h_cancel0, h_cancel1,
    h_cancel2, h_cancel3, h_cancelRapid, h_operatorRotation, h_toolExchanges, h_autoRapid, h_zeroX, h_zeroY, h_zeroZ, -⟩ := hs
  constructor
  case haas =>
    refine ⟨_, h_driver, ?_⟩
    show (decide (s.driver = .HaasLathe) || decide (s.driver = .HaasMill)) = true ↔ _
    cases s.driver <;> decide
  case units =>
    obtain ⟨n, hn, hw⟩ := h_units
    refine ⟨n, hn, _, ?_, hw⟩
    show (_, unitsOf s.units) ∈ _
    cases s.units <;> simp [unitsOf, EDriverUnits.toStr]
  case lathe =>
    refine ⟨_, h_ttype, ?_⟩
    show decide (s.ttype = .Lathe) = true ↔ _
    cases s.ttype <;> decide
  case type =>
    obtain ⟨n, hn, hw⟩ := h_ttype
    refine ⟨n, hn, _, ?_, hw⟩
    show (_, mtypeOf s.ttype) ∈ _
    cases s.ttype <;> simp [mtypeOf, EMachineToolType.toStr]
  case depthless =>
    refine ⟨_, h_tool, ?_⟩
    show (decide (s.tool = .lathe_zx) || decide (s.tool = .lathe_zxc)) = true ↔ _
    cases s.tool <;> decide
  case depth =>
    obtain ⟨n, hn, hw⟩ := h_depth
    refine ⟨n, hn, _, ?_, hw⟩
    show (_, depthOf s.depth) ∈ _
    cases s.depth <;> simp [depthOf, EDepthProgrammingType.toStr]
  case axisNames => rfl
  case english => rfl
  all_goals assumption

/-- **C81.** What is in force before the first block of a program is what the file says. -/
theorem C81_start (h : readSettings t = some s) (hf : Whole.freshParser E s g gc mc = .ok (S, p)) :
    StartSaid t (modalOf p.path) := by
  obtain ⟨hs, -, -, hax⟩ := (C81_exact_partial t s).mp h
  obtain ⟨e, b, -, -, rfl, rfl⟩ := fresh_of hf
  unfold fields at hs
  simp only [List.forall_mem_cons] at hs
  obtain ⟨h_tool, h_ttype, h_driver, h_maxFeed, h_maxFast, h_maxSpindle, h_warehouse, h_exchangeTime, h_palletTime,
    h_measureTime, h_diameter2x, h_autoMeasure, h_palletCode, h_palletValue, h_measureCode, h_measureValue, h_motion,
    h_plane, h_units, h_programming, h_feedMode, h_direction, h_depth, h_ret, h_rotation, h_cancel0, h_cancel1,
    h_cancel2, h_cancel3, h_cancelRapid, h_operatorRotation, h_toolExchanges, h_autoRapid, h_zeroX, h_zeroY, h_zeroZ, -⟩ := hs
  constructor
  case motion =>
    obtain ⟨n, hn, hw⟩ := h_motion
    refine ⟨n, hn, _, ?_, hw⟩
    show (_, Conf.motionOf s.motion) ∈ _
    cases s.motion <;> simp [Conf.motionOf, EMotion.toStr, motionCodes]
  case plane =>
    obtain ⟨n, hn, hw⟩ := h_plane
    refine ⟨n, hn, _, ?_, hw⟩
    show (_, planeNum (planeOf s.plane)) ∈ _
    cases s.plane <;> simp [planeOf, planeNum, EWorkPlane.toStr, planeCodes]
  case distance =>
    obtain ⟨n, hn, hw⟩ := h_programming
    refine ⟨n, hn, _, ?_, hw⟩
    show (_, incrNum (decide (s.programming = .Incremental))) ∈ _
    cases s.programming <;> simp [incrNum, EProgrammingType.toStr, distanceCodes]
  case feedMode =>
    obtain ⟨n, hn, hw⟩ := h_feedMode
    refine ⟨n, hn, _, ?_, hw⟩
    show (_, feedNum (decide (s.feedMode = .PerRevolution))) ∈ _
    cases s.feedMode <;> simp [feedNum, EFeedMode.toStr, feedCodes]
  case retract =>
    obtain ⟨n, hn, hw⟩ := h_ret
    refine ⟨n, hn, _, ?_, hw⟩
    show (_, retNum (retOf s.ret)) ∈ _
    cases s.ret <;> simp [retOf, retNum, EDrillGreturnMode.toStr, returnCodes]
  case speedMode => rfl
  case feed => rfl
  case speed =>
    refine ⟨s.operatorRotation, h_operatorRotation, ?_⟩
    have e : (modalOf (Pipe.fresh { setupOf E s g gc mc with cfg := { cfgOf s with exchange := e, base := b } }).path).speed =
        if s.operatorRotation then (s.rotation : ℚ) else -1 := rfl
    rw [e]
    cases s.operatorRotation with
    | true =>
      obtain ⟨n, hn, hw⟩ := h_rotation
      exact ⟨n, hn, _, hw, rfl⟩
    | false => rfl

/-- **C81 (partial).** The time the machine needs for tools, pallets and measuring is the one of the file:
in every block that is carried out the total grows by it, by the dwell and by the time of the motions.
Not said: blocks with a prepared tool and a dwell. -/
theorem C81_times_partial (h : readSettings t = some s) (hf : Whole.freshParser E s g gc mc = .ok (S, p))
    (hx : AxesOk S.cfg) : ∃ m, TimesSaid t m ∧ ∀ (inch : Inch) (line : Int) (b : Block) (q : St ℚ × MacroMap ℚ), Inv q.1 →
      (evaluate S.F S.cfg inch line b q).2 = .ok () →
      ((words b).any isTool = true → exchanges m b = true ∨ dwellTime (K := ℚ) b = 0) →
      (evaluate S.F S.cfg inch line b q).1.1.time.total =
        addF (addF q.1.time.total (some (machineTime m b + dwellTime b)))
          (addF (evaluate S.F S.cfg inch line b q).1.1.time.work (evaluate S.F S.cfg inch line b q).1.1.time.fast) := by
  refine ⟨timesOf S.cfg, ?_, fun inch line b q hq he ht => C26_time_partial S.F hx inch line b q hq he ht⟩
  obtain ⟨hs, -, -, hax⟩ := (C81_exact_partial t s).mp h
  obtain ⟨e, b, -, -, rfl, -⟩ := fresh_of hf
  unfold fields at hs
  simp only [List.forall_mem_cons] at hs
  obtain ⟨h_tool, h_ttype, h_driver, h_maxFeed, h_maxFast, h_maxSpindle, h_warehouse, h_exchangeTime, h_palletTime,
    h_measureTime, h_diameter2x, h_autoMeasure, h_palletCode, h_palletValue, h_measureCode, h_measureValue, h_motion,
    h_plane, h_units, h_programming, h_feedMode, h_direction, h_depth, h_ret, h_rotation, h_cancel0, h_cancel1,
    h_cancel2, h_cancel3, h_cancelRapid, h_operatorRotation, h_toolExchanges, h_autoRapid, h_zeroX, h_zeroY, h_zeroZ, -⟩ := hs
  constructor
  case exchange => obtain ⟨n, hn, hw⟩ := h_exchangeTime; exact ⟨n, hn, _, hw, rfl⟩
  case measure => obtain ⟨n, hn, hw⟩ := h_measureTime; exact ⟨n, hn, _, hw, rfl⟩
  case pallet => obtain ⟨n, hn, hw⟩ := h_palletTime; exact ⟨n, hn, _, hw, rfl⟩
  all_goals assumption

/-- **C81.** The first block starts from the points of the file as C46 has them. -/
theorem C81_points (h : readSettings t = some s) (hf : Whole.freshParser E s g gc mc = .ok (S, p)) :
    ∃ base exchange, (∃ n, At t [c!"machine_points_data", c!"tool_exchange_point"] n ∧ Listed (fun c q => Number c.data q) n exchange) ∧
      (∃ n, At t [c!"machine_points_data", c!"machine_base_point"] n ∧ Listed (fun c q => Number c.data q) n base) ∧
      List.Forall₂ (fun x y => y.1 = x.1 ∧ replaced S.zero x.1 x.2 = some y.2) exchange S.cfg.exchange ∧
      List.Forall₂ (fun x y => y.1 = x.1 ∧ replaced S.zero x.1 x.2 = some y.2) base S.cfg.base := by
  obtain ⟨-, h1, h2, -⟩ := (C81_exact_partial t s).mp h
  obtain ⟨e, b, he, hb, rfl, -⟩ := fresh_of hf
  exact ⟨s.base, s.exchange, h1, h2, he, hb⟩

/-- The hypotheses can be met: the sample file makes a machine, an inch lathe that starts with
G1, G18, G91, G95, G99; its axes are usual ones. -/
example (E : Env) (g : Words) (gc mc : Ver.Groups) : ∃ S p, Whole.freshParser E sampleSettings g gc mc = .ok (S, p) ∧
    AxesOk S.cfg ∧ S.units = .imperial ∧ modalOf p.path = ⟨1, 18, 91, 95, 99, 97, -1, -1⟩ := by
  have h1 : Pipe.zeroPoints ⟨3 / 2, 0, -2⟩ sampleSettings.exchange = .ok [(c!"X", 3 / 2), (c!"Z", -2)] := by decide +kernel
  have h2 : Pipe.zeroPoints ⟨3 / 2, 0, -2⟩ sampleSettings.base = .ok [(c!"X", 3 / 2), (c!"Z", -2)] := by decide +kernel
  have hc := (C46_points_partial (setupOf E sampleSettings g gc mc) _).mpr
    ⟨_, _, zeroPoints_ok.mp h1, zeroPoints_ok.mp h2, rfl⟩
  unfold Whole.freshParser
  rw [hc]
  exact ⟨_, _, rfl, (by unfold AxesOk; decide : AxesOk (cfgOf sampleSettings)), rfl, rfl⟩

end
end NC.Props
