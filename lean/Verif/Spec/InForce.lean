import Verif.Spec.Settings
import Verif.Spec.Modal
import Verif.Pipeline

/-!
# What a settings file means for the machine

Which text of the file decides what.  The settings of the drilling depth and of the
cycles, of the rotation and of the axes are words, numbers and truth values of the file.
-/

namespace NC.Spec.Conf
open NC NC.AttrPath NC.Conf NC.Spec.Sim NC.Path

/-- The times the machine needs besides moving. -/
structure TimesSaid (t : PTree) (m : Times ℚ) : Prop where
  exchange : Says t [c!"kinematics", c!"tool_exchange_time"] (fun x => ∃ z : Int, Fits x z ∧ m.exchange = z)
  measure : Says t [c!"kinematics", c!"tool_measurement_time"] (fun x => ∃ z : Int, Fits x z ∧ m.measure = z)
  pallet : Says t [c!"kinematics", c!"pallet_exchange_time"] (fun x => ∃ z : Int, Fits x z ∧ m.pallet = z)
  auto : Says t [c!"kinematics", c!"auto_measure_after_tool_selection"] (fun x => Truth x m.auto)
  byTool : Says t [c!"cnc_default_values", c!"tool_number_executes_exchange"] (fun x => Truth x m.byTool)
  measureWord : Says t [c!"kinematics", c!"tool_measurement_code"] (fun x => x = m.measureCode.1)
  measureValue : Says t [c!"kinematics", c!"tool_measurement_code_value"] (fun x => x = m.measureCode.2)
  palletWord : Says t [c!"kinematics", c!"pallet_exchange_code"] (fun x => x = m.palletCode.1)
  palletValue : Says t [c!"kinematics", c!"pallet_exchange_code_value"] (fun x => x = m.palletCode.2)

/-- What is in force before the first block: the default codes, no feed, the speed of the operator if
the operator turns on the rotation. -/
structure StartSaid (t : PTree) (m : Modal ℚ) : Prop where
  motion : Says t [c!"cnc_default_values", c!"default_motion"] (Named motionCodes m.motion)
  plane : Says t [c!"cnc_default_values", c!"default_work_plane"] (Named planeCodes m.plane)
  distance : Says t [c!"cnc_default_values", c!"default_programming"] (Named distanceCodes m.distance)
  feedMode : Says t [c!"cnc_default_values", c!"default_feed_mode"] (Named feedCodes m.feedMode)
  retract : Says t [c!"cnc_default_values", c!"drill_cycle_return_value"] (Named returnCodes m.retract)
  speedMode : m.speedMode = 97
  feed : m.feed = -1
  speed : ∃ on, Says t [c!"cnc_default_values", c!"operator_turns_on_rotation"] (fun x => Truth x on) ∧
    if on then Says t [c!"cnc_default_values", c!"default_rotation"] (fun x => ∃ z : Int, Fits x z ∧ m.speed = z)
    else m.speed = -1

/-- The machine is the one of the file. -/
structure InForce (t : PTree) (S : Pipe.Setup) : Prop where
  haas : ∃ w, Says t [c!"driver"] (fun x => Word x w) ∧ (S.haas = true ↔ w = c!"haas_lathe" ∨ w = c!"haas_mill")
  units : Says t [c!"cnc_default_values", c!"default_driver_units"]
    (Named [(c!"millimeter", Ver.Units.metric), (c!"inch", Ver.Units.imperial)] S.units)
  lathe : ∃ w, Says t [c!"machine_tool_type"] (fun x => Word x w) ∧ (S.lathe = true ↔ w = c!"lathe")
  type : Says t [c!"machine_tool_type"]
    (Named [(c!"lathe", MType.lathe), (c!"millturn", MType.millturn), (c!"mill", MType.other)] S.cfg.mtype)
  depthless : ∃ w, Says t [c!"machine_tool"] (fun x => Word x w) ∧
    (S.cfg.depthless = true ↔ w = c!"lathe_zx" ∨ w = c!"lathe_zxc")
  axes : ∃ n, At t [c!"kinematics", c!"cartesian_system_axis"] n ∧ Listed Ends n S.limits.axes
  axisNames : S.cfg.axes = S.limits.axes.map (·.1)
  feed : Says t [c!"kinematics", c!"max_working_feed"] (fun x => Number x S.limits.maxFeed)
  speed : Says t [c!"kinematics", c!"maximum_spindle_speed"] (fun x => Fits x S.limits.maxSpindle)
  warehouse : Says t [c!"kinematics", c!"numer_of_items_in_the_warehouse"] (fun x => Fits x S.limits.warehouse)
  fast : Says t [c!"kinematics", c!"max_fast_feed"] (fun x => Number x S.cfg.maxFast)
  diameter : Says t [c!"kinematics", c!"diameter_programming_2x"] (fun x => Truth x S.cfg.diameter2x)
  depth : Says t [c!"cnc_default_values", c!"drill_cycle_z_value"]
    (Named [(c!"absolute", Depth.absolute), (c!"incremental", Depth.incremental)] S.cfg.depth)
  cancel0 : Says t [c!"cnc_default_values", c!"rapid_traverse_cancel_cycle"] (fun x => Truth x S.cfg.cancel0)
  cancel1 : Says t [c!"cnc_default_values", c!"linear_interpolation_cancel_cycle"] (fun x => Truth x S.cfg.cancel1)
  cancel2 : Says t [c!"cnc_default_values", c!"circular_interpolation_cw_cancel_cycle"] (fun x => Truth x S.cfg.cancel2)
  cancel3 : Says t [c!"cnc_default_values", c!"circular_interpolation_ccw_cancel_cycle"] (fun x => Truth x S.cfg.cancel3)
  cancelRapid : Says t [c!"cnc_default_values", c!"cycle_cancel_starts_rapid_traverse"] (fun x => Truth x S.cfg.cancelRapid)
  operator : Says t [c!"cnc_default_values", c!"operator_turns_on_rotation"] (fun x => Truth x S.cfg.operatorRotation)
  autoRapid : Says t [c!"cnc_default_values", c!"auto_rapid_traverse_after_tool_exchange"] (fun x => Truth x S.cfg.autoRapid)
  zeroX : Says t [c!"zero_point", c!"X"] (fun x => Number x S.zero.x)
  zeroY : Says t [c!"zero_point", c!"Y"] (fun x => Number x S.zero.y)
  zeroZ : Says t [c!"zero_point", c!"Z"] (fun x => Number x S.zero.z)
  english : S.lang = .known .English

end NC.Spec.Conf
