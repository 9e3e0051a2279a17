import Verif.Model.Startup
/-!
The registrations and lookups of the flight software's control tasks, constructor by constructor in the order in which
they are made, and the table of downlink flows. A field or lookup that the code makes in a loop is made in a loop here.
Serializer bounds that are constants of the code are written as their values (`one_day_ccno` is 508235; the ranges of
the reaction wheels and magnetorquers are src/adcs/constants.hpp:138-172, those of the sensors lines 90-135 and 178-180). The DESKTOP and unit-test variants of the
constructors are not modelled where they differ.
-/
namespace PAN
namespace Startup

/-- src/fsw/FCCode/ControlTask.hpp:79-83 `add_internal_field`. -/
abbrev I (n : String) (t : Ty) : Call := .add ⟨.internal, n, t, none, 0⟩
/-- src/fsw/FCCode/ControlTask.hpp:86-90 `add_readable_field`. -/
abbrev R (n : String) (t : Ty) (s : Ser) : Call := .add ⟨.readable, n, t, some s, 0⟩
/-- The same for a field saved to the EEPROM every `p` cycles. -/
abbrev Rs (n : String) (t : Ty) (s : Ser) (p : Nat) : Call := .add ⟨.readable, n, t, some s, p⟩
/-- src/fsw/FCCode/ControlTask.hpp:93-97 `add_writable_field`. -/
abbrev W (n : String) (t : Ty) (s : Ser) : Call := .add ⟨.writable, n, t, some s, 0⟩
/-- The same for a field saved to the EEPROM every `p` cycles. -/
abbrev Ws (n : String) (t : Ty) (s : Ser) (p : Nat) : Call := .add ⟨.writable, n, t, some s, p⟩

namespace Table

/-- src/fsw/FCCode/TimedControlTask.hpp:186-197: the timing fields of a timed control task. -/
def timed (n : String) : List Call :=
  [R ("timing." ++ n ++ ".num_lates") .uint (.int .uint 0 4294967295), R ("timing." ++ n ++ ".avg_wait") .float (.real 0 170000 18),
   R ("timing." ++ n ++ ".duration") .uint (.int .uint 0 4294967295)]

/-- src/fsw/FCCode/FieldCreatorTask.hpp:29-30: the constructor. -/
def fieldCreator : List Call :=
  [Rs "pan.bootcount" .uchar (.int .uchar 0 255) 100, R "cursed" .bool .bool]

/-- src/fsw/FCCode/ClockManager.cpp:6-10: the constructor. -/
def clockManager : List Call :=
  timed "clock_ct" ++
  [R "pan.cycle_no" .uint (.int .uint 0 4294967295)]

/-- src/fsw/FCCode/PiksiControlTask.cpp:9-25: the constructor. -/
def piksi : List Call :=
  timed "piksi" ++
  [R "piksi.pos" .vec3d (.vec 6771000 6921000 28), R "piksi.vel" .vec3d (.vec 7570 7685 19),
   R "piksi.baseline_pos" .vec3d (.vec 0 2000 22), R "piksi.state" .uchar (.int .uchar 0 14),
   R "piksi.fix_error_count" .uint (.int .uint 0 1001), R "piksi.time" .gps .gps,
   R "piksi.microdelta" .uint (.int .uint 0 4294967295)]

/-- src/fsw/FCCode/ADCSBoxMonitor.cpp:8-138: the constructor. -/
def adcsMonitor : List Call :=
  timed "adcs_monitor" ++
  ((List.range 19).map fun i => R ("adcs_monitor.havt_device" ++ toString i) .bool .bool) ++
  [R "adcs_monitor.rwa_speed_rd" .vec3f (.vec 0 1 1), R "adcs_monitor.rwa_speed_rd.x" .float (.real (-5236 / 5) (5236 / 5) 12),
   R "adcs_monitor.rwa_speed_rd.y" .float (.real (-5236 / 5) (5236 / 5) 12), R "adcs_monitor.rwa_speed_rd.z" .float (.real (-5236 / 5) (5236 / 5) 12),
   R "adcs_monitor.rwa_torque_rd" .vec3f (.vec 0 1 1), R "adcs_monitor.rwa_torque_rd.x" .float (.real (-20937501 / 5000000000) (20937501 / 5000000000) 12),
   R "adcs_monitor.rwa_torque_rd.y" .float (.real (-20937501 / 5000000000) (20937501 / 5000000000) 12), R "adcs_monitor.rwa_torque_rd.z" .float (.real (-20937501 / 5000000000) (20937501 / 5000000000) 12),
   R "adcs_monitor.ssa_mode" .uchar (.int .uchar 0 2),
   R "adcs_monitor.ssa_vec" .vec3f (.vec (9999 / 10000) (10001 / 10000) 0)] ++
  ((List.range 20).map fun i => R ("adcs_monitor.ssa_voltage" ++ toString i) .float (.real 0 (33 / 10) 8)) ++
  [R "adcs_monitor.mag1_vec" .vec3f (.vec 0 1 1), R "adcs_monitor.mag1_vec.x" .float (.real (-3072 / 625000) (3072 / 625000) 16),
   R "adcs_monitor.mag1_vec.y" .float (.real (-3072 / 625000) (3072 / 625000) 16), R "adcs_monitor.mag1_vec.z" .float (.real (-3072 / 625000) (3072 / 625000) 16),
   R "adcs_monitor.mag2_vec" .vec3f (.vec 0 1 1), R "adcs_monitor.mag2_vec.x" .float (.real (-1 / 625) (1 / 625) 16),
   R "adcs_monitor.mag2_vec.y" .float (.real (-1 / 625) (1 / 625) 16), R "adcs_monitor.mag2_vec.z" .float (.real (-1 / 625) (1 / 625) 16),
   R "adcs_monitor.gyr_vec" .vec3f (.vec 0 1 1), R "adcs_monitor.gyr_vec.x" .float (.real (-1745329251 / 800000000) (1745329251 / 800000000) 16),
   R "adcs_monitor.gyr_vec.y" .float (.real (-1745329251 / 800000000) (1745329251 / 800000000) 16), R "adcs_monitor.gyr_vec.z" .float (.real (-1745329251 / 800000000) (1745329251 / 800000000) 16),
   R "adcs_monitor.gyr_temp" .float (.real (-103) 153 16), R "adcs_monitor.speed_rd_flag" .bool .bool,
   R "adcs_monitor.torque_rd_flag" .bool .bool, R "adcs_monitor.mag1_vec_flag" .bool .bool,
   R "adcs_monitor.mag2_vec_flag" .bool .bool, R "adcs_monitor.gyr_vec_flag" .bool .bool,
   R "adcs_monitor.gyr_temp_flag" .bool .bool, R "adcs_monitor.functional" .bool .bool,
   .fault "adcs_monitor.functional_fault", .fault "adcs_monitor.wheel1_fault", .fault "adcs_monitor.wheel2_fault",
   .fault "adcs_monitor.wheel3_fault", .fault "adcs_monitor.wheel_pot_fault"]

/-- src/fsw/FCCode/DebugTask.cpp:4-8: the constructor. -/
def debug : List Call :=
  timed "debug" ++
  [Ws "cycle.start" .bool .bool 1, Ws "cycle.auto" .bool .bool 1]

/-- src/fsw/FCCode/Estimators.cpp:4: the estimators' task itself. -/
def estimators : List Call := timed "estimators"

/-- src/fsw/FCCode/Estimators/TimeEstimator.cpp:13-32: the constructor. -/
def timeEstimator : List Call :=
  [.find .readable "piksi.state" .uchar, .find .readable "piksi.microdelta" .uint, .find .readable "piksi.time" .gps,
   R "time.valid" .bool .bool, I "time.s" .double, I "time.ns" .ullong, R "time.gps" .gps .gps,
   I "time.earth.w" .vec3d, I "time.earth.q_ecef_eci" .vec4d, I "time.earth.q_eci_ecef" .vec4d,
   W "time.reset_cmd" .bool .bool]

/-- src/fsw/FCCode/Estimators/OrbitEstimator.cpp:29-48: the constructor. -/
def orbitEstimator : List Call :=
  [.find .readable "piksi.state" .uchar, .find .readable "piksi.microdelta" .uint,
   .find .readable "piksi.pos" .vec3d, .find .readable "piksi.vel" .vec3d, .find .readable "time.valid" .bool,
   .find .internal "time.ns" .ullong, .find .internal "time.earth.w" .vec3d, R "orbit.valid" .bool .bool,
   R "orbit.pos" .vec3d (.vec 6771000 6921000 28), R "orbit.pos_sigma" .vec3d (.vec 0 100 12),
   R "orbit.vel" .vec3d (.vec 7160 7360 20), R "orbit.vel_sigma" .vec3d (.vec 0 50 12),
   W "orbit.reset_cmd" .bool .bool]

/-- src/fsw/FCCode/Estimators/RelativeOrbitEstimator.cpp:49-85: the constructor. -/
def relOrbitEstimator : List Call :=
  [.find .readable "piksi.state" .uchar, .find .readable "piksi.microdelta" .uint,
   .find .readable "piksi.pos" .vec3d, .find .readable "piksi.vel" .vec3d,
   .find .readable "piksi.baseline_pos" .vec3d, .find .readable "time.valid" .bool, .find .readable "time.gps" .gps,
   .find .internal "time.earth.w" .vec3d, .find .readable "orbit.valid" .bool, .find .readable "orbit.pos" .vec3d,
   .find .readable "orbit.vel" .vec3d, R "rel_orbit.state" .uchar (.int .uchar 0 2),
   R "rel_orbit.pos" .vec3d (.vec 6771000 6921000 28), R "rel_orbit.vel" .vec3d (.vec 7160 7360 20),
   R "rel_orbit.rel_pos" .vec3d (.vec 0 2000 22), R "rel_orbit.rel_pos_sigma" .vec3d (.vec 0 10 12),
   R "rel_orbit.rel_vel" .vec3d (.vec 0 11 14), R "rel_orbit.rel_vel_sigma" .vec3d (.vec 0 1 12),
   W "rel_orbit.reset_cmd" .bool .bool, W "rel_orbit.uplink.time" .gps .gps,
   W "rel_orbit.uplink.pos" .vec3d (.vec 6771000 6921000 28), W "rel_orbit.uplink.vel" .vec3d (.vec 7160 7360 20)]

/-- src/fsw/FCCode/Estimators/AttitudeEstimator.cpp:22-60: the constructor. -/
def attEstimator : List Call :=
  [.find .readable "time.valid" .bool, .find .internal "time.s" .double, .find .readable "orbit.valid" .bool,
   .find .readable "orbit.pos" .vec3d, .find .readable "adcs_monitor.havt_device0" .bool,
   .find .readable "adcs_monitor.gyr_vec" .vec3f, .find .readable "adcs_monitor.havt_device1" .bool,
   .find .readable "adcs_monitor.mag1_vec" .vec3f, .find .readable "adcs_monitor.havt_device2" .bool,
   .find .readable "adcs_monitor.mag2_vec" .vec3f, .find .readable "adcs_monitor.ssa_mode" .uchar,
   .find .readable "adcs_monitor.ssa_vec" .vec3f, R "attitude_estimator.b_valid" .bool .bool,
   R "attitude_estimator.b_body" .vec3f (.vec 0 (1 / 10000) 12), R "attitude_estimator.valid" .bool .bool,
   R "attitude_estimator.q_body_eci" .vec4f .quat,
   R "attitude_estimator.p_body_eci_sigma_f" .vec3f (.vec 0 (1 / 2) 14), I "attitude_estimator.w_body" .vec3f,
   R "attitude_estimator.w_bias_body" .vec3f (.vec 0 (7 / 20) 14),
   R "attitude_estimator.w_bias_sigma_body" .vec3f (.vec 0 (1 / 10) 14),
   R "attitude_estimator.L_body" .vec3f (.vec 0 (1 / 10) 14), W "attitude_estimator.reset_cmd" .bool .bool,
   Ws "attitude_estimator.mag_flag" .bool .bool 1, Ws "attitude_estimator.ignore_sun_vectors" .bool .bool 1,
   .fault "attitude_estimator.fault"]

/-- src/fsw/FCCode/GomspaceController.cpp:5-194: the constructor. -/
def gomspace : List Call :=
  timed "gomspace_rd" ++
  [.fault "gomspace.get_hk", .fault "gomspace.low_batt",
   W "gomspace.batt_threshold" .uint (.sized .uint 5000 9000 10),
   R "gomspace.vboost.output1" .uint (.sized .uint 0 8500 6),
   R "gomspace.vboost.output2" .uint (.sized .uint 0 8500 6),
   R "gomspace.vboost.output3" .uint (.sized .uint 0 8500 6), R "gomspace.vbatt" .uint (.sized .uint 5000 9500 10),
   R "gomspace.curin.output1" .uint (.sized .uint 0 6000 10),
   R "gomspace.curin.output2" .uint (.sized .uint 0 6000 10),
   R "gomspace.curin.output3" .uint (.sized .uint 0 6000 10), R "gomspace.cursun" .uint (.sized .uint 0 3000 10),
   R "gomspace.cursys" .uint (.sized .uint 0 12000 10), R "gomspace.curout.output1" .uint (.sized .uint 0 12000 10),
   R "gomspace.curout.output2" .uint (.sized .uint 0 12000 10),
   R "gomspace.curout.output3" .uint (.sized .uint 0 12000 10),
   R "gomspace.curout.output4" .uint (.sized .uint 0 12000 10),
   R "gomspace.curout.output5" .uint (.sized .uint 0 12000 10),
   R "gomspace.curout.output6" .uint (.sized .uint 0 12000 10), R "gomspace.output.output1" .bool .bool,
   R "gomspace.output.output2" .bool .bool, R "gomspace.output.output3" .bool .bool,
   R "gomspace.output.output4" .bool .bool, R "gomspace.output.output5" .bool .bool,
   R "gomspace.output.output6" .bool .bool, R "gomspace.wdt_i2c_time_left" .uint (.int .uint 0 99),
   R "gomspace.counter_wdt_i2c" .uint (.int .uint 0 4294967295),
   R "gomspace.counter_boot" .uint (.int .uint 0 4294967295), R "gomspace.temp.output1" .sint (.int .sint (-40) 125),
   R "gomspace.temp.output2" .sint (.int .sint (-40) 125), R "gomspace.temp.output3" .sint (.int .sint (-40) 125),
   R "gomspace.temp.output4" .sint (.int .sint (-40) 125), R "gomspace.bootcause" .uchar (.int .uchar 0 8),
   R "gomspace.battmode" .uchar (.int .uchar 0 4), R "gomspace.pptmode" .uchar (.int .uchar 1 2),
   R "gomspace.heater" .bool .bool, W "gomspace.powercycle_period" .uint (.int .uint 0 4294967295),
   W "gomspace.power_cycle_output1_cmd" .bool .bool, W "gomspace.power_cycle_output2_cmd" .bool .bool,
   W "gomspace.power_cycle_output3_cmd" .bool .bool, W "gomspace.power_cycle_output4_cmd" .bool .bool,
   W "gomspace.power_cycle_output5_cmd" .bool .bool, W "gomspace.power_cycle_output6_cmd" .bool .bool,
   W "gomspace.pv1_cmd" .uint (.sized .uint 0 8500 9), W "gomspace.pv2_cmd" .uint (.sized .uint 0 8500 9),
   W "gomspace.pv3_cmd" .uint (.sized .uint 0 8500 9), W "gomspace.pptmode_cmd" .uchar (.int .uchar 1 2),
   W "gomspace.heater_cmd" .bool .bool, W "gomspace.counter_reset_cmd" .bool .bool,
   W "gomspace.gs_reset_cmd" .bool .bool, W "gomspace.gs_reboot_cmd" .bool .bool, W "gomspace.piksi_off" .bool .bool]

/-- src/fsw/FCCode/DockingController.cpp:5-17: the constructor. -/
def docking : List Call :=
  timed "docking_ct" ++
  [R "docksys.docked" .bool .bool, R "docksys.dock_config" .bool .bool, R "docksys.is_turning" .bool .bool,
   W "docksys.step_angle" .float (.real 0 180 16), W "docksys.step_delay" .uint (.int .uint 0 4294967295)]

/-- src/fsw/FCCode/DownlinkProducer.cpp:5-13: the constructor. -/
def downlink : List Call :=
  timed "downlink_ct" ++
  [.find .readable "pan.cycle_no" .uint, I "downlink.ptr" .ptr, I "downlink.snap_size" .size]

/-- src/fsw/FCCode/QuakeManager.cpp:31-56: the constructor. -/
def quake : List Call :=
  timed "quake" ++
  [W "radio.max_wait" .uint (.int .uint 0 508235), W "radio.max_transceive" .uint (.int .uint 0 508235),
   R "radio.err" .sint (.int .sint (-90) 10), I "uplink.ptr" .ptr, I "uplink.len" .size,
   R "radio.state" .uchar (.int .uchar 0 255), R "radio.last_comms_ccno" .uint (.int .uint 0 4294967295),
   W "telem.dump" .bool .bool, .find .internal "downlink.snap_size" .size, .find .internal "downlink.ptr" .ptr,
   .find .writable "gomspace.power_cycle_output3_cmd" .bool]

/-- src/fsw/FCCode/UplinkConsumer.cpp:5-8: the constructor. -/
def uplink : List Call :=
  timed "uplink_ct" ++
  [.find .internal "uplink.len" .size, .find .internal "uplink.ptr" .ptr]

/-- src/fsw/FCCode/DCDCController.cpp:5-18: the constructor. -/
def dcdc : List Call :=
  timed "dcdc_ct" ++
  [W "dcdc.ADCSMotor_cmd" .bool .bool, W "dcdc.SpikeDock_cmd" .bool .bool, W "dcdc.disable_cmd" .bool .bool,
   W "dcdc.reset_cmd" .bool .bool, R "dcdc.ADCSMotor" .bool .bool, R "dcdc.SpikeDock" .bool .bool]

/-- src/fsw/FCCode/EEPROMControllerTeensy.cpp:8: the constructor. -/
def eeprom : List Call := timed "eeprom_ct"

/-- src/fsw/FCCode/OrbitController.cpp:16-43: the constructor. -/
def orbitController : List Call :=
  timed "orbit_control_ct" ++
  [.find .internal "time.s" .double, .find .readable "time.valid" .bool, .find .readable "orbit.valid" .bool,
   .find .readable "rel_orbit.state" .uchar, .find .readable "orbit.pos" .vec3d, .find .readable "orbit.vel" .vec3d,
   .find .readable "rel_orbit.rel_pos" .vec3d, .find .readable "rel_orbit.rel_vel" .vec3d,
   .find .readable "attitude_estimator.valid" .bool, .find .readable "attitude_estimator.q_body_eci" .vec4f,
   W "orbit.control.valve1" .uint (.int .uint 0 1000), W "orbit.control.valve2" .uint (.int .uint 0 1000),
   W "orbit.control.valve3" .uint (.int .uint 0 1000), W "orbit.control.valve4" .uint (.int .uint 0 1000),
   W "orbit.control.J_ecef" .vec3d (.vec 0 (1 / 40) 10), W "orbit.control.alpha" .double (.real 0 1 10),
   W "orbit.control.num_near_field_nodes" .uint (.int .uint 0 300)]

/-- src/fsw/FCCode/PropController.cpp:13-67: the constructor. -/
def prop : List Call :=
  timed "prop" ++
  [.find .writable "orbit.control.valve1" .uint, .find .writable "orbit.control.valve2" .uint,
   .find .writable "orbit.control.valve3" .uint, .find .writable "orbit.control.valve4" .uint,
   W "prop.state" .uint (.int .uint 0 9), W "prop.cycles_until_firing" .uint (.int .uint 0 33882),
   W "prop.sched_intertank1" .uint (.int .uint 0 2000), W "prop.sched_intertank2" .uint (.int .uint 0 2000),
   W "prop.max_venting_cycles" .uint (.int .uint 0 50), W "prop.ctrl_cycles_per_closing" .uint (.int .uint 0 50),
   W "prop.max_pressurizing_cycles" .uint (.int .uint 0 50), W "prop.threshold_firing_pressure" .float (.real 10 50 6),
   W "prop.ctrl_cycles_per_filling" .uint (.int .uint 0 25),
   W "prop.ctrl_cycles_per_cooling" .uint (.int .uint 0 100), W "prop.tank1.valve_choice" .uint (.int .uint 0 1),
   R "prop.tank2.pressure" .float (.real 0 150 8), R "prop.tank2.temp" .float (.real (-60) 155 8),
   R "prop.tank1.temp" .float (.real (-60) 155 8), R "prop.num_prop_firings" .uint (.int .uint 0 4294967295),
   .fault "prop.pressurize_fail", .fault "prop.overpressured", .fault "prop.tank2_temp_high",
   .fault "prop.tank1_temp_high"]

/-- src/fsw/FCCode/MainFaultHandler.cpp:11-11: the constructor, run by the mission manager's (src/fsw/FCCode/MissionManager.cpp:26) after its timing fields. -/
def mainFaultHandler : List Call :=
  timed "mission_ct" ++
  [W "fault_handler.enabled" .bool .bool]

/-- src/fsw/FCCode/MissionManager.cpp:30-58: the constructor, up to the fault handlers. -/
def missionManager : List Call :=
  [.findFault "gomspace.low_batt.base", .findFault "adcs_monitor.functional_fault.base",
   .findFault "adcs_monitor.wheel1_fault.base", .findFault "adcs_monitor.wheel2_fault.base",
   .findFault "adcs_monitor.wheel3_fault.base", .findFault "adcs_monitor.wheel_pot_fault.base",
   .findFault "prop.pressurize_fail.base", W "detumble_safety_factor" .double (.real 0 (1 / 20) 7),
   W "trigger_dist.close_approach" .double (.real 0 5000 13), W "trigger_dist.docking" .double (.real 0 100 14),
   W "docking_timeout_limit" .uint (.sized .uint 0 1016470 6), W "adcs.state" .uchar (.int .uchar 0 10),
   W "docksys.config_cmd" .bool .bool, I "docksys.enter_docking" .uint, Ws "pan.state" .uchar (.int .uchar 0 12) 1,
   Rs "pan.deployed" .bool .bool 1, Rs "pan.deployment.elapsed" .uchar (.int .uchar 0 255) 1,
   W "pan.sat_designation" .uchar (.int .uchar 0 2), I "pan.enter_close_approach_ccno" .uint,
   Ws "pan.kill_switch" .uchar (.int .uchar 0 255) 100, .find .readable "pan.bootcount" .uchar]

/-- src/fsw/FCCode/MainFaultHandler.cpp:19-34: `init`, the faults looked up. -/
def mainFaultHandlerInit : List Call :=
  [.findFault "gomspace.low_batt.base", .findFault "adcs_monitor.wheel1_fault.base",
   .findFault "adcs_monitor.wheel2_fault.base", .findFault "adcs_monitor.wheel3_fault.base",
   .findFault "adcs_monitor.wheel_pot_fault.base", .findFault "prop.pressurize_fail.base",
   .findFault "attitude_estimator.fault.base"]

/-- src/fsw/FCCode/SimpleFaultHandler.cpp:12-12: the constructor. -/
def simpleFaultHandler : List Call :=
  [.find .writable "pan.state" .uchar]

/-- src/fsw/FCCode/QuakeFaultHandler.cpp:11-21: the constructor. -/
def quakeFaultHandler : List Call :=
  [.find .readable "radio.state" .uchar, .find .readable "radio.last_comms_ccno" .uint,
   .find .writable "gomspace.power_cycle_output3_cmd" .bool, W "qfh.state" .uchar (.int .uchar 0 5),
   W "qfh.enabled" .bool .bool]

/-- src/fsw/FCCode/PiksiFaultHandler.cpp:17-33: the constructor. -/
def piksiFaultHandler : List Call :=
  [W "piksi_fh.no_cdpgs_max_wait" .uint (.int .uint 0 508235),
   W "piksi_fh.cdpgs_delay_max_wait" .uint (.int .uint 0 508235), W "piksi_fh.enabled" .bool .bool,
   I "piksi_fh.last_rtkfix_ccno" .uint, .fault "piksi_fh.dead", .find .readable "piksi.state" .uchar,
   .find .writable "pan.state" .uchar, .find .internal "pan.enter_close_approach_ccno" .uint]

/-- src/fsw/FCCode/MissionManager.cpp:62-81: the rest of the constructor. -/
def missionManagerRest : List Call :=
  [.find .readable "attitude_estimator.valid" .bool, .find .readable "attitude_estimator.L_body" .vec3f,
   .find .readable "radio.state" .uchar, .find .readable "radio.last_comms_ccno" .uint,
   .find .writable "prop.state" .uint, .find .readable "rel_orbit.state" .uchar,
   .find .readable "rel_orbit.rel_pos" .vec3d, .find .writable "gomspace.gs_reset_cmd" .bool,
   .find .readable "docksys.docked" .bool, .find .writable "dcdc.SpikeDock_cmd" .bool,
   .find .writable "dcdc.ADCSMotor_cmd" .bool, .find .writable "gomspace.piksi_off" .bool,
   .find .writable "gomspace.power_cycle_output1_cmd" .bool]

/-- src/fsw/FCCode/AttitudeController.cpp:20-57: the constructor. -/
def attController : List Call :=
  timed "attitude_controller" ++
  [.find .readable "adcs_monitor.rwa_speed_rd" .vec3f, .find .readable "attitude_estimator.b_valid" .bool,
   .find .readable "attitude_estimator.b_body" .vec3f, .find .readable "attitude_estimator.valid" .bool,
   .find .readable "attitude_estimator.q_body_eci" .vec4f, .find .internal "attitude_estimator.w_body" .vec3f,
   .find .writable "adcs.state" .uchar, .find .readable "time.valid" .bool, .find .internal "time.s" .double,
   .find .readable "orbit.valid" .bool, .find .readable "orbit.pos" .vec3d, .find .readable "orbit.vel" .vec3d,
   .find .readable "rel_orbit.state" .uchar, .find .readable "rel_orbit.rel_pos" .vec3d,
   R "attitude.pointer_vec1_current" .vec3f (.vec (9999 / 10000) (10001 / 10000) 0),
   R "attitude.pointer_vec2_current" .vec3f (.vec (9999 / 10000) (10001 / 10000) 0),
   W "attitude.pointer_vec1_desired" .vec3f (.vec (9999 / 10000) (10001 / 10000) 0),
   W "attitude.pointer_vec2_desired" .vec3f (.vec (9999 / 10000) (10001 / 10000) 0),
   W "pointer.rwa_torque_cmd" .vec3f (.vec 0 (3626481551554768257 / 500000000000000000000) 8),
   W "pointer.mtr_cmd" .vec3f (.vec 0 (19630544237756109 / 200000000000000000) 6)]

/-- src/fsw/FCCode/ADCSCommander.cpp:12-84: the constructor. -/
def adcsCommander : List Call :=
  timed "adcs_commander" ++
  [W "adcs_cmd.rwa_mode" .uchar (.int .uchar 0 2),
   W "adcs_cmd.rwa_speed_cmd" .arr3f (.vec (-340339 / 500) (340339 / 500) 48),
   W "adcs_cmd.rwa_torque_cmd" .arr3f (.vec (-20937501 / 5000000000) (20937501 / 5000000000) 48),
   W "adcs_cmd.rwa_speed_filter" .float (.real 0 1 8), W "adcs_cmd.rwa_ramp_filter" .float (.real 0 1 8),
   W "adcs_cmd.mtr_mode" .uchar (.int .uchar 0 2),
   W "adcs_cmd.mtr_cmd" .arr3f (.vec (-113337 / 2000000) (113337 / 2000000) 48),
   W "adcs_cmd.mtr_limit" .float (.real (-113337 / 2000000) (113337 / 2000000) 16), W "adcs_cmd.ssa_voltage_filter" .float (.real 0 1 8),
   W "adcs_cmd.mag1_mode" .uchar (.int .uchar 0 1), W "adcs_cmd.mag2_mode" .uchar (.int .uchar 0 1),
   W "adcs_cmd.imu_mag_filter" .float (.real 0 1 8), W "adcs_cmd.imu_gyr_filter" .float (.real 0 1 8),
   W "adcs_cmd.imu_gyr_temp_filter" .float (.real 0 1 8), W "adcs_cmd.imu_gyr_temp_pwm" .uchar (.int .uchar 0 255),
   W "adcs_cmd.imu_gyr_temp_desired" .float (.real (-40) 85 8)] ++
  ((List.range 19).map fun i => W ("adcs_cmd.havt_reset" ++ toString i) .bool .bool) ++
  ((List.range 19).map fun i => W ("adcs_cmd.havt_disable" ++ toString i) .bool .bool) ++
  [.find .writable "adcs.state" .uchar, .find .writable "pointer.rwa_torque_cmd" .vec3f,
   .find .writable "pointer.mtr_cmd" .vec3f]

/-- src/fsw/FCCode/ADCSBoxController.cpp:8-52: the constructor. -/
def adcsController : List Call :=
  timed "adcs_controller" ++
  [.find .writable "adcs.state" .uchar, .find .writable "adcs_cmd.rwa_mode" .uchar,
   .find .writable "adcs_cmd.rwa_speed_cmd" .arr3f, .find .writable "adcs_cmd.rwa_torque_cmd" .arr3f,
   .find .writable "adcs_cmd.rwa_speed_filter" .float, .find .writable "adcs_cmd.rwa_ramp_filter" .float,
   .find .writable "adcs_cmd.mtr_mode" .uchar, .find .writable "adcs_cmd.mtr_cmd" .arr3f,
   .find .writable "adcs_cmd.mtr_limit" .float, .find .readable "adcs_monitor.ssa_mode" .uchar,
   .find .writable "adcs_cmd.ssa_voltage_filter" .float, .find .writable "adcs_cmd.mag1_mode" .uchar,
   .find .writable "adcs_cmd.mag2_mode" .uchar, .find .writable "adcs_cmd.imu_mag_filter" .float,
   .find .writable "adcs_cmd.imu_gyr_filter" .float, .find .writable "adcs_cmd.imu_gyr_temp_filter" .float,
   .find .writable "adcs_cmd.imu_gyr_temp_pwm" .uchar, .find .writable "adcs_cmd.imu_gyr_temp_desired" .float] ++
  ((List.range 19).map fun i => .find .writable ("adcs_cmd.havt_reset" ++ toString i) .bool) ++
  ((List.range 19).map fun i => .find .writable ("adcs_cmd.havt_disable" ++ toString i) .bool)

/-- src/fsw/FCCode/Estimators/AttitudeEstimator.cpp:82-82: `init`. -/
def attEstimatorInit : List Call :=
  [.find .writable "adcs_cmd.mtr_cmd" .arr3f]

/-- src/fsw/FCCode/DockingController.cpp:37-37: `init`. -/
def dockingInit : List Call :=
  [.find .writable "docksys.config_cmd" .bool]

/-- src/fsw/FCCode/OrbitController.cpp:56-61: `init`. -/
def orbitControllerInit : List Call :=
  [.find .writable "prop.state" .uint, .find .writable "prop.cycles_until_firing" .uint,
   .find .writable "prop.max_pressurizing_cycles" .uint, .find .writable "prop.ctrl_cycles_per_filling" .uint,
   .find .writable "prop.ctrl_cycles_per_cooling" .uint, .find .writable "pan.state" .uchar]

/-- src/fsw/FCCode/MainControlLoop.cpp:75-78: the fields of the control loop itself. -/
def mainLoop : List Call :=
  [R "sys.memory_use" .uint (.int .uint 0 300000), R "pan.one_day_ccno" .uint (.int .uint 0 4294967295),
   R "pan.cc_ms" .uint (.int .uint 0 4294967295), R "pan.cc_duration" .uint (.int .uint 0 4294967295)]

/-- src/fsw/FCCode/DownlinkProducer.cpp:20-22: `init_flows`, its three fields, for `n` flows. -/
def initFlows (n : Int) : List Call :=
  [W "downlink.toggle_id" .uchar (.int .uchar 0 n), W "downlink.shift_id1" .uchar (.int .uchar 0 n),
   W "downlink.shift_id2" .uchar (.int .uchar 0 n)]

/-- src/fsw/FCCode/PropFaultHandler.cpp:26-32: `init`, run in the first control cycle in which it is called. -/
def propFaultHandlerInit : List Call :=
  [.find .writable "prop.state" .uint, .find .writable "prop.max_venting_cycles" .uint,
   .findFault "prop.overpressured.base", .findFault "prop.tank2_temp_high.base",
   .findFault "prop.tank1_temp_high.base"]

/-- src/fsw/FCCode/MainControlLoop.cpp:24-81: everything before `init_flows`, in order: the members' constructors, their
`init` functions, the fields of the loop and `EEPROMController::init`. -/
def beforeFlows : List Call :=
    fieldCreator ++ clockManager ++ piksi ++ adcsMonitor ++ debug ++ estimators ++ timeEstimator ++
    orbitEstimator ++ relOrbitEstimator ++ attEstimator ++ gomspace ++ docking ++ downlink ++ quake ++
    uplink ++ dcdc ++ eeprom ++ orbitController ++ prop ++ mainFaultHandler ++ missionManager ++
    mainFaultHandlerInit ++ (List.replicate 7 simpleFaultHandler).flatten ++ quakeFaultHandler ++
    piksiFaultHandler ++ missionManagerRest ++ attController ++ adcsCommander ++ adcsController ++
    attEstimatorInit ++ dockingInit ++ orbitControllerInit ++ mainLoop ++ [.eepromInit]

/-- src/flow_data.cpp:7-51 `PAN::flow_data`. -/
def flows : List NamedFlow := [
  ⟨1, true, ["pan.state", "pan.deployed", "pan.sat_designation", "pan.bootcount", "pan.deployment.elapsed", "pan.cycle_no"]⟩,
  ⟨2, true, ["time.valid", "orbit.valid", "cursed", "time.gps", "orbit.pos", "orbit.vel", "attitude_estimator.valid",
    "attitude_estimator.ignore_sun_vectors", "attitude_estimator.q_body_eci", "attitude_estimator.L_body",
    "rel_orbit.state"]⟩,
  ⟨3, false, ["orbit.pos_sigma", "orbit.vel_sigma"]⟩,
  ⟨4, false, ["rel_orbit.pos", "rel_orbit.vel"]⟩,
  ⟨5, false, ["rel_orbit.rel_pos", "rel_orbit.rel_vel", "rel_orbit.rel_pos_sigma", "rel_orbit.rel_vel_sigma"]⟩,
  ⟨6, false, ["attitude_estimator.w_bias_body", "attitude_estimator.p_body_eci_sigma_f", "attitude_estimator.w_bias_sigma_body",
    "attitude_estimator.mag_flag", "attitude_estimator.b_valid", "attitude_estimator.b_body"]⟩,
  ⟨7, true, ["adcs_monitor.functional_fault.base", "piksi_fh.dead.base", "adcs_monitor.wheel1_fault.base",
    "adcs_monitor.wheel2_fault.base", "adcs_monitor.wheel3_fault.base", "adcs_monitor.wheel_pot_fault.base",
    "prop.overpressured.base", "prop.pressurize_fail.base", "prop.tank2_temp_high.base", "prop.tank1_temp_high.base",
    "gomspace.low_batt.base", "gomspace.get_hk.base", "attitude_estimator.fault.base"]⟩,
  ⟨8, true, ["gomspace.vbatt", "gomspace.cursun", "gomspace.cursys", "gomspace.temp.output1", "gomspace.temp.output2",
    "gomspace.temp.output3", "gomspace.temp.output4"]⟩,
  ⟨9, false, ["gomspace.vboost.output1", "gomspace.vboost.output2", "gomspace.vboost.output3", "gomspace.curin.output1",
    "gomspace.curin.output2", "gomspace.curin.output3"]⟩,
  ⟨10, false, ["gomspace.curout.output1", "gomspace.curout.output2", "gomspace.curout.output3", "gomspace.curout.output4",
    "gomspace.curout.output5", "gomspace.curout.output6", "gomspace.output.output1", "gomspace.output.output2",
    "gomspace.output.output3", "gomspace.output.output4", "gomspace.output.output5", "gomspace.output.output6"]⟩,
  ⟨11, false, ["gomspace.counter_boot", "gomspace.bootcause", "gomspace.battmode", "gomspace.pptmode"]⟩,
  ⟨12, false, ["gomspace.power_cycle_output1_cmd", "gomspace.power_cycle_output2_cmd", "gomspace.power_cycle_output3_cmd",
    "gomspace.power_cycle_output4_cmd", "gomspace.power_cycle_output5_cmd", "gomspace.power_cycle_output6_cmd",
    "gomspace.piksi_off"]⟩,
  ⟨13, true, ["adcs.state", "prop.state", "radio.state", "piksi.state", "qfh.state"]⟩,
  ⟨14, true, ["adcs_monitor.havt_device0", "adcs_monitor.havt_device1", "adcs_monitor.havt_device2",
    "adcs_monitor.havt_device3", "adcs_monitor.havt_device4", "adcs_monitor.havt_device5",
    "adcs_monitor.havt_device6", "adcs_monitor.havt_device7", "adcs_monitor.havt_device8",
    "adcs_monitor.havt_device9", "adcs_monitor.havt_device10", "adcs_monitor.havt_device11",
    "adcs_monitor.havt_device12", "adcs_monitor.havt_device13", "adcs_monitor.havt_device14",
    "adcs_monitor.havt_device15", "adcs_monitor.havt_device16", "adcs_monitor.havt_device17"]⟩,
  ⟨15, true, ["adcs_monitor.rwa_speed_rd.x", "adcs_monitor.rwa_speed_rd.y", "adcs_monitor.rwa_speed_rd.z",
    "adcs_monitor.rwa_torque_rd.x", "adcs_monitor.rwa_torque_rd.y", "adcs_monitor.rwa_torque_rd.z",
    "adcs_monitor.ssa_mode"]⟩,
  ⟨16, false, ["prop.tank1.valve_choice", "prop.tank2.pressure", "prop.tank2.temp", "prop.tank1.temp", "prop.num_prop_firings"]⟩,
  ⟨17, true, ["attitude.pointer_vec1_current", "attitude.pointer_vec1_desired", "attitude.pointer_vec2_current",
    "attitude.pointer_vec2_desired"]⟩,
  ⟨18, true, ["radio.err", "radio.last_comms_ccno"]⟩,
  ⟨19, true, ["adcs_monitor.mag1_vec.x", "adcs_monitor.mag1_vec.y", "adcs_monitor.mag1_vec.z", "adcs_monitor.mag2_vec.x",
    "adcs_monitor.mag2_vec.y", "adcs_monitor.mag2_vec.z", "adcs_monitor.gyr_vec.x", "adcs_monitor.gyr_vec.y",
    "adcs_monitor.gyr_vec.z", "adcs_monitor.ssa_vec"]⟩,
  ⟨20, false, ["adcs_monitor.speed_rd_flag", "adcs_monitor.torque_rd_flag", "adcs_monitor.mag1_vec_flag",
    "adcs_monitor.mag2_vec_flag", "adcs_monitor.gyr_vec_flag", "adcs_monitor.gyr_temp_flag"]⟩,
  ⟨21, false, ["piksi.pos", "piksi.vel", "piksi.baseline_pos", "piksi.fix_error_count", "piksi.time", "piksi.microdelta"]⟩,
  ⟨22, false, ["dcdc.SpikeDock", "dcdc.ADCSMotor"]⟩,
  ⟨23, false, ["adcs_monitor.ssa_voltage0", "adcs_monitor.ssa_voltage1", "adcs_monitor.ssa_voltage2",
    "adcs_monitor.ssa_voltage3", "adcs_monitor.ssa_voltage4", "adcs_monitor.ssa_voltage5",
    "adcs_monitor.ssa_voltage6", "adcs_monitor.ssa_voltage7", "adcs_monitor.ssa_voltage8", "adcs_monitor.ssa_voltage9"]⟩,
  ⟨24, false, ["adcs_monitor.ssa_voltage10", "adcs_monitor.ssa_voltage11", "adcs_monitor.ssa_voltage12",
    "adcs_monitor.ssa_voltage13", "adcs_monitor.ssa_voltage14", "adcs_monitor.ssa_voltage15",
    "adcs_monitor.ssa_voltage16", "adcs_monitor.ssa_voltage17", "adcs_monitor.ssa_voltage18",
    "adcs_monitor.ssa_voltage19"]⟩,
  ⟨25, true, ["docksys.docked"]⟩,
  ⟨26, true, ["orbit.control.valve1", "orbit.control.valve2", "orbit.control.valve3", "orbit.control.valve4",
    "orbit.control.J_ecef", "orbit.control.alpha", "orbit.control.num_near_field_nodes"]⟩,
  ⟨27, false, ["prop.cycles_until_firing", "prop.sched_intertank1", "prop.sched_intertank2"]⟩,
  ⟨28, false, ["adcs_cmd.rwa_speed_cmd", "adcs_cmd.rwa_torque_cmd", "adcs_cmd.mtr_cmd"]⟩,
  ⟨29, false, ["timing.adcs_commander.avg_wait", "timing.adcs_commander.num_lates", "timing.adcs_controller.avg_wait",
    "timing.adcs_controller.num_lates", "timing.estimators.avg_wait", "timing.estimators.num_lates",
    "timing.adcs_monitor.avg_wait", "timing.adcs_monitor.num_lates", "timing.attitude_controller.avg_wait",
    "timing.attitude_controller.num_lates", "timing.clock_ct.avg_wait", "timing.clock_ct.num_lates",
    "timing.dcdc_ct.avg_wait", "timing.dcdc_ct.num_lates", "timing.debug.avg_wait", "timing.debug.num_lates"]⟩,
  ⟨30, false, ["timing.docking_ct.avg_wait", "timing.docking_ct.num_lates", "timing.downlink_ct.avg_wait",
    "timing.downlink_ct.num_lates", "timing.eeprom_ct.avg_wait", "timing.eeprom_ct.num_lates",
    "timing.gomspace_rd.avg_wait", "timing.gomspace_rd.num_lates", "timing.mission_ct.avg_wait",
    "timing.mission_ct.num_lates", "timing.piksi.avg_wait", "timing.piksi.num_lates", "timing.quake.avg_wait",
    "timing.quake.num_lates", "timing.uplink_ct.avg_wait", "timing.uplink_ct.num_lates"]⟩,
  ⟨31, false, ["dcdc.ADCSMotor_cmd", "dcdc.SpikeDock_cmd", "dcdc.disable_cmd", "dcdc.reset_cmd"]⟩,
  ⟨32, false, ["adcs_cmd.rwa_mode", "adcs_cmd.rwa_speed_filter", "adcs_cmd.rwa_ramp_filter", "adcs_cmd.mtr_mode",
    "adcs_cmd.mtr_limit", "adcs_cmd.ssa_voltage_filter", "adcs_cmd.mag1_mode", "adcs_cmd.mag2_mode",
    "adcs_cmd.imu_mag_filter", "adcs_cmd.imu_gyr_filter", "adcs_cmd.imu_gyr_temp_filter", "adcs_cmd.imu_gyr_temp_pwm",
    "adcs_cmd.imu_gyr_temp_desired"]⟩,
  ⟨33, false, ["detumble_safety_factor", "docking_timeout_limit", "fault_handler.enabled", "trigger_dist.close_approach",
    "trigger_dist.docking"]⟩,
  ⟨34, false, ["downlink.shift_id1", "downlink.shift_id2", "downlink.toggle_id"]⟩,
  ⟨35, false, ["gomspace.heater", "gomspace.heater_cmd"]⟩,
  ⟨36, false, ["gomspace.wdt_i2c_time_left", "gomspace.counter_wdt_i2c"]⟩,
  ⟨37, false, ["gomspace.gs_reboot_cmd", "gomspace.gs_reset_cmd", "gomspace.heater_cmd", "gomspace.pv1_cmd", "gomspace.pv2_cmd",
    "gomspace.pv3_cmd", "gomspace.pptmode_cmd", "gomspace.counter_reset_cmd"]⟩,
  ⟨38, false, ["adcs_cmd.havt_disable0", "adcs_cmd.havt_disable1", "adcs_cmd.havt_disable2", "adcs_cmd.havt_disable3",
    "adcs_cmd.havt_disable4", "adcs_cmd.havt_disable5", "adcs_cmd.havt_disable6", "adcs_cmd.havt_disable7",
    "adcs_cmd.havt_disable8", "adcs_cmd.havt_disable9", "adcs_cmd.havt_disable10", "adcs_cmd.havt_disable11",
    "adcs_cmd.havt_disable12", "adcs_cmd.havt_disable13", "adcs_cmd.havt_disable14", "adcs_cmd.havt_disable15",
    "adcs_cmd.havt_disable16", "adcs_cmd.havt_disable17", "adcs_cmd.havt_disable18"]⟩,
  ⟨39, false, ["adcs_cmd.havt_reset0", "adcs_cmd.havt_reset1", "adcs_cmd.havt_reset2", "adcs_cmd.havt_reset3",
    "adcs_cmd.havt_reset4", "adcs_cmd.havt_reset5", "adcs_cmd.havt_reset6", "adcs_cmd.havt_reset7",
    "adcs_cmd.havt_reset8", "adcs_cmd.havt_reset9", "adcs_cmd.havt_reset10", "adcs_cmd.havt_reset11",
    "adcs_cmd.havt_reset12", "adcs_cmd.havt_reset13", "adcs_cmd.havt_reset14", "adcs_cmd.havt_reset15",
    "adcs_cmd.havt_reset16", "adcs_cmd.havt_reset17", "adcs_cmd.havt_reset18"]⟩,
  ⟨40, false, ["radio.max_transceive", "radio.max_wait"]⟩,
  ⟨41, false, ["piksi_fh.no_cdpgs_max_wait", "piksi_fh.cdpgs_delay_max_wait", "piksi_fh.enabled"]⟩,
  ⟨42, false, ["prop.max_venting_cycles", "prop.ctrl_cycles_per_closing", "prop.max_pressurizing_cycles",
    "prop.threshold_firing_pressure", "prop.ctrl_cycles_per_filling", "prop.ctrl_cycles_per_cooling"]⟩,
  ⟨43, false, ["docksys.is_turning", "docksys.config_cmd", "docksys.step_angle", "docksys.step_delay", "docksys.dock_config"]⟩]

/-- src/fsw/FCCode/MainControlLoop.cpp:24-86 with src/flow_data.cpp: the whole start of the flight software, and
(src/fsw/FCCode/PropFaultHandler.cpp:38-47) the lookups the propulsion fault handler makes when it is first run. -/
def flight : List Call := beforeFlows ++ initFlows ((flows.length % 256 : Nat) : Int) ++ propFaultHandlerInit

end Table
end Startup
end PAN
