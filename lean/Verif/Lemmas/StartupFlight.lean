import Verif.Lemmas.Startup
import Verif.Model.StartupTable
/-!
The flight software's fields as a literal table, with which the kernel checks the wiring of `Table.flight`: `names` by
comparing codes, and every lookup with the place of the field it finds. All of this is only used in proofs.
-/
namespace PAN
namespace Startup
namespace Flight
open Spec

/-- The fields registered by `Table.flight`, in order. -/
def decls : List Decl := [
  ⟨.readable, "pan.bootcount", .uchar, some (.int .uchar 0 255), 100⟩, ⟨.readable, "cursed", .bool, some .bool, 0⟩,
  ⟨.readable, "timing.clock_ct.num_lates", .uint, some (.int .uint 0 4294967295), 0⟩,
  ⟨.readable, "timing.clock_ct.avg_wait", .float, some (.real 0 170000 18), 0⟩,
  ⟨.readable, "timing.clock_ct.duration", .uint, some (.int .uint 0 4294967295), 0⟩,
  ⟨.readable, "pan.cycle_no", .uint, some (.int .uint 0 4294967295), 0⟩,
  ⟨.readable, "timing.piksi.num_lates", .uint, some (.int .uint 0 4294967295), 0⟩,
  ⟨.readable, "timing.piksi.avg_wait", .float, some (.real 0 170000 18), 0⟩,
  ⟨.readable, "timing.piksi.duration", .uint, some (.int .uint 0 4294967295), 0⟩,
  ⟨.readable, "piksi.pos", .vec3d, some (.vec 6771000 6921000 28), 0⟩,
  ⟨.readable, "piksi.vel", .vec3d, some (.vec 7570 7685 19), 0⟩,
  ⟨.readable, "piksi.baseline_pos", .vec3d, some (.vec 0 2000 22), 0⟩,
  ⟨.readable, "piksi.state", .uchar, some (.int .uchar 0 14), 0⟩,
  ⟨.readable, "piksi.fix_error_count", .uint, some (.int .uint 0 1001), 0⟩,
  ⟨.readable, "piksi.time", .gps, some .gps, 0⟩,
  ⟨.readable, "piksi.microdelta", .uint, some (.int .uint 0 4294967295), 0⟩,
  ⟨.readable, "timing.adcs_monitor.num_lates", .uint, some (.int .uint 0 4294967295), 0⟩,
  ⟨.readable, "timing.adcs_monitor.avg_wait", .float, some (.real 0 170000 18), 0⟩,
  ⟨.readable, "timing.adcs_monitor.duration", .uint, some (.int .uint 0 4294967295), 0⟩,
  ⟨.readable, "adcs_monitor.havt_device0", .bool, some .bool, 0⟩,
  ⟨.readable, "adcs_monitor.havt_device1", .bool, some .bool, 0⟩,
  ⟨.readable, "adcs_monitor.havt_device2", .bool, some .bool, 0⟩,
  ⟨.readable, "adcs_monitor.havt_device3", .bool, some .bool, 0⟩,
  ⟨.readable, "adcs_monitor.havt_device4", .bool, some .bool, 0⟩,
  ⟨.readable, "adcs_monitor.havt_device5", .bool, some .bool, 0⟩,
  ⟨.readable, "adcs_monitor.havt_device6", .bool, some .bool, 0⟩,
  ⟨.readable, "adcs_monitor.havt_device7", .bool, some .bool, 0⟩,
  ⟨.readable, "adcs_monitor.havt_device8", .bool, some .bool, 0⟩,
  ⟨.readable, "adcs_monitor.havt_device9", .bool, some .bool, 0⟩,
  ⟨.readable, "adcs_monitor.havt_device10", .bool, some .bool, 0⟩,
  ⟨.readable, "adcs_monitor.havt_device11", .bool, some .bool, 0⟩,
  ⟨.readable, "adcs_monitor.havt_device12", .bool, some .bool, 0⟩,
  ⟨.readable, "adcs_monitor.havt_device13", .bool, some .bool, 0⟩,
  ⟨.readable, "adcs_monitor.havt_device14", .bool, some .bool, 0⟩,
  ⟨.readable, "adcs_monitor.havt_device15", .bool, some .bool, 0⟩,
  ⟨.readable, "adcs_monitor.havt_device16", .bool, some .bool, 0⟩,
  ⟨.readable, "adcs_monitor.havt_device17", .bool, some .bool, 0⟩,
  ⟨.readable, "adcs_monitor.havt_device18", .bool, some .bool, 0⟩,
  ⟨.readable, "adcs_monitor.rwa_speed_rd", .vec3f, some (.vec 0 1 1), 0⟩,
  ⟨.readable, "adcs_monitor.rwa_speed_rd.x", .float, some (.real (-5236 / 5) (5236 / 5) 12), 0⟩,
  ⟨.readable, "adcs_monitor.rwa_speed_rd.y", .float, some (.real (-5236 / 5) (5236 / 5) 12), 0⟩,
  ⟨.readable, "adcs_monitor.rwa_speed_rd.z", .float, some (.real (-5236 / 5) (5236 / 5) 12), 0⟩,
  ⟨.readable, "adcs_monitor.rwa_torque_rd", .vec3f, some (.vec 0 1 1), 0⟩,
  ⟨.readable, "adcs_monitor.rwa_torque_rd.x", .float, some (.real (-20937501 / 5000000000) (20937501 / 5000000000) 12), 0⟩,
  ⟨.readable, "adcs_monitor.rwa_torque_rd.y", .float, some (.real (-20937501 / 5000000000) (20937501 / 5000000000) 12), 0⟩,
  ⟨.readable, "adcs_monitor.rwa_torque_rd.z", .float, some (.real (-20937501 / 5000000000) (20937501 / 5000000000) 12), 0⟩,
  ⟨.readable, "adcs_monitor.ssa_mode", .uchar, some (.int .uchar 0 2), 0⟩,
  ⟨.readable, "adcs_monitor.ssa_vec", .vec3f, some (.vec (9999 / 10000) (10001 / 10000) 0), 0⟩,
  ⟨.readable, "adcs_monitor.ssa_voltage0", .float, some (.real 0 (33 / 10) 8), 0⟩,
  ⟨.readable, "adcs_monitor.ssa_voltage1", .float, some (.real 0 (33 / 10) 8), 0⟩,
  ⟨.readable, "adcs_monitor.ssa_voltage2", .float, some (.real 0 (33 / 10) 8), 0⟩,
  ⟨.readable, "adcs_monitor.ssa_voltage3", .float, some (.real 0 (33 / 10) 8), 0⟩,
  ⟨.readable, "adcs_monitor.ssa_voltage4", .float, some (.real 0 (33 / 10) 8), 0⟩,
  ⟨.readable, "adcs_monitor.ssa_voltage5", .float, some (.real 0 (33 / 10) 8), 0⟩,
  ⟨.readable, "adcs_monitor.ssa_voltage6", .float, some (.real 0 (33 / 10) 8), 0⟩,
  ⟨.readable, "adcs_monitor.ssa_voltage7", .float, some (.real 0 (33 / 10) 8), 0⟩,
  ⟨.readable, "adcs_monitor.ssa_voltage8", .float, some (.real 0 (33 / 10) 8), 0⟩,
  ⟨.readable, "adcs_monitor.ssa_voltage9", .float, some (.real 0 (33 / 10) 8), 0⟩,
  ⟨.readable, "adcs_monitor.ssa_voltage10", .float, some (.real 0 (33 / 10) 8), 0⟩,
  ⟨.readable, "adcs_monitor.ssa_voltage11", .float, some (.real 0 (33 / 10) 8), 0⟩,
  ⟨.readable, "adcs_monitor.ssa_voltage12", .float, some (.real 0 (33 / 10) 8), 0⟩,
  ⟨.readable, "adcs_monitor.ssa_voltage13", .float, some (.real 0 (33 / 10) 8), 0⟩,
  ⟨.readable, "adcs_monitor.ssa_voltage14", .float, some (.real 0 (33 / 10) 8), 0⟩,
  ⟨.readable, "adcs_monitor.ssa_voltage15", .float, some (.real 0 (33 / 10) 8), 0⟩,
  ⟨.readable, "adcs_monitor.ssa_voltage16", .float, some (.real 0 (33 / 10) 8), 0⟩,
  ⟨.readable, "adcs_monitor.ssa_voltage17", .float, some (.real 0 (33 / 10) 8), 0⟩,
  ⟨.readable, "adcs_monitor.ssa_voltage18", .float, some (.real 0 (33 / 10) 8), 0⟩,
  ⟨.readable, "adcs_monitor.ssa_voltage19", .float, some (.real 0 (33 / 10) 8), 0⟩,
  ⟨.readable, "adcs_monitor.mag1_vec", .vec3f, some (.vec 0 1 1), 0⟩,
  ⟨.readable, "adcs_monitor.mag1_vec.x", .float, some (.real (-3072 / 625000) (3072 / 625000) 16), 0⟩,
  ⟨.readable, "adcs_monitor.mag1_vec.y", .float, some (.real (-3072 / 625000) (3072 / 625000) 16), 0⟩,
  ⟨.readable, "adcs_monitor.mag1_vec.z", .float, some (.real (-3072 / 625000) (3072 / 625000) 16), 0⟩,
  ⟨.readable, "adcs_monitor.mag2_vec", .vec3f, some (.vec 0 1 1), 0⟩,
  ⟨.readable, "adcs_monitor.mag2_vec.x", .float, some (.real (-1 / 625) (1 / 625) 16), 0⟩,
  ⟨.readable, "adcs_monitor.mag2_vec.y", .float, some (.real (-1 / 625) (1 / 625) 16), 0⟩,
  ⟨.readable, "adcs_monitor.mag2_vec.z", .float, some (.real (-1 / 625) (1 / 625) 16), 0⟩,
  ⟨.readable, "adcs_monitor.gyr_vec", .vec3f, some (.vec 0 1 1), 0⟩,
  ⟨.readable, "adcs_monitor.gyr_vec.x", .float, some (.real (-1745329251 / 800000000) (1745329251 / 800000000) 16), 0⟩,
  ⟨.readable, "adcs_monitor.gyr_vec.y", .float, some (.real (-1745329251 / 800000000) (1745329251 / 800000000) 16), 0⟩,
  ⟨.readable, "adcs_monitor.gyr_vec.z", .float, some (.real (-1745329251 / 800000000) (1745329251 / 800000000) 16), 0⟩,
  ⟨.readable, "adcs_monitor.gyr_temp", .float, some (.real (-103) 153 16), 0⟩,
  ⟨.readable, "adcs_monitor.speed_rd_flag", .bool, some .bool, 0⟩,
  ⟨.readable, "adcs_monitor.torque_rd_flag", .bool, some .bool, 0⟩,
  ⟨.readable, "adcs_monitor.mag1_vec_flag", .bool, some .bool, 0⟩,
  ⟨.readable, "adcs_monitor.mag2_vec_flag", .bool, some .bool, 0⟩,
  ⟨.readable, "adcs_monitor.gyr_vec_flag", .bool, some .bool, 0⟩,
  ⟨.readable, "adcs_monitor.gyr_temp_flag", .bool, some .bool, 0⟩,
  ⟨.readable, "adcs_monitor.functional", .bool, some .bool, 0⟩,
  ⟨.writable, "adcs_monitor.functional_fault.base", .bool, some .bool, 0⟩,
  ⟨.writable, "adcs_monitor.functional_fault.suppress", .bool, some .bool, 0⟩,
  ⟨.writable, "adcs_monitor.functional_fault.override", .bool, some .bool, 0⟩,
  ⟨.writable, "adcs_monitor.functional_fault.unsignal", .bool, some .bool, 0⟩,
  ⟨.writable, "adcs_monitor.functional_fault.persistence", .uint, some (.int .uint 0 1048575), 0⟩,
  ⟨.writable, "adcs_monitor.wheel1_fault.base", .bool, some .bool, 0⟩,
  ⟨.writable, "adcs_monitor.wheel1_fault.suppress", .bool, some .bool, 0⟩,
  ⟨.writable, "adcs_monitor.wheel1_fault.override", .bool, some .bool, 0⟩,
  ⟨.writable, "adcs_monitor.wheel1_fault.unsignal", .bool, some .bool, 0⟩,
  ⟨.writable, "adcs_monitor.wheel1_fault.persistence", .uint, some (.int .uint 0 1048575), 0⟩,
  ⟨.writable, "adcs_monitor.wheel2_fault.base", .bool, some .bool, 0⟩,
  ⟨.writable, "adcs_monitor.wheel2_fault.suppress", .bool, some .bool, 0⟩,
  ⟨.writable, "adcs_monitor.wheel2_fault.override", .bool, some .bool, 0⟩,
  ⟨.writable, "adcs_monitor.wheel2_fault.unsignal", .bool, some .bool, 0⟩,
  ⟨.writable, "adcs_monitor.wheel2_fault.persistence", .uint, some (.int .uint 0 1048575), 0⟩,
  ⟨.writable, "adcs_monitor.wheel3_fault.base", .bool, some .bool, 0⟩,
  ⟨.writable, "adcs_monitor.wheel3_fault.suppress", .bool, some .bool, 0⟩,
  ⟨.writable, "adcs_monitor.wheel3_fault.override", .bool, some .bool, 0⟩,
  ⟨.writable, "adcs_monitor.wheel3_fault.unsignal", .bool, some .bool, 0⟩,
  ⟨.writable, "adcs_monitor.wheel3_fault.persistence", .uint, some (.int .uint 0 1048575), 0⟩,
  ⟨.writable, "adcs_monitor.wheel_pot_fault.base", .bool, some .bool, 0⟩,
  ⟨.writable, "adcs_monitor.wheel_pot_fault.suppress", .bool, some .bool, 0⟩,
  ⟨.writable, "adcs_monitor.wheel_pot_fault.override", .bool, some .bool, 0⟩,
  ⟨.writable, "adcs_monitor.wheel_pot_fault.unsignal", .bool, some .bool, 0⟩,
  ⟨.writable, "adcs_monitor.wheel_pot_fault.persistence", .uint, some (.int .uint 0 1048575), 0⟩,
  ⟨.readable, "timing.debug.num_lates", .uint, some (.int .uint 0 4294967295), 0⟩,
  ⟨.readable, "timing.debug.avg_wait", .float, some (.real 0 170000 18), 0⟩,
  ⟨.readable, "timing.debug.duration", .uint, some (.int .uint 0 4294967295), 0⟩,
  ⟨.writable, "cycle.start", .bool, some .bool, 1⟩, ⟨.writable, "cycle.auto", .bool, some .bool, 1⟩,
  ⟨.readable, "timing.estimators.num_lates", .uint, some (.int .uint 0 4294967295), 0⟩,
  ⟨.readable, "timing.estimators.avg_wait", .float, some (.real 0 170000 18), 0⟩,
  ⟨.readable, "timing.estimators.duration", .uint, some (.int .uint 0 4294967295), 0⟩,
  ⟨.readable, "time.valid", .bool, some .bool, 0⟩, ⟨.internal, "time.s", .double, none, 0⟩,
  ⟨.internal, "time.ns", .ullong, none, 0⟩, ⟨.readable, "time.gps", .gps, some .gps, 0⟩,
  ⟨.internal, "time.earth.w", .vec3d, none, 0⟩, ⟨.internal, "time.earth.q_ecef_eci", .vec4d, none, 0⟩,
  ⟨.internal, "time.earth.q_eci_ecef", .vec4d, none, 0⟩, ⟨.writable, "time.reset_cmd", .bool, some .bool, 0⟩,
  ⟨.readable, "orbit.valid", .bool, some .bool, 0⟩,
  ⟨.readable, "orbit.pos", .vec3d, some (.vec 6771000 6921000 28), 0⟩,
  ⟨.readable, "orbit.pos_sigma", .vec3d, some (.vec 0 100 12), 0⟩,
  ⟨.readable, "orbit.vel", .vec3d, some (.vec 7160 7360 20), 0⟩,
  ⟨.readable, "orbit.vel_sigma", .vec3d, some (.vec 0 50 12), 0⟩,
  ⟨.writable, "orbit.reset_cmd", .bool, some .bool, 0⟩,
  ⟨.readable, "rel_orbit.state", .uchar, some (.int .uchar 0 2), 0⟩,
  ⟨.readable, "rel_orbit.pos", .vec3d, some (.vec 6771000 6921000 28), 0⟩,
  ⟨.readable, "rel_orbit.vel", .vec3d, some (.vec 7160 7360 20), 0⟩,
  ⟨.readable, "rel_orbit.rel_pos", .vec3d, some (.vec 0 2000 22), 0⟩,
  ⟨.readable, "rel_orbit.rel_pos_sigma", .vec3d, some (.vec 0 10 12), 0⟩,
  ⟨.readable, "rel_orbit.rel_vel", .vec3d, some (.vec 0 11 14), 0⟩,
  ⟨.readable, "rel_orbit.rel_vel_sigma", .vec3d, some (.vec 0 1 12), 0⟩,
  ⟨.writable, "rel_orbit.reset_cmd", .bool, some .bool, 0⟩,
  ⟨.writable, "rel_orbit.uplink.time", .gps, some .gps, 0⟩,
  ⟨.writable, "rel_orbit.uplink.pos", .vec3d, some (.vec 6771000 6921000 28), 0⟩,
  ⟨.writable, "rel_orbit.uplink.vel", .vec3d, some (.vec 7160 7360 20), 0⟩,
  ⟨.readable, "attitude_estimator.b_valid", .bool, some .bool, 0⟩,
  ⟨.readable, "attitude_estimator.b_body", .vec3f, some (.vec 0 (1 / 10000) 12), 0⟩,
  ⟨.readable, "attitude_estimator.valid", .bool, some .bool, 0⟩,
  ⟨.readable, "attitude_estimator.q_body_eci", .vec4f, some .quat, 0⟩,
  ⟨.readable, "attitude_estimator.p_body_eci_sigma_f", .vec3f, some (.vec 0 (1 / 2) 14), 0⟩,
  ⟨.internal, "attitude_estimator.w_body", .vec3f, none, 0⟩,
  ⟨.readable, "attitude_estimator.w_bias_body", .vec3f, some (.vec 0 (7 / 20) 14), 0⟩,
  ⟨.readable, "attitude_estimator.w_bias_sigma_body", .vec3f, some (.vec 0 (1 / 10) 14), 0⟩,
  ⟨.readable, "attitude_estimator.L_body", .vec3f, some (.vec 0 (1 / 10) 14), 0⟩,
  ⟨.writable, "attitude_estimator.reset_cmd", .bool, some .bool, 0⟩,
  ⟨.writable, "attitude_estimator.mag_flag", .bool, some .bool, 1⟩,
  ⟨.writable, "attitude_estimator.ignore_sun_vectors", .bool, some .bool, 1⟩,
  ⟨.writable, "attitude_estimator.fault.base", .bool, some .bool, 0⟩,
  ⟨.writable, "attitude_estimator.fault.suppress", .bool, some .bool, 0⟩,
  ⟨.writable, "attitude_estimator.fault.override", .bool, some .bool, 0⟩,
  ⟨.writable, "attitude_estimator.fault.unsignal", .bool, some .bool, 0⟩,
  ⟨.writable, "attitude_estimator.fault.persistence", .uint, some (.int .uint 0 1048575), 0⟩,
  ⟨.readable, "timing.gomspace_rd.num_lates", .uint, some (.int .uint 0 4294967295), 0⟩,
  ⟨.readable, "timing.gomspace_rd.avg_wait", .float, some (.real 0 170000 18), 0⟩,
  ⟨.readable, "timing.gomspace_rd.duration", .uint, some (.int .uint 0 4294967295), 0⟩,
  ⟨.writable, "gomspace.get_hk.base", .bool, some .bool, 0⟩,
  ⟨.writable, "gomspace.get_hk.suppress", .bool, some .bool, 0⟩,
  ⟨.writable, "gomspace.get_hk.override", .bool, some .bool, 0⟩,
  ⟨.writable, "gomspace.get_hk.unsignal", .bool, some .bool, 0⟩,
  ⟨.writable, "gomspace.get_hk.persistence", .uint, some (.int .uint 0 1048575), 0⟩,
  ⟨.writable, "gomspace.low_batt.base", .bool, some .bool, 0⟩,
  ⟨.writable, "gomspace.low_batt.suppress", .bool, some .bool, 0⟩,
  ⟨.writable, "gomspace.low_batt.override", .bool, some .bool, 0⟩,
  ⟨.writable, "gomspace.low_batt.unsignal", .bool, some .bool, 0⟩,
  ⟨.writable, "gomspace.low_batt.persistence", .uint, some (.int .uint 0 1048575), 0⟩,
  ⟨.writable, "gomspace.batt_threshold", .uint, some (.sized .uint 5000 9000 10), 0⟩,
  ⟨.readable, "gomspace.vboost.output1", .uint, some (.sized .uint 0 8500 6), 0⟩,
  ⟨.readable, "gomspace.vboost.output2", .uint, some (.sized .uint 0 8500 6), 0⟩,
  ⟨.readable, "gomspace.vboost.output3", .uint, some (.sized .uint 0 8500 6), 0⟩,
  ⟨.readable, "gomspace.vbatt", .uint, some (.sized .uint 5000 9500 10), 0⟩,
  ⟨.readable, "gomspace.curin.output1", .uint, some (.sized .uint 0 6000 10), 0⟩,
  ⟨.readable, "gomspace.curin.output2", .uint, some (.sized .uint 0 6000 10), 0⟩,
  ⟨.readable, "gomspace.curin.output3", .uint, some (.sized .uint 0 6000 10), 0⟩,
  ⟨.readable, "gomspace.cursun", .uint, some (.sized .uint 0 3000 10), 0⟩,
  ⟨.readable, "gomspace.cursys", .uint, some (.sized .uint 0 12000 10), 0⟩,
  ⟨.readable, "gomspace.curout.output1", .uint, some (.sized .uint 0 12000 10), 0⟩,
  ⟨.readable, "gomspace.curout.output2", .uint, some (.sized .uint 0 12000 10), 0⟩,
  ⟨.readable, "gomspace.curout.output3", .uint, some (.sized .uint 0 12000 10), 0⟩,
  ⟨.readable, "gomspace.curout.output4", .uint, some (.sized .uint 0 12000 10), 0⟩,
  ⟨.readable, "gomspace.curout.output5", .uint, some (.sized .uint 0 12000 10), 0⟩,
  ⟨.readable, "gomspace.curout.output6", .uint, some (.sized .uint 0 12000 10), 0⟩,
  ⟨.readable, "gomspace.output.output1", .bool, some .bool, 0⟩,
  ⟨.readable, "gomspace.output.output2", .bool, some .bool, 0⟩,
  ⟨.readable, "gomspace.output.output3", .bool, some .bool, 0⟩,
  ⟨.readable, "gomspace.output.output4", .bool, some .bool, 0⟩,
  ⟨.readable, "gomspace.output.output5", .bool, some .bool, 0⟩,
  ⟨.readable, "gomspace.output.output6", .bool, some .bool, 0⟩,
  ⟨.readable, "gomspace.wdt_i2c_time_left", .uint, some (.int .uint 0 99), 0⟩,
  ⟨.readable, "gomspace.counter_wdt_i2c", .uint, some (.int .uint 0 4294967295), 0⟩,
  ⟨.readable, "gomspace.counter_boot", .uint, some (.int .uint 0 4294967295), 0⟩,
  ⟨.readable, "gomspace.temp.output1", .sint, some (.int .sint (-40) 125), 0⟩,
  ⟨.readable, "gomspace.temp.output2", .sint, some (.int .sint (-40) 125), 0⟩,
  ⟨.readable, "gomspace.temp.output3", .sint, some (.int .sint (-40) 125), 0⟩,
  ⟨.readable, "gomspace.temp.output4", .sint, some (.int .sint (-40) 125), 0⟩,
  ⟨.readable, "gomspace.bootcause", .uchar, some (.int .uchar 0 8), 0⟩,
  ⟨.readable, "gomspace.battmode", .uchar, some (.int .uchar 0 4), 0⟩,
  ⟨.readable, "gomspace.pptmode", .uchar, some (.int .uchar 1 2), 0⟩,
  ⟨.readable, "gomspace.heater", .bool, some .bool, 0⟩,
  ⟨.writable, "gomspace.powercycle_period", .uint, some (.int .uint 0 4294967295), 0⟩,
  ⟨.writable, "gomspace.power_cycle_output1_cmd", .bool, some .bool, 0⟩,
  ⟨.writable, "gomspace.power_cycle_output2_cmd", .bool, some .bool, 0⟩,
  ⟨.writable, "gomspace.power_cycle_output3_cmd", .bool, some .bool, 0⟩,
  ⟨.writable, "gomspace.power_cycle_output4_cmd", .bool, some .bool, 0⟩,
  ⟨.writable, "gomspace.power_cycle_output5_cmd", .bool, some .bool, 0⟩,
  ⟨.writable, "gomspace.power_cycle_output6_cmd", .bool, some .bool, 0⟩,
  ⟨.writable, "gomspace.pv1_cmd", .uint, some (.sized .uint 0 8500 9), 0⟩,
  ⟨.writable, "gomspace.pv2_cmd", .uint, some (.sized .uint 0 8500 9), 0⟩,
  ⟨.writable, "gomspace.pv3_cmd", .uint, some (.sized .uint 0 8500 9), 0⟩,
  ⟨.writable, "gomspace.pptmode_cmd", .uchar, some (.int .uchar 1 2), 0⟩,
  ⟨.writable, "gomspace.heater_cmd", .bool, some .bool, 0⟩,
  ⟨.writable, "gomspace.counter_reset_cmd", .bool, some .bool, 0⟩,
  ⟨.writable, "gomspace.gs_reset_cmd", .bool, some .bool, 0⟩,
  ⟨.writable, "gomspace.gs_reboot_cmd", .bool, some .bool, 0⟩,
  ⟨.writable, "gomspace.piksi_off", .bool, some .bool, 0⟩,
  ⟨.readable, "timing.docking_ct.num_lates", .uint, some (.int .uint 0 4294967295), 0⟩,
  ⟨.readable, "timing.docking_ct.avg_wait", .float, some (.real 0 170000 18), 0⟩,
  ⟨.readable, "timing.docking_ct.duration", .uint, some (.int .uint 0 4294967295), 0⟩,
  ⟨.readable, "docksys.docked", .bool, some .bool, 0⟩, ⟨.readable, "docksys.dock_config", .bool, some .bool, 0⟩,
  ⟨.readable, "docksys.is_turning", .bool, some .bool, 0⟩,
  ⟨.writable, "docksys.step_angle", .float, some (.real 0 180 16), 0⟩,
  ⟨.writable, "docksys.step_delay", .uint, some (.int .uint 0 4294967295), 0⟩,
  ⟨.readable, "timing.downlink_ct.num_lates", .uint, some (.int .uint 0 4294967295), 0⟩,
  ⟨.readable, "timing.downlink_ct.avg_wait", .float, some (.real 0 170000 18), 0⟩,
  ⟨.readable, "timing.downlink_ct.duration", .uint, some (.int .uint 0 4294967295), 0⟩,
  ⟨.internal, "downlink.ptr", .ptr, none, 0⟩, ⟨.internal, "downlink.snap_size", .size, none, 0⟩,
  ⟨.readable, "timing.quake.num_lates", .uint, some (.int .uint 0 4294967295), 0⟩,
  ⟨.readable, "timing.quake.avg_wait", .float, some (.real 0 170000 18), 0⟩,
  ⟨.readable, "timing.quake.duration", .uint, some (.int .uint 0 4294967295), 0⟩,
  ⟨.writable, "radio.max_wait", .uint, some (.int .uint 0 508235), 0⟩,
  ⟨.writable, "radio.max_transceive", .uint, some (.int .uint 0 508235), 0⟩,
  ⟨.readable, "radio.err", .sint, some (.int .sint (-90) 10), 0⟩, ⟨.internal, "uplink.ptr", .ptr, none, 0⟩,
  ⟨.internal, "uplink.len", .size, none, 0⟩, ⟨.readable, "radio.state", .uchar, some (.int .uchar 0 255), 0⟩,
  ⟨.readable, "radio.last_comms_ccno", .uint, some (.int .uint 0 4294967295), 0⟩,
  ⟨.writable, "telem.dump", .bool, some .bool, 0⟩,
  ⟨.readable, "timing.uplink_ct.num_lates", .uint, some (.int .uint 0 4294967295), 0⟩,
  ⟨.readable, "timing.uplink_ct.avg_wait", .float, some (.real 0 170000 18), 0⟩,
  ⟨.readable, "timing.uplink_ct.duration", .uint, some (.int .uint 0 4294967295), 0⟩,
  ⟨.readable, "timing.dcdc_ct.num_lates", .uint, some (.int .uint 0 4294967295), 0⟩,
  ⟨.readable, "timing.dcdc_ct.avg_wait", .float, some (.real 0 170000 18), 0⟩,
  ⟨.readable, "timing.dcdc_ct.duration", .uint, some (.int .uint 0 4294967295), 0⟩,
  ⟨.writable, "dcdc.ADCSMotor_cmd", .bool, some .bool, 0⟩, ⟨.writable, "dcdc.SpikeDock_cmd", .bool, some .bool, 0⟩,
  ⟨.writable, "dcdc.disable_cmd", .bool, some .bool, 0⟩, ⟨.writable, "dcdc.reset_cmd", .bool, some .bool, 0⟩,
  ⟨.readable, "dcdc.ADCSMotor", .bool, some .bool, 0⟩, ⟨.readable, "dcdc.SpikeDock", .bool, some .bool, 0⟩,
  ⟨.readable, "timing.eeprom_ct.num_lates", .uint, some (.int .uint 0 4294967295), 0⟩,
  ⟨.readable, "timing.eeprom_ct.avg_wait", .float, some (.real 0 170000 18), 0⟩,
  ⟨.readable, "timing.eeprom_ct.duration", .uint, some (.int .uint 0 4294967295), 0⟩,
  ⟨.readable, "timing.orbit_control_ct.num_lates", .uint, some (.int .uint 0 4294967295), 0⟩,
  ⟨.readable, "timing.orbit_control_ct.avg_wait", .float, some (.real 0 170000 18), 0⟩,
  ⟨.readable, "timing.orbit_control_ct.duration", .uint, some (.int .uint 0 4294967295), 0⟩,
  ⟨.writable, "orbit.control.valve1", .uint, some (.int .uint 0 1000), 0⟩,
  ⟨.writable, "orbit.control.valve2", .uint, some (.int .uint 0 1000), 0⟩,
  ⟨.writable, "orbit.control.valve3", .uint, some (.int .uint 0 1000), 0⟩,
  ⟨.writable, "orbit.control.valve4", .uint, some (.int .uint 0 1000), 0⟩,
  ⟨.writable, "orbit.control.J_ecef", .vec3d, some (.vec 0 (1 / 40) 10), 0⟩,
  ⟨.writable, "orbit.control.alpha", .double, some (.real 0 1 10), 0⟩,
  ⟨.writable, "orbit.control.num_near_field_nodes", .uint, some (.int .uint 0 300), 0⟩,
  ⟨.readable, "timing.prop.num_lates", .uint, some (.int .uint 0 4294967295), 0⟩,
  ⟨.readable, "timing.prop.avg_wait", .float, some (.real 0 170000 18), 0⟩,
  ⟨.readable, "timing.prop.duration", .uint, some (.int .uint 0 4294967295), 0⟩,
  ⟨.writable, "prop.state", .uint, some (.int .uint 0 9), 0⟩,
  ⟨.writable, "prop.cycles_until_firing", .uint, some (.int .uint 0 33882), 0⟩,
  ⟨.writable, "prop.sched_intertank1", .uint, some (.int .uint 0 2000), 0⟩,
  ⟨.writable, "prop.sched_intertank2", .uint, some (.int .uint 0 2000), 0⟩,
  ⟨.writable, "prop.max_venting_cycles", .uint, some (.int .uint 0 50), 0⟩,
  ⟨.writable, "prop.ctrl_cycles_per_closing", .uint, some (.int .uint 0 50), 0⟩,
  ⟨.writable, "prop.max_pressurizing_cycles", .uint, some (.int .uint 0 50), 0⟩,
  ⟨.writable, "prop.threshold_firing_pressure", .float, some (.real 10 50 6), 0⟩,
  ⟨.writable, "prop.ctrl_cycles_per_filling", .uint, some (.int .uint 0 25), 0⟩,
  ⟨.writable, "prop.ctrl_cycles_per_cooling", .uint, some (.int .uint 0 100), 0⟩,
  ⟨.writable, "prop.tank1.valve_choice", .uint, some (.int .uint 0 1), 0⟩,
  ⟨.readable, "prop.tank2.pressure", .float, some (.real 0 150 8), 0⟩,
  ⟨.readable, "prop.tank2.temp", .float, some (.real (-60) 155 8), 0⟩,
  ⟨.readable, "prop.tank1.temp", .float, some (.real (-60) 155 8), 0⟩,
  ⟨.readable, "prop.num_prop_firings", .uint, some (.int .uint 0 4294967295), 0⟩,
  ⟨.writable, "prop.pressurize_fail.base", .bool, some .bool, 0⟩,
  ⟨.writable, "prop.pressurize_fail.suppress", .bool, some .bool, 0⟩,
  ⟨.writable, "prop.pressurize_fail.override", .bool, some .bool, 0⟩,
  ⟨.writable, "prop.pressurize_fail.unsignal", .bool, some .bool, 0⟩,
  ⟨.writable, "prop.pressurize_fail.persistence", .uint, some (.int .uint 0 1048575), 0⟩,
  ⟨.writable, "prop.overpressured.base", .bool, some .bool, 0⟩,
  ⟨.writable, "prop.overpressured.suppress", .bool, some .bool, 0⟩,
  ⟨.writable, "prop.overpressured.override", .bool, some .bool, 0⟩,
  ⟨.writable, "prop.overpressured.unsignal", .bool, some .bool, 0⟩,
  ⟨.writable, "prop.overpressured.persistence", .uint, some (.int .uint 0 1048575), 0⟩,
  ⟨.writable, "prop.tank2_temp_high.base", .bool, some .bool, 0⟩,
  ⟨.writable, "prop.tank2_temp_high.suppress", .bool, some .bool, 0⟩,
  ⟨.writable, "prop.tank2_temp_high.override", .bool, some .bool, 0⟩,
  ⟨.writable, "prop.tank2_temp_high.unsignal", .bool, some .bool, 0⟩,
  ⟨.writable, "prop.tank2_temp_high.persistence", .uint, some (.int .uint 0 1048575), 0⟩,
  ⟨.writable, "prop.tank1_temp_high.base", .bool, some .bool, 0⟩,
  ⟨.writable, "prop.tank1_temp_high.suppress", .bool, some .bool, 0⟩,
  ⟨.writable, "prop.tank1_temp_high.override", .bool, some .bool, 0⟩,
  ⟨.writable, "prop.tank1_temp_high.unsignal", .bool, some .bool, 0⟩,
  ⟨.writable, "prop.tank1_temp_high.persistence", .uint, some (.int .uint 0 1048575), 0⟩,
  ⟨.readable, "timing.mission_ct.num_lates", .uint, some (.int .uint 0 4294967295), 0⟩,
  ⟨.readable, "timing.mission_ct.avg_wait", .float, some (.real 0 170000 18), 0⟩,
  ⟨.readable, "timing.mission_ct.duration", .uint, some (.int .uint 0 4294967295), 0⟩,
  ⟨.writable, "fault_handler.enabled", .bool, some .bool, 0⟩,
  ⟨.writable, "detumble_safety_factor", .double, some (.real 0 (1 / 20) 7), 0⟩,
  ⟨.writable, "trigger_dist.close_approach", .double, some (.real 0 5000 13), 0⟩,
  ⟨.writable, "trigger_dist.docking", .double, some (.real 0 100 14), 0⟩,
  ⟨.writable, "docking_timeout_limit", .uint, some (.sized .uint 0 1016470 6), 0⟩,
  ⟨.writable, "adcs.state", .uchar, some (.int .uchar 0 10), 0⟩,
  ⟨.writable, "docksys.config_cmd", .bool, some .bool, 0⟩, ⟨.internal, "docksys.enter_docking", .uint, none, 0⟩,
  ⟨.writable, "pan.state", .uchar, some (.int .uchar 0 12), 1⟩, ⟨.readable, "pan.deployed", .bool, some .bool, 1⟩,
  ⟨.readable, "pan.deployment.elapsed", .uchar, some (.int .uchar 0 255), 1⟩,
  ⟨.writable, "pan.sat_designation", .uchar, some (.int .uchar 0 2), 0⟩,
  ⟨.internal, "pan.enter_close_approach_ccno", .uint, none, 0⟩,
  ⟨.writable, "pan.kill_switch", .uchar, some (.int .uchar 0 255), 100⟩,
  ⟨.writable, "qfh.state", .uchar, some (.int .uchar 0 5), 0⟩, ⟨.writable, "qfh.enabled", .bool, some .bool, 0⟩,
  ⟨.writable, "piksi_fh.no_cdpgs_max_wait", .uint, some (.int .uint 0 508235), 0⟩,
  ⟨.writable, "piksi_fh.cdpgs_delay_max_wait", .uint, some (.int .uint 0 508235), 0⟩,
  ⟨.writable, "piksi_fh.enabled", .bool, some .bool, 0⟩, ⟨.internal, "piksi_fh.last_rtkfix_ccno", .uint, none, 0⟩,
  ⟨.writable, "piksi_fh.dead.base", .bool, some .bool, 0⟩,
  ⟨.writable, "piksi_fh.dead.suppress", .bool, some .bool, 0⟩,
  ⟨.writable, "piksi_fh.dead.override", .bool, some .bool, 0⟩,
  ⟨.writable, "piksi_fh.dead.unsignal", .bool, some .bool, 0⟩,
  ⟨.writable, "piksi_fh.dead.persistence", .uint, some (.int .uint 0 1048575), 0⟩,
  ⟨.readable, "timing.attitude_controller.num_lates", .uint, some (.int .uint 0 4294967295), 0⟩,
  ⟨.readable, "timing.attitude_controller.avg_wait", .float, some (.real 0 170000 18), 0⟩,
  ⟨.readable, "timing.attitude_controller.duration", .uint, some (.int .uint 0 4294967295), 0⟩,
  ⟨.readable, "attitude.pointer_vec1_current", .vec3f, some (.vec (9999 / 10000) (10001 / 10000) 0), 0⟩,
  ⟨.readable, "attitude.pointer_vec2_current", .vec3f, some (.vec (9999 / 10000) (10001 / 10000) 0), 0⟩,
  ⟨.writable, "attitude.pointer_vec1_desired", .vec3f, some (.vec (9999 / 10000) (10001 / 10000) 0), 0⟩,
  ⟨.writable, "attitude.pointer_vec2_desired", .vec3f, some (.vec (9999 / 10000) (10001 / 10000) 0), 0⟩,
  ⟨.writable, "pointer.rwa_torque_cmd", .vec3f, some (.vec 0 (3626481551554768257 / 500000000000000000000) 8), 0⟩,
  ⟨.writable, "pointer.mtr_cmd", .vec3f, some (.vec 0 (19630544237756109 / 200000000000000000) 6), 0⟩,
  ⟨.readable, "timing.adcs_commander.num_lates", .uint, some (.int .uint 0 4294967295), 0⟩,
  ⟨.readable, "timing.adcs_commander.avg_wait", .float, some (.real 0 170000 18), 0⟩,
  ⟨.readable, "timing.adcs_commander.duration", .uint, some (.int .uint 0 4294967295), 0⟩,
  ⟨.writable, "adcs_cmd.rwa_mode", .uchar, some (.int .uchar 0 2), 0⟩,
  ⟨.writable, "adcs_cmd.rwa_speed_cmd", .arr3f, some (.vec (-340339 / 500) (340339 / 500) 48), 0⟩,
  ⟨.writable, "adcs_cmd.rwa_torque_cmd", .arr3f, some (.vec (-20937501 / 5000000000) (20937501 / 5000000000) 48), 0⟩,
  ⟨.writable, "adcs_cmd.rwa_speed_filter", .float, some (.real 0 1 8), 0⟩,
  ⟨.writable, "adcs_cmd.rwa_ramp_filter", .float, some (.real 0 1 8), 0⟩,
  ⟨.writable, "adcs_cmd.mtr_mode", .uchar, some (.int .uchar 0 2), 0⟩,
  ⟨.writable, "adcs_cmd.mtr_cmd", .arr3f, some (.vec (-113337 / 2000000) (113337 / 2000000) 48), 0⟩,
  ⟨.writable, "adcs_cmd.mtr_limit", .float, some (.real (-113337 / 2000000) (113337 / 2000000) 16), 0⟩,
  ⟨.writable, "adcs_cmd.ssa_voltage_filter", .float, some (.real 0 1 8), 0⟩,
  ⟨.writable, "adcs_cmd.mag1_mode", .uchar, some (.int .uchar 0 1), 0⟩,
  ⟨.writable, "adcs_cmd.mag2_mode", .uchar, some (.int .uchar 0 1), 0⟩,
  ⟨.writable, "adcs_cmd.imu_mag_filter", .float, some (.real 0 1 8), 0⟩,
  ⟨.writable, "adcs_cmd.imu_gyr_filter", .float, some (.real 0 1 8), 0⟩,
  ⟨.writable, "adcs_cmd.imu_gyr_temp_filter", .float, some (.real 0 1 8), 0⟩,
  ⟨.writable, "adcs_cmd.imu_gyr_temp_pwm", .uchar, some (.int .uchar 0 255), 0⟩,
  ⟨.writable, "adcs_cmd.imu_gyr_temp_desired", .float, some (.real (-40) 85 8), 0⟩,
  ⟨.writable, "adcs_cmd.havt_reset0", .bool, some .bool, 0⟩,
  ⟨.writable, "adcs_cmd.havt_reset1", .bool, some .bool, 0⟩,
  ⟨.writable, "adcs_cmd.havt_reset2", .bool, some .bool, 0⟩,
  ⟨.writable, "adcs_cmd.havt_reset3", .bool, some .bool, 0⟩,
  ⟨.writable, "adcs_cmd.havt_reset4", .bool, some .bool, 0⟩,
  ⟨.writable, "adcs_cmd.havt_reset5", .bool, some .bool, 0⟩,
  ⟨.writable, "adcs_cmd.havt_reset6", .bool, some .bool, 0⟩,
  ⟨.writable, "adcs_cmd.havt_reset7", .bool, some .bool, 0⟩,
  ⟨.writable, "adcs_cmd.havt_reset8", .bool, some .bool, 0⟩,
  ⟨.writable, "adcs_cmd.havt_reset9", .bool, some .bool, 0⟩,
  ⟨.writable, "adcs_cmd.havt_reset10", .bool, some .bool, 0⟩,
  ⟨.writable, "adcs_cmd.havt_reset11", .bool, some .bool, 0⟩,
  ⟨.writable, "adcs_cmd.havt_reset12", .bool, some .bool, 0⟩,
  ⟨.writable, "adcs_cmd.havt_reset13", .bool, some .bool, 0⟩,
  ⟨.writable, "adcs_cmd.havt_reset14", .bool, some .bool, 0⟩,
  ⟨.writable, "adcs_cmd.havt_reset15", .bool, some .bool, 0⟩,
  ⟨.writable, "adcs_cmd.havt_reset16", .bool, some .bool, 0⟩,
  ⟨.writable, "adcs_cmd.havt_reset17", .bool, some .bool, 0⟩,
  ⟨.writable, "adcs_cmd.havt_reset18", .bool, some .bool, 0⟩,
  ⟨.writable, "adcs_cmd.havt_disable0", .bool, some .bool, 0⟩,
  ⟨.writable, "adcs_cmd.havt_disable1", .bool, some .bool, 0⟩,
  ⟨.writable, "adcs_cmd.havt_disable2", .bool, some .bool, 0⟩,
  ⟨.writable, "adcs_cmd.havt_disable3", .bool, some .bool, 0⟩,
  ⟨.writable, "adcs_cmd.havt_disable4", .bool, some .bool, 0⟩,
  ⟨.writable, "adcs_cmd.havt_disable5", .bool, some .bool, 0⟩,
  ⟨.writable, "adcs_cmd.havt_disable6", .bool, some .bool, 0⟩,
  ⟨.writable, "adcs_cmd.havt_disable7", .bool, some .bool, 0⟩,
  ⟨.writable, "adcs_cmd.havt_disable8", .bool, some .bool, 0⟩,
  ⟨.writable, "adcs_cmd.havt_disable9", .bool, some .bool, 0⟩,
  ⟨.writable, "adcs_cmd.havt_disable10", .bool, some .bool, 0⟩,
  ⟨.writable, "adcs_cmd.havt_disable11", .bool, some .bool, 0⟩,
  ⟨.writable, "adcs_cmd.havt_disable12", .bool, some .bool, 0⟩,
  ⟨.writable, "adcs_cmd.havt_disable13", .bool, some .bool, 0⟩,
  ⟨.writable, "adcs_cmd.havt_disable14", .bool, some .bool, 0⟩,
  ⟨.writable, "adcs_cmd.havt_disable15", .bool, some .bool, 0⟩,
  ⟨.writable, "adcs_cmd.havt_disable16", .bool, some .bool, 0⟩,
  ⟨.writable, "adcs_cmd.havt_disable17", .bool, some .bool, 0⟩,
  ⟨.writable, "adcs_cmd.havt_disable18", .bool, some .bool, 0⟩,
  ⟨.readable, "timing.adcs_controller.num_lates", .uint, some (.int .uint 0 4294967295), 0⟩,
  ⟨.readable, "timing.adcs_controller.avg_wait", .float, some (.real 0 170000 18), 0⟩,
  ⟨.readable, "timing.adcs_controller.duration", .uint, some (.int .uint 0 4294967295), 0⟩,
  ⟨.readable, "sys.memory_use", .uint, some (.int .uint 0 300000), 0⟩,
  ⟨.readable, "pan.one_day_ccno", .uint, some (.int .uint 0 4294967295), 0⟩,
  ⟨.readable, "pan.cc_ms", .uint, some (.int .uint 0 4294967295), 0⟩,
  ⟨.readable, "pan.cc_duration", .uint, some (.int .uint 0 4294967295), 0⟩,
  ⟨.writable, "downlink.toggle_id", .uchar, some (.int .uchar 0 43), 0⟩,
  ⟨.writable, "downlink.shift_id1", .uchar, some (.int .uchar 0 43), 0⟩,
  ⟨.writable, "downlink.shift_id2", .uchar, some (.int .uchar 0 43), 0⟩]

/-- The faults registered by `Table.flight`, in order. -/
def faults : List String := [
  "adcs_monitor.functional_fault", "adcs_monitor.wheel1_fault", "adcs_monitor.wheel2_fault",
  "adcs_monitor.wheel3_fault", "adcs_monitor.wheel_pot_fault", "attitude_estimator.fault", "gomspace.get_hk",
  "gomspace.low_batt", "prop.pressurize_fail", "prop.overpressured", "prop.tank2_temp_high", "prop.tank1_temp_high",
  "piksi_fh.dead"]

/-- For every lookup the place of what it finds, in `decls` or `faults`. -/
def wits : List Nat := [
  12, 15, 14, 12, 15, 9, 10, 121, 123, 125, 12, 15, 9, 10, 11, 121, 124, 125, 129, 130, 132, 121, 122, 129, 130, 19,
  76, 20, 68, 21, 72, 46, 47, 5, 237, 236, 212, 245, 244, 122, 121, 129, 135, 130, 132, 138, 140, 148, 149, 267,
  268, 269, 270, 7, 0, 1, 2, 3, 4, 8, 0, 7, 1, 2, 3, 4, 8, 5, 323, 323, 323, 323, 323, 323, 323, 246, 247, 212, 12,
  323, 327, 148, 154, 246, 247, 277, 135, 138, 222, 228, 256, 255, 224, 210, 38, 146, 147, 148, 149, 151, 320, 121,
  122, 129, 130, 132, 135, 138, 320, 347, 348, 320, 352, 353, 354, 355, 356, 357, 358, 359, 46, 360, 361, 362, 363,
  364, 365, 366, 367, 368, 369, 370, 371, 372, 373, 374, 375, 376, 377, 378, 379, 380, 381, 382, 383, 384, 385, 386,
  387, 388, 389, 390, 391, 392, 393, 394, 395, 396, 397, 398, 399, 400, 401, 402, 403, 404, 405, 358, 321, 277, 278,
  283, 285, 286, 323, 277, 281, 9, 10, 11]

/-- The names of the readable and writable fields as numbers. -/
def codes : List Nat := [
  8903707448435102787210705202804, 109356082488676, 730728873385900062860599775928360619832454303210833169376627,
  2854409661663672120549217874720158671219588148072915495284,
  2854409661663672120549217874720158671219804051483220602734, 34780107220524479377880084079,
  43554834925287965774061287168312312031548536454931827, 170136073926906116304926903001219032399392068954484,
  170136073926906116304926903001219248302802374061934, 2073631628347548135283, 2073631628347548525932,
  9792448499526861831789900693483915247120243, 135897522395384927561544805,
  164290023645438079685935817004260783682687455293044, 530849696856972389346661,
  149420906059675067836320456602467202145, 3138456613435365556750571241027273116759517716541744082789840511591795,
  12259596146231896706056918910262785612341866080240251349553412925812,
  12259596146231896706056918910262785612341866080240467252963718033262,
  611340386680128187515946416248615798974184669992520838767920,
  611340386680128187515946416248615798974184669992520838767921,
  611340386680128187515946416248615798974184669992520838767922,
  611340386680128187515946416248615798974184669992520838767923,
  611340386680128187515946416248615798974184669992520838767924,
  611340386680128187515946416248615798974184669992520838767925,
  611340386680128187515946416248615798974184669992520838767926,
  611340386680128187515946416248615798974184669992520838767927,
  611340386680128187515946416248615798974184669992520838767928,
  611340386680128187515946416248615798974184669992520838767929,
  156503138990112816004082282559645644537391275518085334724587824,
  156503138990112816004082282559645644537391275518085334724587825,
  156503138990112816004082282559645644537391275518085334724587826,
  156503138990112816004082282559645644537391275518085334724587827,
  156503138990112816004082282559645644537391275518085334724587828,
  156503138990112816004082282559645644537391275518085334724587829,
  156503138990112816004082282559645644537391275518085334724587830,
  156503138990112816004082282559645644537391275518085334724587831,
  156503138990112816004082282559645644537391275518085334724587832,
  611340386680128187515946416248618920321095281728746860540516,
  40064803581468880897045064335269489562163300383375154252383268472,
  40064803581468880897045064335269489562163300383375154252383268473,
  40064803581468880897045064335269489562163300383375154252383268474,
  156503138990112816004082282559646443602200410500918117920633444,
  10256589716856033509643536469828989327913806102588169776046633397880,
  10256589716856033509643536469828989327913806102588169776046633397881,
  10256589716856033509643536469828989327913806102588169776046633397882,
  142338775722339792995701175240943959208764459934821, 556010842665389816389457715784937340659236758883,
  611340386680128187515946416248619224970402040514366979663152,
  611340386680128187515946416248619224970402040514366979663153,
  611340386680128187515946416248619224970402040514366979663154,
  611340386680128187515946416248619224970402040514366979663155,
  611340386680128187515946416248619224970402040514366979663156,
  611340386680128187515946416248619224970402040514366979663157,
  611340386680128187515946416248619224970402040514366979663158,
  611340386680128187515946416248619224970402040514366979663159,
  611340386680128187515946416248619224970402040514366979663160,
  611340386680128187515946416248619224970402040514366979663161,
  156503138990112816004082282559646521592422922371677946793767216,
  156503138990112816004082282559646521592422922371677946793767217,
  156503138990112816004082282559646521592422922371677946793767218,
  156503138990112816004082282559646521592422922371677946793767219,
  156503138990112816004082282559646521592422922371677946793767220,
  156503138990112816004082282559646521592422922371677946793767221,
  156503138990112816004082282559646521592422922371677946793767222,
  156503138990112816004082282559646521592422922371677946793767223,
  156503138990112816004082282559646521592422922371677946793767224,
  156503138990112816004082282559646521592422922371677946793767225,
  142338775722339792995701175240943521803049918424419, 9328314005739260673766272220590474644884679453862735480,
  9328314005739260673766272220590474644884679453862735481, 9328314005739260673766272220590474644884679453862735482,
  142338775722339792995701175240943521803054213391715, 9328314005739260673766272220590474644884960928839446136,
  9328314005739260673766272220590474644884960928839446137, 9328314005739260673766272220590474644884960928839446138,
  556010842665389816389457715784933969629600441699, 36438726584918987006899500861681432633645494547197560,
  36438726584918987006899500861681432633645494547197561, 36438726584918987006899500861681432633645494547197562,
  142338775722339792995701175240943096225177679523184,
  156503138990112816004082282559646520668831597192354892878733671,
  40064803581468880897045064335269529498440222645707325430754468199,
  156503138990112816004082282559646040659753562288217357657334119,
  156503138990112816004082282559646040659758284654700227302547815,
  611340386680128187515946416248615518484119329445365817303399,
  156503138990112816004082282559645572731934511447358913110630759,
  9328314005739260673766272220590441957772680781716414828,
  2886973351682805849404151546229458999534213558863492769468997762583280103297479525,
  12399456129901157688708331977683358514772326468398472373201812676192360521300781667912610675,
  12399456129901157688708331977683358514772326468398472373201812676192360521012820680699896933,
  12399456129901157688708331977683358514772326468398472373201812676192360521442929799437640044,
  208028353773875781193520446589300885407774511982838345075239422860017290012033516795983388543443813,
  672175863683877012087998806086714326088464093513166110875205733198164837,
  2886973351682805849404151546229483770644632884509334191624518562588424810940167027,
  2886973351682805849404151546229483770644632884509334191624518562300463823727453285,
  2886973351682805849404151546229483770644632884509334191624518562730572942465196396,
  48435375507426397221516921787826034788599465144116153749069938816853223937475595413119845,
  672175863683877012087998806086714326088464093822651120696550801922945893,
  2886973351682805849404151546229483770644632885838562187409434435492231871220511603,
  2886973351682805849404151546229483770644632885838562187409434435204270884007797861,
  2886973351682805849404151546229483770644632885838562187409434435634380002745540972,
  48435375507426397221516921787826034788599465166416898947600561958388942210123956919100261,
  672175863683877012087998806086714326088464094132136130517895870647726949,
  2886973351682805849404151546229483770644632887167790183194350308396038931500856179,
  2886973351682805849404151546229483770644632887167790183194350308108077944288142437,
  2886973351682805849404151546229483770644632887167790183194350308538187063025885548,
  48435375507426397221516921787826034788599465188717644146131185099924660482772318425080677,
  11277239655010960349234966977458920979080597444305762048950192324876624944264037,
  48435375507426397221516921787826034788599466171434429424599027168255312601077210511930227,
  48435375507426397221516921787826034788599466171434429424599027168255312313116223299216485,
  48435375507426397221516921787826034788599466171434429424599027168255312743225342036959596,
  812610756929202270287189244489463556071847581442848452293253592191687718953495978009374120371045,
  43554834925287965711671882790569313431909328703743347, 170136073926906116061218292150660444119551413676404,
  170136073926906116061218292150660660022961718783854, 120256896524639014765032052, 469753502049370849506415,
  47889047446218346531206791279071480329820817835576558170980771187,
  187066591586790416137526528433872970038362568733747085953821044,
  187066591586790416137526528433872970038362568949650496258928494, 549739302898427105143140, 8388356062291914867,
  2361112327274508929649818122546532, 134730931135939758739188068, 2055830858397517901683,
  578664942988489284341244215840697697, 2055830858397518292332, 578664942988489394299162392881753441,
  578664942988489320514163024077221220, 593978951420297573077476631684150373, 9063399527287255448569894694771,
  9063399527287255448569895085420, 38927004560280621749205508236131720785779,
  10956977702020587912913483979636368102072374282336824673, 38927004560280621749205508236131721176428,
  10956977702020587912913483979636368212030292459377880417, 2551120170862550826955932187765105392233966948,
  167190211517648130995383975535968596486875828022629, 653086763740813011700718654437377330026858442611,
  653086763740813011700718654437377330026858833260, 156603988506725067191800765883111943034445825546099672411302244,
  611734330104394793717971741730906027478304006039451510727801,
  2389587226970292162960827116136351669837125023677541017956,
  2627378941638843904891354878186399820468593055556066221596744731681641,
  48466586921065617683010987689212019035683926171976312086319679794732653742822403969474406,
  672609009059544039652186848815718354039959822229606507213257840081724537,
  189322605160412569074261670660984449358140336611664445533698819489129978338290550400121,
  611734330104394793717971741730906027478304006015262254916729,
  10263198990776734003481854992915624298705441623284767541897992564068,
  40090621057721617201100996066076657416818131340594696120299184487,
  48466586921065617683010987689212019035683926171369264294751044183115362693889083912974963,
  2627378941638843904891354878186399820468593055504158452040457957503845,
  11284506628537927214757303634940651020892878568523073343515752626947320877249395,
  11284506628537927214757303634940651020892878568523073343515752338986333664535653,
  11284506628537927214757303634940651020892878568523073343515752769095452402278764,
  189322605160412569074261670660984449358140336605882402468005977522564407552172710847333,
  12259596146231896714888950645948037673371586840697207765693459883379,
  47889047446218346542534963460734522161607761095536993990338505076,
  47889047446218346542534963460734522161607761095752897400643612526,
  590510966632910332237677004852759636680474981221, 2536225289617697114261317234853835934892712651439217144691,
  2536225289617697114261317234853835934892424690452004430949,
  2536225289617697114261317234853835934892854799570742174060,
  42550799508578661908538799693665533908253274680913030157509223269,
  38699726709254411533528799429319791162156588474659685,
  166214060580385398080231401023071966567012381560199220612658035,
  166214060580385398080231401023071966567012381272238233399944293,
  166214060580385398080231401023071966567012381702347352137687404,
  2788609196594211186838027544946699366639545196407581111823466312393573,
  9907130037569129352583168719712473416378488133287636068, 9907130037569129352583574445579333728995996292749816881,
  9907130037569129352583574445579333728995996292749816882, 9907130037569129352583574445579333728995996292749816883,
  2097916388638446719872714837947508, 38699726709254411533528088226770033962529823598670897,
  38699726709254411533528088226770033962529823598670898, 38699726709254411533528088226770033962529823598670899,
  537066595491442360287394189683160430, 537066595491442360287394189683161459,
  9907130037569129352583190586060416592477356517775209521, 9907130037569129352583190586060416592477356517775209522,
  9907130037569129352583190586060416592477356517775209523, 9907130037569129352583190586060416592477356517775209524,
  9907130037569129352583190586060416592477356517775209525, 9907130037569129352583190586060416592477356517775209526,
  9907130037569129352583433975595839357984748651414910001, 9907130037569129352583433975595839357984748651414910002,
  9907130037569129352583433975595839357984748651414910003, 9907130037569129352583433975595839357984748651414910004,
  9907130037569129352583433975595839357984748651414910005, 9907130037569129352583433975595839357984748651414910006,
  166214060580385398080235129492023792711123914020213035947615860,
  2536225289617697114261296668574382749789061755787220169315, 151170807458025045052844087396525308477226248793972,
  151170807458025045052849336514686995608849157026865, 151170807458025045052849336514686995608849157026866,
  151170807458025045052849336514686995608849157026867, 151170807458025045052849336514686995608849157026868,
  9010482278944554630091415517526313221321573, 35197196402127166523794587930185213895781,
  137489048445809244233576566244517045349, 537066595491442360287399618236671346,
  166214060580385398080232762152662613054023884504262383980080996,
  46785098830847545431198328259440310809935102165165319706931162061293425487204,
  46785098830847545431198328259440310809935102165165319706931162061297720454500,
  46785098830847545431198328259440310809935102165165319706931162061302015421796,
  46785098830847545431198328259440310809935102165165319706931162061306310389092,
  46785098830847545431198328259440310809935102165165319706931162061310605356388,
  46785098830847545431198328259440310809935102165165319706931162061314900323684,
  137489048445809244233576572553588338020, 137489048445809244233576572557883305316,
  137489048445809244233576572562178272612, 590510966632910332237687937132178249090104257892,
  2306683463409805985303430521209388620570652004, 166214060580385398080228338471690747890175859065333656599096676,
  151170807458025045052845330068448519731716087311716, 38699726709254411533528404497522819829149562042543460,
  9010482278944554630091673338470807244858982, 47889047446218346525407117293907735163110240751255849986197579123,
  187066591586790416114871551929327090480899376998119319607011700,
  187066591586790416114871551929327090480899377214022729912119150, 2037066055320597897039254871827812,
  2239777814372785859315193575091846345730189671, 8749132087393694762973660236420320154185319,
  8749132087393694763020902779188492366212197, 8749132087393694763020902779188505100444025,
  12259596146231896710504668304495446159428518512421049741611634025843,
  47889047446218346525408860564435336560267650438208251708768872820,
  47889047446218346525408860564435336560267650438424155119073980270,
  43554834925287965779496178179750035212571397863007603, 170136073926906116326156946014647638575262621329780,
  170136073926906116326156946014647854478672926437230, 2319910902543406374658591785314676,
  652996867264202250623161117700538961245065803365, 2109946674448479646322, 138277465256655622263370853,
  167167198019635770966842720511125743644613019922031, 549665443933498274835824,
  187066591586790416494074392499025745506718099708435333221999987,
  730728873385900064429978095699319318385616640512231118825844,
  730728873385900064429978095699319318385616856415641423933294,
  2854409661663672120877480073464109220946337864058469115251,
  11150037740873719222177656536969176643385158437076822388,
  11150037740873719222177656536969176643601061847381929838, 8745049985276326857783976277242586513763684,
  8745049985277766628102622737407700629679460, 133438873066392690315433937870807854436,
  2036115616858056585506223965826404, 2036115616857150303615251620589426, 2036115616857485526265255812883307,
  187066591586790416136305607275038920024872585053605350270592371,
  730728873385900063032443778418120781347157598891801497921908,
  730728873385900063032443778418120781347157814795211803029358,
  13479568514619809298633522083549685267636380389347950285329764166920097718625651,
  52654564510233630072787195638865958076704610895890430802068454803187230140788,
  52654564510233630072787195638865958076704610895890430802068670706597535248238,
  636248833402179827384327845922196439818227311921, 636248833402179827384327845922196439818227311922,
  636248833402179827384327845922196439818227311923, 636248833402179827384327845922196439818227311924,
  636248833402179827384327845922196391431007069542, 2485347005477264950720030648133579753030445153,
  3303592818920587222802410510523562950171779358363822062736624443644772407119734131,
  170136073926906116305641190499671645715395025069427, 664594038776977016818910900388405892231360244084,
  664594038776977016818910900388621795641665351534, 531016004875012163073125,
  2757192733943883991943598213478802587343461766433274949223, 164341493484034472053562751186067500377622639962929,
  164341493484034472053562751186067500377622639962930, 10770284116969159827458823770077225674160289824568534387,
  11842052621057808995815975390418930630294932166968599290814468288103,
  11842052621058759705480225949976639026902290293240700127817283429747,
  776080760573750986837563737930196763839194076818121059298757280122892901,
  11842052621057808995815975390418930630294932166968600131927861194343,
  11842052621057808995815975390418930630294932166968599294112885730919,
  10770284116969769600228969854898345796690651434296370021, 2507652183289120346361070437233792156324688485,
  583858271895237347660835468563803504, 583858271895237347660834369052175728,
  164341493484027919475867696094851069251670583961459, 705841339889708362888990631242947011067783936627147012141925,
  3031565470991117665585914839638853243197082047007734193539031593481075,
  3031565470991117665585914839638853243197082047007733905578044380767333,
  3031565470991117665585914839638853243197082047007734335687163118510444,
  50861228724959715156950659822226402853417976072370906533291922047906312250213,
  10770284116969341172803593683398975907384281400887833445,
  46258018051011558971857719501470779642107413522504915359378010995,
  46258018051011558971857719501470779642107413522216954372165297253,
  46258018051011558971857719501470779642107413522647063490903040364,
  776080760573719943367594881343587587744038771864683527830575766238552933,
  705841339889730820520607352020912238900386108214785431663461,
  3031565470991214120379254270986977574163297336555221603257156681167731,
  3031565470991214120379254270986977574163297336555221315296169468453989,
  3031565470991214120379254270986977574163297336555221745405288206197100,
  50861228724961333399852750823271055948893658687611645063413405759044280279909,
  705841339889730820520606022792916453984513204407725151318885,
  3031565470991214120379248561996206750323773103411343805276611150181235,
  3031565470991214120379248561996206750323773103411343517315623937467493,
  3031565470991214120379248561996206750323773103411343947424742675210604,
  50861228724961333399852655042299751830840011290922448169089429587849143804773,
  47889047446218346576655626278970284947539135420512182830768612723,
  187066591586790416315061040152227675576324746799901869781117300,
  187066591586790416315061040152227675576324747015805280086224750,
  149629557747436692001082290774194049492971865007460, 37562718442686870615722239121714875146991755934855026,
  47903484730498762848809958204647160978606785512411632708914078568,
  664794396344741728832743984998298901397914611303, 146786078839317387586459081340373607482190551935348,
  459921389368232026141797, 8749132087393694762945253327456826703441252, 2073055936197995623525,
  34780107220590921766204433764, 42046569627937562357357735120854427593677067554874724,
  2506170846774750397566192736520338655146504046, 583513371351494838522460754085700456, 2091861279392034550885,
  137092220802289129281578340, 180638791325824766023586166322551356708853486672599821028780404,
  3030616020052288477727103164280983376922408648100995123841796206061940, 149420906059734272122646736499647472996,
  9792448499530745257829757427980409424147301, 42058246053248822228885896088788935036008199289664371,
  42058246053248822228885896088788934748047212076950629, 42058246053248822228885896088788935178156330814693740,
  705620278616502992279620118035167137806779121826995844834149,
  226149632556575698104761880850758749590292946488085141402945105511731833136794349888883,
  883397002174123820721726097073276365587081822219082583605254318404265999346201356660,
  883397002174123820721726097073276365587081822219082583605254318404481902756506464110,
  2627378941638843904819804006696159437497455239504091753522968438074996,
  2627378941638843904819804006696159437497455239504110200267042147626612,
  2627378941638843904819804006696159437497455239504091753786855373563236,
  2627378941638843904819804006696159437497455239504110200530929083114852,
  42067003534547832496477281939537951823557441123216740, 583796948763035568280227969709075812,
  205681892618100117127205436851740363192902316887175718454380339210673743219,
  803444893039453582528146237702110793722274675340530149275949355640121716,
  803444893039453582528146237702110793722274675340530149491852765945229166,
  33140828768333068611950250810410712130661, 36438726584915581471654513154486256014694367677869412,
  9328314005738388856743555367548486244621642061083536740,
  611340386680071052115545644567657286189826580518315041777010,
  2388048385469027547326350174092409994566058408934542435698, 33140828768333068611949889696707290031205,
  129456362376301049265429256627762195812, 8484052164693265564659171762357061852948852,
  40064803581465136471444485113542512754414430928439561543130310002, 8484052164693265564659170390115917086286949,
  8484052164693265564659170390117016597914725, 9328314005738388856743372039770095117753838296154531186,
  9328314005738388856743372039770067227069432381729695090,
  10256589716855074936689564665746752025596079114298147136278269027698,
  611340386680071052115533629998371125793223328250536152561517,
  2625686967514899183792528554431168518552596253260325666319918752228708,
  556010842665337852045497346339067694382072558640, 556010842665337852045497346339067694382072558641,
  556010842665337852045497346339067694382072558642, 556010842665337852045497346339067694382072558643,
  556010842665337852045497346339067694382072558644, 556010842665337852045497346339067694382072558645,
  556010842665337852045497346339067694382072558646, 556010842665337852045497346339067694382072558647,
  556010842665337852045497346339067694382072558648, 556010842665337852045497346339067694382072558649,
  142338775722326490123647320662801329761810575012144, 142338775722326490123647320662801329761810575012145,
  142338775722326490123647320662801329761810575012146, 142338775722326490123647320662801329761810575012147,
  142338775722326490123647320662801329761810575012148, 142338775722326490123647320662801329761810575012149,
  142338775722326490123647320662801329761810575012150, 142338775722326490123647320662801329761810575012151,
  142338775722326490123647320662801329761810575012152, 36438726584915581471653714089677139411343073100981552,
  36438726584915581471653714089677139411343073100981553, 36438726584915581471653714089677139411343073100981554,
  36438726584915581471653714089677139411343073100981555, 36438726584915581471653714089677139411343073100981556,
  36438726584915581471653714089677139411343073100981557, 36438726584915581471653714089677139411343073100981558,
  36438726584915581471653714089677139411343073100981559, 36438726584915581471653714089677139411343073100981560,
  36438726584915581471653714089677139411343073100981561, 9328314005738388856743350806957347689303826713851277616,
  9328314005738388856743350806957347689303826713851277617, 9328314005738388856743350806957347689303826713851277618,
  9328314005738388856743350806957347689303826713851277619, 9328314005738388856743350806957347689303826713851277620,
  9328314005738388856743350806957347689303826713851277621, 9328314005738388856743350806957347689303826713851277622,
  9328314005738388856743350806957347689303826713851277623, 9328314005738388856743350806957347689303826713851277624,
  52654564510233629984564591834045533066899857854358934486137150181613881288051,
  205681892618100117127205436851740363542577569743589587835536769052527651188,
  205681892618100117127205436851740363542577569743589587835752672462832758638, 2342099358987494193990172262364005,
  149379423067226630034115576997368524399, 2073055936128990801267, 583513371341794857388704047959732078,
  8749158687387255045110637139052598787008868, 8749158687387255045110618188467251513484337,
  8749158687387255045110618188467251513484338]

/-- The names of the internal fields as numbers. -/
def codesI : List Nat := [
  127996155735667, 32767015868329587, 36027714954746533714011369079,
  170136073556676507487529387360263043274375904453481, 170136073556676507487529387360263043278743986726246,
  611734330104394793717971741730906027478304006062541254911097, 31083255746676936741972112498,
  8749158687387255045110618618571921184881253, 554590725728439230297202, 554590725728439230031214,
  146786078842734894076159465338478616469662874562151,
  3029774644943893689166507767073243078712931326108276607343681394142831,
  705620278616502992279630731456312173714448453622879408582255]

/-- The widths of the fields. -/
def widths : List Nat := [
  8, 1, 32, 18, 32, 32, 32, 18, 32, 103, 76, 73, 4, 10, 62, 32, 32, 18, 32, 1, 1, 1, 1, 1, 1, 1, 1, 1, 1, 1, 1, 1,
  1, 1, 1, 1, 1, 1, 10, 12, 12, 12, 10, 12, 12, 12, 2, 31, 8, 8, 8, 8, 8, 8, 8, 8, 8, 8, 8, 8, 8, 8, 8, 8, 8, 8, 8,
  8, 10, 16, 16, 16, 10, 16, 16, 16, 10, 16, 16, 16, 16, 1, 1, 1, 1, 1, 1, 1, 1, 1, 1, 1, 20, 1, 1, 1, 1, 20, 1, 1,
  1, 1, 20, 1, 1, 1, 1, 20, 1, 1, 1, 1, 20, 32, 18, 32, 1, 1, 32, 18, 32, 1, 0, 0, 62, 0, 0, 0, 1, 1, 103, 43, 77,
  43, 1, 2, 103, 77, 73, 43, 49, 43, 1, 62, 103, 77, 1, 43, 1, 32, 49, 0, 49, 49, 49, 1, 1, 1, 1, 1, 1, 1, 20, 32,
  18, 32, 1, 1, 1, 1, 20, 1, 1, 1, 1, 20, 10, 6, 6, 6, 10, 10, 10, 10, 10, 10, 10, 10, 10, 10, 10, 10, 1, 1, 1, 1,
  1, 1, 7, 32, 32, 8, 8, 8, 8, 4, 3, 1, 1, 32, 1, 1, 1, 1, 1, 1, 9, 9, 9, 1, 1, 1, 1, 1, 1, 32, 18, 32, 1, 1, 1, 16,
  32, 32, 18, 32, 0, 0, 32, 18, 32, 19, 19, 7, 0, 0, 8, 32, 1, 32, 18, 32, 32, 18, 32, 1, 1, 1, 1, 1, 1, 32, 18, 32,
  32, 18, 32, 10, 10, 10, 10, 37, 10, 9, 32, 18, 32, 4, 16, 11, 11, 6, 6, 6, 6, 5, 7, 1, 8, 8, 8, 32, 1, 1, 1, 1,
  20, 1, 1, 1, 1, 20, 1, 1, 1, 1, 20, 1, 1, 1, 1, 20, 32, 18, 32, 1, 7, 13, 14, 6, 4, 1, 0, 4, 1, 8, 2, 0, 8, 3, 1,
  19, 19, 1, 0, 1, 1, 1, 1, 20, 32, 18, 32, 31, 31, 31, 31, 31, 25, 32, 18, 32, 2, 149, 149, 8, 8, 2, 149, 16, 8, 1,
  1, 8, 8, 8, 8, 8, 1, 1, 1, 1, 1, 1, 1, 1, 1, 1, 1, 1, 1, 1, 1, 1, 1, 1, 1, 1, 1, 1, 1, 1, 1, 1, 1, 1, 1, 1, 1, 1,
  1, 1, 1, 1, 1, 1, 32, 18, 32, 19, 32, 32, 32, 6, 6, 6]

/-- The flows, with places in `decls`. -/
def flowData : List Downlink.FlowData := [
  ⟨1, true, [323, 324, 326, 0, 325, 5]⟩, ⟨2, true, [121, 129, 1, 124, 130, 132, 148, 157, 149, 154, 135]⟩,
  ⟨3, false, [131, 133]⟩, ⟨4, false, [136, 137]⟩, ⟨5, false, [138, 140, 139, 141]⟩,
  ⟨6, false, [152, 150, 153, 156, 146, 147]⟩,
  ⟨7, true, [88, 335, 93, 98, 103, 108, 297, 292, 302, 307, 171, 166, 158]⟩,
  ⟨8, true, [180, 184, 185, 201, 202, 203, 204]⟩, ⟨9, false, [177, 178, 179, 181, 182, 183]⟩,
  ⟨10, false, [186, 187, 188, 189, 190, 191, 192, 193, 194, 195, 196, 197]⟩, ⟨11, false, [200, 205, 206, 207]⟩,
  ⟨12, false, [210, 211, 212, 213, 214, 215, 224]⟩, ⟨13, true, [320, 277, 246, 12, 329]⟩,
  ⟨14, true, [19, 20, 21, 22, 23, 24, 25, 26, 27, 28, 29, 30, 31, 32, 33, 34, 35, 36]⟩,
  ⟨15, true, [39, 40, 41, 43, 44, 45, 46]⟩, ⟨16, false, [287, 288, 289, 290, 291]⟩,
  ⟨17, true, [343, 345, 344, 346]⟩, ⟨18, true, [243, 247]⟩, ⟨19, true, [69, 70, 71, 73, 74, 75, 77, 78, 79, 47]⟩,
  ⟨20, false, [81, 82, 83, 84, 85, 86]⟩, ⟨21, false, [9, 10, 11, 13, 14, 15]⟩, ⟨22, false, [260, 259]⟩,
  ⟨23, false, [48, 49, 50, 51, 52, 53, 54, 55, 56, 57]⟩, ⟨24, false, [58, 59, 60, 61, 62, 63, 64, 65, 66, 67]⟩,
  ⟨25, true, [228]⟩, ⟨26, true, [267, 268, 269, 270, 271, 272, 273]⟩, ⟨27, false, [278, 279, 280]⟩,
  ⟨28, false, [353, 354, 358]⟩,
  ⟨29, false, [350, 349, 407, 406, 119, 118, 17, 16, 341, 340, 3, 2, 253, 252, 114, 113]⟩,
  ⟨30, false, [226, 225, 234, 233, 262, 261, 164, 163, 313, 312, 7, 6, 239, 238, 250, 249]⟩,
  ⟨31, false, [255, 256, 257, 258]⟩, ⟨32, false, [352, 355, 356, 357, 359, 360, 361, 362, 363, 364, 365, 366, 367]⟩,
  ⟨33, false, [316, 319, 315, 317, 318]⟩, ⟨34, false, [414, 415, 413]⟩, ⟨35, false, [208, 220]⟩,
  ⟨36, false, [198, 199]⟩, ⟨37, false, [223, 222, 220, 216, 217, 218, 219, 221]⟩,
  ⟨38, false, [387, 388, 389, 390, 391, 392, 393, 394, 395, 396, 397, 398, 399, 400, 401, 402, 403, 404, 405]⟩,
  ⟨39, false, [368, 369, 370, 371, 372, 373, 374, 375, 376, 377, 378, 379, 380, 381, 382, 383, 384, 385, 386]⟩,
  ⟨40, false, [242, 241]⟩, ⟨41, false, [331, 332, 333]⟩, ⟨42, false, [281, 282, 283, 284, 285, 286]⟩,
  ⟨43, false, [230, 321, 231, 232, 229]⟩]

end Flight
end Startup
end PAN
