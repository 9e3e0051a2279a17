/-!
Shared vocabulary of the model: fixed-width integers, enums and constants.
-/
namespace PAN

/-- `unsigned int` / `uint32_t`; arithmetic wraps as in C++ (32-bit Teensy and desktop targets). -/
abbrev U32 := BitVec 32
/-- `unsigned char`. -/
abbrev U8 := BitVec 8

/-- src/fsw/FCCode/constants.hpp:10-24 `control_cycle_time_ms` (flight value). -/
def controlCycleMs : Nat := 170

/-- src/fsw/FCCode/constants.hpp:33 `one_day_ccno = 24*60*60*1000/control_cycle_time_ms`
(flight value, not the SPEEDUP/QFH_SPEEDUP test builds). -/
def oneDayCcno : Nat := 24 * 60 * 60 * 1000 / controlCycleMs

theorem oneDayCcno_eq : oneDayCcno = 508235 := rfl

/- src/fsw/FCCode/mission_state_t.enum:5-19. State fields hold the raw number, so the model keeps
numbers and names them here. -/
namespace Mission
/-- src/fsw/FCCode/mission_state_t.enum:7 `startup`. -/
abbrev startup : U8 := 0
/-- src/fsw/FCCode/mission_state_t.enum:8 `detumble`. -/
abbrev detumble : U8 := 1
/-- src/fsw/FCCode/mission_state_t.enum:9 `initialization_hold`. -/
abbrev initializationHold : U8 := 2
/-- src/fsw/FCCode/mission_state_t.enum:10 `standby`. -/
abbrev standby : U8 := 3
/-- src/fsw/FCCode/mission_state_t.enum:11 `follower`. -/
abbrev follower : U8 := 4
/-- src/fsw/FCCode/mission_state_t.enum:12 `leader`. -/
abbrev leader : U8 := 5
/-- src/fsw/FCCode/mission_state_t.enum:13 `follower_close_approach`. -/
abbrev followerCloseApproach : U8 := 6
/-- src/fsw/FCCode/mission_state_t.enum:14 `leader_close_approach`. -/
abbrev leaderCloseApproach : U8 := 7
/-- src/fsw/FCCode/mission_state_t.enum:15 `docking`. -/
abbrev docking : U8 := 8
/-- src/fsw/FCCode/mission_state_t.enum:16 `docked`. -/
abbrev docked : U8 := 9
/-- src/fsw/FCCode/mission_state_t.enum:17 `safehold`. -/
abbrev safehold : U8 := 10
/-- src/fsw/FCCode/mission_state_t.enum:18 `manual`. -/
abbrev manual : U8 := 11
end Mission

/- src/fsw/FCCode/adcs_state_t.enum:5-15. -/
namespace Adcs
/-- src/fsw/FCCode/adcs_state_t.enum:6 `manual`. -/
abbrev manual : U8 := 0
/-- src/fsw/FCCode/adcs_state_t.enum:7 `startup`. -/
abbrev startup : U8 := 1
/-- src/fsw/FCCode/adcs_state_t.enum:8 `limited`. -/
abbrev limited : U8 := 2
/-- src/fsw/FCCode/adcs_state_t.enum:9 `zero_torque`. -/
abbrev zeroTorque : U8 := 3
/-- src/fsw/FCCode/adcs_state_t.enum:10 `zero_L`. -/
abbrev zeroL : U8 := 4
/-- src/fsw/FCCode/adcs_state_t.enum:11 `detumble`. -/
abbrev detumble : U8 := 5
/-- src/fsw/FCCode/adcs_state_t.enum:12 `point_manual`. -/
abbrev pointManual : U8 := 6
/-- src/fsw/FCCode/adcs_state_t.enum:13 `point_standby`. -/
abbrev pointStandby : U8 := 7
/-- src/fsw/FCCode/adcs_state_t.enum:14 `point_docking`. -/
abbrev pointDocking : U8 := 8
end Adcs

/- src/fsw/FCCode/prop_state_t.enum:5-15 (the field `prop.state` is an `unsigned int`). -/
namespace Prp
/-- src/fsw/FCCode/prop_state_t.enum:6 `disabled`. -/
abbrev disabled : U32 := 0
/-- src/fsw/FCCode/prop_state_t.enum:7 `idle`. -/
abbrev idle : U32 := 1
/-- src/fsw/FCCode/prop_state_t.enum:8 `await_pressurizing`. -/
abbrev awaitPressurizing : U32 := 2
/-- src/fsw/FCCode/prop_state_t.enum:9 `pressurizing`. -/
abbrev pressurizing : U32 := 3
/-- src/fsw/FCCode/prop_state_t.enum:10 `venting`. -/
abbrev venting : U32 := 4
/-- src/fsw/FCCode/prop_state_t.enum:11 `firing`. -/
abbrev firing : U32 := 5
/-- src/fsw/FCCode/prop_state_t.enum:12 `await_firing`. -/
abbrev awaitFiring : U32 := 6
/-- src/fsw/FCCode/prop_state_t.enum:13 `handling_fault`. -/
abbrev handlingFault : U32 := 7
/-- src/fsw/FCCode/prop_state_t.enum:14 `manual`. -/
abbrev manual : U32 := 8
end Prp

/- src/fsw/FCCode/radio_state_t.enum. -/
namespace Radio
/-- src/fsw/FCCode/radio_state_t.enum:5 `wait`. -/
abbrev wait : U8 := 0
/-- src/fsw/FCCode/radio_state_t.enum:6 `transceive`. -/
abbrev transceive : U8 := 1
/-- src/fsw/FCCode/radio_state_t.enum:7 `read`. -/
abbrev read : U8 := 2
/-- src/fsw/FCCode/radio_state_t.enum:8 `write`. -/
abbrev write : U8 := 3
/-- src/fsw/FCCode/radio_state_t.enum:9 `config`. -/
abbrev config : U8 := 4
/-- src/fsw/FCCode/radio_state_t.enum:10 `disabled`. -/
abbrev disabled : U8 := 5
end Radio

/- src/fsw/FCCode/qfh_state_t.enum. -/
namespace Qfh
/-- src/fsw/FCCode/qfh_state_t.enum:19 `unfaulted`. -/
abbrev unfaulted : U8 := 0
/-- src/fsw/FCCode/qfh_state_t.enum:20 `forced_standby`. -/
abbrev forcedStandby : U8 := 1
/-- src/fsw/FCCode/qfh_state_t.enum:21 `powercycle_1`. -/
abbrev powercycle1 : U8 := 2
/-- src/fsw/FCCode/qfh_state_t.enum:22 `powercycle_2`. -/
abbrev powercycle2 : U8 := 3
/-- src/fsw/FCCode/qfh_state_t.enum:23 `powercycle_3`. -/
abbrev powercycle3 : U8 := 4
/-- src/fsw/FCCode/qfh_state_t.enum:24 `safehold`. -/
abbrev safehold : U8 := 5
end Qfh

/- src/fsw/FCCode/sat_designation_t.enum. -/
namespace Desig
/-- src/fsw/FCCode/sat_designation_t.enum:6 `undecided`. -/
abbrev undecided : U8 := 0
/-- src/fsw/FCCode/sat_designation_t.enum:7 `leader`. -/
abbrev leader : U8 := 1
/-- src/fsw/FCCode/sat_designation_t.enum:8 `follower`. -/
abbrev follower : U8 := 2
end Desig

/-- src/fsw/FCCode/fault_response_t.enum:4-8. -/
inductive Resp where
  | none | safehold | standby
  deriving DecidableEq, Repr

/- src/fsw/FCCode/piksi_mode_t.enum:4-18. -/
namespace PiksiMode
/-- src/fsw/FCCode/piksi_mode_t.enum:5 `spp`. -/
abbrev spp : U8 := 0
/-- src/fsw/FCCode/piksi_mode_t.enum:6 `fixed_rtk`. -/
abbrev fixedRtk : U8 := 1
/-- src/fsw/FCCode/piksi_mode_t.enum:7 `float_rtk`. -/
abbrev floatRtk : U8 := 2
/-- src/fsw/FCCode/piksi_mode_t.enum:9 `no_fix`. -/
abbrev noFix : U8 := 3
/-- src/fsw/FCCode/piksi_mode_t.enum:11 `sync_error`. -/
abbrev syncError : U8 := 4
/-- src/fsw/FCCode/piksi_mode_t.enum:12 `nsat_error`. -/
abbrev nsatError : U8 := 5
/-- src/fsw/FCCode/piksi_mode_t.enum:14 `crc_error`. -/
abbrev crcError : U8 := 6
/-- src/fsw/FCCode/piksi_mode_t.enum:15 `time_limit_error`. -/
abbrev timeLimitError : U8 := 7
/-- src/fsw/FCCode/piksi_mode_t.enum:16 `data_error`. -/
abbrev dataError : U8 := 8
/-- src/fsw/FCCode/piksi_mode_t.enum:17 `no_data_error`. -/
abbrev noDataError : U8 := 9
end PiksiMode

end PAN
