import Verif.Model.FaultHandlers
/-!
Model of `src/fsw/FCCode/MissionManager.{hpp,cpp}`. Distances, momenta and thresholds are rationals in place of `float`/`double`
(`none` for NaN); rounding is not modelled. Debug printing is not modelled.
-/
namespace PAN

/-- The fields the mission manager owns or writes, and the fields the fault handlers it calls own or write (`fh`, which contains
`pan.state` as `mission`, `pan.enter_close_approach_ccno` as `enterClose`, `radio.state` and the propulsion controller with
`prop.state`). src/fsw/FCCode/MissionManager.hpp:29-31, 56, 109-113, 138-240 and the static flag of src/fsw/FCCode/MissionManager.cpp:311. -/
structure MM where
  fh : FHState
  adcs : U8
  desig : U8
  deployed : Bool
  elapsed : U8
  killSwitch : U8
  dockingConfig : Bool
  enterDocking : U32
  dockTimeout : U32
  haveSetDocking : Bool
  safeholdBegin : U32
  closeTrig : Rat
  dockTrig : Rat
  factor : Rat
  sphDcdc : Bool
  adcsDcdc : Bool
  reset : Bool
  piksiOff : Bool
  piksiPowercycle : Bool
  functional : Fault
  deriving DecidableEq, Repr

/-- What the mission manager reads from other tasks in one control cycle: the cycle count, `attitude_estimator.valid`,
`lin::fro` of `attitude_estimator.L_body` (the squared norm; `none` is NaN), `rel_orbit.state`, the norm of `rel_orbit.rel_pos`
(`none` is NaN) and `docksys.docked`. -/
structure MMIn where
  cc : U32
  attValid : Bool
  momentum : Option Rat
  relState : U8
  relDist : Option Rat
  docked : Bool
  deriving DecidableEq, Repr

/-- `a < b` on doubles, false if `a` is NaN. -/
def ltNan (a : Option Rat) (b : Rat) : Bool :=
  match a with
  | none => false
  | some a => decide (a < b)

/-- `a <= b` on floats, false if `a` is NaN. -/
def leNan (a : Option Rat) (b : Rat) : Bool :=
  match a with
  | none => false
  | some a => decide (a ≤ b)

namespace MM

/-- src/fsw/FCCode/MissionManager.cpp:366-377 `set(mission_state_t)`. -/
def setMission (s : MM) (cc : U32) (m : U8) : MM :=
  { s with
    safeholdBegin := if m = Mission.safehold then cc else s.safeholdBegin
    fh := { s.fh with
      enterClose := if m = Mission.leaderCloseApproach ∨ m = Mission.followerCloseApproach then cc else s.fh.enterClose
      mission := m } }

/-- src/fsw/FCCode/MissionManager.cpp:384-387 `set(prop_state_t)`. -/
def setProp (s : MM) (p : U32) : MM := { s with fh := { s.fh with ctl := { s.fh.ctl with state := p } } }

/-- src/fsw/FCCode/MissionManager.cpp:399-410 `transition_to(mission_state, adcs_state)` (with 379-382). -/
def goto2 (s : MM) (cc : U32) (m a : U8) : MM :=
  { ({ s with adcsDcdc := if m = Mission.safehold then false else s.adcsDcdc }.setMission cc m) with adcs := a }

/-- src/fsw/FCCode/MissionManager.cpp:412-427 `transition_to(mission_state, adcs_state, prop_state)`. -/
def goto3 (s : MM) (cc : U32) (m a : U8) (p : U32) : MM :=
  ({ s with sphDcdc := if p = Prp.disabled then false else true }.goto2 cc m a).setProp p

/-- src/fsw/FCCode/MissionManager.cpp:171-174 `check_adcs_hardware_faults`: the answer. -/
def hwFaulted (s : MM) : Bool :=
  s.functional.isFaulted || s.fh.wheel1.isFaulted || s.fh.wheel2.isFaulted || s.fh.wheel3.isFaulted || s.fh.wheelPot.isFaulted

/-- src/fsw/FCCode/MissionManager.cpp:171-174 `check_adcs_hardware_faults`: the state left behind. `is_faulted()` changes the fault,
and `||` stops at the first that is faulted. -/
def hwPolled (s : MM) : MM :=
  let s' := { s with functional := s.functional.poll }
  if s.functional.isFaulted then s'
  else
    let s' := { s' with fh := { s'.fh with wheel1 := s.fh.wheel1.poll } }
    if s.fh.wheel1.isFaulted then s'
    else
      let s' := { s' with fh := { s'.fh with wheel2 := s.fh.wheel2.poll } }
      if s.fh.wheel2.isFaulted then s'
      else
        let s' := { s' with fh := { s'.fh with wheel3 := s.fh.wheel3.poll } }
        if s.fh.wheel3.isFaulted then s'
        else { s' with fh := { s'.fh with wheelPot := s.fh.wheelPot.poll } }

/-- src/fsw/FCCode/MissionManager.hpp:46 `deployment_wait`. -/
def deploymentWait : Nat := oneDayCcno / (24 * 2)

/-- src/fsw/FCCode/MissionManager.hpp:40 and 52 `deployment_wait_batch_thresh`. -/
def batchThresh : Nat := deploymentWait / 100 + 1

/-- src/fsw/FCCode/MissionManager.cpp:176-221 `dispatch_startup`. The endless loop of the kill switch (lines 179-185) is `none`. -/
def dispatchStartup (s : MM) (i : MMIn) : Option MM :=
  if s.killSwitch = 127 then none
  else if s.elapsed.toNat < batchThresh then
    if i.cc % 100 = 0 then some { s with elapsed := s.elapsed + 1 } else some s
  else
    let s := { s with piksiOff := false, piksiPowercycle := true }
    let s := if s.fh.radio.state = Radio.disabled then { s with fh := { s.fh with radio := { s.fh.radio with state := Radio.config } } } else s
    let faulted := s.hwFaulted
    let s := s.hwPolled
    if faulted then some (s.goto3 i.cc Mission.initializationHold Adcs.detumble Prp.idle)
    else some ({ s with deployed := true }.goto3 i.cc Mission.detumble Adcs.detumble Prp.idle)

/-- src/fsw/FCCode/MissionManager.cpp:229: `threshold`, with src/adcs/constants.hpp:154 and 164. -/
def detumbleThreshold (s : MM) : Rat := (104720 / 100) * (135 / 10000000) * s.factor

/-- src/fsw/FCCode/MissionManager.cpp:223-240 `dispatch_detumble`. -/
def dispatchDetumble (s : MM) (i : MMIn) : MM :=
  if i.attValid && leNan i.momentum (s.detumbleThreshold * s.detumbleThreshold) then
    if s.adcsDcdc = false then { s with adcsDcdc := true } else s.goto2 i.cc Mission.standby Adcs.pointStandby
  else s

/-- src/fsw/FCCode/MissionManager.cpp:248-267 `dispatch_standby`. -/
def dispatchStandby (s : MM) (i : MMIn) : MM :=
  if s.desig = Desig.follower then s.goto2 i.cc Mission.follower Adcs.pointStandby
  else if s.desig = Desig.leader then s.goto2 i.cc Mission.leader Adcs.pointStandby
  else s

/-- src/fsw/FCCode/MissionManager.cpp:355-358 `distance_to_other_sat`. -/
def distance (i : MMIn) : Option Rat := if i.relState = 0 then none else i.relDist

/-- src/fsw/FCCode/MissionManager.cpp:269-285 `dispatch_follower` and `dispatch_leader`; `m` is the close-approach state. -/
def dispatchFar (s : MM) (i : MMIn) (m : U8) : MM :=
  if ltNan (distance i) s.closeTrig then s.goto2 i.cc m Adcs.pointDocking else s

/-- src/fsw/FCCode/MissionManager.cpp:287-303 `dispatch_follower_close_approach` and `dispatch_leader_close_approach`. -/
def dispatchClose (s : MM) (i : MMIn) : MM :=
  if ltNan (distance i) s.dockTrig && s.dockingConfig then s.goto2 i.cc Mission.docking Adcs.zeroTorque else s

/-- src/fsw/FCCode/MissionManager.cpp:313-337 `dispatch_docking` (with 360-364 `too_long_in_docking`). -/
def dispatchDocking (s : MM) (i : MMIn) : MM :=
  let s := if s.haveSetDocking = false then { s with enterDocking := i.cc, haveSetDocking := true } else s
  if i.docked then
    { ({ s with haveSetDocking := false }.goto2 i.cc Mission.docked Adcs.zeroTorque) with desig := Desig.undecided }
  else if i.cc - s.enterDocking > s.dockTimeout then
    { s with haveSetDocking := false }.goto2 i.cc Mission.standby Adcs.pointStandby
  else s

/-- src/fsw/FCCode/MissionManager.cpp:344-348 `dispatch_safehold`. -/
def dispatchSafehold (s : MM) (i : MMIn) : MM :=
  if i.cc - s.safeholdBegin ≥ BitVec.ofNat 32 oneDayCcno then { s with reset := true } else s

/-- src/fsw/FCCode/MissionManager.cpp:125-168: the switch on the mission state read at the beginning (`m`). Initialization hold,
docked and manual do nothing (242-246, 339-342, 350-353). -/
def dispatch (s : MM) (i : MMIn) (m : U8) : Option MM :=
  if m = Mission.startup then s.dispatchStartup i
  else if m = Mission.detumble then some (s.dispatchDetumble i)
  else if m = Mission.initializationHold then some s
  else if m = Mission.standby then some (s.dispatchStandby i)
  else if m = Mission.follower then some (s.dispatchFar i Mission.followerCloseApproach)
  else if m = Mission.leader then some (s.dispatchFar i Mission.leaderCloseApproach)
  else if m = Mission.followerCloseApproach ∨ m = Mission.leaderCloseApproach then some (s.dispatchClose i)
  else if m = Mission.docking then some (s.dispatchDocking i)
  else if m = Mission.docked then some s
  else if m = Mission.safehold then some (s.dispatchSafehold i)
  else if m = Mission.manual then some s
  else some (s.goto2 i.cc Mission.safehold Adcs.startup)

/-- The state after the call of the fault handlers, src/fsw/FCCode/MissionManager.cpp:107. -/
def afterFaults (s : MM) (cc : U32) : MM := { s with fh := (s.fh.execute cc).2 }

/-- src/fsw/FCCode/MissionManager.cpp:102-169 `execute`. `none`: the kill switch's endless loop. -/
def execute (s : MM) (i : MMIn) : Option MM :=
  let m := s.fh.mission
  let r := (s.fh.execute i.cc).1
  let s := s.afterFaults i.cc
  if ¬(m = Mission.startup ∨ m = Mission.manual) ∧ r = .safehold then
    some { (s.goto3 i.cc Mission.safehold Adcs.startup Prp.disabled) with desig := Desig.undecided }
  else if ¬(m = Mission.startup ∨ m = Mission.manual) ∧ r = .standby ∧ m ≠ Mission.safehold ∧ m ≠ Mission.initializationHold ∧
      m ≠ Mission.detumble ∧ m ≠ Mission.standby then
    some { (s.goto2 i.cc Mission.standby Adcs.pointStandby) with desig := Desig.undecided }
  else s.dispatch i m

/-- The fields at construction: src/fsw/FCCode/MissionManager.cpp:19-96, with the fault persistences of src/fsw/FCCode/GomspaceController.cpp:10,
src/fsw/FCCode/ADCSBoxMonitor.cpp:60-64 and src/fsw/FCCode/Estimators/AttitudeEstimator.cpp:18, 46, the radio fields of src/fsw/FCCode/QuakeManager.cpp:55-70, `piksi.state` of
src/fsw/FCCode/PiksiControlTask.cpp:32 and `piksi_off` of src/fsw/FCCode/GomspaceController.cpp:195. `p`, `t2`, `t1` are the tank readings at construction. The boot
count is still 0 at this point (the EEPROM is read later, src/fsw/FCCode/MainControlLoop.cpp:82), so `pan.deployed` is false. The constructor's
`transition_to` (88-90) happens in cycle 0. -/
def init (p t2 t1 : Rat) : MM :=
  { fh := { mission := Mission.startup, enterClose := 0, lowBatt := Fault.init 1, wheel1 := Fault.init 1, wheel2 := Fault.init 1,
            wheel3 := Fault.init 1, wheelPot := Fault.init 1, attEst := Fault.init 150, quake := QuakeFH.init,
            radio := { state := Radio.disabled, lastComms := 0, powerCycle := false }, piksi := PiksiFH.init,
            piksiState := PiksiMode.noFix, prop := PropFH.init, ctl := Ctl.init p t2 t1, enabled := true },
    adcs := Adcs.startup, desig := Desig.undecided, deployed := false, elapsed := 0, killSwitch := 0, dockingConfig := true,
    enterDocking := 0, dockTimeout := BitVec.ofNat 32 oneDayCcno, haveSetDocking := false, safeholdBegin := 0, closeTrig := 2000,
    dockTrig := 4 / 10, factor := 25 / 1000, sphDcdc := false, adcsDcdc := false, reset := false, piksiOff := true,
    piksiPowercycle := false, functional := Fault.init 1 }

end MM
end PAN
