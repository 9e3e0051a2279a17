import Verif.Model.Fault
import Verif.Model.QuakeFH
import Verif.Model.PropFH
/-!
Model of the other fault handlers: `src/fsw/FCCode/SimpleFaultHandler.{hpp,cpp}`, `PiksiFaultHandler.{hpp,cpp}` and
`MainFaultHandler.{hpp,cpp}`.
-/
namespace PAN

/-! ### Simple fault handlers -/

namespace SimpleFH

/-- src/fsw/FCCode/SimpleFaultHandler.cpp:32-71 `active_state_lists`. -/
def activeStates : Nat → List U8
  | 0 => [Mission.initializationHold, Mission.detumble, Mission.standby, Mission.follower, Mission.leader,
      Mission.followerCloseApproach, Mission.leaderCloseApproach, Mission.docked]
  | 1 => [Mission.standby, Mission.detumble, Mission.follower, Mission.leader, Mission.followerCloseApproach,
      Mission.leaderCloseApproach, Mission.docked]
  | 2 => [Mission.standby, Mission.follower, Mission.leader, Mission.followerCloseApproach, Mission.leaderCloseApproach,
      Mission.docked]
  | 3 => [Mission.standby, Mission.follower, Mission.leader, Mission.followerCloseApproach, Mission.leaderCloseApproach]
  | _ => []

/-- src/fsw/FCCode/SimpleFaultHandler.cpp:15-31 `determine_recommended_state` (called by `SuperSimpleFaultHandler::execute`,
81-83): the response and the fault, which is polled only in an active state. `recommended` is the response of line 22-27. -/
def execute (list : Nat) (recommended : Resp) (mission : U8) (f : Fault) : Resp × Fault :=
  if mission ∈ activeStates list then (if f.isFaulted then recommended else .none, f.poll) else (.none, f)

end SimpleFH

/-! ### GPS fault handler -/

/-- src/fsw/FCCode/PiksiFaultHandler.hpp:49-67: the two ground-writable waits, the enable flag, `last_rtkfix_ccno` and the
dead-receiver fault. -/
structure PiksiFH where
  noCdgpsWait : U32
  cdgpsDelayWait : U32
  enabled : Bool
  lastRtk : U32
  dead : Fault
  deriving DecidableEq, Repr

namespace PiksiFH

/-- src/fsw/FCCode/PiksiFaultHandler.cpp:9-35 constructor, with the constants of src/fsw/FCCode/PiksiFaultHandler.hpp:10-12. -/
def init : PiksiFH :=
  { noCdgpsWait := BitVec.ofNat 32 oneDayCcno, cdgpsDelayWait := BitVec.ofNat 32 (oneDayCcno / 8), enabled := true, lastRtk := 0,
    dead := Fault.init (BitVec.ofNat 32 (oneDayCcno / 6)) }

/-- `std::max` on `unsigned int`. -/
def maxU (a b : U32) : U32 := if a < b then b else a

/-- src/fsw/FCCode/PiksiFaultHandler.cpp:70-89 `check_cdgps`. -/
def checkCdgps (h : PiksiFH) (enterClose cc : U32) : Resp :=
  let duration := cc - maxU enterClose h.lastRtk
  if enterClose ≥ h.lastRtk ∧ duration > h.noCdgpsWait then .standby
  else if h.lastRtk > enterClose ∧ duration > h.cdgpsDelayWait then .standby
  else .none

/-- src/fsw/FCCode/PiksiFaultHandler.cpp:43-49: `should_fault`. -/
def deadCondition (mission piksi : U8) : Bool :=
  decide (mission ≠ Mission.startup ∧ mission ≠ Mission.detumble ∧ mission ≠ Mission.initializationHold ∧
    (piksi = PiksiMode.crcError ∨ piksi = PiksiMode.noDataError ∨ piksi = PiksiMode.dataError))

/-- src/fsw/FCCode/PiksiFaultHandler.cpp:36-68 `execute`. -/
def execute (h : PiksiFH) (mission piksi : U8) (enterClose cc : U32) : Resp × PiksiFH :=
  if h.enabled = false then (.none, h)
  else
    let f := h.dead.evaluate cc (deadCondition mission piksi)
    let h := { h with dead := f.poll }
    if f.isFaulted then (.standby, h)
    else
      let h := if piksi = PiksiMode.fixedRtk then { h with lastRtk := cc } else h
      if mission = Mission.followerCloseApproach ∨ mission = Mission.leaderCloseApproach then (h.checkCdgps enterClose cc, h)
      else (.none, h)

end PiksiFH

/-! ### Main fault handler -/

namespace MainFH

/-- src/fsw/FCCode/MainFaultHandler.cpp:79-94: the loop over the handlers, which are functions on a shared state; `ret` is the
response so far. -/
def loop {σ : Type} : List (σ → Resp × σ) → Resp → σ → Resp × σ
  | [], ret, s => (ret, s)
  | m :: ms, ret, s =>
    match m s with
    | (.none, s) => loop ms ret s
    | (.safehold, s) => (.safehold, s)
    | (.standby, s) => loop ms .standby s

/-- src/fsw/FCCode/MainFaultHandler.cpp:72-97 `execute`. -/
def execute {σ : Type} (enabled : Bool) (ms : List (σ → Resp × σ)) (s : σ) : Resp × σ :=
  if enabled = false then (.none, s) else loop ms .none s

end MainFH

/-- Everything the fault handlers read or write. `ctl` is the propulsion controller (with its pressurise-failure fault). -/
structure FHState where
  mission : U8
  enterClose : U32
  lowBatt : Fault
  wheel1 : Fault
  wheel2 : Fault
  wheel3 : Fault
  wheelPot : Fault
  attEst : Fault
  quake : QuakeFH
  radio : RadioIO
  piksi : PiksiFH
  piksiState : U8
  prop : PropFH
  ctl : Ctl
  enabled : Bool
  deriving DecidableEq, Repr

namespace FHState

/-- src/fsw/FCCode/MainFaultHandler.cpp:19-21 and 37-43: the low battery fault, active state list 0, response safehold. -/
def lowBattH (s : FHState) : Resp × FHState :=
  ((SimpleFH.execute 0 .safehold s.mission s.lowBatt).1, { s with lowBatt := (SimpleFH.execute 0 .safehold s.mission s.lowBatt).2 })

/-- src/fsw/FCCode/MainFaultHandler.cpp:23-28 and 45-51: the wheel 1 fault, active state list 1, response safehold. -/
def wheel1H (s : FHState) : Resp × FHState :=
  ((SimpleFH.execute 1 .safehold s.mission s.wheel1).1, { s with wheel1 := (SimpleFH.execute 1 .safehold s.mission s.wheel1).2 })

/-- src/fsw/FCCode/MainFaultHandler.cpp:23-28 and 45-51: the wheel 2 fault, active state list 1, response safehold. -/
def wheel2H (s : FHState) : Resp × FHState :=
  ((SimpleFH.execute 1 .safehold s.mission s.wheel2).1, { s with wheel2 := (SimpleFH.execute 1 .safehold s.mission s.wheel2).2 })

/-- src/fsw/FCCode/MainFaultHandler.cpp:23-28 and 45-51: the wheel 3 fault, active state list 1, response safehold. -/
def wheel3H (s : FHState) : Resp × FHState :=
  ((SimpleFH.execute 1 .safehold s.mission s.wheel3).1, { s with wheel3 := (SimpleFH.execute 1 .safehold s.mission s.wheel3).2 })

/-- src/fsw/FCCode/MainFaultHandler.cpp:23-28 and 45-51: the wheel potentiometer fault, active state list 1, response safehold. -/
def wheelPotH (s : FHState) : Resp × FHState :=
  ((SimpleFH.execute 1 .safehold s.mission s.wheelPot).1, { s with wheelPot := (SimpleFH.execute 1 .safehold s.mission s.wheelPot).2 })

/-- src/fsw/FCCode/MainFaultHandler.cpp:30-32 and 53-58: the pressurise failure fault, active state list 2, response standby. -/
def pressFailH (s : FHState) : Resp × FHState :=
  ((SimpleFH.execute 2 .standby s.mission s.ctl.faults.press).1, { s with ctl := { s.ctl with faults := { s.ctl.faults with press := (SimpleFH.execute 2 .standby s.mission s.ctl.faults.press).2 } } })

/-- src/fsw/FCCode/MainFaultHandler.cpp:34-36 and 60-65: the attitude estimator fault, active state list 3, response safehold. -/
def attEstH (s : FHState) : Resp × FHState :=
  ((SimpleFH.execute 3 .safehold s.mission s.attEst).1, { s with attEst := (SimpleFH.execute 3 .safehold s.mission s.attEst).2 })

/-- src/fsw/FCCode/MainFaultHandler.cpp:67: the radio fault handler. -/
def quakeH (cc : U32) (s : FHState) : Resp × FHState :=
  ((s.quake.execute s.radio cc).1, { s with quake := (s.quake.execute s.radio cc).2.1, radio := (s.quake.execute s.radio cc).2.2 })

/-- src/fsw/FCCode/MainFaultHandler.cpp:68: the GPS fault handler. -/
def piksiH (cc : U32) (s : FHState) : Resp × FHState :=
  ((s.piksi.execute s.mission s.piksiState s.enterClose cc).1,
    { s with piksi := (s.piksi.execute s.mission s.piksiState s.enterClose cc).2 })

/-- src/fsw/FCCode/MainFaultHandler.cpp:69: the propulsion fault handler. -/
def propH (s : FHState) : Resp × FHState :=
  ((s.prop.execute s.ctl).1, { s with prop := (s.prop.execute s.ctl).2.1, ctl := (s.prop.execute s.ctl).2.2 })

/-- src/fsw/FCCode/MainFaultHandler.cpp:15-70 `init`: the handlers in the order they are called, in control cycle `cc`. -/
def handlers (cc : U32) : List (FHState → Resp × FHState) :=
  [lowBattH, wheel1H, wheel2H, wheel3H, wheelPotH, pressFailH, attEstH, quakeH cc, piksiH cc, propH]

/-- src/fsw/FCCode/MainFaultHandler.cpp:72-97 `execute` with the flight software's handlers. -/
def execute (s : FHState) (cc : U32) : Resp × FHState := MainFH.execute s.enabled (handlers cc) s

end FHState
end PAN
