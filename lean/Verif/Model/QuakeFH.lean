import Verif.Model.Basic
/-!
Model of `src/fsw/FCCode/QuakeFaultHandler.{hpp,cpp}`, the radio fault handler.
-/
namespace PAN

/-- The fields of other tasks the handler uses (src/fsw/FCCode/QuakeFaultHandler.cpp:11-15): `radio.state`,
`radio.last_comms_ccno` and `gomspace.power_cycle_output3_cmd`. -/
structure RadioIO where
  state : U8
  lastComms : U32
  powerCycle : Bool
  deriving DecidableEq, Repr

/-- src/fsw/FCCode/QuakeFaultHandler.hpp:77-91: `qfh.state` (ground-writable, raw value), `cur_state_entry_ccno` and
`qfh.enabled`. -/
structure QuakeFH where
  state : U8
  entry : U32
  enabled : Bool
  deriving DecidableEq, Repr

namespace QuakeFH

/-- src/fsw/FCCode/QuakeFaultHandler.cpp:7-24 constructor, with src/fsw/FCCode/QuakeFaultHandler.hpp:80. -/
def init : QuakeFH := { state := Qfh.unfaulted, entry := 0, enabled := true }

/-- src/fsw/FCCode/QuakeFaultHandler.cpp:143-146 `less_than_one_day_since_successful_comms`. -/
def recentComms (r : RadioIO) (cc : U32) : Bool := decide (cc - r.lastComms < BitVec.ofNat 32 oneDayCcno)

/-- src/fsw/FCCode/QuakeFaultHandler.cpp:148-151 `in_state_for_more_than_time`. -/
def inStateFor (h : QuakeFH) (cc : U32) (time : Nat) : Bool := decide (cc - h.entry ≥ BitVec.ofNat 32 time)

/-- src/fsw/FCCode/QuakeFaultHandler.cpp:158-161 `radio_is_disabled`. -/
def radioDisabled (r : RadioIO) : Bool := decide (r.state = Radio.disabled)

/-- src/fsw/FCCode/QuakeFaultHandler.cpp:53-57 `transition_to`. -/
def goto (h : QuakeFH) (cc : U32) (next : U8) : QuakeFH := { h with state := next, entry := cc }

/-- src/fsw/FCCode/QuakeFaultHandler.cpp:59-70 `dispatch_unfaulted`. -/
def dispatchUnfaulted (h : QuakeFH) (r : RadioIO) (cc : U32) : Resp × QuakeFH × RadioIO :=
  if radioDisabled r || recentComms r cc then (.none, h, r) else (.standby, h.goto cc Qfh.forcedStandby, r)

/-- src/fsw/FCCode/QuakeFaultHandler.cpp:72-88 `dispatch_forced_standby`. -/
def dispatchForcedStandby (h : QuakeFH) (r : RadioIO) (cc : U32) : Resp × QuakeFH × RadioIO :=
  if h.inStateFor cc oneDayCcno then
    (.standby, h.goto cc Qfh.powercycle1, { r with state := Radio.disabled, powerCycle := true })
  else if radioDisabled r || recentComms r cc then (.none, h.goto cc Qfh.unfaulted, r)
  else (.standby, h, r)

/-- src/fsw/FCCode/QuakeFaultHandler.cpp:90-113 `dispatch_powercycle(next)`. -/
def dispatchPowercycle (h : QuakeFH) (r : RadioIO) (cc : U32) (next : U8) : Resp × QuakeFH × RadioIO :=
  let r := if h.entry + 1 ≥ cc then { r with state := Radio.config } else r
  if h.inStateFor cc (oneDayCcno / 3) then
    let r := if next ≠ Qfh.safehold then { r with state := Radio.disabled, powerCycle := true } else r
    (.standby, h.goto cc next, r)
  else if recentComms r cc then (.none, h.goto cc Qfh.unfaulted, r)
  else (.standby, h, r)

/-- src/fsw/FCCode/QuakeFaultHandler.cpp:130-141 `dispatch_safehold`. -/
def dispatchSafehold (h : QuakeFH) (r : RadioIO) (cc : U32) : Resp × QuakeFH × RadioIO :=
  if radioDisabled r || recentComms r cc then (.none, h.goto cc Qfh.unfaulted, r) else (.safehold, h, r)

/-- src/fsw/FCCode/QuakeFaultHandler.cpp:26-51 `execute` (with 115-128 `dispatch_powercycle_1/2/3`). -/
def execute (h : QuakeFH) (r : RadioIO) (cc : U32) : Resp × QuakeFH × RadioIO :=
  if h.enabled = false then (.none, h, r)
  else if h.state = Qfh.unfaulted then h.dispatchUnfaulted r cc
  else if h.state = Qfh.forcedStandby then h.dispatchForcedStandby r cc
  else if h.state = Qfh.powercycle1 then h.dispatchPowercycle r cc Qfh.powercycle2
  else if h.state = Qfh.powercycle2 then h.dispatchPowercycle r cc Qfh.powercycle3
  else if h.state = Qfh.powercycle3 then h.dispatchPowercycle r cc Qfh.safehold
  else if h.state = Qfh.safehold then h.dispatchSafehold r cc
  else (.none, h.goto cc Qfh.unfaulted, r)

end QuakeFH
end PAN
