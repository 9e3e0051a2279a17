import Verif.Model.MissionManager
import Verif.Model.Quake
/-!
The mission manager, with the fault handlers it calls, and the radio manager in one control cycle. They share `radio.state` and
`radio.last_comms_ccno`. The order is that of src/fsw/FCCode/MainControlLoop.cpp:154-162.
-/
namespace PAN

/-- The shared state: the radio fault handler and the radio manager. -/
structure RadioSys where
  qfh : QuakeFH
  qm : QM

/-- One control cycle: the mission manager's state with the values that ground commands and other tasks have given to all its other
fields (`env`, including `qfh.state` and `qfh.enabled`), its inputs, the radio manager's two limits, which ground can write, and the
radio manager's inputs. -/
structure RadioCycle where
  env : MM
  inp : MMIn
  maxWait : U32
  maxTrans : U32
  radio : QIn

namespace RadioSys

/-- At construction: src/fsw/FCCode/QuakeFaultHandler.cpp:7-24 and src/fsw/FCCode/QuakeManager.cpp:30-76. -/
def init (snapSize : Nat) : RadioSys := { qfh := QuakeFH.init, qm := QM.init snapSize }

/-- What the mission manager sees: its state with the shared fields. The handler's entry time is not a field, so nothing else writes
it. -/
def seen (s : RadioSys) (y : RadioCycle) : MM :=
  { y.env with fh := { y.env.fh with
      radio := { state := s.qm.state, lastComms := s.qm.lastComms, powerCycle := y.env.fh.radio.powerCycle }
      quake := { y.env.fh.quake with entry := s.qfh.entry } } }

/-- The radio manager's cycle after the mission manager's: src/fsw/FCCode/MainControlLoop.cpp:154-162. -/
def radioCycle (mm : MM) (y : RadioCycle) : QCycle := 
  { writes := [.state mm.fh.radio.state, .maxWait y.maxWait, .maxTrans y.maxTrans], inp := y.radio }

/-- src/fsw/FCCode/MainControlLoop.cpp:154-162: one control cycle. `none`: the kill switch. -/
def cycle (s : RadioSys) (y : RadioCycle) : Option RadioSys :=
  match (s.seen y).execute y.inp with
  | none => none
  | some mm => some { qfh := mm.fh.quake, qm := s.qm.cycle (radioCycle mm y) }

/-- A history of control cycles. -/
def run (s : RadioSys) : List RadioCycle → Option RadioSys
  | [] => some s
  | y :: ys =>
    match s.cycle y with
    | none => none
    | some s => s.run ys

/-- The radio manager's part of a history. -/
def radioCycles (s : RadioSys) : List RadioCycle → List QCycle
  | [] => []
  | y :: ys =>
    match (s.seen y).execute y.inp with
    | none => []
    | some mm => radioCycle mm y :: radioCycles { qfh := mm.fh.quake, qm := s.qm.cycle (radioCycle mm y) } ys

end RadioSys
end PAN
