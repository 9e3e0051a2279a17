import Verif.Model.MissionManager
import Verif.Model.EEPROM
/-!
Boots and control cycles as seen by the mission manager and the EEPROM controller: `src/fsw/FCCode/MainControlLoop.cpp`. The other
control tasks are an arbitrary function on the shared fields.
-/
namespace PAN
open EEPROM

/-- The persistent memory of either build. -/
inductive Mem where
  | desktop (m : Json)
  | teensy (m : Bytes)
  deriving DecidableEq, Repr

namespace Mem

/-- `EEPROMController::execute`, the first `iters` iterations of its loop (see `EEPROM.saveLoop`). -/
def save (cc : Nat) (vals : List Int) (iters : Nat) : Mem → Mem
  | desktop m => desktop (saveLoop (Json.update flightFields vals) flightFields cc m iters)
  | teensy m => teensy (saveLoop (Bytes.update flightFields vals) flightFields cc m iters)

/-- `EEPROMController::init`: the values of the saved fields after start-up. -/
def init : Mem → Option (List Int)
  | desktop m => Json.init flightFields m
  | teensy m => Bytes.init flightFields m

end Mem

/-- The flight computer: persistent memory, the fields of the mission manager, the cycle count, whether it is still running (not caught
in the kill switch's endless loop). `total` is a ghost variable: the number of control cycles begun over all boots. -/
structure Flight where
  mem : Mem
  mm : MM
  cc : U32
  alive : Bool
  total : Nat
  deriving DecidableEq, Repr

/-- What can happen. A control cycle: `others` is what the tasks before and after the mission manager (and the ground) do to the shared
fields between two of its executions, `inp` what it reads (its `cc` is not used), `boots`, `mag`, `sun` the three saved fields that do
not belong to the mission manager, `iters` the number of iterations of the EEPROM loop that are completed (7 unless a reset follows).
A reboot at any time; `p`, `t2`, `t1` are the tank readings at construction. -/
inductive FEvent where
  | cycle (others : MM → MM) (inp : MMIn) (boots mag sun : Int) (iters : Nat)
  | reboot (p t2 t1 : Rat)

/-- The values of the saved fields in the order of `flightFields`. -/
def MM.saved (s : MM) (boots mag sun : Int) : List Int :=
  [boots, mag, sun, s.fh.mission.toNat, if s.deployed then 1 else 0, s.elapsed.toNat, s.killSwitch.toNat]

/-- The mission manager's fields after the restore: src/fsw/FCCode/MainControlLoop.cpp:82 `eeprom_controller.init()`. -/
def MM.restored (s : MM) (vals : List Int) : MM :=
  { s with
    fh := { s.fh with mission := BitVec.ofInt 8 (vals.getD 3 0) }
    deployed := decide (vals.getD 4 0 ≠ 0)
    elapsed := BitVec.ofInt 8 (vals.getD 5 0)
    killSwitch := BitVec.ofInt 8 (vals.getD 6 0) }

namespace Flight

/-- src/fsw/FCCode/MainControlLoop.cpp:18-83: construction and `eeprom_controller.init()`. A failed assertion of the latter (too many
fields) stops the computer. The cycle count starts at 0 (TimedControlTask.hpp, static member). -/
def boot (mem : Mem) (total : Nat) (p t2 t1 : Rat) : Flight :=
  match mem.init with
  | some vals => { mem, mm := (MM.init p t2 t1).restored vals, cc := 0, alive := true, total }
  | none => { mem, mm := MM.init p t2 t1, cc := 0, alive := false, total }

/-- src/fsw/FCCode/MainControlLoop.cpp:116-178 `execute`: the clock manager increments the cycle count
(src/fsw/FCCode/ClockManager.cpp:17-21), the mission manager runs, the EEPROM controller runs last. -/
def step (f : Flight) : FEvent → Flight
  | .reboot p t2 t1 => boot f.mem f.total p t2 t1
  | .cycle others inp boots mag sun iters =>
    if f.alive = false then f
    else
      let cc := f.cc + 1
      match (others f.mm).execute { inp with cc } with
      | none => { f with alive := false, cc, total := f.total + 1 }
      | some s => { f with mem := f.mem.save cc.toNat (s.saved boots mag sun) iters, mm := s, cc, total := f.total + 1 }

/-- A history of events, oldest first. -/
def run (f : Flight) (es : List FEvent) : Flight := es.foldl step f

end Flight
end PAN
