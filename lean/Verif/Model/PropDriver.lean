import Verif.Model.Basic
/-!
Model of `src/fsw/FCCode/Drivers/PropulsionSystem.{hpp,cpp}` (flight build). The pin levels and the array
`is_valve_opened` are always written together (lines 148-151, 277-280, 292-295), so one Boolean stands for both. The
sensor readings are inputs of the controller model. Enabling and disabling interrupts is not modelled: the timer routine
runs between control task steps, never inside one.
-/
namespace PAN

/-- One thrust valve of tank 2: its entry of `Tank2.schedule` (ms left, hpp:359) and whether it is open. -/
structure Valve where
  sched : U32
  isOpen : Bool
  deriving DecidableEq, Repr

/-- src/fsw/FCCode/Drivers/PropulsionSystem.hpp: the valves of tank 1 (`true` is open), the valves of tank 2 and
`is_interval_enabled` (the timer runs exactly when it is set). -/
structure Driver where
  tank1 : List Bool
  tank2 : List Valve
  enabled : Bool
  deriving DecidableEq, Repr

/-- Which tank a valve operation addresses. -/
inductive TankId | one | two
  deriving DecidableEq, Repr

namespace Driver

/-- src/fsw/FCCode/Drivers/PropulsionSystem.cpp:28-50, 65-67: two and four valves, all closed (objects of static
storage), empty schedule, timer off. -/
def init : Driver := { tank1 := [false, false], tank2 := List.replicate 4 ⟨0, false⟩, enabled := false }

/-- src/fsw/FCCode/Drivers/PropulsionSystem.cpp:215-225 `disable()`. -/
def disable (d : Driver) : Driver :=
  { d with tank2 := d.tank2.map fun v => { v with isOpen := false }, enabled := false }

/-- src/fsw/FCCode/Drivers/PropulsionSystem.cpp:262-269 `clear_schedule()`. -/
def clearSchedule (d : Driver) : Driver :=
  if d.enabled then d else { d with tank2 := d.tank2.map fun v => { v with sched := 0 } }

/-- src/fsw/FCCode/Drivers/PropulsionSystem.cpp:190-199 `reset()`. -/
def reset (d : Driver) : Driver :=
  let d := d.disable
  let d := { d with tank1 := d.tank1.map fun _ => false }
  d.clearSchedule

/-- src/fsw/FCCode/Drivers/PropulsionSystem.cpp:201-213 `start_firing()`. -/
def startFiring (d : Driver) : Bool × Driver :=
  if d.enabled then (false, d.disable) else (true, { d with enabled := true })

/-- src/fsw/FCCode/Drivers/PropulsionSystem.cpp:255-258: durations under `min_firing_duration_ms` (10) become 0. -/
def usable (ms : U32) : U32 := if ms ≥ 10 then ms else 0

/-- src/fsw/FCCode/Drivers/PropulsionSystem.cpp:245-260 `set_schedule(a, b, c, d)`; the list holds the four
arguments. -/
def setSchedule (d : Driver) (ms : List U32) : Bool × Driver :=
  if d.enabled then (false, d)
  else if ms.any fun x => x ≥ 1000 then (false, d)
  else (true, { d with tank2 := List.zipWith (fun v x => { v with sched := usable x }) d.tank2 ms })

/-- src/fsw/FCCode/Drivers/PropulsionSystem.cpp:133-142 `is_valve_open`. -/
def isValveOpen (d : Driver) (t : TankId) (i : Nat) : Bool :=
  match t with
  | .one => d.tank1.getD i false
  | .two => (d.tank2[i]?.map (·.isOpen)).getD false

/-- src/fsw/FCCode/Drivers/PropulsionSystem.cpp:271-298 `open_valve` (`b = true`) and `close_valve` (`b = false`); an
index out of range is ignored. -/
def setValve (d : Driver) (t : TankId) (i : Nat) (b : Bool) : Driver :=
  match t with
  | .one => { d with tank1 := d.tank1.set i b }
  | .two => { d with tank2 := d.tank2.modify i fun v => { v with isOpen := b } }

/-- src/fsw/FCCode/Drivers/PropulsionSystem.cpp:305-332: one iteration of the loop of `thrust_valve_loop`;
`did` is `did_open_valve`. -/
def tickValve (did : Bool) (v : Valve) : Bool × Valve :=
  if v.sched < 3 then
    if v.isOpen ∨ v.sched ≠ 0 then (did, ⟨0, false⟩) else (did, v)
  else
    let (did, v) := if ¬ v.isOpen ∧ ¬ did then (true, { v with isOpen := true }) else (did, v)
    if v.isOpen then (did, { v with sched := v.sched - 3 }) else (did, v)

/-- The loop over the valves. -/
def tickValves (did : Bool) : List Valve → List Valve
  | [] => []
  | v :: vs => (tickValve did v).2 :: tickValves (tickValve did v).1 vs

/-- src/fsw/FCCode/Drivers/PropulsionSystem.cpp:300-334 `thrust_valve_loop()`: one timer interrupt. The timer is
running only if `enabled`. -/
def tick (d : Driver) : Driver :=
  if d.enabled then { d with tank2 := tickValves false d.tank2 } else d

/-- `n` timer interrupts (one every 3 ms, line 209). -/
def ticks (d : Driver) : Nat → Driver
  | 0 => d
  | n + 1 => (d.ticks n).tick

end Driver
end PAN
