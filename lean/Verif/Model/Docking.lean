import Verif.Model.Basic
import Verif.Model.Float32
/-!
Model of the docking motor: driver `src/fsw/FCCode/Drivers/DockingSystem.cpp` (flight build) and control task
`src/fsw/FCCode/DockingController.cpp`. The step timer interrupt may fire any number of times between two runs of
the task, and during the task.
-/
namespace PAN

/-- The driver's `steps`, `motor_on`, the sleep pin and the interval timer (src/fsw/FCCode/Drivers/DockingSystem.cpp:9-12, 45-113), and the
fields of `DockingController` (src/fsw/FCCode/DockingController.hpp:41-57). -/
structure Dock where
  steps : U32
  motorOn : Bool
  awake : Bool
  timer : Bool
  config : Bool
  turning : Bool
  docked : Bool
  deriving DecidableEq, Repr

/-- What one run of the task reads: the commanded configuration, the step angle field in degrees, whether
`timer.begin` succeeds if it is called (it fails for a step delay of zero; the return value is ignored), how often the
timer interrupt fires between the start of a half turn and the test for its end, and the docking switch. -/
structure DockIn where
  cmd : Bool
  angle : ℚ
  armed : Bool
  mid : Nat
  docked : Bool

namespace Dock

/-- src/fsw/FCCode/DockingController.cpp:3-28 constructor and src/fsw/FCCode/Drivers/DockingSystem.cpp:18-36 `setup()`; `steps` and `motor_on` are static. -/
def init : Dock :=
  { steps := 0, motorOn := false, awake := false, timer := false, config := true, turning := false, docked := false }

/-- src/fsw/FCCode/DockingController.cpp:25: the default step angle `0.032f`, the float nearest to 0.032. -/
def defaultAngle : ℚ := 8589935 / 268435456

/-- src/fsw/FCCode/Drivers/DockingSystem.cpp:120-122 `set_turn_angle(180.0f)`: `steps = 180.0f / step_angle`, a float division converted to
`unsigned int` by truncation. `none`: the conversion is undefined (division by zero, or out of range). Negative angles
cannot be set: the field's serializer has minimum 0 (src/fsw/FCCode/DockingController.cpp:6); the model treats them like zero. -/
def halfTurn (angle : ℚ) : Option U32 :=
  if angle ≤ 0 then none
  else if f32 (180 / angle) < 2 ^ 32 then some (BitVec.ofInt 32 ⌊f32 (180 / angle)⌋) else none

/-- src/fsw/FCCode/Drivers/DockingSystem.cpp:97-114 `step_motor()`, the interrupt handler; it runs only while the timer is on. Returns
whether the step pin went from low to high: the motor driver turns the motor by one step on that edge. -/
def tick (d : Dock) : Dock × Bool :=
  if d.timer = false then (d, false)
  else if d.steps ≥ 1 then
    if d.motorOn then ({ d with motorOn := false }, false)
    else ({ d with steps := d.steps - 1, motorOn := true }, true)
  else (d, false)

/-- `n` interrupts; the second component counts the steps of the motor. -/
def ticks (d : Dock) : Nat → Dock × Nat
  | 0 => (d, 0)
  | n + 1 => ((d.tick.1.ticks n).1, (d.tick.1.ticks n).2 + if d.tick.2 then 1 else 0)

/-- src/fsw/FCCode/Drivers/DockingSystem.cpp:82-88 `start_halfturn()`. -/
def startHalfTurn (d : Dock) (angle : ℚ) (armed : Bool) : Option Dock :=
  (halfTurn angle).map fun n => { d with steps := n, awake := true, timer := armed }

/-- src/fsw/FCCode/Drivers/DockingSystem.cpp:90-95 `cancel()`. -/
def cancel (d : Dock) : Dock := { d with awake := false, timer := false }

/-- src/fsw/FCCode/DockingController.cpp:58-64: start a half turn unless one is under way. -/
def begin (d : Dock) (angle : ℚ) (armed : Bool) : Option Dock :=
  if d.turning then some d else (d.startHalfTurn angle armed).map fun d => { d with turning := true }

/-- src/fsw/FCCode/DockingController.cpp:71-75: the half turn is over when no steps are left. -/
def finish (d : Dock) : Dock :=
  if d.steps = 0 then { d.cancel with config := !d.config, turning := false } else d

/-- src/fsw/FCCode/DockingController.cpp:53-84 `execute()`; the second component counts the steps of the motor during the call. -/
def execute (d : Dock) (i : DockIn) : Option (Dock × Nat) :=
  if i.cmd ≠ d.config then
    (d.begin i.angle i.armed).map fun d =>
      ({ (d.ticks i.mid).1.finish with docked := i.docked }, (d.ticks i.mid).2)
  else some ({ d.cancel with turning := false, docked := i.docked }, 0)

end Dock

/-- One thing that happens to the docking motor. -/
inductive DockEv where
  | tick
  | cycle (i : DockIn)

namespace Dock

/-- A history of interrupts and runs of the task, with the number of steps of the motor. -/
def run (d : Dock) : List DockEv → Option (Dock × Nat)
  | [] => some (d, 0)
  | .tick :: l => (d.tick.1.run l).map fun r => (r.1, r.2 + if d.tick.2 then 1 else 0)
  | .cycle i :: l =>
    match d.execute i with
    | none => none
    | some (d, k) => (d.run l).map fun r => (r.1, r.2 + k)

end Dock
end PAN
