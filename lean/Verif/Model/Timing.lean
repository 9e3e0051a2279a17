import Verif.Model.Basic
import Mathlib.Data.Rat.Defs

/-!
The timing of the control loop (src/fsw/FCCode/TimedControlTask.hpp, ClockManager.cpp and MainControlLoop.cpp, flight
build): when each control task starts, what is counted as late, and how long a cycle takes.

Time itself is a natural number of microseconds since power-up; the program sees only its low 32 bits, which is what
`micros()` returns. How long each piece of code takes is an input of the model (`Delays`, `CycleDelays`), without any
bound. What the tasks do is not modelled here, only how long they take.
-/
namespace PAN

namespace Tim

/-- src/fsw/FCCode/TimedControlTask.hpp:56-62 `get_system_time` on the Teensy: `micros()`, a 32-bit counter. -/
def micros (t : Nat) : U32 := BitVec.ofNat 32 t

/-- How long the pieces of one task take, in microseconds; not in the code. -/
structure Delays where
  /-- from the end of the task before (or from the clock manager's reading of the clock) to the reading in
  `wait_until_time` -/
  before : Nat
  /-- from there to the first reading in `wait_duration` -/
  setup : Nat
  /-- between successive readings of the clock in the loop of `wait_duration` -/
  polls : List Nat
  /-- from the last of them to the start of the task -/
  launch : Nat
  /-- the task itself -/
  exec : Nat

/-- src/fsw/FCCode/TimedControlTask.hpp:92-100 `wait_duration`: the loop, entered at time `t`; the result is the time of
the last reading. `none` if the readings given do not suffice. -/
def poll (start wait : U32) (t : Nat) : List Nat → Option Nat
  | [] => none
  | g :: gs => if micros (t + g) - start < wait then poll start wait (t + g) gs else some (t + g)

/-- src/fsw/FCCode/TimedControlTask.hpp:115-128: the statistics each task publishes. Simplified: the average is kept
exactly instead of as a float. -/
structure Stats where
  numLates : U32
  avgWait : Rat
  duration : U32

/-- src/fsw/FCCode/TimedControlTask.hpp:44 `control_task_end_time`, together with the time itself. -/
structure Clock where
  t : Nat
  endTime : U32

/-- src/fsw/FCCode/TimedControlTask.hpp:162 `delta_t`. -/
def delta (endTime : U32) (now : Nat) : Int := (endTime - micros now).toInt

/-- src/fsw/FCCode/TimedControlTask.hpp:163-169: the statistics of `wait_until_time`, in cycle `count`. -/
def Stats.note (s : Stats) (count : U32) (d : Int) : Stats :=
  { s with
    numLates := if d < 0 then s.numLates + 1 else s.numLates
    avgWait := (s.avgWait * count.toNat + (max d 0 : Int)) / ((count + 1).toNat : Rat) }

/-- src/fsw/FCCode/TimedControlTask.hpp:139-172 `execute_on_time`, `wait_until_time`. The last component is the time at
which the task is started. -/
def runTask (count : U32) (d : Delays) (dur : U32) (s : Stats) (c : Clock) : Option (Stats × Clock × Nat) :=
  let dt := delta c.endTime (c.t + d.before)
  let t2 := c.t + d.before + d.setup
  match poll (micros t2) (BitVec.ofInt 32 (max dt 0)) t2 d.polls with
  | none => none
  | some t3 =>
    let t4 := t3 + d.launch
    some ({ s.note count dt with duration := micros (t4 + d.exec) - micros t4 },
      { t := t4 + d.exec, endTime := c.endTime + dur }, t4)

/-- src/fsw/FCCode/MainControlLoop.cpp:126-142 and 146-168: the durations, in the order in which the tasks are run:
piksi, gomspace, adcs_monitor, debug, uplink, estimators, mission_manager, dcdc, attitude_controller, adcs_commander,
adcs_box_controller, orbit, prop, downlink, quake, docking, eeprom. -/
def durations : List U32 :=
  [6400, 15000, 28000, 16400, 10000, 5000, 1000, 1000, 1000, 1000, 10000, 5000, 28000, 1000, 30000, 10000, 16600]

/-- The tasks one after another; the last component lists the times at which they are started. -/
def runTasks (count : U32) : List Delays → List U32 → List Stats → Clock → Option (List Stats × Clock × List Nat)
  | d :: ds, u :: us, s :: ss, c =>
    match runTask count d u s c with
    | none => none
    | some (s', c', t) =>
      match runTasks count ds us ss c' with
      | none => none
      | some (ss', c'', ts) => some (s' :: ss', c'', t :: ts)
  | _, [], ss, c => some (ss, c, [])
  | _, _, _, _ => none

/-- The state of the loop: src/fsw/FCCode/TimedControlTask.hpp:44-48, MainControlLoop.hpp `control_cycle_duration_f`,
`prev_sys_time`. -/
structure Loop where
  clock : Clock
  /-- `control_cycle_count`, also published as `pan.cycle_no` -/
  count : U32
  stats : List Stats
  prev : U32
  /-- `pan.cc_duration` -/
  ccDuration : U32

/-- How long the pieces of one cycle take; not in the code. -/
structure CycleDelays where
  /-- from the end of the cycle before to the clock manager's reading of the clock -/
  pre : Nat
  tasks : List Delays
  /-- from the end of the last task to the reading of the clock that ends the cycle -/
  post : Nat

/-- src/fsw/FCCode/MainControlLoop.cpp:116-174 `execute`, with src/fsw/FCCode/ClockManager.cpp:16-20 `execute`. The last
two components are the time at which the cycle begins (the clock manager's reading) and those at which its tasks start. -/
def Loop.cycle (l : Loop) (i : CycleDelays) : Option (Loop × Nat × List Nat) :=
  let t0 := l.clock.t + i.pre
  let count := l.count + 1
  match runTasks count i.tasks durations l.stats { t := t0, endTime := micros t0 + 1100 } with
  | none => none
  | some (ss, c, ts) =>
    let later := c.t + i.post
    some ({ clock := { c with t := later }, count := count, stats := ss, prev := micros later,
            ccDuration := micros later - l.prev }, t0, ts)

/-- Any number of cycles; the beginnings of all of them. -/
def Loop.cycles (l : Loop) : List CycleDelays → Option (Loop × List Nat)
  | [] => some (l, [])
  | i :: is =>
    match l.cycle i with
    | none => none
    | some (l', t0, _) =>
      match l'.cycles is with
      | none => none
      | some (l'', ts) => some (l'', t0 :: ts)

/-- src/fsw/FCCode/MainControlLoop.cpp:98-100: the loop at power-up, the constructor having taken `t` microseconds; one set
of statistics per task, all zero. -/
def Loop.init (t : Nat) : Loop :=
  { clock := { t := t, endTime := 0 }, count := 0, stats := durations.map fun _ => ⟨0, 0, 0⟩, prev := micros t,
    ccDuration := 0 }

end Tim
end PAN
