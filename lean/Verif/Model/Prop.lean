import Verif.Model.Fault
import Verif.Model.PropDriver
/-!
Model of `src/fsw/FCCode/PropController.{hpp,cpp}` (flight build). Sensor readings and the pressure threshold are
rationals: they come from finite polynomial conversions of `analogRead` values and from a bounded serializer, so they are
never NaN, and the controller only compares them. `Tank::*p_tank` of the venting state always agrees with `tank_choice`
(cpp:562-570, hpp:473-476, 523), so it is not a separate field. The debug printing is not modelled.
-/
namespace PAN

/-- src/fsw/FCCode/PropController.hpp:82-85: `pressurize_fail_fault_f`, `overpressure_fault_f`,
`tank2_temp_high_fault_f`, `tank1_temp_high_fault_f`. -/
structure PropFaults where
  press : Fault
  over : Fault
  temp2 : Fault
  temp1 : Fault
  deriving DecidableEq, Repr

namespace PropFaults

/-- src/fsw/FCCode/PropController.cpp:38-41: persistence 0, 10, 10, 10. -/
def init : PropFaults := ⟨Fault.init 0, Fault.init 10, Fault.init 10, Fault.init 10⟩

/-- src/fsw/FCCode/PropController.hpp:503-506 `tank1_wants_to_vent`: the answer and the faults after polling. -/
def wants1 (f : PropFaults) : Bool × PropFaults := (f.temp1.isFaulted, { f with temp1 := f.temp1.poll })

/-- src/fsw/FCCode/PropController.hpp:508-512 `tank2_wants_to_vent`; the second fault is polled only if the first is not
faulted. -/
def wants2 (f : PropFaults) : Bool × PropFaults :=
  if f.temp2.isFaulted then (true, { f with temp2 := f.temp2.poll })
  else (f.over.isFaulted, { f with temp2 := f.temp2.poll, over := f.over.poll })

/-- src/fsw/FCCode/PropController.cpp:523-526: polling all four faults. -/
def pollAll (f : PropFaults) : PropFaults := ⟨f.press.poll, f.over.poll, f.temp2.poll, f.temp1.poll⟩

/-- src/fsw/FCCode/PropController.cpp:528-531: is any of the four faulted. -/
def any (f : PropFaults) : Bool := f.press.isFaulted || f.over.isFaulted || f.temp2.isFaulted || f.temp1.isFaulted

/-- src/fsw/FCCode/PropController.cpp:576-578: polling the three faults that need venting. -/
def pollVent (f : PropFaults) : PropFaults := { f with over := f.over.poll, temp2 := f.temp2.poll, temp1 := f.temp1.poll }

/-- src/fsw/FCCode/PropController.cpp:580-582. -/
def anyVent (f : PropFaults) : Bool := f.over.isFaulted || f.temp2.isFaulted || f.temp1.isFaulted

/-- src/fsw/FCCode/PropController.cpp:585-606 `determine_faulted_tank`, for the value `choice` of `tank_choice`. -/
def chooseTank (f : PropFaults) (choice : TankId) : TankId × PropFaults :=
  let (w1, f) := f.wants1
  let (w2, f) := if w1 then f.wants2 else (false, f)
  if w1 && w2 then (if choice = .one then .two else .one, f)
  else
    let (w1, f) := f.wants1
    (if w1 then .one else .two, f)

end PropFaults

/-- src/fsw/FCCode/PropController.hpp:328, 332, 348: `cycle_count`, `cur_valve_index` and the countdown timer of an
`ActionCycleOpenClose` (the timer is src/fsw/FCCode/PropController.hpp:188-200 and src/fsw/FCCode/PropController.cpp:202-221). -/
structure ActionCycle where
  count : Nat
  cur : Nat
  timer : Nat
  deriving DecidableEq, Repr

/-- What one evaluation of an open/close cycle decided. -/
inductive ActRes | succeeded | failed | stay | started | outOfCycles
  deriving DecidableEq, Repr

namespace ActionCycle

/-- src/fsw/FCCode/PropController.cpp:307-312 `enter`. -/
def enter (a : ActionCycle) : ActionCycle := { a with count := 0, timer := 0 }

/-- src/fsw/FCCode/PropController.cpp:314-371 `evaluate`, `handle_valve_is_open`, `handle_valve_is_close` and
`start_cycle`. `succ` and `fail` are the results of `has_succeeded` and `has_failed`, `sel` that of
`select_valve_index`; what to do when out of cycles is left to the caller. -/
def evaluate (a : ActionCycle) (d : Driver) (tank : TankId) (succ fail : Bool) (max fill close sel : Nat) :
    ActRes × ActionCycle × Driver :=
  let a := { a with timer := a.timer - 1 }
  if succ then (.succeeded, a, d.setValve tank a.cur false)
  else if fail then (.failed, a, d)
  else if d.isValveOpen tank a.cur then
    if a.timer = 0 then (.stay, { a with timer := close }, d.setValve tank a.cur false)
    else (.stay, a, d)
  else if a.timer = 0 then
    if a.count ≥ max then (.outOfCycles, a, d)
    else (.started, { count := a.count + 1, cur := sel, timer := fill }, d.setValve tank sel true)
  else (.stay, a, d)

end ActionCycle

/-- The propulsion controller: its state fields (src/fsw/FCCode/PropController.hpp:46-85, with the four valve fields of the
orbit controller), the two open/close cycles, the private data of the venting state (hpp:520, 523) and the driver. -/
structure Ctl where
  state : U32
  countdown : U32
  v1 : U32
  v2 : U32
  v3 : U32
  v4 : U32
  inter1 : U32
  inter2 : U32
  maxVent : U32
  closePeriod : U32
  maxPress : U32
  threshold : Rat
  fill : U32
  cool : U32
  tank1Valve : U32
  pressure : Rat
  temp2 : Rat
  temp1 : Rat
  firings : U32
  faults : PropFaults
  press : ActionCycle
  vent : ActionCycle
  choice : TankId
  saved : U32
  drv : Driver
  deriving DecidableEq, Repr

/-- What one `execute` reads from outside: the control cycle count, `PropulsionSystem.is_functional()` (the level of the
SpikeDock DCDC pin, src/fsw/FCCode/Drivers/PropulsionSystem.cpp:227-236; it does not change during the call) and the new
sensor readings. -/
structure PropEnv where
  cc : U32
  functional : Bool
  pressure : Rat
  temp2 : Rat
  temp1 : Rat
  deriving DecidableEq, Repr

namespace Ctl

/-- src/fsw/FCCode/PropController.cpp:12-83 constructor (parameters of src/fsw/FCCode/PropController.hpp:30-39); the readings are those at
construction. -/
def init (p t2 t1 : Rat) : Ctl :=
  { state := Prp.disabled, countdown := 0, v1 := 0, v2 := 0, v3 := 0, v4 := 0, inter1 := 0, inter2 := 0, maxVent := 20,
    closePeriod := 5, maxPress := 20, threshold := 25, fill := 5, cool := 58, tank1Valve := 0, pressure := p, temp2 := t2,
    temp1 := t1, firings := 0, faults := PropFaults.init, press := ⟨0, 0, 0⟩, vent := ⟨0, 0, 0⟩, choice := .one, saved := 0,
    drv := Driver.init }

/-- src/fsw/FCCode/PropController.cpp:133-138 `check_faults` with src/fsw/FCCode/PropController.hpp:124-137, 159-160 (75 psi, 49 C). -/
def checkFaults (c : Ctl) (cc : U32) : Ctl :=
  { c with faults := { c.faults with over := c.faults.over.evaluate cc (c.pressure > 75),
                                     temp2 := c.faults.temp2.evaluate cc (c.temp2 > 49),
                                     temp1 := c.faults.temp1.evaluate cc (c.temp1 > 49) } }

/-- src/fsw/FCCode/PropController.cpp:172-188 `validate_schedule`. -/
def validSchedule (c : Ctl) : Bool := c.v1 ≤ 1000 && c.v2 ≤ 1000 && c.v3 ≤ 1000 && c.v4 ≤ 1000 && c.countdown > 1

/-- src/fsw/FCCode/PropController.cpp:190-196 `min_cycles_needed`. -/
def minCycles (c : Ctl) : U32 := c.maxPress * (c.fill + c.cool) + 4

/-- `can_enter` of each state, src/fsw/FCCode/PropController.cpp:140-143, 227-230, 251-258, 280-287, 383-397, 433-438, 467-473, 515-532, 574-583, 651-654,
looked up by src/fsw/FCCode/PropController.cpp:145-170 (an unknown state is `disabled`); `check_current_state` is src/fsw/FCCode/PropController.hpp:139-142. -/
def canEnter (c : Ctl) (e : PropEnv) (s : U32) : Bool × Ctl :=
  if s = Prp.idle then (e.functional, c)
  else if s = Prp.awaitPressurizing then (decide (c.state = Prp.idle) && c.validSchedule && e.functional, c)
  else if s = Prp.pressurizing then
    ((decide (c.state = Prp.awaitPressurizing) || decide (c.state = Prp.idle)) && decide (c.countdown ≤ c.minCycles - 1) &&
      c.validSchedule && e.functional, c)
  else if s = Prp.awaitFiring then (c.validSchedule && decide (c.state = Prp.pressurizing) && e.functional, c)
  else if s = Prp.firing then (decide (c.state = Prp.awaitFiring) && decide (c.countdown = 0) && e.functional, c)
  else if s = Prp.venting then (e.functional && c.faults.anyVent, { c with faults := c.faults.pollVent })
  else if s = Prp.handlingFault then
    if c.state = Prp.disabled then (false, c) else (e.functional && c.faults.any, { c with faults := c.faults.pollAll })
  else (true, c)

/-- `enter` of each state, src/fsw/FCCode/PropController.cpp:232-237, 260-263, 289-292, 377-381, 440-443, 475-480, 534-537, 559-572, 656-659. -/
def enter (c : Ctl) (s : U32) : Ctl :=
  if s = Prp.idle then c
  else if s = Prp.awaitPressurizing then c
  else if s = Prp.pressurizing then { c with press := c.press.enter }
  else if s = Prp.awaitFiring then c
  else if s = Prp.firing then { c with drv := c.drv.startFiring.2, firings := c.firings + 1 }
  else if s = Prp.venting then
    let (t, f) := c.faults.chooseTank c.choice
    { c with faults := f, choice := t,
             vent := if t = .two then { c.vent with cur := c.saved.toNat }.enter else c.vent.enter }
  else if s = Prp.handlingFault then c
  else { c with drv := c.drv.reset }

/-- src/fsw/FCCode/PropController.cpp:265-274 `PropState_Idle::evaluate`. -/
def evalIdle (c : Ctl) (e : PropEnv) : U32 × Ctl :=
  let (b, c) := c.canEnter e Prp.handlingFault
  if b then (Prp.handlingFault, c)
  else if (c.canEnter e Prp.pressurizing).1 then (Prp.pressurizing, c)
  else if (c.canEnter e Prp.awaitPressurizing).1 then (Prp.awaitPressurizing, c)
  else (Prp.idle, c)

/-- src/fsw/FCCode/PropController.cpp:294-301 `PropState_AwaitPressurizing::evaluate`. -/
def evalAwaitPressurizing (c : Ctl) (e : PropEnv) : U32 × Ctl :=
  let (b, c) := c.canEnter e Prp.handlingFault
  if b then (Prp.handlingFault, c)
  else if (c.canEnter e Prp.pressurizing).1 then (Prp.pressurizing, c)
  else (Prp.awaitPressurizing, c)

/-- src/fsw/FCCode/PropController.cpp:413-427 `PropState_Pressurizing::handle_out_of_cycles`. -/
def pressOutOfCycles (c : Ctl) (cc : U32) : U32 × Ctl :=
  let p := c.faults.press.signal cc
  let c := { c with faults := { c.faults with press := p.poll } }
  if p.isFaulted then (Prp.handlingFault, { c with drv := c.drv.reset }) else (Prp.awaitFiring, c)

/-- src/fsw/FCCode/PropController.cpp:399-411 `PropState_Pressurizing::evaluate` with
src/fsw/FCCode/PropController.hpp:119-122, 362-406. -/
def evalPressurizing (c : Ctl) (e : PropEnv) : U32 × Ctl :=
  if c.countdown ≤ 1 then (Prp.idle, { c with drv := c.drv.reset })
  else
    let (b, c) := c.canEnter e Prp.handlingFault
    if b then (Prp.handlingFault, { c with drv := c.drv.reset })
    else
      let (r, a, d) := c.press.evaluate c.drv .one (c.pressure ≥ c.threshold) (!c.validSchedule) c.maxPress.toNat
        c.fill.toNat c.cool.toNat c.tank1Valve.toNat
      let c := { c with press := a, drv := d }
      match r with
      | .succeeded => (Prp.awaitFiring, c)
      | .failed => (Prp.disabled, c)
      | .stay => (Prp.pressurizing, c)
      | .started => (Prp.pressurizing, c)
      | .outOfCycles => c.pressOutOfCycles e.cc

/-- src/fsw/FCCode/PropController.cpp:445-456, 458-461 `PropState_AwaitFiring::evaluate` and `is_time_to_fire`, with
src/fsw/FCCode/PropController.hpp:147-153. -/
def evalAwaitFiring (c : Ctl) (e : PropEnv) : U32 × Ctl :=
  let (b, c) := c.canEnter e Prp.handlingFault
  if b then (Prp.handlingFault, c)
  else if c.countdown = 0 then (Prp.firing, { c with drv := (c.drv.setSchedule [c.v1, c.v2, c.v3, c.v4]).2 })
  else (Prp.awaitFiring, c)

/-- src/fsw/FCCode/PropController.cpp:503-509 `is_schedule_empty`: the 32-bit sum of the four entries is 0. -/
def scheduleEmpty (d : Driver) : Bool := (d.tank2.map (·.sched)).foldl (· + ·) 0 = (0 : U32)

/-- src/fsw/FCCode/PropController.cpp:482-501 `PropState_Firing::evaluate`. -/
def evalFiring (c : Ctl) (e : PropEnv) : U32 × Ctl :=
  let (b, c) := c.canEnter e Prp.handlingFault
  if b then (Prp.handlingFault, { c with drv := c.drv.reset })
  else if scheduleEmpty c.drv then (Prp.idle, { c with drv := c.drv.disable })
  else (Prp.firing, c)

/-- src/fsw/FCCode/PropController.cpp:539-554 `PropState_HandlingFault::evaluate`. -/
def evalHandlingFault (c : Ctl) (e : PropEnv) : U32 × Ctl :=
  let (b, c) := c.canEnter e Prp.venting
  if b then (Prp.venting, c)
  else
    let (b, c) := c.canEnter e Prp.handlingFault
    if b then (Prp.handlingFault, c) else (Prp.idle, c)

/-- src/fsw/FCCode/PropController.cpp:608-615 `PropState_Venting::has_succeeded`. -/
def ventSucceeded (c : Ctl) : Bool × PropFaults :=
  if c.choice = .one then (!c.faults.wants1.1, c.faults.wants1.2) else (!c.faults.wants2.1, c.faults.wants2.2)

/-- src/fsw/FCCode/PropController.cpp:626-645 `PropState_Venting::handle_out_of_cycles`. -/
def ventOutOfCycles (c : Ctl) : U32 × Ctl :=
  if c.maxVent = 1 then (Prp.handlingFault, c)
  else
    let (w, f) := if c.choice = .one then c.faults.wants2 else c.faults.wants1
    (if w then Prp.handlingFault else Prp.disabled, { c with faults := f })

/-- `PropState_Venting::evaluate` (inherited, src/fsw/FCCode/PropController.cpp:314-334), with src/fsw/FCCode/PropController.cpp:617-624 and
src/fsw/FCCode/PropController.hpp:468-500. -/
def evalVenting (c : Ctl) : U32 × Ctl :=
  let (succ, f) := c.ventSucceeded
  let c := { c with faults := f }
  let sel := if c.choice = .one then c.tank1Valve.toNat else c.saved.toNat % 4
  let (r, a, d) := c.vent.evaluate c.drv c.choice succ false c.maxVent.toNat c.fill.toNat c.closePeriod.toNat sel
  let c := { c with vent := a, drv := d }
  match r with
  | .succeeded => (Prp.idle, c)
  | .failed => (Prp.disabled, c)
  | .stay => (Prp.venting, c)
  | .started => (Prp.venting, { c with saved := if c.choice = .two then c.saved + 1 else c.saved })
  | .outOfCycles => c.ventOutOfCycles

/-- src/fsw/FCCode/PropController.cpp:661-687 `PropState_Manual::evaluate`. -/
def evalManual (c : Ctl) : U32 × Ctl :=
  let d := c.drv.setValve .two 0 (c.v1 > 0)
  let d := d.setValve .two 1 (c.v2 > 0)
  let d := d.setValve .two 2 (c.v3 > 0)
  let d := d.setValve .two 3 (c.v4 > 0)
  let d := d.setValve .one 0 (c.inter1 > 0)
  let d := d.setValve .one 1 (c.inter2 > 0)
  (Prp.manual, { c with drv := d })

/-- src/fsw/FCCode/PropController.cpp:106: `get_state(current_state).evaluate()`;
src/fsw/FCCode/PropController.cpp:239-245 for `disabled`. -/
def evaluate (c : Ctl) (e : PropEnv) : U32 × Ctl :=
  if c.state = Prp.idle then c.evalIdle e
  else if c.state = Prp.awaitPressurizing then c.evalAwaitPressurizing e
  else if c.state = Prp.pressurizing then c.evalPressurizing e
  else if c.state = Prp.awaitFiring then c.evalAwaitFiring e
  else if c.state = Prp.firing then c.evalFiring e
  else if c.state = Prp.venting then c.evalVenting
  else if c.state = Prp.handlingFault then c.evalHandlingFault e
  else if c.state = Prp.manual then c.evalManual
  else (Prp.disabled, { c with drv := c.drv.reset })

/-- src/fsw/FCCode/PropController.cpp:100-101. -/
def decrement (c : Ctl) : Ctl := if c.countdown > 0 then { c with countdown := c.countdown - 1 } else c

/-- src/fsw/FCCode/PropController.cpp:108-125. -/
def transition (c : Ctl) (e : PropEnv) (next : U32) : Ctl :=
  if next = c.state then c
  else
    let (b, c) := c.canEnter e next
    if b then { c with state := next }.enter next else { c with state := Prp.disabled }

/-- src/fsw/FCCode/PropController.cpp:126-130. -/
def readSensors (c : Ctl) (e : PropEnv) : Ctl := { c with pressure := e.pressure, temp2 := e.temp2, temp1 := e.temp1 }

/-- src/fsw/FCCode/PropController.cpp:96-131 `execute`. -/
def execute (c : Ctl) (e : PropEnv) : Ctl :=
  let c := (c.checkFaults e.cc).decrement
  let (next, c) := c.evaluate e
  (c.transition e next).readSensors e

end Ctl

/-- Which propulsion fault a ground write addresses. -/
inductive PropFaultId | press | over | temp2 | temp1
  deriving DecidableEq, Repr

/-- Writes to the controller's writable fields by ground (uplink) and by other control tasks: the mission manager and the
propulsion fault handler write `prop.state`, the orbit controller writes the countdown and the valve fields, and polls of
the faults happen in the fault handlers. -/
inductive PropWrite where
  | state (x : U32)
  | countdown (x : U32)
  | sched (a b c d : U32)
  | inter (a b : U32)
  | maxVent (x : U32)
  | closePeriod (x : U32)
  | maxPress (x : U32)
  | threshold (x : Rat)
  | fill (x : U32)
  | cool (x : U32)
  | tank1Valve (x : U32)
  | fault (i : PropFaultId) (op : FaultOp)
  deriving DecidableEq, Repr

namespace Ctl

/-- Effect of one write. -/
def write (c : Ctl) : PropWrite → Ctl
  | .state x => { c with state := x }
  | .countdown x => { c with countdown := x }
  | .sched a b d f => { c with v1 := a, v2 := b, v3 := d, v4 := f }
  | .inter a b => { c with inter1 := a, inter2 := b }
  | .maxVent x => { c with maxVent := x }
  | .closePeriod x => { c with closePeriod := x }
  | .maxPress x => { c with maxPress := x }
  | .threshold x => { c with threshold := x }
  | .fill x => { c with fill := x }
  | .cool x => { c with cool := x }
  | .tank1Valve x => { c with tank1Valve := x }
  | .fault .press op => { c with faults := { c.faults with press := c.faults.press.step op } }
  | .fault .over op => { c with faults := { c.faults with over := c.faults.over.step op } }
  | .fault .temp2 op => { c with faults := { c.faults with temp2 := c.faults.temp2.step op } }
  | .fault .temp1 op => { c with faults := { c.faults with temp1 := c.faults.temp1.step op } }

/-- A sequence of writes. -/
def writes (c : Ctl) (ws : List PropWrite) : Ctl := ws.foldl write c

/-- Timer interrupts between two control tasks. -/
def interrupts (c : Ctl) (n : Nat) : Ctl := { c with drv := c.drv.ticks n }

end Ctl

/-- One control cycle seen from the propulsion controller: some timer interrupts, writes by other tasks and ground, more
interrupts, then `execute`. -/
structure PropCycle where
  ticks1 : Nat
  writes : List PropWrite
  ticks2 : Nat
  env : PropEnv
  deriving DecidableEq, Repr

namespace Ctl

/-- State when `execute` is called in a cycle. -/
def beforeExecute (c : Ctl) (y : PropCycle) : Ctl := ((c.interrupts y.ticks1).writes y.writes).interrupts y.ticks2

/-- One control cycle. -/
def cycle (c : Ctl) (y : PropCycle) : Ctl := (c.beforeExecute y).execute y.env

/-- A history of control cycles, oldest first. -/
def run (c : Ctl) (ys : List PropCycle) : Ctl := ys.foldl cycle c

end Ctl
end PAN
