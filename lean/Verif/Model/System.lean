import Verif.Model.MissionManager
import Verif.Model.Power
import Verif.Model.ADCSFlight
import Verif.Model.OrbitCtl

/-!
The middle of the control cycle: the tasks from the mission manager to the propulsion controller, in the order in which
`MainControlLoop::execute` runs them (src/fsw/FCCode/MainControlLoop.cpp:154-160), on the state fields they share. What the
tasks before them (sensors, uplink, estimators) leave behind is the state the cycle starts from and the inputs; the tasks
after them (downlink, radio, docking, EEPROM) do not write any field of this model.
-/
namespace PAN

/-- The tasks with their fields. Two fields are in two of the component models and are kept in step by `Sys.cycle`: the
converter commands (`dcdc.ADCSMotor_cmd`, `dcdc.SpikeDock_cmd`, of the mission manager and of the converter task), for
which those of `mm` count, and the valve times (of the orbit and the propulsion controller), for which those of `mm.fh.ctl`
count. -/
structure Sys (L : Orb.Lib) where
  mm : MM
  dcdc : DCDC
  att : ADCS.AttCtl
  cmds : ADCS.Cmds
  orb : Orb.St L

/-- What one cycle reads from outside. Of `orb` the fields that other tasks of the model own are not used. `ssa` is the
sun sensor mode last read from the box; `ticks1` and `ticks2` are the interrupts of the valve timer before the mission
manager and between it and the propulsion controller; the last three are the sensor readings of the tanks. -/
structure SysIn (L : Orb.Lib) where
  mm : MMIn
  att : ADCS.AttIn
  ssa : U8
  orb : Orb.In L
  ticks1 : Nat
  ticks2 : Nat
  pressure : Rat
  temp2 : Rat
  temp1 : Rat

namespace Sys
variable {L : Orb.Lib}

/-- src/fsw/FCCode/MainControlLoop.cpp:155 `dcdc_controller`, on the shared commands. -/
def runDcdc (s : Sys L) : Sys L :=
  let d := { s.dcdc with adcsCmd := s.mm.adcsDcdc, sphCmd := s.mm.sphDcdc }.execute
  { s with dcdc := d, mm := { s.mm with adcsDcdc := d.adcsCmd, sphDcdc := d.sphCmd } }

/-- src/fsw/FCCode/MainControlLoop.cpp:156-158 `attitude_controller`, `adcs_commander`, `adcs_box_controller`: also the
messages sent to the box. -/
def runAttitude (s : Sys L) (i : SysIn L) : Option (Sys L × List (List U8)) :=
  let att := s.att.execute i.att s.mm.adcs
  match (s.cmds.command s.mm.adcs att.torque att.moment).send s.mm.adcs i.ssa with
  | none => none
  | some (msgs, c) => some ({ s with att := att, cmds := c }, msgs)

/-- src/fsw/FCCode/MainControlLoop.cpp:159 `orbit_controller`, on the shared fields. -/
def runOrbit (ρ : Orb.Rounding) (s : Sys L) (i : SysIn L) : Option (Sys L) :=
  let c := s.mm.fh.ctl
  let inp := { i.orb with mission := s.mm.fh.mission, propState := c.state, countdown := c.countdown,
                          maxPress := c.maxPress, fill := c.fill, cool := c.cool }
  match { s.orb with valves := (c.v1, c.v2, c.v3, c.v4) }.exec ρ inp with
  | none => none
  | some (o, n) =>
    let (a, b, d, e) := o.valves
    some { s with
      orb := o
      mm := { s.mm with fh := { s.mm.fh with ctl := { c with countdown := n, v1 := a, v2 := b, v3 := d, v4 := e } } } }

/-- src/fsw/FCCode/MainControlLoop.cpp:160 `prop_controller`: the thrusters work exactly if the SpikeDock converter is on
(src/fsw/FCCode/Drivers/PropulsionSystem.cpp:227-236). -/
def runProp (s : Sys L) (i : SysIn L) : Sys L :=
  let e : PropEnv := { cc := i.mm.cc, functional := s.dcdc.sph, pressure := i.pressure, temp2 := i.temp2, temp1 := i.temp1 }
  { s with mm := { s.mm with fh := { s.mm.fh with ctl := (s.mm.fh.ctl.interrupts i.ticks2).execute e } } }

/-- src/fsw/FCCode/MainControlLoop.cpp:154-160: the tasks in order, and the messages sent to the attitude control box.
`none`: the kill switch's endless loop, or undefined behaviour. -/
def cycle (ρ : Orb.Rounding) (s : Sys L) (i : SysIn L) : Option (Sys L × List (List U8)) :=
  let s := { s with mm := { s.mm with fh := { s.mm.fh with ctl := s.mm.fh.ctl.interrupts i.ticks1 } } }
  match s.mm.execute i.mm with
  | none => none
  | some mm =>
    match { s with mm := mm }.runDcdc.runAttitude i with
    | none => none
    | some (s, msgs) =>
      match s.runOrbit ρ i with
      | none => none
      | some s => some (s.runProp i, msgs)

variable (L) in
/-- The tasks at construction (src/fsw/FCCode/MainControlLoop.cpp:24-55). -/
def init (m : L.Mem) (p t2 t1 : Rat) (a d : Bool) : Sys L :=
  { mm := MM.init p t2 t1, dcdc := DCDC.init a d, att := ADCS.AttCtl.init, cmds := ADCS.Cmds.init, orb := Orb.St.init L m }

end Sys
end PAN
