import Verif.Model.System
import Verif.Model.Docking

/-!
The docking task as the last part of the control cycle, after the tasks of `Verif.Model.System`
(src/fsw/FCCode/MainControlLoop.cpp:154-163), and the power of its motor: motor and thrusters hang on the same converter
(src/fsw/FCCode/Drivers/DockingSystem.cpp:38-45, src/fsw/FCCode/Drivers/PropulsionSystem.cpp:227-236). The downlink producer and the radio
manager, which run in between, write no field of this model.
-/
namespace PAN

/-- The tasks of `Sys` and the docking task with its motor. -/
structure DockSys (L : Orb.Lib) where
  sys : Sys L
  dock : Dock

/-- What one cycle reads from outside: the inputs of the other tasks (their `docked` is not used, it is the docking
task's field); how often the step timer's interrupt fires before the converter task and between it and the docking task; and
for the docking task the step angle, whether starting the timer succeeds, the interrupts during the task, and the switch. -/
structure DockSysIn (L : Orb.Lib) where
  inp : SysIn L
  before : Nat
  between : Nat
  angle : ℚ
  armed : Bool
  mid : Nat
  switch : Bool

namespace DockSys
variable {L : Orb.Lib}

/-- A step pulse moves the motor only if the motor's converter is on (src/fsw/FCCode/Drivers/DockingSystem.cpp:38-45). -/
def moves (power : Bool) (steps : Nat) : Nat := if power then steps else 0

/-- The inputs of the other tasks, with `docksys.docked` as the docking task left it in the previous cycle
(src/fsw/FCCode/MissionManager.cpp:75, 321; src/fsw/FCCode/DockingController.cpp:83). -/
def others (s : DockSys L) (i : DockSysIn L) : SysIn L :=
  { i.inp with mm := { i.inp.mm with docked := s.dock.docked } }

/-- What the docking task reads: `docksys.config_cmd` is the mission manager's field
(src/fsw/FCCode/DockingController.cpp:36-38, 58; src/fsw/FCCode/MissionManager.cpp:28, 49). -/
def dockIn (sys : Sys L) (i : DockSysIn L) : DockIn :=
  { cmd := sys.mm.dockingConfig, angle := i.angle, armed := i.armed, mid := i.mid, docked := i.switch }

/-- src/fsw/FCCode/MainControlLoop.cpp:154-163, on the tasks modelled: the cycle's outcome and the steps the motor really
moved. `none`: undefined behaviour, or the kill switch's endless loop. -/
def cycle (ρ : Orb.Rounding) (s : DockSys L) (i : DockSysIn L) : Option (DockSys L × Nat) :=
  match s.sys.cycle ρ (s.others i) with
  | none => none
  | some (sys, _) =>
    let (d1, k1) := s.dock.ticks i.before
    let (d2, k2) := d1.ticks i.between
    match d2.execute (dockIn sys i) with
    | none => none
    | some (d3, k3) =>
      some ({ sys := sys, dock := d3 }, moves s.sys.dcdc.sph k1 + moves sys.dcdc.sph k2 + moves sys.dcdc.sph k3)

end DockSys
end PAN
