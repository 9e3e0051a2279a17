import Verif.Model.System
import Verif.Model.ADCSReadings

/-!
The tasks that watch the hardware (power supply task, box monitor) together with the tasks from the mission manager to the
propulsion controller, in the order of `MainControlLoop::execute` (src/fsw/FCCode/MainControlLoop.cpp:146-160), on the fields they
share.
-/
namespace PAN

/-- The tasks with their fields. Of the fields that are in two of the component models those of `gs` and `mon` count between the
cycles: the faults, `gomspace.gs_reset_cmd`, `gomspace.piksi_off` and the two power cycle commands that the mission manager
(src/fsw/FCCode/MissionManager.cpp:73, 80-81) and the radio fault handler (src/fsw/FCCode/QuakeFaultHandler.cpp:15) write. -/
structure WatchSys (L : Orb.Lib) where
  gs : Gs
  mon : ADCS.Monitor
  sys : Sys L

/-- One control cycle: the answers of the power supply and of the attitude control box, what the other tasks and the ground do to the
fields before the mission manager runs (src/fsw/FCCode/MainControlLoop.cpp:150-153), and the inputs of the tasks from the mission manager
on. -/
structure WatchIn (L : Orb.Lib) where
  gs : GsIn
  box : ADCS.BoxData
  others : WatchSys L → WatchSys L
  sys : SysIn L

namespace WatchSys
variable {L : Orb.Lib}

/-- The fields as the mission manager finds them: found by name in the registry, so they are those of the tasks that own them
(src/fsw/FCCode/MissionManager.cpp:73-86, src/fsw/FCCode/MainFaultHandler.cpp:15-65). -/
def forManager (w : WatchSys L) : Sys L :=
  { w.sys with mm := { w.sys.mm with
      reset := w.gs.gsReset
      piksiOff := w.gs.piksiOff
      piksiPowercycle := w.gs.pc 0
      functional := w.mon.functionalFault
      fh := { w.sys.mm.fh with
        lowBatt := w.gs.lowBatt
        wheel1 := w.mon.wheel1Fault
        wheel2 := w.mon.wheel2Fault
        wheel3 := w.mon.wheel3Fault
        wheelPot := w.mon.potFault
        radio := { w.sys.mm.fh.radio with powerCycle := w.gs.pc 2 } } } }

/-- The same fields given back. -/
def fromManager (w : WatchSys L) (s : Sys L) : WatchSys L :=
  { gs := { w.gs with
      gsReset := s.mm.reset
      piksiOff := s.mm.piksiOff
      pc := fun k => if k = 0 then s.mm.piksiPowercycle else if k = 2 then s.mm.fh.radio.powerCycle else w.gs.pc k
      lowBatt := s.mm.fh.lowBatt }
    mon := { w.mon with
      functionalFault := s.mm.functional
      wheel1Fault := s.mm.fh.wheel1
      wheel2Fault := s.mm.fh.wheel2
      wheel3Fault := s.mm.fh.wheel3
      potFault := s.mm.fh.wheelPot }
    sys := s }

/-- src/fsw/FCCode/MainControlLoop.cpp:146-160 without the tasks that are in `others`, in control cycle `cc`; also the commands sent to the
power supply and the messages sent to the box. `none`: the kill switch's endless loop, or undefined behaviour. -/
def cycle (ρ : Orb.Rounding) (w : WatchSys L) (cc : U32) (x : WatchIn L) :
    Option (WatchSys L × List (List U8) × List (List U8)) :=
  match w.gs.execute cc x.gs with
  | none => none
  | some (g, out) =>
    let w := x.others { w with gs := g, mon := w.mon.execute cc x.box }
    match w.forManager.cycle ρ { x.sys with mm := { x.sys.mm with cc := cc } } with
    | none => none
    | some (s, msgs) => some (w.fromManager s, out, msgs)

end WatchSys
end PAN
