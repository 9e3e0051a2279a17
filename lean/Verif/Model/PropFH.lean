import Verif.Model.Prop
/-!
Model of `src/fsw/FCCode/PropFaultHandler.{h,cpp}`. The handler reads and writes fields of the propulsion controller, so it
acts on a `Ctl`. It runs before the controller in a control cycle (it belongs to the mission manager's fault handling).
-/
namespace PAN

/-- src/fsw/FCCode/PropFaultHandler.h:33-37: `saved_max_venting_cycles`, `num_cycles_both_venting` (both `size_t`, 32 bits on
the flight computer) and `has_not_init`. -/
structure PropFH where
  saved : U32
  num : U32
  notInit : Bool
  deriving DecidableEq, Repr

namespace PropFH

/-- src/fsw/FCCode/PropFaultHandler.h:33-37: initial values. -/
def init : PropFH := { saved := 0, num := 0, notInit := true }

/-- src/fsw/FCCode/PropFaultHandler.cpp:63-69 `both_tanks_want_to_vent`: the answer and the polled faults. -/
def both (f : PropFaults) : Bool × PropFaults :=
  let (w1, f) := f.wants1
  let (w2, f) := f.wants2
  (w1 && w2, f)

/-- src/fsw/FCCode/PropFaultHandler.cpp:102-107 `handle_restore_values`. -/
def restore (h : PropFH) (c : Ctl) : PropFH × Ctl := ({ h with num := 0 }, { c with maxVent := h.saved })

/-- src/fsw/FCCode/PropFaultHandler.cpp:71-100 `handle_both_tanks_want_to_vent`. -/
def handleBoth (h : PropFH) (c : Ctl) : PropFH × Ctl :=
  if h.num = 0 then ({ h with saved := c.maxVent, num := 1 }, { c with maxVent := 1 })
  else if c.state = Prp.handlingFault then
    let h := { h with num := h.num + 1 }
    if h.num > h.saved then h.restore { c with state := Prp.disabled } else (h, c)
  else (h, c)

/-- src/fsw/FCCode/PropFaultHandler.cpp:38-61 `execute` with `init` (23-36). The propulsion controller exists (it is
constructed before the mission manager runs), so the null test of line 40 is not modelled. -/
def execute (h : PropFH) (c : Ctl) : Resp × PropFH × Ctl :=
  let h := if h.notInit then { h with saved := c.maxVent, notInit := false } else h
  if c.state ≠ Prp.handlingFault ∧ c.state ≠ Prp.venting then (.none, h, c)
  else
    let (b, f) := both c.faults
    let c := { c with faults := f }
    let (h, c) := if b then h.handleBoth c else h.restore c
    (.standby, h, c)

end PropFH

/-- One control cycle with the fault handler: interrupts and ground writes, the fault handler (mission manager), more
interrupts and writes (orbit controller, mission manager), then the controller. -/
structure PropFHCycle where
  before : List PropWrite
  ticks : Nat
  after : PropCycle
  deriving DecidableEq, Repr

namespace PropFH

/-- The fault handler and the controller in one control cycle. -/
def cycle (q : PropFH × Ctl) (y : PropFHCycle) : PropFH × Ctl :=
  let c := (q.2.writes y.before).interrupts y.ticks
  let (_, h, c) := q.1.execute c
  (h, c.cycle y.after)

/-- A history of cycles, oldest first. -/
def run (q : PropFH × Ctl) (ys : List PropFHCycle) : PropFH × Ctl := ys.foldl cycle q

end PropFH
end PAN
