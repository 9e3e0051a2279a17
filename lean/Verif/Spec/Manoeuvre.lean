import Verif.Props.PropArm
/-!
What it takes for a commanded manoeuvre to be undisturbed (C115).
-/
namespace PAN.Spec

/-- Writes that leave a commanded manoeuvre as it is: commands to faults, new durations of at most a second (the orbit
controller refreshes them in every cycle), and parameters of venting and of manual mode. -/
def Harmless : PropWrite → Prop
  | .fault _ _ | .inter _ _ | .maxVent _ | .closePeriod _ | .tank1Valve _ => True
  | .sched a b c d => a.toNat ≤ 1000 ∧ b.toNat ≤ 1000 ∧ c.toNat ≤ 1000 ∧ d.toNat ≤ 1000
  | _ => False

/-- A cycle in which nothing disturbs the manoeuvre: nobody interferes, the propulsion hardware works, no propulsion fault is
reported. -/
structure Undisturbed (c : Ctl) (y : PropCycle) : Prop where
  writes : ∀ w ∈ y.writes, Harmless w
  functional : y.env.functional = true
  healthy : ¬ SomeFault ((c.beforeExecute y).checkFaults y.env.cc).faults

/-- A history of such cycles. -/
def UndisturbedRun : Ctl → List PropCycle → Prop
  | _, [] => True
  | c, y :: ys => Undisturbed c y ∧ UndisturbedRun (c.cycle y) ys

/-- How many cycles ahead a manoeuvre has to be commanded so that all fillings of the tank fit in. -/
def cyclesNeeded (c : Ctl) : ℕ := c.maxPress.toNat * (c.fill.toNat + c.cool.toNat) + 4

end PAN.Spec
