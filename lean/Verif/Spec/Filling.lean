import Verif.Model.Filling
/-! Specification vocabulary of C126: the runs of a sequence of actions, and time in a run. -/
namespace PAN.Spec
open Fill

/-- The time, in microseconds, an action takes at least: only a wait has a length of its own. -/
def nominal : Act → Nat
  | .wait ms => 1000 * ms
  | _ => 0

/-- `ds` are possible durations of the actions: every action takes its own time and up to `slack` microseconds more (printing, the
bus, inaccurate waits). -/
def Run (slack : Nat) (acts : List Act) (ds : List Nat) : Prop :=
  ds.length = acts.length ∧
  ∀ (i : Nat) a d, acts[i]? = some a → ds[i]? = some d → nominal a ≤ d ∧ d ≤ nominal a + slack

/-- The time from the beginning of action `i` to the beginning of action `j`. -/
def elapsed (ds : List Nat) (i j : Nat) : Nat := ((ds.drop i).take (j - i)).sum

end PAN.Spec
