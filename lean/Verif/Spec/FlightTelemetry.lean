import Verif.Spec.Downlink
import Verif.Props.Downlink
/-!
Specification for C117.
-/
namespace PAN
namespace Spec
open Downlink

/-- No flow was toggled or shifted by command. -/
def NoFlowCommand (cycles : List Cycle) : Prop := ∀ c ∈ cycles, c.toggleId = 0 ∧ (c.shiftId1 = 0 ∨ c.shiftId2 = 0)

/-- `p` is the producer of the configuration `data` after some cycles without a flow command. -/
def QuietReach (width : Nat → Nat) (data : List FlowData) (p : Producer) : Prop :=
  ∃ junk p0 cycles, init width junk data = some p0 ∧ (∀ c ∈ cycles, Fits width c.env) ∧ NoFlowCommand cycles ∧
    run width p0 cycles = some p

end Spec
end PAN
