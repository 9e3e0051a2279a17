import Verif.Model.Fault
import Mathlib.Data.List.Dedup
/-!
Independent specification of when a fault should be tripped, in terms of the history of calls only.
-/
namespace PAN.Spec

/-- The control cycles at which the history contains a `signal` call. -/
def signalCycles (ops : List FaultOp) : List Nat :=
  ops.filterMap fun
    | .signal cc => some cc.toNat
    | _ => none

/-- Every call except `unsignal`. -/
def notUnsignal : FaultOp → Bool
  | .unsignal => false
  | _ => true

/-- The calls made after the most recent `unsignal` (newest first). -/
def sinceUnsignal (ops : List FaultOp) : List FaultOp :=
  ops.reverse.takeWhile notUnsignal

/-- The calls made up to the most recent `unsignal` (newest first). -/
def upToUnsignal (ops : List FaultOp) : List FaultOp :=
  ops.reverse.dropWhile notUnsignal

/-- The number of distinct control cycles with a `signal` call since the last `unsignal`, not counting
a cycle in which the fault had already been signalled before that `unsignal`. -/
def consecutiveCycles (ops : List FaultOp) : Nat :=
  ((signalCycles (sinceUnsignal ops)).filter
    (fun c => decide (∀ d ∈ signalCycles (upToUnsignal ops), d < c))).dedup.length

/-- The calls flight code makes (as opposed to ground writes). -/
def isFlightCall : FaultOp → Bool
  | .signal _ => true
  | .unsignal => true
  | .poll => true
  | .setSuppress _ => false
  | .setOverride _ => false
  | .setUnsignal _ => false
  | .setPersistence _ => false
  | .setBase _ => false

/-- Length of the run of `true` flags at the end of a list of per-cycle evaluations. -/
def trailingTrue (flags : List Bool) : Nat := (flags.reverse.takeWhile id).length

end PAN.Spec
