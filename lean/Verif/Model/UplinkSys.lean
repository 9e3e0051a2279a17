import Verif.Model.Quake
import Verif.Model.Uplink
/-!
The uplink consumer and the radio manager together: how a message from the modem gets into the commanded fields.
Not modelled here: the debug console, which can write a message into the same buffer (C108).
-/
namespace PAN

/-- The fields that ground can write, and the radio manager. -/
structure UplinkSys (α : Type) where
  fields : List (WField α)
  qm : QM

/-- One control cycle seen from the two tasks: what the tasks between them do to the fields that ground can write, and the radio
manager's part. -/
structure UplinkCycle (α : Type) where
  others : List (WField α) → List (WField α)
  radio : QCycle

namespace UplinkSys
variable {α : Type}

/-- At construction: src/fsw/FCCode/QuakeManager.cpp:30-76; the fields have their default values. -/
def init (snapSize : Nat) (fields : List (WField α)) : UplinkSys α := { fields, qm := QM.init snapSize }

/-- src/fsw/FCCode/MainControlLoop.cpp:152-162: the uplink consumer on the buffer and the length the radio manager offers
(src/fsw/FCCode/QuakeManager.cpp:64-65 `uplink.ptr`, `uplink.len`), the tasks between, the radio manager. `none`: the consumer
reads beyond the buffer. -/
def cycle (s : UplinkSys α) (y : UplinkCycle α) : Option (UplinkSys α) :=
  match (Uplink.Consumer.execute { fields := s.fields, len := s.qm.mtLen.toNat, buf := some s.qm.dev.mt } : Option (Uplink.Consumer α)) with
  | none => none
  | some c =>
    some { fields := y.others c.fields
           qm := ((QM.writes { s.qm with mtLen := BitVec.ofNat 32 c.len } y.radio.writes).execute y.radio.inp).1 }

/-- A history of cycles, oldest first. -/
def run (s : UplinkSys α) : List (UplinkCycle α) → Option (UplinkSys α)
  | [] => some s
  | y :: ys =>
    match s.cycle y with
    | none => none
    | some s' => s'.run ys

end UplinkSys
end PAN
