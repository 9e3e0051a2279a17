import Verif.Model.UplinkSys
import Verif.Spec.Uplink
import Verif.Props.QuakeReceive
/-! Specification of the way of a command from the modem to the fields. -/
namespace PAN.Spec
open Uplink

/-- What becomes of the commanded fields in a cycle, if `m` is the message the modem handed over in the cycle before: nothing
without a message; nothing if the message is no list of updates (with at most index width + 7 zero bits after it); otherwise
exactly the updates. -/
inductive UplinkEffect {α : Type} : Option (List U8) → List (WField α) → List (WField α) → Prop
  | nothing (f : List (WField α)) : UplinkEffect none f f
  | refused (bytes : List U8) (f : List (WField α)) :
      (∀ es pad, IsPacket (indexSize f.length) (f.map fun x => x.bits.length) (bitsOf bytes) es pad → indexSize f.length + 7 < pad) →
      UplinkEffect (some bytes) f f
  | taken (bytes : List U8) (f f' : List (WField α)) (es : List Entry) (pad : Nat) :
      IsPacket (indexSize f.length) (f.map fun x => x.bits.length) (bitsOf bytes) es pad → pad ≤ indexSize f.length + 7 →
      f'.length = f.length →
      (∀ e ∈ es, ∀ x, f[e.index]? = some x → f'[e.index]? = some { x with bits := e.bits, value := x.decode e.bits x.value }) →
      (∀ i : Nat, (∀ e ∈ es, e.index ≠ i) → f'[i]? = f[i]?) → UplinkEffect (some bytes) f f'

/-- The message the modem hands over in a cycle: its answer to the read command, if that is accepted. -/
def handedOver (q : QM) (y : QCycle) : Option (List U8) :=
  if q.call y = some (.getSbdrb, QCode.ok) then
    some (y.inp.port.rx.take (256 * (y.inp.port.hi.getD 0).toNat + (y.inp.port.lo.getD 0).toNat))
  else none

/-- The length of the waiting message according to the modem's last session report. -/
def announcedAfter (q : QM) (a : Int) (y : QCycle) : Int :=
  if q.call y = some (.getSbdix, QCode.ok) then y.inp.port.scan.getD 4 0 else a

/-- A modem that works: when an answer to the read command is accepted, all its bytes were there, and its length is the one in
the session report. -/
def ModemKeepsWord (q : QM) (a : Int) (y : QCycle) : Prop :=
  q.call y = some (.getSbdrb, QCode.ok) →
    ∃ hi lo, y.inp.port.hi = some hi ∧ y.inp.port.lo = some lo ∧ 256 * hi.toNat + lo.toNat ≤ y.inp.port.rx.length ∧
      a = (256 * hi.toNat + lo.toNat : Nat)

/-- The same for a history. -/
def ModemWorks : QM → Int → List QCycle → Prop
  | _, _, [] => True
  | q, a, y :: ys => ModemKeepsWord q a y ∧ ModemWorks (q.cycle y) (announcedAfter q a y) ys

/-- The history of the commanded fields: in every cycle, first the message handed over in the cycle before (`m`) is delivered,
then other tasks change what they change; nothing else happens to the fields. -/
inductive Commanded {α : Type} : QM → Option (List U8) → List (WField α) → List (UplinkCycle α) → List (WField α) → Prop
  | done (q : QM) (m : Option (List U8)) (f : List (WField α)) : Commanded q m f [] f
  | step (q : QM) (m : Option (List U8)) (f f' g : List (WField α)) (y : UplinkCycle α) (ys : List (UplinkCycle α)) :
      UplinkEffect m f f' → Commanded (q.cycle y.radio) (handedOver q y.radio) (y.others f') ys g → Commanded q m f (y :: ys) g

end PAN.Spec
