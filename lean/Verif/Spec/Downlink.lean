import Verif.Spec.Uplink
import Verif.Model.Downlink
/-!
Specification of downlink frames. A frame is a sequence of 560-bit packets; bits are numbered from the most
significant bit of the first byte. The first bit of each packet is a header, so payload bit `i` belongs at frame
position `slot i`.
-/
namespace PAN.Spec
open Downlink

/-- Bit `q` of a byte buffer, most significant bit of each byte first. -/
def frameBit (buf : List U8) (q : Nat) : Bool := ((buf[q / 8]?).getD 0).getLsbD (7 - q % 8)

/-- Frame position of payload bit `i`: 559 payload bits follow each header bit. -/
def slot (i : Nat) : Nat := i + 1 + i / 559

/-- Number of frame bits used by `n` payload bits (a new packet is opened only when it gets a payload bit). -/
def frameLen (n : Nat) : Nat := n + 1 + (n - 1) / 559

/-- Number of bits of a flow id when there are `n` flows: the shortest width that holds `n`. -/
def idWidth (n : Nat) : Nat := Nat.log2 n + 1

/-- The payload of a frame: the 32-bit cycle count, then for every active flow its id and its fields' bits. -/
def payload (env : Nat → List Bool) (cc : U32) (flows : List (Nat × List Nat)) (n : Nat) : List Bool :=
  natBits 32 cc.toNat ++ flows.flatMap fun f => natBits (idWidth n) f.1 ++ f.2.flatMap env

/-- The active flows of a producer in priority order: id and fields. -/
def activeFlows (p : Producer) : List (Nat × List Nat) :=
  (p.flows.filter (·.active)).map fun f => (f.idVal.toNat, f.fields)

/-- What a faithful report of the frame contains: every active flow with its id and its fields' bits. -/
def report (env : Nat → List Bool) (flows : List (Nat × List Nat)) : List (Int × List (Nat × List Bool)) :=
  flows.map fun f => ((f.1 : Int), f.2.map fun x => (x, env x))

/-- The field values have the widths the fields were registered with. -/
def Fits (width : Nat → Nat) (env : Nat → List Bool) : Prop := ∀ x, (env x).length = width x

/-- `p` is the state of a producer configured with `data` after some history of control cycles in which no access
was out of bounds and no assertion failed. -/
def Reachable (width : Nat → Nat) (data : List FlowData) (p : Producer) : Prop :=
  ∃ junk p0 cycles, init width junk data = some p0 ∧ (∀ c ∈ cycles, Fits width c.env) ∧ run width p0 cycles = some p

/-- Flow identifiers are pairwise different. -/
def DistinctIds (data : List FlowData) : Prop := (data.map (·.id)).Nodup

end PAN.Spec
