import Verif.Spec.Bits
import Verif.Spec.Serializer
/-! Specification of the uplink packet format: a sequence of entries (field index, new bits), then zero
padding. -/
namespace PAN.Spec

/-- `n` as `w` bits, least significant first. -/
def natBits : Nat → Nat → List Bool
  | 0, _ => []
  | w + 1, n => decide (n % 2 = 1) :: natBits w (n / 2)

/-- One requested field update. -/
structure Entry where
  index : Nat
  bits : List Bool
  deriving DecidableEq, Repr

/-- The bits of an entry: index plus one in `isz` bits, then the field's bits. -/
def encodeEntry (isz : Nat) (e : Entry) : List Bool := natBits isz (e.index + 1) ++ e.bits

/-- The bits of a sequence of entries. -/
def encode (isz : Nat) (es : List Entry) : List Bool := es.flatMap (encodeEntry isz)

/-- The entries name existing fields of matching, non-zero width, each at most once. -/
def EntriesOk (widths : List Nat) (es : List Entry) : Prop :=
  (es.map (·.index)).Nodup ∧ ∀ e ∈ es, widths[e.index]? = some e.bits.length ∧ e.bits ≠ []

/-- `bits` is a packet made of the entries `es` followed by `pad` zero bits. -/
def IsPacket (isz : Nat) (widths : List Nat) (bits : List Bool) (es : List Entry) (pad : Nat) : Prop :=
  bits = encode isz es ++ List.replicate pad false ∧ EntriesOk widths es

end PAN.Spec
