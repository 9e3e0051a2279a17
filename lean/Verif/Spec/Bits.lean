import Verif.Model.Bitstream
/-! Specification vocabulary for bit streams: a byte array is the list of its bits, least significant bit
of each byte first. -/
namespace PAN.Spec

/-- The eight bits of a byte, least significant first. -/
def byteBits (b : U8) : List Bool :=
  [b.getLsbD 0, b.getLsbD 1, b.getLsbD 2, b.getLsbD 3, b.getLsbD 4, b.getLsbD 5, b.getLsbD 6, b.getLsbD 7]

/-- All bits of a byte array. -/
def bitsOf (bytes : List U8) : List Bool := bytes.flatMap byteBits

/-- Absolute bit position of a stream. -/
def pos (s : Bitstream) : Nat := 8 * s.byteOff + s.bitOff

/-- The position is inside the stream (or exactly at its end) and the bit offset is below 8: every state
a stream constructed by the API can reach. -/
def WellFormed (s : Bitstream) : Prop := s.bitOff < 8 ∧ pos s ≤ 8 * s.bytes.length

instance (s : Bitstream) : Decidable (WellFormed s) := inferInstanceAs (Decidable (_ ∧ _))

/-- The bits not yet consumed. -/
def remaining (s : Bitstream) : List Bool := (bitsOf s.bytes).drop (pos s)

end PAN.Spec
