import Verif.Model.Basic
/-!
The serial protocol of the GPS receiver as its documentation describes it: a frame is the preamble 0x55, the message
type and the sender (two bytes each, lower byte first), the length, the payload and the checksum of everything between
preamble and checksum (two bytes, lower byte first). The checksum is the remainder of the message polynomial, highest
bit first, divided by x^16 + x^12 + x^5 + 1, starting from zero.
-/
namespace PAN.Spec

/-- One step of the long division: the next message bit enters, `x^16` is replaced by `x^12 + x^5 + 1`. -/
def crcBit (r : BitVec 16) (b : Bool) : BitVec 16 := if r.msb != b then (r <<< 1) ^^^ 0x1021 else r <<< 1

/-- The bits of a byte, highest first. -/
def wireBits (b : U8) : List Bool :=
  [b.getLsbD 7, b.getLsbD 6, b.getLsbD 5, b.getLsbD 4, b.getLsbD 3, b.getLsbD 2, b.getLsbD 1, b.getLsbD 0]

/-- The checksum of a sequence of bytes. -/
def crcOf (bytes : List U8) : BitVec 16 := (bytes.flatMap wireBits).foldl crcBit 0

/-- A 16-bit number, lower byte first. -/
def le16 (v : BitVec 16) : List U8 := [v.extractLsb' 0 8, v.extractLsb' 8 8]

/-- What the checksum covers. -/
def frameBody (ty sender : BitVec 16) (payload : List U8) : List U8 :=
  le16 ty ++ le16 sender ++ [BitVec.ofNat 8 payload.length] ++ payload

/-- A whole frame. -/
def frame (ty sender : BitVec 16) (payload : List U8) : List U8 :=
  0x55 :: (frameBody ty sender payload ++ le16 (crcOf (frameBody ty sender payload)))

end PAN.Spec
