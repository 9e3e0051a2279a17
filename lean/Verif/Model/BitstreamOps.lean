import Verif.Model.Uplink
/-!
Model of the stream operators of `src/common/bitstream.{h,cpp}`: numbers, bit arrays and streams put into a stream with `<<`
and taken out of it with `>>`.
-/
namespace PAN
namespace BitOps
open Uplink

/-- src/common/bitstream.cpp:207-223 `bs >> n` for numbers of 4, 2 and 1 bytes (`k`): all bytes of the number are overwritten
(little endian, as on the flight computer and on the ground). -/
def getNum (s : Bitstream) (k : Nat) : Option (Nat × Bitstream) :=
  match s.nextN (8 * k) with
  | none => none
  | some (_, out, s') => some (leNat out, s')

/-- src/common/bitstream.cpp:225-229 `bs >> bit_arr` for an array of `n` bits. -/
def getBits (s : Bitstream) (n : Nat) : Option (List Bool × Bitstream) :=
  match s.nextNBits n n (List.replicate n false) with
  | none => none
  | some (_, out, s') => some (out, s')

/-- src/common/bitstream.cpp:231-247 `n << bs` for numbers of 4, 2 and 1 bytes (`k`). -/
def putNum (s : Bitstream) (k v : Nat) : Option Bitstream :=
  match s.editN (8 * k) ((sizeTBytes v).take k) with
  | none => none
  | some (_, s') => some s'

/-- src/common/bitstream.cpp:257-262 `bs_other << bs`: this stream and the other one afterwards. -/
def putStream (s other : Bitstream) : Option (Bitstream × Bitstream) :=
  match s.editNFrom other ((other.maxLen - other.byteOff) * 8 - other.bitOff) with
  | none => none
  | some (_, s', other') => some (s', other')

/-- src/common/bitstream.cpp:249-255 `ba << bs`; `junk` are the elements past the end of the array which the constructor of
the temporary stream reads. -/
def putBits (s : Bitstream) (ba : List Bool) (junk : Nat → Bool) : Option Bitstream :=
  match putStream s (ofBits ba junk) with
  | none => none
  | some (s', _) => some s'

/-- What can be put into a stream: a number of `k` bytes, or a bit array. -/
inductive Item
  | num (k v : Nat)
  | bits (ba : List Bool)
  deriving DecidableEq, Repr

/-- The operators one after the other, `bs` being the stream of every one. -/
def putAll (junk : Nat → Bool) : Bitstream → List Item → Option Bitstream
  | s, [] => some s
  | s, .num k v :: r =>
    match putNum s k v with
    | none => none
    | some s' => putAll junk s' r
  | s, .bits ba :: r =>
    match putBits s ba junk with
    | none => none
    | some s' => putAll junk s' r

/-- Taking out items of the kinds and sizes of those given. -/
def getAll : Bitstream → List Item → Option (List Item × Bitstream)
  | s, [] => some ([], s)
  | s, .num k _ :: r =>
    match getNum s k with
    | none => none
    | some (v, s') =>
      match getAll s' r with
      | none => none
      | some (o, s'') => some (.num k v :: o, s'')
  | s, .bits ba :: r =>
    match getBits s ba.length with
    | none => none
    | some (b, s') =>
      match getAll s' r with
      | none => none
      | some (o, s'') => some (.bits b :: o, s'')

end BitOps
end PAN
