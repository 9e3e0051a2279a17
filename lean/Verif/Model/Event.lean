import Verif.Model.Basic
/-!
Model of `src/common/Event.{hpp,cpp}` and `src/common/EventStorage.{hpp,cpp}`. The data fields of an event are given by
the bit arrays their `serialize()` produces at the time of the call (serialization itself is modelled in
`Verif/Model/Serializer.lean`). Out-of-bounds accesses are `none`.
-/
namespace PAN

/-- src/common/Event.hpp:48-113 `Event`: the bit sizes of its data fields and its bit array. The name and the print
function are not modelled. -/
structure Event where
  widths : List Nat
  data : List Bool
  deriving DecidableEq, Repr

namespace Event

/-- src/common/Event.cpp:5-21 constructor. -/
def init (widths : List Nat) : Event := { widths, data := List.replicate (32 + widths.sum) false }

/-- src/common/Event.cpp:38-40: `(*field_data)[field_data_ptr] = field_bits[i]` for the `n` bits of one field starting
at position `p`; also lines 31-33 for the cycle number. -/
def writeBits (data : List Bool) (p : Nat) (bits : List Bool) : Nat → Option (List Bool)
  | 0 => some data
  | n + 1 =>
    match writeBits data p bits n with
    | none => none
    | some data =>
      match bits[n]? with
      | none => none
      | some b => if p + n < data.length then some (data.set (p + n) b) else none

/-- src/common/Event.cpp:36-41: the loop over the data fields. -/
def writeFields (data : List Bool) (p : Nat) : List Nat → List (List Bool) → Option (List Bool)
  | [], _ => some data
  | w :: ws, fs =>
    match fs with
    | [] => none
    | f :: fs =>
      match writeBits data p f w with
      | none => none
      | some data => writeFields data (p + w) ws fs

/-- src/common/Event.cpp:27-42 `serialize()`, called by `signal()` (lines 53-55). `cc` is `ccno->get()`, `fields` the bit
arrays of the data fields. -/
def signal (e : Event) (cc : U32) (fields : List (List Bool)) : Option Event :=
  match writeBits e.data 0 ((List.range 32).map fun i => cc.getLsbD i) 32 with
  | none => none
  | some data =>
    match writeFields data 32 e.widths fields with
    | none => none
    | some data => some { e with data }

/-- src/common/Event.cpp:65-68 and 76-79: read `n` bits starting at `p`. -/
def readBits (data : List Bool) (p : Nat) : Nat → Option (List Bool)
  | 0 => some []
  | n + 1 =>
    match readBits data p n with
    | none => none
    | some bs =>
      match data[p + n]? with
      | none => none
      | some b => some (bs ++ [b])

/-- src/common/Event.cpp:73-81: the bit arrays given to the data fields before `field->deserialize()`. -/
def readFields (data : List Bool) (p : Nat) : List Nat → Option (List (List Bool))
  | [] => some []
  | w :: ws =>
    match readBits data p w with
    | none => none
    | some f =>
      match readFields data (p + w) ws with
      | none => none
      | some fs => some (f :: fs)

/-- The number with the given bits, least significant first (`std::bitset<32>::to_ulong`). -/
def toNat : List Bool → Nat
  | [] => 0
  | b :: bs => b.toNat + 2 * toNat bs

/-- src/common/Event.cpp:60-82 `deserialize()`: the cycle number set and the bit array given to each data field. -/
def deserialize (e : Event) : Option (U32 × List (List Bool)) :=
  match readBits e.data 0 32 with
  | none => none
  | some cc =>
    match readFields e.data 32 e.widths with
    | none => none
    | some fs => some (BitVec.ofNat 32 (toNat cc), fs)

/-- src/common/Event.cpp:84-91 `set_bit_array`; a failed assertion is `none`. -/
def setBits (e : Event) (bits : List Bool) : Option Event :=
  if bits.length = e.data.length then some { e with data := bits } else none

end Event

/-- src/common/EventStorage.hpp:7-57 `EventStorage`. -/
structure EventStorage where
  events : List Event
  ptr : Nat
  deriving DecidableEq, Repr

namespace EventStorage

/-- src/common/EventStorage.cpp:4-21 constructor; a failed assertion is `none`. -/
def init (size : Nat) (widths : List Nat) : Option EventStorage :=
  if size ≤ 99 then some { events := List.replicate size (Event.init widths), ptr := 0 } else none

/-- src/common/EventStorage.cpp:54-60 `signal()`. -/
def signal (s : EventStorage) (cc : U32) (fields : List (List Bool)) : Option EventStorage :=
  match s.events[s.ptr]? with
  | none => none
  | some e =>
    match e.signal cc fields with
    | none => none
    | some e =>
      let ptr := s.ptr + 1
      some { events := s.events.set s.ptr e, ptr := if ptr = s.events.length then 0 else ptr }

/-- A history of signals: the cycle number and the fields' bit arrays at each. -/
def run (s : EventStorage) : List (U32 × List (List Bool)) → Option EventStorage
  | [] => some s
  | r :: rs =>
    match s.signal r.1 r.2 with
    | none => none
    | some s => run s rs

end EventStorage
end PAN
