import Verif.Model.Bitstream
/-!
Model of the uplink path: `src/fsw/FCCode/UplinkCommon.{h,cpp}`, `UplinkConsumer.{h,cpp}` (flight side) and
the packet construction of `src/gsw/parsers/src/UplinkProducer.cpp` (ground side).
-/
namespace PAN

/-- A writable state field as the uplink code sees it: its serializer's bit array, its current value and
the decoder of its type (`SerializableStateField::deserialize`, src/common/StateField.hpp), which may use
the previous value (the GPS time decoder does). -/
structure WField (α : Type) where
  bits : List Bool
  value : α
  decode : List Bool → α → α

namespace Uplink

/-- `reinterpret_cast<uint8_t*>(&field_index)` on a little-endian machine. Only the low `(n+7)/8` bytes are
overwritten by `nextN`; the higher bytes of `field_index` are 0 initially and stay 0 because the decremented
value never exceeds the value read. -/
def leNat : List U8 → Nat
  | [] => 0
  | b :: bs => b.toNat + 256 * leNat bs

/-- src/fsw/FCCode/UplinkCommon.cpp:11: the smallest `k`, starting at `k`, with `(n + 1) / 2^k = 0`. -/
def indexSizeFrom (n k : Nat) : Nat :=
  if h : (n + 1) / 2 ^ k > 0 then indexSizeFrom n (k + 1) else k
  termination_by n + 2 - k
  decreasing_by
    have h1 : 2 ^ k ≤ n + 1 := by
      rcases Nat.lt_or_ge (n + 1) (2 ^ k) with h2 | h2
      · rw [Nat.div_eq_of_lt h2] at h; omega
      · exact h2
    have := Nat.lt_two_pow_self (n := k)
    omega

/-- src/fsw/FCCode/UplinkCommon.cpp:7-12 `init_uplink`. -/
def indexSize (numFields : Nat) : Nat := indexSizeFrom numFields 1

/-- src/fsw/FCCode/UplinkCommon.cpp:93-98 `get_field_length`: 0 for an index that is out of range. -/
def fieldLength {α : Type} (fields : List (WField α)) (i : Nat) : Nat :=
  match fields[i]? with
  | none => 0
  | some f => f.bits.length

/-- src/fsw/FCCode/UplinkCommon.cpp:25-52: the loop of `_validate_packet`. `none` is an out-of-bounds access,
`some none` is `return false`, `some (some s)` is leaving the loop with the stream at `s`. `seen` is the bit
map `is_field_updated`; the model gives it the size of the registry (in the code it is a function-local
static sized on the first call, when the registry is complete). -/
def validateLoop {α : Type} (total : Nat) (fields : List (WField α)) (isz : Nat) (s : Bitstream) (checked : Nat)
    (seen : List Bool) : Option (Option Bitstream) :=
  if _h : checked < total then
    match s.nextN isz with
    | none => none
    | some (c, out, s') =>
      if leNat out = 0 then some (some s')
      else
        if _hl : fieldLength fields (leNat out - 1) = 0 then some none
        else
          match seen[leNat out - 1]? with
          | none => none
          | some u =>
            if u = true ∨ c ≠ isz then some none
            else
              let r := s'.seekG (fieldLength fields (leNat out - 1)) true
              if r.1 ≠ fieldLength fields (leNat out - 1) then some none
              else validateLoop total fields isz r.2 (checked + c + fieldLength fields (leNat out - 1)) (seen.set (leNat out - 1) true)
  else some (some s)
  termination_by total - checked
  decreasing_by omega

/-- src/fsw/FCCode/UplinkCommon.cpp:14-61 `_validate_packet`. -/
def validate {α : Type} (fields : List (WField α)) (isz : Nat) (s : Bitstream) : Option Bool :=
  match validateLoop (8 * s.maxLen) fields isz s.reset 0 (fields.map fun _ => false) with
  | none => none
  | some none => some false
  | some (some s') =>
    match s'.nextN 8 with
    | none => none
    | some (c, out, _) => if leNat out ≠ 0 ∨ c > 7 then some false else some true

/-- src/fsw/FCCode/UplinkCommon.cpp:69-90: the loop of `_update_fields`. Indexing the registry out of range
is `none`. A read of 0 bits gives index 0, so the branch `c = 0` is never taken; it makes termination evident. -/
def updateLoop {α : Type} (total isz : Nat) (fields : List (WField α)) (s : Bitstream) (consumed : Nat) :
    Option (List (WField α)) :=
  if _h : consumed < total then
    match s.nextN isz with
    | none => none
    | some (c, out, s') =>
      if leNat out = 0 then some fields
      else
        match fields[leNat out - 1]? with
        | none => none
        | some f =>
          match s'.nextNBits (fieldLength fields (leNat out - 1)) f.bits.length (f.bits.map fun _ => false) with
          | none => none
          | some (c', bits, s'') =>
            let f' : WField α := { f with bits, value := f.decode bits f.value }
            if _hc : c = 0 then none
            else updateLoop total isz (fields.set (leNat out - 1) f') s'' (consumed + c + c')
  else some fields
  termination_by total - consumed
  decreasing_by omega

/-- src/fsw/FCCode/UplinkCommon.cpp:63-91 `_update_fields`. -/
def update {α : Type} (fields : List (WField α)) (isz : Nat) (s : Bitstream) : Option (List (WField α)) :=
  updateLoop (8 * s.maxLen) isz fields s.reset 0

/-- What `UplinkConsumer` reads and writes: the registry's writable fields, `uplink.len` and the buffer that
`uplink.ptr` points to (`none` for a null pointer). -/
structure Consumer (α : Type) where
  fields : List (WField α)
  len : Nat
  buf : Option (List U8)

/-- src/fsw/FCCode/UplinkConsumer.cpp:11-24 `execute`. The two bitstreams of lines 26-40 are fresh views of
the same buffer. A length larger than the buffer is `none` (reads beyond it). -/
def Consumer.execute {α : Type} (c : Consumer α) : Option (Consumer α) :=
  let isz := indexSize c.fields.length
  match c.buf with
  | none => some c
  | some buf =>
    if c.len = 0 then some c
    else if buf.length < c.len then none
    else
      match validate c.fields isz (Bitstream.ofBytes (buf.take c.len)) with
      | none => none
      | some false => some { c with len := 0 }
      | some true =>
        match update c.fields isz (Bitstream.ofBytes (buf.take c.len)) with
        | none => none
        | some fields => some { c with fields, len := 0 }

/-! ### Ground side -/

/-- src/common/bitstream.cpp:20-24: one byte of the stream built from a bit array. -/
def packByte (bit : Nat → Bool) (i : Nat) : Nat → U8
  | 0 => 0
  | k + 1 => packByte bit i k ||| (BitVec.ofNat 8 (bit (8 * i + k)).toNat <<< k)

/-- src/common/bitstream.cpp:13-28: stream over a bit array. When the size is not a multiple of 8 the code
reads up to seven elements past the end of the `vector<bool>`; their values are the arbitrary function
`junk`. -/
def ofBits (val : List Bool) (junk : Nat → Bool) : Bitstream :=
  Bitstream.ofBytes ((List.range ((val.length + 7) / 8)).map fun i =>
    packByte (fun k => if h : k < val.length then val[k] else junk k) i 8)

/-- The eight bytes of `size_t index` (little endian), src/gsw/parsers/src/UplinkProducer.cpp:246. -/
def sizeTBytes (n : Nat) : List U8 := (List.range 8).map fun i => BitVec.ofNat 8 (n / 256 ^ i)

/-- src/gsw/parsers/src/UplinkProducer.cpp:235-256 `add_entry(bs, val, index)`. `none` stands for the
exception of line 242 and for out-of-bounds accesses. -/
def addEntry {α : Type} (fields : List (WField α)) (isz : Nat) (s : Bitstream) (val : List Bool) (i : Nat)
    (junk : Nat → Bool) : Option (Nat × Bitstream) :=
  if fieldLength fields i = 0 then none
  else
    match s.editN isz (sizeTBytes (i + 1)) with
    | none => none
    | some (c, s') =>
      match s'.editNFrom (ofBits val junk) (fieldLength fields i) with
      | none => none
      | some (c', s'', _) => some (c + c', s'')

/-- src/gsw/parsers/src/UplinkProducer.cpp:213-227: the loop of `create_from_json`. The JSON object is the list
of its entries after each value has been set in its field and serialized (lines 25-53 and the other
`try_add_*` functions): `(index, bits)`. `none` stands for the exceptions of lines 216 and 226. -/
def addAll {α : Type} (fields : List (WField α)) (isz : Nat) (junk : Nat → Bool) :
    Bitstream → List (Nat × List Bool) → Option Bitstream
  | s, [] => some s
  | s, (i, v) :: es =>
    if s.hasNext then
      match addEntry fields isz s v i junk with
      | none => none
      | some (c, s') => if c = 0 then none else addAll fields isz junk s' es
    else none

/-- src/gsw/parsers/src/UplinkProducer.cpp:201-233 `create_from_json`, on a buffer of `cap` bytes: the buffer is
cleared, the entries are written, and the stream is trimmed to the bytes used. -/
def createPacket {α : Type} (fields : List (WField α)) (isz cap : Nat) (junk : Nat → Bool)
    (es : List (Nat × List Bool)) : Option (List U8) :=
  match addAll fields isz junk (Bitstream.ofBytes (List.replicate cap 0)) es with
  | none => none
  | some s => some (s.bytes.take ((8 * s.byteOff + s.bitOff + 7) / 8))

/-- src/gsw/parsers/src/UplinkProducer.cpp:13-22 `max_possible_packet_size`. -/
def maxPacketSize {α : Type} (fields : List (WField α)) (isz : Nat) : Nat :=
  (fields.map fun f => isz + f.bits.length).sum

end Uplink
end PAN
