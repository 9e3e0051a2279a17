import Verif.Model.Uplink
/-!
Fields whose encodings share storage. The serializer of a vector or quaternion of the linear algebra library keeps its bits in
an object of its own, held by a shared pointer (src/common/SerializerTypes.inl:672-732); copying the serializer copies the
pointer. So fields constructed from one serializer object share one bit array. In the flight software these are the four
pointing vectors (src/fsw/FCCode/AttitudeController.cpp:35-39) and the five vectors the attitude monitor reads
(src/fsw/FCCode/ADCSBoxMonitor.cpp:10, 12, 18, 30, 37, 43). All other models give every field bits of its own; here the bits
are in cells, and fields name theirs.
-/
namespace PAN.Shared

/-- A field: the cell of its bits, its value, and its encoding and decoding. -/
structure Fld (α : Type) where
  cell : Nat
  value : α
  encode : α → List Bool
  decode : List Bool → α → α

/-- The cells and the fields of a registry. -/
structure Board (α : Type) where
  bits : Nat → List Bool
  fields : List (Fld α)

variable {α : Type}

/-- Write a cell. -/
def Board.put (b : Board α) (c : Nat) (v : List Bool) : Board α :=
  { b with bits := fun k => if k = c then v else b.bits k }

/-- src/common/StateFieldTypes.inl:170-174 `serialize` (src/common/SerializerTypes.inl:700-704): the encoding of the value goes to
the field's cell. `none`: no such field. -/
def Board.serialize (b : Board α) (i : Nat) : Option (Board α) :=
  match b.fields[i]? with
  | none => none
  | some f => some (b.put f.cell (f.encode f.value))

/-- src/common/StateFieldTypes.inl:167 `get_bit_array` (src/common/SerializerTypes.inl:726-727). -/
def Board.getBits (b : Board α) (i : Nat) : Option (List Bool) :=
  match b.fields[i]? with
  | none => none
  | some f => some (b.bits f.cell)

/-- src/common/StateFieldTypes.inl:168 `set_bit_array` (src/common/SerializerTypes.inl:729-731, src/common/Serializer.hpp:181-184):
bits of the wrong number are ignored. -/
def Board.setBits (b : Board α) (i : Nat) (v : List Bool) : Option (Board α) :=
  match b.fields[i]? with
  | none => none
  | some f => some (if v.length ≠ (b.bits f.cell).length then b else b.put f.cell v)

/-- src/common/StateFieldTypes.inl:176-180 `deserialize` (src/common/SerializerTypes.inl:714-718): the value becomes what the
field's cell says. -/
def Board.deserialize (b : Board α) (i : Nat) : Option (Board α) :=
  match b.fields[i]? with
  | none => none
  | some f => some { b with fields := b.fields.set i { f with value := f.decode (b.bits f.cell) f.value } }

/-- `set` (src/common/StateField.hpp): a new value, the bits stay. -/
def Board.set (b : Board α) (i : Nat) (v : α) : Option (Board α) :=
  match b.fields[i]? with
  | none => none
  | some f => some { b with fields := b.fields.set i { f with value := v } }

/-- src/fsw/FCCode/DownlinkProducer.cpp:144-158 and src/common/Event.cpp:36-41: the fields of a flow, or of an event, in order;
each is encoded and its bits are copied before the next one. -/
def Board.report (b : Board α) : List Nat → Option (Board α × List (List Bool))
  | [] => some (b, [])
  | i :: is =>
    match b.serialize i with
    | none => none
    | some b1 =>
      match b1.getBits i with
      | none => none
      | some v =>
        match b1.report is with
        | none => none
        | some (b2, vs) => some (b2, v :: vs)

/-- src/gsw/parsers/src/UplinkProducer.cpp:50-54, 98-105, 151-158, 213-227: the ground tool sets, encodes and writes the fields of
a command file one after the other. -/
def Board.command (b : Board α) : List (Nat × α) → Option (Board α × List (List Bool))
  | [] => some (b, [])
  | (i, x) :: es =>
    match b.set i x with
    | none => none
    | some b1 =>
      match b1.serialize i with
      | none => none
      | some b2 =>
        match b2.getBits i with
        | none => none
        | some v =>
          match b2.command es with
          | none => none
          | some (b3, vs) => some (b3, v :: vs)

/-- src/gsw/parsers/src/DownlinkParser.cpp:375-386 and src/common/Event.cpp:73-81: the parser gives each field its bits, decodes
and prints it before the next one. -/
def Board.read (b : Board α) : List (Nat × List Bool) → Option (Board α × List α)
  | [] => some (b, [])
  | (i, v) :: es =>
    match b.setBits i v with
    | none => none
    | some b1 =>
      match b1.deserialize i with
      | none => none
      | some b2 =>
        match b2.fields[i]? with
        | none => none
        | some f =>
          match b2.read es with
          | none => none
          | some (b3, xs) => some (b3, f.value :: xs)

/-- The same fields with bits of their own. -/
def Board.separate (b : Board α) : List (WField α) :=
  b.fields.map fun f => { bits := b.bits f.cell, value := f.value, decode := f.decode }

/-- src/fsw/FCCode/UplinkCommon.cpp:69-90: the loop of `_update_fields` on the cells (`Uplink.updateLoop` gives every field bits of
its own). Clearing and filling happen in the cell (lines 80-87); `set_bit_array` of a cell to itself (line 88) does nothing. -/
def updateLoop (total isz : Nat) (b : Board α) (s : Bitstream) (consumed : Nat) : Option (Board α) :=
  if _h : consumed < total then
    match s.nextN isz with
    | none => none
    | some (c, out, s') =>
      if Uplink.leNat out = 0 then some b
      else
        match b.fields[Uplink.leNat out - 1]? with
        | none => none
        | some f =>
          match s'.nextNBits (b.bits f.cell).length (b.bits f.cell).length ((b.bits f.cell).map fun _ => false) with
          | none => none
          | some (c', bits, s'') =>
            match (b.put f.cell bits).deserialize (Uplink.leNat out - 1) with
            | none => none
            | some b' =>
              if _hc : c = 0 then none
              else updateLoop total isz b' s'' (consumed + c + c')
  else some b
  termination_by total - consumed
  decreasing_by omega

/-- src/fsw/FCCode/UplinkConsumer.cpp:11-24 `execute` on the cells. The check of the packet looks at the widths only
(src/fsw/FCCode/UplinkCommon.cpp:25-61, 93-98). -/
def execute (b : Board α) (len : Nat) (buf : Option (List U8)) : Option (Board α × Nat) :=
  let isz := Uplink.indexSize b.fields.length
  match buf with
  | none => some (b, len)
  | some buf =>
    if len = 0 then some (b, len)
    else if buf.length < len then none
    else
      let s := Bitstream.ofBytes (buf.take len)
      match Uplink.validate b.separate isz s with
      | none => none
      | some false => some (b, 0)
      | some true => (updateLoop (8 * s.maxLen) isz b s.reset 0).map fun b' => (b', 0)

end PAN.Shared
