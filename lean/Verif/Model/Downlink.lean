import Verif.Model.Serializer
import Verif.Model.Bitstream
/-!
Model of the downlink path: `src/fsw/FCCode/DownlinkProducer.{hpp,cpp}` (flight side) and
`src/gsw/parsers/src/DownlinkParser.cpp` (ground side). Readable fields and events are named by numbers (the
pointers of `field_list`); `env` gives the bit array of each at the time of the call and `width` its size.
Out-of-bounds accesses and failed assertions are `none`.
-/
namespace PAN
namespace Downlink

/-- src/fsw/FCCode/DownlinkProducer.hpp:23-27 `FlowData`; field names are resolved to numbers. -/
structure FlowData where
  id : Nat
  active : Bool
  fields : List Nat
  deriving DecidableEq, Repr

/-- src/fsw/FCCode/DownlinkProducer.hpp:77-134 `Flow`. -/
structure Flow where
  id : IntSer
  active : Bool
  fields : List Nat
  deriving DecidableEq, Repr

/-- `Serializer<unsigned char>(num_flows)`: src/common/SerializerTypes.inl:159, with the conversion of the number
of flows to `unsigned char`. -/
def idSer (n : Nat) : IntSer := IntSer.mkRange .uchar 0 ((n % 256 : Nat) : Int)

/-- src/fsw/FCCode/DownlinkProducer.cpp:231-241 `Flow::get_packet_size`. -/
def Flow.packetSize (width : Nat → Nat) (f : Flow) : Nat := f.id.bits.length + (f.fields.map width).sum

/-- src/fsw/FCCode/DownlinkProducer.cpp:192-229 `Flow::Flow`. Names missing from the registry (an assertion) are
not modelled: every number is a field. -/
def Flow.make (width : Nat → Nat) (d : FlowData) (n : Nat) : Option Flow :=
  if d.id > n ∨ d.id = 0 then none
  else
    match (idSer n).serialize d.id with
    | none => none
    | some sr =>
      let f : Flow := { id := sr, active := d.active, fields := d.fields }
      if f.packetSize width > 560 - 1 - 32 then none else some f

/-- The state of `DownlinkProducer`. -/
structure Producer where
  flows : List Flow
  numActive : Nat
  buf : List U8
  snapSize : Nat
  toggleId : Nat
  shiftId1 : Nat
  shiftId2 : Nat
  deriving DecidableEq, Repr

/-- src/fsw/FCCode/DownlinkProducer.cpp:50-69 `compute_downlink_size`. -/
def downlinkSize (width : Nat → Nat) (flows : List Flow) (computeMax : Bool) : Nat :=
  let bits := ((flows.filter fun f => f.active || computeMax).map fun f => f.packetSize width).sum
  let bits := bits + 32
  let bits := bits + (bits + 560 - 1) / 560
  (bits + 7) / 8

/-- src/fsw/FCCode/DownlinkProducer.cpp:32-39: the loop of `init_flows`. The set `ids` is only searched, never
inserted into, so its test never succeeds and is left out. -/
def makeFlows (width : Nat → Nat) (n : Nat) : List FlowData → Option (List Flow × Nat)
  | [] => some ([], 0)
  | d :: ds =>
    match Flow.make width d n with
    | none => none
    | some f =>
      match makeFlows width n ds with
      | none => none
      | some (fs, k) => some (f :: fs, k + d.active.toNat)

/-- src/fsw/FCCode/DownlinkProducer.cpp:16-47 `init_flows`. `junk` is the content of the freshly allocated
buffer. -/
def init (width : Nat → Nat) (junk : Nat → U8) (data : List FlowData) : Option Producer :=
  match makeFlows width data.length data with
  | none => none
  | some (flows, k) =>
    let size := downlinkSize width flows true
    some { flows, numActive := k, buf := (List.range size).map junk, snapSize := size, toggleId := 0,
           shiftId1 := 0, shiftId2 := 0 }

/-- src/common/fixed_array.hpp:252-253: store one bit of the frame. -/
def putBit (buf : List U8) (off : Nat) (b : Bool) : Option (List U8) :=
  match buf[off / 8]? with
  | none => none
  | some c => some (buf.set (off / 8) (modifyBit c (7 - off % 8) b))

/-- src/common/fixed_array.hpp:250-255 `to_string` of the bits in `[start, end)`. -/
def toStr : List U8 → Nat → List Bool → Option (List U8)
  | buf, _, [] => some buf
  | buf, off, b :: bs =>
    match putBit buf off b with
    | none => none
    | some buf' => toStr buf' (off + 1) bs

/-- The buffer and the two offsets that `add_bits_to_downlink_frame` updates. -/
structure Cursor where
  buf : List U8
  packetOff : Nat
  frameOff : Nat
  deriving DecidableEq, Repr

/-- src/fsw/FCCode/DownlinkProducer.cpp:74-109 `add_bits_to_downlink_frame`. Line 99 indexes the byte
`downlink_frame_offset / 70`, although the offset counts bits. -/
def addBits (c : Cursor) (bits : List Bool) : Option Cursor :=
  let overflow : Int := (bits.length : Int) + c.packetOff - 560
  if overflow ≤ 0 then
    match toStr c.buf c.frameOff bits with
    | none => none
    | some buf => some { buf, packetOff := c.packetOff + bits.length, frameOff := c.frameOff + bits.length }
  else
    let x : Nat := ((bits.length : Int) - overflow).toNat
    match toStr c.buf c.frameOff (bits.take x) with
    | none => none
    | some buf =>
      let off := c.frameOff + x
      match buf[off / 70]? with
      | none => none
      | some start =>
        match toStr (buf.set (off / 70) (modifyBit start 7 false)) (off + 1) (bits.drop x) with
        | none => none
        | some buf => some { buf, packetOff := 1 + overflow.toNat, frameOff := off + 1 + overflow.toNat }

/-- Successive calls of `add_bits_to_downlink_frame`. -/
def addAllBits : Cursor → List (List Bool) → Option Cursor
  | c, [] => some c
  | c, b :: bs =>
    match addBits c b with
    | none => none
    | some c' => addAllBits c' bs

/-- src/fsw/FCCode/DownlinkProducer.cpp:134-159: the bit arrays added for one active flow. -/
def Flow.segments (env : Nat → List Bool) (f : Flow) : List (List Bool) := f.id.bits :: f.fields.map env

/-- src/fsw/FCCode/DownlinkProducer.cpp:161-167: clear the low `k` bits of byte `i`. -/
def clearLow (buf : List U8) (i : Nat) : Nat → Option (List U8)
  | 0 => some buf
  | k + 1 =>
    match buf[i]? with
    | none => none
    | some c => clearLow (buf.set i (modifyBit c k false)) i k

/-- src/fsw/FCCode/DownlinkProducer.cpp:128-132: the serialized cycle count (`Serializer<unsigned int>()`,
src/fsw/FCCode/ClockManager.cpp:8). -/
def ccBits (cc : U32) : Option (List Bool) :=
  ((IntSer.mkRange .uint 0 4294967295).serialize cc.toNat).map (·.bits)

/-- src/fsw/FCCode/DownlinkProducer.cpp:111-167: the part of `execute` that produces the frame. -/
def produce (width : Nat → Nat) (env : Nat → List Bool) (cc : U32) (p : Producer) : Option Producer :=
  let snapSize := downlinkSize width p.flows false
  match p.buf[0]? with
  | none => none
  | some b0 =>
    match ccBits cc with
    | none => none
    | some ccb =>
      match addAllBits { buf := p.buf.set 0 (modifyBit b0 7 true), packetOff := 1, frameOff := 1 }
          (ccb :: (p.flows.filter (·.active)).flatMap (Flow.segments env)) with
      | none => none
      | some c =>
        match clearLow c.buf (c.frameOff / 8) (8 - c.frameOff % 8) with
        | none => none
        | some buf => some { p with snapSize, buf }

/-- The flow's id, `id_sr.deserialize(&flow_id)`. -/
def Flow.idVal (f : Flow) : Int := f.id.deserialize

/-- src/fsw/FCCode/DownlinkProducer.cpp:249-259: the loop of `toggle_flow`; the second component is the change of
`num_active_flows`. -/
def toggleLoop (id : Nat) : List Flow → List Flow × Int
  | [] => ([], 0)
  | f :: fs =>
    if f.idVal = id then ({ f with active := !f.active } :: fs, if f.active then -1 else 1)
    else
      let r := toggleLoop id fs
      (f :: r.1, r.2)

/-- src/fsw/FCCode/DownlinkProducer.cpp:243-260 `toggle_flow`. `num_active_flows` is an `unsigned int`. -/
def toggle (id : Nat) (p : Producer) : Option Producer :=
  if id > p.flows.length then none
  else
    let r := toggleLoop id p.flows
    some { p with flows := r.1, numActive := (((p.numActive : Int) + r.2) % 2 ^ 32).toNat }

/-- src/fsw/FCCode/DownlinkProducer.hpp:104-111 `Flow::operator=(Flow&&)`: the fields of `rhs` are copied over
the first fields of the target, whose vector keeps its size. -/
def moveAssign (lhs rhs : Flow) : Option Flow :=
  if rhs.fields.length > lhs.fields.length then none
  else some { id := rhs.id, active := rhs.active, fields := rhs.fields ++ lhs.fields.drop rhs.fields.length }

/-- `std::swap(a, b)`: a copy-constructed temporary (`Flow` has no move constructor, src/fsw/FCCode/DownlinkProducer.hpp:116) and
two move assignments. -/
def swapFlows (a b : Flow) : Option (Flow × Flow) :=
  match moveAssign a b with
  | none => none
  | some a' =>
    match moveAssign b a with
    | none => none
    | some b' => some (a', b')

/-- `std::swap(flows[i], flows[j])`. -/
def swapAt (flows : List Flow) (i j : Nat) : Option (List Flow) :=
  match flows[i]?, flows[j]? with
  | some a, some b =>
    match swapFlows a b with
    | none => none
    | some (a', b') => some ((flows.set i a').set j b')
  | _, _ => none

/-- src/fsw/FCCode/DownlinkProducer.cpp:286-290: `k` swaps moving the flow at `i` down to `i - k`. -/
def shiftDown (flows : List Flow) (i : Nat) : Nat → Option (List Flow)
  | 0 => some flows
  | k + 1 =>
    match swapAt flows i (i - 1) with
    | none => none
    | some flows' => shiftDown flows' (i - 1) k

/-- src/fsw/FCCode/DownlinkProducer.cpp:291-295: `k` swaps moving the flow at `i` up to `i + k`. -/
def shiftUp (flows : List Flow) (i : Nat) : Nat → Option (List Flow)
  | 0 => some flows
  | k + 1 =>
    match swapAt flows i (i + 1) with
    | none => none
    | some flows' => shiftUp flows' (i + 1) k

/-- src/fsw/FCCode/DownlinkProducer.cpp:274-284: the last index (counting from `i`) whose flow has the id, or
`acc`. -/
def lastIdx (id : Nat) : List Flow → Nat → Nat → Nat
  | [], _, acc => acc
  | f :: fs, i, acc => lastIdx id fs (i + 1) (if f.idVal = id then i else acc)

/-- src/fsw/FCCode/DownlinkProducer.cpp:262-296 `shift_flow_priorities`. -/
def shift (id1 id2 : Nat) (p : Producer) : Option Producer :=
  if id1 > p.flows.length then none
  else if id2 > p.flows.length then none
  else
    let i1 := lastIdx id1 p.flows 0 0
    let i2 := lastIdx id2 p.flows 0 0
    if i1 > i2 then (shiftDown p.flows i1 (i1 - i2)).map fun fs => { p with flows := fs }
    else (shiftUp p.flows i1 (i2 - i1)).map fun fs => { p with flows := fs }

/-- src/fsw/FCCode/DownlinkProducer.cpp:169-180: the commands at the end of `execute`. -/
def commands (p : Producer) : Option Producer :=
  let p1 := if p.shiftId1 > 0 ∧ p.shiftId2 > 0
    then (shift p.shiftId1 p.shiftId2 p).map fun q => { q with shiftId1 := 0, shiftId2 := 0 } else some p
  match p1 with
  | none => none
  | some p1 =>
    if p1.toggleId > 0 then (toggle p1.toggleId p1).map fun q => { q with toggleId := 0 } else some p1

/-- src/fsw/FCCode/DownlinkProducer.cpp:111-180 `execute`. -/
def execute (width : Nat → Nat) (env : Nat → List Bool) (cc : U32) (p : Producer) : Option Producer :=
  match produce width env cc p with
  | none => none
  | some p' => commands p'

/-- One control cycle: the uplink has set the three command fields, then `execute` runs. -/
structure Cycle where
  env : Nat → List Bool
  cc : U32
  toggleId : Nat
  shiftId1 : Nat
  shiftId2 : Nat

/-- A history of control cycles. -/
def run (width : Nat → Nat) : Producer → List Cycle → Option Producer
  | p, [] => some p
  | p, c :: cs =>
    match execute width c.env c.cc { p with toggleId := c.toggleId, shiftId1 := c.shiftId1, shiftId2 := c.shiftId2 } with
    | none => none
    | some p' => run width p' cs

/-! ### Ground side -/

/-- src/gsw/parsers/src/DownlinkParser.cpp:244-251: the bits of the frame. -/
def frameBits (frame : List U8) : List Bool :=
  frame.flatMap fun x => (List.range 8).map fun j => x.getLsbD (7 - j)

/-- src/gsw/parsers/src/DownlinkParser.cpp:253-256: remove the header bits, for `i` down to 0. Erasing at the end
iterator is undefined. -/
def eraseHeaders : Nat → List Bool → Option (List Bool)
  | 0, bits => if 0 < bits.length then some (bits.eraseIdx 0) else none
  | i + 1, bits =>
    if 560 * (i + 1) < bits.length then eraseHeaders i (bits.eraseIdx (560 * (i + 1))) else none

/-- How processing of a frame ended (`ret["metadata"]["error"]`). -/
inductive Stop | done | idIncomplete | repeated | invalidId
  deriving DecidableEq, Repr

/-- The result of parsing: cycle count, flow ids found, and for every complete flow its id and its fields' bits
(the JSON report prints the decoded values). -/
structure Parsed where
  cc : Int
  ids : List Int
  flows : List (Int × List (Nat × List Bool))
  stop : Stop
  deriving DecidableEq, Repr

/-- src/gsw/parsers/src/DownlinkParser.cpp:341-386: take each field's bits off the frame. Reading past the end of
the frame is undefined. Events are handled alike (their decoded values are put back afterwards). -/
def takeFields (width : Nat → Nat) : List Nat → List Bool → Option (List (Nat × List Bool) × List Bool)
  | [], bits => some ([], bits)
  | f :: fs, bits =>
    if width f > bits.length then none
    else
      match takeFields width fs (bits.drop (width f)) with
      | none => none
      | some (out, rest) => some ((f, bits.take (width f)) :: out, rest)

theorem takeFields_length {width : Nat → Nat} : ∀ {fs : List Nat} {bits out rest},
    takeFields width fs bits = some (out, rest) → rest.length ≤ bits.length
  | [], bits, out, rest, h => by simp only [takeFields, Option.some.injEq, Prod.mk.injEq] at h; rw [h.2]; exact Nat.le_refl _
  | f :: fs, bits, out, rest, h => by
    simp only [takeFields] at h
    split at h
    · exact absurd h (by simp)
    · split at h
      · exact absurd h (by simp)
      · rename_i o r he
        simp only [Option.some.injEq, Prod.mk.injEq] at h
        have := takeFields_length he
        rw [List.length_drop] at this
        rw [← h.2]; omega

/-- src/gsw/parsers/src/DownlinkParser.cpp:268-387: step 4. A flow id of no bits decodes to 0, so the first branch
is the `return` of line 291; it makes termination evident. -/
def parseFlows (width : Nat → Nat) (flows : List Flow) (bits : List Bool) (ids : List Int) :
    Option (List Int × List (Int × List (Nat × List Bool)) × Stop) :=
  let w := (idSer flows.length).bits.length
  if _h : bits.length = 0 then some (ids, [], .done)
  else if w > bits.length then some (ids, [], .idIncomplete)
  else
    let id := ((idSer flows.length).setBits (bits.take w)).deserialize
    if _hw : w = 0 then some (ids, [], .done)
    else if id = 0 then some (ids, [], .done)
    else if id ∈ ids then some (ids, [], .repeated)
    else
      match flows.find? (fun f => f.idVal = id) with
      | none => some (ids ++ [id], [], .invalidId)
      | some f =>
        match _he : takeFields width f.fields (bits.drop w) with
        | none => none
        | some (out, rest) =>
          match parseFlows width flows rest (ids ++ [id]) with
          | none => none
          | some (ids', fl, stop) => some (ids', (id, out) :: fl, stop)
  termination_by bits.length
  decreasing_by
    have := takeFields_length _he
    rw [List.length_drop] at this
    omega

/-- src/gsw/parsers/src/DownlinkParser.cpp:244-390: parse a frame (also lines 32-178, the same steps applied to a
single packet). -/
def parseFrame (width : Nat → Nat) (flows : List Flow) (frame : List U8) : Option Parsed :=
  let bits := frameBits frame
  match eraseHeaders (bits.length / 560) bits with
  | none => none
  | some bits =>
    if bits.length < 32 then none
    else
      let cc := ((IntSer.mkRange .uint 0 4294967295).setBits (bits.take 32)).deserialize
      match parseFlows width flows (bits.drop 32) [] with
      | none => none
      | some (ids, fl, stop) => some { cc, ids, flows := fl, stop }

/-- src/gsw/parsers/src/DownlinkParser.cpp:23-200 `check_is_first_packet`. -/
def isFirst (width : Nat → Nat) (flows : List Flow) (packet : List U8) : Option Bool :=
  match parseFrame width flows packet with
  | none => none
  | some r => some (decide ((1 : Int) ∈ r.ids) && decide ((2 : Int) ∈ r.ids))

/-- src/gsw/parsers/src/DownlinkParser.cpp:202-391 `process_downlink_packet`; `frame` is `most_recent_frame`. -/
def processPacket (width : Nat → Nat) (flows : List Flow) (frame packet : List U8) : Option (List U8 × Parsed) :=
  match isFirst width flows packet with
  | none => none
  | some first =>
    let frame' := if first then packet else frame ++ packet
    match parseFrame width flows frame' with
    | none => none
    | some r => some (frame', r)

end Downlink
end PAN
