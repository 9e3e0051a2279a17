import Verif.Model.Uplink
import Verif.Model.Serializer
import Verif.Model.FloatSer
import Verif.Model.Float64
import Verif.Model.VectorSer
/-!
Model of the ground tool that turns a JSON object of commands into an uplink packet: the value checks of
src/gsw/parsers/src/UplinkProducer.cpp (the packet itself is in `Model/Uplink`).

Simplified: the fields of the JSON object are identified by the position of the field in the registry (the map from names is
not modelled; an unknown name is refused, line 220). The numbers of vectors and quaternions are rounded to the field's type;
what is then computed from them is real arithmetic without rounding, as in `Model/VectorSer`.
-/
namespace PAN.Ground
noncomputable section

/-- A JSON value as lib/fsw/json/json.hpp stores it: whole numbers that fit 64 bits, other numbers (as `double`), booleans,
arrays, and the rest (strings, objects, null). -/
inductive Json where
  | num (n : Int)
  | real (x : ℚ)
  | bool (b : Bool)
  | arr (l : List Json)
  | other

/-- What the tool does with a value: it writes it, it throws an exception (and no packet is made), or its behaviour is
undefined. -/
inductive Reply (β : Type) where
  | ok (b : β)
  | refused
  | undef
  deriving DecidableEq, Repr

/-- Conversion of a floating-point number to a whole number: towards zero. -/
def trunc (x : ℚ) : Int := if 0 ≤ x then ⌊x⌋ else ⌈x⌉

/-- `UnderlyingType val = j[key]` for the integer types (src/gsw/parsers/src/UplinkProducer.cpp:32,
lib/fsw/json/json.hpp:3155-3183): `static_cast` of what is stored, so whole numbers are reduced to the width of the type; a
fraction is cut off, and undefined if the result does not fit. -/
def toInt (k : IntKind) : Json → Reply Int
  | .num n => .ok (k.cast n)
  | .real x => if k.InRange (trunc x) then .ok (trunc x) else .undef
  | .bool b => .ok (if b then 1 else 0)
  | _ => .refused

/-- src/gsw/parsers/src/UplinkProducer.cpp:25-55 `try_add_field` for the integer types: the bits of the field after
`serialize()`. -/
def addInt (s : IntSer) (j : Json) : Reply (List Bool) :=
  match toInt s.kind j with
  | .refused => .refused
  | .undef => .undef
  | .ok v =>
    if v < s.min ∨ v > s.max then .refused
    else if (v % 2 ^ 32).toNat > 2 ^ (s.bits.length + 1) - 1 then .refused
    else
      match s.serialize v with
      | some s' => .ok s'.bits
      | none => .undef

/-- src/gsw/parsers/src/UplinkProducer.cpp:25-55 `try_add_field<bool>` (lib/fsw/json/json.hpp:2940-2947): both values pass the
two checks. -/
def addBool (s : BoolSer) : Json → Reply (List Bool)
  | .bool b => .ok (s.serialize b).bits
  | _ => .refused

/-- `UnderlyingType val = j[key]` for `float` and `double`: lib/fsw/json/json.hpp:3155-3183 and 2914-2937; a boolean is
accepted for `float` only. -/
def toReal (dbl : Bool) : Json → Reply ℚ
  | .num n => .ok (if dbl then f64 n else f32 n)
  | .real x => .ok (if dbl then f64 x else f32 x)
  | .bool b => if dbl then .refused else .ok (if b then 1 else 0)
  | _ => .refused

/-- src/gsw/parsers/src/UplinkProducer.cpp:25-55 `try_add_field` for `float` (`dbl` false) and `double`. The conversion to
`unsigned int` of line 45 is undefined for -1 and below and for `2^32` and above. -/
def addReal (dbl : Bool) (s : FltSer ℚ) (j : Json) : Reply (List Bool) :=
  match toReal dbl j with
  | .refused => .refused
  | .undef => .undef
  | .ok v =>
    if v < s.min ∨ v > s.max then .refused
    else if v ≤ -1 ∨ 2 ^ 32 ≤ v then .undef
    else if (trunc v).toNat > 2 ^ (s.bits.length + 1) - 1 then .refused
    else
      match s.serialize (if dbl then f64 else f32) (.fin v) with
      | some s' => .ok s'.bits
      | none => .undef

/-- src/gsw/parsers/src/UplinkProducer.cpp:161-178 `try_add_gps_time`: three elements of an array, converted to `unsigned
short`, `unsigned int` and `unsigned long`, the last then to `int`; nothing is checked. A fraction is undefined unless it
fits its type. -/
def addTime (s : GpsSer) : Json → Reply (List Bool)
  | .arr (a :: b :: c :: _) =>
    let elt (lo hi : Int) : Json → Reply Int := fun j => match j with
      | .num n => .ok n
      | .real x => if lo ≤ trunc x ∧ trunc x < hi then .ok (trunc x) else .undef
      | .bool b => .ok (if b then 1 else 0)
      | _ => .refused
    match elt 0 (2 ^ 16) a with
    | .refused => .refused
    | .undef => .undef
    | .ok wn =>
      match elt 0 (2 ^ 32) b with
      | .refused => .refused
      | .undef => .undef
      | .ok tow =>
        match elt 0 (2 ^ 64) c with
        | .refused => .refused
        | .undef => .undef
        | .ok ns =>
          match s.serialize (GpsTime.mk3 (BitVec.ofInt 16 wn) (BitVec.ofInt 32 tow) (BitVec.ofInt 32 ns)) with
          | some s' => .ok s'.bits
          | none => .undef
  | _ => .refused

/-- The sign of a zero read from JSON: a negative number too small for the type is stored as negative zero (a negative zero in
the file itself is not represented). -/
def negative : Json → Bool
  | .real x => decide (x < 0)
  | _ => false

/-- src/gsw/parsers/src/UplinkProducer.cpp:57-80, 82-107 `try_add_vector_field` and `try_add_linvector_field` (which only copies
components), for `float` (`dbl` false) and `double`: elements of an array (lib/fsw/json/json.hpp:3058-3066; missing ones throw,
further ones are ignored), the check of the length, and the serializer. -/
def addVector (dbl : Bool) (lo hi : ℝ) (precision : ℕ) : Json → Reply (List Bool)
  | .arr (a :: b :: c :: _) =>
    match toReal dbl a, toReal dbl b, toReal dbl c with
    | .ok x, .ok y, .ok z =>
      let m := √((x : ℝ) ^ 2 + (y : ℝ) ^ 2 + (z : ℝ) ^ 2)
      if m > hi ∨ m < lo then .refused
      else
        match VecSer.serialize lo hi precision (.fin x y z (negative a)) with
        | some bits => .ok bits
        | none => .undef
    | _, _, _ => .refused
  | _ => .refused

/-- src/gsw/parsers/src/UplinkProducer.cpp:109-132, 134-159 `try_add_quat_field` and `try_add_linquat_field`: four elements, the
check that the length is 1 to 1e-10, and the serializer. -/
def addQuat (dbl : Bool) : Json → Reply (List Bool)
  | .arr (a :: b :: c :: d :: _) =>
    match toReal dbl a, toReal dbl b, toReal dbl c, toReal dbl d with
    | .ok x, .ok y, .ok z, .ok w =>
      let m := √((x : ℝ) ^ 2 + (y : ℝ) ^ 2 + (z : ℝ) ^ 2 + (w : ℝ) ^ 2)
      if |m - 1| > ((if dbl then f64 (1 / 10 ^ 10) else f32 (1 / 10 ^ 10) : ℚ) : ℝ) then .refused
      else
        match QuatSer.serialize (.fin ![x, y, z, w]) with
        | some bits => .ok bits
        | none => .undef
    | _, _, _, _ => .refused
  | _ => .refused

/-- A writable field, with its serializer; of the serializers of vectors and quaternions the range and the bit array. -/
inductive Field where
  | int (s : IntSer)
  | bool (s : BoolSer)
  | real (dbl : Bool) (s : FltSer ℚ)
  | time (s : GpsSer)
  | vec (dbl : Bool) (lo hi : ℝ) (precision : ℕ) (bits : List Bool)
  | quat (dbl : Bool) (bits : List Bool)

/-- The value of a field. -/
inductive Value where
  | int (n : Int)
  | bool (b : Bool)
  | real (x : ℚ)
  | time (t : GpsTime)
  | vec (v : ℝ × ℝ × ℝ)
  | quat (q : Fin 4 → ℝ)

/-- The time a field holds. -/
def Value.asTime : Value → GpsTime
  | .time t => t
  | _ => .unset

namespace Field

/-- src/common/StateFieldTypes.inl:167 `get_bit_array`. -/
def bits : Field → List Bool
  | .int s => s.bits
  | .bool s => s.bits
  | .real _ s => s.bits
  | .time s => s.bits
  | .vec _ _ _ _ bits => bits
  | .quat _ bits => bits

/-- src/gsw/parsers/src/UplinkProducer.cpp:180-199 `add_field_to_bitstream`: of the attempts only the one for the field's own
type finds it. -/
def add : Field → Json → Reply (List Bool)
  | .int s => addInt s
  | .bool s => addBool s
  | .real d s => addReal d s
  | .time s => addTime s
  | .vec d lo hi p _ => addVector d lo hi p
  | .quat d _ => addQuat d

/-- src/common/StateFieldTypes.inl:168-180 `set_bit_array` and `deserialize` on board. Bits that cannot be decoded (the wrong
number of them) leave the value. -/
def decode (f : Field) (b : List Bool) (old : Value) : Value :=
  match f with
  | .int s => .int ({ s with bits := b } : IntSer).deserialize
  | .bool _ => match (⟨b⟩ : BoolSer).deserialize with
    | some x => .bool x
    | none => old
  | .real d s => match ({ s with bits := b } : FltSer ℚ).deserialize (if d then f64 else f32) with
    | some x => .real x
    | none => old
  | .time s => match ({ s with bits := b } : GpsSer).deserialize old.asTime with
    | some t => .time t
    | none => old
  | .vec _ lo hi p _ => match VecSer.deserialize lo hi p b with
    | some v => .vec v
    | none => old
  | .quat _ _ => match QuatSer.deserialize b with
    | some q => .quat q
    | none => old

/-- The field in the registry, holding `v`. -/
def onBoard (f : Field) (v : Value) : WField Value := { bits := f.bits, value := v, decode := f.decode }

end Field

/-- src/gsw/parsers/src/UplinkProducer.cpp:213-227: the values of the JSON object, in its order; the first one refused ends the
program. A name the registry does not have is refused (line 220). -/
def encodeAll (fields : List Field) : List (Nat × Json) → Reply (List (Nat × List Bool))
  | [] => .ok []
  | (i, j) :: rest =>
    match fields[i]? with
    | none => .refused
    | some f =>
      match f.add j with
      | .refused => .refused
      | .undef => .undef
      | .ok b =>
        match encodeAll fields rest with
        | .refused => .refused
        | .undef => .undef
        | .ok es => .ok ((i, b) :: es)

/-- src/gsw/parsers/src/UplinkProducer.cpp:302-319 `create_sbd_from_json`: values and packet (lines 201-233
`create_from_json`, with the buffer of `max_possible_packet_size` bytes computed in lines 13-22), then the check of
`to_file` (lines 285-295). Simplified: writing the file succeeds. -/
def create (fields : List Field) (junk : Nat → Bool) (cmd : List (Nat × Json)) : Reply (List U8) :=
  match encodeAll fields cmd with
  | .refused => .refused
  | .undef => .undef
  | .ok es =>
    let ws := fields.map fun f => f.onBoard (.int 0)
    let isz := Uplink.indexSize ws.length
    match Uplink.createPacket ws isz (Uplink.maxPacketSize ws isz) junk es with
    | none => .refused
    | some bytes =>
      match Uplink.validate ws isz (Bitstream.ofBytes bytes) with
      | some true => .ok bytes
      | some false => .refused
      | none => .undef

/-! ### The integer fields of the flight software that can be commanded -/

/-- src/fsw/FCCode/GomspaceController.cpp:12-13. -/
def battThreshold : IntSer := .mkSized .uint 5000 9000 10
/-- src/fsw/FCCode/GomspaceController.cpp:88-91. -/
def pvOutput : IntSer := .mkSized .uint 0 8500 9
/-- src/fsw/FCCode/MissionManager.cpp:24-25 (`2 * PAN::one_day_ccno`). -/
def dockingTimeout : IntSer := .mkSized .uint 0 (2 * oneDayCcno) 6

/-- The others, which are constructed from their range alone (src/common/SerializerTypes.inl:74-78). In order:
src/fsw/FCCode/MissionManager.cpp:27, 37, 40, 42; src/fsw/FCCode/ADCSCommander.cpp:14, 21, 27, 28, 32;
src/fsw/FCCode/DockingController.cpp:7; src/fsw/FCCode/PiksiFaultHandler.cpp:11, 12;
src/fsw/FCCode/OrbitController.cpp:28-31, 34; src/fsw/FCCode/QuakeFaultHandler.cpp:8;
src/fsw/FCCode/GomspaceController.cpp:77, 93; src/fsw/FCCode/PropController.cpp:14-15, 20-30;
src/fsw/FCCode/QuakeManager.cpp:32-33; src/common/Fault.cpp:13. -/
def flightRanges : List (String × IntKind × Nat × Nat) :=
  [("adcs.state", .uchar, 0, 10), ("pan.state", .uchar, 0, 12), ("pan.sat_designation", .uchar, 0, 2),
   ("pan.kill_switch", .uchar, 0, 255),
   ("adcs_cmd.rwa_mode", .uchar, 0, 2), ("adcs_cmd.mtr_mode", .uchar, 0, 2), ("adcs_cmd.mag1_mode", .uchar, 0, 1),
   ("adcs_cmd.mag2_mode", .uchar, 0, 1), ("adcs_cmd.imu_gyr_temp_pwm", .uchar, 0, 255),
   ("docksys.step_delay", .uint, 0, 4294967295),
   ("piksi_fh.no_cdpgs_max_wait", .uint, 0, oneDayCcno), ("piksi_fh.cdpgs_delay_max_wait", .uint, 0, oneDayCcno),
   ("orbit.control.valve1", .uint, 0, 1000), ("orbit.control.valve2", .uint, 0, 1000),
   ("orbit.control.valve3", .uint, 0, 1000), ("orbit.control.valve4", .uint, 0, 1000),
   ("orbit.control.num_near_field_nodes", .uint, 0, 300),
   ("qfh.state", .uchar, 0, 5),
   ("gomspace.powercycle_period", .uint, 0, 4294967295), ("gomspace.pptmode_cmd", .uchar, 1, 2),
   ("prop.state", .uint, 0, 9), ("prop.cycles_until_firing", .uint, 0, oneDayCcno * 96 / (24 * 60)),
   ("prop.sched_intertank1", .uint, 0, 2000), ("prop.sched_intertank2", .uint, 0, 2000),
   ("prop.max_venting_cycles", .uint, 0, 50), ("prop.ctrl_cycles_per_closing", .uint, 0, 50),
   ("prop.max_pressurizing_cycles", .uint, 0, 50), ("prop.ctrl_cycles_per_filling", .uint, 0, 25),
   ("prop.ctrl_cycles_per_cooling", .uint, 0, 100), ("prop.tank1.valve_choice", .uint, 0, 1),
   ("radio.max_wait", .uint, 0, oneDayCcno), ("radio.max_transceive", .uint, 0, oneDayCcno),
   ("*.persistence", .uint, 0, 1048575)]

end
end PAN.Ground
