import Verif.Model.BitArray
import Verif.Model.GPSTime
/-!
Model of the integer, boolean and GPS time serializers (src/common/SerializerTypes.inl).
-/
namespace PAN

/-- The four instantiations allowed by src/common/SerializerTypes.inl:52-56. -/
inductive IntKind | uint | sint | uchar | schar
  deriving DecidableEq, Repr

namespace IntKind

/-- `8*sizeof(T)`. -/
def bits : IntKind → Nat
  | uint => 32 | sint => 32 | uchar => 8 | schar => 8

/-- Conversion of an integer to `T` (two's complement wrap-around, as GCC does). -/
def cast : IntKind → Int → Int
  | uint, x => x % 2 ^ 32
  | sint, x => (x + 2 ^ 31) % 2 ^ 32 - 2 ^ 31
  | uchar, x => x % 2 ^ 8
  | schar, x => (x + 2 ^ 7) % 2 ^ 8 - 2 ^ 7

/-- The values of `T`. -/
def InRange (k : IntKind) (x : Int) : Prop := k.cast x = x

instance (k : IntKind) (x : Int) : Decidable (k.InRange x) := inferInstanceAs (Decidable (_ = _))

end IntKind

/-- src/common/SerializerTypes.inl:51-130 `IntegerSerializer<T>` (the printing buffer is not modelled). -/
structure IntSer where
  kind : IntKind
  min : Int
  max : Int
  bits : List Bool
  deriving DecidableEq, Repr

namespace IntSer

/-- src/common/SerializerTypes.inl:59-66 `log2i`. -/
def log2i (n : Nat) : Nat := if h : n > 0 then log2i (n / 2) + 1 else 0
  decreasing_by omega

/-- src/common/SerializerTypes.inl:68-72 constructor with an explicit size. -/
def mkSized (k : IntKind) (min max : Int) (size : Nat) : IntSer :=
  { kind := k, min, max, bits := List.replicate (Nat.min size k.bits) false }

/-- src/common/SerializerTypes.inl:74-78 constructor deriving the size from the range. `max - min` is
converted to `unsigned int`. -/
def mkRange (k : IntKind) (min max : Int) : IntSer :=
  { kind := k, min, max, bits := List.replicate (log2i ((max - min) % 2 ^ 32).toNat) false }

/-- src/common/SerializerTypes.inl:85-87 `num_intervals`. At 31 bits `(1 << 31) - 1` overflows `int`; the
wrapped value `2^31 - 1` is used here. -/
def numIntervals (n : Nat) : Nat := if n < 32 then 2 ^ n - 1 else 4294967295

/-- src/common/SerializerTypes.inl:81-93 `_resolution()`. The quotient is truncated to `T` (line 90) before
it is used. -/
def resolution (s : IntSer) : Nat :=
  let range : Nat := ((s.max - s.min) % 2 ^ 32).toNat
  let n := numIntervals s.bits.length
  if n = 0 then 0
  else
    let interval := s.kind.cast ((range / n : Nat) : Int)
    let interval := if (interval * n) % 2 ^ 32 < range then s.kind.cast (interval + 1) else interval
    (interval % 2 ^ 32).toNat

/-- src/common/SerializerTypes.inl:96-98. -/
def clamp (s : IntSer) (src : Int) : Int :=
  let c := if src > s.max then s.max else src
  if c < s.min then s.min else c

/-- src/common/SerializerTypes.inl:95-106 `serialize(src)`. The subtraction is converted to `unsigned int`
by the division. -/
def serialize (s : IntSer) (src : Int) : Option IntSer :=
  let v : Nat := if s.resolution ≠ 0 then ((s.clamp src - s.min) % 2 ^ 32).toNat / s.resolution else 0
  match BitArray.setUllong s.bits v with
  | none => none
  | some (_, b) => some { s with bits := b }

/-- src/common/SerializerTypes.inl:119-121 `deserialize(dest)`. -/
def deserialize (s : IntSer) : Int :=
  s.kind.cast (s.min + (BitArray.toUllong s.bits : Int) * s.resolution)

/-- src/common/Serializer.hpp:188-191 `set_bit_array`. -/
def setBits (s : IntSer) (b : List Bool) : IntSer :=
  if b.length ≠ s.bits.length then s else { s with bits := b }

end IntSer

/-- src/common/SerializerTypes.inl:15-45 `Serializer<bool>`. -/
structure BoolSer where
  bits : List Bool
  deriving DecidableEq, Repr

/-- src/common/SerializerTypes.inl:20. -/
def BoolSer.new : BoolSer := ⟨[false]⟩
/-- src/common/SerializerTypes.inl:24. -/
def BoolSer.serialize (s : BoolSer) (src : Bool) : BoolSer := ⟨s.bits.set 0 src⟩
/-- src/common/SerializerTypes.inl:36. -/
def BoolSer.deserialize (s : BoolSer) : Option Bool := s.bits[0]?

/-- src/common/SerializerTypes.inl:760-830 `Serializer<gps_time_t>`. -/
structure GpsSer where
  wn : IntSer
  tow : IntSer
  ns : IntSer
  bits : List Bool
  deriving DecidableEq, Repr

namespace GpsSer

/-- src/common/SerializerTypes.inl:769-777 constructor. `NANOSECONDS_IN_WEEK / 1'000'000` = 604800000. -/
def new : GpsSer :=
  let wn := IntSer.mkRange .uint 2000 3000
  let tow := IntSer.mkRange .uint 0 604800000
  let ns := IntSer.mkRange .sint (-1000000) 1000000
  { wn, tow, ns, bits := List.replicate (1 + wn.bits.length + tow.bits.length + ns.bits.length) false }

/-- `std::copy` of `src` into `dst` at position `i`; past the end is `none`. -/
def copyAt (dst : List Bool) (i : Nat) (src : List Bool) : Option (List Bool) :=
  if i + src.length ≤ dst.length then some (dst.take i ++ src ++ dst.drop (i + src.length)) else none

/-- src/common/SerializerTypes.inl:779-796 `serialize(src)`. -/
def serialize (s : GpsSer) (t : GpsTime) : Option GpsSer :=
  match s.bits with
  | [] => none
  | _ :: rest =>
    if t.isSet then
      match s.wn.serialize t.wn.toNat, s.tow.serialize t.tow.toNat, s.ns.serialize t.ns.toInt with
      | some wn, some tow, some ns =>
        match copyAt (true :: rest) 1 wn.bits with
        | none => none
        | some b1 =>
          match copyAt b1 (1 + wn.bits.length) tow.bits with
          | none => none
          | some b2 =>
            match copyAt b2 (1 + wn.bits.length + tow.bits.length) ns.bits with
            | none => none
            | some b3 => some { wn, tow, ns, bits := b3 }
      | _, _, _ => none
    else some { s with bits := false :: rest }

/-- src/common/SerializerTypes.inl:807-824 `deserialize(dest)`; `dest` is the previous value. -/
def deserialize (s : GpsSer) (dest : GpsTime) : Option GpsTime :=
  match s.bits with
  | [] => none
  | b :: rest =>
    if b then
      let l1 := s.wn.bits.length
      let l2 := s.tow.bits.length
      let l3 := s.ns.bits.length
      if l1 + l2 + l3 ≤ rest.length then
        let wn := { s.wn with bits := rest.take l1 }.deserialize
        let tow := { s.tow with bits := (rest.drop l1).take l2 }.deserialize
        let ns := { s.ns with bits := (rest.drop (l1 + l2)).take l3 }.deserialize
        some { wn := BitVec.ofInt 16 wn, tow := BitVec.ofInt 32 tow, ns := BitVec.ofInt 32 ns, isSet := true }
      else none
    else some { dest with isSet := false }

end GpsSer
end PAN
