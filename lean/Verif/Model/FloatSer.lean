import Verif.Model.BitArray
import Mathlib.Algebra.Order.Floor.Semiring
import Mathlib.Algebra.Order.Floor.Ring
import Mathlib.Algebra.Order.Field.Basic
/-!
Model of the serializers of real-valued fields: `FloatDoubleSerializer` of src/common/SerializerTypes.inl.

Numbers are those of an ordered field `K`, with an explicit rounding after every operation, so that the same definition is
used with the rounding of `float` and of `double` (over the rationals) and without rounding (over the reals, for the vector
serializers built on it). Overflow to infinity inside the serializer is not represented.
-/
namespace PAN

/-- A value of a `float` or `double` field. -/
inductive Flt (K : Type) where
  | fin (x : K)
  | inf (negative : Bool)
  | nan
  deriving DecidableEq, Repr

/-- src/common/SerializerTypes.inl:208-222 `FloatDoubleSerializer`: the range and the bit array (the printing buffer is not
modelled). The constructor sets range and size only; all bits start as false. -/
structure FltSer (K : Type) where
  min : K
  max : K
  bits : List Bool
  deriving DecidableEq, Repr

namespace FltSer
variable {K : Type} [Field K] [LinearOrder K] [IsStrictOrderedRing K] [FloorRing K]

/-- src/common/SerializerTypes.inl:217-222 constructor. -/
def mk' (min max : K) (size : Nat) : FltSer K := ⟨min, max, List.replicate size false⟩

/-- src/common/SerializerTypes.inl:226, 256 `const unsigned long long num_intervals = std::pow(2, size) - 1`, computed in
double precision: exact up to 53 bits, rounded to the power of two above that, and not representable in the integer (and so
undefined) from 64 bits on. -/
def intervals (size : Nat) : Option Nat :=
  if size ≤ 53 then some (2 ^ size - 1) else if size ≤ 63 then some (2 ^ size) else none

/-- src/common/SerializerTypes.inl:232-233, 259-263 `resolution`. -/
def resolution (r : K → K) (s : FltSer K) (n : Nat) : K := if 0 < n then r (r (s.max - s.min) / r n) else 0

/-- src/common/SerializerTypes.inl:228-230: the two comparisons; both are false for a NaN, which is `none`. -/
def clamp (s : FltSer K) : Flt K → Option K
  | .fin x => some (if (if s.max < x then s.max else x) < s.min then s.min else if s.max < x then s.max else x)
  | .inf false => some (if s.max < s.min then s.min else s.max)
  | .inf true => some s.min
  | .nan => none

/-- src/common/SerializerTypes.inl:225-238 `serialize(src)`. `none`: the conversion to `unsigned long long` of a number
that is not finite (also: of a quotient by 0) or out of its range, which is undefined. -/
def serialize (r : K → K) (s : FltSer K) (v : Flt K) : Option (FltSer K) :=
  match intervals s.bits.length, s.clamp v with
  | some n, some x =>
    let res := s.resolution r n
    if res = 0 then none
    else
      let q := r (r (x - s.min) / res)
      if -1 < q ∧ q < 2 ^ 64 then
        match BitArray.setUllong s.bits ⌊q⌋.toNat with
        | some (_, bits) => some { s with bits := bits }
        | none => none
      else none
  | _, _ => none

/-- src/common/SerializerTypes.inl:255-266 `deserialize(dest)`. -/
def deserialize (r : K → K) (s : FltSer K) : Option K :=
  match intervals s.bits.length with
  | some n => some (r (s.min + r (s.resolution r n * r (BitArray.toUllong s.bits))))
  | none => none

end FltSer
end PAN
