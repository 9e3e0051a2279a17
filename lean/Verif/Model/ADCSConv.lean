import Verif.Model.Basic
import Verif.Model.Float32
/-!
The fixed-point conversions used on the bus between the flight computer and the attitude control (ADCS) box, and the
constants of the box (src/adcs/utl/convert.inl, src/adcs/constants.hpp; the same conversion functions are repeated in
src/fsw/FCCode/Drivers/ADCS.cpp:38-68).

Floats are rationals and every operation is followed by `f32`. Infinities, NaN and the sign of zero are not
represented.
-/
namespace PAN

/-- `lin::Vector3f`, `std::array<float, 3>` and other triples. -/
structure V3 (α : Type) where
  x : α
  y : α
  z : α
  deriving DecidableEq, Repr

namespace V3
def map {α β : Type} (f : α → β) (v : V3 α) : V3 β := ⟨f v.x, f v.y, f v.z⟩
def all {α : Type} (p : α → Prop) (v : V3 α) : Prop := p v.x ∧ p v.y ∧ p v.z
def zero : V3 ℚ := ⟨0, 0, 0⟩
/-- Component-wise partial function: undefined as soon as one component is. -/
def mapM {α β : Type} (f : α → Option β) (v : V3 α) : Option (V3 β) :=
  match f v.x, f v.y, f v.z with
  | some a, some b, some c => some ⟨a, b, c⟩
  | _, _, _ => none
end V3

namespace ADCS


/-- src/adcs/constants.hpp:142: `0.113337f / 2.0f` (the division by two is exact). -/
def maxMoment : ℚ := f32 (113337 / 1000000) / 2
/-- src/adcs/constants.hpp:154-156: `310.1852f * 0.0000135f`. -/
def maxTorque : ℚ := f32 (f32 (3101852 / 10000) * f32 (135 / 10000000))
/-- src/adcs/constants.hpp:169. -/
def maxSpeedCmd : ℚ := f32 (680678 / 1000)
/-- src/adcs/constants.hpp:164. -/
def maxSpeedRead : ℚ := f32 (104720 / 100)

/-- C++ conversion of a float to an integer: truncation towards zero. -/
def truncZ (v : ℚ) : ℤ := if 0 ≤ v then ⌊v⌋ else ⌈v⌉

/-- src/adcs/utl/convert.inl:42-44 and src/fsw/FCCode/Drivers/ADCS.cpp:62-64 `us`: the value as a 16-bit number.
Converting a float outside the range of `unsigned short` is undefined behaviour (`none`). -/
def us (f min max : ℚ) : Option (BitVec 16) :=
  let v := f32 (f32 (65535 * f32 (f - min)) / f32 (max - min))
  if 0 ≤ truncZ v ∧ truncZ v < 65536 then some (BitVec.ofInt 16 (truncZ v)) else none

/-- src/adcs/utl/convert.inl:34-36 and src/fsw/FCCode/Drivers/ADCS.cpp:54-56 `uc`: the value as an 8-bit number. -/
def uc (f min max : ℚ) : Option U8 :=
  let v := f32 (f32 (255 * f32 (f - min)) / f32 (max - min))
  if 0 ≤ truncZ v ∧ truncZ v < 256 then some (BitVec.ofInt 8 (truncZ v)) else none

/-- src/adcs/utl/convert.inl:30-32 and src/fsw/FCCode/Drivers/ADCS.cpp:50-52 `fp(unsigned short, ..)`. -/
def fpS (u : BitVec 16) (min max : ℚ) : ℚ := f32 (min + f32 (f32 (u.toNat * f32 (max - min)) / 65535))

/-- src/adcs/utl/convert.inl:22-24 and src/fsw/FCCode/Drivers/ADCS.cpp:42-44 `fp(unsigned char, ..)`. -/
def fpC (u : U8) (min max : ℚ) : ℚ := f32 (min + f32 (f32 (u.toNat * f32 (max - min)) / 255))

/-- Little-endian 16-bit number from two bytes (src/adcs/state_controller.cpp:63-69 `endian_read<unsigned short>` on a
little-endian processor). -/
def le16 (lo hi : U8) : BitVec 16 := hi ++ lo

end ADCS
end PAN
