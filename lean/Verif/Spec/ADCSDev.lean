import Verif.Model.ADCSDev
/-! Specification of the bus devices of the attitude control box, stated on what the bus did. -/
namespace PAN.Spec

/-- An exchange with a device went wrong: one of its bus calls failed. -/
def exchangeFailed (calls : List Bool) : Bool := decide (false ∈ calls)

/-- Three exchanges in a row went wrong. -/
def threeInARow (exchanges : List (List Bool)) : Prop := [true, true, true] <:+: exchanges.map exchangeFailed

/-- The value of a 12-bit conversion: the upper 12 of the 16 bits sent, the most significant byte first, in two's complement.
-/
def conversion (b0 b1 : ℕ) : ℤ :=
  let n := (256 * b0 + b1) / 16
  if n < 2048 then n else n - 4096

/-- A signed 16-bit number in two's complement, from its low and high byte. -/
def signed16 (lo hi : ℕ) : ℤ := if hi < 128 then 256 * hi + lo else 256 * hi + lo - 65536

end PAN.Spec
