import Mathlib.Data.Int.Log
import Mathlib.Data.Rat.Floor
/-!
IEEE-754 single precision as exact rational arithmetic followed by rounding.

A finite `float` is represented by the rational number it stands for; an operation on floats is the exact operation
followed by `f32`. Not represented: infinities, NaN and the sign of zero. Results beyond the largest finite float are
therefore not rounded to infinity; where that matters the model says so.
-/
namespace PAN

/-- Nearest integer, ties to the even one. -/
def rne (x : ℚ) : ℤ :=
  if x - ⌊x⌋ < 1 / 2 then ⌊x⌋ else if 1 / 2 < x - ⌊x⌋ then ⌊x⌋ + 1 else if ⌊x⌋ % 2 = 0 then ⌊x⌋ else ⌊x⌋ + 1

/-- The spacing of floats around `x`: 24 significant bits, exponents not below -126. -/
def ulp32 (x : ℚ) : ℚ := (2 : ℚ) ^ (max (Int.log 2 |x|) (-126) - 23)

/-- Round to the nearest float, ties to even (the default rounding mode of the target's FPU). -/
def f32 (x : ℚ) : ℚ := rne (x / ulp32 x) * ulp32 x

end PAN
