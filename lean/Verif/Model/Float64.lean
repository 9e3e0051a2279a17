import Verif.Model.Float32
/-!
IEEE-754 double precision as exact rational arithmetic followed by rounding; see `Model/Float32.lean`.
-/
namespace PAN

/-- The spacing of doubles around `x`: 53 significant bits, exponents not below -1022. -/
def ulp64 (x : ℚ) : ℚ := (2 : ℚ) ^ (max (Int.log 2 |x|) (-1022) - 52)

/-- Round to the nearest double, ties to even. -/
def f64 (x : ℚ) : ℚ := rne (x / ulp64 x) * ulp64 x

end PAN
