import Mathlib.Data.Int.Log
import Mathlib.Data.Real.Basic
import Mathlib.Algebra.Order.Floor.Ring
import Mathlib.Algebra.Order.Archimedean.Real.Basic
/-!
IEEE-754 rounding of real numbers, for the functions whose exact results are not rational (square roots, angles). It is the
rounding of `Model/Float32.lean` and `Model/Float64.lean` on rational numbers (`rndR_f32`, `rndR_f64`). As there, infinities,
NaN, the sign of zero and overflow are not represented.
-/
namespace PAN
noncomputable section

/-- Nearest integer, ties to the even one. -/
def rneR (x : ℝ) : ℤ :=
  if x - ⌊x⌋ < 1 / 2 then ⌊x⌋ else if 1 / 2 < x - ⌊x⌋ then ⌊x⌋ + 1 else if ⌊x⌋ % 2 = 0 then ⌊x⌋ else ⌊x⌋ + 1

/-- The spacing around `x` of numbers with `P + 1` significant bits and exponents not below `E`. -/
def ulpR (P : ℕ) (E : ℤ) (x : ℝ) : ℝ := (2 : ℝ) ^ (max (Int.log 2 |x|) E - P)

/-- Round to the nearest such number, ties to even. -/
def rndR (P : ℕ) (E : ℤ) (x : ℝ) : ℝ := rneR (x / ulpR P E x) * ulpR P E x

end
end PAN
