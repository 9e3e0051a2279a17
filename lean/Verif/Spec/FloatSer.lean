import Mathlib.Algebra.Order.Field.Basic
/-!
Specification of the fields of real numbers.
-/
namespace PAN.Spec

/-- A rounding of numbers: monotone, with relative error `eps` and absolute error `tiny` (for numbers close to 0). -/
structure Rnd (K : Type) [Field K] [LinearOrder K] where
  r : K → K
  mono : ∀ x y, x ≤ y → r x ≤ r y
  eps : K
  tiny : K
  epsPos : 0 ≤ eps
  tinyPos : 0 ≤ tiny
  err : ∀ x, |r x - x| ≤ eps * |x| + tiny

/-- The value of the range closest to `x`. -/
def nearest {K : Type} [LinearOrder K] (lo hi x : K) : K := max lo (min x hi)

end PAN.Spec
