import Verif.Spec.VectorSer
import Verif.Model.VectorSerRnd
/-!
Vocabulary of C98 with rounding: what is assumed of the floating-point arithmetic.
-/
namespace PAN.Spec
noncomputable section

/-- The library's functions have an absolute error of `d`. -/
structure Functions (A : FltLib) (d : ℝ) : Prop where
  range : 0 ≤ d ∧ d ≤ 1 / 2 ^ 16
  acos : ∀ x, |x| ≤ 1 → |A.acos x - Real.arccos x| ≤ d
  atan : ∀ x, |A.atan x - Real.arctan x| ≤ d
  sin : ∀ x, |x| ≤ 4 → |A.sin x - Real.sin x| ≤ d
  cos : ∀ x, |x| ≤ 4 → |A.cos x - Real.cos x| ≤ d
  pi : |A.pi - Real.pi| ≤ d
  atanInf : |A.atanInf - Real.pi / 2| ≤ d

/-- An arithmetic whose operations are rounded to a relative error of `u`, or, where numbers underflow, an absolute error of
`t`, and whose functions have an absolute error of `d`. -/
structure Accurate (A : FltLib) (u t d : ℝ) : Prop where
  sizes : 0 ≤ u ∧ u ≤ 1 / 2 ^ 20 ∧ 0 ≤ t ∧ t * 2 ^ 53 ≤ u
  err : ∀ x, |A.r x - x| ≤ u * |x| + t
  mono : ∀ x y, x ≤ y → A.r x ≤ A.r y
  odd : ∀ x, A.r (-x) = -A.r x
  idem : ∀ x, A.r (A.r x) = A.r x
  ints : ∀ k : ℕ, k * u ≤ 1 → A.r k = k
  /-- The rounded square root of a rounded square is not smaller than the number. -/
  sqrt : ∀ x, A.r x = x → t ≤ u * x ^ 2 → |x| ≤ A.r √(A.r (x * x))
  functions : Functions A d

end
end PAN.Spec
