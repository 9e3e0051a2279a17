import Verif.Spec.FloatSer
import Mathlib.Analysis.SpecialFunctions.Sqrt
/-!
Vocabulary of C98 and C99.
-/
namespace PAN.Spec
noncomputable section

/-- The length of a vector. -/
def length3 (v : ℝ × ℝ × ℝ) : ℝ := √(v.1 ^ 2 + v.2.1 ^ 2 + v.2.2 ^ 2)

/-- The Euclidean distance of two vectors. -/
def dist3 (v w : ℝ × ℝ × ℝ) : ℝ := length3 (v.1 - w.1, v.2.1 - w.2.1, v.2.2 - w.2.2)

/-- The vector of the same direction whose length is the one closest to `v`'s between `lo` and `hi`. -/
def shell (lo hi : ℝ) (v : ℝ × ℝ × ℝ) : ℝ × ℝ × ℝ :=
  let c := nearest lo hi (length3 v) / length3 v
  (c * v.1, c * v.2.1, c * v.2.2)

/-- The length of a quaternion. -/
def length4 (q : Fin 4 → ℝ) : ℝ := √(q 0 ^ 2 + q 1 ^ 2 + q 2 ^ 2 + q 3 ^ 2)

end
end PAN.Spec
