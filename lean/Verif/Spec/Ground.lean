import Verif.Spec.Serializer
import Mathlib.Data.Rat.Defs
import Mathlib.Algebra.Order.Field.Rat
/-! Specification of commanding: what it means for a number written by the operator to have arrived. -/
namespace PAN.Spec

/-- A whole number `n` sent to a field of `w` bits for the range `lo` to `hi` has arrived as `v`: not above `n`, by less than
one step, and exactly if the bits suffice to tell all numbers of the range apart. -/
def ArrivedInt (lo hi : Int) (w : Nat) (n v : Int) : Prop :=
  lo ≤ v ∧ v ≤ n ∧ (lo < hi → n - v < stepSize (hi - lo).toNat w) ∧ ((hi - lo).toNat ≤ 2 ^ w - 1 → v = n)

/-- A number `x` sent to a field of `w` bits for the range `lo` to `hi`, in arithmetic of relative precision `eps`, has
arrived as `v`: to one step and twenty-two rounding errors of the range. -/
def ArrivedReal (lo hi : ℚ) (w : Nat) (eps : ℚ) (x v : ℚ) : Prop :=
  |v - x| ≤ (hi - lo) / (2 ^ w - 1) + 22 * eps * (|lo| + |hi|)

end PAN.Spec
