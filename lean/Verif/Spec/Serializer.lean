/-! Specification vocabulary for bit arrays and serializers. -/
namespace PAN.Spec

/-- The unsigned integer a list of bits stands for, least significant bit first. -/
def bitsToNat : List Bool → Nat
  | [] => 0
  | b :: bs => b.toNat + 2 * bitsToNat bs

/-- The smallest step that covers `range` in `2^w - 1` intervals (rounded up). -/
def stepSize (range w : Nat) : Nat := (range + (2 ^ w - 1) - 1) / (2 ^ w - 1)

/-- Limit a value to `[lo, hi]`. -/
def limit (lo hi x : Int) : Int := if x < lo then lo else if hi < x then hi else x

end PAN.Spec
