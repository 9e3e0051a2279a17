import Verif.Model.Basic
/-!
Model of `bit_array` = `fixed_array<bool>` (src/common/fixed_array.hpp): a list of booleans whose length
never changes after construction.
-/
namespace PAN
namespace BitArray

/-- The conversion of an `unsigned long long` to `double` done implicitly by the comparison
`pow(2, i) > val` at src/common/fixed_array.hpp:271 (IEEE-754 binary64, round to nearest, ties to even).
Exact below 2^53. -/
def toDouble (v : Nat) : Nat :=
  if v < 2 ^ 53 then v
  else
    let e := v.log2 - 52
    let q := v / 2 ^ e
    let r := v % 2 ^ e
    if r > 2 ^ (e - 1) ∨ (r = 2 ^ (e - 1) ∧ q % 2 = 1) then (q + 1) * 2 ^ e else q * 2 ^ e

/-- src/common/fixed_array.hpp:268-275: the first `i` in `[i, bitsize)` with `2^i > val`, else `bitsize`
(`k` iterations left, `i + k = bitsize`). -/
def valNumBits (val : Nat) : Nat → Nat → Nat
  | i, 0 => i
  | i, k + 1 => if 2 ^ i > toDouble val then i else valNumBits val (i + 1) k

/-- src/common/fixed_array.hpp:265-278 `num_val_bits_ok<T>(val)`, `bitsize = 8*sizeof(T)`. -/
def numValBitsOk (bitsize : Nat) (val size : Nat) : Bool := decide (valNumBits val 0 bitsize ≤ size)

/-- src/common/fixed_array.hpp:177-182: the store loop; writing past the end of the array is `none`. -/
def setLoop (arr : List Bool) (i val : Nat) : Option (List Bool) :=
  if h : val > 0 then
    if i < arr.length then setLoop (arr.set i (decide (val % 2 = 1))) (i + 1) (val / 2) else none
  else some arr
  termination_by val
  decreasing_by omega

/-- src/common/fixed_array.hpp:172-185 `set_ullong(val)`: success flag and new contents. -/
def setUllong (arr : List Bool) (val : Nat) : Option (Bool × List Bool) :=
  if numValBitsOk 64 val arr.length then
    match setLoop (arr.map fun _ => false) 0 val with
    | none => none
    | some a => some (true, a)
  else some (false, arr)

/-- src/common/fixed_array.hpp:187-199 `set_ulong`/`set_uint` with `bitsize = 8*sizeof(T)`. -/
def setUint (bitsize : Nat) (arr : List Bool) (val : Nat) : Option (Bool × List Bool) :=
  if numValBitsOk bitsize val arr.length then
    match setUllong arr val with
    | none => none
    | some (_, a) => some (true, a)
  else some (false, arr)

/-- src/common/fixed_array.hpp:223-227: the accumulation loop, 64-bit wrap-around. -/
def toUllongLoop : List Bool → Nat → Nat → Nat
  | [], val, _ => val
  | b :: bs, val, exp => toUllongLoop bs ((val + b.toNat * exp) % 2 ^ 64) (exp * 2 % 2 ^ 64)

/-- src/common/fixed_array.hpp:220-230 `to_ullong()`. -/
def toUllong (arr : List Bool) : Nat := toUllongLoop arr 0 1

end BitArray
end PAN
