import Verif.Model.BitArray
/-!
Construction and assignment of fixed arrays (src/common/fixed_array.hpp), and the calls that change a bit array.
-/
namespace PAN
namespace FixedArray

/-- src/common/fixed_array.hpp:73, 87, 161: the loop of the assignments; `k` iterations left. Reading past the end of the source does not
occur where this is used and leaves the element as it is. -/
def copyLoop {α : Type} (src : List α) : List α → Nat → Nat → List α
  | dst, _, 0 => dst
  | dst, i, k + 1 => copyLoop src (match src[i]? with | some a => dst.set i a | none => dst) (i + 1) k

/-- src/common/fixed_array.hpp:71-75, 85-89 and 158-163 `operator=` from a fixed array, a vector and a bitset. -/
def assign {α : Type} (dst src : List α) : List α :=
  if src.length ≠ dst.length then dst else copyLoop src dst 0 src.length

/-- src/common/fixed_array.hpp:39 the constructor with a size: value-initialised elements. -/
def ofSize {α : Type} [Inhabited α] (size : Nat) : List α := List.replicate size default

/-- src/common/fixed_array.hpp:48-50, 59-61, 120-121, 135-136 and 145-148: the constructors from a fixed array, a vector and a bitset. -/
def copy {α : Type} [Inhabited α] (src : List α) : List α := assign (ofSize src.length) src

/-- The public ways to change a bit array, other than `resize`, which its users may call only in constructors
(src/common/fixed_array.hpp:92-95). -/
inductive Op where
  /-- src/common/fixed_array.hpp:71-89, 158-163 -/
  | assign (src : List Bool)
  /-- `arr[i] = b` -/
  | bit (i : Nat) (b : Bool)
  /-- src/common/fixed_array.hpp:172-185 -/
  | ullong (val : Nat)
  /-- src/common/fixed_array.hpp:187-199, with the width of the type -/
  | uint (bitsize val : Nat)

/-- One call; `none`: a write past the end. -/
def step (arr : List Bool) : Op → Option (List Bool)
  | .assign src => some (FixedArray.assign arr src)
  | .bit i b => if i < arr.length then some (arr.set i b) else none
  | .ullong val => (BitArray.setUllong arr val).map (·.2)
  | .uint bitsize val => (BitArray.setUint bitsize arr val).map (·.2)

/-- A sequence of calls. -/
def run (arr : List Bool) : List Op → Option (List Bool)
  | [] => some arr
  | o :: os => (step arr o).bind fun a => run a os

end FixedArray
end PAN
