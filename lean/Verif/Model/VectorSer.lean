import Verif.Model.FloatSer
import Mathlib.Analysis.SpecialFunctions.Trigonometric.Arctan
import Mathlib.Analysis.SpecialFunctions.Trigonometric.Inverse
import Mathlib.Analysis.SpecialFunctions.Log.Base
/-!
Model of the serializers of vectors and quaternions: `VectorSerializer` and `QuaternionSerializer` of
src/common/SerializerTypes.inl (and their wrappers for `lin` vectors, lines 656-754, which only copy components).

Simplified: numbers are real numbers, without rounding (the serializer of vectors with rounding is in VectorSerRnd); the results of IEEE-754 that are not numbers, and the sign of zero,
are kept where they matter. The serializers of the components are scratch objects: their bits before the call do not matter,
as `set_ullong` replaces all of them. (With the rounding of `float` and more than 24 bits this is not so at the upper end of a
range: `C97_counterexample_saturated`.)
Copies of a serializer of `lin` vectors share one array serializer (src/common/SerializerTypes.inl:680, `std::shared_ptr`), and
with it the bits. Every use copies the bits in or out at once (`serialize` then `get_bit_array`, or `get_bit_array` then
`deserialize`), so that this is not visible (`C125_report`, `C125_command`); here every field has its own.
-/
namespace PAN
noncomputable section

/-- A vector handed to the serializer. `other`: some component is infinite or NaN. `negZero` is the sign of the first
component if that is zero. -/
inductive VecIn where
  | fin (x y z : ℝ) (negZero : Bool)
  | other

namespace VecSer

/-- src/common/SerializerTypes.inl:395-400 `b1`. -/
def b1 (precision : ℕ) : ℕ := 2 + precision

/-- src/common/SerializerTypes.inl:401-406 `b2`. -/
def b2 (min max : ℝ) (precision : ℕ) : ℕ := (⌈Real.log (3 * max / (max - min)) / Real.log 2⌉ + precision).toNat

/-- src/common/SerializerTypes.inl:407-411 `total_size`. -/
def totalSize (min max : ℝ) (precision : ℕ) : ℕ := 1 + b1 precision + 2 * b2 min max precision

/-- src/common/SerializerTypes.inl:421 `magnitude_serializer`. -/
def mag (min max : ℝ) (precision : ℕ) : FltSer ℝ := .mk' min max (b1 precision)
/-- src/common/SerializerTypes.inl:422 `theta_serializer`. -/
def theta (min max : ℝ) (precision : ℕ) : FltSer ℝ := .mk' 0 Real.pi (b2 min max precision)
/-- src/common/SerializerTypes.inl:423 `phi_serializer`. -/
def phi (min max : ℝ) (precision : ℕ) : FltSer ℝ := .mk' (-Real.pi / 2) (Real.pi / 2) (b2 min max precision)

/-- src/common/SerializerTypes.inl:441 `std::atan(normalized_vec(1) / normalized_vec(0))`: a quotient by zero is infinite with
the sign of its operands, or NaN (`none`). -/
def atanQuot (x y : ℝ) (negZero : Bool) : Option ℝ :=
  if x = 0 then
    if y = 0 then none else some (if (decide (0 < y)) = !negZero then Real.pi / 2 else -Real.pi / 2)
  else some (Real.arctan (y / x))

/-- src/common/SerializerTypes.inl:435-459 `serialize(src)`: the bits. `none`: an angle is NaN, and its conversion to an
integer undefined. -/
def serialize (min max : ℝ) (precision : ℕ) : VecIn → Option (List Bool)
  | .other => none
  | .fin x y z negZero =>
    let m := √(x ^ 2 + y ^ 2 + z ^ 2)
    if m = 0 then none
    else
      match atanQuot (x / m) (y / m) negZero with
      | none => none
      | some ph =>
        match (mag min max precision).serialize id (.fin m), (theta min max precision).serialize id (.fin (Real.arccos (z / m))),
            (phi min max precision).serialize id (.fin ph) with
        | some a, some b, some c => some (decide (0 < x / m) :: (a.bits ++ b.bits ++ c.bits))
        | _, _, _ => none

/-- src/common/SerializerTypes.inl:467-492 `deserialize(dest)`. `none`: the bit array does not have its size. -/
def deserialize (min max : ℝ) (precision : ℕ) (bits : List Bool) : Option (ℝ × ℝ × ℝ) :=
  if bits.length = totalSize min max precision then
    let rest := bits.drop 1
    let a := { mag min max precision with bits := rest.take (b1 precision) }
    let b := { theta min max precision with bits := (rest.drop (b1 precision)).take (b2 min max precision) }
    let c := { phi min max precision with bits := (rest.drop (b1 precision + b2 min max precision)).take (b2 min max precision) }
    match a.deserialize id, b.deserialize id, c.deserialize id with
    | some m, some th, some ph =>
      let xf : ℝ := if bits.headD false then 1 else -1
      some (xf * m * Real.sin th * Real.cos ph, xf * m * Real.sin th * Real.sin ph, m * Real.cos th)
    | _, _, _ => none
  else none

end VecSer

/-- A quaternion handed to the serializer. `other`: some component is infinite or NaN. -/
inductive QuatIn where
  | fin (q : Fin 4 → ℝ)
  | other

namespace QuatSer

/-- src/common/SerializerTypes.inl:527 `quat_component_sz`. -/
abbrev componentSize : ℕ := 10

/-- src/common/SerializerTypes.inl:539-541 `quaternion_element_serializers`. -/
def element : FltSer ℝ := .mk' (-1) 1 componentSize

/-- src/common/SerializerTypes.inl:551-560: the index of the largest component, the first if there are several. -/
def maxIdx (q : Fin 4 → ℝ) : Fin 4 :=
  ((List.finRange 4).foldl (fun (best : ℝ × Fin 4) i => if best.1 < |q i| then (|q i|, i) else best) (0, 0)).2

/-- The three other indices in ascending order (src/common/SerializerTypes.inl:571-572, 625-626). -/
def others (i : Fin 4) : List (Fin 4) := (List.finRange 4).filter (· ≠ i)

/-- src/common/SerializerTypes.inl:545-588 `serialize(src)`: the bits, the two of the index first, lower bit first. `none`: the
quaternion has no direction, and the conversion of its components is undefined. -/
def serialize : QuatIn → Option (List Bool)
  | .other => none
  | .fin q =>
    let m := √(q 0 ^ 2 + q 1 ^ 2 + q 2 ^ 2 + q 3 ^ 2)
    if m = 0 then none
    else
      let k := maxIdx (fun i => q i / m)
      match (others k).mapM fun i => element.serialize id (.fin (if q k < 0 then q i / m * -1 else q i / m)) with
      | some es => some (k.val.testBit 0 :: k.val.testBit 1 :: (es.map (·.bits)).flatten)
      | none => none

/-- src/common/SerializerTypes.inl:596-633 `deserialize(dest)`. `none`: the bit array does not have its size, or the square
root is of a negative number and the largest component therefore NaN. -/
def deserialize (bits : List Bool) : Option (Fin 4 → ℝ) :=
  match bits with
  | c0 :: c1 :: rest =>
    if rest.length = 3 * componentSize then
      let k : Fin 4 := ⟨c0.toNat + 2 * c1.toNat, by cases c0 <;> cases c1 <;> decide⟩
      let el (j : ℕ) := { element with bits := (rest.drop (componentSize * j)).take componentSize }.deserialize id
      match el 0, el 1, el 2 with
      | some a, some b, some c =>
        let s := 1 - a * a - b * b - c * c
        if s < 0 then none
        else
          match others k with
          | [i, j, l] => some (fun n => if n = k then √s else if n = i then a else if n = j then b else if n = l then c else 0)
          | _ => none
      | _, _, _ => none
    else none
  | _ => none

end QuatSer
end
end PAN
