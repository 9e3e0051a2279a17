import Verif.Model.VectorSer
/-!
The serializer of vectors of src/common/SerializerTypes.inl again, with the rounding of every operation and with the functions
of the mathematics library as they are. `Model/VectorSer.lean` is the case of exact arithmetic (`serializeR_exact`,
`deserializeR_exact`).

Simplified: overflow is not represented, and a product followed by a sum is rounded twice (a compiler may use one fused
operation). The number of bits of the angles, a constant of each field, is the one of exact arithmetic.
-/
namespace PAN
noncomputable section

/-- The arithmetic of `float` or `double`: the rounding of one operation, the library's functions on finite arguments, the
constant `pi` of src/common/SerializerTypes.inl:360, and the arc tangent of infinity. -/
structure FltLib where
  r : ℝ → ℝ
  acos : ℝ → ℝ
  atan : ℝ → ℝ
  sin : ℝ → ℝ
  cos : ℝ → ℝ
  pi : ℝ
  atanInf : ℝ

/-- Exact arithmetic. -/
def FltLib.exact : FltLib := ⟨id, Real.arccos, Real.arctan, Real.sin, Real.cos, Real.pi, Real.pi / 2⟩

namespace VecSer

/-- src/common/SerializerTypes.inl:422 `theta_serializer`. -/
def thetaR (A : FltLib) (min max : ℝ) (precision : ℕ) : FltSer ℝ := .mk' 0 A.pi (b2 min max precision)
/-- src/common/SerializerTypes.inl:423 `phi_serializer`. -/
def phiR (A : FltLib) (min max : ℝ) (precision : ℕ) : FltSer ℝ := .mk' (A.r (-A.pi / 2)) (A.r (A.pi / 2)) (b2 min max precision)

/-- src/common/SerializerTypes.inl:437 `lin::norm`: the squares are added in order. -/
def normR (A : FltLib) (x y z : ℝ) : ℝ := A.r √(A.r (A.r (A.r (x * x) + A.r (y * y)) + A.r (z * z)))

/-- src/common/SerializerTypes.inl:441 `std::atan(normalized_vec(1) / normalized_vec(0))`; `neg`: the sign of the first
component if it is zero. -/
def atanQuotR (A : FltLib) (x y : ℝ) (neg : Bool) : Option ℝ :=
  if x = 0 then
    if y = 0 then none else some (if (decide (0 < y)) = !neg then A.atanInf else -A.atanInf)
  else some (A.atan (A.r (y / x)))

/-- src/common/SerializerTypes.inl:435-459 `serialize(src)`: the bits. `none`: an angle is NaN (also: the arc cosine of a number
beyond 1), and its conversion to an integer undefined. A first component that underflows to zero keeps its sign. -/
def serializeR (A : FltLib) (min max : ℝ) (precision : ℕ) : VecIn → Option (List Bool)
  | .other => none
  | .fin x y z negZero =>
    let m := normR A x y z
    if m = 0 then none
    else
      let xn := A.r (x / m)
      let yn := A.r (y / m)
      let zn := A.r (z / m)
      if 1 < |zn| then none
      else
        match atanQuotR A xn yn (if x = 0 then negZero else decide (x < 0)) with
        | none => none
        | some ph =>
          match (mag min max precision).serialize A.r (.fin m), (thetaR A min max precision).serialize A.r (.fin (A.acos zn)),
              (phiR A min max precision).serialize A.r (.fin ph) with
          | some a, some b, some c => some (decide (0 < xn) :: (a.bits ++ b.bits ++ c.bits))
          | _, _, _ => none

/-- src/common/SerializerTypes.inl:467-492 `deserialize(dest)`. `none`: the bit array does not have its size. -/
def deserializeR (A : FltLib) (min max : ℝ) (precision : ℕ) (bits : List Bool) : Option (ℝ × ℝ × ℝ) :=
  if bits.length = totalSize min max precision then
    let rest := bits.drop 1
    let a := { mag min max precision with bits := rest.take (b1 precision) }
    let b := { thetaR A min max precision with bits := (rest.drop (b1 precision)).take (b2 min max precision) }
    let c := { phiR A min max precision with bits := (rest.drop (b1 precision + b2 min max precision)).take (b2 min max precision) }
    match a.deserialize A.r, b.deserialize A.r, c.deserialize A.r with
    | some m, some th, some ph =>
      let xf : ℝ := if bits.headD false then 1 else -1
      some (A.r (A.r (A.r (xf * m) * A.sin th) * A.cos ph), A.r (A.r (A.r (xf * m) * A.sin th) * A.sin ph), A.r (m * A.cos th))
    | _, _, _ => none
  else none

end VecSer
end
end PAN
