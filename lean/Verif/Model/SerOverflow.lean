import Verif.Model.QuaternionSerRnd
/-!
The serializers of vectors and quaternions of src/common/SerializerTypes.inl once more, with rounding and with overflow of the
length. A rounded result whose size is `top` or more (2^128 for `float`, 2^1024 for `double`) is infinite; from there infinity
goes on through sums and the square root, and a finite number divided by it is zero.

The other operations do not overflow: the components of a normalised vector are near 1 at most, and the fields' own serializers
cut values off at their limits first. So only the length is followed.
-/
namespace PAN
noncomputable section

/-- A rounded result as it is held: `none` is infinity. -/
def held (top x : ℝ) : Option ℝ := if top ≤ |x| then none else some x

namespace QuatSer

/-- src/common/SerializerTypes.inl:547 `lin::norm`; `none`: infinite. -/
def normO4 (A : FltLib) (top : ℝ) (q : Fin 4 → ℝ) : Option ℝ := do
  let a ← held top (A.r (q 0 * q 0))
  let b ← held top (A.r (q 1 * q 1))
  let s ← held top (A.r (a + b))
  let c ← held top (A.r (q 2 * q 2))
  let s ← held top (A.r (s + c))
  let d ← held top (A.r (q 3 * q 3))
  let s ← held top (A.r (s + d))
  return A.r √s

/-- src/common/SerializerTypes.inl:546-549: the normalised components of a quaternion. `none`: not numbers. -/
def normalisedO (A : FltLib) (top : ℝ) (q : Fin 4 → ℝ) : Option (Fin 4 → ℝ) :=
  match normO4 A top q with
  | none => some fun _ => 0
  | some m => if m = 0 then none else some fun i => A.r (q i / m)

/-- src/common/SerializerTypes.inl:545-588 `serialize(src)` as `serializeR`, with overflow. -/
def serializeO (A : FltLib) (top : ℝ) : QuatIn → Option (List Bool)
  | .other => none
  | .fin q =>
    match normalisedO A top q with
    | none => none
    | some n =>
      let k := maxIdx n
      match (others k).mapM fun i => element.serialize A.r (.fin (if q k < 0 then A.r (n i * -1) else n i)) with
      | some es => some (k.val.testBit 0 :: k.val.testBit 1 :: (es.map (·.bits)).flatten)
      | none => none

end QuatSer

namespace VecSer

/-- src/common/SerializerTypes.inl:437 `lin::norm`; `none`: infinite. -/
def normO (A : FltLib) (top x y z : ℝ) : Option ℝ := do
  let a ← held top (A.r (x * x))
  let b ← held top (A.r (y * y))
  let s ← held top (A.r (a + b))
  let c ← held top (A.r (z * z))
  let s ← held top (A.r (s + c))
  return A.r √s

/-- src/common/SerializerTypes.inl:435-459 `serialize(src)` as `serializeR`, with overflow: with an infinite length the normalised
components are all zero, and the second angle is that of 0 / 0 (441). -/
def serializeO (A : FltLib) (top min max : ℝ) (precision : ℕ) : VecIn → Option (List Bool)
  | .other => none
  | .fin x y z negZero =>
    match normO A top x y z with
    | none =>
      match atanQuotR A 0 0 (if x = 0 then negZero else decide (x < 0)) with
      | none => none
      | some ph =>
        match (thetaR A min max precision).serialize A.r (.fin (A.acos 0)), (phiR A min max precision).serialize A.r (.fin ph),
            (mag min max precision).serialize A.r (.inf false) with
        | some b, some c, some a => some (false :: (a.bits ++ b.bits ++ c.bits))
        | _, _, _ => none
    | some _ => serializeR A min max precision (.fin x y z negZero)

end VecSer
end
end PAN
