import Verif.Model.VectorSerRnd
/-!
The serializer of quaternions of src/common/SerializerTypes.inl again, with the rounding of every operation.
`Model/VectorSer.lean` is the case of exact arithmetic (`quat_serializeR_exact`, `quat_deserializeR_exact`).

Simplified: overflow is not represented, and a product followed by a sum is rounded twice (a compiler may use one fused
operation).
-/
namespace PAN
noncomputable section
namespace QuatSer

/-- src/common/SerializerTypes.inl:547 `lin::norm`: the squares are added in order. -/
def normR4 (A : FltLib) (q : Fin 4 → ℝ) : ℝ :=
  A.r √(A.r (A.r (A.r (A.r (q 0 * q 0) + A.r (q 1 * q 1)) + A.r (q 2 * q 2)) + A.r (q 3 * q 3)))

/-- src/common/SerializerTypes.inl:545-588 `serialize(src)`: the bits, the two of the index first, lower bit first. `none`: the
computed length is zero, and the conversion of the components undefined. The largest component is the largest of the rounded
ones, and its sign that of the source (570). -/
def serializeR (A : FltLib) : QuatIn → Option (List Bool)
  | .other => none
  | .fin q =>
    let m := normR4 A q
    if m = 0 then none
    else
      let n := fun i => A.r (q i / m)
      let k := maxIdx n
      match (others k).mapM fun i => element.serialize A.r (.fin (if q k < 0 then A.r (n i * -1) else n i)) with
      | some es => some (k.val.testBit 0 :: k.val.testBit 1 :: (es.map (·.bits)).flatten)
      | none => none

/-- src/common/SerializerTypes.inl:596-633 `deserialize(dest)`. `none`: the bit array does not have its size, or the square
root is of a negative number and the largest component therefore NaN. -/
def deserializeR (A : FltLib) (bits : List Bool) : Option (Fin 4 → ℝ) :=
  match bits with
  | c0 :: c1 :: rest =>
    if rest.length = 3 * componentSize then
      let k : Fin 4 := ⟨c0.toNat + 2 * c1.toNat, by cases c0 <;> cases c1 <;> decide⟩
      let el (j : ℕ) := { element with bits := (rest.drop (componentSize * j)).take componentSize }.deserialize A.r
      match el 0, el 1, el 2 with
      | some a, some b, some c =>
        let s := A.r (A.r (A.r (1 - A.r (a * a)) - A.r (b * b)) - A.r (c * c))
        if s < 0 then none
        else
          match others k with
          | [i, j, l] => some (fun n => if n = k then A.r √s else if n = i then a else if n = j then b else if n = l then c else 0)
          | _ => none
      | _, _, _ => none
    else none
  | _ => none

end QuatSer
end
end PAN
