import Verif.Model.Ground
/-!
A commanded field in telemetry: what the downlink task writes for a field that holds a value.
-/
namespace PAN.Ground
noncomputable section

/-- src/common/StateFieldTypes.inl:168 `set_bit_array`: the field's serializer now holds these bits. -/
def Field.withBits : Field → List Bool → Field
  | .int s, b => .int { s with bits := b }
  | .bool _, b => .bool ⟨b⟩
  | .real d s, b => .real d { s with bits := b }
  | .time s, b => .time { s with bits := b }
  | .vec d lo hi p _, b => .vec d lo hi p b
  | .quat d _, b => .quat d b

/-- src/fsw/FCCode/DownlinkProducer.cpp:152-155, src/common/StateFieldTypes.inl:168, 170-174 `serialize` and
`get_bit_array` of a field that holds `v`. Simplified: a zero component of a vector is not a negative zero; vectors and
quaternions in real arithmetic, as in `Model/VectorSer`. -/
def Field.encode : Field → Value → Option (List Bool)
  | .int s, .int n => (s.serialize n).map (·.bits)
  | .bool s, .bool b => some (s.serialize b).bits
  | .real d s, .real x => (s.serialize (if d then f64 else f32) (.fin x)).map (·.bits)
  | .time s, .time t => (s.serialize t).map (·.bits)
  | .vec _ lo hi p _, .vec v => VecSer.serialize lo hi p (.fin v.1 v.2.1 v.2.2 false)
  | .quat _ _, .quat q => QuatSer.serialize (.fin q)
  | _, _ => none

end
end PAN.Ground
