import Mathlib.Analysis.SpecialFunctions.Trigonometric.Basic
import Mathlib.Algebra.BigOperators.Group.Finset.Basic
import Mathlib.Data.Fin.VecNotation
/-! Specification of the sun sensors. -/
namespace PAN.Spec

/-- The inner product of two directions. -/
def inner3 (u v : Fin 3 → ℝ) : ℝ := u 0 * v 0 + u 1 * v 1 + u 2 * v 2

/-- A vector of length one. -/
def unit3 (u : Fin 3 → ℝ) : Prop := inner3 u u = 1

/-- The directions of a set of sensors determine a direction: only the zero vector is at right angles to all of them. -/
def determine (directions : Fin 20 → Fin 3 → ℝ) (sensors : Fin 20 → Prop) : Prop :=
  ∀ v, (∀ j, sensors j → inner3 (directions j) v = 0) → v = 0

/-- The face a sensor is on: the sensors are numbered face by face, four on each, read by one converter. -/
def faceOf (j : Fin 20) : Fin 5 := ⟨j.val / 4, by omega⟩

/-- The outward normals of the faces with sensors: +x, -y, -x, +y, +z. -/
def faceNormal : Fin 5 → Fin 3 → ℝ := ![![1, 0, 0], ![0, -1, 0], ![-1, 0, 0], ![0, 1, 0], ![0, 0, 1]]

/-- A sensor is taken into account: its converter is in service and its voltage is above one volt. -/
def counted (functional : Fin 5 → Bool) (voltages : Fin 20 → ℝ) (j : Fin 20) : Prop :=
  functional (faceOf j) = true ∧ voltages j > 1

open Classical in
/-- How badly a vector fits the voltages: the sum, over the sensors taken into account, of the squared differences between the
voltage and the component of the vector in the direction of the sensor. -/
noncomputable def misfit (directions : Fin 20 → Fin 3 → ℝ) (functional : Fin 5 → Bool) (voltages : Fin 20 → ℝ) (x : Fin 3 → ℝ) : ℝ :=
  ∑ j : Fin 20, if counted functional voltages j then (inner3 (directions j) x - voltages j) ^ 2 else 0

end PAN.Spec
