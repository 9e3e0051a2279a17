import Mathlib.LinearAlgebra.Matrix.Notation
import Mathlib.Analysis.SpecialFunctions.Trigonometric.Basic
import Mathlib.Analysis.Real.Sqrt
/-!
Model of the sun vector solver of the attitude control box (src/adcs/ssa.cpp). Simplified: numbers are real numbers; rounding is
left out. The matrix library is not part of the repository: its two functions used here are parameters, and what is assumed of
them is `Solver.Correct`.
-/
namespace PAN.SunVec

/-- src/adcs/ssa_config.hpp:69-95 `normals`: the directions the twenty sensors look in, four for each face, tilted from the
normal of the face by an angle with cosine `c` and sine `s`. -/
def normalsWith (c s : ℝ) : Fin 20 → Fin 3 → ℝ := ![
  -- Face 2 (+x)
  ![c, 0, s], ![c, 0, -s], ![c, -s, 0], ![c, s, 0],
  -- Face 3 (-y)
  ![-s, -c, 0], ![s, -c, 0], ![0, -c, -s], ![0, -c, s],
  -- Face 4 (-x)
  ![-c, s, 0], ![-c, -s, 0], ![-c, 0, -s], ![-c, 0, s],
  -- Face 5 (+y)
  ![s, c, 0], ![-s, c, 0], ![0, c, -s], ![0, c, s],
  -- Face 6 (+z)
  ![-s, 0, c], ![s, 0, c], ![0, -s, c], ![0, s, c]]

/-- src/adcs/ssa_config.hpp:65 `s20`. -/
noncomputable def s20 : ℝ := Real.cos 20

/-- src/adcs/ssa_config.hpp:66 `c20`. -/
noncomputable def c20 : ℝ := Real.sin 20

/-- src/adcs/ssa_config.hpp:69-95 `normals`. -/
noncomputable def normals : Fin 20 → Fin 3 → ℝ := normalsWith c20 s20

/-- src/adcs/ssa.cpp:122-136: the sensors taken into account: those over the threshold (1 V, src/adcs/ssa_config.hpp:63) on
converters in service. -/
noncomputable def lit (functional : Fin 5 → Bool) (voltages : Fin 20 → ℝ) : List (Fin 20) :=
  (List.finRange 5).flatMap fun i =>
    if !functional i then []
    else ((List.finRange 4).map fun (j : Fin 4) => (⟨4 * i.val + j.val, by omega⟩ : Fin 20)).filter fun j => voltages j > 1

/-- The functions of the matrix library: `lin::qr` (A ↦ Q, R) and `lin::backward_sub` (R, y ↦ x) (used in
src/adcs/ssa.cpp:142-143). -/
structure Solver where
  q : ∀ k, Matrix (Fin k) (Fin 3) ℝ → Matrix (Fin k) (Fin 3) ℝ
  r : ∀ k, Matrix (Fin k) (Fin 3) ℝ → Matrix (Fin 3) (Fin 3) ℝ
  back : Matrix (Fin 3) (Fin 3) ℝ → (Fin 3 → ℝ) → Fin 3 → ℝ

/-- What is assumed of them: a matrix with independent columns is factored into a matrix with orthonormal columns and an upper
triangular one, and such triangular systems are solved. -/
structure Solver.Correct (σ : Solver) : Prop where
  factor : ∀ k (A : Matrix (Fin k) (Fin 3) ℝ), (∀ v, A.mulVec v = 0 → v = 0) →
    A = σ.q k A * σ.r k A ∧ (σ.q k A).transpose * σ.q k A = 1 ∧ (∀ i j, j < i → σ.r k A i j = 0)
  solve : ∀ (R : Matrix (Fin 3) (Fin 3) ℝ) y, (∀ i j, j < i → R i j = 0) → (∀ i, R i i ≠ 0) → R.mulVec (σ.back R y) = y

/-- src/adcs/ssa.cpp:116-147 `calculate_sun_vector`; `none`: SSA_FAILURE. -/
noncomputable def calculate (σ : Solver) (functional : Fin 5 → Bool) (voltages : Fin 20 → ℝ) : Option (Fin 3 → ℝ) :=
  let rows := lit functional voltages
  let k := rows.length
  let A : Matrix (Fin k) (Fin 3) ℝ := Matrix.of fun r => normals (rows.get r)
  let b : Fin k → ℝ := fun r => voltages (rows.get r)
  if k < 4 then none
  else
    let x := σ.back (σ.r k A) ((σ.q k A).transpose.mulVec b)
    let n := Real.sqrt (x 0 ^ 2 + x 1 ^ 2 + x 2 ^ 2)
    some fun i => x i / n

end PAN.SunVec
