import Verif.Model.SunVector
import Verif.Spec.SunVector
import Mathlib.LinearAlgebra.Matrix.Determinant.Basic
import Mathlib.LinearAlgebra.Matrix.ToLinearEquiv
import Mathlib.LinearAlgebra.Matrix.DotProduct
import Mathlib.LinearAlgebra.Matrix.DotProduct
import Mathlib.Analysis.SpecialFunctions.Trigonometric.Bounds
import Mathlib.Analysis.Real.Pi.Bounds
import Mathlib.Tactic.LinearCombination
/-!
C103: the direction of the sun.
-/
namespace PAN
open SunVec

namespace SunVec

/-- The sensors taken into account, in one sweep. -/
theorem lit_eq (functional : Fin 5 → Bool) (voltages : Fin 20 → ℝ) :
    lit functional voltages = (List.finRange 20).filter fun (j : Fin 20) => functional (Spec.faceOf j) && decide (voltages j > 1) := by
  have h : List.finRange 20 = (List.finRange 5).flatMap fun i =>
      (List.finRange 4).map fun (j : Fin 4) => (⟨4 * i.val + j.val, by omega⟩ : Fin 20) := by decide
  rw [h, List.filter_flatMap]
  unfold lit
  congr 1
  funext i
  have e : ∀ j : Fin 4, Spec.faceOf ⟨4 * i.val + j.val, by omega⟩ = i := by
    intro j
    ext
    simp only [Spec.faceOf]
    omega
  simp only [List.filter_map]
  cases hf : functional i
  · simp [Function.comp_def, e, hf]
  · simp [Function.comp_def, e, hf]

theorem mem_lit (functional : Fin 5 → Bool) (voltages : Fin 20 → ℝ) (j : Fin 20) :
    j ∈ lit functional voltages ↔ Spec.counted functional voltages j := by
  rw [lit_eq]
  simp [Spec.counted]

theorem lit_length (functional : Fin 5 → Bool) (voltages : Fin 20 → ℝ) :
    (lit functional voltages).length = {j | Spec.counted functional voltages j}.ncard := by
  have hn : (lit functional voltages).Nodup := by
    rw [lit_eq]
    exact (List.nodup_finRange 20).filter _
  rw [← List.toFinset_card_of_nodup hn, ← Set.ncard_coe_finset]
  congr 1
  ext j
  simp [mem_lit]

theorem inner_eq (u v : Fin 3 → ℝ) : Spec.inner3 u v = ∑ i, u i * v i := by
  rw [Fin.sum_univ_three]
  rfl

theorem diag_ne (R : Matrix (Fin 3) (Fin 3) ℝ) (ht : ∀ i j, j < i → R i j = 0) (hi : ∀ v, R.mulVec v = 0 → v = 0) (i : Fin 3) :
    R i i ≠ 0 := by
  have hdet : R.det ≠ 0 := by
    intro h
    obtain ⟨v, hv, h0⟩ := Matrix.exists_mulVec_eq_zero_iff.mpr h
    exact hv (hi v h0)
  have hd : R.det = R 0 0 * R 1 1 * R 2 2 := by
    rw [Matrix.det_fin_three, ht 1 0 (by decide), ht 2 0 (by decide), ht 2 1 (by decide)]
    ring
  rw [hd] at hdet
  intro h0
  apply hdet
  fin_cases i <;> simp_all

/-- The solution found satisfies the normal equations. -/
theorem normal_equations (σ : Solver) (hσ : σ.Correct) (k : ℕ) (A : Matrix (Fin k) (Fin 3) ℝ) (b : Fin k → ℝ)
    (hA : ∀ v, A.mulVec v = 0 → v = 0) :
    A.transpose.mulVec (A.mulVec (σ.back (σ.r k A) ((σ.q k A).transpose.mulVec b))) = A.transpose.mulVec b := by
  obtain ⟨hf, hq, ht⟩ := hσ.factor k A hA
  generalize σ.q k A = Q at *
  generalize σ.r k A = R at *
  have hi : ∀ v, R.mulVec v = 0 → v = 0 := by
    intro v hv
    apply hA
    rw [hf, ← Matrix.mulVec_mulVec, hv, Matrix.mulVec_zero]
  have hs := hσ.solve R (Q.transpose.mulVec b) ht (diag_ne R ht hi)
  generalize σ.back R (Q.transpose.mulVec b) = x at *
  rw [hf, Matrix.transpose_mul, ← Matrix.mulVec_mulVec, ← Matrix.mulVec_mulVec _ Q R, Matrix.mulVec_mulVec _ Q.transpose Q, hq,
    Matrix.one_mulVec, hs, Matrix.mulVec_mulVec]

/-- The matrix of the problem. -/
noncomputable def matrix (rows : List (Fin 20)) : Matrix (Fin rows.length) (Fin 3) ℝ :=
  Matrix.of fun r => normals (rows.get r)

theorem matrix_mulVec (rows : List (Fin 20)) (v : Fin 3 → ℝ) (r : Fin rows.length) :
    (matrix rows).mulVec v r = Spec.inner3 (normals (rows.get r)) v := by
  rw [inner_eq]
  rfl

theorem matrix_injective (rows : List (Fin 20)) (P : Fin 20 → Prop) (hP : ∀ j, P j → j ∈ rows) (h : Spec.determine normals P)
    (v : Fin 3 → ℝ) (hv : (matrix rows).mulVec v = 0) : v = 0 := by
  apply h
  intro j hj
  obtain ⟨r, hr⟩ := List.mem_iff_get.mp (hP j hj)
  rw [← hr, ← matrix_mulVec, hv]
  rfl

/-- From the normal equations to the system itself, if the system has a solution. -/
theorem exact_solution {k : ℕ} (A : Matrix (Fin k) (Fin 3) ℝ) (x y : Fin 3 → ℝ) (hA : ∀ v, A.mulVec v = 0 → v = 0)
    (h : A.transpose.mulVec (A.mulVec x) = A.transpose.mulVec (A.mulVec y)) : x = y := by
  have hd : A.transpose.mulVec (A.mulVec (x - y)) = 0 := by
    rw [Matrix.mulVec_sub, Matrix.mulVec_sub, h, sub_self]
  have h0 : dotProduct (A.mulVec (x - y)) (A.mulVec (x - y)) = 0 := by
    rw [Matrix.dotProduct_mulVec, ← Matrix.mulVec_transpose, hd, zero_dotProduct]
  have := hA (x - y) (dotProduct_self_eq_zero.mp h0)
  exact sub_eq_zero.mp this

theorem unit_of_ne {k : ℕ} (w : Fin k → ℝ) (hw : w ≠ 0) :
    ∃ (n : ℝ) (u : Fin k → ℝ), n ≠ 0 ∧ dotProduct u u = 1 ∧ w = n • u ∧ u = n⁻¹ • w := by
  have hne : dotProduct w w ≠ 0 := fun h => hw (dotProduct_self_eq_zero.mp h)
  have hpos : 0 < dotProduct w w := lt_of_le_of_ne (Finset.sum_nonneg fun i _ => mul_self_nonneg (w i)) (Ne.symm hne)
  have hs := Real.sqrt_pos.mpr hpos
  refine ⟨Real.sqrt (dotProduct w w), (Real.sqrt (dotProduct w w))⁻¹ • w, hs.ne', ?_, ?_, rfl⟩
  · rw [smul_dotProduct, dotProduct_smul, smul_eq_mul, smul_eq_mul]
    have hq := Real.mul_self_sqrt hpos.le
    field_simp
    linarith
  · rw [smul_smul, mul_inv_cancel₀ hs.ne', one_smul]

/-- Every matrix with independent columns can be factored, so that the assumption about the matrix library can be met. -/
theorem exists_qr {k : ℕ} (A : Matrix (Fin k) (Fin 3) ℝ) (hA : ∀ v, A.mulVec v = 0 → v = 0) :
    ∃ (Q : Matrix (Fin k) (Fin 3) ℝ) (R : Matrix (Fin 3) (Fin 3) ℝ), A = Q * R ∧ Q.transpose * Q = 1 ∧ ∀ i j, j < i → R i j = 0 := by
  let a : Fin 3 → Fin k → ℝ := fun i r => A r i
  have hcomb : ∀ v : Fin 3 → ℝ, v 0 • a 0 + v 1 • a 1 + v 2 • a 2 = 0 → v = 0 := by
    intro v hv
    apply hA
    funext r
    have := congrFun hv r
    simp only [Pi.add_apply, Pi.smul_apply, smul_eq_mul, Pi.zero_apply] at this
    simp only [Matrix.mulVec, dotProduct, Fin.sum_univ_three, Pi.zero_apply]
    linarith
  have h0 : a 0 ≠ 0 := by
    intro h
    have := congrFun (hcomb ![1, 0, 0] (by simp [h])) 0
    simp at this
  obtain ⟨n0, u0, hn0, hu0, e0, i0⟩ := unit_of_ne _ h0
  have h1 : a 1 - dotProduct u0 (a 1) • u0 ≠ 0 := by
    intro h
    have := congrFun (hcomb ![-(dotProduct u0 (a 1) * n0⁻¹), 1, 0] (by
      have h' := sub_eq_zero.mp h
      simp only [Matrix.cons_val_zero, Matrix.cons_val_one, Matrix.cons_val_two, Matrix.head_cons, Matrix.tail_cons, one_smul,
        zero_smul, add_zero]
      rw [neg_smul, mul_smul, ← i0, ← h', neg_add_cancel])) 1
    simp at this
  obtain ⟨n1, u1, hn1, hu1, e1, i1⟩ := unit_of_ne _ h1
  have h01 : dotProduct u0 u1 = 0 := by
    rw [i1, dotProduct_smul, dotProduct_sub, dotProduct_smul, hu0]
    simp
  have h2 : a 2 - dotProduct u0 (a 2) • u0 - dotProduct u1 (a 2) • u1 ≠ 0 := by
    intro h
    have hx : a 2 = dotProduct u0 (a 2) • u0 + dotProduct u1 (a 2) • u1 := by
      rw [sub_sub] at h
      exact sub_eq_zero.mp h
    set p := dotProduct u0 (a 2)
    set q := dotProduct u1 (a 2)
    have hu1' : u1 = n1⁻¹ • a 1 - (n1⁻¹ * dotProduct u0 (a 1) * n0⁻¹) • a 0 := by
      conv_lhs => rw [i1]
      rw [smul_sub, smul_smul, mul_smul (n1⁻¹ * dotProduct u0 (a 1)) n0⁻¹ (a 0), ← i0]
    have := congrFun (hcomb ![-(p * n0⁻¹) + q * (n1⁻¹ * dotProduct u0 (a 1) * n0⁻¹), -(q * n1⁻¹), 1] (by
      simp only [Matrix.cons_val_zero, Matrix.cons_val_one, Matrix.cons_val_two, Matrix.head_cons, Matrix.tail_cons, one_smul]
      conv_lhs => rw [hx, hu1', i0]
      module)) 2
    simp at this
  obtain ⟨n2, u2, hn2, hu2, e2, i2⟩ := unit_of_ne _ h2
  have h10 : dotProduct u1 u0 = 0 := by rw [dotProduct_comm, h01]
  have h02 : dotProduct u0 u2 = 0 := by
    rw [i2, dotProduct_smul, dotProduct_sub, dotProduct_sub, dotProduct_smul, dotProduct_smul, hu0, h01]
    simp
  have h12 : dotProduct u1 u2 = 0 := by
    rw [i2, dotProduct_smul, dotProduct_sub, dotProduct_sub, dotProduct_smul, dotProduct_smul, hu1, h10]
    simp
  have h20 : dotProduct u2 u0 = 0 := by rw [dotProduct_comm, h02]
  have h21 : dotProduct u2 u1 = 0 := by rw [dotProduct_comm, h12]
  refine ⟨Matrix.of fun r i => ![u0, u1, u2] i r,
    !![n0, dotProduct u0 (a 1), dotProduct u0 (a 2); 0, n1, dotProduct u1 (a 2); 0, 0, n2], ?_, ?_, ?_⟩
  · ext r i
    rw [Matrix.mul_apply, Fin.sum_univ_three]
    have e0' := congrFun e0 r
    have e1' := congrFun e1 r
    have e2' := congrFun e2 r
    simp only [Pi.sub_apply, Pi.smul_apply, smul_eq_mul] at e0' e1' e2'
    fin_cases i
    · simpa [a, mul_comm] using e0'
    · simp
      simp only [a] at e1'
      linarith
    · simp
      simp only [a] at e2'
      linarith
  · ext i j
    rw [Matrix.mul_apply]
    have hd : ∑ r, (Matrix.of fun r i => ![u0, u1, u2] i r).transpose i r * (Matrix.of fun r i => ![u0, u1, u2] i r) r j =
        dotProduct (![u0, u1, u2] i) (![u0, u1, u2] j) := rfl
    rw [hd]
    fin_cases i <;> fin_cases j <;> simp [hu0, hu1, hu2, h01, h02, h12, h10, h20, h21]
  · intro i j hij
    fin_cases i <;> fin_cases j <;> simp at hij ⊢

/-- The assumption about the matrix library can be met. -/
theorem correct_solver : ∃ σ : Solver, σ.Correct := by
  classical
  have hex : ∀ k (A : Matrix (Fin k) (Fin 3) ℝ), ∃ p : Matrix (Fin k) (Fin 3) ℝ × Matrix (Fin 3) (Fin 3) ℝ,
      (∀ v, A.mulVec v = 0 → v = 0) → A = p.1 * p.2 ∧ p.1.transpose * p.1 = 1 ∧ ∀ i j, j < i → p.2 i j = 0 := by
    intro k A
    by_cases hA : ∀ v, A.mulVec v = 0 → v = 0
    · obtain ⟨Q, R, h⟩ := exists_qr A hA
      exact ⟨(Q, R), fun _ => h⟩
    · exact ⟨(0, 0), fun h => absurd h hA⟩
  choose p hp using hex
  refine ⟨⟨fun k A => (p k A).1, fun k A => (p k A).2, fun R y =>
    let x2 := y 2 / R 2 2
    let x1 := (y 1 - R 1 2 * x2) / R 1 1
    ![(y 0 - R 0 1 * x1 - R 0 2 * x2) / R 0 0, x1, x2]⟩, fun k A hA => hp k A hA, ?_⟩
  intro R y ht hd
  have h0 := hd 0
  have h1 := hd 1
  have h2 := hd 2
  have t10 := ht 1 0 (by decide)
  have t20 := ht 2 0 (by decide)
  have t21 := ht 2 1 (by decide)
  funext i
  fin_cases i
  · simp [Matrix.mulVec, dotProduct, Fin.sum_univ_three]
    field_simp
    ring
  · simp [Matrix.mulVec, dotProduct, Fin.sum_univ_three, t10]
    field_simp
    ring
  · simp [Matrix.mulVec, dotProduct, Fin.sum_univ_three, t20, t21]
    field_simp

/-- The result, for a solution of the normal equations. -/
theorem calculate_eq (σ : Solver) (hσ : σ.Correct) (functional : Fin 5 → Bool) (voltages : Fin 20 → ℝ)
    (h4 : 4 ≤ (lit functional voltages).length)
    (hd : Spec.determine normals (Spec.counted functional voltages)) :
    ∃ x, (matrix (lit functional voltages)).transpose.mulVec ((matrix (lit functional voltages)).mulVec x) =
        (matrix (lit functional voltages)).transpose.mulVec (fun r => voltages ((lit functional voltages).get r)) ∧
      calculate σ functional voltages = some fun i => x i / Real.sqrt (x 0 ^ 2 + x 1 ^ 2 + x 2 ^ 2) := by
  refine ⟨_, normal_equations σ hσ _ _ _ (matrix_injective _ _ (fun j hj => (mem_lit functional voltages j).mpr hj) hd), ?_⟩
  unfold calculate
  dsimp only
  rw [if_neg (by omega)]
  rfl

theorem misfit_eq (functional : Fin 5 → Bool) (voltages : Fin 20 → ℝ) (x : Fin 3 → ℝ) :
    Spec.misfit normals functional voltages x =
      ∑ r, ((matrix (lit functional voltages)).mulVec x r - voltages ((lit functional voltages).get r)) ^ 2 := by
  have hn : (lit functional voltages).Nodup := by
    rw [lit_eq]
    exact (List.nodup_finRange 20).filter _
  simp only [matrix_mulVec]
  have h1 := Fin.sum_univ_fun_getElem (lit functional voltages) fun j => (Spec.inner3 (normals j) x - voltages j) ^ 2
  simp only [List.get_eq_getElem]
  rw [h1, ← List.sum_toFinset _ hn]
  unfold Spec.misfit
  rw [← Finset.sum_filter]
  congr 1
  ext j
  simp [mem_lit]

theorem least_squares {k : ℕ} (A : Matrix (Fin k) (Fin 3) ℝ) (b : Fin k → ℝ) (x y : Fin 3 → ℝ)
    (h : A.transpose.mulVec (A.mulVec x) = A.transpose.mulVec b) :
    ∑ r, (A.mulVec x r - b r) ^ 2 ≤ ∑ r, (A.mulVec y r - b r) ^ 2 := by
  have hz : A.transpose.mulVec (A.mulVec x - b) = 0 := by rw [Matrix.mulVec_sub, h, sub_self]
  have hc : dotProduct (A.mulVec x - b) (A.mulVec (y - x)) = 0 := by
    rw [Matrix.dotProduct_mulVec, ← Matrix.mulVec_transpose, hz, zero_dotProduct]
  have he : ∑ r, (A.mulVec y r - b r) ^ 2 = ∑ r, (A.mulVec x r - b r) ^ 2 + ∑ r, (A.mulVec (y - x) r) ^ 2 := by
    have : ∑ r, (A.mulVec y r - b r) ^ 2 = ∑ r, (A.mulVec x r - b r) ^ 2 + ∑ r, (A.mulVec (y - x) r) ^ 2 +
        2 * dotProduct (A.mulVec x - b) (A.mulVec (y - x)) := by
      unfold dotProduct
      rw [Finset.mul_sum, ← Finset.sum_add_distrib, ← Finset.sum_add_distrib]
      apply Finset.sum_congr rfl
      intro r _
      rw [Matrix.mulVec_sub]
      simp only [Pi.sub_apply]
      ring
    rw [this, hc]
    ring
  rw [he]
  have : 0 ≤ ∑ r, (A.mulVec (y - x) r) ^ 2 := Finset.sum_nonneg fun r _ => sq_nonneg _
  linarith

theorem normalised (x : Fin 3 → ℝ) (hx : x ≠ 0) : 0 < Real.sqrt (x 0 ^ 2 + x 1 ^ 2 + x 2 ^ 2) ∧
    Spec.unit3 (fun i => x i / Real.sqrt (x 0 ^ 2 + x 1 ^ 2 + x 2 ^ 2)) := by
  have hp : 0 < x 0 ^ 2 + x 1 ^ 2 + x 2 ^ 2 := by
    by_contra hn
    apply hx
    have a0 := sq_nonneg (x 0)
    have a1 := sq_nonneg (x 1)
    have a2 := sq_nonneg (x 2)
    funext i
    fin_cases i
    · exact pow_eq_zero_iff (two_ne_zero) |>.mp (by linarith : x 0 ^ 2 = 0)
    · exact pow_eq_zero_iff (two_ne_zero) |>.mp (by linarith : x 1 ^ 2 = 0)
    · exact pow_eq_zero_iff (two_ne_zero) |>.mp (by linarith : x 2 ^ 2 = 0)
  have hs := Real.sqrt_pos.mpr hp
  refine ⟨hs, ?_⟩
  have hq := Real.sq_sqrt hp.le
  unfold Spec.unit3 Spec.inner3
  field_simp
  linarith

/-- All the sensors of one face determine a direction. -/
theorem face_determines (c s : ℝ) (hc : c ≠ 0) (hs : s ≠ 0) (i : Fin 5) (P : Fin 20 → Prop)
    (hP : ∀ j : Fin 4, P ⟨4 * i.val + j.val, by omega⟩) : Spec.determine (normalsWith c s) P := by
  intro v hv
  have h0 := hv _ (hP 0)
  have h1 := hv _ (hP 1)
  have h2 := hv _ (hP 2)
  have h3 := hv _ (hP 3)
  have hz : (c * v 0 = 0 ∨ s * v 0 = 0) ∧ (c * v 1 = 0 ∨ s * v 1 = 0) ∧ (c * v 2 = 0 ∨ s * v 2 = 0) := by
    fin_cases i <;>
    · simp [Spec.inner3, normalsWith] at h0 h1 h2 h3
      refine ⟨?_, ?_, ?_⟩ <;> first | (left; linarith) | (right; linarith)
  funext k
  obtain ⟨z0, z1, z2⟩ := hz
  fin_cases k
  · rcases z0 with z | z <;> simpa [hc, hs] using z
  · rcases z1 with z | z <;> simpa [hc, hs] using z
  · rcases z2 with z | z <;> simpa [hc, hs] using z

/-- Bounds of the numbers in the code, and of the ones meant. -/
theorem tilt_bounds : 0.4079 < s20 ∧ s20 < 0.4204 ∧ 0.9 < c20 ∧ c20 < 0.9133 ∧
    0.341 < Real.sin (Real.pi / 9) ∧ Real.sin (Real.pi / 9) < 0.34907 ∧ 0.9383 < Real.cos (Real.pi / 9) ∧
    Real.cos (Real.pi / 9) < 0.9400 := by
  have hp1 := Real.pi_gt_d6
  have hp2 := Real.pi_lt_d6
  set d : ℝ := 13 * Real.pi / 2 - 20 with hd
  have hd1 : 0.42034 < d := by rw [hd]; linarith
  have hd2 : d < 0.42036 := by rw [hd]; linarith
  have es : s20 = Real.sin d := by
    unfold s20
    rw [hd, show 13 * Real.pi / 2 - 20 = Real.pi / 2 - 20 + (3 : ℕ) * (2 * Real.pi) by push_cast; ring,
      Real.sin_add_nat_mul_two_pi, Real.sin_pi_div_two_sub]
  have ec : c20 = Real.cos d := by
    unfold c20
    rw [hd, show 13 * Real.pi / 2 - 20 = Real.pi / 2 - 20 + (3 : ℕ) * (2 * Real.pi) by push_cast; ring,
      Real.cos_add_nat_mul_two_pi, Real.cos_pi_div_two_sub]
  have hx1 : 0.349065 < Real.pi / 9 := by linarith
  have hx2 : Real.pi / 9 < 0.349067 := by linarith
  have cb1 := Real.cos_bound (x := d) (by rw [abs_le]; constructor <;> linarith)
  have cb2 := Real.cos_bound (x := Real.pi / 9) (by rw [abs_le]; constructor <;> linarith)
  have sl1 := Real.sin_gt_sub_cube (x := d) (by linarith)
  have su1 := Real.sin_lt (x := d) (by linarith)
  have sl2 := Real.sin_gt_sub_cube (x := Real.pi / 9) (by linarith)
  have su2 := Real.sin_lt (x := Real.pi / 9) (by linarith)
  rw [abs_of_pos (by linarith : (0:ℝ) < d), abs_le] at cb1
  rw [abs_of_pos (by linarith : (0:ℝ) < Real.pi / 9), abs_le] at cb2
  clear_value d
  generalize Real.pi / 9 = x at *
  have d2 : d ^ 2 < 0.17671 := by nlinarith
  have d2' : 0.17668 < d ^ 2 := by nlinarith
  have d3 : d ^ 3 < 0.0743 := by nlinarith
  have d4 : d ^ 4 < 0.0313 := by nlinarith
  have x2 : x ^ 2 < 0.12185 := by nlinarith
  have x2' : 0.12184 < x ^ 2 := by nlinarith
  have x3 : x ^ 3 < 0.04254 := by nlinarith
  have x4 : x ^ 4 < 0.01485 := by nlinarith
  rw [es, ec]
  refine ⟨?_, ?_, ?_, ?_, ?_, ?_, ?_, ?_⟩ <;> linarith

end SunVec

/-- A sun vector is reported exactly if at least four sensors, on converters in service, are above the threshold of one volt. -/
theorem C103_reported (σ : Solver) (functional : Fin 5 → Bool) (voltages : Fin 20 → ℝ) :
    (calculate σ functional voltages).isSome ↔
      4 ≤ {j | Spec.counted functional voltages j}.ncard := by
  rw [← lit_length]
  unfold calculate
  dsimp only
  split_ifs with h
  · simp
    omega
  · simp
    omega

/-- The sun vector reported is the direction that fits the voltages best: if the sensors taken into account determine a direction
there is a vector whose misfit is the least of all, and unless it is zero the sun vector reported is the vector of length one in
its direction. -/
theorem C103_best_fit (σ : Solver) (hσ : σ.Correct) (functional : Fin 5 → Bool) (voltages : Fin 20 → ℝ)
    (h4 : 4 ≤ {j | Spec.counted functional voltages j}.ncard)
    (hd : Spec.determine normals (Spec.counted functional voltages)) :
    ∃ x : Fin 3 → ℝ, (∀ y, Spec.misfit normals functional voltages x ≤ Spec.misfit normals functional voltages y) ∧
      (x ≠ 0 → ∃ u g, calculate σ functional voltages = some u ∧ Spec.unit3 u ∧ 0 < g ∧ ∀ i, x i = g * u i) := by
  rw [← lit_length] at h4
  obtain ⟨x, hx, hc⟩ := calculate_eq σ hσ functional voltages h4 hd
  refine ⟨x, fun y => ?_, fun h0 => ?_⟩
  · rw [misfit_eq, misfit_eq]
    exact least_squares _ _ x y hx
  · obtain ⟨hs, hu⟩ := normalised x h0
    refine ⟨_, _, hc, hu, hs, fun i => ?_⟩
    field_simp

/-- If the voltages of the sensors taken into account are proportional to the cosines of the angles between the sun and the
directions of the sensors in the code, and these sensors determine a direction, then the sun vector reported is the direction of
the sun. -/
theorem C103_direction_partial (σ : Solver) (hσ : σ.Correct) (functional : Fin 5 → Bool) (voltages : Fin 20 → ℝ)
    (h4 : 4 ≤ {j | Spec.counted functional voltages j}.ncard)
    (hd : Spec.determine normals (Spec.counted functional voltages))
    (sun : Fin 3 → ℝ) (hsun : Spec.unit3 sun) (g : ℝ) (hg : 0 < g)
    (hv : ∀ j, Spec.counted functional voltages j → voltages j = g * Spec.inner3 (normals j) sun) :
    calculate σ functional voltages = some sun := by
  rw [← lit_length] at h4
  obtain ⟨x, hx, hc⟩ := calculate_eq σ hσ functional voltages h4 hd
  have hb : (fun r => voltages ((lit functional voltages).get r)) =
      (matrix (lit functional voltages)).mulVec (fun i => g * sun i) := by
    funext r
    rw [matrix_mulVec, hv _ ((mem_lit _ _ _).mp (List.get_mem _ _))]
    unfold Spec.inner3
    ring
  rw [hb] at hx
  have hxs := exact_solution _ _ _ (matrix_injective _ _ (fun j hj => (mem_lit functional voltages j).mpr hj) hd) hx
  rw [hc, hxs]
  unfold Spec.unit3 Spec.inner3 at hsun
  have : Real.sqrt ((g * sun 0) ^ 2 + (g * sun 1) ^ 2 + (g * sun 2) ^ 2) = g := by
    rw [show (g * sun 0) ^ 2 + (g * sun 1) ^ 2 + (g * sun 2) ^ 2 = g ^ 2 * (sun 0 * sun 0 + sun 1 * sun 1 + sun 2 * sun 2) by ring,
      hsun, mul_one, Real.sqrt_sq hg.le]
  dsimp only
  rw [this]
  congr 1
  funext i
  field_simp

/-- The sensors of a face all of whose voltages are above the threshold are enough to determine a direction and to report it. -/
theorem C103_one_face (σ : Solver) (functional : Fin 5 → Bool) (voltages : Fin 20 → ℝ) (i : Fin 5)
    (h : ∀ j, Spec.faceOf j = i → Spec.counted functional voltages j) :
    Spec.determine normals (Spec.counted functional voltages) ∧ (calculate σ functional voltages).isSome := by
  obtain ⟨h1, -, h2, -⟩ := tilt_bounds
  have hf : ∀ j : Fin 4, Spec.faceOf ⟨4 * i.val + j.val, by omega⟩ = i := by
    intro j
    ext
    simp only [Spec.faceOf]
    omega
  refine ⟨face_determines c20 s20 (by linarith) (by linarith) i _ fun j => h _ (hf j), ?_⟩
  rw [C103_reported]
  have : (Set.range fun j : Fin 4 => (⟨4 * i.val + j.val, by omega⟩ : Fin 20)).ncard = 4 := by
    rw [← Set.image_univ, Set.ncard_image_of_injective, Set.ncard_univ, Nat.card_fin]
    intro a b hab
    simp only [Fin.mk.injEq, Nat.add_left_cancel_iff] at hab
    exact Fin.ext hab
  rw [← this]
  apply Set.ncard_le_ncard
  · rintro _ ⟨j, rfl⟩
    exact h _ (hf j)
  · exact Set.toFinite _

/-- The directions the code takes the sensors to look in: those of a face all make the same angle, of less than 30 degrees,
with the normal of the face, in opposite directions in pairs. -/
theorem C103_sensors :
    (∀ j, Spec.unit3 (normals j)) ∧ (∀ j, Real.cos (30 * Real.pi / 180) < Spec.inner3 (normals j) (Spec.faceNormal (Spec.faceOf j))) ∧
    (∀ j k, Spec.inner3 (normals j) (Spec.faceNormal (Spec.faceOf j)) = Spec.inner3 (normals k) (Spec.faceNormal (Spec.faceOf k))) ∧
    (∀ j, ∃ k, Spec.faceOf k = Spec.faceOf j ∧ k ≠ j ∧
      ∀ i, normals j i + normals k i = 2 * Spec.inner3 (normals j) (Spec.faceNormal (Spec.faceOf j)) * Spec.faceNormal (Spec.faceOf j) i) := by
  obtain ⟨a1, a2, a3, a4, -⟩ := tilt_bounds
  have hsc : c20 * c20 + s20 * s20 = 1 := by
    have := Real.sin_sq_add_cos_sq 20
    unfold c20 s20
    linarith
  have hin : ∀ j, Spec.inner3 (normals j) (Spec.faceNormal (Spec.faceOf j)) = c20 := by
    intro j
    fin_cases j <;> simp [Spec.inner3, normals, normalsWith, Spec.faceNormal, Spec.faceOf]
  refine ⟨?_, ?_, fun j k => by rw [hin, hin], ?_⟩
  · intro j
    fin_cases j <;> simp [Spec.unit3, Spec.inner3, normals, normalsWith] <;> linarith
  · intro j
    rw [hin, show 30 * Real.pi / 180 = Real.pi / 6 by ring, Real.cos_pi_div_six]
    have : Real.sqrt 3 < 1.8 := (Real.sqrt_lt' (by norm_num)).mpr (by norm_num)
    linarith
  · intro j
    rw [hin]
    refine ⟨⟨j.val + 1 - 2 * (j.val % 2), by omega⟩, ?_⟩
    fin_cases j <;> refine ⟨by decide, by decide, fun i => ?_⟩ <;> fin_cases i <;>
      simp [normals, normalsWith, Spec.faceNormal, Spec.faceOf] <;> ring

/-- Four sensors above the threshold need not determine a direction, and still a sun vector is reported: two sensors each on
neighbouring faces can look in directions in one plane. -/
theorem C103_counterexample_plane (σ : Solver) : ∃ (functional : Fin 5 → Bool) (voltages : Fin 20 → ℝ),
    (calculate σ functional voltages).isSome ∧ ¬ Spec.determine normals (Spec.counted functional voltages) := by
  refine ⟨fun _ => true, fun j => if j = 0 ∨ j = 1 ∨ j = 16 ∨ j = 17 then 2 else 0, ?_, ?_⟩
  · rw [C103_reported]
    have : {j | Spec.counted (fun _ => true) (fun j : Fin 20 => if j = 0 ∨ j = 1 ∨ j = 16 ∨ j = 17 then (2 : ℝ) else 0) j} =
        (({0, 1, 16, 17} : Finset (Fin 20)) : Set (Fin 20)) := by
      ext j
      simp only [Spec.counted, true_and, Set.mem_ofPred_eq, Finset.coe_insert, Finset.coe_singleton, Set.mem_insert_iff,
        Set.mem_singleton_iff]
      split_ifs with hj
      · simpa using hj
      · norm_num
        simpa using hj
    rw [this, Set.ncard_coe_finset]
    decide
  · intro hd
    have := hd ![0, 1, 0] (by
      intro j hj
      have hj' : j = 0 ∨ j = 1 ∨ j = 16 ∨ j = 17 := by
        by_contra hn
        have := hj.2
        dsimp only at this
        rw [if_neg hn] at this
        norm_num at this
      rcases hj' with rfl | rfl | rfl | rfl <;> simp [Spec.inner3, normals, normalsWith])
    have h1 := congrFun this 1
    simp at h1

/-- An example: the sun right above face 2, at 3 V per unit of light. -/
example : ∃ (σ : Solver) (voltages : Fin 20 → ℝ), σ.Correct ∧
    (∀ j, voltages j = 3 * Spec.inner3 (normals j) ![1, 0, 0]) ∧
    calculate σ (fun _ => true) voltages = some ![1, 0, 0] := by
  obtain ⟨σ, hσ⟩ := correct_solver
  obtain ⟨h1, h2, h3, h4, -⟩ := tilt_bounds
  refine ⟨σ, fun j => 3 * Spec.inner3 (normals j) ![1, 0, 0], hσ, fun _ => rfl, ?_⟩
  have hf := C103_one_face σ (fun _ => true) (fun j => 3 * Spec.inner3 (normals j) ![1, 0, 0]) 0 (by
    intro j hj
    refine ⟨rfl, ?_⟩
    have hj4 : j.val / 4 = 0 := congrArg Fin.val hj
    have : j = 0 ∨ j = 1 ∨ j = 2 ∨ j = 3 := by omega
    rcases this with rfl | rfl | rfl | rfl <;> simp [Spec.inner3, normals, normalsWith] <;> linarith)
  exact C103_direction_partial σ hσ _ _ ((C103_reported σ _ _).mp hf.2) hf.1 _ (by simp [Spec.unit3, Spec.inner3]) 3 (by norm_num)
    fun _ _ => rfl

theorem SunVec.cos_five : 0.9961 < Real.cos (5 * Real.pi / 180) := by
  have h1 := Real.one_sub_sq_div_two_le_cos (x := 5 * Real.pi / 180)
  have hp2 := Real.pi_lt_d4
  have hp3 := Real.pi_pos
  have : (5 * Real.pi / 180) ^ 2 < 0.00762 := by
    have : 5 * Real.pi / 180 < 0.08728 := by linarith
    have h0 : 0 < 5 * Real.pi / 180 := by linarith
    generalize 5 * Real.pi / 180 = x at *
    nlinarith
  linarith

theorem SunVec.ratio_bound (p q : ℝ) (hp1 : 1.0273 < p) (hp2 : p < 1.0446) (hq1 : 0.8 < q) (hq2 : q < 0.8558) :
    1 / 2 * (p + q) ^ 2 < 0.9961 ^ 2 * (p ^ 2 + q ^ 2) := by
  have hd : 0.1715 < p - q := by linarith
  have hd2 : 0.02941 < (p - q) ^ 2 := by nlinarith
  have hpq : p * q < 0.894 := by nlinarith
  have : 0.9961 ^ 2 * (p ^ 2 + q ^ 2) - 1 / 2 * (p + q) ^ 2 = (0.9961 ^ 2 - 1 / 2) * (p - q) ^ 2 - (2 - 2 * 0.9961 ^ 2) * (p * q) := by
    ring
  have h3 : (0 : ℝ) < (0.9961 ^ 2 - 1 / 2) * (p - q) ^ 2 - (2 - 2 * 0.9961 ^ 2) * (p * q) := by linarith
  linarith

/-- The directions of the sensors in the code are not those of sensors tilted by 20 degrees, which the names of the constants
stand for: sine and cosine are exchanged and the angle is taken in radians, which makes about 24 degrees. With sensors tilted by
20 degrees and the converter of face 6 out of service, the sun vector reported can be more than 5 degrees off, though every
voltage is exact. -/
theorem C103_counterexample_tilt (σ : Solver) (hσ : σ.Correct) :
    ∃ (functional : Fin 5 → Bool) (voltages : Fin 20 → ℝ) (sun u : Fin 3 → ℝ), Spec.unit3 sun ∧
      (∀ j, voltages j = max 0 (3 * Spec.inner3 (normalsWith (Real.cos (20 * Real.pi / 180)) (Real.sin (20 * Real.pi / 180)) j) sun)) ∧
      calculate σ functional voltages = some u ∧ Spec.inner3 u sun < Real.cos (5 * Real.pi / 180) := by
  obtain ⟨a1, a2, a3, a4, a5, a6, a7, a8⟩ := tilt_bounds
  rw [show 20 * Real.pi / 180 = Real.pi / 9 by ring]
  generalize Real.sin (Real.pi / 9) = s at *
  generalize Real.cos (Real.pi / 9) = c at *
  obtain ⟨h, hh⟩ : ∃ h : ℝ, h = Real.sqrt 2 / 2 := ⟨_, rfl⟩
  have hq : h ^ 2 = 1 / 2 := by
    rw [hh, div_pow, Real.sq_sqrt (by norm_num)]
    norm_num
  have hpos : 0 < h := by
    rw [hh]
    positivity
  have hl : 0.7071 < h := by nlinarith
  have hu : h < 0.7072 := by nlinarith
  obtain ⟨V, hV⟩ : ∃ V : Fin 20 → ℝ, V = fun j => max 0 (3 * Spec.inner3 (normalsWith c s j) ![h, 0, h]) := ⟨_, rfl⟩
  obtain ⟨F, hF⟩ : ∃ F : Fin 5 → Bool, F = fun i => decide (i ≠ 4) := ⟨_, rfl⟩
  have hcounted : ∀ j, Spec.counted F V j ↔ Spec.faceOf j = 0 := by
    intro j
    have e1 : h * s < 0.25 := by nlinarith
    have e1' : 0 < h * s := by nlinarith
    have e2 : 0.66 < h * c := by nlinarith
    fin_cases j <;> simp [Spec.counted, hF, hV, Spec.faceOf, Spec.inner3, normalsWith] <;>
      first | linarith | (right; linarith)
  have hone := C103_one_face σ F V 0 fun j hj => (hcounted j).mpr hj
  obtain ⟨p, hp⟩ : ∃ p, p = c / c20 := ⟨_, rfl⟩
  obtain ⟨q, hqq⟩ : ∃ q, q = s / s20 := ⟨_, rfl⟩
  have hpc : c20 * p = c := by rw [hp]; field_simp
  have hqs : s20 * q = s := by rw [hqq]; field_simp
  have hp1 : 1.0273 < p := by rw [hp, lt_div_iff₀ (by linarith)]; linarith
  have hp2 : p < 1.0446 := by rw [hp, div_lt_iff₀ (by linarith)]; linarith
  have hq1 : 0.8 < q := by rw [hqq, lt_div_iff₀ (by linarith)]; linarith
  have hq2 : q < 0.8558 := by rw [hqq, div_lt_iff₀ (by linarith)]; linarith
  obtain ⟨N, hN⟩ : ∃ N, N = Real.sqrt (p ^ 2 + q ^ 2) := ⟨_, rfl⟩
  have hN0 : 0 < N := by rw [hN]; apply Real.sqrt_pos.mpr; positivity
  have hNN : N ^ 2 = p ^ 2 + q ^ 2 := by rw [hN, Real.sq_sqrt (by positivity)]
  refine ⟨F, V, ![h, 0, h], ![p / N, 0, q / N], ?_, fun j => by rw [hV], ?_, ?_⟩
  · simp [Spec.unit3, Spec.inner3]
    nlinarith
  · refine C103_direction_partial σ hσ F V ((C103_reported σ F V).mp hone.2) hone.1 ![p / N, 0, q / N] ?_ (3 * h * N)
      (by positivity) ?_
    · simp [Spec.unit3, Spec.inner3]
      field_simp
      linarith
    · intro j hj
      have hj4 : j.val / 4 = 0 := congrArg Fin.val ((hcounted j).mp hj)
      have hj' : j = 0 ∨ j = 1 ∨ j = 2 ∨ j = 3 := by omega
      have hv : V j = 3 * Spec.inner3 (normalsWith c s j) ![h, 0, h] := by
        have := hj.2
        simp only [hV] at this ⊢
        rcases max_choice 0 (3 * Spec.inner3 (normalsWith c s j) ![h, 0, h]) with hm | hm
        · rw [hm] at this
          norm_num at this
        · exact hm
      rw [hv, ← hpc, ← hqs]
      rcases hj' with rfl | rfl | rfl | rfl <;> simp [Spec.inner3, normals, normalsWith] <;> field_simp
  · have hb := SunVec.cos_five
    refine lt_trans ?_ hb
    have e : Spec.inner3 ![p / N, 0, q / N] ![h, 0, h] = h * (p + q) / N := by
      simp [Spec.inner3]
      field_simp
    rw [e, div_lt_iff₀ hN0]
    apply lt_of_pow_lt_pow_left₀ 2 (by positivity)
    rw [mul_pow, mul_pow, hq, hNN]
    exact SunVec.ratio_bound p q hp1 hp2 hq1 hq2

end PAN
