import Verif.Lemmas.VectorSer
import Mathlib.Analysis.Real.Pi.Bounds
/-!
C98: vectors are transmitted to their precision.
-/
namespace PAN
open Spec BitArray FltSer VecSer
noncomputable section

theorem nearest_self {lo hi x : ℝ} (h1 : lo ≤ x) (h2 : x ≤ hi) : nearest lo hi x = x := by
  unfold nearest; rw [min_eq_left h2, max_eq_right h1]

/-- What is sent and decoded, in polar coordinates. -/
theorem sent {lo hi : ℝ} {p : ℕ} (h0 : Range lo hi p) (h : lo < hi) (hb : b2 lo hi p ≤ 53) {x y z ph : ℝ} {nz : Bool}
    (hm : length3 (x, y, z) ≠ 0) (hph : atanQuot (x / length3 (x, y, z)) (y / length3 (x, y, z)) nz = some ph) :
    ∃ bits, VecSer.serialize lo hi p (.fin x y z nz) = some bits ∧ bits.length = totalSize lo hi p ∧
      ∃ m' th' ph' : ℝ, VecSer.deserialize lo hi p bits =
          some ((if 0 < x / length3 (x, y, z) then 1 else -1) * m' * Real.sin th' * Real.cos ph',
            (if 0 < x / length3 (x, y, z) then 1 else -1) * m' * Real.sin th' * Real.sin ph', m' * Real.cos th') ∧
        lo ≤ m' ∧ m' ≤ hi ∧ |m' - nearest lo hi (length3 (x, y, z))| ≤ (hi - lo) / (2 ^ b1 p - 1) ∧
        |th' - Real.arccos (z / length3 (x, y, z))| ≤ Real.pi / (2 ^ b2 lo hi p - 1) ∧
        |ph' - ph| ≤ Real.pi / (2 ^ b2 lo hi p - 1) := by
  have hpi := Real.pi_pos
  obtain ⟨⟨hbp, hbp'⟩, -⟩ := b2_bound h0 h
  have hp51 : p ≤ 51 := by
    rcases h0 with h0 | h0
    · have := hbp' h0; omega
    · exact h0.2.2
  have hm' : √(x ^ 2 + y ^ 2 + z ^ 2) = length3 (x, y, z) := rfl
  have hφ : -Real.pi / 2 ≤ ph ∧ ph ≤ Real.pi / 2 := by
    unfold atanQuot at hph
    split at hph
    · split at hph
      · simp at hph
      · simp only [Option.some.injEq] at hph
        split at hph <;> constructor <;> linarith
    · simp only [Option.some.injEq] at hph
      have h1 := Real.neg_pi_div_two_lt_arctan (y / length3 (x, y, z) / (x / length3 (x, y, z)))
      have h2 := Real.arctan_lt_pi_div_two (y / length3 (x, y, z) / (x / length3 (x, y, z)))
      rw [hph] at h1 h2
      constructor <;> linarith
  obtain ⟨a, ha, hal, m', hma, hmb, hmc, hmd⟩ := component (n := b1 p) h (by unfold b1; omega) (by unfold b1; omega)
    (length3 (x, y, z))
  obtain ⟨b, hb', hbl, th', hta, htb, -, -⟩ := component (lo := 0) (n := b2 lo hi p) hpi (by omega) hb
    (Real.arccos (z / length3 (x, y, z)))
  obtain ⟨c, hc, hcl, ph', hpa, hpb, -, -⟩ := component (lo := -Real.pi / 2) (hi := Real.pi / 2) (n := b2 lo hi p)
    (by linarith) (by omega) hb ph
  rw [nearest_self (Real.arccos_nonneg _) (Real.arccos_le_pi _), sub_zero] at htb
  rw [nearest_self hφ.1 hφ.2, show Real.pi / 2 - -Real.pi / 2 = Real.pi by ring] at hpb
  refine ⟨decide (0 < x / length3 (x, y, z)) :: (a.bits ++ b.bits ++ c.bits), ?_, ?_, m', th', ph', ?_, hmc, hmd, hmb, htb, hpb⟩
  · unfold VecSer.serialize
    dsimp only
    rw [hm', if_neg hm, hph]
    dsimp only
    unfold mag theta phi
    rw [ha, hb', hc]
  · simp only [List.length_cons, List.length_append, hal, hbl, hcl, totalSize]; omega
  · unfold VecSer.deserialize
    rw [if_pos (by simp only [List.length_cons, List.length_append, hal, hbl, hcl, totalSize]; omega)]
    dsimp only
    have e1 : (List.drop 1 (decide (0 < x / length3 (x, y, z)) :: (a.bits ++ b.bits ++ c.bits))) = a.bits ++ b.bits ++ c.bits := rfl
    have e2 : List.take (b1 p) (a.bits ++ b.bits ++ c.bits) = a.bits := by
      rw [List.append_assoc]; exact List.take_left' hal
    have e3 : List.drop (b1 p) (a.bits ++ b.bits ++ c.bits) = b.bits ++ c.bits := by
      rw [List.append_assoc]; exact List.drop_left' hal
    have e4 : List.drop (b1 p + b2 lo hi p) (a.bits ++ b.bits ++ c.bits) = c.bits :=
      List.drop_left' (by rw [List.length_append, hal, hbl])
    rw [e1, e2, e3, e4, List.take_left' hbl, List.take_of_length_le hcl.le]
    unfold mag theta phi
    rw [hma, hta, hpa]
    simp only [List.headD_cons, decide_eq_true_eq]

/-- The direction is recovered exactly from exact angles, unless the first component is positive zero. -/
theorem direction {x y z ph m : ℝ} {nz : Bool} (hm : m = length3 (x, y, z)) (hm0 : 0 < m) (hx : x ≠ 0 ∨ (nz = true ∧ y ≠ 0))
    (hph : atanQuot (x / m) (y / m) nz = some ph) :
    (if 0 < x / m then 1 else -1) * Real.sin (Real.arccos (z / m)) * Real.cos ph = x / m ∧
    (if 0 < x / m then 1 else -1) * Real.sin (Real.arccos (z / m)) * Real.sin ph = y / m ∧
    Real.cos (Real.arccos (z / m)) = z / m := by
  have hsq : m ^ 2 = x ^ 2 + y ^ 2 + z ^ 2 := by
    rw [hm]; unfold length3; rw [Real.sq_sqrt (by positivity)]
  generalize hX : x / m = X at *
  generalize hY : y / m = Y at *
  generalize hZ : z / m = Z at *
  have hsum : X ^ 2 + Y ^ 2 + Z ^ 2 = 1 := by
    rw [← hX, ← hY, ← hZ]; field_simp; linarith
  have hx' : X ≠ 0 ∨ (nz = true ∧ Y ≠ 0) := by
    rcases hx with h | ⟨h1, h2⟩
    · left; rw [← hX]; exact div_ne_zero h hm0.ne'
    · right; exact ⟨h1, by rw [← hY]; exact div_ne_zero h2 hm0.ne'⟩
  have hZ1 : -1 ≤ Z ∧ Z ≤ 1 := by constructor <;> nlinarith [sq_nonneg X, sq_nonneg Y]
  have hs : Real.sin (Real.arccos Z) = √(X ^ 2 + Y ^ 2) := by
    rw [Real.sin_arccos]; congr 1; linarith
  rw [hs, Real.cos_arccos hZ1.1 hZ1.2]
  refine ⟨?_, ?_, rfl⟩ <;> unfold atanQuot at hph <;> by_cases hX0 : X = 0
  · subst hX0
    rw [if_pos rfl] at hph
    split at hph
    · simp at hph
    · simp only [Option.some.injEq] at hph
      split at hph <;> rw [← hph]
      · simp
      · simp [neg_div]
  · rw [if_neg hX0, Option.some.injEq] at hph
    have hX2 : 0 < X ^ 2 := by positivity
    have h1 : 1 + (Y / X) ^ 2 = (X ^ 2 + Y ^ 2) / X ^ 2 := by field_simp
    rw [← hph, Real.cos_arctan, h1, Real.sqrt_div (by positivity), Real.sqrt_sq_eq_abs]
    have h2 : 0 < √(X ^ 2 + Y ^ 2) := Real.sqrt_pos.mpr (by positivity)
    rcases lt_or_gt_of_ne hX0 with hlt | hgt
    · rw [if_neg (by linarith), abs_of_neg hlt]; field_simp
    · rw [if_pos hgt, abs_of_pos hgt]; field_simp
  · subst hX0
    rw [if_pos rfl] at hph
    rcases hx' with h' | ⟨hnz, hY0⟩
    · exact absurd rfl h'
    · subst hnz
      rw [if_neg hY0] at hph
      simp only [Option.some.injEq] at hph
      have : √((0 : ℝ) ^ 2 + Y ^ 2) = |Y| := by rw [zero_pow (by norm_num), zero_add, Real.sqrt_sq_eq_abs]
      rw [this, if_neg (lt_irrefl 0)]
      rcases lt_or_gt_of_ne hY0 with hlt | hgt
      · have : ¬ 0 < Y := by linarith
        simp only [this, decide_false, Bool.not_true, if_true] at hph
        rw [← hph, Real.sin_pi_div_two, abs_of_neg hlt]; ring
      · simp only [hgt, decide_true, Bool.not_true, Bool.true_eq_false, if_false] at hph
        rw [← hph, neg_div, Real.sin_neg, Real.sin_pi_div_two, abs_of_pos hgt]; ring
  · rw [if_neg hX0, Option.some.injEq] at hph
    have hX2 : 0 < X ^ 2 := by positivity
    have h1 : 1 + (Y / X) ^ 2 = (X ^ 2 + Y ^ 2) / X ^ 2 := by field_simp
    rw [← hph, Real.sin_arctan, h1, Real.sqrt_div (by positivity), Real.sqrt_sq_eq_abs]
    have h2 : 0 < √(X ^ 2 + Y ^ 2) := Real.sqrt_pos.mpr (by positivity)
    rcases lt_or_gt_of_ne hX0 with hlt | hgt
    · rw [if_neg (by linarith), abs_of_neg hlt]; field_simp
    · rw [if_pos hgt, abs_of_pos hgt]; field_simp

/-- The steps of the coordinates against the precision. -/
theorem precision_bound {lo hi : ℝ} {p : ℕ} (h0 : Range lo hi p) (h : lo < hi) {dr dt dp : ℝ}
    (hr : |dr| ≤ (hi - lo) / (2 ^ b1 p - 1)) (ht : |dt| ≤ Real.pi / (2 ^ b2 lo hi p - 1))
    (hp : |dp| ≤ Real.pi / (2 ^ b2 lo hi p - 1)) :
    dr ^ 2 + hi ^ 2 * (dt ^ 2 + dp ^ 2) ≤ (21 / 10 * ((hi - lo) / 2 ^ p)) ^ 2 := by
  obtain ⟨⟨hb, -⟩, hN⟩ := b2_bound h0 h
  have hN4 : (4 : ℝ) ≤ 2 ^ b2 lo hi p := by
    calc (4 : ℝ) = 2 ^ 2 := by norm_num
      _ ≤ _ := pow_le_pow_right₀ (by norm_num) (by omega)
  have hb1 : (2 : ℝ) ^ b1 p = 4 * 2 ^ p := by unfold b1; rw [pow_add]; norm_num
  have hP : (1 : ℝ) ≤ 2 ^ p := one_le_pow₀ (by norm_num)
  rw [hb1] at hr
  generalize (2 : ℝ) ^ b2 lo hi p = N at *
  generalize (2 : ℝ) ^ p = P at *
  have hD : 0 < hi - lo := by linarith
  have hhi : 0 < hi := by rcases h0 with h0 | h0 <;> linarith [h0]
  have hP0 : 0 < P := by linarith
  have hdx : 0 < (hi - lo) / P := div_pos hD hP0
  -- the magnitude
  have r1 : (hi - lo) / (4 * P - 1) ≤ 1 / 3 * ((hi - lo) / P) := by
    rw [div_le_iff₀ (by linarith)]
    have : 1 / 3 * ((hi - lo) / P) * (4 * P - 1) = (hi - lo) * (4 / 3) - 1 / 3 * ((hi - lo) / P) := by field_simp
    rw [this]
    have : (hi - lo) / P ≤ hi - lo := div_le_self hD.le hP
    linarith
  -- the angles
  have r2 : hi * (Real.pi / (N - 1)) ≤ 7 / 5 * ((hi - lo) / P) := by
    have hN1 : 3 / 4 * N ≤ N - 1 := by linarith
    have hNP : hi * P * 3 ≤ N * (hi - lo) := by
      have := mul_le_mul_of_nonneg_right hN hD.le
      have e : 3 * hi / (hi - lo) * P * (hi - lo) = hi * P * 3 := by field_simp
      rwa [e] at this
    have hpi : Real.pi < 3.15 := Real.pi_lt_d2
    have e1 : hi * (Real.pi / (N - 1)) = hi * Real.pi / (N - 1) := by ring
    rw [e1, div_le_iff₀ (by linarith)]
    have e2 : 7 / 5 * ((hi - lo) / P) * (3 / 4 * N) ≤ 7 / 5 * ((hi - lo) / P) * (N - 1) :=
      mul_le_mul_of_nonneg_left hN1 (by positivity)
    refine le_trans ?_ e2
    have e3 : 7 / 5 * ((hi - lo) / P) * (3 / 4 * N) = 21 / 20 * (N * (hi - lo)) / P := by ring
    rw [e3, le_div_iff₀ hP0]
    have e4 : hi * Real.pi * P ≤ hi * 3.15 * P :=
      mul_le_mul_of_nonneg_right (mul_le_mul_of_nonneg_left hpi.le hhi.le) hP0.le
    linarith
  have hr' := hr.trans r1
  have ht' : hi * |dt| ≤ 7 / 5 * ((hi - lo) / P) := (mul_le_mul_of_nonneg_left ht hhi.le).trans r2
  have hp' : hi * |dp| ≤ 7 / 5 * ((hi - lo) / P) := (mul_le_mul_of_nonneg_left hp hhi.le).trans r2
  generalize (hi - lo) / P = dx at *
  have s1 : dr ^ 2 ≤ (1 / 3 * dx) ^ 2 := by rw [← sq_abs dr]; exact pow_le_pow_left₀ (abs_nonneg _) hr' 2
  have s2 : (hi * |dt|) ^ 2 ≤ (7 / 5 * dx) ^ 2 := pow_le_pow_left₀ (by positivity) ht' 2
  have s3 : (hi * |dp|) ^ 2 ≤ (7 / 5 * dx) ^ 2 := pow_le_pow_left₀ (by positivity) hp' 2
  rw [mul_pow, sq_abs] at s2 s3
  nlinarith [sq_nonneg dx]

/-- C98, except for vectors in the plane of the second and third axis. Every other vector is transmitted, and what the
receiver decodes is the vector, with its length moved into the range, to 2.1 times the documented precision. A vector whose
first component is negative zero is covered, one on the third axis is not.
Missing: positive zero (refuted), the third axis (refuted), the documented precision itself (refuted), rounding
(`C98_rounded_partial`). -/
theorem C98_accuracy_partial (lo hi : ℝ) (p : ℕ) (h0 : Range lo hi p) (h : lo < hi) (hb : b2 lo hi p ≤ 53) (x y z : ℝ) (nz : Bool)
    (hx : x ≠ 0 ∨ (nz = true ∧ y ≠ 0)) :
    ∃ bits, VecSer.serialize lo hi p (.fin x y z nz) = some bits ∧ bits.length = totalSize lo hi p ∧
      ∃ w, VecSer.deserialize lo hi p bits = some w ∧ dist3 w (shell lo hi (x, y, z)) ≤ 21 / 10 * ((hi - lo) / 2 ^ p) := by
  have hm0 : 0 < length3 (x, y, z) := by
    apply Real.sqrt_pos.mpr
    dsimp only
    rcases hx with hx | ⟨-, hy⟩
    · have : 0 < x ^ 2 := by positivity
      nlinarith [sq_nonneg y, sq_nonneg z]
    · have : 0 < y ^ 2 := by positivity
      nlinarith [sq_nonneg x, sq_nonneg z]
  obtain ⟨ph, hph⟩ : ∃ ph, atanQuot (x / length3 (x, y, z)) (y / length3 (x, y, z)) nz = some ph := by
    unfold atanQuot
    rcases hx with hx | ⟨-, hy⟩
    · rw [if_neg (div_ne_zero hx hm0.ne')]; exact ⟨_, rfl⟩
    · split
      · rw [if_neg (div_ne_zero hy hm0.ne')]; exact ⟨_, rfl⟩
      · exact ⟨_, rfl⟩
  obtain ⟨bits, hs, hl, m', th', ph', hd, h1, h2, h3, h4, h5⟩ := sent h0 h hb hm0.ne' hph
  refine ⟨bits, hs, hl, _, hd, ?_⟩
  obtain ⟨d1, d2, d3⟩ := direction rfl hm0 hx hph
  have hc : lo ≤ nearest lo hi (length3 (x, y, z)) ∧ nearest lo hi (length3 (x, y, z)) ≤ hi := nearest_mem h.le _
  have hlo : -hi ≤ lo := by rcases h0 with h0 | h0 <;> linarith [h0]
  have hb1 := polar_bound (θ := Real.arccos (z / length3 (x, y, z))) (θ' := th') (φ := ph) (φ' := ph')
    (abs_le.mpr ⟨hlo.trans hc.1, hc.2⟩) (abs_le.mpr ⟨hlo.trans h1, h2⟩)
  have hb2 := hb1.trans (precision_bound h0 h h3 h4 h5)
  unfold dist3 shell
  dsimp only
  have hdx : 0 ≤ 21 / 10 * ((hi - lo) / 2 ^ p) := by
    have : 0 < hi - lo := by linarith
    positivity
  refine Real.sqrt_le_iff.mpr ⟨hdx, le_trans (le_of_eq ?_) hb2⟩
  dsimp only
  generalize nearest lo hi (length3 (x, y, z)) = c at *
  have hxf : (if 0 < x / length3 (x, y, z) then (1 : ℝ) else -1) ^ 2 = 1 := by split <;> norm_num
  generalize (if 0 < x / length3 (x, y, z) then (1 : ℝ) else -1) = f at *
  have e1 : c / length3 (x, y, z) * x = c * (f * Real.sin (Real.arccos (z / length3 (x, y, z))) * Real.cos ph) := by
    rw [d1]; ring
  have e2 : c / length3 (x, y, z) * y = c * (f * Real.sin (Real.arccos (z / length3 (x, y, z))) * Real.sin ph) := by
    rw [d2]; ring
  have e3 : c / length3 (x, y, z) * z = c * Real.cos (Real.arccos (z / length3 (x, y, z))) := by
    rw [d3]; ring
  rw [e1, e2, e3]
  generalize Real.sin (Real.arccos (z / length3 (x, y, z))) = s
  have g1 : (f * m' * Real.sin th' * Real.cos ph' - c * (f * s * Real.cos ph)) ^ 2 =
      f ^ 2 * (m' * Real.sin th' * Real.cos ph' - c * s * Real.cos ph) ^ 2 := by ring
  have g2 : (f * m' * Real.sin th' * Real.sin ph' - c * (f * s * Real.sin ph)) ^ 2 =
      f ^ 2 * (m' * Real.sin th' * Real.sin ph' - c * s * Real.sin ph) ^ 2 := by ring
  rw [g1, g2, hxf, one_mul, one_mul]

/-- The angles of a field of range 0 to something have two bits more than the precision. -/
theorem b2_zero {hi : ℝ} (h : 0 < hi) (p : ℕ) : b2 0 hi p = 2 + p := by
  have e : 3 * hi / (hi - 0) = 3 := by rw [sub_zero, mul_div_assoc, div_self h.ne', mul_one]
  unfold b2
  rw [e]
  have hc : ⌈Real.log 3 / Real.log 2⌉ = 2 := by
    change ⌈Real.logb 2 3⌉ = 2
    rw [Int.ceil_eq_iff]
    constructor
    · rw [Real.lt_logb_iff_rpow_lt (by norm_num) (by norm_num)]; norm_num
    · rw [Real.logb_le_iff_le_rpow (by norm_num) (by norm_num)]; norm_num
  rw [hc]; omega

-- the relative position (0 to 2000 m, precision 22): a vector of length 7 is sent in 73 bits and decoded to a millimetre
example : ∃ bits, VecSer.serialize 0 2000 22 (.fin (-2) 3 6 false) = some bits ∧ bits.length = 73 ∧
    ∃ w, VecSer.deserialize 0 2000 22 bits = some w ∧ dist3 w (-2, 3, 6) ≤ 11 / 10000 := by
  obtain ⟨bits, h1, h2, w, h3, h4⟩ := C98_accuracy_partial 0 2000 22 (.inl le_rfl) (by norm_num)
    (by rw [b2_zero (by norm_num)]; norm_num) (-2) 3 6 false (by norm_num)
  refine ⟨bits, h1, by rw [h2, totalSize, b2_zero (by norm_num)]; rfl, w, h3, ?_⟩
  have e : length3 (-2, 3, 6) = 7 := by
    unfold length3
    rw [show ((-2 : ℝ) ^ 2 + 3 ^ 2 + 6 ^ 2) = 7 ^ 2 by norm_num, Real.sqrt_sq (by norm_num)]
  have e2 : shell 0 2000 (-2, 3, 6) = (-2, 3, 6) := by
    unfold shell; rw [e, nearest_self (by norm_num) (by norm_num)]; norm_num
  rw [e2] at h4
  exact h4.trans (by norm_num)

/-! ### Where the claim fails -/

/-- C98. The zero vector cannot be transmitted, nor any other vector on the third axis, nor one with a component that is not
finite: the conversion of an angle to an integer is undefined. -/
theorem C98_counterexample_axis (lo hi : ℝ) (p : ℕ) (z : ℝ) (nz : Bool) :
    VecSer.serialize lo hi p (.fin 0 0 z nz) = none ∧ VecSer.serialize lo hi p .other = none := by
  refine ⟨?_, rfl⟩
  unfold VecSer.serialize
  dsimp only
  split
  · rfl
  · simp [atanQuot]

/-- C98. A vector whose first component is zero is transmitted mirrored: what is sent for (+0, y, z) is what is sent for
(-0, -y, z), so that the receiver decodes (0, -y, z). -/
theorem C98_counterexample_mirrored (lo hi : ℝ) (p : ℕ) (h0 : Range lo hi p) (h : lo < hi) (hb : b2 lo hi p ≤ 53) (y z : ℝ) (hy : y ≠ 0) :
    ∃ bits, VecSer.serialize lo hi p (.fin 0 y z false) = some bits ∧
      ∃ w, VecSer.deserialize lo hi p bits = some w ∧ dist3 w (shell lo hi (0, -y, z)) ≤ 21 / 10 * ((hi - lo) / 2 ^ p) := by
  obtain ⟨bits, h1, -, h2⟩ := C98_accuracy_partial lo hi p h0 h hb 0 (-y) z true (.inr ⟨rfl, neg_ne_zero.mpr hy⟩)
  refine ⟨bits, ?_, h2⟩
  rw [← h1]
  unfold VecSer.serialize
  dsimp only
  rw [neg_sq]
  by_cases hm : √((0 : ℝ) ^ 2 + y ^ 2 + z ^ 2) = 0
  · rw [if_pos hm, if_pos hm]
  · rw [if_neg hm, if_neg hm]
    have hm0 : 0 < √((0 : ℝ) ^ 2 + y ^ 2 + z ^ 2) := lt_of_le_of_ne (Real.sqrt_nonneg _) (Ne.symm hm)
    generalize √((0 : ℝ) ^ 2 + y ^ 2 + z ^ 2) = m at *
    have e : atanQuot (0 / m) (y / m) false = atanQuot (0 / m) (-y / m) true := by
      unfold atanQuot
      rw [zero_div, if_pos rfl, if_pos rfl, if_neg (div_ne_zero hy hm), if_neg (div_ne_zero (neg_ne_zero.mpr hy) hm)]
      have h1 : (0 < y / m) ↔ 0 < y := by constructor <;> intro h' <;> [exact (div_pos_iff_of_pos_right hm0).mp h'; exact div_pos h' hm0]
      have h2 : (0 < -y / m) ↔ y < 0 := by
        constructor <;> intro h'
        · have := (div_pos_iff_of_pos_right hm0).mp h'; linarith
        · exact div_pos (by linarith) hm0
      rcases lt_or_gt_of_ne hy with hlt | hgt
      · simp [h1, h2, hlt, hlt.le]
      · simp [h1, h2, hgt, hgt.le]
    rw [e]

/-- `sin` of a small angle. -/
theorem sin_small {d : ℝ} (h0 : 0 < d) (h1 : d ≤ 1 / 1000) : 999 / 1000 * d ≤ Real.sin d := by
  have h := Real.sin_gt_sub_cube h0
  have h2 : d ^ 3 / 6 ≤ 1 / 1000 * d := by
    have : d ^ 2 ≤ 1 := by nlinarith
    nlinarith
  linarith

/-- C98. The documented precision is not kept: the magnetic field (0 to 0.025, precision 10) has a value within its range that
is decoded as a vector farther away than the precision of 0.025 / 2^10. -/
theorem C98_counterexample_precision :
    ∃ x y z : ℝ, 0 < x ∧ length3 (x, y, z) = 1 / 40 ∧
      ∃ bits, VecSer.serialize 0 (1 / 40) 10 (.fin x y z false) = some bits ∧
        ∃ w, VecSer.deserialize 0 (1 / 40) 10 bits = some w ∧ 1 / 40 / 2 ^ 10 < dist3 w (x, y, z) := by
  have hpi := Real.pi_pos
  have hpi3 := Real.pi_gt_d2
  have hpi4 := Real.pi_lt_d2
  -- the step of the angles, and the angles
  obtain ⟨t, ht⟩ : ∃ t, t = Real.pi / 4095 := ⟨_, rfl⟩
  have ht' : Real.pi = 4095 * t := by rw [ht]; ring
  have ht0 : 0 < t := by rw [ht]; positivity
  have ht1 : t < 1 / 1000 := by rw [ht]; linarith
  have hb : b2 0 (1 / 40) 10 = 12 := b2_zero (by norm_num) 10
  obtain ⟨θ, hθ⟩ : ∃ θ, θ = 2047 * t + 99 / 100 * t := ⟨_, rfl⟩
  obtain ⟨φ, hφ⟩ : ∃ φ, φ = 49 / 100 * t := ⟨_, rfl⟩
  have hsθ : Real.sin θ = Real.cos (49 / 100 * t) := by
    rw [← Real.sin_pi_div_two_sub, show Real.pi / 2 - 49 / 100 * t = Real.pi - θ by rw [ht', hθ]; ring, Real.sin_pi_sub]
  have hcφ0 : 0 < Real.cos φ := Real.cos_pos_of_mem_Ioo ⟨by rw [ht', hφ]; linarith, by rw [ht', hφ]; linarith⟩
  have hcφ := Real.one_sub_sq_div_two_le_cos (x := φ)
  have hcφ' : 999 / 1000 ≤ Real.cos φ := by rw [hφ] at hcφ ⊢; nlinarith
  have hsφ : Real.sin θ = Real.cos φ := by rw [hsθ, hφ]
  have hsθ0 : 0 < Real.sin θ := by rw [hsφ]; exact hcφ0
  have hsq1 := Real.sin_sq_add_cos_sq θ
  have hsq2 := Real.sin_sq_add_cos_sq φ
  have hlen : length3 (1 / 40 * Real.sin θ * Real.cos φ, 1 / 40 * Real.sin θ * Real.sin φ, 1 / 40 * Real.cos θ) = 1 / 40 := by
    unfold length3
    dsimp only
    have : (1 / 40 * Real.sin θ * Real.cos φ) ^ 2 + (1 / 40 * Real.sin θ * Real.sin φ) ^ 2 + (1 / 40 * Real.cos θ) ^ 2 =
        (1 / 40 * 1) ^ 2 := by
      have : (1 / 40 * Real.sin θ * Real.cos φ) ^ 2 + (1 / 40 * Real.sin θ * Real.sin φ) ^ 2 + (1 / 40 * Real.cos θ) ^ 2 =
        (1 / 40) ^ 2 * (Real.sin θ ^ 2 * (Real.sin φ ^ 2 + Real.cos φ ^ 2) + Real.cos θ ^ 2) := by ring
      rw [this, hsq2, mul_one, hsq1]; norm_num
    rw [this, Real.sqrt_sq (by norm_num)]; norm_num
  refine ⟨1 / 40 * Real.sin θ * Real.cos φ, 1 / 40 * Real.sin θ * Real.sin φ, 1 / 40 * Real.cos θ, by positivity, hlen, ?_⟩
  -- what is sent
  have hx0 : 0 < 1 / 40 * Real.sin θ * Real.cos φ / (1 / 40) := by positivity
  have hac : Real.arccos (1 / 40 * Real.cos θ / (1 / 40)) = θ := by
    rw [mul_div_cancel_left₀ _ (by norm_num)]
    exact Real.arccos_cos (by rw [hθ]; linarith) (by rw [ht', hθ]; linarith)
  have hat : atanQuot (1 / 40 * Real.sin θ * Real.cos φ / (1 / 40)) (1 / 40 * Real.sin θ * Real.sin φ / (1 / 40)) false = some φ := by
    unfold atanQuot
    rw [if_neg hx0.ne']
    have : 1 / 40 * Real.sin θ * Real.sin φ / (1 / 40) / (1 / 40 * Real.sin θ * Real.cos φ / (1 / 40)) = Real.tan φ := by
      rw [Real.tan_eq_sin_div_cos]; field_simp
    rw [this, Real.arctan_tan (by rw [ht', hφ]; linarith) (by rw [ht', hφ]; linarith)]
  obtain ⟨a, ha, hal, ha'⟩ := component_exact (lo := (0 : ℝ)) (hi := 1 / 40) (n := 12) (x := 1 / 40) (k := 4095) (by norm_num)
    (by norm_num) (by norm_num) (by norm_num) le_rfl (by norm_num) (by norm_num)
  obtain ⟨b, hb', hbl, hb''⟩ := component_exact (lo := (0 : ℝ)) (hi := Real.pi) (n := 12) (x := θ) (k := 2047) hpi
    (by norm_num) (by norm_num) (by rw [hθ]; linarith) (by rw [ht', hθ]; linarith) (by norm_num; rw [hθ, ht']; linarith)
    (by norm_num; rw [hθ, ht']; linarith)
  obtain ⟨c, hc, hcl, hc'⟩ := component_exact (lo := -Real.pi / 2) (hi := Real.pi / 2) (n := 12) (x := φ) (k := 2047) (by linarith)
    (by norm_num) (by norm_num) (by rw [ht', hφ]; linarith) (by rw [ht', hφ]; linarith) (by norm_num; rw [hφ, ht']; linarith)
    (by norm_num; rw [hφ, ht']; linarith)
  have hbit : (decide (0 < 1 / 40 * Real.sin θ * Real.cos φ / (1 / 40))) = true := decide_eq_true hx0
  refine ⟨true :: (a.bits ++ b.bits ++ c.bits), ?_, ?_⟩
  · unfold VecSer.serialize
    dsimp only
    have hlen' : √((1 / 40 * Real.sin θ * Real.cos φ) ^ 2 + (1 / 40 * Real.sin θ * Real.sin φ) ^ 2 + (1 / 40 * Real.cos θ) ^ 2) = 1 / 40 := hlen
    rw [hlen', if_neg (by norm_num), hat, hac]
    dsimp only
    unfold mag theta phi
    rw [hb, show b1 10 = 12 from rfl, ha, hb', hc, hbit]
  · unfold VecSer.deserialize
    have hts : totalSize 0 (1 / 40) 10 = 37 := by unfold totalSize; rw [hb]; rfl
    rw [hts, if_pos (by simp only [List.length_cons, List.length_append, hal, hbl, hcl])]
    dsimp only
    rw [hb, show b1 10 = 12 from rfl]
    have e1 : (List.drop 1 (true :: (a.bits ++ b.bits ++ c.bits))) = a.bits ++ b.bits ++ c.bits := rfl
    have e2 : List.take 12 (a.bits ++ b.bits ++ c.bits) = a.bits := by
      rw [List.append_assoc]; exact List.take_left' hal
    have e3 : List.drop 12 (a.bits ++ b.bits ++ c.bits) = b.bits ++ c.bits := by
      rw [List.append_assoc]; exact List.drop_left' hal
    have e4 : List.drop (12 + 12) (a.bits ++ b.bits ++ c.bits) = c.bits :=
      List.drop_left' (by rw [List.length_append, hal, hbl])
    rw [e1, e2, e3, e4, List.take_left' hbl, List.take_of_length_le hcl.le]
    unfold mag theta phi
    rw [hb, show b1 10 = 12 from rfl, ha', hb'', hc']
    dsimp only
    refine ⟨_, rfl, ?_⟩
    -- the distance
    have f1 : (0 : ℝ) + (1 / 40 - 0) / (2 ^ 12 - 1) * ((4095 : ℕ) : ℝ) = 1 / 40 := by norm_num
    have f2 : 0 + (Real.pi - 0) / (2 ^ 12 - 1) * ((2047 : ℕ) : ℝ) = 2047 * t := by rw [ht']; push_cast; ring
    have f3 : -Real.pi / 2 + (Real.pi / 2 - -Real.pi / 2) / (2 ^ 12 - 1) * ((2047 : ℕ) : ℝ) = -(t / 2) := by rw [ht']; push_cast; ring
    rw [f1, f2, f3]
    simp only [List.headD_cons, if_true]
    unfold dist3 length3
    dsimp only
    apply Real.lt_sqrt_of_sq_lt
    have hsm : Real.sin (2047 * t) = Real.cos (t / 2) := by
      rw [← Real.sin_pi_div_two_sub, show Real.pi / 2 - t / 2 = 2047 * t by rw [ht']; ring]
    have hsm' : 999 / 1000 ≤ Real.sin (2047 * t) := by
      rw [hsm]
      have := Real.one_sub_sq_div_two_le_cos (x := t / 2)
      nlinarith
    have hsθ' : 999 / 1000 ≤ Real.sin θ := by rw [hsφ]; exact hcφ'
    have hd := polar_dist (1 / 40) (1 / 40) _ _ _ _ _ _ _ _ (Real.sin_sq_add_cos_sq θ) (Real.sin_sq_add_cos_sq (2047 * t))
      (Real.cos_sq_add_sin_sq φ) (Real.cos_sq_add_sin_sq (-(t / 2)))
    have g1 : Real.cos θ * Real.cos (2047 * t) + Real.sin θ * Real.sin (2047 * t) = 1 - 2 * Real.sin (99 / 200 * t) ^ 2 := by
      rw [← Real.cos_sub, show θ - 2047 * t = 2 * (99 / 200 * t) by rw [hθ]; ring, Real.cos_two_mul,
        ← Real.sin_sq_add_cos_sq (99 / 200 * t)]
      ring
    have g2 : Real.cos φ * Real.cos (-(t / 2)) + Real.sin φ * Real.sin (-(t / 2)) = 1 - 2 * Real.sin (99 / 200 * t) ^ 2 := by
      rw [← Real.cos_sub, show φ - -(t / 2) = 2 * (99 / 200 * t) by rw [hφ]; ring, Real.cos_two_mul,
        ← Real.sin_sq_add_cos_sq (99 / 200 * t)]
      ring
    rw [g1, g2] at hd
    have hs := sin_small (d := 99 / 200 * t) (by linarith) (by linarith)
    have hss : (999 / 1000 * (99 / 200 * t)) ^ 2 ≤ Real.sin (99 / 200 * t) ^ 2 := pow_le_pow_left₀ (by positivity) hs 2
    have hpp : (999 / 1000) * (999 / 1000) ≤ Real.sin θ * Real.sin (2047 * t) := by
      apply mul_le_mul hsθ' hsm' (by norm_num) (by linarith)
    have htlow : 3.14 / 4095 ≤ t := by rw [ht]; apply div_le_div_of_nonneg_right hpi3.le (by norm_num)
    generalize Real.sin (99 / 200 * t) ^ 2 = S at *
    have hmul : 999 / 1000 * (999 / 1000) * (1 - (1 - 2 * S)) ≤ Real.sin θ * Real.sin (2047 * t) * (1 - (1 - 2 * S)) := by
      apply mul_le_mul_of_nonneg_right hpp
      have : 0 ≤ (999 / 1000 * (99 / 200 * t)) ^ 2 := by positivity
      linarith
    have ht2 : (3.14 / 4095) ^ 2 ≤ t ^ 2 := pow_le_pow_left₀ (by norm_num) htlow 2
    have hgoal : (1 / 40 / 2 ^ 10 : ℝ) ^ 2 <
        (1 / 40 - 1 / 40) ^ 2 + 2 * (1 / 40 * (1 / 40)) * ((1 - (1 - 2 * S)) + Real.sin θ * Real.sin (2047 * t) * (1 - (1 - 2 * S))) := by
      nlinarith
    rw [← hd] at hgoal
    refine hgoal.trans_eq ?_
    ring

end
end PAN
