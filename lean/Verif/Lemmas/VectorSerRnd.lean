import Verif.Spec.VectorSerRnd
import Verif.Lemmas.VectorSer
import Verif.Lemmas.FloatReal
import Mathlib.Analysis.SpecialFunctions.Trigonometric.DerivHyp
import Mathlib.Analysis.SpecialFunctions.Trigonometric.ArctanDeriv
import Mathlib.Analysis.Calculus.MeanValue
import Mathlib.Analysis.Real.Pi.Bounds
/-!
Error estimates for the serializer of vectors with rounding.
-/
namespace PAN
open Spec BitArray FltSer VecSer
noncomputable section

/-! ### Functions -/

/-- The difference of two cosines against the angles. -/
theorem arccos_prod {a b : ℝ} (ha : |a| ≤ 1) (hb : |b| ≤ 1) :
    |a - b| = 2 * Real.sin ((Real.arccos a + Real.arccos b) / 2) * Real.sin (|Real.arccos a - Real.arccos b| / 2) := by
  have ha' := Real.cos_arccos (abs_le.mp ha).1 (abs_le.mp ha).2
  have hb' := Real.cos_arccos (abs_le.mp hb).1 (abs_le.mp hb).2
  have h1 := Real.arccos_nonneg a
  have h2 := Real.arccos_le_pi a
  have h3 := Real.arccos_nonneg b
  have h4 := Real.arccos_le_pi b
  conv_lhs => rw [← ha', ← hb', Real.cos_sub_cos]
  generalize Real.arccos a = α at *
  generalize Real.arccos b = β at *
  have hs : 0 ≤ Real.sin ((α + β) / 2) := Real.sin_nonneg_of_nonneg_of_le_pi (by linarith) (by linarith)
  rcases le_total β α with h | h
  · have hs' : 0 ≤ Real.sin ((α - β) / 2) := Real.sin_nonneg_of_nonneg_of_le_pi (by linarith) (by linarith)
    rw [abs_of_nonneg (by linarith : 0 ≤ α - β), abs_of_nonpos]
    · ring
    · nlinarith [mul_nonneg hs hs']
  · have hs' : 0 ≤ Real.sin ((β - α) / 2) := Real.sin_nonneg_of_nonneg_of_le_pi (by linarith) (by linarith)
    have e : Real.sin ((α - β) / 2) = -Real.sin ((β - α) / 2) := by rw [← Real.sin_neg]; ring_nf
    rw [abs_of_nonpos (by linarith : α - β ≤ 0), neg_sub, e, abs_of_nonneg]
    · ring
    · nlinarith [mul_nonneg hs hs']

/-- The arc cosine is Hölder continuous. -/
theorem arccos_holder {a b : ℝ} (ha : |a| ≤ 1) (hb : |b| ≤ 1) :
    2 * (|Real.arccos a - Real.arccos b| / Real.pi) ^ 2 ≤ |a - b| := by
  have hp := arccos_prod ha hb
  have h1 := Real.arccos_nonneg a
  have h2 := Real.arccos_le_pi a
  have h3 := Real.arccos_nonneg b
  have h4 := Real.arccos_le_pi b
  generalize Real.arccos a = α at *
  generalize Real.arccos b = β at *
  have hpi := Real.pi_pos
  have hd0 : 0 ≤ |α - β| := abs_nonneg _
  have hdpi : |α - β| ≤ Real.pi := by rw [abs_le]; constructor <;> linarith
  have hj : 2 / Real.pi * (|α - β| / 2) ≤ Real.sin (|α - β| / 2) := Real.mul_le_sin (by linarith) (by linarith)
  have hm : Real.sin (|α - β| / 2) ≤ Real.sin ((α + β) / 2) := by
    have g1 : |α - β| / 2 ≤ (α + β) / 2 := by
      have : |α - β| ≤ α + β := by rw [abs_le]; constructor <;> linarith
      linarith
    rcases le_total ((α + β) / 2) (Real.pi / 2) with h | h
    · exact Real.sin_le_sin_of_le_of_le_pi_div_two (by linarith) h g1
    · rw [← Real.sin_pi_sub ((α + β) / 2)]
      refine Real.sin_le_sin_of_le_of_le_pi_div_two (by linarith) (by linarith) ?_
      have : |α - β| ≤ 2 * Real.pi - (α + β) := by rw [abs_le]; constructor <;> linarith
      linarith
  rw [hp]
  have e : 2 / Real.pi * (|α - β| / 2) = |α - β| / Real.pi := by field_simp
  rw [e] at hj
  have h0 : 0 ≤ |α - β| / Real.pi := by positivity
  nlinarith

/-- Away from the ends it is Lipschitz continuous. -/
theorem arccos_lipschitz {a b : ℝ} (ha : |a| ≤ 1) (hb : |b| ≤ 1) :
    √(1 - b ^ 2) * |Real.arccos a - Real.arccos b| ≤ Real.pi * |a - b| := by
  have hp := arccos_prod ha hb
  have hs := Real.sin_arccos b
  have h1 := Real.arccos_nonneg a
  have h2 := Real.arccos_le_pi a
  have h3 := Real.arccos_nonneg b
  have h4 := Real.arccos_le_pi b
  rw [← hs]
  generalize Real.arccos a = α at *
  generalize Real.arccos b = β at *
  have hpi := Real.pi_pos
  have hd0 : 0 ≤ |α - β| := abs_nonneg _
  have hdpi : |α - β| ≤ Real.pi := by rw [abs_le]; constructor <;> linarith
  have hj : 2 / Real.pi * (|α - β| / 2) ≤ Real.sin (|α - β| / 2) := Real.mul_le_sin (by linarith) (by linarith)
  have e : 2 / Real.pi * (|α - β| / 2) = |α - β| / Real.pi := by field_simp
  rw [e] at hj
  have hα : 0 ≤ Real.sin α := Real.sin_nonneg_of_nonneg_of_le_pi h1 h2
  have hβ : 0 ≤ Real.sin β := Real.sin_nonneg_of_nonneg_of_le_pi h3 h4
  have hmid0 : 0 ≤ Real.sin ((α + β) / 2) := Real.sin_nonneg_of_nonneg_of_le_pi (by linarith) (by linarith)
  have hmid : Real.sin α + Real.sin β ≤ 2 * Real.sin ((α + β) / 2) := by
    rw [Real.sin_add_sin]
    have := Real.cos_le_one ((α - β) / 2)
    nlinarith
  rw [hp]
  have h0 : 0 ≤ |α - β| / Real.pi := by positivity
  have h5 : |α - β| = Real.pi * (|α - β| / Real.pi) := by field_simp
  generalize Real.sin (|α - β| / 2) = S at *
  generalize |α - β| / Real.pi = D at *
  rw [h5]
  have : Real.sin β * D ≤ 2 * Real.sin ((α + β) / 2) * S := by
    calc Real.sin β * D ≤ 2 * Real.sin ((α + β) / 2) * D := mul_le_mul_of_nonneg_right (by linarith) h0
      _ ≤ _ := mul_le_mul_of_nonneg_left hj (by linarith)
  nlinarith

/-- The arc tangent moves by no more than its argument. -/
theorem arctan_lipschitz (a b : ℝ) : |Real.arctan a - Real.arctan b| ≤ |a - b| := by
  have h := Convex.norm_image_sub_le_of_norm_deriv_le (𝕜 := ℝ) (f := Real.arctan) (C := 1) (s := Set.univ) (x := b) (y := a)
    (fun x _ => (Real.differentiable_arctan x)) (fun x _ => by
      rw [Real.deriv_arctan, Real.norm_eq_abs, abs_of_pos (by positivity), div_le_one (by positivity)]
      nlinarith [sq_nonneg x]) convex_univ (Set.mem_univ _) (Set.mem_univ _)
  simpa [Real.norm_eq_abs] using h

/-- It moves by no more than the relative change of its argument. -/
theorem arctan_relative {q e : ℝ} (he : |e| ≤ 1 / 2) : |Real.arctan (q * (1 + e)) - Real.arctan q| ≤ |e| := by
  have hder : ∀ x : ℝ, HasDerivAt (fun t : ℝ => Real.arctan (q * (1 + t))) (1 / (1 + (q * (1 + x)) ^ 2) * q) x := by
    intro x
    have h1 : HasDerivAt (fun t : ℝ => q * (1 + t)) q x := by
      simpa using ((hasDerivAt_id x).const_add 1).const_mul q
    exact h1.arctan
  have h := Convex.norm_image_sub_le_of_norm_hasDerivWithin_le (𝕜 := ℝ) (C := 1) (s := Set.Icc (-1 / 2) (1 / 2)) (x := 0) (y := e)
    (fun x _ => (hder x).hasDerivWithinAt) (fun x hx => by
      obtain ⟨hx1, hx2⟩ := hx
      rw [Real.norm_eq_abs, abs_mul, abs_of_pos (by positivity), one_div, inv_mul_le_iff₀ (by positivity)]
      have h2 : (1 / 2) ^ 2 ≤ (1 + x) ^ 2 := pow_le_pow_left₀ (by norm_num) (by linarith) 2
      have h3 : q ^ 2 * (1 / 2) ^ 2 ≤ q ^ 2 * (1 + x) ^ 2 := mul_le_mul_of_nonneg_left h2 (sq_nonneg q)
      rw [mul_pow]
      nlinarith [sq_abs q, sq_nonneg (|q| / 2 - 1)]) (convex_Icc _ _) ⟨by norm_num, by norm_num⟩
    ⟨by linarith [(abs_le.mp he).1], (abs_le.mp he).2⟩
  simpa [Real.norm_eq_abs] using h

/-! ### The length -/

section
variable {A : FltLib} {u t d : ℝ}

theorem _root_.PAN.Spec.Accurate.range (h : Accurate A u t d) :
    0 ≤ u ∧ u ≤ 1 / 2 ^ 20 ∧ 0 ≤ t ∧ t * 2 ^ 53 ≤ u ∧ 0 ≤ d ∧ d ≤ 1 / 2 ^ 16 :=
  ⟨h.sizes.1, h.sizes.2.1, h.sizes.2.2.1, h.sizes.2.2.2, h.functions.range⟩

theorem acc_zero (h : Accurate A u t d) : A.r 0 = 0 := by
  have := h.ints 0 (by simp); simpa using this

theorem acc_one (h : Accurate A u t d) : A.r 1 = 1 := by
  have := h.ints 1 (by have := h.range.2.1; norm_num at *; linarith); simpa using this

theorem acc_nonneg (h : Accurate A u t d) {x : ℝ} (hx : 0 ≤ x) : 0 ≤ A.r x := by
  have := h.mono 0 x hx; rwa [acc_zero h] at this

/-- The rounded length. -/
theorem norm_err (h : Accurate A u t d) {x y z : ℝ} (hm : 8 * t ≤ u * (x ^ 2 + y ^ 2 + z ^ 2)) :
    |normR A x y z - length3 (x, y, z)| ≤ 8 * u * length3 (x, y, z) := by
  obtain ⟨hu0, hu1, ht0, htu, -, -⟩ := h.range
  obtain ⟨m, hmdef⟩ : ∃ m, m = length3 (x, y, z) := ⟨_, rfl⟩
  have hm0 : 0 ≤ m := by rw [hmdef]; exact Real.sqrt_nonneg _
  have hm2 : m ^ 2 = x ^ 2 + y ^ 2 + z ^ 2 := by rw [hmdef]; unfold length3; rw [Real.sq_sqrt (by positivity)]
  rw [← hmdef]
  rw [← hm2] at hm
  have hu2 : u ≤ 1 / 1000 := hu1.trans (by norm_num)
  obtain ⟨M, hM⟩ : ∃ M, M = m ^ 2 := ⟨_, rfl⟩
  have hM0 : 0 ≤ M := by rw [hM]; positivity
  rw [← hM] at hm hm2
  have htm : t ≤ u * m := by
    rcases le_total m 1 with h1 | h1
    · have : M ≤ m := by rw [hM]; nlinarith
      nlinarith
    · have : t * 1 ≤ t * 2 ^ 53 := mul_le_mul_of_nonneg_left (by norm_num) ht0
      nlinarith
  have hx0 := sq_nonneg x
  have hy0 := sq_nonneg y
  have hz0 := sq_nonneg z
  have ex := h.err (x * x)
  have ey := h.err (y * y)
  have ez := h.err (z * z)
  have ax := acc_nonneg h (mul_self_nonneg x)
  have ay := acc_nonneg h (mul_self_nonneg y)
  have az := acc_nonneg h (mul_self_nonneg z)
  unfold normR
  rw [← sq] at ex ey ez ax ay az
  rw [abs_of_nonneg hx0] at ex
  rw [abs_of_nonneg hy0] at ey
  rw [abs_of_nonneg hz0] at ez
  rw [← sq, ← sq, ← sq]
  generalize A.r (x ^ 2) = a at *
  generalize A.r (y ^ 2) = b at *
  generalize A.r (z ^ 2) = c at *
  have e1 := h.err (a + b)
  have as1 := acc_nonneg h (add_nonneg ax ay)
  rw [abs_of_nonneg (add_nonneg ax ay)] at e1
  generalize A.r (a + b) = s1 at *
  have e2 := h.err (s1 + c)
  have as2 := acc_nonneg h (add_nonneg as1 az)
  rw [abs_of_nonneg (add_nonneg as1 az)] at e2
  generalize A.r (s1 + c) = s2 at *
  rw [abs_le] at ex ey ez e1 e2
  obtain ⟨ex1, ex2⟩ := ex
  obtain ⟨ey1, ey2⟩ := ey
  obtain ⟨ez1, ez2⟩ := ez
  obtain ⟨e11, e12⟩ := e1
  obtain ⟨e21, e22⟩ := e2
  have huM : u * M ≤ 1 / 1000 * M := mul_le_mul_of_nonneg_right hu2 hM0
  have huM0 : 0 ≤ u * M := mul_nonneg hu0 hM0
  have hux : u * x ^ 2 + u * y ^ 2 + u * z ^ 2 = u * M := by rw [hm2]; ring
  have hux0 := mul_nonneg hu0 hx0
  have huy0 := mul_nonneg hu0 hy0
  have huz0 := mul_nonneg hu0 hz0
  have hab : a + b ≤ 11 / 10 * M := by linarith
  have hab' : u * (a + b) ≤ 11 / 10 * (u * M) := by
    have := mul_le_mul_of_nonneg_left hab hu0; linarith
  have hsc : s1 + c ≤ 11 / 10 * M := by linarith
  have hsc' : u * (s1 + c) ≤ 11 / 10 * (u * M) := by
    have := mul_le_mul_of_nonneg_left hsc hu0; linarith
  have hs2 : |s2 - M| ≤ 5 * (u * M) := by rw [abs_le]; constructor <;> linarith
  -- the root
  have hy0' := Real.sqrt_nonneg s2
  have hys := Real.sq_sqrt as2
  generalize √s2 = w at *
  have hw : |w - m| ≤ 5 * (u * m) := by
    rcases hm0.eq_or_lt with hz | hpos
    · have hM' : M = 0 := by rw [hM, ← hz]; ring
      rw [hM'] at hs2
      have : s2 = 0 := by simpa using hs2
      rw [this] at hys
      have : w = 0 := by nlinarith
      rw [this, ← hz]; simp
    · have hprod : |w - m| * (w + m) = |s2 - M| := by
        rw [← hys, hM, show w ^ 2 - m ^ 2 = (w - m) * (w + m) by ring, abs_mul, abs_of_nonneg (by linarith : 0 ≤ w + m)]
      have h1 : |w - m| * m ≤ 5 * (u * m) * m := by
        calc |w - m| * m ≤ |w - m| * (w + m) := mul_le_mul_of_nonneg_left (by linarith) (abs_nonneg _)
          _ ≤ 5 * (u * M) := by rw [hprod]; exact hs2
          _ = _ := by rw [hM]; ring
      exact le_of_mul_le_mul_right h1 hpos
  have e3 := h.err w
  rw [abs_of_nonneg hy0'] at e3
  have hum : u * m ≤ 1 / 1000 * m := mul_le_mul_of_nonneg_right hu2 hm0
  have hum0 : 0 ≤ u * m := mul_nonneg hu0 hm0
  obtain ⟨hw1, hw2⟩ := abs_le.mp hw
  obtain ⟨e31, e32⟩ := abs_le.mp e3
  have hw' : w ≤ 11 / 10 * m := by linarith
  have huw : u * w ≤ 11 / 10 * (u * m) := by
    have := mul_le_mul_of_nonneg_left hw' hu0; linarith
  rw [abs_le]; constructor <;> linarith

/-- The rounded length is not smaller than a component that is not negligible, so that the arc cosine is defined. -/
theorem norm_ge (h : Accurate A u t d) {x y z : ℝ} (hz : A.r z = z) (hm : t ≤ u * z ^ 2) : |z| ≤ normR A x y z := by
  refine (h.sqrt z hz hm).trans (h.mono _ _ (Real.sqrt_le_sqrt ?_))
  have h1 := acc_nonneg h (mul_self_nonneg x)
  have h2 := acc_nonneg h (mul_self_nonneg y)
  have h3 := acc_nonneg h (add_nonneg h1 h2)
  have := h.mono (A.r (z * z)) (A.r (A.r (x * x) + A.r (y * y)) + A.r (z * z)) (by linarith)
  rwa [h.idem] at this

/-- A component of the direction. -/
theorem comp_err (h : Accurate A u t d) {z m n : ℝ} (hm : 0 < m) (hn : |n - m| ≤ 8 * u * m) :
    0 < n ∧ |A.r (z / n) - z / n| ≤ u * |z / n| + t ∧ |z / n - z / m| ≤ 81 / 10 * u * |z / m| := by
  obtain ⟨hu0, hu1, -⟩ := h.range
  have hu2 : u ≤ 1 / 1000 := hu1.trans (by norm_num)
  have hum : u * m ≤ 1 / 1000 * m := mul_le_mul_of_nonneg_right hu2 hm.le
  obtain ⟨h1, h2⟩ := abs_le.mp hn
  have hn0 : 0 < n := by nlinarith
  refine ⟨hn0, h.err _, ?_⟩
  have e : z / n - z / m = (z / m) * ((m - n) / n) := by field_simp
  rw [e, abs_mul, mul_comm]
  refine mul_le_mul_of_nonneg_right ?_ (abs_nonneg _)
  rw [abs_div, abs_of_pos hn0, div_le_iff₀ hn0, abs_sub_comm]
  have : m ≤ 81 / 80 * n := by nlinarith
  nlinarith

/-- The angle to the third axis. -/
theorem theta_err (h : Accurate A u t d) {x y z m n : ℝ} (hmd : m = length3 (x, y, z)) (hm : 0 < m) (hz : A.r z = z)
    (ht : 8 * t ≤ u * m ^ 2) (hn : n = normR A x y z) (hnm : |n - m| ≤ 8 * u * m) :
    |A.r (z / n)| ≤ 1 ∧ ∃ k : ℝ, 0 ≤ k ∧ |A.acos (A.r (z / n)) - Real.arccos (z / m)| ≤ d + k ∧ k ≤ 78 / 10 * √u ∧
      √(x ^ 2 + y ^ 2) * k ≤ 32 * u * m := by
  obtain ⟨hu0, hu1, ht0, htu, -, -⟩ := h.range
  have hu2 : u ≤ 1 / 1000 := hu1.trans (by norm_num)
  have htu' : t ≤ u := by
    have : t * 1 ≤ t * 2 ^ 53 := mul_le_mul_of_nonneg_left (by norm_num) ht0
    linarith
  have hm2 : m ^ 2 = x ^ 2 + y ^ 2 + z ^ 2 := by rw [hmd]; unfold length3; rw [Real.sq_sqrt (by positivity)]
  obtain ⟨hn0, c1, c2⟩ := comp_err h (z := z) hm hnm
  have hzm : |z / m| ≤ 1 := by
    rw [abs_div, abs_of_pos hm, div_le_one hm]
    apply abs_le_of_sq_le_sq _ hm.le
    nlinarith [sq_nonneg x, sq_nonneg y]
  have hum : u * m ≤ 1 / 1000 * m := mul_le_mul_of_nonneg_right hu2 hm.le
  have hzn : |z| ≤ n := by
    rcases le_or_gt |z| (m / 2) with hs | hb
    · have := (abs_le.mp hnm).1; linarith
    · rw [hn]
      apply norm_ge h hz
      have : (m / 2) ^ 2 ≤ z ^ 2 := by rw [← sq_abs z]; exact pow_le_pow_left₀ (by linarith) hb.le 2
      nlinarith
  have hzn' : |z / n| ≤ 1 := by rw [abs_div, abs_of_pos hn0]; exact (div_le_one hn0).mpr hzn
  have hrz : |A.r (z / n)| ≤ 1 := by
    have h1 := h.mono _ _ (abs_le.mp hzn').2
    have h2 := h.mono _ _ (abs_le.mp hzn').1
    rw [acc_one h] at h1
    rw [h.odd, acc_one h] at h2
    exact abs_le.mpr ⟨h2, h1⟩
  have hdiff : |A.r (z / n) - z / m| ≤ 11 * u := by
    have e1 : u * |z / n| ≤ u * 1 := mul_le_mul_of_nonneg_left hzn' hu0
    have e2 : 81 / 10 * u * |z / m| ≤ 81 / 10 * u * 1 := mul_le_mul_of_nonneg_left hzm (by linarith)
    calc |A.r (z / n) - z / m| = |(A.r (z / n) - z / n) + (z / n - z / m)| := by ring_nf
      _ ≤ _ := abs_add_le _ _
      _ ≤ 11 * u := by linarith
  refine ⟨hrz, |Real.arccos (A.r (z / n)) - Real.arccos (z / m)|, abs_nonneg _, ?_, ?_, ?_⟩
  · calc |A.acos (A.r (z / n)) - Real.arccos (z / m)|
        = |(A.acos (A.r (z / n)) - Real.arccos (A.r (z / n))) + (Real.arccos (A.r (z / n)) - Real.arccos (z / m))| := by ring_nf
      _ ≤ _ := abs_add_le _ _
      _ ≤ _ := by have := h.functions.acos _ hrz; linarith
  · have hh := (arccos_holder hrz hzm).trans hdiff
    have hpi := Real.pi_pos
    have hpi2 : Real.pi < 3.15 := Real.pi_lt_d2
    generalize |Real.arccos (A.r (z / n)) - Real.arccos (z / m)| = K at *
    apply le_of_sq_le_sq _ (by positivity)
    rw [mul_pow, Real.sq_sqrt hu0]
    have e : (K / Real.pi) ^ 2 = K ^ 2 / Real.pi ^ 2 := div_pow _ _ _
    rw [e, ← mul_div_assoc, div_le_iff₀ (by positivity)] at hh
    have hpi3 : Real.pi ^ 2 ≤ 3.15 ^ 2 := pow_le_pow_left₀ hpi.le hpi2.le 2
    have := mul_le_mul_of_nonneg_left hpi3 (by linarith : 0 ≤ 11 * u)
    nlinarith
  · have hh := arccos_lipschitz hrz hzm
    have e : √(1 - (z / m) ^ 2) = √(x ^ 2 + y ^ 2) / m := by
      have e1 : 1 - (z / m) ^ 2 = (x ^ 2 + y ^ 2) / m ^ 2 := by field_simp; linarith
      rw [e1, Real.sqrt_div (by positivity), Real.sqrt_sq hm.le]
    rw [e] at hh
    have hpi2 : Real.pi < 3.15 := Real.pi_lt_d2
    have hb : |A.r (z / n) - z / m| ≤ 101 / 10 * u := by
      have e1 : u * |z / n| ≤ u * 1 := mul_le_mul_of_nonneg_left hzn' hu0
      have e2 : 81 / 10 * u * |z / m| ≤ 81 / 10 * u * 1 := mul_le_mul_of_nonneg_left hzm (by linarith)
      calc |A.r (z / n) - z / m| = |(A.r (z / n) - z / n) + (z / n - z / m)| := by ring_nf
        _ ≤ _ := abs_add_le _ _
        _ ≤ 101 / 10 * u := by linarith
    have h3 : Real.pi * |A.r (z / n) - z / m| ≤ 3.15 * (101 / 10 * u) :=
      mul_le_mul hpi2.le hb (abs_nonneg _) (by norm_num)
    have h4 : √(x ^ 2 + y ^ 2) * |Real.arccos (A.r (z / n)) - Real.arccos (z / m)| =
        m * (√(x ^ 2 + y ^ 2) / m * |Real.arccos (A.r (z / n)) - Real.arccos (z / m)|) := by field_simp
    rw [h4]
    nlinarith [mul_le_mul_of_nonneg_left (hh.trans h3) hm.le]

/-- A component that is not negligible keeps its sign. -/
theorem comp_sign (h : Accurate A u t d) {x m n : ℝ} (hm : 0 < m) (hnm : |n - m| ≤ 8 * u * m) (hx : x ≠ 0) (ht : 2 * t * m ≤ u * |x|) :
    t ≤ 6 / 10 * (u * |x / n|) ∧ |A.r (x / n) - x / n| ≤ 2 * u * |x / n| ∧ (0 < A.r (x / n) ↔ 0 < x) ∧ A.r (x / n) ≠ 0 := by
  obtain ⟨hu0, hu1, ht0, htu, -, -⟩ := h.range
  have hu2 : u ≤ 1 / 1000 := hu1.trans (by norm_num)
  obtain ⟨hn0, c1, -⟩ := comp_err h (z := x) hm hnm
  have hum : u * m ≤ 1 / 1000 * m := mul_le_mul_of_nonneg_right hu2 hm.le
  have hn2 := (abs_le.mp hnm).2
  have e : |x / n| = |x| / n := by rw [abs_div, abs_of_pos hn0]
  have htn : t ≤ 6 / 10 * (u * |x / n|) := by
    rw [e, ← mul_div_assoc, ← mul_div_assoc, le_div_iff₀ hn0]
    nlinarith
  have hX0 : x / n ≠ 0 := div_ne_zero hx hn0.ne'
  have hXp : 0 < |x / n| := abs_pos.mpr hX0
  have huX : u * |x / n| ≤ 1 / 1000 * |x / n| := mul_le_mul_of_nonneg_right hu2 hXp.le
  have huX0 := mul_nonneg hu0 hXp.le
  have c2 : |A.r (x / n) - x / n| ≤ 2 * u * |x / n| := by linarith
  have hsx : 0 < x ↔ 0 < x / n := (div_pos_iff_of_pos_right hn0).symm
  rw [hsx]
  refine ⟨htn, c2, ?_, ?_⟩
  · generalize x / n = X at *
    obtain ⟨g1, g2⟩ := abs_le.mp c2
    rcases lt_or_gt_of_ne hX0 with hlt | hgt
    · rw [abs_of_neg hlt] at *
      constructor <;> intro _ <;> linarith
    · rw [abs_of_pos hgt] at *
      exact ⟨fun _ => hgt, fun _ => by linarith⟩
  · intro h0
    rw [h0, zero_sub, abs_neg] at c2
    linarith

/-- The angle in the plane of the first two axes. -/
theorem phi_err (h : Accurate A u t d) {x y m n : ℝ} {nz : Bool} (hm : 0 < m) (hnm : |n - m| ≤ 8 * u * m)
    (hx : (x ≠ 0 ∧ 2 * t * m ≤ u * |x|) ∨ (x = 0 ∧ nz = true ∧ y ≠ 0 ∧ 2 * t * m ≤ u * |y|)) :
    (0 < A.r (x / n) ↔ 0 < x / m) ∧ ∃ ph ph' : ℝ, atanQuot (x / m) (y / m) nz = some ph ∧
      atanQuotR A (A.r (x / n)) (A.r (y / n)) (if x = 0 then nz else decide (x < 0)) = some ph' ∧ |ph' - ph| ≤ 7 * u + d := by
  obtain ⟨hu0, hu1, ht0, htu, -, -⟩ := h.range
  have hu2 : u ≤ 1 / 1000 := hu1.trans (by norm_num)
  have htu' : t ≤ u := by
    have : t * 1 ≤ t * 2 ^ 53 := mul_le_mul_of_nonneg_left (by norm_num) ht0
    linarith
  have hsx : 0 < x / m ↔ 0 < x := div_pos_iff_of_pos_right hm
  have hsy : 0 < y / m ↔ 0 < y := div_pos_iff_of_pos_right hm
  rcases hx with ⟨hx0, hxt⟩ | ⟨rfl, rfl, hy0, hyt⟩
  · obtain ⟨htX, c1, c2, c3⟩ := comp_sign h hm hnm hx0 hxt
    refine ⟨by rw [c2, hsx], ?_⟩
    unfold atanQuot atanQuotR
    rw [if_neg (div_ne_zero hx0 hm.ne'), if_neg c3]
    refine ⟨_, _, rfl, rfl, ?_⟩
    have hq0 : y / m / (x / m) = y / x := by field_simp
    rw [hq0]
    obtain ⟨hn0, cy, -⟩ := comp_err h (z := y) hm hnm
    have hX0 : x / n ≠ 0 := div_ne_zero hx0 hn0.ne'
    have hq : y / x = (y / n) / (x / n) := by field_simp
    generalize hXe : x / n = X at *
    generalize hYe : y / n = Y at *
    generalize hxe : A.r X = xn at *
    generalize hye : A.r Y = yn at *
    rw [hq]
    have hXp : 0 < |X| := abs_pos.mpr hX0
    have huX : u * |X| ≤ 1 / 1000 * |X| := mul_le_mul_of_nonneg_right hu2 hXp.le
    have hxn : 998 / 1000 * |X| ≤ |xn| := by
      have := abs_sub_abs_le_abs_sub X xn
      rw [abs_sub_comm X xn] at this
      linarith
    have hxn0 : 0 < |xn| := by linarith
    have hY : |Y| = |Y / X| * |X| := by rw [← abs_mul]; field_simp
    have hQ0 : 0 ≤ |Y / X| := abs_nonneg _
    -- the quotient before its rounding
    have hd1 : |yn / xn - Y / X| ≤ 31 / 10 * u * |Y / X| + 7 / 10 * u := by
      have e : yn / xn - Y / X = ((yn - Y) - Y / X * (xn - X)) / xn := by
        field_simp; ring
      rw [e, abs_div, div_le_iff₀ hxn0]
      have e1 : |(yn - Y) - Y / X * (xn - X)| ≤ (u * |Y| + t) + |Y / X| * (2 * u * |X|) := by
        refine (abs_sub _ _).trans (add_le_add cy ?_)
        rw [abs_mul]; exact mul_le_mul_of_nonneg_left c1 hQ0
      refine e1.trans ?_
      rw [hY]
      have e2 : 0 ≤ 31 / 10 * u * |Y / X| + 7 / 10 * u := by positivity
      have e3 := mul_le_mul_of_nonneg_left hxn e2
      refine le_trans ?_ e3
      have e4 : 0 ≤ u * |Y / X| * |X| := by positivity
      have e5 : 0 ≤ u * |X| := by positivity
      nlinarith
    have hd2 := h.err (yn / xn)
    have hq1 : |yn / xn| ≤ 11 / 10 * |Y / X| + 1 / 10 := by
      have := abs_sub_abs_le_abs_sub (yn / xn) (Y / X)
      have e1 : u * |Y / X| ≤ 1 / 1000 * |Y / X| := mul_le_mul_of_nonneg_right hu2 hQ0
      linarith
    have hd3 : |A.r (yn / xn) - Y / X| ≤ 5 * u * |Y / X| + 2 * u := by
      have e1 : u * |yn / xn| ≤ u * (11 / 10 * |Y / X| + 1 / 10) := mul_le_mul_of_nonneg_left hq1 hu0
      have e2 : 0 ≤ u * |Y / X| := by positivity
      calc |A.r (yn / xn) - Y / X| = |(A.r (yn / xn) - yn / xn) + (yn / xn - Y / X)| := by ring_nf
        _ ≤ _ := abs_add_le _ _
        _ ≤ _ := by linarith
    have hat : |Real.arctan (A.r (yn / xn)) - Real.arctan (Y / X)| ≤ 7 * u := by
      generalize A.r (yn / xn) = q at *
      generalize Y / X = q0 at *
      rcases le_or_gt |q0| 1 with hs | hb
      · refine (arctan_lipschitz _ _).trans (hd3.trans ?_)
        have : u * |q0| ≤ u * 1 := mul_le_mul_of_nonneg_left hs hu0
        linarith
      · have hq00 : q0 ≠ 0 := by rintro rfl; simp at hb; linarith
        have e : q = q0 * (1 + (q - q0) / q0) := by field_simp; ring
        have hrel : |(q - q0) / q0| ≤ 7 * u := by
          rw [abs_div, div_le_iff₀ (by linarith)]
          have : u * 1 ≤ u * |q0| := mul_le_mul_of_nonneg_left hb.le hu0
          linarith
        rw [e]
        exact (arctan_relative (hrel.trans (by linarith))).trans hrel
    calc |A.atan (A.r (yn / xn)) - Real.arctan (Y / X)|
        = |(A.atan (A.r (yn / xn)) - Real.arctan (A.r (yn / xn))) + (Real.arctan (A.r (yn / xn)) - Real.arctan (Y / X))| := by ring_nf
      _ ≤ _ := abs_add_le _ _
      _ ≤ _ := by have := h.functions.atan (A.r (yn / xn)); linarith
  · obtain ⟨-, -, c2, c3⟩ := comp_sign h hm hnm hy0 hyt
    rw [zero_div, zero_div, acc_zero h, if_pos rfl]
    refine ⟨Iff.rfl, ?_⟩
    unfold atanQuot atanQuotR
    rw [if_pos rfl, if_pos rfl, if_neg (div_ne_zero hy0 hm.ne'), if_neg c3]
    refine ⟨_, _, rfl, rfl, ?_⟩
    have hi := h.functions.atanInf
    by_cases hy : 0 < y
    · simp only [hsy, c2, hy, decide_true, Bool.not_true, Bool.true_eq_false, if_false]
      rw [abs_sub_comm]
      have : -Real.pi / 2 - -A.atanInf = A.atanInf - Real.pi / 2 := by ring
      rw [this]; linarith
    · simp only [hsy, c2, hy, decide_false, Bool.not_true, if_true]
      linarith

/-! ### The coordinates -/

/-- A coordinate is sent, and decoded to a step and its rounding errors, and within its range but for these. -/
theorem componentR (h : Accurate A u t d) {lo hi : ℝ} {n : ℕ} (hlt : lo < hi) (hl : 1 ≤ n) (hl' : n ≤ 53) (hs : 2 ^ n * u ≤ 1 / 16)
    (ht : t * 2 ^ 53 ≤ u * (hi - lo)) (x : ℝ) :
    ∃ s', (FltSer.mk' lo hi n).serialize A.r (.fin x) = some s' ∧ s'.bits.length = n ∧
      ∃ w, ({ FltSer.mk' lo hi n with bits := s'.bits } : FltSer ℝ).deserialize A.r = some w ∧
        |w - nearest lo hi x| ≤ (hi - lo) / (2 ^ n - 1) + 20 * u * (|lo| + |hi|) ∧
        lo - 20 * u * (|lo| + |hi|) ≤ w ∧ w ≤ hi + 20 * u * (|lo| + |hi|) := by
  obtain ⟨hu0, hu1, ht0, htu, -, -⟩ := h.range
  have hlen : (FltSer.mk' lo hi n).bits.length = n := by simp [FltSer.mk']
  have fits : ∀ bits : List Bool, bits.length = n → Fits ⟨A.r, h.mono, u, t, hu0, ht0, h.err⟩ (⟨lo, hi, bits⟩ : FltSer ℝ) := by
    intro bits hb
    refine ⟨hlt, ⟨by simp only; omega, by simp only; omega⟩, ?_, ?_, ?_, ?_⟩
    · intro k hk
      simp only [hb] at hk
      apply h.ints
      have : (k : ℝ) ≤ 2 ^ n := by exact_mod_cast hk
      have := mul_le_mul_of_nonneg_right this hu0
      linarith
    · simp only [hb]; exact hs
    · simp only [hb]
      refine le_trans ?_ ht
      exact mul_le_mul_of_nonneg_left (pow_le_pow_right₀ (by norm_num) hl') ht0
    · simp only
      have : t * 1 ≤ t * 2 ^ 53 := mul_le_mul_of_nonneg_left (by norm_num) ht0
      linarith
  obtain ⟨s', h1, h2, h3, h4, w, h5, h6⟩ := C97_accuracy _ _ (fits (FltSer.mk' lo hi n).bits hlen) x
  rw [hlen] at h4
  have hs' : s' = { FltSer.mk' lo hi n with bits := s'.bits } := by
    cases s'; simp only at h2 h3; subst h2; subst h3; rfl
  obtain ⟨w', h7, h8⟩ := C97_decode _ _ (fits s'.bits h4)
  have hbits : ({ FltSer.mk' lo hi n with bits := s'.bits } : FltSer ℝ) = ⟨lo, hi, s'.bits⟩ := rfl
  rw [hs', hbits] at h5
  dsimp only at h5 h7
  rw [h5] at h7
  cases h7
  refine ⟨s', h1, h4, w, h5, ?_, ?_⟩
  · simp only [step, FltSer.mk'] at h6
    simpa using h6
  · simp only [step, h4] at h8
    have hp : (2 : ℝ) ≤ 2 ^ n := by
      calc (2 : ℝ) = 2 ^ 1 := by norm_num
        _ ≤ _ := pow_le_pow_right₀ (by norm_num) hl
    have hk : (bitsToNat s'.bits : ℝ) ≤ 2 ^ n - 1 := by
      have := bitsToNat_lt s'.bits
      rw [h4] at this
      have h' : (bitsToNat s'.bits : ℝ) + 1 ≤ 2 ^ n := by exact_mod_cast this
      linarith
    have hu' : 0 ≤ (hi - lo) / (2 ^ n - 1) := div_nonneg (by linarith) (by linarith)
    have hk0 : (0 : ℝ) ≤ (bitsToNat s'.bits : ℝ) := Nat.cast_nonneg _
    have g1 := mul_le_mul_of_nonneg_left hk hu'
    have g2 : (hi - lo) / (2 ^ n - 1) * (2 ^ n - 1) = hi - lo := by
      rw [div_mul_cancel₀]; linarith
    have g3 := mul_nonneg hu' hk0
    obtain ⟨g4, g5⟩ := abs_le.mp h8
    constructor <;> linarith
end

end
end PAN
