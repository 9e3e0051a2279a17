import Verif.Model.FloatSer
import Verif.Spec.FloatSer
import Verif.Lemmas.BitArray
import Mathlib.Tactic.Linarith
import Mathlib.Tactic.Positivity
import Mathlib.Tactic.FieldSimp
import Mathlib.Tactic.Ring
import Mathlib.Tactic.NormNum
/-!
Helper lemmas for `Props/FloatSer.lean`.
-/
namespace PAN
namespace FltSer
open Spec BitArray
variable {K : Type} [Field K] [LinearOrder K] [IsStrictOrderedRing K] [FloorRing K]

omit [Field K] [IsStrictOrderedRing K] [FloorRing K] in
theorem clamp_fin (s : FltSer K) (h : s.min ≤ s.max) (x : K) : s.clamp (.fin x) = some (nearest s.min s.max x) := by
  unfold clamp nearest
  dsimp only
  congr 1
  by_cases h1 : s.max < x
  · rw [if_pos h1, if_neg (not_lt.mpr h), min_eq_right h1.le, max_eq_right h]
  · rw [if_neg h1, min_eq_left (not_lt.mp h1)]
    by_cases h2 : x < s.min
    · rw [if_pos h2, max_eq_left h2.le]
    · rw [if_neg h2, max_eq_right (not_lt.mp h2)]

omit [Field K] [IsStrictOrderedRing K] [FloorRing K] in
theorem clamp_inf (s : FltSer K) (h : s.min ≤ s.max) (b : Bool) :
    s.clamp (.inf b) = some (if b then s.min else s.max) := by
  cases b
  · unfold clamp; dsimp only; rw [if_neg (not_lt.mpr h)]; rfl
  · rfl

omit [Field K] [IsStrictOrderedRing K] [FloorRing K] in
theorem nearest_mem {lo hi : K} (h : lo ≤ hi) (x : K) : lo ≤ nearest lo hi x ∧ nearest lo hi x ≤ hi :=
  ⟨le_max_left _ _, max_le h (min_le_right _ _)⟩

omit [FloorRing K] in
/-- The estimates behind the accuracy theorem, with the quantities of the code as variables: `D` the range, `d` the rounded
range, `n` the number of intervals, `s` the resolution; `U` and `u` are `D / n` and `d / n`. -/
theorem resolution_bound {eps tiny d n s U u : K} (he : 0 ≤ eps) (ht : 0 ≤ tiny) (hU : 0 < U) (hn : 1 ≤ n)
    (he32 : eps ≤ 1 / 32) (hnorm : tiny * (n + 1) ≤ eps * (U * n)) (hdu : d = u * n)
    (hd : |d - U * n| ≤ eps * (U * n) + tiny) (hs : |s - u| ≤ eps * u + tiny) :
    0 < d ∧ u * (1 - 3 * eps) ≤ s ∧ 0 < s ∧ s ≤ U * (1 + 5 * eps) ∧ d ≤ U * n * (1 + 2 * eps) ∧ tiny ≤ eps * U := by
  have hn0 : 0 < n := by linarith
  have htU : tiny ≤ eps * U := by
    have h1 : tiny * n ≤ (eps * U) * n := by nlinarith
    exact le_of_mul_le_mul_right h1 hn0
  have heU : 0 ≤ eps * U := mul_nonneg he hU.le
  have htn : tiny ≤ tiny * n := by nlinarith
  have htnU : tiny ≤ eps * (U * n) := by nlinarith
  obtain ⟨hd1, hd2⟩ := abs_le.mp hd
  obtain ⟨hs1, hs2⟩ := abs_le.mp hs
  have hUn : 0 < U * n := mul_pos hU hn0
  have hdle : d ≤ U * n * (1 + 2 * eps) := by linarith
  have hdge : U * n * (1 - 2 * eps) ≤ d := by linarith
  have huge : U * (1 - 2 * eps) ≤ u := by
    have : U * (1 - 2 * eps) * n ≤ u * n := by rw [← hdu]; linarith
    exact le_of_mul_le_mul_right this hn0
  have hule : u ≤ U * (1 + 2 * eps) := by
    have : u * n ≤ U * (1 + 2 * eps) * n := by rw [← hdu]; linarith
    exact le_of_mul_le_mul_right this hn0
  have hu0 : 0 < u := lt_of_lt_of_le (mul_pos hU (by linarith)) huge
  have hd0 : 0 < d := by rw [hdu]; exact mul_pos hu0 hn0
  have htu : tiny ≤ 2 * (eps * u) := by
    have : eps * (U * (1 - 2 * eps)) ≤ eps * u := mul_le_mul_of_nonneg_left huge he
    have h2 : eps * U * (1 - 2 * eps) ≥ eps * U * (1 / 2) := mul_le_mul_of_nonneg_left (by linarith) heU
    linarith
  have hslow : u * (1 - 3 * eps) ≤ s := by linarith
  refine ⟨hd0, hslow, lt_of_lt_of_le (mul_pos hu0 (by linarith)) hslow, ?_, hdle, htU⟩
  have h1 : u * (1 + eps) ≤ U * (1 + 2 * eps) * (1 + eps) := mul_le_mul_of_nonneg_right hule (by linarith)
  have h2 : U * (1 + 2 * eps) * (1 + eps) + eps * U ≤ U * (1 + 5 * eps) := by
    have : U * (1 + 5 * eps) - (U * (1 + 2 * eps) * (1 + eps) + eps * U) = eps * U * (1 - 2 * eps) := by ring
    have h3 : 0 ≤ eps * U * (1 - 2 * eps) := mul_nonneg heU (by linarith)
    linarith
  linarith

omit [FloorRing K] in
/-- The number of the step stays below the number of steps. -/
theorem quotient_bound {eps tiny d n s u y q : K} (he : 0 ≤ eps) (hn : 1 ≤ n)
    (hsm : (n + 1) * eps ≤ 1 / 16) (hte : tiny ≤ eps) (hdu : d = u * n) (hd0 : 0 < d) (hs0 : 0 < s)
    (hslow : u * (1 - 3 * eps) ≤ s) (hy0 : 0 ≤ y) (hyd : y ≤ d) (hq : |q - y / s| ≤ eps * (y / s) + tiny) :
    -1 < q ∧ q < n + 1 := by
  have e32 : eps ≤ 1 / 32 := by nlinarith
  have hn0 : 0 < n := by linarith
  have hys : y / s ≤ n * (1 + 4 * eps) := by
    rw [div_le_iff₀ hs0]
    have h2 : n * (1 + 4 * eps) * (u * (1 - 3 * eps)) ≤ n * (1 + 4 * eps) * s :=
      mul_le_mul_of_nonneg_left hslow (by positivity)
    have h1 : n * (1 + 4 * eps) * (u * (1 - 3 * eps)) = d + d * (eps * (1 - 12 * eps)) := by rw [hdu]; ring
    have h3 : 0 ≤ d * (eps * (1 - 12 * eps)) := mul_nonneg hd0.le (mul_nonneg he (by linarith))
    linarith
  have hys0 : 0 ≤ y / s := div_nonneg hy0 hs0.le
  obtain ⟨hq1, hq2⟩ := abs_le.mp hq
  constructor
  · have : eps * (y / s) ≤ y / s * (1 / 32) := by
      rw [mul_comm]; exact mul_le_mul_of_nonneg_left e32 hys0
    linarith
  · have h1 : y / s * (1 + eps) ≤ n * (1 + 4 * eps) * (1 + eps) := mul_le_mul_of_nonneg_right hys (by linarith)
    have hne : 0 ≤ n * eps := mul_nonneg hn0.le he
    have h2 : n * (1 + 4 * eps) * (1 + eps) ≤ n + n * eps * 6 := by
      have : n + n * eps * 6 - n * (1 + 4 * eps) * (1 + eps) = n * eps * (1 - 4 * eps) := by ring
      have h3 : 0 ≤ n * eps * (1 - 4 * eps) := mul_nonneg hne (by linarith)
      linarith
    linarith

omit [FloorRing K] in
/-- The decoded number, as a distance from the lower end: `X` the exact one, `k` the number of the step. -/
theorem decode_bound {eps tiny n s U y q k X z : K} (he : 0 ≤ eps) (hU : 0 < U) (hn : 1 ≤ n)
    (he32 : eps ≤ 1 / 32) (hte : tiny ≤ eps) (htU : tiny ≤ eps * U) (hs0 : 0 < s) (hs : s ≤ U * (1 + 5 * eps))
    (hy0 : 0 ≤ y) (hyD : y ≤ U * n * (1 + 2 * eps)) (hyX : |y - X| ≤ eps * (U * n) + tiny)
    (hq : |q - y / s| ≤ eps * (y / s) + tiny) (hk1 : k ≤ q) (hk2 : q < k + 1) (hk0 : 0 ≤ k)
    (hz : |z - s * k| ≤ eps * (s * k) + tiny) :
    |z - X| ≤ U + 16 * eps * (U * n) ∧ |z| ≤ 2 * (U * n) := by
  have hn0 : 0 < n := by linarith
  have hUn : U ≤ U * n := by nlinarith
  have hUn0 : 0 < U * n := mul_pos hU hn0
  have hsU : s ≤ U * (5 / 4) := by nlinarith
  obtain ⟨hq1, hq2⟩ := abs_le.mp hq
  obtain ⟨hy1, hy2⟩ := abs_le.mp hyX
  obtain ⟨hz1, hz2⟩ := abs_le.mp hz
  have hys : y / s * s = y := by field_simp
  have hts : tiny * s ≤ eps * U * (5 / 4) := by
    have : tiny * s ≤ eps * s := mul_le_mul_of_nonneg_right hte hs0.le
    have h2 : eps * s ≤ eps * (U * (5 / 4)) := mul_le_mul_of_nonneg_left hsU he
    linarith
  have hqs1 : q * s ≤ y + eps * y + tiny * s := by
    have : q * s ≤ (y / s + (eps * (y / s) + tiny)) * s := mul_le_mul_of_nonneg_right (by linarith) hs0.le
    have e : (y / s + (eps * (y / s) + tiny)) * s = y / s * s + eps * (y / s * s) + tiny * s := by ring
    rw [e, hys] at this; exact this
  have hqs2 : y - eps * y - tiny * s ≤ q * s := by
    have : (y / s - (eps * (y / s) + tiny)) * s ≤ q * s := mul_le_mul_of_nonneg_right (by linarith) hs0.le
    have e : (y / s - (eps * (y / s) + tiny)) * s = y / s * s - eps * (y / s * s) - tiny * s := by ring
    rw [e, hys] at this; exact this
  have hks1 : s * k ≤ q * s := by rw [mul_comm]; exact mul_le_mul_of_nonneg_right hk1 hs0.le
  have hks2 : q * s ≤ s * k + s := by nlinarith
  have hks0 : 0 ≤ s * k := mul_nonneg hs0.le hk0
  have hey : eps * y ≤ eps * (U * n) * (5 / 4) := by
    have : y ≤ U * n * (5 / 4) := by nlinarith
    have := mul_le_mul_of_nonneg_left this he
    linarith
  have heUn : eps * U ≤ eps * (U * n) := mul_le_mul_of_nonneg_left hUn he
  have heUn0 : 0 ≤ eps * (U * n) := mul_nonneg he hUn0.le
  have hkD : s * k ≤ U * n * (3 / 2) := by
    have h1 : eps * (U * n) ≤ U * n * (1 / 32) := by rw [mul_comm]; exact mul_le_mul_of_nonneg_left he32 hUn0.le
    linarith
  have hek : eps * (s * k) ≤ eps * (U * n) * (3 / 2) := by
    have := mul_le_mul_of_nonneg_left hkD he
    linarith
  have hsU' : s ≤ U + 5 * (eps * (U * n)) := by linarith
  refine ⟨abs_le.mpr ⟨by linarith, by linarith⟩, abs_le.mpr ⟨?_, ?_⟩⟩
  · have h1 : eps * (U * n) ≤ U * n * (1 / 32) := by rw [mul_comm]; exact mul_le_mul_of_nonneg_left he32 hUn0.le
    linarith
  · have h1 : eps * (U * n) ≤ U * n * (1 / 32) := by rw [mul_comm]; exact mul_le_mul_of_nonneg_left he32 hUn0.le
    linarith

end FltSer
end PAN
