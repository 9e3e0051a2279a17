import Verif.Model.VectorSer
import Verif.Spec.VectorSer
import Verif.Props.FloatSer
import Mathlib.Analysis.SpecialFunctions.Trigonometric.Bounds
/-!
Lemmas on the serializers of vectors and quaternions.
-/
namespace PAN
open Spec BitArray FltSer
noncomputable section

/-- Exact arithmetic as a rounding. -/
def rndExact : Rnd ℝ where
  r := id
  mono _ _ h := h
  eps := 0
  tiny := 0
  epsPos := le_rfl
  tinyPos := le_rfl
  err x := by simp

/-- Every proper range of 1 to 53 bits suits exact arithmetic. -/
theorem fits_exact {lo hi : ℝ} {bits : List Bool} (h : lo < hi) (hl : 1 ≤ bits.length) (hl' : bits.length ≤ 53) :
    Fits rndExact ⟨lo, hi, bits⟩ where
  lt := h
  len := ⟨hl, hl'⟩
  ints _ _ := rfl
  small := by simp [rndExact]
  normal := by simp [rndExact]
  tiny := le_rfl

/-- A scalar component: it is sent, and decoded to within a step, and within its range. -/
theorem component {lo hi : ℝ} {n : ℕ} (h : lo < hi) (hl : 1 ≤ n) (hl' : n ≤ 53) (x : ℝ) :
    ∃ s', (FltSer.mk' lo hi n).serialize id (.fin x) = some s' ∧ s'.bits.length = n ∧
      ∃ w, ({ FltSer.mk' lo hi n with bits := s'.bits } : FltSer ℝ).deserialize id = some w ∧
        |w - nearest lo hi x| ≤ (hi - lo) / (2 ^ n - 1) ∧ lo ≤ w ∧ w ≤ hi := by
  have hlen : (FltSer.mk' lo hi n).bits.length = n := by simp [FltSer.mk']
  have hf : Fits rndExact (FltSer.mk' lo hi n) := fits_exact h (by simpa using hl) (by simpa using hl')
  obtain ⟨s', h1, h2, h3, h4, w, h5, h6⟩ := C97_accuracy rndExact _ hf x
  rw [hlen] at h4
  have hs' : s' = { FltSer.mk' lo hi n with bits := s'.bits } := by
    cases s'; simp only at h2 h3; subst h2; subst h3; rfl
  have hf' : Fits rndExact ({ FltSer.mk' lo hi n with bits := s'.bits } : FltSer ℝ) := fits_exact h (by omega) (by omega)
  obtain ⟨w', h7, h8⟩ := C97_decode rndExact _ hf'
  rw [hs'] at h5
  rw [h5] at h7
  cases h7
  refine ⟨s', h1, h4, w, h5, ?_, ?_⟩
  · simpa [rndExact, step, FltSer.mk'] using h6
  · have e : w = lo + (hi - lo) / (2 ^ n - 1) * (bitsToNat s'.bits : ℝ) := by
      have h9 := abs_nonpos_iff.mp (h8.trans (by simp [rndExact]))
      have := sub_eq_zero.mp h9
      rw [this]; simp only [step, FltSer.mk', h4]
    have hp : (2 : ℝ) ≤ 2 ^ n := by
      calc (2 : ℝ) = 2 ^ 1 := by norm_num
        _ ≤ _ := pow_le_pow_right₀ (by norm_num) hl
    have hk : (bitsToNat s'.bits : ℝ) ≤ 2 ^ n - 1 := by
      have := bitsToNat_lt s'.bits
      rw [h4] at this
      have h' : (bitsToNat s'.bits : ℝ) + 1 ≤ 2 ^ n := by exact_mod_cast this
      linarith
    have hu : 0 ≤ (hi - lo) / (2 ^ n - 1) := div_nonneg (by linarith) (by linarith)
    have hk0 : (0 : ℝ) ≤ (bitsToNat s'.bits : ℝ) := Nat.cast_nonneg _
    rw [e]
    refine ⟨by linarith [mul_nonneg hu hk0], ?_⟩
    have h1 := mul_le_mul_of_nonneg_left hk hu
    have h2 : (hi - lo) / (2 ^ n - 1) * (2 ^ n - 1) = hi - lo := by
      rw [div_mul_cancel₀]; linarith
    linarith

/-- A scalar component exactly: a value in a step is decoded as the beginning of the step. -/
theorem component_exact {lo hi : ℝ} {n : ℕ} (h : lo < hi) (hl : 1 ≤ n) (hl' : n ≤ 53) {x : ℝ} (h1 : lo ≤ x) (h2 : x ≤ hi) {k : ℕ}
    (hk1 : (hi - lo) / (2 ^ n - 1) * k ≤ x - lo) (hk2 : x - lo < (hi - lo) / (2 ^ n - 1) * (k + 1)) :
    ∃ s', (FltSer.mk' lo hi n).serialize id (.fin x) = some s' ∧ s'.bits.length = n ∧
      ({ FltSer.mk' lo hi n with bits := s'.bits } : FltSer ℝ).deserialize id = some (lo + (hi - lo) / (2 ^ n - 1) * k) := by
  have hp : 2 ≤ 2 ^ n := by
    calc 2 = 2 ^ 1 := rfl
      _ ≤ _ := Nat.pow_le_pow_right (by omega) hl
  have hc : ((2 ^ n - 1 : ℕ) : ℝ) = 2 ^ n - 1 := by push_cast [Nat.cast_sub (by omega : 1 ≤ 2 ^ n)]; ring
  have hpR : (2 : ℝ) ≤ 2 ^ n := by exact_mod_cast hp
  have hlen : (FltSer.mk' lo hi n).bits.length = n := by simp [FltSer.mk']
  have hu : 0 < (hi - lo) / (2 ^ n - 1) := div_pos (by linarith) (by linarith)
  have hun : (hi - lo) / (2 ^ n - 1) * (2 ^ n - 1) = hi - lo := by rw [div_mul_cancel₀]; linarith
  have hres : ∀ bits, FltSer.resolution id ({ FltSer.mk' lo hi n with bits := bits } : FltSer ℝ) (2 ^ n - 1) = (hi - lo) / (2 ^ n - 1) := by
    intro bits; unfold FltSer.resolution; rw [if_pos (by omega)]; simp only [id, hc, FltSer.mk']
  have hq1 : (k : ℝ) ≤ (x - lo) / ((hi - lo) / (2 ^ n - 1)) := by rw [le_div_iff₀ hu]; linarith
  have hq2 : (x - lo) / ((hi - lo) / (2 ^ n - 1)) < k + 1 := by rw [div_lt_iff₀ hu]; linarith
  have hkn : k < 2 ^ n := by
    have : (k : ℝ) * ((hi - lo) / (2 ^ n - 1)) ≤ (2 ^ n - 1) * ((hi - lo) / (2 ^ n - 1)) := by linarith
    have := le_of_mul_le_mul_right this hu
    have h' : (k : ℝ) < 2 ^ n := by linarith
    exact_mod_cast h'
  have h53 : 2 ^ n ≤ 2 ^ 53 := Nat.pow_le_pow_right (by omega) hl'
  have hfl : ⌊(x - lo) / ((hi - lo) / (2 ^ n - 1))⌋.toNat = k := by
    have : ⌊(x - lo) / ((hi - lo) / (2 ^ n - 1))⌋ = (k : ℤ) := by
      rw [Int.floor_eq_iff]; push_cast; exact ⟨hq1, hq2⟩
    rw [this]; rfl
  obtain ⟨bits, hset, hbl, hval⟩ := setUllong_small (FltSer.mk' lo hi n).bits k (by rw [hlen]; exact hkn) (by omega)
  refine ⟨{ FltSer.mk' lo hi n with bits := bits }, ?_, by simp only; rw [hbl, hlen], ?_⟩
  · unfold FltSer.serialize
    rw [hlen, show intervals n = some (2 ^ n - 1) by unfold intervals; rw [if_pos hl']]
    have hcl : (FltSer.mk' lo hi n).clamp (.fin x) = some x := by
      rw [clamp_fin _ h.le]
      unfold nearest; simp only [FltSer.mk']; rw [min_eq_left h2, max_eq_right h1]
    have hr := hres (FltSer.mk' lo hi n).bits
    have hr' : FltSer.resolution id (FltSer.mk' lo hi n) (2 ^ n - 1) = (hi - lo) / (2 ^ n - 1) := hr
    rw [hcl]
    dsimp only
    rw [hr', if_neg hu.ne']
    have hmin : (FltSer.mk' lo hi n).min = lo := rfl
    simp only [id, hmin]
    rw [hfl, hset, if_pos]
    constructor
    · have : (0 : ℝ) ≤ k := Nat.cast_nonneg _
      linarith
    · have : (k : ℝ) + 1 ≤ 2 ^ 53 := by exact_mod_cast (by omega : k + 1 ≤ 2 ^ 53)
      calc _ < _ := hq2
        _ ≤ (2 : ℝ) ^ 53 := this
        _ ≤ _ := by norm_num
  · unfold FltSer.deserialize
    have hbl' : bits.length = n := by rw [hbl, hlen]
    dsimp only
    rw [hbl', show intervals n = some (2 ^ n - 1) by unfold intervals; rw [if_pos hl']]
    dsimp only
    rw [hres, toUllong_eq bits (by omega), hval]
    rfl

/-- The square of the distance of two vectors in polar coordinates. -/
theorem polar_dist (r r' s s' c c' p p' q q' : ℝ) (h1 : s ^ 2 + c ^ 2 = 1) (h2 : s' ^ 2 + c' ^ 2 = 1)
    (h3 : p ^ 2 + q ^ 2 = 1) (h4 : p' ^ 2 + q' ^ 2 = 1) :
    (r' * s' * p' - r * s * p) ^ 2 + (r' * s' * q' - r * s * q) ^ 2 + (r' * c' - r * c) ^ 2 =
      (r' - r) ^ 2 + 2 * (r * r') * ((1 - (c * c' + s * s')) + s * s' * (1 - (p * p' + q * q'))) := by
  have e : (r' * s' * p' - r * s * p) ^ 2 + (r' * s' * q' - r * s * q) ^ 2 + (r' * c' - r * c) ^ 2 =
      r' ^ 2 * (s' ^ 2 * (p' ^ 2 + q' ^ 2) + c' ^ 2) + r ^ 2 * (s ^ 2 * (p ^ 2 + q ^ 2) + c ^ 2) -
        2 * (r * r') * (s * s' * (p * p' + q * q') + c * c') := by ring
  rw [e, h3, h4, mul_one, mul_one, h1, h2]; ring

/-- A vector in polar coordinates moves by no more than its coordinates. -/
theorem polar_bound {r r' θ θ' φ φ' R : ℝ} (hr : |r| ≤ R) (hr' : |r'| ≤ R) :
    (r' * Real.sin θ' * Real.cos φ' - r * Real.sin θ * Real.cos φ) ^ 2 +
      (r' * Real.sin θ' * Real.sin φ' - r * Real.sin θ * Real.sin φ) ^ 2 + (r' * Real.cos θ' - r * Real.cos θ) ^ 2 ≤
      (r' - r) ^ 2 + R ^ 2 * ((θ' - θ) ^ 2 + (φ' - φ) ^ 2) := by
  rw [polar_dist r r' _ _ _ _ _ _ _ _ (Real.sin_sq_add_cos_sq θ) (Real.sin_sq_add_cos_sq θ') (Real.cos_sq_add_sin_sq φ)
    (Real.cos_sq_add_sin_sq φ')]
  have h1 : Real.cos θ * Real.cos θ' + Real.sin θ * Real.sin θ' = Real.cos (θ' - θ) := by rw [Real.cos_sub]; ring
  have h2 : Real.cos φ * Real.cos φ' + Real.sin φ * Real.sin φ' = Real.cos (φ' - φ) := by rw [Real.cos_sub]; ring
  rw [h1, h2]
  have b1 := Real.one_sub_sq_div_two_le_cos (x := θ' - θ)
  have b2 := Real.one_sub_sq_div_two_le_cos (x := φ' - φ)
  have b3 := Real.cos_le_one (φ' - φ)
  have b4 : Real.sin θ * Real.sin θ' ≤ 1 := by
    have h := abs_mul (Real.sin θ) (Real.sin θ')
    have := mul_le_one₀ (Real.abs_sin_le_one θ) (abs_nonneg _) (Real.abs_sin_le_one θ')
    rw [← h] at this
    exact (le_abs_self _).trans this
  have b5 : Real.sin θ * Real.sin θ' * (1 - Real.cos (φ' - φ)) ≤ (φ' - φ) ^ 2 / 2 := by
    have := mul_le_mul_of_nonneg_right b4 (sub_nonneg.mpr b3)
    linarith
  have b6 : (1 - Real.cos (θ' - θ)) + Real.sin θ * Real.sin θ' * (1 - Real.cos (φ' - φ)) ≤ ((θ' - θ) ^ 2 + (φ' - φ) ^ 2) / 2 := by
    linarith
  have b4' : -1 ≤ Real.sin θ * Real.sin θ' := by
    have h := abs_mul (Real.sin θ) (Real.sin θ')
    have := mul_le_one₀ (Real.abs_sin_le_one θ) (abs_nonneg _) (Real.abs_sin_le_one θ')
    rw [← h] at this
    exact (abs_le.mp this).1
  have b5' : -((φ' - φ) ^ 2 / 2) ≤ Real.sin θ * Real.sin θ' * (1 - Real.cos (φ' - φ)) := by
    have := mul_le_mul_of_nonneg_right b4' (sub_nonneg.mpr b3)
    linarith
  have b6' : |(1 - Real.cos (θ' - θ)) + Real.sin θ * Real.sin θ' * (1 - Real.cos (φ' - φ))| ≤ ((θ' - θ) ^ 2 + (φ' - φ) ^ 2) / 2 := by
    refine abs_le.mpr ⟨?_, b6⟩
    have := Real.cos_le_one (θ' - θ)
    have := sq_nonneg (θ' - θ)
    linarith
  have b8 : |r * r'| ≤ R ^ 2 := by
    rw [abs_mul, sq]; exact mul_le_mul hr hr' (abs_nonneg _) ((abs_nonneg _).trans hr)
  have b9 := mul_le_mul b8 b6' (abs_nonneg _) (sq_nonneg R)
  rw [← abs_mul] at b9
  have b10 := (le_abs_self _).trans b9
  nlinarith

namespace VecSer

/-- The ranges of the vector fields: from zero or above, or symmetric around zero. -/
def Range (lo hi : ℝ) (p : ℕ) : Prop := 0 ≤ lo ∨ (-hi ≤ lo ∧ 0 < p ∧ p ≤ 51)

/-- The angles have enough bits for the precision. -/
theorem b2_bound {lo hi : ℝ} {p : ℕ} (h0 : Range lo hi p) (h : lo < hi) :
    (2 ≤ b2 lo hi p ∧ (0 ≤ lo → 2 + p ≤ b2 lo hi p)) ∧ 3 * hi / (hi - lo) * 2 ^ p ≤ 2 ^ b2 lo hi p := by
  have hd : 0 < hi - lo := by linarith
  have ht : 3 / 2 ≤ 3 * hi / (hi - lo) ∧ ((p = 0 ∨ 0 ≤ lo) → 3 ≤ 3 * hi / (hi - lo)) := by
    constructor
    · rw [le_div_iff₀ hd]; rcases h0 with h0 | h0 <;> linarith [h0]
    · intro hp
      have : 0 ≤ lo := by
        rcases hp with hp | hp
        · rcases h0 with h0 | h0
          · exact h0
          · omega
        · exact hp
      rw [le_div_iff₀ hd]; linarith
  unfold b2
  change (2 ≤ (⌈Real.logb 2 (3 * hi / (hi - lo))⌉ + p).toNat ∧ (0 ≤ lo → 2 + p ≤ (⌈Real.logb 2 (3 * hi / (hi - lo))⌉ + p).toNat)) ∧ _ ≤ (2 : ℝ) ^ (⌈Real.logb 2 (3 * hi / (hi - lo))⌉ + (p : ℤ)).toNat
  generalize 3 * hi / (hi - lo) = t at ht
  obtain ⟨ht, ht'⟩ := ht
  have hl : t ≤ (2 : ℝ) ^ (⌈Real.logb 2 t⌉ : ℝ) :=
    (Real.logb_le_iff_le_rpow (by norm_num) (by linarith)).mp (Int.le_ceil _)
  have hc : 1 ≤ ⌈Real.logb 2 t⌉ := by
    by_contra hlt
    have h1 : ⌈Real.logb 2 t⌉ ≤ 0 := by omega
    have h2 : (2 : ℝ) ^ (⌈Real.logb 2 t⌉ : ℝ) ≤ 2 ^ (0 : ℝ) :=
      Real.rpow_le_rpow_of_exponent_le (by norm_num) (by exact_mod_cast h1)
    rw [Real.rpow_zero] at h2
    linarith
  have hc' : (p = 0 ∨ 0 ≤ lo) → 2 ≤ ⌈Real.logb 2 t⌉ := by
    intro hp
    by_contra hlt
    have h1 : ⌈Real.logb 2 t⌉ ≤ 1 := by omega
    have h2 : (2 : ℝ) ^ (⌈Real.logb 2 t⌉ : ℝ) ≤ 2 ^ (1 : ℝ) :=
      Real.rpow_le_rpow_of_exponent_le (by norm_num) (by exact_mod_cast h1)
    rw [Real.rpow_one] at h2
    linarith [ht' hp]
  generalize ⌈Real.logb 2 t⌉ = c at hl hc hc'
  obtain ⟨n, rfl⟩ : ∃ n : ℕ, c = n := ⟨c.toNat, by omega⟩
  have e : ((n : ℤ) + (p : ℤ)).toNat = n + p := by omega
  rw [e, pow_add]
  refine ⟨⟨?_, fun hp => by have := hc' (.inr hp); omega⟩, mul_le_mul_of_nonneg_right ?_ (by positivity)⟩
  · by_cases hp : p = 0
    · have := hc' (.inl hp); omega
    · omega
  rw [← Real.rpow_natCast]
  exact_mod_cast hl

end VecSer
end
end PAN
