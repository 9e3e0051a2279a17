import Verif.Model.ADCSConv
import Verif.Lemmas.Float32
import Mathlib.Tactic.Linarith
import Mathlib.Tactic.NormNum
import Mathlib.Tactic.FieldSimp
import Mathlib.Tactic.Ring
/-!
Error bounds for the fixed-point conversions of the ADCS bus.
-/
namespace PAN
namespace ADCS

theorem truncZ_nonneg {v : ℚ} (h : 0 ≤ v) : truncZ v = ⌊v⌋ := by rw [truncZ, if_pos h]

theorem truncZ_neg (v : ℚ) : truncZ (-v) = -truncZ v := by
  unfold truncZ
  rcases lt_trichotomy v 0 with h | h | h
  · rw [if_pos (by linarith), if_neg (by linarith), Int.floor_neg]
  · subst h; simp
  · rw [if_neg (by linarith), if_pos h.le, Int.ceil_neg]

theorem truncZ_mono {u v : ℚ} (h : u ≤ v) : truncZ u ≤ truncZ v := by
  unfold truncZ
  split <;> split
  · exact Int.floor_mono h
  · linarith
  · rename_i h1 h2
    have a : ⌈u⌉ ≤ 0 := Int.ceil_le.2 (by push_cast; linarith)
    have b : 0 ≤ ⌊v⌋ := Int.floor_nonneg.2 h2
    omega
  · exact Int.ceil_mono h

/-- Truncation goes towards zero by less than one. -/
theorem truncZ_abs (v : ℚ) : |(truncZ v : ℚ)| ≤ |v| ∧ |v - truncZ v| < 1 := by
  have key : ∀ w : ℚ, 0 ≤ w → |(truncZ w : ℚ)| ≤ |w| ∧ |w - truncZ w| < 1 := by
    intro w h
    rw [truncZ_nonneg h]
    have h1 := Int.floor_le w
    have h2 := Int.lt_floor_add_one w
    have h3 : (0 : ℚ) ≤ ⌊w⌋ := by exact_mod_cast Int.floor_nonneg.2 h
    rw [abs_of_nonneg h3, abs_of_nonneg h, abs_of_nonneg (by linarith)]
    exact ⟨h1, by linarith⟩
  rcases le_total 0 v with h | h
  · exact key v h
  · have := key (-v) (by linarith)
    rw [truncZ_neg] at this
    push_cast at this
    rw [abs_neg, abs_neg, show -v - -(truncZ v : ℚ) = -(v - truncZ v) by ring, abs_neg] at this
    exact this

/-- The float computed by the encoders, before truncation. -/
def enc (N f min max : ℚ) : ℚ := f32 (f32 (N * f32 (f - min)) / f32 (max - min))

theorem enc_nonneg {N f min max : ℚ} (hN : 0 < N) (h1 : min ≤ f) (hm : min < max) : 0 ≤ enc N f min max := by
  refine f32_nonneg (div_nonneg (f32_nonneg (mul_nonneg hN.le (f32_nonneg (by linarith)))) (f32_nonneg (by linarith)))

/-- The encoders compute `N * (f - min) / (max - min)` up to a small error. -/
theorem enc_err {N f min max : ℚ} (hN : 0 < N) (hN' : N ≤ 65535) (h1 : min ≤ f) (h2 : f ≤ max)
    (hD : f32 (max - min) = max - min) (hD' : 1 / 2 ^ 20 ≤ max - min) :
    |enc N f min max - N * (f - min) / (max - min)| ≤ 1 / 80 := by
  unfold enc
  rw [hD]
  set D := max - min with hDd
  have hDp : 0 < D := lt_of_lt_of_le (by norm_num) hD'
  set w := f - min with hw
  have hw0 : 0 ≤ w := by linarith
  have hwD : w ≤ D := by linarith
  have e1 := f32_err_abs w
  have e2 := f32_err_abs (N * f32 w)
  have e3 := f32_err_abs (f32 (N * f32 w) / D)
  have a0 : 0 ≤ f32 w := f32_nonneg hw0
  have b0 : 0 ≤ f32 (N * f32 w) := f32_nonneg (mul_nonneg hN.le a0)
  have c0 : 0 ≤ f32 (N * f32 w) / D := div_nonneg b0 hDp.le
  rw [abs_of_nonneg hw0] at e1
  rw [abs_of_nonneg (mul_nonneg hN.le a0)] at e2
  rw [abs_of_nonneg c0] at e3
  set a := f32 w
  set b := f32 (N * a)
  set v := f32 (b / D)
  rw [abs_le] at e1 e2 e3 ⊢
  -- everything in units of D
  set x := w / D with hx
  set y := a / D with hy
  set z := b / D with hz
  have hx0 : 0 ≤ x := div_nonneg hw0 hDp.le
  have hx1 : x ≤ 1 := (div_le_one hDp).2 hwD
  have hw' : w = x * D := by rw [hx]; field_simp
  have ha' : a = y * D := by rw [hy]; field_simp
  have hb' : b = z * D := by rw [hz]; field_simp
  have ht : (1 : ℚ) / 2 ^ 150 ≤ (1 / 2 ^ 130) * D := by
    calc (1 : ℚ) / 2 ^ 150 = (1 / 2 ^ 130) * (1 / 2 ^ 20) := by norm_num
      _ ≤ _ := by apply mul_le_mul_of_nonneg_left hD'; norm_num
  have f1 : y - x ≤ x / 2 ^ 24 + 1 / 2 ^ 130 := by
    have := e1.2
    rw [hw', ha'] at this
    have h3 : (y - x) * D ≤ (x / 2 ^ 24 + 1 / 2 ^ 130) * D := by linarith
    exact le_of_mul_le_mul_right h3 hDp
  have f2 : -(x / 2 ^ 24 + 1 / 2 ^ 130) ≤ y - x := by
    have := e1.1
    rw [hw', ha'] at this
    have h3 : -(x / 2 ^ 24 + 1 / 2 ^ 130) * D ≤ (y - x) * D := by linarith
    exact le_of_mul_le_mul_right h3 hDp
  have f3 : z - N * y ≤ N * y / 2 ^ 24 + 1 / 2 ^ 130 := by
    have := e2.2
    rw [ha', hb'] at this
    have h3 : (z - N * y) * D ≤ (N * y / 2 ^ 24 + 1 / 2 ^ 130) * D := by linarith
    exact le_of_mul_le_mul_right h3 hDp
  have f4 : -(N * y / 2 ^ 24 + 1 / 2 ^ 130) ≤ z - N * y := by
    have := e2.1
    rw [ha', hb'] at this
    have h3 : -(N * y / 2 ^ 24 + 1 / 2 ^ 130) * D ≤ (z - N * y) * D := by linarith
    exact le_of_mul_le_mul_right h3 hDp
  have hNx : N * (x * D) / D = N * x := by field_simp
  rw [hw', hNx]
  have gx : N * x ≤ 65535 := by
    calc N * x ≤ N * 1 := mul_le_mul_of_nonneg_left hx1 hN.le
      _ ≤ _ := by linarith
  have gx0 : 0 ≤ N * x := mul_nonneg hN.le hx0
  have g1 : N * y - N * x ≤ N * x / 2 ^ 24 + 65535 / 2 ^ 130 := by
    have := mul_le_mul_of_nonneg_left f1 hN.le
    have h5 : N * (1 / 2 ^ 130) ≤ 65535 / 2 ^ 130 := by
      rw [mul_one_div]; exact div_le_div_of_nonneg_right hN' (by norm_num)
    nlinarith
  have g2 : -(N * x / 2 ^ 24 + 65535 / 2 ^ 130) ≤ N * y - N * x := by
    have := mul_le_mul_of_nonneg_left f2 hN.le
    have h5 : N * (1 / 2 ^ 130) ≤ 65535 / 2 ^ 130 := by
      rw [mul_one_div]; exact div_le_div_of_nonneg_right hN' (by norm_num)
    nlinarith
  norm_num at *
  constructor <;> linarith

/-- The decoders compute `min + q * (max - min) / N` up to a small error. -/
theorem dec_err {N q min max : ℚ} (hN1 : 1 ≤ N) (hN' : N ≤ 65535) (h0 : 0 ≤ q) (h1 : q ≤ N)
    (hlo : min ≤ 0) (hhi : 0 ≤ max) (hD : f32 (max - min) = max - min) (hD' : 1 / 2 ^ 20 ≤ max - min) :
    |f32 (min + f32 (f32 (q * f32 (max - min)) / N)) - (min + q * (max - min) / N)| ≤ (max - min) / N / 80 := by
  have hN : 0 < N := by linarith
  rw [hD]
  set D := max - min with hDd
  have hDp : 0 < D := lt_of_lt_of_le (by norm_num) hD'
  have e1 := f32_err_abs (q * D)
  have e2 := f32_err_abs (f32 (q * D) / N)
  have e3 := f32_err_abs (min + f32 (f32 (q * D) / N))
  have a0 : 0 ≤ q * D := mul_nonneg h0 hDp.le
  have b0 : 0 ≤ f32 (q * D) := f32_nonneg a0
  have c0 : 0 ≤ f32 (q * D) / N := div_nonneg b0 hN.le
  rw [abs_of_nonneg a0] at e1
  rw [abs_of_nonneg c0] at e2
  have d0 : 0 ≤ f32 (f32 (q * D) / N) := f32_nonneg c0
  set a := f32 (q * D)
  set b := f32 (a / N)
  have ht : (1 : ℚ) / 2 ^ 150 ≤ D / 2 ^ 130 := by
    calc (1 : ℚ) / 2 ^ 150 = (1 / 2 ^ 20) / 2 ^ 130 := by norm_num
      _ ≤ _ := div_le_div_of_nonneg_right hD' (by norm_num)
  -- units of D / N
  set u := D / N with hu
  have hup : 0 < u := div_pos hDp hN
  have huD : D = N * u := by rw [hu]; field_simp
  have hqu : q * D / N = q * u := by rw [huD]; field_simp
  have hqn : q * u ≤ D := by
    rw [huD]; exact mul_le_mul_of_nonneg_right h1 hup.le
  have hD65 : D ≤ 65535 * u := by rw [huD]; exact mul_le_mul_of_nonneg_right hN' hup.le
  have q0 : 0 ≤ q * u := mul_nonneg h0 hup.le
  rw [hqu]
  have haN : |a / N - q * u| ≤ q * u / 2 ^ 24 + D / 2 ^ 130 := by
    rw [abs_le] at e1 ⊢
    have hx : a / N - q * u = (a - q * D) / N := by rw [huD]; field_simp
    rw [hx]
    have k : (q * D / 2 ^ 24 + 1 / 2 ^ 150) / N ≤ q * u / 2 ^ 24 + D / 2 ^ 130 := by
      rw [div_le_iff₀ hN]
      have : (q * u / 2 ^ 24 + D / 2 ^ 130) * N = q * D / 2 ^ 24 + D / 2 ^ 130 * N := by
        rw [huD]; ring
      rw [this]
      have : D / 2 ^ 130 ≤ D / 2 ^ 130 * N := le_mul_of_one_le_right (by positivity) hN1
      linarith
    constructor
    · have := div_le_div_of_nonneg_right e1.1 hN.le
      rw [neg_div] at this; linarith
    · have := div_le_div_of_nonneg_right e1.2 hN.le
      linarith
  have hmb : |min + b| ≤ D + 3 * D / 2 ^ 24 := by
    rw [abs_le] at haN e2 ⊢
    norm_num at haN e2 ht ⊢
    constructor <;> linarith
  rw [abs_le] at haN e2 e3 ⊢
  norm_num at haN e2 e3 ht hmb ⊢
  constructor <;> linarith

/-- A value encoded with `N` steps and decoded again is off by little more than one step. -/
theorem roundtrip {N f min max : ℚ} {q : ℤ} (hN1 : 1 ≤ N) (hN' : N ≤ 65535) (h1 : min ≤ f) (h2 : f ≤ max)
    (hlo : min ≤ 0) (hhi : 0 ≤ max) (hD : f32 (max - min) = max - min) (hD' : 1 / 2 ^ 20 ≤ max - min)
    (hq : q = ⌊enc N f min max⌋) (hq0 : 0 ≤ q) (hqN : (q : ℚ) ≤ N) :
    |f32 (min + f32 (f32 (q * f32 (max - min)) / N)) - f| ≤ 41 / 40 * ((max - min) / N) := by
  have hN : 0 < N := by linarith
  have he := enc_err hN hN' h1 h2 hD hD'
  have hd := dec_err (q := q) hN1 hN' (by exact_mod_cast hq0) hqN hlo hhi hD hD'
  have f1 := Int.floor_le (enc N f min max)
  have f2 := Int.lt_floor_add_one (enc N f min max)
  rw [← hq] at f1 f2
  have hDp : 0 < max - min := lt_of_lt_of_le (by norm_num) hD'
  set g := f32 (min + f32 (f32 (q * f32 (max - min)) / N))
  set D := max - min with hDd
  set v := enc N f min max
  set u := D / N with hu
  have hup : 0 < u := div_pos hDp hN
  have huD : D = N * u := by rw [hu]; field_simp
  have hqu : q * D / N = q * u := by rw [huD]; field_simp
  have hx : N * (f - min) / D = (f - min) / u := by rw [huD]; field_simp
  rw [hqu] at hd
  rw [hx] at he
  have hfu : f - min = (f - min) / u * u := by field_simp
  set t := (f - min) / u
  rw [abs_le] at he hd ⊢
  have k1 : (q : ℚ) * u ≤ (t + 1 / 80) * u := mul_le_mul_of_nonneg_right (by linarith) hup.le
  have k2 : (t - 1 / 80 - 1) * u ≤ (q : ℚ) * u := mul_le_mul_of_nonneg_right (by linarith) hup.le
  constructor <;> linarith

/-- Sixteen-bit encoding never leaves the range and survives decoding. -/
theorem us_ok {f min max : ℚ} (h1 : min ≤ f) (h2 : f ≤ max)
    (hlo : min ≤ 0) (hhi : 0 ≤ max) (hD : f32 (max - min) = max - min) (hD' : 1 / 2 ^ 20 ≤ max - min) :
    ∃ u, us f min max = some u ∧ |fpS u min max - f| ≤ 41 / 40 * ((max - min) / 65535) := by
  have hm : min < max := by have : (0 : ℚ) < 1 / 2 ^ 20 := by norm_num
                            linarith
  have h0 := enc_nonneg (N := 65535) (by norm_num) h1 hm
  have he := enc_err (N := 65535) (by norm_num) (by norm_num) h1 h2 hD hD'
  have hb : 65535 * (f - min) / (max - min) ≤ 65535 := by
    rw [div_le_iff₀ (by linarith)]; linarith
  rw [abs_le] at he
  have hv : enc 65535 f min max < 65536 := by linarith
  have q0 : 0 ≤ ⌊enc 65535 f min max⌋ := Int.floor_nonneg.2 h0
  have q1 : ⌊enc 65535 f min max⌋ < 65536 := Int.floor_lt.2 (by push_cast; exact hv)
  have ht : truncZ (f32 (f32 (65535 * f32 (f - min)) / f32 (max - min))) = ⌊enc 65535 f min max⌋ := truncZ_nonneg h0
  refine ⟨BitVec.ofInt 16 ⌊enc 65535 f min max⌋, ?_, ?_⟩
  · unfold us
    simp only [ht]
    rw [if_pos ⟨q0, q1⟩]
  · have hn : (((BitVec.ofInt 16 ⌊enc 65535 f min max⌋).toNat : ℕ) : ℚ) = (⌊enc 65535 f min max⌋ : ℤ) := by
      rw [BitVec.toNat_ofInt]
      have : ((⌊enc 65535 f min max⌋ % ((2 ^ 16 : ℕ) : ℤ)).toNat : ℤ) = ⌊enc 65535 f min max⌋ := by
        rw [Int.emod_eq_of_lt q0 (by push_cast; omega)]; omega
      exact_mod_cast this
    unfold fpS
    rw [hn]
    refine roundtrip (by norm_num) (by norm_num) h1 h2 hlo hhi hD hD' rfl q0 ?_
    have : ⌊enc 65535 f min max⌋ ≤ 65535 := by omega
    exact_mod_cast this

/-- The same for eight bits. -/
theorem uc_ok {f min max : ℚ} (h1 : min ≤ f) (h2 : f ≤ max)
    (hlo : min ≤ 0) (hhi : 0 ≤ max) (hD : f32 (max - min) = max - min) (hD' : 1 / 2 ^ 20 ≤ max - min) :
    ∃ u, uc f min max = some u ∧ |fpC u min max - f| ≤ 41 / 40 * ((max - min) / 255) := by
  have hm : min < max := by have : (0 : ℚ) < 1 / 2 ^ 20 := by norm_num
                            linarith
  have h0 := enc_nonneg (N := 255) (by norm_num) h1 hm
  have he := enc_err (N := 255) (by norm_num) (by norm_num) h1 h2 hD hD'
  have hb : 255 * (f - min) / (max - min) ≤ 255 := by
    rw [div_le_iff₀ (by linarith)]; linarith
  rw [abs_le] at he
  have hv : enc 255 f min max < 256 := by linarith
  have q0 : 0 ≤ ⌊enc 255 f min max⌋ := Int.floor_nonneg.2 h0
  have q1 : ⌊enc 255 f min max⌋ < 256 := Int.floor_lt.2 (by push_cast; exact hv)
  have ht : truncZ (f32 (f32 (255 * f32 (f - min)) / f32 (max - min))) = ⌊enc 255 f min max⌋ := truncZ_nonneg h0
  refine ⟨BitVec.ofInt 8 ⌊enc 255 f min max⌋, ?_, ?_⟩
  · unfold uc
    simp only [ht]
    rw [if_pos ⟨q0, q1⟩]
  · have hn : (((BitVec.ofInt 8 ⌊enc 255 f min max⌋).toNat : ℕ) : ℚ) = (⌊enc 255 f min max⌋ : ℤ) := by
      rw [BitVec.toNat_ofInt]
      have : ((⌊enc 255 f min max⌋ % ((2 ^ 8 : ℕ) : ℤ)).toNat : ℤ) = ⌊enc 255 f min max⌋ := by
        rw [Int.emod_eq_of_lt q0 (by push_cast; omega)]; omega
      exact_mod_cast this
    unfold fpC
    rw [hn]
    refine roundtrip (by norm_num) (by norm_num) h1 h2 hlo hhi hD hD' rfl q0 ?_
    have : ⌊enc 255 f min max⌋ ≤ 255 := by omega
    exact_mod_cast this

theorem maxMoment_pos : 0 < maxMoment := by decide +kernel
theorem maxMoment_width : f32 (maxMoment - -maxMoment) = maxMoment - -maxMoment ∧ 1 / 2 ^ 20 ≤ maxMoment - -maxMoment := by
  decide +kernel
theorem maxTorque_pos : 0 < maxTorque := by decide +kernel
theorem maxTorque_width : f32 (maxTorque - -maxTorque) = maxTorque - -maxTorque ∧ 1 / 2 ^ 20 ≤ maxTorque - -maxTorque := by
  decide +kernel
theorem maxTorque_width' : f32 (maxTorque - 0) = maxTorque - 0 ∧ 1 / 2 ^ 20 ≤ maxTorque - 0 := by
  decide +kernel
theorem maxSpeedCmd_pos : 0 < maxSpeedCmd := by decide +kernel
theorem maxSpeedCmd_width :
    f32 (maxSpeedCmd - -maxSpeedCmd) = maxSpeedCmd - -maxSpeedCmd ∧ 1 / 2 ^ 20 ≤ maxSpeedCmd - -maxSpeedCmd := by
  decide +kernel
theorem unit_width : f32 ((1 : ℚ) - 0) = 1 - 0 ∧ 1 / 2 ^ 20 ≤ (1 : ℚ) - 0 := by decide +kernel
theorem temp_width : f32 ((85 : ℚ) - -40) = 85 - -40 ∧ 1 / 2 ^ 20 ≤ (85 : ℚ) - -40 := by decide +kernel

end ADCS
end PAN
