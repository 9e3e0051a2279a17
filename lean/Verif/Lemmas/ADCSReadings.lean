import Verif.Model.ADCSReadings
import Verif.Props.ADCSSettings
/-!
Lemmas on the readings of the box: filters stay in range, encoding is defined and accurate, induction over runs.
-/
namespace PAN
namespace ADCS

/-! ### Filters -/

/-- The filtered value stays between `lo` and `hi` if the old value does and the measurement is between `m` and `M`,
with room for the rounding. -/
theorem filt_range {k x d m M lo hi : ℚ} (h0 : 0 ≤ k) (h1 : k ≤ 1) (hl : Rep32 lo) (hh : Rep32 hi) (hx1 : lo ≤ x) (hx2 : x ≤ hi)
    (hd1 : m ≤ d) (hd2 : d ≤ M) (r1 : M + (M - lo) / 2 ^ 24 + 1 / 2 ^ 150 ≤ hi)
    (r2 : lo ≤ m - ((hi - m) / 2 ^ 24 + 1 / 2 ^ 150)) : lo ≤ Rd.filt k x d ∧ Rd.filt k x d ≤ hi := by
  have he := f32_err_abs (d - x)
  rw [abs_le] at he
  have hr := rep_f32 (d - x)
  rcases le_total x d with hxd | hxd
  · have a0 : 0 ≤ f32 (d - x) := f32_nonneg (by linarith)
    have b0 : 0 ≤ f32 (k * f32 (d - x)) := f32_nonneg (mul_nonneg h0 a0)
    have b1 : f32 (k * f32 (d - x)) ≤ f32 (d - x) := f32_le_of_rep hr (by nlinarith)
    rw [abs_of_nonneg (by linarith : 0 ≤ d - x)] at he
    constructor
    · exact le_f32_of_rep hl (by linarith)
    · refine f32_le_of_rep hh ?_
      have : (d - x) / 2 ^ 24 ≤ (M - lo) / 2 ^ 24 := by
        apply div_le_div_of_nonneg_right _ (by norm_num); linarith
      linarith
  · have a0 : f32 (d - x) ≤ 0 := by
      have := f32_mono (show d - x ≤ 0 by linarith); rwa [f32_zero] at this
    have b0 : f32 (k * f32 (d - x)) ≤ 0 := by
      have := f32_mono (show k * f32 (d - x) ≤ 0 from mul_nonpos_of_nonneg_of_nonpos h0 a0); rwa [f32_zero] at this
    have b1 : f32 (d - x) ≤ f32 (k * f32 (d - x)) := le_f32_of_rep hr (by nlinarith)
    rw [abs_of_nonpos (by linarith : d - x ≤ 0)] at he
    constructor
    · refine le_f32_of_rep hl ?_
      have : -(d - x) / 2 ^ 24 ≤ (hi - m) / 2 ^ 24 := by
        apply div_le_div_of_nonneg_right _ (by norm_num); linarith
      linarith
    · exact f32_le_of_rep hh (by linarith)

/-- With the filter at one the new value is the measurement, up to rounding. -/
theorem filt_one {x d M g : ℚ} (hM : 0 ≤ M) (hxg : |x| ≤ g) (hd : |d| ≤ M) :
    |Rd.filt 1 x d - d| ≤ (M + g) / 2 ^ 22 + 1 / 2 ^ 148 := by
  have hg : 0 ≤ g := le_trans (abs_nonneg _) hxg
  unfold Rd.filt
  rw [one_mul, f32_rep (rep_f32 (d - x))]
  have h1 := f32_err_abs (d - x)
  have h2 := f32_err_abs (x + f32 (d - x))
  have hdx : |d - x| ≤ M + g := (abs_sub _ _).trans (by linarith)
  have hx : |x + f32 (d - x)| ≤ |d| + |f32 (d - x) - (d - x)| := by
    have : x + f32 (d - x) = d + (f32 (d - x) - (d - x)) := by ring
    rw [this]; exact abs_add_le _ _
  have ht : |f32 (x + f32 (d - x)) - d| ≤ |f32 (x + f32 (d - x)) - (x + f32 (d - x))| + |f32 (d - x) - (d - x)| := by
    have : f32 (x + f32 (d - x)) - d = (f32 (x + f32 (d - x)) - (x + f32 (d - x))) + (f32 (d - x) - (d - x)) := by ring
    rw [this]; exact abs_add_le _ _
  have e1 : |f32 (d - x) - (d - x)| ≤ (M + g) / 2 ^ 24 + 1 / 2 ^ 150 :=
    h1.trans (by have := div_le_div_of_nonneg_right hdx (show (0 : ℚ) ≤ 2 ^ 24 by norm_num); linarith)
  have e2 : |x + f32 (d - x)| / 2 ^ 24 ≤ (M + ((M + g) / 2 ^ 24 + 1 / 2 ^ 150)) / 2 ^ 24 :=
    div_le_div_of_nonneg_right (by linarith) (by norm_num)
  have e3 : (M + ((M + g) / 2 ^ 24 + 1 / 2 ^ 150)) / 2 ^ 24 ≤ (M + (M + g) / 2 ^ 24) / 2 ^ 24 + 1 / 2 ^ 150 := by
    have : (1 / 2 ^ 150 : ℚ) / 2 ^ 24 ≤ 1 / 2 ^ 150 := by norm_num
    have e : (M + ((M + g) / 2 ^ 24 + 1 / 2 ^ 150)) / 2 ^ 24 = (M + (M + g) / 2 ^ 24) / 2 ^ 24 + (1 / 2 ^ 150 : ℚ) / 2 ^ 24 := by ring
    rw [e]; linarith
  have e4 : (M + (M + g) / 2 ^ 24) / 2 ^ 24 ≤ (M + g) / 2 ^ 24 - g / 2 ^ 24 + (M + g) / 2 ^ 24 := by
    have : (M + g) / 2 ^ 24 / 2 ^ 24 ≤ (M + g) / 2 ^ 24 := div_le_self (by positivity) (by norm_num)
    have e : (M + (M + g) / 2 ^ 24) / 2 ^ 24 = M / 2 ^ 24 + (M + g) / 2 ^ 24 / 2 ^ 24 := by ring
    have e' : (M + g) / 2 ^ 24 - g / 2 ^ 24 = M / 2 ^ 24 := by ring
    rw [e, e']; linarith
  have e6 : (0 : ℚ) ≤ g / 2 ^ 24 := by positivity
  have e7 : (1 / 2 ^ 148 : ℚ) = 4 * (1 / 2 ^ 150) := by norm_num
  have e8 : (0 : ℚ) < 1 / 2 ^ 150 := by positivity
  have e9 : (M + g) / 2 ^ 22 = 4 * ((M + g) / 2 ^ 24) := by ring
  have e10 : 0 ≤ (M + g) / 2 ^ 24 := by positivity
  linarith

/-- Encoding is monotone. -/
theorem enc_mono {N a b min max : ℚ} (hN : 0 ≤ N) (hD : 0 < f32 (max - min)) (h : a ≤ b) :
    truncZ (enc N a min max) ≤ truncZ (enc N b min max) := by
  refine truncZ_mono (f32_mono ?_)
  refine div_le_div_of_nonneg_right (f32_mono ?_) hD.le
  exact mul_le_mul_of_nonneg_left (f32_mono (by linarith)) hN

/-- A range `min` to `max` whose formats tolerate readings from `lo` to `hi`. -/
structure Tol (min max lo hi : ℚ) : Prop where
  hlo : min ≤ 0
  hhi : 0 ≤ max
  hD : f32 (max - min) = max - min
  hD' : 1 / 2 ^ 20 ≤ max - min
  c1 : truncZ (enc 65535 lo min max) = 0
  c2 : truncZ (enc 65535 hi min max) = 65535
  c3 : truncZ (enc 65535 min min max) = 0
  c4 : 65534 ≤ truncZ (enc 65535 max min max)
  f1 : fpS 0 min max = min
  f2 : fpS 65535 min max = max
  f3 : fpS 65534 min max ≤ max ∧ max - fpS 65534 min max ≤ 41 / 40 * ((max - min) / 65535)
  e1 : min - lo ≤ (max - min) / 65535 / 40
  e2 : hi - max ≤ (max - min) / 65535 / 40

/-- A reading that is at most slightly out of range is encoded without overflow and decoded accurately. -/
theorem us_near {f min max lo hi : ℚ} (T : Tol min max lo hi) (hl : lo ≤ f) (hh : f ≤ hi) :
    ∃ u, us f min max = some u ∧ |fpS u min max - f| ≤ 42 / 40 * ((max - min) / 65535) := by
  have hD0 : 0 < f32 (max - min) := by
    rw [T.hD]; have : (0 : ℚ) < 1 / 2 ^ 20 := by norm_num
    linarith [T.hD']
  have hw : 0 < (max - min) / 65535 := by
    rw [T.hD] at hD0; exact div_pos hD0 (by norm_num)
  by_cases h1 : min ≤ f
  · by_cases h2 : f ≤ max
    · obtain ⟨u, hu, he⟩ := us_ok h1 h2 T.hlo T.hhi T.hD T.hD'
      exact ⟨u, hu, he.trans (by linarith)⟩
    · push Not at h2
      have t1 : truncZ (enc 65535 f min max) ≤ 65535 := T.c2 ▸ enc_mono (by norm_num) hD0 hh
      have t2 : 65534 ≤ truncZ (enc 65535 f min max) := T.c4.trans (enc_mono (by norm_num) hD0 h2.le)
      have e2 := T.e2
      obtain ⟨f3, f4⟩ := T.f3
      rcases (show truncZ (enc 65535 f min max) = 65534 ∨ truncZ (enc 65535 f min max) = 65535 by omega) with t | t
      · refine ⟨65534, ?_, ?_⟩
        · unfold enc at t
          unfold us
          simp only [t]
          rfl
        · rw [abs_le]
          constructor <;> linarith
      · refine ⟨65535, ?_, ?_⟩
        · unfold enc at t
          unfold us
          simp only [t]
          rfl
        · rw [T.f2, abs_le]
          constructor <;> linarith
  · push Not at h1
    have t : truncZ (enc 65535 f min max) = 0 :=
      le_antisymm (T.c3 ▸ enc_mono (by norm_num) hD0 h1.le) (T.c1 ▸ enc_mono (by norm_num) hD0 hl)
    refine ⟨0, ?_, ?_⟩
    · unfold enc at t
      unfold us
      simp only [t]
      rfl
    · rw [T.f1, abs_le]
      have := T.e1
      constructor <;> linarith

/-! ### The four ranges of the inertial sensors -/

/-- Somewhat more than the range: two parts in a million. -/
def slack (M : ℚ) : ℚ := f32 (M * (1 + 1 / 2 ^ 21))

theorem tol_mag1 : Tol (-maxMag1) maxMag1 (-slack maxMag1) (slack maxMag1) := by
  constructor <;> decide +kernel
theorem tol_mag2 : Tol (-maxMag2) maxMag2 (-slack maxMag2) (slack maxMag2) := by
  constructor <;> decide +kernel
theorem tol_omega : Tol (-maxOmega) maxOmega (-slack maxOmega) (slack maxOmega) := by
  constructor <;> decide +kernel
/-- Bounds for the temperature reading. -/
def tempLo : ℚ := -103 - 1 / 2 ^ 15
/-- Bounds for the temperature reading. -/
def tempHi : ℚ := 153 + 1 / 2 ^ 15
theorem tol_temp : Tol minTemp maxTemp tempLo tempHi := by
  constructor <;> decide +kernel

theorem rep_slack (M : ℚ) : Rep32 (slack M) := rep_f32 _

theorem rep_tempLo : Rep32 tempLo := by
  have : tempLo = f32 tempLo := by decide +kernel
  rw [this]; exact rep_f32 _
theorem rep_tempHi : Rep32 tempHi := by
  have : tempHi = f32 tempHi := by decide +kernel
  rw [this]; exact rep_f32 _

/-- A raw value of sixteen bits. -/
def Raw16 (r : ℤ) : Prop := -32768 ≤ r ∧ r ≤ 32767

theorem fpI_mono {a b : ℤ} {min max : ℚ} (hD : 0 ≤ f32 (max - min)) (h : a ≤ b) : fpI a min max ≤ fpI b min max := by
  unfold fpI
  refine f32_mono (by
    have : f32 (f32 (f32 (a + 32768) * f32 (max - min)) / 65535) ≤ f32 (f32 (f32 (b + 32768) * f32 (max - min)) / 65535) := by
      refine f32_mono (div_le_div_of_nonneg_right (f32_mono ?_) (by norm_num))
      refine mul_le_mul_of_nonneg_right (f32_mono ?_) hD
      have : (a : ℚ) ≤ b := by exact_mod_cast h
      linarith
    linarith)

theorem fpI_range {r : ℤ} {min max : ℚ} (hr : Raw16 r) (hD : 0 ≤ f32 (max - min)) (h1 : fpI (-32768) min max = min)
    (h2 : fpI 32767 min max = max) : min ≤ fpI r min max ∧ fpI r min max ≤ max :=
  ⟨h1.symm.le.trans (fpI_mono hD hr.1), (fpI_mono hD hr.2).trans h2.le⟩

theorem fpI_mag1 {r : ℤ} (hr : Raw16 r) : -maxMag1 ≤ fpI r (-maxMag1) maxMag1 ∧ fpI r (-maxMag1) maxMag1 ≤ maxMag1 :=
  fpI_range hr (by decide +kernel) (by decide +kernel) (by decide +kernel)
theorem fpI_mag2 {r : ℤ} (hr : Raw16 r) : -maxMag2 ≤ fpI r (-maxMag2) maxMag2 ∧ fpI r (-maxMag2) maxMag2 ≤ maxMag2 :=
  fpI_range hr (by decide +kernel) (by decide +kernel) (by decide +kernel)
theorem fpI_omega {r : ℤ} (hr : Raw16 r) : -maxOmega ≤ fpI r (-maxOmega) maxOmega ∧ fpI r (-maxOmega) maxOmega ≤ maxOmega :=
  fpI_range hr (by decide +kernel) (by decide +kernel) (by decide +kernel)
theorem fpI_temp {r : ℤ} (hr : Raw16 r) : minTemp ≤ fpI r minTemp maxTemp ∧ fpI r minTemp maxTemp ≤ maxTemp :=
  fpI_range hr (by decide +kernel) (by decide +kernel) (by decide +kernel)

/-- Every component between `lo` and `hi`. -/
def Within (lo hi : ℚ) (v : V3 ℚ) : Prop := v.all fun x => lo ≤ x ∧ x ≤ hi

/-- `M` and its slack, as `filt_range` needs it. -/
theorem filt3_sym {k M : ℚ} {x d : V3 ℚ} (h0 : 0 ≤ k) (h1 : k ≤ 1) (hr : M + (M + slack M) / 2 ^ 24 + 1 / 2 ^ 150 ≤ slack M)
    (hx : Within (-slack M) (slack M) x) (hd : Within (-M) M d) : Within (-slack M) (slack M) (Rd.filt3 k x d) := by
  obtain ⟨x1, x2, x3⟩ := hx
  obtain ⟨d1, d2, d3⟩ := hd
  have hh := rep_slack M
  have r1 : M + (M - -slack M) / 2 ^ 24 + 1 / 2 ^ 150 ≤ slack M := by rw [sub_neg_eq_add]; exact hr
  have r2 : -slack M ≤ -M - ((slack M - -M) / 2 ^ 24 + 1 / 2 ^ 150) := by
    rw [sub_neg_eq_add, add_comm (slack M)]; linarith
  exact ⟨filt_range h0 h1 (rep_neg hh) hh x1.1 x1.2 d1.1 d1.2 r1 r2, filt_range h0 h1 (rep_neg hh) hh x2.1 x2.2 d2.1 d2.2 r1 r2,
    filt_range h0 h1 (rep_neg hh) hh x3.1 x3.2 d3.1 d3.2 r1 r2⟩

theorem slack_mag1 : maxMag1 + (maxMag1 + slack maxMag1) / 2 ^ 24 + 1 / 2 ^ 150 ≤ slack maxMag1 := by decide +kernel
theorem slack_mag2 : maxMag2 + (maxMag2 + slack maxMag2) / 2 ^ 24 + 1 / 2 ^ 150 ≤ slack maxMag2 := by decide +kernel
theorem slack_omega : maxOmega + (maxOmega + slack maxOmega) / 2 ^ 24 + 1 / 2 ^ 150 ≤ slack maxOmega := by decide +kernel

/-! ### The filter settings stay between zero and one -/

/-- All filter settings are between zero and one. -/
structure FltOk (r : Regs) : Prop where
  speed : 0 ≤ r.speedFlt ∧ r.speedFlt ≤ 1
  volt : 0 ≤ r.voltFlt ∧ r.voltFlt ≤ 1
  mag : 0 ≤ r.magFlt ∧ r.magFlt ≤ 1
  gyr : 0 ≤ r.gyrFlt ∧ r.gyrFlt ≤ 1
  temp : 0 ≤ r.gyrTempFlt ∧ r.gyrTempFlt ≤ 1

theorem fpC_unit (x : U8) : 0 ≤ fpC x 0 1 ∧ fpC x 0 1 ≤ 1 := by
  have e : f32 ((1 : ℚ) - 0) = 1 := by decide +kernel
  have hx : (x.toNat : ℚ) ≤ 255 := by have := x.isLt; exact_mod_cast (by omega : x.toNat ≤ 255)
  unfold fpC
  rw [e, mul_one, zero_add]
  have h0 : (0 : ℚ) ≤ f32 x.toNat := f32_nonneg (by positivity)
  have r255 : Rep32 (255 : ℚ) := by have := rep_int (n := 255) (by norm_num); exact_mod_cast this
  have r1 : Rep32 (1 : ℚ) := by have := rep_int (n := 1) (by norm_num); exact_mod_cast this
  have h1 : f32 (x.toNat : ℚ) ≤ 255 := f32_le_of_rep r255 hx
  refine ⟨f32_nonneg (f32_nonneg (div_nonneg h0 (by norm_num))), ?_⟩
  refine f32_le_of_rep r1 (f32_le_of_rep r1 ?_)
  rw [div_le_one (by norm_num)]; exact h1

theorem flt_rampFlt {r : Regs} (h : FltOk r) (d : List U8) : FltOk (r.recvRampFlt d) := by
  have e : ∀ x : ℚ, FltOk { r with rampFlt := x } := fun _ => ⟨h.speed, h.volt, h.mag, h.gyr, h.temp⟩
  rcases d with _ | ⟨x, d⟩
  · exact h
  · exact e _
theorem flt_tempFlt {r : Regs} (h : FltOk r) (d : List U8) : FltOk (r.recvGyrTempFlt d) := by
  have e : ∀ x : ℚ, 0 ≤ x ∧ x ≤ 1 → FltOk { r with gyrTempFlt := x } := fun _ k => ⟨h.speed, h.volt, h.mag, h.gyr, k⟩
  rcases d with _ | ⟨x, d⟩
  · exact h
  · exact e _ (fpC_unit x)
theorem flt_gyrFlt {r : Regs} (h : FltOk r) (d : List U8) : FltOk (r.recvGyrFlt d) := by
  have e : ∀ x : ℚ, 0 ≤ x ∧ x ≤ 1 → FltOk { r with gyrFlt := x } := fun _ k => ⟨h.speed, h.volt, h.mag, k, h.temp⟩
  rcases d with _ | ⟨x, d⟩
  · exact h
  · exact flt_tempFlt (e _ (fpC_unit x)) d
theorem flt_magFlt {r : Regs} (h : FltOk r) (d : List U8) : FltOk (r.recvMagFlt d) := by
  have e : ∀ x : ℚ, 0 ≤ x ∧ x ≤ 1 → FltOk { r with magFlt := x } := fun _ k => ⟨h.speed, h.volt, k, h.gyr, h.temp⟩
  rcases d with _ | ⟨x, d⟩
  · exact h
  · exact flt_gyrFlt (e _ (fpC_unit x)) d
theorem flt_speedFlt {r : Regs} (h : FltOk r) (d : List U8) : FltOk (r.recvSpeedFlt d) := by
  have e : ∀ x : ℚ, 0 ≤ x ∧ x ≤ 1 → FltOk { r with speedFlt := x } := fun _ k => ⟨k, h.volt, h.mag, h.gyr, h.temp⟩
  rcases d with _ | ⟨x, d⟩
  · exact h
  · exact flt_rampFlt (e _ (fpC_unit x)) d
theorem flt_voltFlt {r : Regs} (h : FltOk r) (d : List U8) : FltOk (r.recvVoltFlt d) := by
  have e : ∀ x : ℚ, 0 ≤ x ∧ x ≤ 1 → FltOk { r with voltFlt := x } := fun _ k => ⟨h.speed, k, h.mag, h.gyr, h.temp⟩
  rcases d with _ | ⟨x, d⟩
  · exact h
  · exact e _ (fpC_unit x)

/-- Registers that differ in none of the filter settings. -/
theorem flt_same {r r' : Regs} (h : FltOk r) (h1 : r'.speedFlt = r.speedFlt) (h2 : r'.voltFlt = r.voltFlt)
    (h3 : r'.magFlt = r.magFlt) (h4 : r'.gyrFlt = r.gyrFlt) (h5 : r'.gyrTempFlt = r.gyrTempFlt) : FltOk r' :=
  ⟨h1 ▸ h.speed, h2 ▸ h.volt, h3 ▸ h.mag, h4 ▸ h.gyr, h5 ▸ h.temp⟩

theorem flt_sett {r r' : Regs} (h : FltOk r) (e : r'.sett = r.sett) : FltOk r' :=
  flt_same h (congrArg Sett.speedFlt e) (congrArg Sett.voltFlt e) (congrArg Sett.magFlt e) (congrArg Sett.gyrFlt e)
    (congrArg Sett.gyrTempFlt e)

theorem flt_mtrLimit {r : Regs} (h : FltOk r) (d : List U8) : FltOk (r.recvMtrLimit d) := by
  have e : ∀ (l : ℚ) (f : U8), FltOk { r with mtrLimit := l, mtrFlg := f } :=
    fun _ _ => ⟨h.speed, h.volt, h.mag, h.gyr, h.temp⟩
  rcases d with _ | ⟨a, _ | ⟨b, d⟩⟩
  · exact h
  · exact e _ _
  · exact e _ _

theorem flt_mtrCmd {r : Regs} (h : FltOk r) (d : List U8) : FltOk (r.recvMtrCmd d) := by
  have e : ∀ (l : V3 ℚ) (f : U8), FltOk { r with mtrCmd := l, mtrFlg := f } :=
    fun _ _ => ⟨h.speed, h.volt, h.mag, h.gyr, h.temp⟩
  rcases d with _ | ⟨a, _ | ⟨b, _ | ⟨c, _ | ⟨d, _ | ⟨e', _ | ⟨f, g⟩⟩⟩⟩⟩⟩
  all_goals first
    | exact h
    | (simp only [Regs.recvMtrCmd]
       exact flt_mtrLimit (e _ _) g)

theorem flt_mtrMode {r : Regs} (h : FltOk r) (d : List U8) : FltOk (r.recvMtrMode d) := by
  rcases d with _ | ⟨a, d⟩
  · exact h
  · exact flt_mtrCmd (r := { r with mtrMode := a }) ⟨h.speed, h.volt, h.mag, h.gyr, h.temp⟩ d

theorem flt_mag2Mode {r : Regs} (h : FltOk r) (d : List U8) : FltOk (r.recvMag2Mode d) := by
  rcases d with _ | ⟨a, d⟩
  · exact h
  · exact ⟨h.speed, h.volt, h.mag, h.gyr, h.temp⟩

theorem flt_mag1Mode {r : Regs} (h : FltOk r) (d : List U8) : FltOk (r.recvMag1Mode d) := by
  rcases d with _ | ⟨a, d⟩
  · exact h
  · exact flt_mag2Mode (r := { r with mag1Mode := a }) ⟨h.speed, h.volt, h.mag, h.gyr, h.temp⟩ d

theorem flt_readPtr {r : Regs} (h : FltOk r) (d : List U8) : FltOk (r.recvReadPtr d) := by
  rcases d with _ | ⟨a, d⟩
  · exact h
  · exact ⟨h.speed, h.volt, h.mag, h.gyr, h.temp⟩

theorem flt_pwm {r : Regs} (h : FltOk r) (d : List U8) : FltOk (r.recvGyrPwm d) := by
  rcases d with _ | ⟨a, d⟩
  · exact h
  · exact ⟨h.speed, h.volt, h.mag, h.gyr, h.temp⟩

theorem flt_desired {r : Regs} (h : FltOk r) (d : List U8) : FltOk (r.recvGyrDesired d) := by
  have e : ∀ x : ℚ, FltOk { r with gyrDesired := x } := fun _ => ⟨h.speed, h.volt, h.mag, h.gyr, h.temp⟩
  rcases d with _ | ⟨a, d⟩
  · exact h
  · exact e _

/-- Messages keep the filter settings in range. -/
theorem flt_receive {r : Regs} (h : FltOk r) (m : List U8) : FltOk (r.receive m) := by
  cases m with
  | nil => exact h
  | cons a d =>
    by_cases h1 : a = 1
    · subst h1; exact flt_sett h (sett_mode r d)
    by_cases h2 : a = 2
    · subst h2; exact flt_readPtr h d
    by_cases h3 : a = 3
    · subst h3; exact flt_sett h (sett_rwaMode r d)
    by_cases h4 : a = 4
    · subst h4; exact flt_sett h (sett_rwaCmd r d)
    by_cases h6 : a = 6
    · subst h6; exact flt_speedFlt h d
    by_cases h7 : a = 7
    · subst h7; exact flt_rampFlt h d
    by_cases h10 : a = 10
    · subst h10; exact flt_mtrMode h d
    by_cases h11 : a = 11
    · subst h11; exact flt_mtrCmd h d
    by_cases h12 : a = 12
    · subst h12; exact flt_mtrLimit h d
    by_cases h14 : a = 14
    · subst h14; exact flt_sett h (sett_ssaMode r d)
    by_cases h16 : a = 16
    · subst h16; exact flt_voltFlt h d
    by_cases h19 : a = 19
    · subst h19; exact flt_mag1Mode h d
    by_cases h20 : a = 20
    · subst h20; exact flt_mag2Mode h d
    by_cases h22 : a = 22
    · subst h22; exact flt_magFlt h d
    by_cases h23 : a = 23
    · subst h23; exact flt_gyrFlt h d
    by_cases h24 : a = 24
    · subst h24; exact flt_tempFlt h d
    by_cases h25 : a = 25
    · subst h25; exact flt_pwm h d
    by_cases h26 : a = 26
    · subst h26; exact flt_desired h d
    by_cases h28 : a = 28
    · subst h28; exact flt_sett h (sett_reset r d)
    by_cases h29 : a = 29
    · subst h29; exact flt_sett h (sett_disable r d)
    simp only [Regs.receive, h1, h2, h3, h4, h6, h7, h10, h11, h12, h14, h16, h19, h20, h22, h23, h24, h25, h26, h28, h29,
      if_false]
    exact h

/-- A step of the main loop does not change the filter settings. -/
theorem tick_flt {l : Bool} {e : Env} {b b' : Box} {a : Option Act} (h : b.tick l e = some (b', a)) :
    b'.regs.speedFlt = b.regs.speedFlt ∧ b'.regs.voltFlt = b.regs.voltFlt ∧ b'.regs.magFlt = b.regs.magFlt ∧
      b'.regs.gyrFlt = b.regs.gyrFlt ∧ b'.regs.gyrTempFlt = b.regs.gyrTempFlt ∧ b'.regs.readPtr = b.regs.readPtr := by
  unfold Box.tick at h
  cases hp : b.pc <;> rw [hp] at h <;> dsimp only at h
  case rwaCheck =>
    split at h
    · rw [Option.map_eq_some_iff] at h
      obtain ⟨x, -, hx⟩ := h
      cases hx
      exact ⟨rfl, rfl, rfl, rfl, rfl, rfl⟩
    · cases h
      exact ⟨rfl, rfl, rfl, rfl, rfl, rfl⟩
  case resetCheck | disableCheck =>
    split at h <;> cases h <;> exact ⟨rfl, rfl, rfl, rfl, rfl, rfl⟩
  all_goals
    cases h
    exact ⟨rfl, rfl, rfl, rfl, rfl, rfl⟩

namespace RBox

/-- A step of the box with readings is a step of the box, and the readings change as `tickRd` says. -/
theorem step_tick {l : Bool} {s s' : RBox} {e : REnv} {a : Option Act} (h : s.step l (.tick e) = some (s', a)) :
    ∃ e', s.box.tick l e' = some (s'.box, a) ∧ s'.rd = s.tickRd e := by
  simp only [step, Option.map_eq_some_iff] at h
  obtain ⟨r, hr, hx⟩ := h
  cases hx
  exact ⟨_, hr, rfl⟩

theorem step_recv {l : Bool} {s s' : RBox} {m : List U8} {a : Option Act} (h : s.step l (.recv m) = some (s', a)) :
    s'.box = { s.box with regs := s.box.regs.receive m } ∧ s'.rd = s.rd := by
  simp only [step, Option.some.injEq, Prod.mk.injEq] at h
  obtain ⟨rfl, -⟩ := h
  exact ⟨rfl, rfl⟩

/-- Induction over runs. -/
theorem run_inv {l : Bool} (P : RBox → Prop) (R : REv → Prop)
    (hs : ∀ s ev s' a, R ev → P s → step l s ev = some (s', a) → P s') :
    ∀ (evs : List REv) {s s' : RBox}, P s → (∀ ev ∈ evs, R ev) → run l s evs = some s' → P s' := by
  intro evs
  induction evs with
  | nil => intro s s' hP _ h; simp only [run, Option.some.injEq] at h; exact h ▸ hP
  | cons ev evs ih =>
    intro s s' hP hR h
    simp only [run] at h
    split at h
    · cases h
    · rename_i s1 a h1
      exact ih (hs s ev s1 a (hR ev (by simp)) hP h1) (fun x hx => hR x (by simp [hx])) h

end RBox

end ADCS
end PAN
