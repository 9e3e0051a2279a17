import Verif.Model.PropSensors
import Verif.Lemmas.Float32
import Verif.Lemmas.Float64
import Mathlib.Analysis.Complex.ExponentialBounds
/-!
C112: what the propulsion system's sensors report.
-/
namespace PAN

namespace PropSensors

theorem line_mono (s o : ℚ) (hs : 0 ≤ s) {a b : ℕ} (h : a ≤ b) :
    f32 (f64 (f64 (s * a) + o)) ≤ f32 (f64 (f64 (s * b) + o)) := by
  refine f32_mono (f64_mono ?_)
  have : f64 (s * a) ≤ f64 (s * b) := f64_mono (mul_le_mul_of_nonneg_left (by exact_mod_cast h) hs)
  linarith

theorem slope_high (b : Bool) : 0 ≤ (highGain b).1 := by
  cases b <;> exact f64_nonneg (by norm_num)

theorem slope_low (b : Bool) : 0 ≤ (lowGain b).1 := by
  cases b <;> exact f64_nonneg (by norm_num)

theorem fine_mono (b : Bool) {low low' h h' : ℕ} (hh : h ≤ h') (hl : h' < 950) :
    tankPressure b low h ≤ tankPressure b low' h' := by
  unfold tankPressure
  rw [if_pos (by omega), if_pos hl]
  exact line_mono _ _ (slope_high b) hh

theorem coarse_mono (b : Bool) {l l' h h' : ℕ} (hl : l ≤ l') (h1 : 950 ≤ h) (h2 : 950 ≤ h') :
    tankPressure b l h ≤ tankPressure b l' h' := by
  unfold tankPressure
  rw [if_neg (by omega), if_neg (by omega)]
  exact line_mono _ _ (slope_low b) hl

theorem line_err (s o : ℚ) (hs : |s| ≤ 1 / 10) (ho : |o| ≤ 1 / 5) (n : ℕ) (hn : n < 1024) :
    |f32 (f64 (f64 (f64 s * n) + f64 o)) - (s * n + o)| ≤ 1 / 10 ^ 5 := by
  have hn' : (n : ℚ) ≤ 1023 := by exact_mod_cast Nat.le_of_lt_succ hn
  have hn0 : (0 : ℚ) ≤ n := Nat.cast_nonneg n
  have e1 := f64_err_abs s
  have e2 := f64_err_abs o
  have e3 := f64_err_abs (f64 s * n)
  have e4 := f64_err_abs (f64 (f64 s * n) + f64 o)
  have e5 := f32_err_abs (f64 (f64 (f64 s * n) + f64 o))
  have tiny : (1 : ℚ) / 2 ^ 1075 ≤ 1 / 2 ^ 100 :=
    one_div_le_one_div_of_le (by positivity) (pow_le_pow_right₀ (by norm_num) (by norm_num))
  have e1 := e1.trans (add_le_add_right tiny _)
  have e2 := e2.trans (add_le_add_right tiny _)
  have e3 := e3.trans (add_le_add_right tiny _)
  have e4 := e4.trans (add_le_add_right tiny _)
  generalize f64 s = a at *
  generalize f64 o = b at *
  generalize f64 (a * n) = c at *
  generalize f64 (c + b) = d at *
  generalize f32 d = e at *
  have a1 : |a - s| ≤ 1 / 10 ^ 12 := by norm_num at e1 hs ⊢; linarith
  have b1 : |b - o| ≤ 1 / 10 ^ 12 := by norm_num at e2 ho ⊢; linarith
  have a2 : |a| ≤ 2 / 10 := by
    have := abs_sub_abs_le_abs_sub a s
    norm_num at hs a1 ⊢; linarith
  have an : |a * n| ≤ 205 := by
    rw [abs_mul, abs_of_nonneg hn0]
    calc |a| * n ≤ 2 / 10 * 1023 := mul_le_mul a2 hn' hn0 (by norm_num)
      _ ≤ 205 := by norm_num
  have asn : |a * n - s * n| ≤ 1 / 10 ^ 8 := by
    rw [← sub_mul, abs_mul, abs_of_nonneg hn0]
    calc |a - s| * n ≤ 1 / 10 ^ 12 * 1023 := mul_le_mul a1 hn' hn0 (by norm_num)
      _ ≤ 1 / 10 ^ 8 := by norm_num
  have sn : |s * n| ≤ 103 := by
    rw [abs_mul, abs_of_nonneg hn0]
    calc |s| * n ≤ 1 / 10 * 1023 := mul_le_mul hs hn' hn0 (by norm_num)
      _ ≤ 103 := by norm_num
  have c1 : |c - a * n| ≤ 1 / 10 ^ 12 := by norm_num at e3 an ⊢; linarith
  have cb : |c + b| ≤ 104 := by
    have h1 := abs_le.1 c1; have h2 := abs_le.1 asn; have h3 := abs_le.1 sn
    have h4 := abs_le.1 b1; have h5 := abs_le.1 ho
    rw [abs_le]; norm_num at h1 h2 h3 h4 h5 ⊢; constructor <;> linarith
  have d1 : |d - (c + b)| ≤ 1 / 10 ^ 12 := by norm_num at e4 cb ⊢; linarith
  have d2 : |d| ≤ 105 := by
    have h1 := abs_le.1 d1; have h2 := abs_le.1 cb
    rw [abs_le]; norm_num at h1 h2 ⊢; constructor <;> linarith
  have e6 : |e - d| ≤ 7 / 10 ^ 6 := by norm_num at e5 d2 ⊢; linarith
  have h1 := abs_le.1 c1; have h2 := abs_le.1 asn
  have h4 := abs_le.1 b1; have h5 := abs_le.1 d1; have h6 := abs_le.1 e6
  rw [abs_le]; norm_num at h1 h2 h4 h5 h6 ⊢; constructor <;> linarith

theorem pressure_fine (b : Bool) (low h : ℕ) (hh : h < 950) :
    tankPressure b low h = tankPressure b 0 h := by
  unfold tankPressure; rw [if_pos hh, if_pos hh]

theorem pressure_coarse (b : Bool) (l h : ℕ) (hh : 950 ≤ h) : tankPressure b l h = tankPressure b l 950 := by
  unfold tankPressure; rw [if_neg (by omega), if_neg (by omega)]

/-- A temperature from its logarithm: bounds on `L` give bounds on the temperature. -/
theorem temp_ge {L c : ℝ} (hL : 0 ≤ L) (hc : 0 ≤ c) (h : L ≤ c ^ 200) : L ^ (0.005 : ℝ) ≤ c := by
  have e : (0.005 : ℝ) = ((200 : ℕ) : ℝ)⁻¹ := by norm_num
  calc L ^ (0.005 : ℝ) ≤ (c ^ 200) ^ (0.005 : ℝ) := Real.rpow_le_rpow hL h (by norm_num)
    _ = c := by rw [e]; exact Real.pow_rpow_inv_natCast hc (by norm_num)

theorem temp_le {L c : ℝ} (hc : 0 ≤ c) (h : c ^ 200 ≤ L) : c ≤ L ^ (0.005 : ℝ) := by
  have e : (0.005 : ℝ) = ((200 : ℕ) : ℝ)⁻¹ := by norm_num
  calc c = (c ^ 200) ^ (0.005 : ℝ) := by rw [e]; exact (Real.pow_rpow_inv_natCast hc (by norm_num)).symm
    _ ≤ L ^ (0.005 : ℝ) := Real.rpow_le_rpow (by positivity) h (by norm_num)

/-- The resistance in ohms for a number of the converter. -/
noncomputable def ohms (raw : ℕ) : ℝ := 6200 * raw / (1024 - raw)

theorem tankTemp_eq (raw : ℕ) (h0 : 0 < raw) (h : raw < 1024) :
    tankTemp raw = -35126.92396 * Real.log (ohms raw) ^ (0.005 : ℝ) + 35493.23411 := by
  have hr : (raw : ℝ) ≤ 1023 := by exact_mod_cast Nat.le_of_lt_succ h
  have h1 : (1 : ℝ) ≤ raw := by exact_mod_cast h0
  have hv : (3.3 : ℝ) - raw * 3.3 / 1024 = 3.3 / 1024 * (1024 - raw) := by ring
  have hpos : (0 : ℝ) < 1024 - raw := by linarith
  have hre : (raw : ℝ) * 3.3 / 1024 * 6200 / (3.3 - raw * 3.3 / 1024) = ohms raw := by
    rw [hv, ohms]; field_simp
  have hbig : 1 < ohms raw := by
    rw [ohms, lt_div_iff₀ hpos]; linarith
  unfold tankTemp
  dsimp only
  rw [if_neg, hre, if_neg]
  · rw [abs_of_pos (by linarith)]; linarith
  · rw [hv, abs_of_pos (by positivity)]
    norm_num; linarith

theorem ohms_mono {a b : ℕ} (h : a ≤ b) (hb : b < 1024) : ohms a ≤ ohms b := by
  have hb' : (b : ℝ) ≤ 1023 := by exact_mod_cast Nat.le_of_lt_succ hb
  have hab : (a : ℝ) ≤ b := by exact_mod_cast h
  have ha0 : (0 : ℝ) ≤ a := Nat.cast_nonneg a
  unfold ohms
  exact div_le_div₀ (by positivity) (by linarith) (by linarith) (by linarith)

theorem ohms_ge (a : ℕ) (h0 : 0 < a) (h : a < 1024) : 1 ≤ ohms a := by
  have := ohms_mono (show 1 ≤ a from h0) h
  have e : ohms 1 = 6200 / 1023 := by unfold ohms; norm_num
  rw [e] at this; linarith [show (1 : ℝ) ≤ 6200 / 1023 by norm_num]

theorem tankTemp_anti {a b : ℕ} (h0 : 0 < a) (h : a ≤ b) (hb : b < 1024) : tankTemp b ≤ tankTemp a := by
  rw [tankTemp_eq a h0 (by omega), tankTemp_eq b (by omega) hb]
  have h1 := ohms_ge a h0 (by omega)
  have hl : Real.log (ohms a) ≤ Real.log (ohms b) := Real.log_le_log (by linarith) (ohms_mono h hb)
  have := Real.rpow_le_rpow (Real.log_nonneg h1) hl (show (0 : ℝ) ≤ 0.005 by norm_num)
  norm_num at this ⊢
  linarith

theorem temp_62 : 50.01 < tankTemp 62 := by
  rw [tankTemp_eq 62 (by omega) (by omega)]
  have hl : Real.log (ohms 62) ≤ 6 := by
    rw [Real.log_le_iff_le_exp (by unfold ohms; norm_num)]
    have e : Real.exp 6 = Real.exp 1 ^ 6 := by rw [← Real.exp_nat_mul]; norm_num
    have h1 := Real.exp_one_gt_d9
    have : (2.7182818283 : ℝ) ^ 6 ≤ Real.exp 1 ^ 6 := pow_le_pow_left₀ (by norm_num) h1.le 6
    rw [e]
    refine le_trans ?_ this
    unfold ohms; norm_num
  have := temp_ge (L := Real.log (ohms 62)) (c := 1.009) (Real.log_nonneg (ohms_ge 62 (by omega) (by omega))) (by norm_num)
    (hl.trans (by norm_num))
  norm_num at this ⊢
  linarith

theorem temp_63 : tankTemp 63 < 49.99 := by
  rw [tankTemp_eq 63 (by omega) (by omega)]
  have hl : 6.0072 ≤ Real.log (ohms 63) := by
    rw [Real.le_log_iff_exp_le (by unfold ohms; norm_num)]
    have e : Real.exp 6.0072 = Real.exp 1 ^ 6 * Real.exp 0.0072 := by
      rw [← Real.exp_nat_mul, ← Real.exp_add]; norm_num
    have h1 := Real.exp_one_lt_d9
    have h2 : Real.exp 1 ^ 6 ≤ (2.7182818286 : ℝ) ^ 6 := pow_le_pow_left₀ (Real.exp_pos 1).le h1.le 6
    have h3 : Real.exp 0.0072 ≤ 1.00726 := by
      have := Real.abs_exp_sub_one_sub_id_le (x := 0.0072) (by norm_num)
      have := (abs_le.1 this).2
      norm_num at this ⊢; linarith
    rw [e]
    calc Real.exp 1 ^ 6 * Real.exp 0.0072 ≤ 2.7182818286 ^ 6 * 1.00726 :=
          mul_le_mul h2 h3 (Real.exp_pos _).le (by positivity)
      _ ≤ ohms 63 := by unfold ohms; norm_num
  have := temp_le (L := Real.log (ohms 63)) (c := 1.009005063) (by norm_num) (le_trans (by norm_num) hl)
  norm_num at this ⊢
  linarith

theorem temp_1 : 256 < tankTemp 1 := by
  rw [tankTemp_eq 1 (by omega) (by omega)]
  have hl : Real.log (ohms 1) ≤ 1.85 := by
    rw [Real.log_le_iff_le_exp (by unfold ohms; norm_num)]
    have h1 := Real.exp_one_gt_d9
    have e : Real.exp 2 = Real.exp 1 ^ 2 := by rw [← Real.exp_nat_mul]; norm_num
    have h2 : (2.7182818283 : ℝ) ^ 2 ≤ Real.exp 1 ^ 2 := pow_le_pow_left₀ (by norm_num) h1.le 2
    have e3 : Real.exp 1.85 = Real.exp 2 * Real.exp (-0.15) := by rw [← Real.exp_add]; norm_num
    have h3 : 0.85 ≤ Real.exp (-0.15) := by
      have := Real.add_one_le_exp (-0.15 : ℝ)
      norm_num at this ⊢; linarith
    rw [e3, e]
    calc ohms 1 ≤ 2.7182818283 ^ 2 * 0.85 := by unfold ohms; norm_num
      _ ≤ _ := mul_le_mul h2 h3 (by norm_num) (by positivity)
  have := temp_ge (L := Real.log (ohms 1)) (c := 1.003081) (Real.log_nonneg (ohms_ge 1 (by omega) (by omega))) (by norm_num)
    (hl.trans (by norm_num))
  norm_num at this ⊢
  linarith

theorem temp_1023 : tankTemp 1023 < -119 := by
  rw [tankTemp_eq 1023 (by omega) (by omega)]
  have hl : 15.6 ≤ Real.log (ohms 1023) := by
    rw [Real.le_log_iff_exp_le (by unfold ohms; norm_num)]
    have e : Real.exp 15.6 = Real.exp 1 ^ 15 * (Real.exp 0.3 * Real.exp 0.3) := by
      rw [← Real.exp_nat_mul, ← Real.exp_add, ← Real.exp_add]; norm_num
    have h1 := Real.exp_one_lt_d9
    have h2 : Real.exp 1 ^ 15 ≤ (2.7182818286 : ℝ) ^ 15 := pow_le_pow_left₀ (Real.exp_pos 1).le h1.le 15
    have h3 : Real.exp 0.3 ≤ 1.39 := by
      have := Real.abs_exp_sub_one_sub_id_le (x := 0.3) (by norm_num)
      have := (abs_le.1 this).2
      norm_num at this ⊢; linarith
    rw [e]
    calc Real.exp 1 ^ 15 * (Real.exp 0.3 * Real.exp 0.3) ≤ 2.7182818286 ^ 15 * (1.39 * 1.39) :=
          mul_le_mul h2 (mul_le_mul h3 h3 (Real.exp_pos _).le (by norm_num)) (by positivity) (by positivity)
      _ ≤ ohms 1023 := by unfold ohms; norm_num
  have := temp_le (L := Real.log (ohms 1023)) (c := 1.01382) (by norm_num) (le_trans (by norm_num) hl)
  norm_num at this ⊢
  linarith

theorem tankTemp_zero : tankTemp 0 = 150 := by
  unfold tankTemp; norm_num

end PropSensors

open PropSensors

/-- **C112.** The reported pressure is, to a hundred-thousandth of a unit, the calibrated line of the sensor that is used: the fine
one below 950, the coarse one from there on. -/
theorem C112_pressure (low high : ℕ) (hl : low < 1024) (hh : high < 1024) :
    (high < 950 → |tankPressure true low high - (0.048515346351665 * high - 0.184718912018209)| ≤ 1 / 10 ^ 5 ∧
        |tankPressure false low high - (0.048704545372229 * high - 0.117344667889011)| ≤ 1 / 10 ^ 5) ∧
      (950 ≤ high → |tankPressure true low high - (0.099084652547468 * low + 0.008416069224410)| ≤ 1 / 10 ^ 5 ∧
        |tankPressure false low high - (0.099017990785657 * low + 0.154615074342871)| ≤ 1 / 10 ^ 5) := by
  constructor
  · intro h
    unfold tankPressure
    rw [if_pos h, if_pos h]
    constructor
    · have := line_err (48515346351665 / 10 ^ 15) (-184718912018209 / 10 ^ 15) (by norm_num [abs_le]) (by norm_num [abs_le]) high hh
      simp only [highGain, if_true]
      convert this using 3; norm_num; ring
    · have := line_err (48704545372229 / 10 ^ 15) (-117344667889011 / 10 ^ 15) (by norm_num [abs_le]) (by norm_num [abs_le]) high hh
      simp only [highGain, Bool.false_eq_true, if_false]
      convert this using 3; norm_num; ring
  · intro h
    unfold tankPressure
    rw [if_neg (by omega), if_neg (by omega)]
    constructor
    · have := line_err (99084652547468 / 10 ^ 15) (8416069224410 / 10 ^ 15) (by norm_num [abs_le]) (by norm_num [abs_le]) low hl
      simp only [lowGain, if_true]
      convert this using 3; norm_num
    · have := line_err (99017990785657 / 10 ^ 15) (154615074342871 / 10 ^ 15) (by norm_num [abs_le]) (by norm_num [abs_le]) low hl
      simp only [lowGain, Bool.false_eq_true, if_false]
      convert this using 3; norm_num

example : tankPressure true 0 500 > 24 ∧ tankPressure true 600 1000 > 59 := by decide +kernel

/-- **C112.** The tank is reported as over its safe pressure of 75 exactly if the coarse sensor is used and reads at least 757 (on the
leader) or 756 (on the follower). -/
theorem C112_overpressure (low high : ℕ) :
    (tankPressure true low high > 75 ↔ 950 ≤ high ∧ 757 ≤ low) ∧
      (tankPressure false low high > 75 ↔ 950 ≤ high ∧ 756 ≤ low) := by
  have key : ∀ (b : Bool) (n : ℕ), tankPressure b 0 949 ≤ 75 → tankPressure b n 950 ≤ 75 → 75 < tankPressure b (n + 1) 950 →
      (tankPressure b low high > 75 ↔ 950 ≤ high ∧ n + 1 ≤ low) := by
    intro b n h1 h2 h3
    constructor
    · intro h
      by_contra hc
      rcases Nat.lt_or_ge high 950 with hh | hh
      · have := fine_mono b (low := low) (low' := 0) (show high ≤ 949 by omega) (by omega)
        exact absurd h (not_lt.2 (this.trans h1))
      · have hn : low ≤ n := by
          by_contra hn; exact hc ⟨hh, by omega⟩
        have := coarse_mono b hn hh (show 950 ≤ 950 by omega)
        exact absurd h (not_lt.2 (this.trans h2))
    · rintro ⟨hh, hn⟩
      exact lt_of_lt_of_le h3 (coarse_mono b hn (show 950 ≤ 950 by omega) hh)
  exact ⟨key true 756 (by decide +kernel) (by decide +kernel) (by decide +kernel),
    key false 755 (by decide +kernel) (by decide +kernel) (by decide +kernel)⟩

/-- **C112.** The tank is reported as ready for firing at the threshold of 25 exactly if the fine sensor, while it is used, reads at
least 520 (516 on the follower), or the coarse one at least 253 (251). -/
theorem C112_ready (low high : ℕ) :
    (tankPressure true low high ≥ 25 ↔ (high < 950 ∧ 520 ≤ high) ∨ (950 ≤ high ∧ 253 ≤ low)) ∧
      (tankPressure false low high ≥ 25 ↔ (high < 950 ∧ 516 ≤ high) ∨ (950 ≤ high ∧ 251 ≤ low)) := by
  have key : ∀ (b : Bool) (k n : ℕ), k + 1 < 950 → tankPressure b 0 k < 25 → 25 ≤ tankPressure b 0 (k + 1) →
      tankPressure b n 950 < 25 → 25 ≤ tankPressure b (n + 1) 950 →
      (tankPressure b low high ≥ 25 ↔ (high < 950 ∧ k + 1 ≤ high) ∨ (950 ≤ high ∧ n + 1 ≤ low)) := by
    intro b k n hk h1 h2 h3 h4
    constructor
    · intro h
      rcases Nat.lt_or_ge high 950 with hh | hh
      · left
        refine ⟨hh, ?_⟩
        by_contra hc
        have := fine_mono b (low := low) (low' := 0) (show high ≤ k by omega) (by omega)
        exact absurd h (not_le.2 (this.trans_lt h1))
      · right
        refine ⟨hh, ?_⟩
        by_contra hc
        have := coarse_mono b (show low ≤ n by omega) hh (show 950 ≤ 950 by omega)
        exact absurd h (not_le.2 (this.trans_lt h3))
    · rintro (⟨hh, hn⟩ | ⟨hh, hn⟩)
      · exact h2.trans (fine_mono b hn hh)
      · exact h4.trans (coarse_mono b hn (show 950 ≤ 950 by omega) hh)
  exact ⟨key true 519 252 (by omega) (by decide +kernel) (by decide +kernel) (by decide +kernel) (by decide +kernel),
    key false 515 250 (by omega) (by decide +kernel) (by decide +kernel) (by decide +kernel) (by decide +kernel)⟩

/-- **C112, counterexample.** The two sensors are not compared: with a coarse sensor that reads nothing, a tank too full for the fine
sensor is reported as all but empty, and is never reported as over its safe pressure. -/
theorem C112_counterexample_coarse (b : Bool) (high : ℕ) (hh : 950 ≤ high) : tankPressure b 0 high < 1 / 5 := by
  rw [pressure_coarse b 0 high hh]
  cases b <;> decide +kernel

/-- **C112.** A tank is reported as too hot, above 49, exactly if the converter's number is at most 62. -/
theorem C112_too_hot (raw : ℕ) (h : raw < 1024) (t : ℤ) (ht : TempReads raw t) : t > 49 ↔ raw ≤ 62 := by
  obtain ⟨x, hx, rfl⟩ := ht
  obtain ⟨hx1, hx2⟩ := abs_le.1 hx
  constructor
  · intro hlt
    by_contra hc
    have h1 := tankTemp_anti (a := 63) (by omega) (by omega) h
    have h2 := temp_63
    have h3 : x < 50 := by norm_num at h2 hx2; linarith
    by_cases h0 : 0 ≤ x
    · rw [if_pos h0] at hlt
      have : ⌊x⌋ < 50 := Int.floor_lt.2 (by exact_mod_cast h3)
      omega
    · rw [if_neg h0] at hlt
      have : ⌈x⌉ ≤ 0 := Int.ceil_le.2 (by push_cast; linarith)
      omega
  · intro hr
    have h3 : 50 ≤ x := by
      rcases Nat.eq_zero_or_pos raw with rfl | h0
      · rw [tankTemp_zero] at hx1; norm_num at hx1; linarith
      · have h1 := tankTemp_anti h0 hr (by omega)
        have h2 := temp_62
        norm_num at h2 hx1; linarith
    rw [if_pos (by linarith)]
    have : (50 : ℤ) ≤ ⌊x⌋ := Int.le_floor.2 (by exact_mod_cast h3)
    omega

example : TempReads 0 150 := ⟨150, by rw [tankTemp_zero]; norm_num, by norm_num⟩

/-- **C112.** A hotter tank reads a smaller number: readings for a larger number of the converter are at most one degree above those
for a smaller one (other than zero, which reads 150). -/
theorem C112_temp_falls (a b : ℕ) (h0 : 0 < a) (hab : a ≤ b) (hb : b < 1024) (s t : ℤ) (hs : TempReads a s) (ht : TempReads b t) :
    t ≤ s + 1 := by
  obtain ⟨x, hx, rfl⟩ := hs
  obtain ⟨y, hy, rfl⟩ := ht
  have hx1 := (abs_le.1 hx).1
  have hy1 := (abs_le.1 hy).2
  have h1 := tankTemp_anti h0 hab hb
  have hyx : y ≤ x + 1 := by norm_num at hx1 hy1; linarith
  by_cases hx0 : 0 ≤ x
  · rw [if_pos hx0]
    by_cases hy0 : 0 ≤ y
    · rw [if_pos hy0]
      have := Int.floor_le_floor hyx
      rwa [Int.floor_add_one] at this
    · rw [if_neg hy0]
      have h2 : ⌈y⌉ ≤ 0 := Int.ceil_le.2 (by push_cast; linarith)
      have h3 : (0 : ℤ) ≤ ⌊x⌋ := Int.floor_nonneg.2 hx0
      omega
  · rw [if_neg hx0]
    have hc := Int.ceil_le_ceil hyx
    rw [Int.ceil_add_one] at hc
    by_cases hy0 : 0 ≤ y
    · rw [if_pos hy0]
      exact (Int.floor_le_ceil y).trans hc
    · rw [if_neg hy0]; exact hc

example : ∀ raw, ∃ t, TempReads raw t := fun raw => ⟨_, tankTemp raw, by norm_num, rfl⟩

/-- **C112, counterexample.** The range of the calibration, from -55 to 150, does not bound the readings: the number next to zero reads
more than 254 degrees, though zero itself reads 150, and the largest number less than -117. -/
theorem C112_counterexample_range (t : ℤ) :
    (TempReads 0 t → t = 149 ∨ t = 150) ∧ (TempReads 1 t → 254 < t) ∧ (TempReads 1023 t → t < -117) := by
  refine ⟨?_, ?_, ?_⟩
  · rintro ⟨x, hx, rfl⟩
    rw [tankTemp_zero] at hx
    obtain ⟨h1, h2⟩ := abs_le.1 hx
    norm_num at h1 h2
    rw [if_pos (by linarith)]
    have h3 : (149 : ℤ) ≤ ⌊x⌋ := Int.le_floor.2 (by push_cast; linarith)
    have h4 : ⌊x⌋ < 151 := Int.floor_lt.2 (by push_cast; linarith)
    omega
  · rintro ⟨x, hx, rfl⟩
    have h1 := (abs_le.1 hx).1
    have h2 := temp_1
    norm_num at h1
    rw [if_pos (by linarith)]
    have : (255 : ℤ) ≤ ⌊x⌋ := Int.le_floor.2 (by push_cast; linarith)
    omega
  · rintro ⟨x, hx, rfl⟩
    have h1 := (abs_le.1 hx).2
    have h2 := temp_1023
    norm_num at h1
    rw [if_neg (by linarith)]
    have : ⌈x⌉ ≤ -118 := Int.ceil_le.2 (by push_cast; linarith)
    omega

end PAN
