import Verif.Lemmas.Float32
import Verif.Model.Float64
/-!
Facts about rounding to double precision, as in `Lemmas/Float32.lean`.
-/
namespace PAN

/-! ### Spacing -/

theorem ulp64_pos (x : ℚ) : 0 < ulp64 x := by unfold ulp64; exact zpow_pos (by norm_num) _

theorem ulp64_neg (x : ℚ) : ulp64 (-x) = ulp64 x := by unfold ulp64; rw [abs_neg]

/-- The exponent used for `x`. -/
def exp64 (x : ℚ) : ℤ := max (Int.log 2 |x|) (-1022)

theorem ulp64_eq (x : ℚ) : ulp64 x = (2 : ℚ) ^ (exp64 x - 52) := rfl

theorem exp64_ge (x : ℚ) : -1022 ≤ exp64 x := le_max_right _ _

theorem lt_exp64 (x : ℚ) : |x| < (2 : ℚ) ^ (exp64 x + 1) := by
  have h : |x| < ((2 : ℕ) : ℚ) ^ (Int.log 2 |x| + 1) := Int.lt_zpow_succ_log_self (by norm_num) _
  push_cast at h
  refine lt_of_lt_of_le h (two_zpow_le ?_)
  have := le_max_left (Int.log 2 |x|) (-1022)
  unfold exp64; omega

theorem exp64_le_abs {x : ℚ} (h0 : x ≠ 0) (h : -1022 < exp64 x) : (2 : ℚ) ^ exp64 x ≤ |x| := by
  have hx : exp64 x = Int.log 2 |x| := by
    unfold exp64 at h ⊢
    rcases le_total (Int.log 2 |x|) (-1022) with h' | h'
    · rw [max_eq_right h'] at h; omega
    · exact max_eq_left h'
  rw [hx]
  have := Int.zpow_log_le_self (b := 2) (r := |x|) (by norm_num) (abs_pos.mpr h0)
  push_cast at this; exact this

theorem exp64_mono {x y : ℚ} (h0 : 0 < x) (h : x ≤ y) : exp64 x ≤ exp64 y := by
  unfold exp64
  rw [abs_of_pos h0, abs_of_pos (lt_of_lt_of_le h0 h)]
  exact max_le_max (Int.log_mono_right h0 h) (le_refl _)

theorem exp64_lt {x : ℚ} {k : ℤ} (h0 : x ≠ 0) (h : |x| < (2 : ℚ) ^ k) (hk : -1022 < k) : exp64 x < k := by
  unfold exp64
  refine max_lt ?_ hk
  by_contra hc
  have hc' : k ≤ Int.log 2 |x| := by omega
  have := Int.zpow_log_le_self (b := 2) (r := |x|) (by norm_num) (abs_pos.mpr h0)
  push_cast at this
  have := two_zpow_le hc'
  linarith

/-! ### Rounding to a double -/

theorem f64_zero : f64 0 = 0 := by
  unfold f64
  rw [zero_div, show (0 : ℚ) = ((0 : ℤ) : ℚ) by norm_num, rne_int]
  norm_num

theorem f64_neg (x : ℚ) : f64 (-x) = -f64 x := by
  unfold f64
  rw [ulp64_neg, neg_div, rne_neg]; push_cast; ring

theorem f64_nonneg {x : ℚ} (h : 0 ≤ x) : 0 ≤ f64 x := by
  unfold f64
  refine mul_nonneg ?_ (ulp64_pos x).le
  have : rne 0 ≤ rne (x / ulp64 x) := rne_mono (div_nonneg h (ulp64_pos x).le)
  have h0 : rne 0 = 0 := by have := rne_int 0; simpa using this
  rw [h0] at this
  exact_mod_cast this

/-- The rounding error is at most half the spacing. -/
theorem f64_err (x : ℚ) : |f64 x - x| ≤ ulp64 x / 2 := by
  have hu := ulp64_pos x
  have h := rne_err (x / ulp64 x)
  have he : f64 x - x = (rne (x / ulp64 x) - x / ulp64 x) * ulp64 x := by
    unfold f64; field_simp
  rw [he, abs_mul, abs_of_pos hu]
  nlinarith

theorem f64_le_pow {x : ℚ} : f64 x ≤ (2 : ℚ) ^ (exp64 x + 1) := by
  have hu := ulp64_pos x
  have h1 : x / ulp64 x ≤ ((2 ^ 53 : ℤ) : ℚ) := by
    rw [div_le_iff₀ hu, ulp64_eq]
    have h := (le_abs_self x).trans (lt_exp64 x).le
    refine h.trans (le_of_eq ?_)
    rw [show exp64 x + 1 = 53 + (exp64 x - 52) by ring, zpow_split]
    norm_num
  have h2 := rne_mono h1
  rw [rne_int] at h2
  have h3 : (rne (x / ulp64 x) : ℚ) ≤ (2 ^ 53 : ℤ) := by exact_mod_cast h2
  unfold f64
  calc (rne (x / ulp64 x) : ℚ) * ulp64 x ≤ (2 ^ 53 : ℤ) * ulp64 x := by
        exact mul_le_mul_of_nonneg_right h3 hu.le
    _ = _ := by
        rw [ulp64_eq, show exp64 x + 1 = 53 + (exp64 x - 52) by ring, zpow_split]; norm_num

theorem pow_le_f64 {x : ℚ} (h0 : 0 < x) (h : -1022 < exp64 x) : (2 : ℚ) ^ exp64 x ≤ f64 x := by
  have hu := ulp64_pos x
  have h1 : ((2 ^ 52 : ℤ) : ℚ) ≤ x / ulp64 x := by
    rw [le_div_iff₀ hu, ulp64_eq]
    have h := exp64_le_abs h0.ne' h
    rw [abs_of_pos h0] at h
    refine le_trans (le_of_eq ?_) h
    rw [show exp64 x = 52 + (exp64 x - 52) by ring, zpow_split]
    norm_num
  have h2 := rne_mono h1
  rw [rne_int] at h2
  have h3 : ((2 ^ 52 : ℤ) : ℚ) ≤ (rne (x / ulp64 x) : ℚ) := by exact_mod_cast h2
  unfold f64
  calc (2 : ℚ) ^ exp64 x = (2 ^ 52 : ℤ) * ulp64 x := by
        rw [ulp64_eq, show exp64 x = 52 + (exp64 x - 52) by ring, zpow_split]; norm_num
    _ ≤ _ := mul_le_mul_of_nonneg_right h3 hu.le

theorem f64_mono_pos {x y : ℚ} (h0 : 0 < x) (h : x ≤ y) : f64 x ≤ f64 y := by
  rcases (exp64_mono h0 h).lt_or_eq with hl | he
  · have h1 := exp64_ge x
    calc f64 x ≤ (2 : ℚ) ^ (exp64 x + 1) := f64_le_pow
      _ ≤ 2 ^ exp64 y := two_zpow_le (by omega)
      _ ≤ f64 y := pow_le_f64 (lt_of_lt_of_le h0 h) (by omega)
  · have hu : ulp64 x = ulp64 y := by rw [ulp64_eq, ulp64_eq, he]
    unfold f64
    rw [hu]
    have := ulp64_pos y
    refine mul_le_mul_of_nonneg_right ?_ this.le
    exact_mod_cast rne_mono (div_le_div_of_nonneg_right h this.le)

/-- Rounding is monotone. -/
theorem f64_mono {x y : ℚ} (h : x ≤ y) : f64 x ≤ f64 y := by
  rcases lt_trichotomy x 0 with hx | hx | hx
  · rcases lt_or_ge y 0 with hy | hy
    · have := f64_mono_pos (x := -y) (y := -x) (by linarith) (by linarith)
      rw [f64_neg, f64_neg] at this; linarith
    · have h1 := f64_nonneg (x := -x) (by linarith)
      rw [f64_neg] at h1
      have h2 := f64_nonneg hy
      linarith
  · subst hx; rw [f64_zero]; exact f64_nonneg h
  · exact f64_mono_pos hx h

/-- The rationals that are doubles (of unbounded exponent): 53 significant bits, at least 2^-1074. -/
def Rep64 (x : ℚ) : Prop := ∃ m k : ℤ, |m| ≤ 2 ^ 53 ∧ -1074 ≤ k ∧ x = m * 2 ^ k

/-- Doubles are not changed by rounding. -/
theorem f64_rep {x : ℚ} (h : Rep64 x) : f64 x = x := by
  obtain ⟨m, k, hm, hk, rfl⟩ := h
  by_cases h0 : (m : ℚ) * 2 ^ k = 0
  · rw [h0, f64_zero]
  have hm0 : m ≠ 0 := by rintro rfl; simp at h0
  suffices hs : ∃ n : ℤ, (m : ℚ) * 2 ^ k / ulp64 (m * 2 ^ k) = n by
    obtain ⟨n, hn⟩ := hs
    unfold f64
    rw [hn, rne_int, ← hn]
    field_simp [(ulp64_pos _).ne']
  have habs : |(m : ℚ) * 2 ^ k| = |m| * 2 ^ k := by
    rw [abs_mul, abs_of_pos (zpow_pos (by norm_num : (0 : ℚ) < 2) k)]; push_cast; rfl
  have key : ∀ j : ℤ, exp64 ((m : ℚ) * 2 ^ k) - 52 ≤ j → ∀ n : ℤ, (m : ℚ) * 2 ^ k = n * 2 ^ j →
      ∃ n : ℤ, (m : ℚ) * 2 ^ k / ulp64 (m * 2 ^ k) = n := by
    intro j hj n hn
    obtain ⟨d, hd⟩ := Int.eq_ofNat_of_zero_le (sub_nonneg.mpr hj)
    refine ⟨n * 2 ^ d, ?_⟩
    rw [div_eq_iff (ulp64_pos _).ne', ulp64_eq]
    rw [hn]
    conv_lhs => rw [show j = (d : ℤ) + (exp64 ((m : ℚ) * 2 ^ k) - 52) by rw [← Int.ofNat_eq_natCast] at *; omega]
    rw [zpow_split, zpow_natCast, hn]; push_cast; ring
  rcases hm.lt_or_eq with hlt | heq
  · refine key k ?_ m rfl
    have h1 : |(m : ℚ) * 2 ^ k| < (2 : ℚ) ^ (53 + k) := by
      rw [habs, zpow_split]
      refine mul_lt_mul_of_pos_right ?_ (zpow_pos (by norm_num) k)
      have : ((|m| : ℤ) : ℚ) < ((2 ^ 53 : ℤ) : ℚ) := Int.cast_lt.mpr hlt
      refine lt_of_lt_of_le this (le_of_eq ?_)
      norm_num
    have := exp64_lt h0 h1 (by omega)
    omega
  · have h1 : |(m : ℚ) * 2 ^ k| < (2 : ℚ) ^ (54 + k) := by
      rw [habs, zpow_split]
      refine mul_lt_mul_of_pos_right ?_ (zpow_pos (by norm_num) k)
      rw [heq]; norm_num
    have h2 := exp64_lt h0 h1 (by omega)
    have h3 : ∃ q, m = 2 * q := by
      rcases abs_choice m with h | h
      · exact ⟨2 ^ 52, by omega⟩
      · exact ⟨-2 ^ 52, by omega⟩
    obtain ⟨q, rfl⟩ := h3
    refine key (k + 1) (by omega) q ?_
    rw [zpow_split]; push_cast; ring

theorem f64_le_of_rep {x g : ℚ} (hg : Rep64 g) (h : x ≤ g) : f64 x ≤ g := by
  have := f64_mono h; rwa [f64_rep hg] at this

theorem le_f64_of_rep {x g : ℚ} (hg : Rep64 g) (h : g ≤ x) : g ≤ f64 x := by
  have := f64_mono h; rwa [f64_rep hg] at this

theorem rep64_int {n : ℤ} (h : |n| ≤ 2 ^ 53) : Rep64 (n : ℚ) := ⟨n, 0, h, by omega, by simp⟩

theorem f64_int {n : ℤ} (h : |n| ≤ 2 ^ 53) : f64 (n : ℚ) = n := f64_rep (rep64_int h)

theorem rep64_neg {x : ℚ} (h : Rep64 x) : Rep64 (-x) := by
  obtain ⟨m, k, hm, hk, rfl⟩ := h
  exact ⟨-m, k, by rwa [abs_neg], hk, by push_cast; ring⟩

/-- The result of rounding is a double. -/
theorem rep64_f64 (x : ℚ) : Rep64 (f64 x) := by
  refine ⟨rne (x / ulp64 x), exp64 x - 52, ?_, ?_, ?_⟩
  · have hb : ∀ y : ℚ, rne (y / ulp64 y) ≤ 2 ^ 53 := by
      intro y
      have h1 : y / ulp64 y ≤ ((2 ^ 53 : ℤ) : ℚ) := by
        rw [div_le_iff₀ (ulp64_pos y), ulp64_eq]
        refine ((le_abs_self y).trans (lt_exp64 y).le).trans (le_of_eq ?_)
        rw [show exp64 y + 1 = 53 + (exp64 y - 52) by ring, zpow_split]
        norm_num
      have h2 := rne_mono h1
      rwa [rne_int] at h2
    have h1 := hb x
    have h2 := hb (-x)
    rw [ulp64_neg, neg_div, rne_neg] at h2
    rw [abs_le]; constructor <;> omega
  · have := exp64_ge x; omega
  · unfold f64; rw [ulp64_eq]

/-- Above the smallest normal number the error is relative. -/
theorem f64_err_rel {x : ℚ} (h : (2 : ℚ) ^ (-1022 : ℤ) ≤ |x|) : |f64 x - x| ≤ |x| / 2 ^ 53 := by
  have h0 : x ≠ 0 := by
    rintro rfl
    have : (0 : ℚ) < 2 ^ (-1022 : ℤ) := zpow_pos (by norm_num) _
    rw [abs_zero] at h; exact absurd this (not_lt.mpr h)
  have hlog : exp64 x = Int.log 2 |x| := by
    unfold exp64
    refine max_eq_left ?_
    have := (Int.zpow_le_iff_le_log (b := 2) (r := |x|) (x := -1022) (by norm_num) (abs_pos.mpr h0)).mp (by push_cast; exact h)
    exact this
  have h1 : (2 : ℚ) ^ exp64 x ≤ |x| := by
    rw [hlog]
    have := Int.zpow_log_le_self (b := 2) (r := |x|) (by norm_num) (abs_pos.mpr h0)
    push_cast at this; exact this
  refine (f64_err x).trans ?_
  rw [ulp64_eq, show exp64 x - 52 = exp64 x + (-52) by ring, zpow_split]
  have : (2 : ℚ) ^ (-52 : ℤ) = 1 / 2 ^ 52 := by norm_num
  rw [this]
  have : |x| / 2 ^ 53 = |x| * (1 / 2 ^ 52) / 2 := by ring
  rw [this]
  have : (0 : ℚ) ≤ 1 / 2 ^ 52 := by norm_num
  nlinarith

/-- In general: relative to the magnitude, or to the spacing of the subnormal numbers. -/
theorem f64_err_abs (x : ℚ) : |f64 x - x| ≤ |x| / 2 ^ 53 + 1 / 2 ^ 1075 := by
  have hp : (0 : ℚ) ≤ |x| / 2 ^ 53 := by positivity
  by_cases h : (2 : ℚ) ^ (-1022 : ℤ) ≤ |x|
  · refine (f64_err_rel h).trans ?_
    have : (0 : ℚ) ≤ 1 / 2 ^ 1075 := by positivity
    linarith
  · by_cases h0 : x = 0
    · subst h0; rw [f64_zero]; simp
    · have hl : exp64 x < -1021 := exp64_lt h0 (by
        refine lt_of_lt_of_le (not_le.mp h) (two_zpow_le (by omega))) (by omega)
      have h1 := exp64_ge x
      have he : exp64 x = -1022 := by omega
      refine (f64_err x).trans ?_
      rw [ulp64_eq, he]
      have : (2 : ℚ) ^ (-1022 - 52 : ℤ) / 2 = 1 / 2 ^ 1075 := by
        rw [one_div, ← zpow_natCast, ← zpow_neg, div_eq_mul_inv, ← zpow_neg_one, ← zpow_split]; rfl
      rw [this]; linarith

end PAN
