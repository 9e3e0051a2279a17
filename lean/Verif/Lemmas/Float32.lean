import Mathlib.Tactic.Linarith
import Mathlib.Tactic.NormNum
import Mathlib.Tactic.Positivity
import Mathlib.Tactic.FieldSimp
import Mathlib.Tactic.Ring
import Mathlib.Algebra.Order.Round
import Verif.Model.Float32
/-!
Facts about rounding to single precision: monotone, odd, exact on the numbers it can represent, and at most half a
unit in the last place away.
-/
namespace PAN

/-! ### Rounding to an integer -/

theorem rne_cases (x : ℚ) : (rne x = ⌊x⌋ ∧ x - ⌊x⌋ ≤ 1 / 2) ∨ (rne x = ⌊x⌋ + 1 ∧ 1 / 2 ≤ x - ⌊x⌋) := by
  unfold rne
  split
  · left; exact ⟨rfl, by linarith⟩
  · rename_i h
    split
    · right; exact ⟨rfl, by linarith⟩
    · rename_i h'
      split
      · left; exact ⟨rfl, by linarith⟩
      · right; exact ⟨rfl, by linarith⟩

theorem rne_err (x : ℚ) : |(rne x : ℚ) - x| ≤ 1 / 2 := by
  have h1 := Int.floor_le x
  have h2 := Int.lt_floor_add_one x
  rcases rne_cases x with ⟨h, h'⟩ | ⟨h, h'⟩ <;> rw [h, abs_le] <;> push_cast <;> constructor <;> linarith

theorem rne_int (n : ℤ) : rne (n : ℚ) = n := by
  unfold rne
  simp

theorem rne_mono {x y : ℚ} (h : x ≤ y) : rne x ≤ rne y := by
  have hf : ⌊x⌋ ≤ ⌊y⌋ := Int.floor_mono h
  rcases Int.lt_or_eq_of_le hf with hl | he
  · rcases rne_cases x with ⟨hx, _⟩ | ⟨hx, _⟩ <;> rcases rne_cases y with ⟨hy, _⟩ | ⟨hy, _⟩ <;> omega
  · unfold rne
    rw [he]
    have hd : x - (⌊y⌋ : ℚ) ≤ y - ⌊y⌋ := by linarith
    by_cases h1 : x - (⌊y⌋ : ℚ) < 1 / 2
    · rw [if_pos h1]
      split_ifs <;> omega
    · rw [if_neg h1]
      have h1' : ¬ y - (⌊y⌋ : ℚ) < 1 / 2 := by linarith
      rw [if_neg h1']
      by_cases h2 : 1 / 2 < x - (⌊y⌋ : ℚ)
      · rw [if_pos h2, if_pos (by linarith)]
      · rw [if_neg h2]
        split_ifs <;> omega

theorem rne_neg (x : ℚ) : rne (-x) = -rne x := by
  by_cases hz : x = ⌊x⌋
  · rw [hz, show (-((⌊x⌋ : ℤ) : ℚ)) = ((-⌊x⌋ : ℤ) : ℚ) by push_cast; rfl, rne_int, rne_int]
  · have h1 := Int.floor_le x
    have h2 := Int.lt_floor_add_one x
    have h1' : (⌊x⌋ : ℚ) < x := lt_of_le_of_ne h1 (fun h => hz h.symm)
    have hfl : ⌊-x⌋ = -⌊x⌋ - 1 := by
      rw [Int.floor_eq_iff]; push_cast; constructor <;> linarith
    unfold rne
    rw [hfl]
    push_cast
    by_cases c1 : x - (⌊x⌋ : ℚ) < 1 / 2
    · rw [if_neg (by linarith), if_pos (by linarith), if_pos c1]; ring
    · by_cases c2 : 1 / 2 < x - (⌊x⌋ : ℚ)
      · rw [if_pos (by linarith), if_neg c1, if_pos c2]; ring
      · rw [if_neg (by linarith), if_neg (by linarith), if_neg c1, if_neg c2]
        split_ifs <;> omega

/-! ### Spacing -/

theorem ulp32_pos (x : ℚ) : 0 < ulp32 x := by unfold ulp32; exact zpow_pos (by norm_num) _

theorem ulp32_neg (x : ℚ) : ulp32 (-x) = ulp32 x := by unfold ulp32; rw [abs_neg]

/-- The exponent used for `x`. -/
def exp32 (x : ℚ) : ℤ := max (Int.log 2 |x|) (-126)

theorem ulp32_eq (x : ℚ) : ulp32 x = (2 : ℚ) ^ (exp32 x - 23) := rfl

theorem exp32_ge (x : ℚ) : -126 ≤ exp32 x := le_max_right _ _

theorem two_zpow_le {a b : ℤ} (h : a ≤ b) : (2 : ℚ) ^ a ≤ 2 ^ b := zpow_le_zpow_right₀ (by norm_num) h

theorem lt_exp32 (x : ℚ) : |x| < (2 : ℚ) ^ (exp32 x + 1) := by
  have h : |x| < ((2 : ℕ) : ℚ) ^ (Int.log 2 |x| + 1) := Int.lt_zpow_succ_log_self (by norm_num) _
  push_cast at h
  refine lt_of_lt_of_le h (two_zpow_le ?_)
  have := le_max_left (Int.log 2 |x|) (-126)
  unfold exp32; omega

theorem exp32_le_abs {x : ℚ} (h0 : x ≠ 0) (h : -126 < exp32 x) : (2 : ℚ) ^ exp32 x ≤ |x| := by
  have hx : exp32 x = Int.log 2 |x| := by
    unfold exp32 at h ⊢
    rcases le_total (Int.log 2 |x|) (-126) with h' | h'
    · rw [max_eq_right h'] at h; omega
    · exact max_eq_left h'
  rw [hx]
  have := Int.zpow_log_le_self (b := 2) (r := |x|) (by norm_num) (abs_pos.mpr h0)
  push_cast at this; exact this

theorem exp32_mono {x y : ℚ} (h0 : 0 < x) (h : x ≤ y) : exp32 x ≤ exp32 y := by
  unfold exp32
  rw [abs_of_pos h0, abs_of_pos (lt_of_lt_of_le h0 h)]
  exact max_le_max (Int.log_mono_right h0 h) (le_refl _)

theorem exp32_lt {x : ℚ} {k : ℤ} (h0 : x ≠ 0) (h : |x| < (2 : ℚ) ^ k) (hk : -126 < k) : exp32 x < k := by
  unfold exp32
  refine max_lt ?_ hk
  by_contra hc
  have hc' : k ≤ Int.log 2 |x| := by omega
  have := Int.zpow_log_le_self (b := 2) (r := |x|) (by norm_num) (abs_pos.mpr h0)
  push_cast at this
  have := two_zpow_le hc'
  linarith

/-! ### Rounding to a float -/

theorem f32_zero : f32 0 = 0 := by
  unfold f32
  rw [zero_div, show (0 : ℚ) = ((0 : ℤ) : ℚ) by norm_num, rne_int]
  norm_num

theorem f32_neg (x : ℚ) : f32 (-x) = -f32 x := by
  unfold f32
  rw [ulp32_neg, neg_div, rne_neg]; push_cast; ring

theorem f32_nonneg {x : ℚ} (h : 0 ≤ x) : 0 ≤ f32 x := by
  unfold f32
  refine mul_nonneg ?_ (ulp32_pos x).le
  have : rne 0 ≤ rne (x / ulp32 x) := rne_mono (div_nonneg h (ulp32_pos x).le)
  have h0 : rne 0 = 0 := by have := rne_int 0; simpa using this
  rw [h0] at this
  exact_mod_cast this

/-- The rounding error is at most half the spacing. -/
theorem f32_err (x : ℚ) : |f32 x - x| ≤ ulp32 x / 2 := by
  have hu := ulp32_pos x
  have h := rne_err (x / ulp32 x)
  have he : f32 x - x = (rne (x / ulp32 x) - x / ulp32 x) * ulp32 x := by
    unfold f32; field_simp
  rw [he, abs_mul, abs_of_pos hu]
  nlinarith

theorem zpow_split (a b : ℤ) : (2 : ℚ) ^ (a + b) = 2 ^ a * 2 ^ b := zpow_add₀ (by norm_num) a b

theorem f32_le_pow {x : ℚ} : f32 x ≤ (2 : ℚ) ^ (exp32 x + 1) := by
  have hu := ulp32_pos x
  have h1 : x / ulp32 x ≤ ((2 ^ 24 : ℤ) : ℚ) := by
    rw [div_le_iff₀ hu, ulp32_eq]
    have h := (le_abs_self x).trans (lt_exp32 x).le
    refine h.trans (le_of_eq ?_)
    rw [show exp32 x + 1 = 24 + (exp32 x - 23) by ring, zpow_split]
    norm_num
  have h2 := rne_mono h1
  rw [rne_int] at h2
  have h3 : (rne (x / ulp32 x) : ℚ) ≤ (2 ^ 24 : ℤ) := by exact_mod_cast h2
  unfold f32
  calc (rne (x / ulp32 x) : ℚ) * ulp32 x ≤ (2 ^ 24 : ℤ) * ulp32 x := by
        exact mul_le_mul_of_nonneg_right h3 hu.le
    _ = _ := by
        rw [ulp32_eq, show exp32 x + 1 = 24 + (exp32 x - 23) by ring, zpow_split]; norm_num

theorem pow_le_f32 {x : ℚ} (h0 : 0 < x) (h : -126 < exp32 x) : (2 : ℚ) ^ exp32 x ≤ f32 x := by
  have hu := ulp32_pos x
  have h1 : ((2 ^ 23 : ℤ) : ℚ) ≤ x / ulp32 x := by
    rw [le_div_iff₀ hu, ulp32_eq]
    have h := exp32_le_abs h0.ne' h
    rw [abs_of_pos h0] at h
    refine le_trans (le_of_eq ?_) h
    rw [show exp32 x = 23 + (exp32 x - 23) by ring, zpow_split]
    norm_num
  have h2 := rne_mono h1
  rw [rne_int] at h2
  have h3 : ((2 ^ 23 : ℤ) : ℚ) ≤ (rne (x / ulp32 x) : ℚ) := by exact_mod_cast h2
  unfold f32
  calc (2 : ℚ) ^ exp32 x = (2 ^ 23 : ℤ) * ulp32 x := by
        rw [ulp32_eq, show exp32 x = 23 + (exp32 x - 23) by ring, zpow_split]; norm_num
    _ ≤ _ := mul_le_mul_of_nonneg_right h3 hu.le

theorem f32_mono_pos {x y : ℚ} (h0 : 0 < x) (h : x ≤ y) : f32 x ≤ f32 y := by
  rcases (exp32_mono h0 h).lt_or_eq with hl | he
  · have h1 := exp32_ge x
    calc f32 x ≤ (2 : ℚ) ^ (exp32 x + 1) := f32_le_pow
      _ ≤ 2 ^ exp32 y := two_zpow_le (by omega)
      _ ≤ f32 y := pow_le_f32 (lt_of_lt_of_le h0 h) (by omega)
  · have hu : ulp32 x = ulp32 y := by rw [ulp32_eq, ulp32_eq, he]
    unfold f32
    rw [hu]
    have := ulp32_pos y
    refine mul_le_mul_of_nonneg_right ?_ this.le
    exact_mod_cast rne_mono (div_le_div_of_nonneg_right h this.le)

/-- Rounding is monotone. -/
theorem f32_mono {x y : ℚ} (h : x ≤ y) : f32 x ≤ f32 y := by
  rcases lt_trichotomy x 0 with hx | hx | hx
  · rcases lt_or_ge y 0 with hy | hy
    · have := f32_mono_pos (x := -y) (y := -x) (by linarith) (by linarith)
      rw [f32_neg, f32_neg] at this; linarith
    · have h1 := f32_nonneg (x := -x) (by linarith)
      rw [f32_neg] at h1
      have h2 := f32_nonneg hy
      linarith
  · subst hx; rw [f32_zero]; exact f32_nonneg h
  · exact f32_mono_pos hx h

/-- The rationals that are floats (of unbounded exponent): 24 significant bits, at least 2^-149. -/
def Rep32 (x : ℚ) : Prop := ∃ m k : ℤ, |m| ≤ 2 ^ 24 ∧ -149 ≤ k ∧ x = m * 2 ^ k

/-- Floats are not changed by rounding. -/
theorem f32_rep {x : ℚ} (h : Rep32 x) : f32 x = x := by
  obtain ⟨m, k, hm, hk, rfl⟩ := h
  by_cases h0 : (m : ℚ) * 2 ^ k = 0
  · rw [h0, f32_zero]
  have hm0 : m ≠ 0 := by rintro rfl; simp at h0
  suffices hs : ∃ n : ℤ, (m : ℚ) * 2 ^ k / ulp32 (m * 2 ^ k) = n by
    obtain ⟨n, hn⟩ := hs
    unfold f32
    rw [hn, rne_int, ← hn]
    field_simp [(ulp32_pos _).ne']
  have habs : |(m : ℚ) * 2 ^ k| = |m| * 2 ^ k := by
    rw [abs_mul, abs_of_pos (zpow_pos (by norm_num : (0 : ℚ) < 2) k)]; push_cast; rfl
  have key : ∀ j : ℤ, exp32 ((m : ℚ) * 2 ^ k) - 23 ≤ j → ∀ n : ℤ, (m : ℚ) * 2 ^ k = n * 2 ^ j →
      ∃ n : ℤ, (m : ℚ) * 2 ^ k / ulp32 (m * 2 ^ k) = n := by
    intro j hj n hn
    obtain ⟨d, hd⟩ := Int.eq_ofNat_of_zero_le (sub_nonneg.mpr hj)
    refine ⟨n * 2 ^ d, ?_⟩
    rw [div_eq_iff (ulp32_pos _).ne', ulp32_eq]
    rw [hn]
    conv_lhs => rw [show j = (d : ℤ) + (exp32 ((m : ℚ) * 2 ^ k) - 23) by rw [← Int.ofNat_eq_natCast] at *; omega]
    rw [zpow_split, zpow_natCast, hn]; push_cast; ring
  rcases hm.lt_or_eq with hlt | heq
  · refine key k ?_ m rfl
    have h1 : |(m : ℚ) * 2 ^ k| < (2 : ℚ) ^ (24 + k) := by
      rw [habs, zpow_split]
      refine mul_lt_mul_of_pos_right ?_ (zpow_pos (by norm_num) k)
      have : ((|m| : ℤ) : ℚ) < ((2 ^ 24 : ℤ) : ℚ) := Int.cast_lt.mpr hlt
      refine lt_of_lt_of_le this (le_of_eq ?_)
      norm_num
    have := exp32_lt h0 h1 (by omega)
    omega
  · have h1 : |(m : ℚ) * 2 ^ k| < (2 : ℚ) ^ (25 + k) := by
      rw [habs, zpow_split]
      refine mul_lt_mul_of_pos_right ?_ (zpow_pos (by norm_num) k)
      rw [heq]; norm_num
    have h2 := exp32_lt h0 h1 (by omega)
    have h3 : ∃ q, m = 2 * q := by
      rcases abs_choice m with h | h
      · exact ⟨2 ^ 23, by omega⟩
      · exact ⟨-2 ^ 23, by omega⟩
    obtain ⟨q, rfl⟩ := h3
    refine key (k + 1) (by omega) q ?_
    rw [zpow_split]; push_cast; ring

theorem f32_le_of_rep {x g : ℚ} (hg : Rep32 g) (h : x ≤ g) : f32 x ≤ g := by
  have := f32_mono h; rwa [f32_rep hg] at this

theorem le_f32_of_rep {x g : ℚ} (hg : Rep32 g) (h : g ≤ x) : g ≤ f32 x := by
  have := f32_mono h; rwa [f32_rep hg] at this

theorem rep_int {n : ℤ} (h : |n| ≤ 2 ^ 24) : Rep32 (n : ℚ) := ⟨n, 0, h, by omega, by simp⟩

theorem f32_int {n : ℤ} (h : |n| ≤ 2 ^ 24) : f32 (n : ℚ) = n := f32_rep (rep_int h)

theorem rep_neg {x : ℚ} (h : Rep32 x) : Rep32 (-x) := by
  obtain ⟨m, k, hm, hk, rfl⟩ := h
  exact ⟨-m, k, by rwa [abs_neg], hk, by push_cast; ring⟩

/-- The result of rounding is a float. -/
theorem rep_f32 (x : ℚ) : Rep32 (f32 x) := by
  refine ⟨rne (x / ulp32 x), exp32 x - 23, ?_, ?_, ?_⟩
  · have hb : ∀ y : ℚ, rne (y / ulp32 y) ≤ 2 ^ 24 := by
      intro y
      have h1 : y / ulp32 y ≤ ((2 ^ 24 : ℤ) : ℚ) := by
        rw [div_le_iff₀ (ulp32_pos y), ulp32_eq]
        refine ((le_abs_self y).trans (lt_exp32 y).le).trans (le_of_eq ?_)
        rw [show exp32 y + 1 = 24 + (exp32 y - 23) by ring, zpow_split]
        norm_num
      have h2 := rne_mono h1
      rwa [rne_int] at h2
    have h1 := hb x
    have h2 := hb (-x)
    rw [ulp32_neg, neg_div, rne_neg] at h2
    rw [abs_le]; constructor <;> omega
  · have := exp32_ge x; omega
  · unfold f32; rw [ulp32_eq]

/-- Above the smallest normal number the error is relative. -/
theorem f32_err_rel {x : ℚ} (h : (2 : ℚ) ^ (-126 : ℤ) ≤ |x|) : |f32 x - x| ≤ |x| / 2 ^ 24 := by
  have h0 : x ≠ 0 := by
    rintro rfl
    have : (0 : ℚ) < 2 ^ (-126 : ℤ) := zpow_pos (by norm_num) _
    simp at h; linarith
  have hlog : exp32 x = Int.log 2 |x| := by
    unfold exp32
    refine max_eq_left ?_
    have := (Int.zpow_le_iff_le_log (b := 2) (r := |x|) (x := -126) (by norm_num) (abs_pos.mpr h0)).mp (by push_cast; exact h)
    exact this
  have h1 : (2 : ℚ) ^ exp32 x ≤ |x| := by
    rw [hlog]
    have := Int.zpow_log_le_self (b := 2) (r := |x|) (by norm_num) (abs_pos.mpr h0)
    push_cast at this; exact this
  refine (f32_err x).trans ?_
  rw [ulp32_eq, show exp32 x - 23 = exp32 x + (-23) by ring, zpow_split]
  have : (2 : ℚ) ^ (-23 : ℤ) = 1 / 2 ^ 23 := by norm_num
  rw [this]
  have : |x| / 2 ^ 24 = |x| * (1 / 2 ^ 23) / 2 := by ring
  rw [this]
  have : (0 : ℚ) ≤ 1 / 2 ^ 23 := by norm_num
  nlinarith

/-- In general: relative to the magnitude, or to the spacing of the subnormal numbers. -/
theorem f32_err_abs (x : ℚ) : |f32 x - x| ≤ |x| / 2 ^ 24 + 1 / 2 ^ 150 := by
  have hp : (0 : ℚ) ≤ |x| / 2 ^ 24 := by positivity
  by_cases h : (2 : ℚ) ^ (-126 : ℤ) ≤ |x|
  · refine (f32_err_rel h).trans ?_
    have : (0 : ℚ) ≤ 1 / 2 ^ 150 := by positivity
    linarith
  · by_cases h0 : x = 0
    · subst h0; rw [f32_zero]; simp
    · have hl : exp32 x < -125 := exp32_lt h0 (by
        refine lt_of_lt_of_le (not_le.mp h) (two_zpow_le (by omega))) (by omega)
      have h1 := exp32_ge x
      have he : exp32 x = -126 := by omega
      refine (f32_err x).trans ?_
      rw [ulp32_eq, he]
      have : (2 : ℚ) ^ (-126 - 23 : ℤ) / 2 = 1 / 2 ^ 150 := by norm_num
      rw [this]; linarith

end PAN
