import Verif.Model.FloatReal
import Verif.Model.Float64
import Mathlib.Tactic.Linarith
import Mathlib.Tactic.NormNum
import Mathlib.Tactic.Positivity
import Mathlib.Tactic.FieldSimp
import Mathlib.Tactic.Ring
import Mathlib.Algebra.Order.Round
import Mathlib.Analysis.Real.Sqrt
/-!
Facts about the rounding of real numbers: it agrees with the one of rational numbers, is monotone and odd, exact on the numbers
it can represent, at most half a unit in the last place away, and the square root of a square is not rounded down.
-/
namespace PAN

theorem rneR_cases (x : ℝ) : (rneR x = ⌊x⌋ ∧ x - ⌊x⌋ ≤ 1 / 2) ∨ (rneR x = ⌊x⌋ + 1 ∧ 1 / 2 ≤ x - ⌊x⌋) := by
  unfold rneR
  split
  · left; exact ⟨rfl, by linarith⟩
  · rename_i h
    split
    · right; exact ⟨rfl, by linarith⟩
    · rename_i h'
      split
      · left; exact ⟨rfl, by linarith⟩
      · right; exact ⟨rfl, by linarith⟩

theorem rneR_err (x : ℝ) : |(rneR x : ℝ) - x| ≤ 1 / 2 := by
  have h1 := Int.floor_le x
  have h2 := Int.lt_floor_add_one x
  rcases rneR_cases x with ⟨h, h'⟩ | ⟨h, h'⟩ <;> rw [h, abs_le] <;> push_cast <;> constructor <;> linarith

theorem rneR_int (n : ℤ) : rneR (n : ℝ) = n := by
  unfold rneR
  simp

theorem rneR_mono {x y : ℝ} (h : x ≤ y) : rneR x ≤ rneR y := by
  have hf : ⌊x⌋ ≤ ⌊y⌋ := Int.floor_mono h
  rcases Int.lt_or_eq_of_le hf with hl | he
  · rcases rneR_cases x with ⟨hx, _⟩ | ⟨hx, _⟩ <;> rcases rneR_cases y with ⟨hy, _⟩ | ⟨hy, _⟩ <;> omega
  · unfold rneR
    rw [he]
    have hd : x - (⌊y⌋ : ℝ) ≤ y - ⌊y⌋ := by linarith
    by_cases h1 : x - (⌊y⌋ : ℝ) < 1 / 2
    · rw [if_pos h1]
      split_ifs <;> omega
    · rw [if_neg h1]
      have h1' : ¬ y - (⌊y⌋ : ℝ) < 1 / 2 := by linarith
      rw [if_neg h1']
      by_cases h2 : 1 / 2 < x - (⌊y⌋ : ℝ)
      · rw [if_pos h2, if_pos (by linarith)]
      · rw [if_neg h2]
        split_ifs <;> omega

theorem rneR_neg (x : ℝ) : rneR (-x) = -rneR x := by
  by_cases hz : x = ⌊x⌋
  · rw [hz, show (-((⌊x⌋ : ℤ) : ℝ)) = ((-⌊x⌋ : ℤ) : ℝ) by push_cast; rfl, rneR_int, rneR_int]
  · have h1 := Int.floor_le x
    have h2 := Int.lt_floor_add_one x
    have h1' : (⌊x⌋ : ℝ) < x := lt_of_le_of_ne h1 (fun h => hz h.symm)
    have hfl : ⌊-x⌋ = -⌊x⌋ - 1 := by
      rw [Int.floor_eq_iff]; push_cast; constructor <;> linarith
    unfold rneR
    rw [hfl]
    push_cast
    by_cases c1 : x - (⌊x⌋ : ℝ) < 1 / 2
    · rw [if_neg (by linarith), if_pos (by linarith), if_pos c1]; ring
    · by_cases c2 : 1 / 2 < x - (⌊x⌋ : ℝ)
      · rw [if_pos (by linarith), if_neg c1, if_pos c2]; ring
      · rw [if_neg (by linarith), if_neg (by linarith), if_neg c1, if_neg c2]
        split_ifs <;> omega

/-- A number closer to an integer than one half is rounded to it. -/
theorem rneR_near {x : ℝ} {n : ℤ} (h : |x - n| < 1 / 2) : rneR x = n := by
  have h1 := rneR_err x
  have h2 : |(rneR x : ℝ) - n| < 1 := by
    calc |(rneR x : ℝ) - n| = |((rneR x : ℝ) - x) + (x - n)| := by ring_nf
      _ ≤ _ := abs_add_le _ _
      _ < 1 := by linarith
  have h3 : |rneR x - n| < 1 := by exact_mod_cast h2
  have := Int.abs_lt_one_iff.mp h3
  omega

/-! ### Agreement with the rounding of rational numbers -/

theorem rneR_rat (q : ℚ) : rneR (q : ℝ) = rne q := by
  unfold rneR rne
  rw [Rat.floor_cast]
  have h1 : ((q : ℝ) - ((⌊q⌋ : ℤ) : ℝ) < 1 / 2) ↔ (q - (⌊q⌋ : ℚ) < 1 / 2) := by
    rw [← Rat.cast_lt (K := ℝ)]; push_cast; rfl
  have h2 : (1 / 2 < (q : ℝ) - ((⌊q⌋ : ℤ) : ℝ)) ↔ (1 / 2 < q - (⌊q⌋ : ℚ)) := by
    rw [← Rat.cast_lt (K := ℝ)]; push_cast; rfl
  simp only [h1, h2]

theorem log_rat (q : ℚ) : Int.log 2 |(q : ℝ)| = Int.log 2 |q| := by
  by_cases h0 : q = 0
  · subst h0; simp
  have hq : 0 < |q| := abs_pos.mpr h0
  have hq' : 0 < |(q : ℝ)| := abs_pos.mpr (by exact_mod_cast h0)
  apply le_antisymm
  · rw [← Int.zpow_le_iff_le_log (by norm_num) hq]
    have := Int.zpow_log_le_self (b := 2) (by norm_num) hq'
    rw [← Rat.cast_le (K := ℝ)]; push_cast at this ⊢; exact this
  · rw [← Int.zpow_le_iff_le_log (by norm_num) hq']
    have := Int.zpow_log_le_self (b := 2) (by norm_num) hq
    rw [← Rat.cast_le (K := ℝ)] at this; push_cast at this ⊢; exact this

theorem rndR_f32 (q : ℚ) : rndR 23 (-126) (q : ℝ) = (f32 q : ℚ) := by
  have hu : ulpR 23 (-126) (q : ℝ) = ((ulp32 q : ℚ) : ℝ) := by
    unfold ulpR ulp32; rw [log_rat]; push_cast; rfl
  unfold rndR f32
  rw [hu, ← Rat.cast_div, rneR_rat]; push_cast; rfl

theorem rndR_f64 (q : ℚ) : rndR 52 (-1022) (q : ℝ) = (f64 q : ℚ) := by
  have hu : ulpR 52 (-1022) (q : ℝ) = ((ulp64 q : ℚ) : ℝ) := by
    unfold ulpR ulp64; rw [log_rat]; push_cast; rfl
  unfold rndR f64
  rw [hu, ← Rat.cast_div, rneR_rat]; push_cast; rfl

/-! ### Spacing -/

variable {P : ℕ} {E : ℤ}

theorem two_zpow_leR {a b : ℤ} (h : a ≤ b) : (2 : ℝ) ^ a ≤ 2 ^ b := zpow_le_zpow_right₀ (by norm_num) h

theorem zpow_splitR (a b : ℤ) : (2 : ℝ) ^ (a + b) = 2 ^ a * 2 ^ b := zpow_add₀ (by norm_num) a b

theorem ulpR_pos (P : ℕ) (E : ℤ) (x : ℝ) : 0 < ulpR P E x := by unfold ulpR; exact zpow_pos (by norm_num) _

theorem ulpR_neg (x : ℝ) : ulpR P E (-x) = ulpR P E x := by unfold ulpR; rw [abs_neg]

/-- The exponent used for `x`. -/
noncomputable def expR (E : ℤ) (x : ℝ) : ℤ := max (Int.log 2 |x|) E

theorem ulpR_eq (x : ℝ) : ulpR P E x = (2 : ℝ) ^ (expR E x - P) := rfl

theorem expR_ge (x : ℝ) : E ≤ expR E x := le_max_right _ _

theorem lt_expR (x : ℝ) : |x| < (2 : ℝ) ^ (expR E x + 1) := by
  have h : |x| < ((2 : ℕ) : ℝ) ^ (Int.log 2 |x| + 1) := Int.lt_zpow_succ_log_self (by norm_num) _
  push_cast at h
  refine lt_of_lt_of_le h (two_zpow_leR ?_)
  have := le_max_left (Int.log 2 |x|) E
  unfold expR; omega

theorem expR_le_abs {x : ℝ} (h0 : x ≠ 0) (h : E < expR E x) : (2 : ℝ) ^ expR E x ≤ |x| := by
  have hx : expR E x = Int.log 2 |x| := by
    unfold expR at h ⊢
    rcases le_total (Int.log 2 |x|) E with h' | h'
    · rw [max_eq_right h'] at h; omega
    · exact max_eq_left h'
  rw [hx]
  have := Int.zpow_log_le_self (b := 2) (r := |x|) (by norm_num) (abs_pos.mpr h0)
  push_cast at this; exact this

theorem expR_mono {x y : ℝ} (h0 : 0 < x) (h : x ≤ y) : expR E x ≤ expR E y := by
  unfold expR
  rw [abs_of_pos h0, abs_of_pos (lt_of_lt_of_le h0 h)]
  exact max_le_max (Int.log_mono_right h0 h) (le_refl _)

theorem expR_lt {x : ℝ} {k : ℤ} (h0 : x ≠ 0) (h : |x| < (2 : ℝ) ^ k) (hk : E < k) : expR E x < k := by
  unfold expR
  refine max_lt ?_ hk
  by_contra hc
  have hc' : k ≤ Int.log 2 |x| := by omega
  have := Int.zpow_log_le_self (b := 2) (r := |x|) (by norm_num) (abs_pos.mpr h0)
  push_cast at this
  have := two_zpow_leR hc'
  linarith

theorem expR_eq {x : ℝ} {k : ℤ} (h1 : (2 : ℝ) ^ k ≤ |x|) (h2 : |x| < (2 : ℝ) ^ (k + 1)) (hk : E ≤ k) : expR E x = k := by
  have h0 : x ≠ 0 := by
    rintro rfl
    rw [abs_zero] at h1
    exact absurd h1 (not_le.mpr (zpow_pos (by norm_num) _))
  have h3 := expR_lt (E := E) h0 h2 (by omega)
  have h4 : k ≤ Int.log 2 |x| := (Int.zpow_le_iff_le_log (b := 2) (by norm_num) (abs_pos.mpr h0)).mp (by push_cast; exact h1)
  have h5 : Int.log 2 |x| ≤ expR E x := le_max_left _ _
  omega

/-! ### Rounding -/

theorem rndR_zero (P : ℕ) (E : ℤ) : rndR P E 0 = 0 := by
  unfold rndR
  rw [zero_div, show (0 : ℝ) = ((0 : ℤ) : ℝ) by norm_num, rneR_int]
  norm_num

theorem rndR_neg (x : ℝ) : rndR P E (-x) = -rndR P E x := by
  unfold rndR
  rw [ulpR_neg, neg_div, rneR_neg]; push_cast; ring

theorem rndR_nonneg {x : ℝ} (h : 0 ≤ x) : 0 ≤ rndR P E x := by
  unfold rndR
  refine mul_nonneg ?_ (ulpR_pos P E x).le
  have : rneR 0 ≤ rneR (x / ulpR P E x) := rneR_mono (div_nonneg h (ulpR_pos P E x).le)
  have h0 : rneR 0 = 0 := by have := rneR_int 0; simpa using this
  rw [h0] at this
  exact_mod_cast this

/-- The rounding error is at most half the spacing. -/
theorem rndR_err (x : ℝ) : |rndR P E x - x| ≤ ulpR P E x / 2 := by
  have hu := ulpR_pos P E x
  have h := rneR_err (x / ulpR P E x)
  have he : rndR P E x - x = (rneR (x / ulpR P E x) - x / ulpR P E x) * ulpR P E x := by
    unfold rndR; field_simp
  rw [he, abs_mul, abs_of_pos hu]
  nlinarith

theorem pow_ulpR (x : ℝ) : ((2 ^ (P + 1) : ℤ) : ℝ) * ulpR P E x = (2 : ℝ) ^ (expR E x + 1) := by
  rw [ulpR_eq, show expR E x + 1 = ((P + 1 : ℕ) : ℤ) + (expR E x - P) by push_cast; ring, zpow_splitR, zpow_natCast]
  norm_num

theorem pow_ulpR' (x : ℝ) : ((2 ^ P : ℤ) : ℝ) * ulpR P E x = (2 : ℝ) ^ expR E x := by
  rw [ulpR_eq, show expR E x = ((P : ℕ) : ℤ) + (expR E x - P) by ring, zpow_splitR, zpow_natCast]
  norm_num

theorem rndR_le_pow {x : ℝ} : rndR P E x ≤ (2 : ℝ) ^ (expR E x + 1) := by
  have hu := ulpR_pos P E x
  have h1 : x / ulpR P E x ≤ ((2 ^ (P + 1) : ℤ) : ℝ) := by
    rw [div_le_iff₀ hu, pow_ulpR]
    exact (le_abs_self x).trans (lt_expR x).le
  have h2 := rneR_mono h1
  rw [rneR_int] at h2
  have h3 : (rneR (x / ulpR P E x) : ℝ) ≤ ((2 ^ (P + 1) : ℤ) : ℝ) := by exact_mod_cast h2
  unfold rndR
  calc (rneR (x / ulpR P E x) : ℝ) * ulpR P E x ≤ ((2 ^ (P + 1) : ℤ) : ℝ) * ulpR P E x := mul_le_mul_of_nonneg_right h3 hu.le
    _ = _ := pow_ulpR x

theorem pow_le_rndR {x : ℝ} (h0 : 0 < x) (h : E < expR E x) : (2 : ℝ) ^ expR E x ≤ rndR P E x := by
  have hu := ulpR_pos P E x
  have h1 : ((2 ^ P : ℤ) : ℝ) ≤ x / ulpR P E x := by
    rw [le_div_iff₀ hu, pow_ulpR']
    have h := expR_le_abs h0.ne' h
    rwa [abs_of_pos h0] at h
  have h2 := rneR_mono h1
  rw [rneR_int] at h2
  have h3 : ((2 ^ P : ℤ) : ℝ) ≤ (rneR (x / ulpR P E x) : ℝ) := by exact_mod_cast h2
  unfold rndR
  rw [← pow_ulpR' (P := P)]
  exact mul_le_mul_of_nonneg_right h3 hu.le

theorem rndR_mono_pos {x y : ℝ} (h0 : 0 < x) (h : x ≤ y) : rndR P E x ≤ rndR P E y := by
  rcases (expR_mono (E := E) h0 h).lt_or_eq with hl | he
  · have h1 := expR_ge (E := E) x
    calc rndR P E x ≤ (2 : ℝ) ^ (expR E x + 1) := rndR_le_pow
      _ ≤ 2 ^ expR E y := two_zpow_leR (by omega)
      _ ≤ rndR P E y := pow_le_rndR (lt_of_lt_of_le h0 h) (by omega)
  · have hu : ulpR P E x = ulpR P E y := by rw [ulpR_eq, ulpR_eq, he]
    unfold rndR
    rw [hu]
    have := ulpR_pos P E y
    refine mul_le_mul_of_nonneg_right ?_ this.le
    exact_mod_cast rneR_mono (div_le_div_of_nonneg_right h this.le)

/-- Rounding is monotone. -/
theorem rndR_mono {x y : ℝ} (h : x ≤ y) : rndR P E x ≤ rndR P E y := by
  rcases lt_trichotomy x 0 with hx | hx | hx
  · rcases lt_or_ge y 0 with hy | hy
    · have := rndR_mono_pos (P := P) (E := E) (x := -y) (y := -x) (by linarith) (by linarith)
      rw [rndR_neg, rndR_neg] at this; linarith
    · have h1 := rndR_nonneg (P := P) (E := E) (x := -x) (by linarith)
      rw [rndR_neg] at h1
      have h2 := rndR_nonneg (P := P) (E := E) hy
      linarith
  · subst hx; rw [rndR_zero]; exact rndR_nonneg h
  · exact rndR_mono_pos hx h

/-- The numbers of the format (of unbounded exponent). -/
def RepR (P : ℕ) (E : ℤ) (x : ℝ) : Prop := ∃ m k : ℤ, |m| ≤ 2 ^ (P + 1) ∧ E - P ≤ k ∧ x = m * 2 ^ k

/-- They are not changed by rounding. -/
theorem rndR_rep {x : ℝ} (h : RepR P E x) : rndR P E x = x := by
  obtain ⟨m, k, hm, hk, rfl⟩ := h
  by_cases h0 : (m : ℝ) * 2 ^ k = 0
  · rw [h0, rndR_zero]
  have hm0 : m ≠ 0 := by rintro rfl; simp at h0
  suffices hs : ∃ n : ℤ, (m : ℝ) * 2 ^ k / ulpR P E (m * 2 ^ k) = n by
    obtain ⟨n, hn⟩ := hs
    unfold rndR
    rw [hn, rneR_int, ← hn]
    field_simp [(ulpR_pos _ _ _).ne']
  have habs : |(m : ℝ) * 2 ^ k| = |m| * 2 ^ k := by
    rw [abs_mul, abs_of_pos (zpow_pos (by norm_num : (0 : ℝ) < 2) k)]; push_cast; rfl
  have key : ∀ j : ℤ, expR E ((m : ℝ) * 2 ^ k) - P ≤ j → ∀ n : ℤ, (m : ℝ) * 2 ^ k = n * 2 ^ j →
      ∃ n : ℤ, (m : ℝ) * 2 ^ k / ulpR P E (m * 2 ^ k) = n := by
    intro j hj n hn
    obtain ⟨d, hd⟩ : ∃ d : ℕ, j - (expR E ((m : ℝ) * 2 ^ k) - P) = d := ⟨(j - (expR E ((m : ℝ) * 2 ^ k) - P)).toNat, by omega⟩
    refine ⟨n * 2 ^ d, ?_⟩
    rw [div_eq_iff (ulpR_pos _ _ _).ne', ulpR_eq]
    rw [hn]
    conv_lhs => rw [show j = (d : ℤ) + (expR E ((m : ℝ) * 2 ^ k) - P) by omega]
    rw [zpow_splitR, zpow_natCast, hn]; push_cast; ring
  rcases hm.lt_or_eq with hlt | heq
  · refine key k ?_ m rfl
    have h1 : |(m : ℝ) * 2 ^ k| < (2 : ℝ) ^ (((P + 1 : ℕ) : ℤ) + k) := by
      rw [habs, zpow_splitR, zpow_natCast]
      refine mul_lt_mul_of_pos_right ?_ (zpow_pos (by norm_num) k)
      have : ((|m| : ℤ) : ℝ) < ((2 ^ (P + 1) : ℤ) : ℝ) := Int.cast_lt.mpr hlt
      push_cast at this ⊢; exact this
    have := expR_lt (E := E) h0 h1 (by push_cast; omega)
    push_cast at this
    omega
  · have h1 : |(m : ℝ) * 2 ^ k| < (2 : ℝ) ^ (((P + 2 : ℕ) : ℤ) + k) := by
      rw [habs, zpow_splitR, zpow_natCast]
      refine mul_lt_mul_of_pos_right ?_ (zpow_pos (by norm_num) k)
      rw [heq]; push_cast
      exact pow_lt_pow_right₀ (by norm_num) (by omega)
    have h2 := expR_lt (E := E) h0 h1 (by push_cast; omega)
    push_cast at h2
    have h3 : ∃ q, m = 2 * q := by
      rw [pow_succ] at heq
      rcases abs_choice m with h | h
      · exact ⟨2 ^ P, by omega⟩
      · exact ⟨-2 ^ P, by omega⟩
    obtain ⟨q, rfl⟩ := h3
    refine key (k + 1) (by omega) q ?_
    rw [zpow_splitR]; push_cast; ring

/-- The result of rounding is a number of the format. -/
theorem repR_rndR (x : ℝ) : RepR P E (rndR P E x) := by
  refine ⟨rneR (x / ulpR P E x), expR E x - P, ?_, ?_, ?_⟩
  · have hb : ∀ y : ℝ, rneR (y / ulpR P E y) ≤ 2 ^ (P + 1) := by
      intro y
      have h1 : y / ulpR P E y ≤ ((2 ^ (P + 1) : ℤ) : ℝ) := by
        rw [div_le_iff₀ (ulpR_pos P E y), pow_ulpR]
        exact (le_abs_self y).trans (lt_expR y).le
      have h2 := rneR_mono h1
      rwa [rneR_int] at h2
    have h1 := hb x
    have h2 := hb (-x)
    rw [ulpR_neg, neg_div, rneR_neg] at h2
    rw [abs_le]; constructor <;> omega
  · have := expR_ge (E := E) x; omega
  · unfold rndR; rw [ulpR_eq]

theorem repR_nat {n : ℕ} (h : n ≤ 2 ^ (P + 1)) (hE : E ≤ P) : RepR P E (n : ℝ) :=
  ⟨n, 0, by rw [abs_of_nonneg (by omega)]; exact_mod_cast h, by omega, by simp⟩

/-- Above the smallest normal number the error is relative. -/
theorem rndR_err_rel {x : ℝ} (h : (2 : ℝ) ^ E ≤ |x|) : |rndR P E x - x| ≤ |x| / 2 ^ (P + 1) := by
  have h0 : x ≠ 0 := by
    rintro rfl
    have : (0 : ℝ) < 2 ^ E := zpow_pos (by norm_num) _
    rw [abs_zero] at h; exact absurd this (not_lt.mpr h)
  have h1 : (2 : ℝ) ^ expR E x ≤ |x| := by
    have hlog : expR E x = Int.log 2 |x| :=
      max_eq_left ((Int.zpow_le_iff_le_log (b := 2) (r := |x|) (x := E) (by norm_num) (abs_pos.mpr h0)).mp (by push_cast; exact h))
    rw [hlog]
    have := Int.zpow_log_le_self (b := 2) (r := |x|) (by norm_num) (abs_pos.mpr h0)
    push_cast at this; exact this
  refine (rndR_err x).trans ?_
  have h2 := pow_ulpR' (P := P) (E := E) x
  rw [le_div_iff₀ (by positivity)]
  calc ulpR P E x / 2 * 2 ^ (P + 1) = ((2 ^ P : ℤ) : ℝ) * ulpR P E x := by push_cast; rw [pow_succ]; ring
    _ ≤ |x| := by rw [h2]; exact h1

/-- In general: relative to the magnitude, or to the spacing of the subnormal numbers. -/
theorem rndR_err_abs (x : ℝ) : |rndR P E x - x| ≤ |x| / 2 ^ (P + 1) + (2 : ℝ) ^ (E - P - 1) := by
  have hp : (0 : ℝ) ≤ |x| / 2 ^ (P + 1) := by positivity
  have ht : (0 : ℝ) < (2 : ℝ) ^ (E - P - 1) := zpow_pos (by norm_num) _
  by_cases h : (2 : ℝ) ^ E ≤ |x|
  · exact (rndR_err_rel h).trans (by linarith)
  · by_cases h0 : x = 0
    · subst h0; rw [rndR_zero]; simp; exact ht.le
    · have hl : expR E x < E + 1 := expR_lt h0 (lt_of_lt_of_le (not_le.mp h) (two_zpow_leR (by omega))) (by omega)
      have h1 := expR_ge (E := E) x
      have he : expR E x = E := by omega
      refine (rndR_err x).trans ?_
      rw [ulpR_eq, he]
      have : (2 : ℝ) ^ (E - (P : ℤ)) / 2 = (2 : ℝ) ^ (E - P - 1) := by
        rw [zpow_sub_one₀ (by norm_num)]; ring
      rw [this]; linarith

/-- The square root of the square of a number of the format, both rounded, is not below the number, unless the square
underflows. -/
theorem sqrt_sq_rndR {x : ℝ} (hx : RepR P E x) (h : (2 : ℝ) ^ E ≤ x ^ 2) (hE : E ≤ 0) :
    |x| ≤ rndR P E (√(rndR P E (x * x))) := by
  have habs : RepR P E |x| := by
    obtain ⟨m, k, hm, hk, rfl⟩ := hx
    exact ⟨|m|, k, by rwa [abs_abs], hk, by rw [abs_mul, abs_of_pos (zpow_pos (by norm_num : (0 : ℝ) < 2) k)]; push_cast; rfl⟩
  have e1 : x * x = |x| * |x| := (abs_mul_abs_self x).symm
  have e2 : x ^ 2 = |x| ^ 2 := (sq_abs x).symm
  rw [e1]
  rw [e2] at h
  generalize |x| = X at *
  clear e1 e2 hx
  have hXX : X ^ 2 = X * X := sq X
  rcases le_or_gt X (√(rndR P E (X * X))) with hge | hlt
  · have := rndR_mono (P := P) (E := E) hge
    rwa [rndR_rep habs] at this
  have h0 : 0 < X := lt_of_le_of_lt (Real.sqrt_nonneg _) hlt
  have hErr := rndR_err_rel (P := P) (E := E) (x := X * X) (by rw [abs_of_pos (by positivity), ← hXX]; exact h)
  rw [abs_of_pos (by positivity : 0 < X * X)] at hErr
  -- the exponent of X
  obtain ⟨e, he⟩ : ∃ e : ℤ, e = expR (E - P) X := ⟨_, rfl⟩
  have hXE : (2 : ℝ) ^ E ≤ X := by
    have h1 : (2 : ℝ) ^ E ≤ 1 := by
      have := two_zpow_leR hE; rwa [zpow_zero] at this
    by_contra hc
    have hc' := not_le.mp hc
    have : X ^ 2 < 2 ^ E := by nlinarith
    linarith
  have hEle : E ≤ Int.log 2 |X| := by
    rw [abs_of_pos h0]
    exact (Int.zpow_le_iff_le_log (b := 2) (by norm_num) h0).mp (by push_cast; exact hXE)
  have hel : e = Int.log 2 |X| := by rw [he]; exact max_eq_left (by omega)
  have hlo : (2 : ℝ) ^ e ≤ X := by
    have := Int.zpow_log_le_self (b := 2) (r := |X|) (by norm_num) (abs_pos.mpr h0.ne')
    rw [← hel, abs_of_pos h0] at this; push_cast at this; exact this
  have hhi : X < (2 : ℝ) ^ (e + 1) := by
    have := Int.lt_zpow_succ_log_self (b := 2) (by norm_num) |X|
    rw [← hel, abs_of_pos h0] at this; push_cast at this; exact this
  have hexp : expR E X = e := expR_eq (by rwa [abs_of_pos h0]) (by rwa [abs_of_pos h0]) (by omega)
  -- X is a multiple of the spacing
  have hr := rndR_rep habs
  unfold rndR at hr
  obtain ⟨U, hU⟩ : ∃ U, U = (2 : ℝ) ^ (e - P) := ⟨_, rfl⟩
  have hU0 : 0 < U := by rw [hU]; exact zpow_pos (by norm_num) _
  have hulp : ulpR P E X = U := by rw [ulpR_eq, hexp, hU]
  rw [hulp] at hr
  generalize rneR (X / U) = n at hr
  have hpU : (2 : ℝ) ^ P * U = 2 ^ e := by
    have := pow_ulpR' (P := P) (E := E) X; rw [hulp, hexp] at this; push_cast at this; exact this
  have hpU' : (2 : ℝ) ^ (P + 1) * U = 2 ^ (e + 1) := by
    have := pow_ulpR (P := P) (E := E) X; rw [hulp, hexp] at this; push_cast at this; exact this
  have hn1 : (2 : ℤ) ^ P ≤ n := by
    have : (2 : ℝ) ^ P * U ≤ n * U := by rw [hpU, hr]; exact hlo
    have := le_of_mul_le_mul_right this hU0
    exact_mod_cast this
  have hn2 : n + 1 ≤ (2 : ℤ) ^ (P + 1) := by
    have : (n : ℝ) * U < (2 : ℝ) ^ (P + 1) * U := by rw [hpU', hr]; exact hhi
    have := lt_of_mul_lt_mul_right this hU0.le
    have : n < (2 : ℤ) ^ (P + 1) := by exact_mod_cast this
    omega
  have hn2' : (n : ℝ) + 1 ≤ 2 ^ (P + 1) := by exact_mod_cast hn2
  rcases eq_or_lt_of_le hn1 with heq | hgt
  · -- a power of two: its square is exact
    exfalso
    have hX : X = 2 ^ e := by rw [← hr, ← hpU, ← heq]; push_cast; rfl
    have hrep : RepR P E (X * X) := by
      refine ⟨1, e + e, by rw [abs_one]; exact_mod_cast Nat.one_le_two_pow, ?_, by rw [hX, zpow_splitR]; push_cast; ring⟩
      have : (2 : ℝ) ^ E ≤ 2 ^ (e + e) := by rw [zpow_splitR, ← hX, ← hXX]; exact h
      have := (zpow_le_zpow_iff_right₀ (by norm_num : (1 : ℝ) < 2)).mp this
      omega
    rw [rndR_rep hrep, Real.sqrt_mul_self h0.le] at hlt
    exact lt_irrefl _ hlt
  · have hgt' : (2 : ℝ) ^ P + 1 ≤ n := by exact_mod_cast (by omega : (2 : ℤ) ^ P + 1 ≤ n)
    generalize hs : rndR P E (X * X) = s at *
    obtain ⟨Q, hQ⟩ : ∃ Q, Q = (2 : ℝ) ^ (P + 1) := ⟨_, rfl⟩
    have hQ2 : (2 : ℝ) ≤ Q := by
      rw [hQ, pow_succ]
      have : (1 : ℝ) ≤ 2 ^ P := one_le_pow₀ (by norm_num)
      linarith
    rw [← hQ] at hErr hn2'
    have hXn : X = n * U := hr.symm
    have hn0 : (0 : ℝ) < n := by
      have : (0 : ℝ) < 2 ^ P := by positivity
      linarith
    -- the root is less than half a step below
    have hy : X - U / 2 < √s := by
      apply Real.lt_sqrt_of_sq_lt
      have h1 := (abs_le.mp hErr).1
      have h2 : X * X / Q = n * n * (U * U) / Q := by rw [hXn]; ring
      have h3 : (n : ℝ) * n / Q ≤ n - n / Q := by
        rw [div_le_iff₀ (by linarith)]
        have : ((n : ℝ) - n / Q) * Q = n * Q - n := by field_simp
        rw [this]; nlinarith
      have h5 : (n : ℝ) / Q > 1 / 4 := by
        rw [gt_iff_lt, lt_div_iff₀ (by linarith), hQ, pow_succ]; linarith [pow_pos (by norm_num : (0 : ℝ) < 2) P]
      have h4 : X * X / Q < (n - 1 / 4) * (U * U) := by
        rw [h2, mul_div_right_comm]
        exact mul_lt_mul_of_pos_right (by linarith) (by positivity)
      have h6 : (X - U / 2) ^ 2 = X * X - (n - 1 / 4) * (U * U) := by rw [hXn]; ring
      rw [h6]; linarith
    have hylo : (2 : ℝ) ^ e ≤ √s := by
      have : (2 : ℝ) ^ e + U ≤ X := by rw [← hpU, hXn]; nlinarith
      linarith
    have hy0 : 0 < √s := lt_of_lt_of_le (zpow_pos (by norm_num) _) hylo
    have hyexp : expR E √s = e :=
      expR_eq (by rwa [abs_of_pos hy0]) (by rw [abs_of_pos hy0]; linarith) (by omega)
    have hyulp : ulpR P E √s = U := by rw [ulpR_eq, hyexp, hU]
    have hround : rneR (√s / U) = n := by
      apply rneR_near
      rw [abs_lt]
      constructor
      · rw [lt_sub_iff_add_lt, lt_div_iff₀ hU0]; rw [hXn] at hy; linarith
      · rw [sub_lt_iff_lt_add, div_lt_iff₀ hU0]; rw [hXn] at hlt; linarith
    unfold rndR
    rw [hyulp, hround, hr]

end PAN
