import Verif.Lemmas.BitArray
/-! C04: integers in bit arrays. -/
namespace PAN
open Spec BitArray

/-- C04 (reading): a bit array of at most 64 bits reads back as the number its bits stand for. -/
theorem C04_read_value (arr : List Bool) (h : arr.length ≤ 64) : toUllong arr = bitsToNat arr :=
  toUllong_eq arr h

/-- C04 (partial): storing succeeds exactly when the value fits, in which case reading returns it and the
width is unchanged; otherwise the old contents are kept. Missing: values of 2^53 or more in arrays of 54 to
63 bits, for which the claim is false (see `C04_counterexample_large_value_refused`). -/
theorem C04_store_read_partial (arr : List Bool) (v : Nat) (hv : v < 2 ^ 64) (hl : arr.length ≤ 64)
    (hr : v < 2 ^ 53 ∨ arr.length ≤ 53 ∨ arr.length = 64) :
    (v < 2 ^ arr.length → ∃ a, setUllong arr v = some (true, a) ∧ a.length = arr.length ∧ toUllong a = v) ∧
    (2 ^ arr.length ≤ v → setUllong arr v = some (false, arr)) := by
  constructor
  · intro h
    by_cases h53 : v < 2 ^ 53
    · obtain ⟨a, h1, h2, h3⟩ := setUllong_small arr v h h53
      exact ⟨a, h1, h2, by rw [toUllong_eq _ (by omega), h3]⟩
    · have h64 : arr.length = 64 := by
        rcases hr with h' | h' | h'
        · omega
        · have := Nat.pow_le_pow_right (n := 2) (by omega) h'; omega
        · exact h'
      obtain ⟨a, h1, h2, h3⟩ := setUllong_accept arr v hv ((numValBitsOk_iff _ _ _ (by omega)).mpr (Or.inl (by omega)))
      exact ⟨a, h1, h2, by rw [toUllong_eq _ (by omega), h3]⟩
  · intro h
    apply setUllong_reject _ _ h
    by_contra hc
    have : arr.length = 64 := by omega
    rw [this] at h; omega

/-- C04: for every width up to 64 and every 64-bit value, a store never leaves the array, either stores
exactly the value or keeps the old contents, and never accepts a value that does not fit. -/
theorem C04_store_safe (arr : List Bool) (v : Nat) (hv : v < 2 ^ 64) (hl : arr.length ≤ 64) :
    (∃ a, setUllong arr v = some (true, a) ∧ a.length = arr.length ∧ toUllong a = v ∧ v < 2 ^ arr.length) ∨
    setUllong arr v = some (false, arr) := by
  by_cases hok : numValBitsOk 64 v arr.length = true
  · left
    obtain ⟨a, h1, h2, h3⟩ := setUllong_accept arr v hv hok
    refine ⟨a, h1, h2, by rw [toUllong_eq _ (by omega), h3], ?_⟩
    rw [← h3, ← h2]; exact bitsToNat_lt a
  · right; unfold setUllong; rw [if_neg hok]

/-- C04: the 32-bit entry point agrees with the 64-bit one on every 32-bit value. -/
theorem C04_store_uint (arr : List Bool) (v : Nat) (hv : v < 2 ^ 32) :
    setUint 32 arr v = setUllong arr v := by
  have h53 : v < 2 ^ 53 := by have : (2 : Nat) ^ 32 ≤ 2 ^ 53 := by decide
                              omega
  unfold setUint
  by_cases hok : numValBitsOk 32 v arr.length = true
  · rw [if_pos hok]
    have hfit : v < 2 ^ arr.length := by
      rcases (numValBitsOk_iff _ _ _ (by omega)).mp hok with h | h
      · have := Nat.pow_le_pow_right (n := 2) (by omega) h; omega
      · rw [toDouble_small h53] at h; omega
    obtain ⟨a, h1, -, -⟩ := setUllong_small arr v hfit h53
    rw [h1]
  · rw [if_neg hok]
    have hno : numValBitsOk 64 v arr.length ≠ true := by
      intro h
      apply hok
      rcases (numValBitsOk_iff _ _ _ (by omega)).mp h with h | h
      · exact (numValBitsOk_iff _ _ _ (by omega)).mpr (Or.inl (by omega))
      · exact (numValBitsOk_iff _ _ _ (by omega)).mpr (Or.inr h)
    unfold setUllong; rw [if_neg hno]

/-- C04 does not hold in full: 2^60 - 1 fits in a 60-bit array but is refused, because the fit test
compares in floating point and 2^60 - 1 rounds up to 2^60. -/
theorem C04_counterexample_large_value_refused :
    ∃ (arr : List Bool) (v : Nat), arr.length ≤ 64 ∧ v < 2 ^ arr.length ∧ v < 2 ^ 64 ∧
      setUllong arr v = some (false, arr) := by
  refine ⟨List.replicate 60 true, 2 ^ 60 - 1, by decide, by decide, by decide, ?_⟩
  unfold setUllong
  rw [if_neg]
  decide

/-- Non-vacuity: a 10-bit array holding something else accepts 1000 and refuses 1024. -/
example : toUllong [false, false, false, true, false, true, true, true, true, true] = 1000 ∧
    numValBitsOk 64 1000 10 = true ∧ numValBitsOk 64 1024 10 = false := by decide

end PAN
