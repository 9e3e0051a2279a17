import Verif.Model.BitArray
import Verif.Spec.Serializer
import Batteries.Tactic.Init
/-! Lemmas about bit arrays. -/
namespace PAN
open Spec
namespace BitArray

theorem bitsToNat_lt (bs : List Bool) : bitsToNat bs < 2 ^ bs.length := by
  induction bs with
  | nil => simp [bitsToNat]
  | cons b bs ih =>
    simp only [bitsToNat, List.length_cons, Nat.pow_succ]
    cases b <;> simp <;> omega

theorem toUllongLoop_eq (bs : List Bool) : ∀ (v j : Nat), v < 2 ^ j → j + bs.length ≤ 64 →
    toUllongLoop bs v (2 ^ j % 2 ^ 64) = v + 2 ^ j * bitsToNat bs := by
  induction bs with
  | nil => intro v j _ _; simp [toUllongLoop, bitsToNat]
  | cons b bs ih =>
    intro v j hv hj
    simp only [List.length_cons] at hj
    unfold toUllongLoop
    have hjlt : 2 ^ j < 2 ^ 64 := Nat.pow_lt_pow_right (by omega) (by omega)
    have hj1 : 2 ^ (j + 1) ≤ 2 ^ 64 := Nat.pow_le_pow_right (by omega) (by omega)
    have hps : 2 ^ (j + 1) = 2 ^ j * 2 := Nat.pow_succ ..
    rw [Nat.mod_eq_of_lt hjlt, ← hps]
    have hv' : v + b.toNat * 2 ^ j < 2 ^ (j + 1) := by cases b <;> simp <;> omega
    rw [Nat.mod_eq_of_lt (by omega : v + b.toNat * 2 ^ j < 2 ^ 64), ih _ _ hv' (by omega)]
    rw [bitsToNat, hps, Nat.mul_add, Nat.mul_comm (b.toNat), Nat.mul_assoc]; omega

theorem toUllong_eq (bs : List Bool) (h : bs.length ≤ 64) : toUllong bs = bitsToNat bs := by
  have := toUllongLoop_eq bs 0 0 (by simp) (by omega)
  simpa [toUllong] using this

theorem setLoop_eq (val : Nat) : ∀ (arr : List Bool) (i : Nat), i ≤ arr.length → val < 2 ^ (arr.length - i) →
    (∀ j, i ≤ j → arr[j]?.getD false = false) →
    ∃ a, setLoop arr i val = some a ∧ a.length = arr.length ∧ a.take i = arr.take i ∧ bitsToNat (a.drop i) = val := by
  induction val using Nat.strongRecOn with
  | _ val ih =>
    intro arr i hi hv hz
    rw [setLoop]
    by_cases h0 : val > 0
    · have hlt : i < arr.length := by
        by_cases h : i < arr.length
        · exact h
        · have : arr.length - i = 0 := by omega
          rw [this] at hv; omega
      rw [dif_pos h0, if_pos hlt]
      have hsub : arr.length - i = (arr.length - (i + 1)) + 1 := by omega
      rw [hsub, Nat.pow_succ] at hv
      obtain ⟨a, h1, h2, h3, h4⟩ := ih (val / 2) (by omega) (arr.set i (decide (val % 2 = 1))) (i + 1)
        (by simp; omega) (by simp; omega) (by
          intro j hj
          rw [List.getElem?_set_ne (by omega)]
          exact hz j (by omega))
      refine ⟨a, h1, by simpa using h2, ?_, ?_⟩
      · have := congrArg (List.take i) h3
        rw [List.take_take, List.take_take] at this
        have e : min i (i + 1) = i := by omega
        rw [e, List.take_set_of_le (by omega)] at this
        exact this
      · have hil : i < a.length := by rw [h2]; simpa using hlt
        rw [List.drop_eq_getElem_cons hil, bitsToNat, h4]
        have : a[i] = decide (val % 2 = 1) := by
          have := congrArg (fun l => l[i]?) h3
          simp only [List.getElem?_take] at this
          rw [if_pos (by omega), if_pos (by omega), List.getElem?_set_self hlt, List.getElem?_eq_getElem hil] at this
          simpa using this
        rw [this]
        by_cases hm : val % 2 = 1
        · simp [hm]; omega
        · simp [hm]; omega
    · rw [dif_neg h0]
      have h0' : val = 0 := by omega
      subst h0'
      refine ⟨arr, rfl, rfl, rfl, ?_⟩
      have : ∀ l : List Bool, (∀ j : Nat, l[j]?.getD false = false) → bitsToNat l = 0 := by
        intro l
        induction l with
        | nil => intro _; rfl
        | cons b l ihl =>
          intro h
          have hb : b = false := by simpa using h 0
          have hl := ihl (fun j => by simpa using h (j + 1))
          rw [bitsToNat, hb, hl]; rfl
      apply this
      intro j
      rw [List.getElem?_drop]
      exact hz _ (by omega)

theorem toDouble_small {v : Nat} (h : v < 2 ^ 53) : toDouble v = v := by
  unfold toDouble; rw [if_pos h]

theorem toDouble_bounds {v i : Nat} : (v < 2 ^ i → toDouble v ≤ 2 ^ i) ∧ (2 ^ i ≤ v → 2 ^ i ≤ toDouble v) := by
  by_cases h : v < 2 ^ 53
  · rw [toDouble_small h]; omega
  · unfold toDouble
    rw [if_neg h]
    have hv0 : v ≠ 0 := by intro h0; rw [h0] at h; simp at h
    have hl : 53 ≤ v.log2 := (Nat.le_log2 hv0).mpr (by omega)
    have hlo : 2 ^ v.log2 ≤ v := (Nat.le_log2 hv0).mp (Nat.le_refl _)
    have hhi : v < 2 ^ (v.log2 + 1) := (Nat.log2_lt hv0).mp (by omega)
    generalize he : v.log2 - 52 = e at *
    have hle : v.log2 = 52 + e := by omega
    rw [hle] at hlo hhi
    have hep : 0 < 2 ^ e := Nat.pow_pos (by omega)
    have hq1 : 2 ^ 52 ≤ v / 2 ^ e := by
      rw [Nat.le_div_iff_mul_le hep, ← Nat.pow_add]; exact hlo
    have hq2 : v / 2 ^ e < 2 ^ 53 := by
      rw [Nat.div_lt_iff_lt_mul hep, ← Nat.pow_add]
      have : 53 + e = 52 + e + 1 := by omega
      rw [this]; exact hhi
    have hA : 2 ^ (52 + e) ≤ v / 2 ^ e * 2 ^ e := by
      rw [Nat.pow_add]; exact Nat.mul_le_mul_right _ hq1
    have hB : (v / 2 ^ e + 1) * 2 ^ e ≤ 2 ^ (53 + e) := by
      rw [Nat.pow_add]; exact Nat.mul_le_mul_right _ (by omega)
    have hC : v / 2 ^ e * 2 ^ e ≤ (v / 2 ^ e + 1) * 2 ^ e := Nat.mul_le_mul_right _ (by omega)
    constructor
    · intro hi
      have : 53 + e ≤ i := by
        by_contra hc
        have : 2 ^ i ≤ 2 ^ (52 + e) := Nat.pow_le_pow_right (by omega) (by omega)
        omega
      have := Nat.pow_le_pow_right (n := 2) (by omega) this
      simp only
      split <;> omega
    · intro hi
      have : i ≤ 52 + e := by
        by_contra hc
        have : 2 ^ (52 + e + 1) ≤ 2 ^ i := Nat.pow_le_pow_right (by omega) (by omega)
        omega
      have := Nat.pow_le_pow_right (n := 2) (by omega) this
      simp only
      split <;> omega

theorem valNumBits_le_iff (val k : Nat) : ∀ i n, (valNumBits val i k ≤ n ↔
    i + k ≤ n ∨ (i ≤ n ∧ ∃ j, i ≤ j ∧ j < i + k ∧ j ≤ n ∧ 2 ^ j > toDouble val)) := by
  induction k with
  | zero =>
    intro i n
    simp only [valNumBits]
    constructor
    · intro h; left; omega
    · rintro (h | ⟨h, _⟩) <;> omega
  | succ k ih =>
    intro i n
    simp only [valNumBits]
    by_cases h : 2 ^ i > toDouble val
    · rw [if_pos h]
      constructor
      · intro hn; right; exact ⟨hn, i, by omega, by omega, hn, h⟩
      · rintro (h | ⟨h, _⟩) <;> omega
    · rw [if_neg h, ih]
      constructor
      · rintro (h1 | ⟨h1, j, h2, h3, h4, h5⟩)
        · left; omega
        · right; exact ⟨by omega, j, by omega, by omega, h4, h5⟩
      · rintro (h1 | ⟨h1, j, h2, h3, h4, h5⟩)
        · left; omega
        · right
          have : j ≠ i := by intro e; subst e; exact h h5
          exact ⟨by omega, j, by omega, by omega, h4, h5⟩

/-- The acceptance test of `set_ullong`, exactly. -/
theorem numValBitsOk_iff (bs v n : Nat) (_hbs : 1 ≤ bs) : numValBitsOk bs v n = true ↔ bs ≤ n ∨ 2 ^ n > toDouble v := by
  unfold numValBitsOk
  rw [decide_eq_true_eq, valNumBits_le_iff]
  constructor
  · rintro (h | ⟨_, j, h1, h2, h3, h4⟩)
    · left; omega
    · right
      have := Nat.pow_le_pow_right (n := 2) (by omega) h3
      omega
  · rintro (h | h)
    · left; omega
    · by_cases hn : bs ≤ n
      · left; omega
      · right; exact ⟨by omega, n, by omega, by omega, by omega, h⟩

/-- Whatever is accepted is stored exactly. -/
theorem setUllong_accept (arr : List Bool) (v : Nat) (hv : v < 2 ^ 64) (hok : numValBitsOk 64 v arr.length = true) :
    ∃ a, setUllong arr v = some (true, a) ∧ a.length = arr.length ∧ bitsToNat a = v := by
  have hfit : v < 2 ^ arr.length := by
    rcases (numValBitsOk_iff 64 v arr.length (by omega)).mp hok with h | h
    · have := Nat.pow_le_pow_right (n := 2) (by omega) h; omega
    · by_contra hc
      have := (toDouble_bounds (v := v) (i := arr.length)).2 (by omega)
      omega
  obtain ⟨a, h1, h2, h3, h4⟩ := setLoop_eq v (arr.map fun _ => false) 0 (by simp) (by simpa using hfit)
    (by intro j _; rw [List.getElem?_map]; cases arr[j]? <;> rfl)
  refine ⟨a, ?_, by simpa using h2, by simpa using h4⟩
  unfold setUllong; rw [if_pos hok, h1]

theorem setUllong_reject (arr : List Bool) (v : Nat) (hv : 2 ^ arr.length ≤ v) (hl : arr.length < 64) :
    setUllong arr v = some (false, arr) := by
  unfold setUllong
  rw [if_neg]
  rw [numValBitsOk_iff _ _ _ (by omega)]
  have := (toDouble_bounds (v := v) (i := arr.length)).2 hv
  omega

theorem setUllong_small (arr : List Bool) (v : Nat) (hv : v < 2 ^ arr.length) (h53 : v < 2 ^ 53) :
    ∃ a, setUllong arr v = some (true, a) ∧ a.length = arr.length ∧ bitsToNat a = v := by
  apply setUllong_accept
  · have : (2 : Nat) ^ 53 ≤ 2 ^ 64 := by decide
    omega
  · rw [numValBitsOk_iff _ _ _ (by omega), toDouble_small h53]; exact Or.inr hv

end BitArray
end PAN
