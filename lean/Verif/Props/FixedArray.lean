import Verif.Model.FixedArray

/-!
C140: fixed arrays keep their size, and are assigned as a whole or not at all.
-/

namespace PAN
namespace FixedArray

theorem copyLoop_get {α : Type} (src : List α) : ∀ (k i : Nat) (dst : List α), i + k ≤ src.length → dst.length = src.length →
    (copyLoop src dst i k).length = dst.length ∧
    ∀ j, (copyLoop src dst i k)[j]? = if i ≤ j ∧ j < i + k then src[j]? else dst[j]? := by
  intro k
  induction k with
  | zero =>
    intro i dst _ _
    refine ⟨rfl, fun j => ?_⟩
    rw [if_neg (by omega)]
    rfl
  | succ k ih =>
    intro i dst h hl
    have hi : i < src.length := by omega
    unfold copyLoop
    rw [List.getElem?_eq_getElem hi]
    dsimp only
    have hl' : (dst.set i src[i]).length = src.length := by rw [List.length_set, hl]
    obtain ⟨a, b⟩ := ih (i + 1) (dst.set i src[i]) (by omega) hl'
    refine ⟨by rw [a, List.length_set], fun j => ?_⟩
    rw [b j]
    by_cases hj : i + 1 ≤ j ∧ j < i + 1 + k
    · rw [if_pos hj, if_pos (by omega)]
    · rw [if_neg hj]
      by_cases hij : i = j
      · subst hij
        rw [if_pos (by omega), List.getElem?_set_self (by omega), List.getElem?_eq_getElem hi]
      · rw [if_neg (by omega), List.getElem?_set_ne hij]

theorem setLoop_length (n : Nat) : ∀ (val : Nat), val ≤ n → ∀ (arr : List Bool) (i : Nat) (a : List Bool),
    BitArray.setLoop arr i val = some a → a.length = arr.length := by
  induction n with
  | zero =>
    intro val hv arr i a h
    unfold BitArray.setLoop at h
    rw [dif_neg (by omega)] at h
    cases h; rfl
  | succ n ih =>
    intro val hv arr i a h
    unfold BitArray.setLoop at h
    split at h
    · split at h
      · have := ih (val / 2) (by omega) _ _ _ h
        rwa [List.length_set] at this
      · cases h
    · cases h; rfl

theorem setUllong_length (arr : List Bool) (val : Nat) (r : Bool × List Bool) (h : BitArray.setUllong arr val = some r) :
    r.2.length = arr.length := by
  unfold BitArray.setUllong at h
  split at h
  · split at h
    · cases h
    · rename_i a ha
      cases h
      have := setLoop_length val val (Nat.le_refl _) _ _ _ ha
      rwa [List.length_map] at this
  · cases h; rfl

theorem setUint_length (bitsize : Nat) (arr : List Bool) (val : Nat) (r : Bool × List Bool)
    (h : BitArray.setUint bitsize arr val = some r) : r.2.length = arr.length := by
  unfold BitArray.setUint at h
  split at h
  · split at h
    · cases h
    · rename_i b a ha
      cases h
      exact setUllong_length _ _ (b, a) ha
  · cases h; rfl

end FixedArray
open FixedArray

/-- Assignment copies a source of the same size as a whole, and does nothing with any other. -/
theorem C140_assign {α : Type} (dst src : List α) : assign dst src = if src.length = dst.length then src else dst := by
  unfold assign
  by_cases h : src.length = dst.length
  · rw [if_neg (fun hn => hn h), if_pos h]
    obtain ⟨a, b⟩ := copyLoop_get src src.length 0 dst (by omega) h.symm
    apply List.ext_getElem?
    intro j
    rw [b j]
    split
    · rfl
    · rw [List.getElem?_eq_none (by omega), List.getElem?_eq_none (by omega)]
  · rw [if_pos h, if_neg h]

/-- A copy has the size and the contents of its source. -/
theorem C140_copy {α : Type} [Inhabited α] (src : List α) : copy src = src := by
  unfold copy
  rw [C140_assign, if_pos]
  exact (List.length_replicate ..).symm

/-- Whatever sequence of assignments and settings a bit array goes through, its size stays what it was. -/
theorem C140_size (arr arr' : List Bool) (ops : List Op) (h : run arr ops = some arr') : arr'.length = arr.length := by
  induction ops generalizing arr with
  | nil => cases h; rfl
  | cons o os ih =>
    unfold run at h
    obtain ⟨a, ha, h⟩ := Option.bind_eq_some_iff.1 h
    rw [ih a h]
    cases o with
    | assign src =>
      cases ha
      show (assign arr src).length = arr.length
      rw [C140_assign]
      split
      · assumption
      · rfl
    | bit i b =>
      unfold step at ha
      dsimp only at ha
      split at ha
      · cases ha; exact List.length_set ..
      · cases ha
    | ullong val =>
      obtain ⟨r, hr, rfl⟩ := Option.map_eq_some_iff.1 ha
      exact setUllong_length _ _ _ hr
    | uint bitsize val =>
      obtain ⟨r, hr, rfl⟩ := Option.map_eq_some_iff.1 ha
      exact setUint_length _ _ _ _ hr

/-! ### The hypotheses are met -/

example : run [false, false, false] [.ullong 5, .uint 32 9, .assign [true], .bit 1 true, .assign [false, true, true]] =
    some [false, true, true] ∧ run [false, false, false] [.ullong 5, .uint 32 9] = some [true, false, true] ∧
    copy [3, 1, 4] = [3, 1, 4] ∧ assign [3, 1, 4] [1, 5] = [3, 1, 4] ∧ assign [3, 1, 4] [1, 5, 9] = [1, 5, 9] := by
  refine ⟨?_, ?_, by decide, by decide, by decide⟩
  · simp +decide [run, step, BitArray.setUllong, BitArray.setUint, BitArray.numValBitsOk, BitArray.valNumBits,
      BitArray.setLoop]
  · simp +decide [run, step, BitArray.setUllong, BitArray.setUint, BitArray.numValBitsOk, BitArray.valNumBits,
      BitArray.setLoop]

end PAN
