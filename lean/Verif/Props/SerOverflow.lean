import Verif.Model.SerOverflow
import Verif.Props.QuaternionSerRnd
/-!
C98 and C99 with overflow: where it sets in, what has been proved without it holds below, and what happens above.
-/
namespace PAN
open Spec BitArray FltSer QuatSer
noncomputable section

theorem held_some {top x : ℝ} (h : |x| < top) : held top x = some x := if_neg (not_le.mpr h)
theorem held_none {top x : ℝ} (h : top ≤ |x|) : held top x = none := if_pos h

section
variable {A : FltLib} {u t d : ℝ}

/-- A rounded number is at most twice as large, and a little. -/
theorem acc_abs (h : Accurate A u t d) (x : ℝ) : |A.r x| ≤ (1 + u) * |x| + t := by
  have := h.err x
  have h1 : |A.r x| ≤ |A.r x - x| + |x| := by
    calc |A.r x| = |(A.r x - x) + x| := by ring_nf
      _ ≤ _ := abs_add_le _ _
  linarith

/-- The length as it is held, if nothing overflows on the way. -/
theorem normO4_some (h : Accurate A u t d) {q : Fin 4 → ℝ} {top : ℝ} (h1 : 4 ≤ top) (hl : 2 * length4 q ^ 2 ≤ top) :
    normO4 A top q = some (normR4 A q) := by
  obtain ⟨hu0, hu1, ht0, htu, -, -⟩ := h.range
  have hu2 : u ≤ 1 / 1000 := hu1.trans (by norm_num)
  have ht2 : t ≤ 1 / 1000 := by
    have : t * 1 ≤ t * 2 ^ 53 := mul_le_mul_of_nonneg_left (by norm_num) ht0
    linarith
  have hm2 : length4 q ^ 2 = q 0 ^ 2 + q 1 ^ 2 + q 2 ^ 2 + q 3 ^ 2 := by unfold length4; rw [Real.sq_sqrt (by positivity)]
  rw [hm2] at hl
  unfold normO4 normR4
  generalize q 0 = x at *
  generalize q 1 = y at *
  generalize q 2 = z at *
  generalize q 3 = v at *
  have hx0 := sq_nonneg x
  have hy0 := sq_nonneg y
  have hz0 := sq_nonneg z
  have hv0 := sq_nonneg v
  have step : ∀ s : ℝ, 0 ≤ s → A.r s ≤ (1 + u) * s + t ∧ 0 ≤ A.r s := by
    intro s hs
    have := acc_abs h s
    rw [abs_of_nonneg hs] at this
    exact ⟨(le_abs_self _).trans this, acc_nonneg h hs⟩
  have ex := step (x ^ 2) hx0
  have ey := step (y ^ 2) hy0
  have ez := step (z ^ 2) hz0
  have ev := step (v ^ 2) hv0
  rw [← sq, ← sq, ← sq, ← sq]
  generalize A.r (x ^ 2) = a at *
  generalize A.r (y ^ 2) = b at *
  generalize A.r (z ^ 2) = c at *
  generalize A.r (v ^ 2) = f at *
  generalize x ^ 2 = X at *
  generalize y ^ 2 = Y at *
  generalize z ^ 2 = Z at *
  generalize v ^ 2 = V at *
  have k : ∀ s : ℝ, 0 ≤ s → u * s ≤ s / 1000 := fun s hs => by nlinarith
  have kx := k X hx0
  have ky := k Y hy0
  have kz := k Z hz0
  have kv := k V hv0
  have e1 := step (a + b) (add_nonneg ex.2 ey.2)
  have k1 := k (a + b) (add_nonneg ex.2 ey.2)
  have e2 := step (A.r (a + b) + c) (add_nonneg e1.2 ez.2)
  have k2 := k (A.r (a + b) + c) (add_nonneg e1.2 ez.2)
  have e3 := step (A.r (A.r (a + b) + c) + f) (add_nonneg e2.2 ev.2)
  have k3 := k (A.r (A.r (a + b) + c) + f) (add_nonneg e2.2 ev.2)
  rw [held_some (x := a) (by rw [abs_of_nonneg ex.2]; linarith), held_some (x := b) (by rw [abs_of_nonneg ey.2]; linarith),
    held_some (x := c) (by rw [abs_of_nonneg ez.2]; linarith), held_some (x := f) (by rw [abs_of_nonneg ev.2]; linarith)]
  simp only [Option.pure_def, Option.bind_eq_bind, Option.bind_some]
  rw [held_some (x := A.r (a + b)) (by rw [abs_of_nonneg e1.2]; linarith)]
  simp only [Option.bind_some]
  rw [held_some (x := A.r (A.r (a + b) + c)) (by rw [abs_of_nonneg e2.2]; linarith)]
  simp only [Option.bind_some]
  rw [held_some (x := A.r (A.r (A.r (a + b) + c) + f)) (by rw [abs_of_nonneg e3.2]; linarith)]
  simp only [Option.bind_some]

/-- Below the overflow the bits are those of rounding alone. -/
theorem quat_serializeO_eq (h : Accurate A u t d) {q : Fin 4 → ℝ} {top : ℝ} (h1 : 4 ≤ top) (hl : 2 * length4 q ^ 2 ≤ top) :
    QuatSer.serializeO A top (.fin q) = QuatSer.serializeR A (.fin q) := by
  unfold QuatSer.serializeO QuatSer.serializeR normalisedO
  dsimp only
  rw [normO4_some h h1 hl]
  dsimp only
  by_cases hz : normR4 A q = 0
  · rw [if_pos hz, if_pos hz]
  · rw [if_neg hz, if_neg hz]
    rfl

/-- A component whose square overflows makes the length infinite. -/
theorem normO4_none {q : Fin 4 → ℝ} {top : ℝ} (i : Fin 4) (hi : top ≤ |A.r (q i * q i)|) : normO4 A top q = none := by
  unfold normO4
  have hn := held_none hi
  fin_cases i
  · have : held top (A.r (q 0 * q 0)) = none := hn
    rw [this]; rfl
  · have : held top (A.r (q 1 * q 1)) = none := hn
    rw [this]
    cases held top (A.r (q 0 * q 0)) <;> rfl
  · have : held top (A.r (q 2 * q 2)) = none := hn
    rw [this]
    cases held top (A.r (q 0 * q 0)) with
    | none => rfl
    | some a => cases held top (A.r (q 1 * q 1)) with
      | none => rfl
      | some b =>
        simp only [Option.bind_eq_bind, Option.bind_some]
        cases held top (A.r (a + b)) <;> rfl
  · have : held top (A.r (q 3 * q 3)) = none := hn
    rw [this]
    cases held top (A.r (q 0 * q 0)) with
    | none => rfl
    | some a => cases held top (A.r (q 1 * q 1)) with
      | none => rfl
      | some b =>
        simp only [Option.bind_eq_bind, Option.bind_some]
        cases held top (A.r (a + b)) with
        | none => rfl
        | some s =>
          simp only [Option.bind_some]
          cases held top (A.r (q 2 * q 2)) with
          | none => rfl
          | some c =>
            simp only [Option.bind_some]
            cases held top (A.r (s + c)) <;> rfl

theorem maxIdx_zero : maxIdx (fun _ => (0 : ℝ)) = 0 := by
  unfold maxIdx
  simp [List.finRange]

/-- With an infinite length the bits are those of the quaternion (1, 0, 0, 0). -/
theorem quat_overflow_bits (h : Accurate A u t d) {q : Fin 4 → ℝ} {top : ℝ} (i : Fin 4) (hi : top ≤ |A.r (q i * q i)|) :
    QuatSer.serializeO A top (.fin q) = QuatSer.serializeR A (.fin ![1, 0, 0, 0]) := by
  have r0 : A.r 0 = 0 := acc_zero h
  have r1 : A.r 1 = 1 := by
    have := h.ints 1 (by
      obtain ⟨hu0, hu1, -⟩ := h.sizes
      have : u ≤ 1 := hu1.trans (by norm_num)
      simpa using this)
    simpa using this
  have hm : normR4 A ![1, 0, 0, 0] = 1 := by
    unfold normR4
    simp [r0, r1]
  have hk : maxIdx (fun j => A.r ((![1, 0, 0, 0] : Fin 4 → ℝ) j / 1)) = 0 := by
    unfold maxIdx
    have hn : ¬ (1 : ℝ) < 0 := by norm_num
    simp [List.finRange, r0, r1, hn]
  unfold QuatSer.serializeO QuatSer.serializeR normalisedO
  dsimp only
  rw [normO4_none i hi]
  dsimp only
  rw [hm, if_neg one_ne_zero, hk, maxIdx_zero]
  have ho : others 0 = [1, 2, 3] := by decide
  rw [ho]
  simp [r0]
  rfl

end

/-- C99. In `float` arithmetic with overflow every quaternion between 2^-61 and 2^63 long is transmitted to 0.8 %. -/
theorem C99_float_range_partial (A : FltLib) (hr : ∀ x, A.r x = rndR 23 (-126) x) (d : ℝ) (hf : Functions A d) (q : Fin 4 → ℝ)
    (hlen : 1 / 2 ^ 61 ≤ length4 q) (hmax : length4 q ≤ 2 ^ 63) :
    ∃ bits, QuatSer.serializeO A (2 ^ 128) (.fin q) = some bits ∧ bits.length = 32 ∧
      ∃ w, QuatSer.deserializeR A bits = some w ∧ |length4 w - 1| ≤ 1 / 2 ^ 20 ∧
        ∃ σ : ℝ, (σ = 1 ∨ σ = -1) ∧ ∀ i, |w i - σ * (q i / length4 q)| ≤ 8 / 1000 := by
  have hA := C98_float A hr d hf
  have h1 : length4 q ^ 2 ≤ (2 ^ 63 : ℝ) ^ 2 := pow_le_pow_left₀ (Real.sqrt_nonneg _) hmax 2
  rw [quat_serializeO_eq hA (by norm_num) (by
    calc 2 * length4 q ^ 2 ≤ 2 * (2 ^ 63 : ℝ) ^ 2 := by linarith
      _ ≤ 2 ^ 128 := by norm_num)]
  exact C99_float_partial A hr d hf q hlen

-- a quaternion of length 2^62
example : (1 / 2 ^ 61 : ℝ) ≤ length4 ![0, 0, 2 ^ 62, 0] ∧ length4 ![0, 0, 2 ^ 62, 0] ≤ 2 ^ 63 := by
  have h : length4 ![0, 0, 2 ^ 62, 0] = 2 ^ 62 := by
    simp [length4]
  rw [h]; constructor <;> norm_num

theorem square_overflows {A : FltLib} (hr : ∀ x, A.r x = rndR 23 (-126) x) {x : ℝ} (h : 2 ^ 64 ≤ |x|) :
    (2 : ℝ) ^ 128 ≤ |A.r (x * x)| := by
  rw [hr]
  have h1 : (2 : ℝ) ^ 128 ≤ x * x := by
    have : (2 ^ 64 : ℝ) * 2 ^ 64 ≤ |x| * |x| := mul_le_mul h h (by positivity) (abs_nonneg _)
    rw [abs_mul_abs_self] at this
    calc (2 : ℝ) ^ 128 = 2 ^ 64 * 2 ^ 64 := by norm_num
      _ ≤ _ := this
  have h2 : rndR 23 (-126) ((2 : ℝ) ^ 128) = (2 : ℝ) ^ 128 := by
    have := rndR_f32 ((2 : ℚ) ^ 128)
    have e : f32 ((2 : ℚ) ^ 128) = (2 : ℚ) ^ 128 := by decide +kernel
    rw [e] at this
    simpa using this
  have h3 := rndR_mono (P := 23) (E := -126) h1
  rw [h2] at h3
  exact h3.trans (le_abs_self _)

/-- C99. A quaternion of `float` one component of which is 2^64 or more is transmitted as the quaternion (1, 0, 0, 0), whatever
rotation it stands for. -/
theorem C99_counterexample_overflow (A : FltLib) (hr : ∀ x, A.r x = rndR 23 (-126) x) (d : ℝ) (hf : Functions A d) (q : Fin 4 → ℝ)
    (i : Fin 4) (hi : 2 ^ 64 ≤ |q i|) :
    QuatSer.serializeO A (2 ^ 128) (.fin q) = QuatSer.serializeR A (.fin ![1, 0, 0, 0]) ∧
      ∃ bits, QuatSer.serializeO A (2 ^ 128) (.fin q) = some bits ∧
        ∃ w, QuatSer.deserializeR A bits = some w ∧ 99 / 100 ≤ |w 0| ∧ ∀ j, j ≠ 0 → |w j| ≤ 8 / 1000 := by
  have hA := C98_float A hr d hf
  have h1 := quat_overflow_bits hA i (square_overflows hr hi)
  refine ⟨h1, ?_⟩
  have hl : length4 ![1, 0, 0, 0] = 1 := by simp [length4]
  obtain ⟨bits, h2, -, w, h4, -, σ, h6, h7⟩ := C99_float_partial A hr d hf ![1, 0, 0, 0] (by rw [hl]; norm_num)
  refine ⟨bits, h1.trans h2, w, h4, ?_, ?_⟩
  · have := h7 0
    rw [hl] at this
    have e : (![1, 0, 0, 0] : Fin 4 → ℝ) 0 = 1 := rfl
    rw [e] at this
    have ha : |σ * (1 / 1)| = 1 := by rcases h6 with h | h <;> simp [h]
    have hb : |σ * (1 / 1)| ≤ |w 0 - σ * (1 / 1)| + |w 0| := by
      have := abs_add_le (σ * (1 / 1) - w 0) (w 0)
      rw [sub_add_cancel, abs_sub_comm] at this
      exact this
    rw [ha] at hb
    linarith
  · intro j hj
    have := h7 j
    have e : (![1, 0, 0, 0] : Fin 4 → ℝ) j = 0 := by
      fin_cases j <;> simp_all
    rw [e] at this
    simpa using this

-- no rotation at all, held 2^64 long: transmitted as half a turn about the first axis
example : (2 : ℝ) ^ 64 ≤ |(![0, 0, 0, 2 ^ 64] : Fin 4 → ℝ) 3| := by
  show (2 : ℝ) ^ 64 ≤ |2 ^ 64|
  rw [abs_of_pos (by positivity)]

theorem normO_some {A : FltLib} {u t d : ℝ} (h : Accurate A u t d) {x y z top : ℝ} (h1 : 4 ≤ top)
    (hl : 2 * length3 (x, y, z) ^ 2 ≤ top) : VecSer.normO A top x y z = some (VecSer.normR A x y z) := by
  obtain ⟨hu0, hu1, ht0, htu, -, -⟩ := h.range
  have hu2 : u ≤ 1 / 1000 := hu1.trans (by norm_num)
  have ht2 : t ≤ 1 / 1000 := by
    have : t * 1 ≤ t * 2 ^ 53 := mul_le_mul_of_nonneg_left (by norm_num) ht0
    linarith
  have hm2 : length3 (x, y, z) ^ 2 = x ^ 2 + y ^ 2 + z ^ 2 := by unfold length3; rw [Real.sq_sqrt (by positivity)]
  rw [hm2] at hl
  unfold VecSer.normO VecSer.normR
  have hx0 := sq_nonneg x
  have hy0 := sq_nonneg y
  have hz0 := sq_nonneg z
  have step : ∀ s : ℝ, 0 ≤ s → A.r s ≤ (1 + u) * s + t ∧ 0 ≤ A.r s := by
    intro s hs
    have := acc_abs h s
    rw [abs_of_nonneg hs] at this
    exact ⟨(le_abs_self _).trans this, acc_nonneg h hs⟩
  have ex := step (x ^ 2) hx0
  have ey := step (y ^ 2) hy0
  have ez := step (z ^ 2) hz0
  rw [← sq, ← sq, ← sq]
  generalize A.r (x ^ 2) = a at *
  generalize A.r (y ^ 2) = b at *
  generalize A.r (z ^ 2) = c at *
  generalize x ^ 2 = X at *
  generalize y ^ 2 = Y at *
  generalize z ^ 2 = Z at *
  have k : ∀ s : ℝ, 0 ≤ s → u * s ≤ s / 1000 := fun s hs => by nlinarith
  have kx := k X hx0
  have ky := k Y hy0
  have kz := k Z hz0
  have e1 := step (a + b) (add_nonneg ex.2 ey.2)
  have k1 := k (a + b) (add_nonneg ex.2 ey.2)
  have e2 := step (A.r (a + b) + c) (add_nonneg e1.2 ez.2)
  have k2 := k (A.r (a + b) + c) (add_nonneg e1.2 ez.2)
  rw [held_some (x := a) (by rw [abs_of_nonneg ex.2]; linarith), held_some (x := b) (by rw [abs_of_nonneg ey.2]; linarith),
    held_some (x := c) (by rw [abs_of_nonneg ez.2]; linarith)]
  simp only [Option.pure_def, Option.bind_eq_bind, Option.bind_some]
  rw [held_some (x := A.r (a + b)) (by rw [abs_of_nonneg e1.2]; linarith)]
  simp only [Option.bind_some]
  rw [held_some (x := A.r (A.r (a + b) + c)) (by rw [abs_of_nonneg e2.2]; linarith)]
  simp only [Option.bind_some]

/-- C98. With overflow, vectors whose squares stay below half the largest number are transmitted as they are with rounding alone
(`C98_rounded_partial`). -/
theorem C98_rounded_range_partial (A : FltLib) (u t d : ℝ) (hA : Accurate A u t d) (lo hi : ℝ) (p : ℕ) (h0 : VecSer.Range lo hi p) (h : lo < hi)
    (hb1 : VecSer.b1 p ≤ 53 ∧ 2 ^ VecSer.b1 p * u ≤ 1 / 16) (hb2 : VecSer.b2 lo hi p ≤ 53 ∧ 2 ^ VecSer.b2 lo hi p * u ≤ 1 / 16)
    (ht : t * 2 ^ 53 ≤ u * (hi - lo))
    (x y z : ℝ) (nz : Bool) (hz : A.r z = z) (hlen : 8 * t ≤ u * length3 (x, y, z) ^ 2)
    (hx : (x ≠ 0 ∧ 2 * t * length3 (x, y, z) ≤ u * |x|) ∨ (x = 0 ∧ nz = true ∧ y ≠ 0 ∧ 2 * t * length3 (x, y, z) ≤ u * |y|))
    (top : ℝ) (h4 : 4 ≤ top) (hmax : 2 * length3 (x, y, z) ^ 2 ≤ top) :
    ∃ bits, VecSer.serializeO A top lo hi p (.fin x y z nz) = some bits ∧ bits.length = VecSer.totalSize lo hi p ∧
      ∃ w, VecSer.deserializeR A lo hi p bits = some w ∧
        dist3 w (shell lo hi (x, y, z)) ≤ 21 / 10 * ((hi - lo) / 2 ^ p) +
          hi * (220 * u + 11 * d + min (8 * √u) (33 * u * length3 (x, y, z) / √(x ^ 2 + y ^ 2))) := by
  have e : VecSer.serializeO A top lo hi p (.fin x y z nz) = VecSer.serializeR A lo hi p (.fin x y z nz) := by
    unfold VecSer.serializeO
    dsimp only
    rw [normO_some hA h4 hmax]
  rw [e]
  exact C98_rounded_partial A u t d hA lo hi p h0 h hb1 hb2 ht x y z nz hz hlen hx

-- a position in orbit in metres, as `float`; the other hypotheses as beside `C98_rounded_partial`
example : (4 : ℝ) ≤ 2 ^ 128 ∧ 2 * length3 (6800000, 100000, -200000) ^ 2 ≤ 2 ^ 128 := by
  refine ⟨by norm_num, ?_⟩
  unfold length3
  rw [Real.sq_sqrt (by positivity)]
  norm_num

/-- C98. A vector of `float` one component of which is 2^64 or more cannot be transmitted, whatever the field's range: the length
overflows, and the conversion of an angle that is not a number is undefined. It is not cut off at the field's limit like other
long vectors. -/
theorem C98_counterexample_overflow (A : FltLib) (hr : ∀ x, A.r x = rndR 23 (-126) x) (lo hi : ℝ) (p : ℕ) (x y z : ℝ) (nz : Bool)
    (h : 2 ^ 64 ≤ |x| ∨ 2 ^ 64 ≤ |y| ∨ 2 ^ 64 ≤ |z|) : VecSer.serializeO A (2 ^ 128) lo hi p (.fin x y z nz) = none := by
  have hn : VecSer.normO A (2 ^ 128) x y z = none := by
    unfold VecSer.normO
    simp only [Option.bind_eq_bind]
    rcases h with h | h | h
    · rw [held_none (square_overflows hr h)]; rfl
    · rw [held_none (square_overflows hr h)]
      cases held (2 ^ 128) (A.r (x * x)) <;> rfl
    · rw [held_none (square_overflows hr h)]
      cases held (2 ^ 128) (A.r (x * x)) with
      | none => rfl
      | some a => cases held (2 ^ 128) (A.r (y * y)) with
        | none => rfl
        | some b =>
          simp only [Option.bind_some]
          cases held (2 ^ 128) (A.r (a + b)) <;> rfl
  unfold VecSer.serializeO
  dsimp only
  rw [hn]
  simp [VecSer.atanQuotR]

example : (2 : ℝ) ^ 64 ≤ |0| ∨ (2 : ℝ) ^ 64 ≤ |-2 ^ 70| ∨ (2 : ℝ) ^ 64 ≤ |1| := by
  right; left
  rw [abs_neg, abs_of_pos (by positivity)]
  norm_num

end
end PAN
