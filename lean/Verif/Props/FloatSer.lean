import Verif.Lemmas.FloatSer
import Verif.Lemmas.Float64
/-!
C97: fields of real numbers are transmitted to within one step of their format.
-/
namespace PAN
open Spec BitArray
namespace FltSer
variable {K : Type} [Field K] [LinearOrder K] [IsStrictOrderedRing K] [FloorRing K]

/-- A field whose format suits the precision of its numbers: a proper range, 1 to 53 bits, whole numbers up to the number of
steps are exact, and rounding is far finer than a step. -/
structure Fits (ρ : Rnd K) (s : FltSer K) : Prop where
  lt : s.min < s.max
  len : 1 ≤ s.bits.length ∧ s.bits.length ≤ 53
  ints : ∀ k : ℕ, k ≤ 2 ^ s.bits.length → ρ.r k = k
  small : 2 ^ s.bits.length * ρ.eps ≤ 1 / 16
  normal : ρ.tiny * 2 ^ s.bits.length ≤ ρ.eps * (s.max - s.min)
  tiny : ρ.tiny ≤ ρ.eps

/-- The size of a step. -/
def step (s : FltSer K) : K := (s.max - s.min) / (2 ^ s.bits.length - 1)

end FltSer
open FltSer
variable {K : Type} [Field K] [LinearOrder K] [IsStrictOrderedRing K] [FloorRing K]

/-- What the theorems need of a suitable field, in the terms of the estimates. -/
theorem fits_facts {ρ : Rnd K} {s : FltSer K} (h : s.Fits ρ) :
    ∃ n : ℕ, intervals s.bits.length = some n ∧ n + 1 = 2 ^ s.bits.length ∧ 1 ≤ n ∧ ρ.r n = n ∧
      0 < s.step ∧ s.step * n = s.max - s.min ∧ ρ.eps ≤ 1 / 32 ∧ (n + 1 : K) * ρ.eps ≤ 1 / 16 ∧
      s.resolution ρ.r n = ρ.r (ρ.r (s.max - s.min) / n) ∧
      (0 < ρ.r (s.max - s.min) ∧ ρ.r (s.max - s.min) / n * (1 - 3 * ρ.eps) ≤ s.resolution ρ.r n ∧
        0 < s.resolution ρ.r n ∧ s.resolution ρ.r n ≤ s.step * (1 + 5 * ρ.eps) ∧
        ρ.r (s.max - s.min) ≤ s.step * n * (1 + 2 * ρ.eps) ∧ ρ.tiny ≤ ρ.eps * s.step) := by
  obtain ⟨hl1, hl2⟩ := h.len
  have hpow : 2 ≤ 2 ^ s.bits.length := by
    calc 2 = 2 ^ 1 := rfl
      _ ≤ _ := Nat.pow_le_pow_right (by omega) hl1
  have hn1 : 2 ^ s.bits.length - 1 + 1 = 2 ^ s.bits.length := by omega
  have hcast : ((2 ^ s.bits.length - 1 : ℕ) : K) + 1 = 2 ^ s.bits.length := by
    have := congrArg (Nat.cast (R := K)) hn1
    push_cast at this ⊢
    exact this
  have hn1K : (1 : K) ≤ ((2 ^ s.bits.length - 1 : ℕ) : K) := by exact_mod_cast (by omega : 1 ≤ 2 ^ s.bits.length - 1)
  have hn0K : (0 : K) < ((2 ^ s.bits.length - 1 : ℕ) : K) := by linarith
  have hD : 0 < s.max - s.min := sub_pos.mpr h.lt
  have hstep : s.step = (s.max - s.min) / ((2 ^ s.bits.length - 1 : ℕ) : K) := by
    unfold step; congr 1; rw [← hcast]; ring
  have hstep0 : 0 < s.step := by rw [hstep]; exact div_pos hD hn0K
  have hstepn : s.step * ((2 ^ s.bits.length - 1 : ℕ) : K) = s.max - s.min := by rw [hstep]; field_simp
  have hsm : (((2 ^ s.bits.length - 1 : ℕ) : K) + 1) * ρ.eps ≤ 1 / 16 := by rw [hcast]; exact h.small
  have he32 : ρ.eps ≤ 1 / 32 := by nlinarith [ρ.epsPos]
  have hints := h.ints (2 ^ s.bits.length - 1) (by omega)
  have hres : s.resolution ρ.r (2 ^ s.bits.length - 1) =
      ρ.r (ρ.r (s.max - s.min) / ((2 ^ s.bits.length - 1 : ℕ) : K)) := by
    unfold resolution; rw [if_pos (by omega), hints]
  refine ⟨2 ^ s.bits.length - 1, by unfold intervals; rw [if_pos hl2], hn1, by omega, hints, hstep0, hstepn, he32, hsm, hres, ?_⟩
  rw [hres]
  refine resolution_bound ρ.epsPos ρ.tinyPos hstep0 hn1K he32 ?_ ?_ ?_ ?_
  · rw [hcast, hstepn]; exact h.normal
  · field_simp
  · rw [hstepn]
    have := ρ.err (s.max - s.min); rwa [abs_of_pos hD] at this
  · have h0 : 0 ≤ ρ.r (s.max - s.min) / ((2 ^ s.bits.length - 1 : ℕ) : K) := by
      refine div_nonneg ?_ hn0K.le
      have := ρ.mono 0 _ hD.le
      have h0 := h.ints 0 (by omega)
      rw [Nat.cast_zero] at h0
      rwa [h0] at this
    have := ρ.err (ρ.r (s.max - s.min) / ((2 ^ s.bits.length - 1 : ℕ) : K))
    rwa [abs_of_nonneg h0] at this

/-- C97. Whatever finite number is written into a suitable field, it is transmitted, and what the receiver decodes is the
closest value of the range, to one step and twenty rounding errors. -/
theorem C97_accuracy (ρ : Rnd K) (s : FltSer K) (h : s.Fits ρ) (x : K) :
    ∃ s', s.serialize ρ.r (.fin x) = some s' ∧ s'.min = s.min ∧ s'.max = s.max ∧ s'.bits.length = s.bits.length ∧
      ∃ w, s'.deserialize ρ.r = some w ∧
        |w - nearest s.min s.max x| ≤ s.step + 20 * ρ.eps * (|s.min| + |s.max|) := by
  obtain ⟨n, hn, hn1, hn1', hnr, hU, hUn, he32, hsm, hres, hd0, hslow, hs0, hs, hdle, htU⟩ := fits_facts h
  have hnK : (1 : K) ≤ (n : K) := by exact_mod_cast hn1'
  have hn0K : (0 : K) < (n : K) := by linarith
  have hD : 0 < s.max - s.min := sub_pos.mpr h.lt
  have hr0 : ρ.r 0 = 0 := by have := h.ints 0 (by omega); rwa [Nat.cast_zero] at this
  have hx := nearest_mem h.lt.le x
  have hc := clamp_fin s h.lt.le x
  generalize hx' : nearest s.min s.max x = c at hx hc
  have hX0 : 0 ≤ c - s.min := sub_nonneg.mpr hx.1
  have hXD : c - s.min ≤ s.max - s.min := by linarith [hx.2]
  have hy0 : 0 ≤ ρ.r (c - s.min) := by have := ρ.mono 0 _ hX0; rwa [hr0] at this
  have hyd : ρ.r (c - s.min) ≤ ρ.r (s.max - s.min) := ρ.mono _ _ hXD
  have hyX : |ρ.r (c - s.min) - (c - s.min)| ≤ ρ.eps * (s.step * n) + ρ.tiny := by
    refine (ρ.err _).trans ?_
    rw [hUn, abs_of_nonneg hX0]
    have := mul_le_mul_of_nonneg_left hXD ρ.epsPos
    linarith
  generalize hy' : ρ.r (c - s.min) = y at hy0 hyd hyX
  generalize hs' : s.resolution ρ.r n = res at hslow hs0 hs hres
  have hq0 : 0 ≤ ρ.r (y / res) := by
    have := ρ.mono 0 _ (div_nonneg hy0 hs0.le); rwa [hr0] at this
  have hq : |ρ.r (y / res) - y / res| ≤ ρ.eps * (y / res) + ρ.tiny := by
    have := ρ.err (y / res); rwa [abs_of_nonneg (div_nonneg hy0 hs0.le)] at this
  generalize hq' : ρ.r (y / res) = q at hq0 hq
  have hqb := quotient_bound (d := ρ.r (s.max - s.min)) (u := ρ.r (s.max - s.min) / n) ρ.epsPos hnK hsm h.tiny
    (by field_simp) hd0 hs0 hslow hy0 hyd hq
  have hk0 : 0 ≤ ⌊q⌋ := Int.floor_nonneg.mpr hq0
  have hkc : ((⌊q⌋.toNat : ℕ) : K) = (⌊q⌋ : K) := by
    have : ((⌊q⌋.toNat : ℕ) : ℤ) = ⌊q⌋ := Int.toNat_of_nonneg hk0
    exact_mod_cast congrArg (Int.cast (R := K)) this
  have hk1 : ((⌊q⌋.toNat : ℕ) : K) ≤ q := by rw [hkc]; exact Int.floor_le q
  have hk2 : q < ((⌊q⌋.toNat : ℕ) : K) + 1 := by rw [hkc]; exact Int.lt_floor_add_one q
  have hkn : ⌊q⌋.toNat < 2 ^ s.bits.length := by
    have : ((⌊q⌋.toNat : ℕ) : K) < ((n + 1 : ℕ) : K) := by push_cast; linarith [hqb.2]
    rw [← hn1]; exact_mod_cast this
  have h53 : 2 ^ s.bits.length ≤ 2 ^ 53 := Nat.pow_le_pow_right (by omega) h.len.2
  obtain ⟨bits, hset, hlen, hval⟩ := setUllong_small s.bits ⌊q⌋.toNat hkn (by omega)
  refine ⟨{ s with bits := bits }, ?_, rfl, rfl, hlen, ?_⟩
  · unfold serialize
    rw [hn, hc]
    dsimp only
    rw [hs', if_neg hs0.ne', hy', hq', if_pos, hset]
    refine ⟨hqb.1, hqb.2.trans_le ?_⟩
    have h64 : ((n + 1 : ℕ) : K) ≤ ((2 ^ 64 : ℕ) : K) := by
      have : n + 1 ≤ 2 ^ 64 := by rw [hn1]; exact h53.trans (by decide)
      exact_mod_cast this
    norm_num at h64 ⊢; exact h64
  · have hto : toUllong bits = ⌊q⌋.toNat := by rw [toUllong_eq bits (by have := h.len.2; omega), hval]
    have hres2 : FltSer.resolution ρ.r { s with bits := bits } n = res := by rw [← hs']; rfl
    refine ⟨_, by unfold deserialize; rw [hlen, hn], ?_⟩
    rw [hto, hres2, h.ints _ hkn.le]
    generalize ((⌊q⌋.toNat : ℕ) : K) = k at hk1 hk2 hkc
    have hk0K : 0 ≤ k := by rw [hkc]; exact_mod_cast hk0
    have hz : |ρ.r (res * k) - res * k| ≤ ρ.eps * (res * k) + ρ.tiny := by
      have := ρ.err (res * k); rwa [abs_of_nonneg (mul_nonneg hs0.le hk0K)] at this
    obtain ⟨hb1, hb2⟩ := decode_bound (X := c - s.min) ρ.epsPos hU hnK he32 h.tiny htU hs0 hs hy0 (hyd.trans hdle) hyX hq
      hk1 hk2 hk0K hz
    generalize ρ.r (res * k) = z at hb1 hb2
    rw [hUn] at hb1 hb2
    have hw := ρ.err (s.min + z)
    have hA : s.max - s.min ≤ |s.min| + |s.max| := by
      have h1 := le_abs_self s.max
      have h2 := neg_abs_le s.min
      linarith
    have hmz : |s.min + z| ≤ |s.min| + 2 * (s.max - s.min) := (abs_add_le _ _).trans (by linarith)
    have hAm : |s.min| ≤ |s.min| + |s.max| := by linarith [abs_nonneg s.max]
    have hsplit : ρ.r (s.min + z) - c = (ρ.r (s.min + z) - (s.min + z)) + (z - (c - s.min)) := by ring
    rw [hsplit]
    refine (abs_add_le _ _).trans ?_
    have e1 : ρ.eps * |s.min + z| ≤ ρ.eps * (3 * (|s.min| + |s.max|)) :=
      mul_le_mul_of_nonneg_left (by linarith) ρ.epsPos
    have e2 : ρ.eps * (s.max - s.min) ≤ ρ.eps * (|s.min| + |s.max|) := mul_le_mul_of_nonneg_left hA ρ.epsPos
    have hstepA : s.step ≤ |s.min| + |s.max| := by
      have : s.step ≤ s.step * n := by nlinarith
      linarith
    have e3 : ρ.eps * s.step ≤ ρ.eps * (|s.min| + |s.max|) := mul_le_mul_of_nonneg_left hstepA ρ.epsPos
    linarith

omit [IsStrictOrderedRing K] in
/-- C97. An infinite number is transmitted as the end of the range. -/
theorem C97_infinite (r : K → K) (s : FltSer K) (h : s.min ≤ s.max) (b : Bool) :
    s.serialize r (.inf b) = s.serialize r (.fin (if b then s.min else s.max)) := by
  unfold serialize
  rw [clamp_inf s h, clamp_fin s h]
  have : nearest s.min s.max (if b then s.min else s.max) = if b then s.min else s.max := by
    unfold nearest
    cases b
    · simp [h]
    · simp [h]
  rw [this]

/-- C97. Every pattern of bits the ground sends is decoded as the value of that step, to twenty rounding errors. -/
theorem C97_decode (ρ : Rnd K) (s : FltSer K) (h : s.Fits ρ) :
    ∃ w, s.deserialize ρ.r = some w ∧
      |w - (s.min + s.step * (bitsToNat s.bits : K))| ≤ 20 * ρ.eps * (|s.min| + |s.max|) := by
  obtain ⟨n, hn, hn1, hn1', hnr, hU, hUn, he32, hsm, hres, hd0, hslow, hs0, hs, hdle, htU⟩ := fits_facts h
  have hnK : (1 : K) ≤ (n : K) := by exact_mod_cast hn1'
  have hn0K : (0 : K) < (n : K) := by linarith
  have hlt := bitsToNat_lt s.bits
  have hD : 0 < s.max - s.min := sub_pos.mpr h.lt
  refine ⟨_, by unfold deserialize; rw [hn], ?_⟩
  rw [toUllong_eq _ (by have := h.len.2; omega), h.ints _ hlt.le]
  have hkn : ((bitsToNat s.bits : ℕ) : K) ≤ n := by exact_mod_cast (by omega : bitsToNat s.bits ≤ n)
  have hk0 : (0 : K) ≤ ((bitsToNat s.bits : ℕ) : K) := Nat.cast_nonneg _
  generalize ((bitsToNat s.bits : ℕ) : K) = k at hkn hk0
  generalize s.resolution ρ.r n = res at hslow hs0 hs hres
  have hee : 0 ≤ ρ.eps := ρ.epsPos
  -- the resolution is the step up to rounding
  have hdlow : s.step * n * (1 - 2 * ρ.eps) ≤ ρ.r (s.max - s.min) := by
    have h1 := (abs_le.mp (ρ.err (s.max - s.min))).1
    rw [abs_of_pos hD] at h1
    have h2 : ρ.tiny ≤ ρ.eps * (s.step * n) := htU.trans (mul_le_mul_of_nonneg_left (by nlinarith) hee)
    rw [hUn] at h2 ⊢
    linarith
  have hreslow : s.step * (1 - 5 * ρ.eps) ≤ res := by
    refine le_trans ?_ hslow
    have h1 : s.step * (1 - 2 * ρ.eps) ≤ ρ.r (s.max - s.min) / n := by
      rw [le_div_iff₀ hn0K]; linarith
    have h2 : s.step * (1 - 2 * ρ.eps) * (1 - 3 * ρ.eps) ≤ ρ.r (s.max - s.min) / n * (1 - 3 * ρ.eps) :=
      mul_le_mul_of_nonneg_right h1 (by linarith)
    have h3 : s.step * (1 - 2 * ρ.eps) * (1 - 3 * ρ.eps) = s.step * (1 - 5 * ρ.eps) + s.step * (6 * ρ.eps * ρ.eps) := by ring
    have h4 : 0 ≤ s.step * (6 * ρ.eps * ρ.eps) := by positivity
    linarith
  have hrk : |res * k - s.step * k| ≤ 5 * ρ.eps * (s.max - s.min) := by
    have e : res * k - s.step * k = (res - s.step) * k := by ring
    rw [e, abs_mul, abs_of_nonneg hk0]
    have h1 : |res - s.step| ≤ 5 * ρ.eps * s.step := abs_le.mpr ⟨by linarith, by linarith⟩
    calc |res - s.step| * k ≤ 5 * ρ.eps * s.step * k := mul_le_mul_of_nonneg_right h1 hk0
      _ ≤ 5 * ρ.eps * s.step * n := mul_le_mul_of_nonneg_left hkn (by positivity)
      _ = 5 * ρ.eps * (s.max - s.min) := by rw [← hUn]; ring
  have hrk0 : 0 ≤ res * k := mul_nonneg hs0.le hk0
  have hrkD : res * k ≤ (s.max - s.min) * (5 / 4) := by
    have h1 : res * k ≤ s.step * (1 + 5 * ρ.eps) * n :=
      (mul_le_mul_of_nonneg_right hs hk0).trans (mul_le_mul_of_nonneg_left hkn (by positivity))
    have h2 : s.step * (1 + 5 * ρ.eps) * n = (s.step * n) * (1 + 5 * ρ.eps) := by ring
    rw [h2, hUn] at h1
    refine h1.trans (mul_le_mul_of_nonneg_left (by linarith) hD.le)
  have hz := ρ.err (res * k)
  rw [abs_of_nonneg hrk0] at hz
  have heD : 0 ≤ ρ.eps * (s.max - s.min) := mul_nonneg hee hD.le
  have htD : ρ.tiny ≤ ρ.eps * (s.max - s.min) := by
    have : s.step ≤ s.max - s.min := by rw [← hUn]; nlinarith
    exact htU.trans (mul_le_mul_of_nonneg_left this hee)
  have hek : ρ.eps * (res * k) ≤ ρ.eps * (s.max - s.min) * (5 / 4) := by
    have := mul_le_mul_of_nonneg_left hrkD hee; linarith
  have hz2 : |ρ.r (res * k)| ≤ 2 * (s.max - s.min) := by
    have h1 := abs_le.mp hz
    have h3 : ρ.eps * (s.max - s.min) ≤ (s.max - s.min) * (1 / 32) := by
      rw [mul_comm]; exact mul_le_mul_of_nonneg_left he32 hD.le
    exact abs_le.mpr ⟨by linarith, by linarith⟩
  generalize ρ.r (res * k) = z at hz hz2
  have hw := ρ.err (s.min + z)
  have hA : s.max - s.min ≤ |s.min| + |s.max| := by
    have h1 := le_abs_self s.max
    have h2 := neg_abs_le s.min
    linarith
  have hmz : |s.min + z| ≤ 3 * (|s.min| + |s.max|) :=
    (abs_add_le _ _).trans (by linarith [abs_nonneg s.max])
  have e1 : ρ.eps * |s.min + z| ≤ ρ.eps * (3 * (|s.min| + |s.max|)) := mul_le_mul_of_nonneg_left hmz hee
  have e2 : ρ.eps * (s.max - s.min) ≤ ρ.eps * (|s.min| + |s.max|) := mul_le_mul_of_nonneg_left hA hee
  have hsplit : ρ.r (s.min + z) - (s.min + s.step * k) =
      (ρ.r (s.min + z) - (s.min + z)) + ((z - res * k) + (res * k - s.step * k)) := by ring
  rw [hsplit]
  have h1 := abs_add_le (ρ.r (s.min + z) - (s.min + z)) ((z - res * k) + (res * k - s.step * k))
  have h2 := abs_add_le (z - res * k) (res * k - s.step * k)
  linarith

/-! ### The two precisions -/

/-- Rounding to `float`. -/
def rnd32 : Rnd ℚ where
  r := f32
  mono _ _ := f32_mono
  eps := 1 / 2 ^ 24
  tiny := 1 / 2 ^ 150
  epsPos := by positivity
  tinyPos := by positivity
  err x := by have := f32_err_abs x; rw [div_eq_mul_one_div, mul_comm] at this; exact this

/-- Rounding to `double`. -/
def rnd64 : Rnd ℚ where
  r := f64
  mono _ _ := f64_mono
  eps := 1 / 2 ^ 53
  tiny := 1 / 2 ^ 1075
  epsPos := by positivity
  tinyPos := by positivity
  err x := by have := f64_err_abs x; rw [div_eq_mul_one_div, mul_comm] at this; exact this

/-- C97, for `float` fields: a range of at least 2^-100 in up to 20 bits is suitable. -/
theorem C97_float (lo hi : ℚ) (bits : List Bool) (h : lo + 1 / 2 ^ 100 ≤ hi) (hl : 1 ≤ bits.length) (hl' : bits.length ≤ 20) :
    Fits rnd32 ⟨lo, hi, bits⟩ := by
  have hp : (2 : ℚ) ^ bits.length ≤ 2 ^ 20 := pow_le_pow_right₀ (by norm_num) hl'
  have hpn : 2 ^ bits.length ≤ 2 ^ 20 := Nat.pow_le_pow_right (by omega) hl'
  refine ⟨?_, ⟨hl, by simp only; omega⟩, ?_, ?_, ?_, ?_⟩
  · have : (0 : ℚ) < 1 / 2 ^ 100 := by positivity
    simp only; linarith
  · intro k hk
    have := f32_int (n := (k : ℤ)) (by rw [abs_of_nonneg (by omega)]; simp only at hk; omega)
    simpa [rnd32] using this
  · simp only [rnd32]
    calc (2 : ℚ) ^ bits.length * (1 / 2 ^ 24) ≤ 2 ^ 20 * (1 / 2 ^ 24) := mul_le_mul_of_nonneg_right hp (by positivity)
      _ ≤ _ := by norm_num
  · simp only [rnd32]
    calc (1 : ℚ) / 2 ^ 150 * 2 ^ bits.length ≤ 1 / 2 ^ 150 * 2 ^ 20 := mul_le_mul_of_nonneg_left hp (by positivity)
      _ ≤ 1 / 2 ^ 24 * (1 / 2 ^ 100) := by norm_num
      _ ≤ _ := mul_le_mul_of_nonneg_left (by linarith) (by positivity)
  · simp only [rnd32]; norm_num

/-- C97, for `double` fields: a range of at least 2^-900 in up to 48 bits is suitable. -/
theorem C97_double (lo hi : ℚ) (bits : List Bool) (h : lo + 1 / 2 ^ 900 ≤ hi) (hl : 1 ≤ bits.length) (hl' : bits.length ≤ 48) :
    Fits rnd64 ⟨lo, hi, bits⟩ := by
  have hp : (2 : ℚ) ^ bits.length ≤ 2 ^ 48 := pow_le_pow_right₀ (by norm_num) hl'
  have hpn : 2 ^ bits.length ≤ 2 ^ 48 := Nat.pow_le_pow_right (by omega) hl'
  have h1075 : (1 : ℚ) / 2 ^ 1075 = 1 / 2 ^ 900 * (1 / 2 ^ 175) := by
    rw [one_div_mul_one_div, ← pow_add]
  refine ⟨?_, ⟨hl, by simp only; omega⟩, ?_, ?_, ?_, ?_⟩
  · have : (0 : ℚ) < 1 / 2 ^ 900 := by positivity
    simp only; linarith
  · intro k hk
    have := f64_int (n := (k : ℤ)) (by rw [abs_of_nonneg (by omega)]; simp only at hk; omega)
    simpa [rnd64] using this
  · simp only [rnd64]
    calc (2 : ℚ) ^ bits.length * (1 / 2 ^ 53) ≤ 2 ^ 48 * (1 / 2 ^ 53) := mul_le_mul_of_nonneg_right hp (by positivity)
      _ ≤ _ := by norm_num
  · simp only [rnd64]
    have h900 : (0 : ℚ) < 1 / 2 ^ 900 := by positivity
    calc (1 : ℚ) / 2 ^ 1075 * 2 ^ bits.length ≤ 1 / 2 ^ 1075 * 2 ^ 48 := mul_le_mul_of_nonneg_left hp (by positivity)
      _ = 1 / 2 ^ 900 * (1 / 2 ^ 175 * 2 ^ 48) := by rw [h1075]; ring
      _ ≤ 1 / 2 ^ 900 * (1 / 2 ^ 53) := mul_le_mul_of_nonneg_left (by norm_num) h900.le
      _ = 1 / 2 ^ 53 * (1 / 2 ^ 900) := by ring
      _ ≤ _ := mul_le_mul_of_nonneg_left (by linarith) (by positivity)
  · simp only [rnd64]
    rw [h1075]
    have h900 : (1 : ℚ) / 2 ^ 900 ≤ 1 := by
      rw [div_le_one (by positivity)]; exact one_le_pow₀ (by norm_num)
    calc (1 : ℚ) / 2 ^ 900 * (1 / 2 ^ 175) ≤ 1 * (1 / 2 ^ 175) := mul_le_mul_of_nonneg_right h900 (by positivity)
      _ ≤ _ := by norm_num

-- `trigger_dist.docking`, 0 to 100 m in 14 bits: 0.4 m goes through to 7 mm.
example : ∃ s', (mk' (0 : ℚ) 100 14).serialize f64 (.fin (2 / 5)) = some s' ∧
    ∃ w, s'.deserialize f64 = some w ∧ |w - 2 / 5| ≤ 7 / 1000 := by
  obtain ⟨s', h, -, -, -, w, h1, h2⟩ := C97_accuracy rnd64 (mk' 0 100 14)
    (C97_double 0 100 _ (by
      have : (1 : ℚ) / 2 ^ 900 ≤ 1 := by rw [div_le_one (by positivity)]; exact one_le_pow₀ (by norm_num)
      linarith) (by simp) (by simp)) (2 / 5)
  refine ⟨s', h, w, h1, ?_⟩
  have e : nearest (mk' (0 : ℚ) 100 14).min (mk' (0 : ℚ) 100 14).max (2 / 5) = 2 / 5 := by
    norm_num [nearest, mk']
  rw [e] at h2
  refine h2.trans ?_
  norm_num [step, mk', rnd64]

/-! ### Where the claim fails -/

omit [IsStrictOrderedRing K] in
/-- C97. A field that holds no number (NaN) cannot be transmitted: the conversion to an integer is undefined. -/
theorem C97_counterexample_nan (r : K → K) (s : FltSer K) : s.serialize r .nan = none := by
  unfold serialize
  have : s.clamp .nan = none := rfl
  rw [this]
  cases intervals s.bits.length <;> rfl

omit [IsStrictOrderedRing K] in
/-- C97. Nor a field whose range is a single value, which the constructor accepts: the division is by 0. -/
theorem C97_counterexample_single (r : K → K) (h0 : r 0 = 0) (a : K) (bits : List Bool) (v : Flt K) :
    FltSer.serialize r ⟨a, a, bits⟩ v = none := by
  unfold serialize
  cases intervals (FltSer.bits (⟨a, a, bits⟩ : FltSer K)).length with
  | none => rfl
  | some n =>
    cases FltSer.clamp (⟨a, a, bits⟩ : FltSer K) v with
    | none => rfl
    | some x =>
      dsimp only
      have : FltSer.resolution r (⟨a, a, bits⟩ : FltSer K) n = 0 := by
        unfold resolution
        dsimp only
        split
        · rw [sub_self, h0, zero_div, h0]
        · rfl
      rw [if_pos this]

/-- C97. The upper end of a range need not be transmitted as such: a filter constant of 1 (range 0 to 1, 8 bits) is sent as
step 254 of 255. -/
theorem C97_counterexample_upper_end :
    ((mk' (0 : ℚ) 1 8).serialize f32 (.fin 1)).map (fun s => bitsToNat s.bits) = some 254 := by
  decide +kernel

/-- C97. A value the satellite has received is not always reported back as the same step: the firing pressure (range 10 to
50, 6 bits) commanded as step 2 is reported as step 1. -/
theorem C97_counterexample_echo :
    ∃ x, FltSer.deserialize f32 ⟨10, 50, [false, true, false, false, false, false]⟩ = some x ∧
      ((mk' (10 : ℚ) 50 6).serialize f32 (.fin x)).map (fun s => bitsToNat s.bits) = some 1 := by
  refine ⟨_, rfl, ?_⟩
  decide +kernel

/-- Above the smallest normal numbers a float divided by a power of two is a float. -/
theorem rep_f32_div {D : ℚ} (hD : (2 : ℚ) ^ (-60 : ℤ) ≤ |D|) {L : ℕ} (hL : L ≤ 63) : Rep32 (f32 D / 2 ^ L) := by
  have hD0 : D ≠ 0 := by
    rintro rfl
    rw [abs_zero] at hD
    exact absurd hD (not_le.mpr (zpow_pos (by norm_num) _))
  have hexp : -60 ≤ exp32 D := by
    by_contra hlt
    have h1 : |D| < (2 : ℚ) ^ (exp32 D + 1) := lt_exp32 D
    have h2 : (2 : ℚ) ^ (exp32 D + 1) ≤ 2 ^ (-60 : ℤ) := two_zpow_le (by omega)
    linarith
  refine ⟨rne (D / ulp32 D), exp32 D - 23 - L, ?_, by omega, ?_⟩
  · have hb : ∀ y : ℚ, rne (y / ulp32 y) ≤ 2 ^ 24 := by
      intro y
      have h1 : y / ulp32 y ≤ ((2 ^ 24 : ℤ) : ℚ) := by
        rw [div_le_iff₀ (ulp32_pos y), ulp32_eq]
        refine ((le_abs_self y).trans (lt_exp32 y).le).trans (le_of_eq ?_)
        rw [show exp32 y + 1 = 24 + (exp32 y - 23) by ring, zpow_split]
        norm_num
      have h2 := rne_mono h1
      rwa [rne_int] at h2
    have h1 := hb D
    have h2 := hb (-D)
    rw [ulp32_neg, neg_div, rne_neg] at h2
    rw [abs_le]; constructor <;> omega
  · unfold f32
    rw [ulp32_eq, sub_eq_add_neg (exp32 D - 23), zpow_split, zpow_neg, zpow_natCast]
    ring

/-- The number of steps as a `float`. -/
theorem f32_intervals : ∀ L ∈ List.range 54, 25 ≤ L → f32 ((2 ^ L - 1 : ℕ) : ℚ) = 2 ^ L ∧
    BitArray.valNumBits (2 ^ L) 0 64 = L + 1 := by
  decide +kernel

/-- C97. A `float` field of 25 bits or more cannot report the upper end of its range: in single precision the number of steps
is one too many, so that the step of the upper end does not fit, and the bits stay those of whatever was sent before. The
magnitudes of the commanded wheel speed, wheel torque and magnetorquer moment are such fields, of 50 bits, and every command
longer than the limit of one axis is at the upper end. -/
theorem C97_counterexample_saturated (s : FltSer ℚ) (hl : 25 ≤ s.bits.length) (hl' : s.bits.length ≤ 53)
    (hD : (2 : ℚ) ^ (-60 : ℤ) ≤ s.max - s.min) (x : ℚ) (hx : s.max ≤ x) : s.serialize f32 (.fin x) = some s := by
  have hp : (0 : ℚ) < 2 ^ (-60 : ℤ) := zpow_pos (by norm_num) _
  have hlt : s.min < s.max := by linarith
  obtain ⟨hn, hv⟩ := f32_intervals s.bits.length (List.mem_range.mpr (by omega)) hl
  have hint : intervals s.bits.length = some (2 ^ s.bits.length - 1) := if_pos hl'
  have hn0 : 0 < 2 ^ s.bits.length - 1 := by
    have : 2 ^ 25 ≤ 2 ^ s.bits.length := Nat.pow_le_pow_right (by omega) hl
    omega
  have habs : (2 : ℚ) ^ (-60 : ℤ) ≤ |s.max - s.min| := by rwa [abs_of_pos (by linarith)]
  have hres : s.resolution f32 (2 ^ s.bits.length - 1) = f32 (s.max - s.min) / 2 ^ s.bits.length := by
    unfold resolution
    rw [if_pos hn0, hn, f32_rep (rep_f32_div habs (by omega))]
  have hf0 : 0 < f32 (s.max - s.min) := by
    have : Rep32 ((2 : ℚ) ^ (-60 : ℤ)) := ⟨1, -60, by norm_num, by norm_num, by norm_num⟩
    exact lt_of_lt_of_le hp (le_f32_of_rep this hD)
  have hclamp : s.clamp (.fin x) = some s.max := by
    rw [clamp_fin s hlt.le x]
    unfold nearest
    rw [min_eq_right hx, max_eq_right hlt.le]
  have hq : f32 (f32 (s.max - s.min) / (f32 (s.max - s.min) / 2 ^ s.bits.length)) = 2 ^ s.bits.length := by
    rw [div_div_eq_mul_div, mul_div_cancel_left₀ _ hf0.ne']
    apply f32_rep
    exact ⟨1, s.bits.length, by norm_num, by omega, by rw [Int.cast_one, one_mul, zpow_natCast]⟩
  unfold serialize
  rw [hint, hclamp]
  dsimp only
  rw [hres, if_neg (div_pos hf0 (by positivity)).ne', hq]
  have hpow : (2 : ℚ) ^ s.bits.length < 2 ^ 64 := pow_lt_pow_right₀ (by norm_num) (by omega)
  have hpos : (0 : ℚ) < 2 ^ s.bits.length := by positivity
  rw [if_pos ⟨by linarith, hpow⟩]
  have hfl : ⌊(2 : ℚ) ^ s.bits.length⌋.toNat = 2 ^ s.bits.length := by
    have : ((2 : ℚ) ^ s.bits.length) = ((2 ^ s.bits.length : ℤ) : ℚ) := by push_cast; rfl
    rw [this, Int.floor_intCast]
    have e : (2 : ℤ) ^ s.bits.length = ((2 ^ s.bits.length : ℕ) : ℤ) := by push_cast; rfl
    rw [e, Int.toNat_natCast]
  rw [hfl]
  have hno : BitArray.setUllong s.bits (2 ^ s.bits.length) = some (false, s.bits) := by
    unfold BitArray.setUllong BitArray.numValBitsOk
    rw [hv, if_neg (by simp)]
  rw [hno]

/-- C97. The magnitude of the magnetorquer command, at the limit of 0.0566685 A m^2 or beyond and nothing sent before: what the
receiver decodes is the lower end of the range, a negative magnitude. -/
theorem C97_counterexample_reversed (hi : ℚ) (h : hi = f32 (113337 / 2000000)) (x : ℚ) (hx : hi ≤ x) :
    ((mk' (-hi) hi 50).serialize f32 (.fin x)).bind (·.deserialize f32) = some (-hi) := by
  have hlo : (2 : ℚ) ^ (-60 : ℤ) ≤ hi - -hi := by
    rw [h]; decide +kernel
  rw [C97_counterexample_saturated (mk' (-hi) hi 50) (by simp [mk']) (by simp [mk']) hlo x hx]
  subst h
  decide +kernel

end PAN
