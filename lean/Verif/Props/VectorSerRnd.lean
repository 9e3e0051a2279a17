import Verif.Lemmas.VectorSerRnd
import Verif.Props.VectorSer
/-!
C98 with rounding: vectors are transmitted to their precision, as far as the arithmetic allows.
-/
namespace PAN
open Spec BitArray FltSer VecSer
noncomputable section

/-! ### The model without rounding is the special case -/

/-- With exact arithmetic the serializer is the one of `Model/VectorSer.lean`. -/
theorem serializeR_exact (lo hi : ℝ) (p : ℕ) (v : VecIn) : serializeR .exact lo hi p v = VecSer.serialize lo hi p v := by
  cases v with
  | other => rfl
  | fin x y z nz =>
    have hm : normR .exact x y z = √(x ^ 2 + y ^ 2 + z ^ 2) := by
      unfold normR FltLib.exact; simp only [id, sq]
    have hth : thetaR .exact lo hi p = theta lo hi p := rfl
    have hph : phiR .exact lo hi p = phi lo hi p := rfl
    unfold serializeR VecSer.serialize
    dsimp only
    rw [hm, hth, hph]
    by_cases h0 : √(x ^ 2 + y ^ 2 + z ^ 2) = 0
    · rw [if_pos h0, if_pos h0]
    rw [if_neg h0, if_neg h0]
    have hpos : 0 < √(x ^ 2 + y ^ 2 + z ^ 2) := lt_of_le_of_ne (Real.sqrt_nonneg _) (Ne.symm h0)
    have hsq : √(x ^ 2 + y ^ 2 + z ^ 2) ^ 2 = x ^ 2 + y ^ 2 + z ^ 2 := Real.sq_sqrt (by positivity)
    generalize √(x ^ 2 + y ^ 2 + z ^ 2) = m at *
    have hz : ¬ 1 < |FltLib.exact.r (z / m)| := by
      change ¬ 1 < |z / m|
      rw [not_lt, abs_div, abs_of_pos hpos, div_le_one hpos]
      exact abs_le_of_sq_le_sq (by nlinarith [sq_nonneg x, sq_nonneg y]) hpos.le
    rw [if_neg hz]
    have ha : atanQuotR .exact (FltLib.exact.r (x / m)) (FltLib.exact.r (y / m)) (if x = 0 then nz else decide (x < 0)) =
        atanQuot (x / m) (y / m) nz := by
      change atanQuotR .exact (x / m) (y / m) _ = _
      unfold atanQuotR atanQuot
      by_cases hx : x = 0
      · subst hx
        simp only [zero_div, if_true]
        rw [show FltLib.exact.atanInf = Real.pi / 2 from rfl, neg_div]
      · rw [if_neg (div_ne_zero hx h0), if_neg (div_ne_zero hx h0)]; rfl
    rw [ha]
    rfl

theorem deserializeR_exact (lo hi : ℝ) (p : ℕ) (bits : List Bool) :
    deserializeR .exact lo hi p bits = VecSer.deserialize lo hi p bits := rfl

/-! ### Distances -/

theorem length3_add (a b : ℝ × ℝ × ℝ) : length3 (a.1 + b.1, a.2.1 + b.2.1, a.2.2 + b.2.2) ≤ length3 a + length3 b := by
  unfold length3
  dsimp only
  obtain ⟨a1, a2, a3⟩ := a
  obtain ⟨b1, b2, b3⟩ := b
  dsimp only
  have hA : 0 ≤ a1 ^ 2 + a2 ^ 2 + a3 ^ 2 := by positivity
  have hB : 0 ≤ b1 ^ 2 + b2 ^ 2 + b3 ^ 2 := by positivity
  refine Real.sqrt_le_iff.mpr ⟨by positivity, ?_⟩
  have h1 : a1 * b1 + a2 * b2 + a3 * b3 ≤ √(a1 ^ 2 + a2 ^ 2 + a3 ^ 2) * √(b1 ^ 2 + b2 ^ 2 + b3 ^ 2) := by
    rw [← Real.sqrt_mul hA]
    apply Real.le_sqrt_of_sq_le
    nlinarith [sq_nonneg (a1 * b2 - a2 * b1), sq_nonneg (a1 * b3 - a3 * b1), sq_nonneg (a2 * b3 - a3 * b2)]
  nlinarith [Real.sq_sqrt hA, Real.sq_sqrt hB]

theorem dist3_triangle (a b c : ℝ × ℝ × ℝ) : dist3 a c ≤ dist3 a b + dist3 b c := by
  have := length3_add (a.1 - b.1, a.2.1 - b.2.1, a.2.2 - b.2.2) (b.1 - c.1, b.2.1 - c.2.1, b.2.2 - c.2.2)
  simpa [dist3] using this

theorem length3_le (a : ℝ × ℝ × ℝ) : length3 a ≤ |a.1| + |a.2.1| + |a.2.2| := by
  unfold length3
  refine Real.sqrt_le_iff.mpr ⟨by positivity, ?_⟩
  have h1 := abs_nonneg a.1
  have h2 := abs_nonneg a.2.1
  have h3 := abs_nonneg a.2.2
  rw [← sq_abs a.1, ← sq_abs a.2.1, ← sq_abs a.2.2]
  nlinarith [mul_nonneg h1 h2, mul_nonneg h1 h3, mul_nonneg h2 h3]

theorem nearest_lipschitz (lo hi x y : ℝ) : |nearest lo hi x - nearest lo hi y| ≤ |x - y| := by
  unfold nearest
  refine (abs_max_sub_max_le_max lo (min x hi) lo (min y hi)).trans (max_le (by simp) ?_)
  exact (abs_min_sub_min_le_max x hi y hi).trans (max_le le_rfl (by simp))

/-- The steps of the three coordinates, and their rounding errors. -/
theorem root_add {a b c e f g S x y z : ℝ} (hS : 0 ≤ S) (he : 0 ≤ e) (hf : 0 ≤ f) (hg : 0 ≤ g)
    (h : a ^ 2 + b ^ 2 + c ^ 2 ≤ S ^ 2) (hx : |x| ≤ a + e) (hy : |y| ≤ b + f) (hz : |z| ≤ c + g) :
    x ^ 2 + (y ^ 2 + z ^ 2) ≤ (S + (e + f + g)) ^ 2 := by
  have haS : a ≤ S := by nlinarith [sq_nonneg b, sq_nonneg c]
  have hbS : b ≤ S := by nlinarith [sq_nonneg a, sq_nonneg c]
  have hcS : c ≤ S := by nlinarith [sq_nonneg a, sq_nonneg b]
  have h1 : x ^ 2 ≤ (a + e) ^ 2 := by rw [← sq_abs]; exact pow_le_pow_left₀ (abs_nonneg _) hx 2
  have h2 : y ^ 2 ≤ (b + f) ^ 2 := by rw [← sq_abs]; exact pow_le_pow_left₀ (abs_nonneg _) hy 2
  have h3 : z ^ 2 ≤ (c + g) ^ 2 := by rw [← sq_abs]; exact pow_le_pow_left₀ (abs_nonneg _) hz 2
  have := mul_le_mul_of_nonneg_right haS he
  have := mul_le_mul_of_nonneg_right hbS hf
  have := mul_le_mul_of_nonneg_right hcS hg
  nlinarith [mul_nonneg he hf, mul_nonneg he hg, mul_nonneg hf hg]

/-- The steps of the coordinates against the precision. -/
theorem steps_bound {lo hi : ℝ} {p : ℕ} (h0 : Range lo hi p) (h : lo < hi) :
    (hi - lo) / (2 ^ b1 p - 1) ≤ 1 / 3 * ((hi - lo) / 2 ^ p) ∧ hi * (Real.pi / (2 ^ b2 lo hi p - 1)) ≤ 7 / 5 * ((hi - lo) / 2 ^ p) ∧
      (4 : ℝ) ≤ 2 ^ b2 lo hi p := by
  obtain ⟨⟨hb, -⟩, hN⟩ := b2_bound h0 h
  have hN4 : (4 : ℝ) ≤ 2 ^ b2 lo hi p := by
    calc (4 : ℝ) = 2 ^ 2 := by norm_num
      _ ≤ _ := pow_le_pow_right₀ (by norm_num) (by omega)
  have hb1 : (2 : ℝ) ^ b1 p = 4 * 2 ^ p := by unfold b1; rw [pow_add]; norm_num
  have hP : (1 : ℝ) ≤ 2 ^ p := one_le_pow₀ (by norm_num)
  rw [hb1]
  refine ⟨?_, ?_, hN4⟩
  all_goals
    generalize (2 : ℝ) ^ b2 lo hi p = N at *
    generalize (2 : ℝ) ^ p = P at *
    have hD : 0 < hi - lo := by linarith
    have hhi : 0 < hi := by rcases h0 with h0 | h0 <;> linarith [h0]
    have hP0 : 0 < P := by linarith
    have hdx : 0 < (hi - lo) / P := div_pos hD hP0
  · rw [div_le_iff₀ (by linarith)]
    have : 1 / 3 * ((hi - lo) / P) * (4 * P - 1) = (hi - lo) * (4 / 3) - 1 / 3 * ((hi - lo) / P) := by field_simp
    rw [this]
    have : (hi - lo) / P ≤ hi - lo := div_le_self hD.le hP
    linarith
  · have hN1 : 3 / 4 * N ≤ N - 1 := by linarith
    have hNP : hi * P * 3 ≤ N * (hi - lo) := by
      have := mul_le_mul_of_nonneg_right hN hD.le
      have e : 3 * hi / (hi - lo) * P * (hi - lo) = hi * P * 3 := by field_simp
      rwa [e] at this
    have hpi : Real.pi < 3.15 := Real.pi_lt_d2
    have e1 : hi * (Real.pi / (N - 1)) = hi * Real.pi / (N - 1) := by ring
    rw [e1, div_le_iff₀ (by linarith)]
    have e2 : 7 / 5 * ((hi - lo) / P) * (3 / 4 * N) ≤ 7 / 5 * ((hi - lo) / P) * (N - 1) :=
      mul_le_mul_of_nonneg_left hN1 (by positivity)
    refine le_trans ?_ e2
    have e3 : 7 / 5 * ((hi - lo) / P) * (3 / 4 * N) = 21 / 20 * (N * (hi - lo)) / P := by ring
    rw [e3, le_div_iff₀ hP0]
    have e4 : hi * Real.pi * P ≤ hi * 3.15 * P :=
      mul_le_mul_of_nonneg_right (mul_le_mul_of_nonneg_left hpi.le hhi.le) hP0.le
    linarith

theorem sq_sum {a b x : ℝ} (ha : 0 ≤ a) (hb : 0 ≤ b) (h1 : a ≤ 1 / 3 * x) (h2 : b ≤ 102 / 100 * (7 / 5 * x)) :
    a ^ 2 + b ^ 2 + b ^ 2 ≤ (21 / 10 * x) ^ 2 := by
  have g1 := pow_le_pow_left₀ ha h1 2
  have g2 := pow_le_pow_left₀ hb h2 2
  nlinarith [sq_nonneg x]

/-- A product of two inexact factors. -/
theorem vec_prod_err {A : FltLib} {u t d : ℝ} (h : Accurate A u t d) {a a' b b' R e : ℝ} (hR : 0 ≤ R) (ha : |a| ≤ R) (hb : |b| ≤ 1)
    (ha' : |a' - a| ≤ e) (hb' : |b' - b| ≤ d) (he : e ≤ 1 / 100 * R) (ht : t ≤ u * R) :
    |A.r (a' * b') - a * b| ≤ 101 / 100 * e + R * d + 22 / 10 * (u * R) := by
  obtain ⟨hu0, hu1, ht0, -, hd0, hd1⟩ := h.range
  have hd2 : d ≤ 1 / 1000 := hd1.trans (by norm_num)
  have he0 : 0 ≤ e := (abs_nonneg _).trans ha'
  have hb2 : |b'| ≤ 101 / 100 := by
    have := abs_sub_abs_le_abs_sub b' b; linarith
  have ha2 : |a'| ≤ 101 / 100 * R := by
    have := abs_sub_abs_le_abs_sub a' a; linarith
  have h1 : |a' * b' - a * b| ≤ 101 / 100 * e + R * d := by
    calc |a' * b' - a * b| = |(a' - a) * b' + a * (b' - b)| := by ring_nf
      _ ≤ |(a' - a) * b'| + |a * (b' - b)| := abs_add_le _ _
      _ = |a' - a| * |b'| + |a| * |b' - b| := by rw [abs_mul, abs_mul]
      _ ≤ e * (101 / 100) + R * d := add_le_add (mul_le_mul ha' hb2 (abs_nonneg _) he0) (mul_le_mul ha hb' (abs_nonneg _) hR)
      _ = _ := by ring
  have h2 : |a' * b'| ≤ 12 / 10 * R := by
    rw [abs_mul]
    calc |a'| * |b'| ≤ 101 / 100 * R * (101 / 100) := mul_le_mul ha2 hb2 (abs_nonneg _) (by linarith)
      _ ≤ _ := by linarith
  have h3 := h.err (a' * b')
  have h4 : u * |a' * b'| ≤ u * (12 / 10 * R) := mul_le_mul_of_nonneg_left h2 hu0
  calc |A.r (a' * b') - a * b| = |(A.r (a' * b') - a' * b') + (a' * b' - a * b)| := by ring_nf
    _ ≤ _ := abs_add_le _ _
    _ ≤ _ := by linarith

/-- What is computed from decoded coordinates. -/
theorem decoded {A : FltLib} {u t d : ℝ} (h : Accurate A u t d) {m th ph f R : ℝ} (hR : 0 ≤ R) (hm : |m| ≤ R) (hth : |th| ≤ 4)
    (hph : |ph| ≤ 4) (hf : f = 1 ∨ f = -1) (ht : t ≤ u * R) :
    dist3 (A.r (A.r (A.r (f * m) * A.sin th) * A.cos ph), A.r (A.r (A.r (f * m) * A.sin th) * A.sin ph), A.r (m * A.cos th))
      (f * m * Real.sin th * Real.cos ph, f * m * Real.sin th * Real.sin ph, m * Real.cos th) ≤ 17 * (u * R) + 53 / 10 * (R * d) := by
  obtain ⟨hu0, hu1, ht0, -, hd0, hd1⟩ := h.range
  have hu2 : u ≤ 1 / 1000 := hu1.trans (by norm_num)
  have hd2 : d ≤ 1 / 1000 := hd1.trans (by norm_num)
  have huR : u * R ≤ 1 / 1000 * R := mul_le_mul_of_nonneg_right hu2 hR
  have hRd : R * d ≤ R * (1 / 1000) := mul_le_mul_of_nonneg_left hd2 hR
  have huR0 := mul_nonneg hu0 hR
  have hRd0 := mul_nonneg hR hd0
  have hfm : |f * m| ≤ R := by rcases hf with rfl | rfl <;> simpa using hm
  have hs1 := Real.abs_sin_le_one th
  have e0 : |A.r (f * m) - f * m| ≤ 2 * (u * R) := by
    refine (h.err _).trans ?_
    have := mul_le_mul_of_nonneg_left hfm hu0
    linarith
  have e1 := vec_prod_err h (a := f * m) (a' := A.r (f * m)) (b := Real.sin th) (b' := A.sin th) hR hfm hs1 e0 (h.functions.sin _ hth)
    (by linarith) ht
  have hfs : |f * m * Real.sin th| ≤ R := by
    rw [abs_mul]
    calc |f * m| * |Real.sin th| ≤ R * 1 := mul_le_mul hfm hs1 (abs_nonneg _) hR
      _ = R := mul_one R
  generalize A.r (A.r (f * m) * A.sin th) = v at *
  have e1' : |v - f * m * Real.sin th| ≤ 43 / 10 * (u * R) + R * d := by linarith
  have e2 := vec_prod_err h (b := Real.cos ph) (b' := A.cos ph) hR hfs (Real.abs_cos_le_one ph) e1' (h.functions.cos _ hph) (by linarith) ht
  have e3 := vec_prod_err h (b := Real.sin ph) (b' := A.sin ph) hR hfs (Real.abs_sin_le_one ph) e1' (h.functions.sin _ hph) (by linarith) ht
  have e4 := vec_prod_err h (a := m) (a' := m) (b := Real.cos th) (b' := A.cos th) (e := 0) hR hm (Real.abs_cos_le_one th) (by simp)
    (h.functions.cos _ hth) (by linarith) ht
  unfold dist3
  refine (length3_le _).trans ?_
  dsimp only
  linarith

set_option maxHeartbeats 1000000 in
/-- What is sent and decoded, in polar coordinates. -/
theorem sentR {A : FltLib} {u t d : ℝ} (hA : Accurate A u t d) {lo hi : ℝ} {p : ℕ} (h0 : Range lo hi p) (h : lo < hi)
    (hb1 : b1 p ≤ 53 ∧ 2 ^ b1 p * u ≤ 1 / 16) (hb2 : b2 lo hi p ≤ 53 ∧ 2 ^ b2 lo hi p * u ≤ 1 / 16) (ht : t * 2 ^ 53 ≤ u * (hi - lo))
    {x y z m : ℝ} {nz : Bool} (hmd : m = length3 (x, y, z)) (hm0 : 0 < m) (hz : A.r z = z) (hlen : 8 * t ≤ u * m ^ 2)
    (hx : (x ≠ 0 ∧ 2 * t * m ≤ u * |x|) ∨ (x = 0 ∧ nz = true ∧ y ≠ 0 ∧ 2 * t * m ≤ u * |y|)) :
    ∃ bits, serializeR A lo hi p (.fin x y z nz) = some bits ∧ bits.length = totalSize lo hi p ∧
      ∃ f m' th' ph'' ph k : ℝ, deserializeR A lo hi p bits =
          some (A.r (A.r (A.r (f * m') * A.sin th') * A.cos ph''), A.r (A.r (A.r (f * m') * A.sin th') * A.sin ph''), A.r (m' * A.cos th')) ∧
        f = (if 0 < x / m then 1 else -1) ∧ atanQuot (x / m) (y / m) nz = some ph ∧
        (0 ≤ k ∧ k ≤ 78 / 10 * √u ∧ √(x ^ 2 + y ^ 2) * k ≤ 32 * u * m) ∧
        (|m'| ≤ 102 / 100 * hi ∧ |th'| ≤ 4 ∧ |ph''| ≤ 4) ∧
        |m' - nearest lo hi m| ≤ (hi - lo) / (2 ^ b1 p - 1) + 57 * (u * hi) ∧
        |th' - Real.arccos (z / m)| ≤ Real.pi / (2 ^ b2 lo hi p - 1) + (64 * u + 24 / 10 * d + k) ∧
        |ph'' - ph| ≤ Real.pi / (2 ^ b2 lo hi p - 1) + (76 * u + 2 * d) := by
  obtain ⟨hu0, hu1, ht0, htu, hd0, hd1⟩ := hA.range
  have hu2 : u ≤ 1 / 1000000 := hu1.trans (by norm_num)
  have hd2 : d ≤ 1 / 10000 := hd1.trans (by norm_num)
  have hpi := Real.pi_pos
  have hpi3 : 3.14 < Real.pi := Real.pi_gt_d2
  have hpi4 : Real.pi < 3.15 := Real.pi_lt_d2
  have hD : 0 < hi - lo := by linarith
  have hhi : 0 < hi := by rcases h0 with h0 | h0 <;> linarith [h0]
  have hlo : -hi ≤ lo := by rcases h0 with h0 | h0 <;> linarith [h0]
  have habslo : |lo| ≤ hi := abs_le.mpr ⟨hlo, h.le⟩
  have ht53 : t * 1 ≤ t * 2 ^ 53 := mul_le_mul_of_nonneg_left (by norm_num) ht0
  have hm2 : m ^ 2 = x ^ 2 + y ^ 2 + z ^ 2 := by rw [hmd]; unfold length3; rw [Real.sq_sqrt (by positivity)]
  obtain ⟨n, hn⟩ : ∃ n, n = normR A x y z := ⟨_, rfl⟩
  have hnm : |n - m| ≤ 8 * u * m := by rw [hn, hmd]; exact norm_err hA (by rw [← hm2]; exact hlen)
  obtain ⟨hn0, -, -⟩ := comp_err hA (z := 0) hm0 hnm
  -- the angles
  obtain ⟨hz1, k, hk0, hth, hk1, hk2⟩ := theta_err hA hmd hm0 hz hlen hn hnm
  obtain ⟨hsign, ph, ph', hph, hph', hphe⟩ := phi_err (nz := nz) hA hm0 hnm hx
  obtain ⟨hA1, hA2⟩ := abs_le.mp hA.functions.pi
  -- the ranges of the angles
  obtain ⟨H, hH⟩ : ∃ H, H = A.r (A.pi / 2) := ⟨_, rfl⟩
  have hHneg : A.r (-A.pi / 2) = -H := by rw [neg_div, hA.odd, hH]
  have hHe : |H - Real.pi / 2| ≤ 6 / 10 * d + 3 * u := by
    have e1 := hA.err (A.pi / 2)
    rw [← hH, abs_of_pos (by linarith : 0 < A.pi / 2)] at e1
    obtain ⟨e2, e3⟩ := abs_le.mp e1
    have e4 : u * (A.pi / 2) ≤ u * 1.6 := mul_le_mul_of_nonneg_left (by linarith) hu0
    rw [abs_le]; constructor <;> linarith
  obtain ⟨hH1, hH2⟩ := abs_le.mp hHe
  have hH0 : 0 < H := by linarith
  obtain ⟨-, -, hN4⟩ := steps_bound h0 h
  obtain ⟨⟨hbp, -⟩, -⟩ := b2_bound h0 h
  have hHt : t * 2 ^ 53 ≤ u * (H - -H) := by
    have := mul_le_mul_of_nonneg_left (by linarith : 1 ≤ H - -H) hu0
    linarith
  have hPt : t * 2 ^ 53 ≤ u * (A.pi - 0) := by
    have := mul_le_mul_of_nonneg_left (by linarith : 1 ≤ A.pi - 0) hu0
    linarith
  obtain ⟨a, ha, hal, m', hma, hmb, hmc, hmd'⟩ := componentR hA (n := b1 p) h (by unfold b1; omega) hb1.1 hb1.2 ht n
  obtain ⟨b, hb, hbl, th', hta, htb, htc, htd⟩ := componentR hA (lo := 0) (hi := A.pi) (n := b2 lo hi p) (by linarith) (by omega) hb2.1 hb2.2
    hPt (A.acos (A.r (z / n)))
  obtain ⟨c, hc, hcl, ph'', hpa, hpb, hpc, hpd⟩ := componentR hA (lo := -H) (hi := H) (n := b2 lo hi p) (by linarith) (by omega) hb2.1 hb2.2
    hHt ph'
  rw [sub_zero, abs_zero, zero_add, abs_of_pos (by linarith : 0 < A.pi)] at htb
  rw [abs_zero, zero_add, abs_of_pos (by linarith : 0 < A.pi)] at htc htd
  rw [abs_neg, abs_of_pos hH0] at hpb hpc hpd
  rw [abs_of_pos hhi] at hmb hmc hmd'
  have hulo : u * (|lo| + hi) ≤ 2 * (u * hi) := by
    have := mul_le_mul_of_nonneg_left habslo hu0; linarith
  have huhi : 0 ≤ u * hi := mul_nonneg hu0 hhi.le
  have huhi' : u * hi ≤ 1 / 1000000 * hi := mul_le_mul_of_nonneg_right hu2 hhi.le
  obtain ⟨f, hf⟩ : ∃ f : ℝ, f = if 0 < x / m then 1 else -1 := ⟨_, rfl⟩
  have hdec : decide (0 < A.r (x / n)) = decide (0 < x / m) := by simp only [hsign]
  have hupi : u * A.pi ≤ u * 3.2 := mul_le_mul_of_nonneg_left (by linarith) hu0
  have huH : u * (H + H) ≤ u * 3.2 := mul_le_mul_of_nonneg_left (by linarith) hu0
  have hmerr : |m' - nearest lo hi m| ≤ (hi - lo) / (2 ^ b1 p - 1) + 57 * (u * hi) := by
    have hnn : |nearest lo hi n - nearest lo hi m| ≤ 17 * (u * hi) := by
      rcases le_total m (2 * hi) with hmle | hmge
      · refine (nearest_lipschitz _ _ _ _).trans (hnm.trans ?_)
        have := mul_le_mul_of_nonneg_left hmle hu0
        linarith
      · have hnge : hi ≤ n := by
          have := (abs_le.mp hnm).1
          have := mul_le_mul_of_nonneg_right hu2 hm0.le
          linarith
        have e : ∀ q, hi ≤ q → nearest lo hi q = hi := fun q hq => by
          unfold nearest; rw [min_eq_right hq, max_eq_right h.le]
        rw [e n hnge, e m (by linarith), sub_self, abs_zero]; linarith
    have hrw : m' - nearest lo hi m = (m' - nearest lo hi n) + (nearest lo hi n - nearest lo hi m) := by ring
    rw [hrw]
    refine (abs_add_le _ _).trans ?_
    linarith
  have hN1 : (3 : ℝ) ≤ 2 ^ b2 lo hi p - 1 := by linarith
  have hthe : |th' - Real.arccos (z / m)| ≤ Real.pi / (2 ^ b2 lo hi p - 1) + (64 * u + 24 / 10 * d + k) := by
    have e1 : A.pi / (2 ^ b2 lo hi p - 1) ≤ Real.pi / (2 ^ b2 lo hi p - 1) + d / 3 := by
      have : A.pi / (2 ^ b2 lo hi p - 1) ≤ (Real.pi + d) / (2 ^ b2 lo hi p - 1) :=
        div_le_div_of_nonneg_right (by linarith) (by linarith)
      rw [add_div] at this
      have h3 : d / (2 ^ b2 lo hi p - 1) ≤ d / 3 := div_le_div_of_nonneg_left hd0 (by norm_num) hN1
      linarith
    have e2 := nearest_lipschitz 0 A.pi (A.acos (A.r (z / n))) (Real.arccos (z / m))
    have e3 : |nearest 0 A.pi (Real.arccos (z / m)) - Real.arccos (z / m)| ≤ d := by
      have g1 := Real.arccos_nonneg (z / m)
      have g2 := Real.arccos_le_pi (z / m)
      unfold nearest
      rcases le_total (Real.arccos (z / m)) A.pi with g3 | g3
      · rw [min_eq_left g3, max_eq_right g1, sub_self, abs_zero]; exact hd0
      · rw [min_eq_right g3, max_eq_right (by linarith), abs_le]; constructor <;> linarith
    have hrw : th' - Real.arccos (z / m) = (th' - nearest 0 A.pi (A.acos (A.r (z / n)))) +
        ((nearest 0 A.pi (A.acos (A.r (z / n))) - nearest 0 A.pi (Real.arccos (z / m))) +
          (nearest 0 A.pi (Real.arccos (z / m)) - Real.arccos (z / m))) := by ring
    rw [hrw]
    refine (abs_add_le _ _).trans ?_
    have := abs_add_le (nearest 0 A.pi (A.acos (A.r (z / n))) - nearest 0 A.pi (Real.arccos (z / m)))
      (nearest 0 A.pi (Real.arccos (z / m)) - Real.arccos (z / m))
    linarith
  have hphr : -Real.pi / 2 ≤ ph ∧ ph ≤ Real.pi / 2 := by
    unfold atanQuot at hph
    split at hph
    · split at hph
      · simp at hph
      · simp only [Option.some.injEq] at hph
        split at hph <;> constructor <;> linarith
    · simp only [Option.some.injEq] at hph
      have g1 := Real.neg_pi_div_two_lt_arctan (y / m / (x / m))
      have g2 := Real.arctan_lt_pi_div_two (y / m / (x / m))
      rw [hph] at g1 g2
      constructor <;> linarith
  have hphe' : |ph'' - ph| ≤ Real.pi / (2 ^ b2 lo hi p - 1) + (76 * u + 2 * d) := by
    have e1 : (H - -H) / (2 ^ b2 lo hi p - 1) ≤ Real.pi / (2 ^ b2 lo hi p - 1) + (12 / 10 * d + 6 * u) / 3 := by
      have : (H - -H) / (2 ^ b2 lo hi p - 1) ≤ (Real.pi + (12 / 10 * d + 6 * u)) / (2 ^ b2 lo hi p - 1) :=
        div_le_div_of_nonneg_right (by linarith) (by linarith)
      rw [add_div] at this
      have h3 : (12 / 10 * d + 6 * u) / (2 ^ b2 lo hi p - 1) ≤ (12 / 10 * d + 6 * u) / 3 :=
        div_le_div_of_nonneg_left (by linarith) (by norm_num) hN1
      linarith
    have e2 := nearest_lipschitz (-H) H ph' ph
    have e3 : |nearest (-H) H ph - ph| ≤ 6 / 10 * d + 3 * u := by
      obtain ⟨g1, g2⟩ := hphr
      unfold nearest
      rcases le_total ph H with g3 | g3
      · rw [min_eq_left g3]
        rcases le_total (-H) ph with g4 | g4
        · rw [max_eq_right g4, sub_self, abs_zero]; linarith
        · rw [max_eq_left g4, abs_le]; constructor <;> linarith
      · rw [min_eq_right g3, max_eq_right (by linarith), abs_le]; constructor <;> linarith
    have hrw : ph'' - ph = (ph'' - nearest (-H) H ph') + ((nearest (-H) H ph' - nearest (-H) H ph) + (nearest (-H) H ph - ph)) := by ring
    rw [hrw]
    refine (abs_add_le _ _).trans ?_
    have := abs_add_le (nearest (-H) H ph' - nearest (-H) H ph) (nearest (-H) H ph - ph)
    linarith
  refine ⟨decide (0 < A.r (x / n)) :: (a.bits ++ b.bits ++ c.bits), ?_, ?_,
    f, m', th', ph'', ph, k, ?_, hf, hph, ⟨hk0, hk1, hk2⟩, ⟨?_, ?_, ?_⟩, ?_, ?_, ?_⟩
  · unfold serializeR
    dsimp only
    rw [← hn, if_neg hn0.ne', if_neg (not_lt.mpr hz1), hph']
    dsimp only
    unfold mag thetaR phiR
    rw [hHneg, ← hH, ha, hb, hc]
  · simp only [List.length_cons, List.length_append, hal, hbl, hcl, totalSize]; omega
  · unfold deserializeR
    rw [if_pos (by simp only [List.length_cons, List.length_append, hal, hbl, hcl, totalSize]; omega)]
    dsimp only
    have e1 : (List.drop 1 (decide (0 < A.r (x / n)) :: (a.bits ++ b.bits ++ c.bits))) = a.bits ++ b.bits ++ c.bits := rfl
    have e2 : List.take (b1 p) (a.bits ++ b.bits ++ c.bits) = a.bits := by
      rw [List.append_assoc]; exact List.take_left' hal
    have e3 : List.drop (b1 p) (a.bits ++ b.bits ++ c.bits) = b.bits ++ c.bits := by
      rw [List.append_assoc]; exact List.drop_left' hal
    have e4 : List.drop (b1 p + b2 lo hi p) (a.bits ++ b.bits ++ c.bits) = c.bits :=
      List.drop_left' (by rw [List.length_append, hal, hbl])
    rw [e1, e2, e3, e4, List.take_left' hbl, List.take_of_length_le hcl.le]
    unfold mag thetaR phiR
    rw [hHneg, ← hH, hma, hta, hpa, hdec]
    simp only [List.headD_cons, decide_eq_true_eq, hf]
  · rw [abs_le]; constructor <;> linarith
  · rw [abs_le]; constructor <;> linarith
  · rw [abs_le]; constructor <;> linarith
  · exact hmerr
  · exact hthe
  · exact hphe'

/-- C98, with rounding, except for vectors in or very near the plane of the second and third axis. Every other vector of
numbers of the format that is not so short that its square underflows is transmitted, and what the receiver decodes is the
vector, with its length moved into the range, to 2.1 times the documented precision and the rounding errors; near the third
axis these are of the order of the root of the relative error of one operation.
Missing: the third axis and positive zero (refuted), lengths that underflow (refuted), the documented precision itself (refuted),
overflow, and fields with so many bits (hypotheses `hb1`, `hb2`) that a step is not larger than the rounding errors. -/
theorem C98_rounded_partial (A : FltLib) (u t d : ℝ) (hA : Accurate A u t d) (lo hi : ℝ) (p : ℕ) (h0 : Range lo hi p) (h : lo < hi)
    (hb1 : b1 p ≤ 53 ∧ 2 ^ b1 p * u ≤ 1 / 16) (hb2 : b2 lo hi p ≤ 53 ∧ 2 ^ b2 lo hi p * u ≤ 1 / 16) (ht : t * 2 ^ 53 ≤ u * (hi - lo))
    (x y z : ℝ) (nz : Bool) (hz : A.r z = z) (hlen : 8 * t ≤ u * length3 (x, y, z) ^ 2)
    (hx : (x ≠ 0 ∧ 2 * t * length3 (x, y, z) ≤ u * |x|) ∨ (x = 0 ∧ nz = true ∧ y ≠ 0 ∧ 2 * t * length3 (x, y, z) ≤ u * |y|)) :
    ∃ bits, serializeR A lo hi p (.fin x y z nz) = some bits ∧ bits.length = totalSize lo hi p ∧
      ∃ w, deserializeR A lo hi p bits = some w ∧
        dist3 w (shell lo hi (x, y, z)) ≤ 21 / 10 * ((hi - lo) / 2 ^ p) +
          hi * (220 * u + 11 * d + min (8 * √u) (33 * u * length3 (x, y, z) / √(x ^ 2 + y ^ 2))) := by
  obtain ⟨hu0, hu1, ht0, htu, hd0, hd1⟩ := hA.range
  have hpi := Real.pi_pos
  have hD : 0 < hi - lo := by linarith
  have hhi : 0 < hi := by rcases h0 with h0 | h0 <;> linarith [h0]
  have hlo : -hi ≤ lo := by rcases h0 with h0 | h0 <;> linarith [h0]
  -- the length
  obtain ⟨m, hmd⟩ : ∃ m, m = length3 (x, y, z) := ⟨_, rfl⟩
  have hm2 : m ^ 2 = x ^ 2 + y ^ 2 + z ^ 2 := by rw [hmd]; unfold length3; rw [Real.sq_sqrt (by positivity)]
  have hxy : 0 < x ^ 2 + y ^ 2 := by
    rcases hx with ⟨hx, -⟩ | ⟨-, -, hy, -⟩
    · have : 0 < x ^ 2 := by positivity
      nlinarith [sq_nonneg y]
    · have : 0 < y ^ 2 := by positivity
      nlinarith [sq_nonneg x]
  have hm0 : 0 < m := by
    rw [hmd]; apply Real.sqrt_pos.mpr; dsimp only; nlinarith [sq_nonneg z]
  rw [← hmd] at hlen hx ⊢
  have hx' : x ≠ 0 ∨ (nz = true ∧ y ≠ 0) := by
    rcases hx with ⟨hx, -⟩ | ⟨-, h1, h2, -⟩
    · exact .inl hx
    · exact .inr ⟨h1, h2⟩
  obtain ⟨bits, hs, hl, f, m', th', ph'', ph, k, hd, hf, hph, ⟨hk0, hk1, hk2⟩, ⟨hm'R, hth4, hph4⟩, hmerr, hthe, hphe'⟩ :=
    sentR hA h0 h hb1 hb2 ht hmd hm0 hz hlen hx
  obtain ⟨d1, d2, d3⟩ := direction hmd hm0 hx' hph
  refine ⟨bits, hs, hl, _, hd, ?_⟩
  obtain ⟨s1, s2, hN4⟩ := steps_bound h0 h
  have huhi : 0 ≤ u * hi := mul_nonneg hu0 hhi.le
  obtain ⟨R, hR⟩ : ∃ R, R = 102 / 100 * hi := ⟨_, rfl⟩
  have hR0 : 0 ≤ R := by rw [hR]; linarith
  obtain ⟨cm, hcm⟩ : ∃ cm, cm = nearest lo hi m := ⟨_, rfl⟩
  have hc1 : lo ≤ cm ∧ cm ≤ hi := by rw [hcm]; exact nearest_mem h.le m
  rw [← hcm] at hmerr
  rw [← hR] at hm'R
  have hcR : |cm| ≤ R := by rw [hR, abs_le]; constructor <;> linarith
  have hff : f = 1 ∨ f = -1 := by rw [hf]; split <;> simp
  have htR : t ≤ u * R := by
    have g1 := mul_le_mul_of_nonneg_left (by linarith : hi - lo ≤ 2 * hi) hu0
    have g2 : t * 2 ≤ t * 2 ^ 53 := mul_le_mul_of_nonneg_left (by norm_num) ht0
    rw [hR]; linarith
  have hdist := decoded hA (f := f) hR0 hm'R hth4 hph4 hff htR
  obtain ⟨S, hS⟩ : ∃ S, S = 21 / 10 * ((hi - lo) / 2 ^ p) := ⟨_, rfl⟩
  have hdx : 0 ≤ (hi - lo) / 2 ^ p := by positivity
  have hS0 : 0 ≤ S := by rw [hS]; linarith
  have hp1 := polar_bound (θ := Real.arccos (z / m)) (θ' := th') (φ := ph) (φ' := ph'') hcR hm'R
  have hst0 : 0 ≤ (hi - lo) / (2 ^ b1 p - 1) := by
    have : (1 : ℝ) ≤ 2 ^ b1 p := one_le_pow₀ (by norm_num)
    exact div_nonneg hD.le (by linarith)
  have hst1 : 0 ≤ Real.pi / (2 ^ b2 lo hi p - 1) := div_nonneg hpi.le (by linarith)
  have hRst : R * (Real.pi / (2 ^ b2 lo hi p - 1)) ≤ 102 / 100 * (7 / 5 * ((hi - lo) / 2 ^ p)) := by
    rw [hR, mul_assoc]; exact mul_le_mul_of_nonneg_left s2 (by norm_num)
  have hsum : ((hi - lo) / (2 ^ b1 p - 1)) ^ 2 + (R * (Real.pi / (2 ^ b2 lo hi p - 1))) ^ 2 +
      (R * (Real.pi / (2 ^ b2 lo hi p - 1))) ^ 2 ≤ S ^ 2 := by
    rw [hS]; exact sq_sum hst0 (mul_nonneg hR0 hst1) s1 hRst
  have hroot := root_add (x := m' - cm) (y := R * (th' - Real.arccos (z / m))) (z := R * (ph'' - ph))
    (e := 57 * (u * hi)) (f := R * (64 * u + 24 / 10 * d + k)) (g := R * (76 * u + 2 * d)) hS0
    (by linarith) (mul_nonneg hR0 (by linarith)) (mul_nonneg hR0 (by linarith)) hsum hmerr
    (by rw [abs_mul, abs_of_nonneg hR0, ← mul_add]; exact mul_le_mul_of_nonneg_left hthe hR0)
    (by rw [abs_mul, abs_of_nonneg hR0, ← mul_add]; exact mul_le_mul_of_nonneg_left hphe' hR0)
  rw [mul_pow, mul_pow, ← mul_add] at hroot
  have hp2 := hp1.trans hroot
  have hE0 : 0 ≤ S + (57 * (u * hi) + R * (64 * u + 24 / 10 * d + k) + R * (76 * u + 2 * d)) := by
    have := mul_nonneg hR0 (by linarith : 0 ≤ 64 * u + 24 / 10 * d + k)
    have := mul_nonneg hR0 (by linarith : 0 ≤ 76 * u + 2 * d)
    linarith
  have hdist2 : dist3 (f * m' * Real.sin th' * Real.cos ph'', f * m' * Real.sin th' * Real.sin ph'', m' * Real.cos th')
      (shell lo hi (x, y, z)) ≤ S + (57 * (u * hi) + R * (64 * u + 24 / 10 * d + k) + R * (76 * u + 2 * d)) := by
    unfold dist3 shell
    dsimp only
    rw [← hmd, ← hcm]
    refine Real.sqrt_le_iff.mpr ⟨hE0, le_trans (le_of_eq ?_) hp2⟩
    dsimp only
    have hxf : f ^ 2 = 1 := by rcases hff with rfl | rfl <;> norm_num
    rw [← hf] at d1 d2
    have e1 : cm / m * x = cm * (f * Real.sin (Real.arccos (z / m)) * Real.cos ph) := by rw [d1]; ring
    have e2 : cm / m * y = cm * (f * Real.sin (Real.arccos (z / m)) * Real.sin ph) := by rw [d2]; ring
    have e3 : cm / m * z = cm * Real.cos (Real.arccos (z / m)) := by rw [d3]; ring
    rw [e1, e2, e3]
    generalize Real.sin (Real.arccos (z / m)) = s
    have g1 : (f * m' * Real.sin th' * Real.cos ph'' - cm * (f * s * Real.cos ph)) ^ 2 =
        f ^ 2 * (m' * Real.sin th' * Real.cos ph'' - cm * s * Real.cos ph) ^ 2 := by ring
    have g2 : (f * m' * Real.sin th' * Real.sin ph'' - cm * (f * s * Real.sin ph)) ^ 2 =
        f ^ 2 * (m' * Real.sin th' * Real.sin ph'' - cm * s * Real.sin ph) ^ 2 := by ring
    rw [g1, g2, hxf, one_mul, one_mul]
  refine (dist3_triangle _ _ _).trans ((add_le_add hdist hdist2).trans ?_)
  rw [← hS]
  have hkm : 102 / 100 * k ≤ min (8 * √u) (33 * u * m / √(x ^ 2 + y ^ 2)) := by
    refine le_min (by linarith [Real.sqrt_nonneg u]) ?_
    have hr : 0 < √(x ^ 2 + y ^ 2) := Real.sqrt_pos.mpr hxy
    rw [le_div_iff₀ hr]
    have g1 := mul_nonneg hu0 hm0.le
    calc 102 / 100 * k * √(x ^ 2 + y ^ 2) = 102 / 100 * (√(x ^ 2 + y ^ 2) * k) := by ring
      _ ≤ 102 / 100 * (32 * u * m) := mul_le_mul_of_nonneg_left hk2 (by norm_num)
      _ ≤ _ := by linarith
  have hkk := mul_le_mul_of_nonneg_left hkm hhi.le
  have hhd : 0 ≤ hi * d := mul_nonneg hhi.le hd0
  rw [hR]
  generalize min (8 * √u) (33 * u * m / √(x ^ 2 + y ^ 2)) = K at *
  linarith

/-! ### The arithmetic of the target -/

/-- An IEEE-754 format is accurate. -/
theorem accurate_format {P : ℕ} {E : ℤ} (hP : 19 ≤ P) (hE : E ≤ -53) {A : FltLib} (hr : A.r = rndR P E) {d : ℝ} (hf : Functions A d) :
    Accurate A (1 / 2 ^ (P + 1)) ((2 : ℝ) ^ (E - P - 1)) d := by
  have hQ : (0 : ℝ) < 2 ^ (P + 1) := by positivity
  have ht : (2 : ℝ) ^ (E - P - 1) = (2 : ℝ) ^ E * (1 / 2 ^ (P + 1)) := by
    rw [show E - (P : ℤ) - 1 = E + -((P + 1 : ℕ) : ℤ) by push_cast; ring, zpow_splitR, zpow_neg, zpow_natCast, one_div]
  have hE53 : (2 : ℝ) ^ E * 2 ^ 53 ≤ 1 := by
    have h1 := two_zpow_leR hE
    have h2 : (2 : ℝ) ^ (-53 : ℤ) * 2 ^ 53 = 1 := by norm_num
    rw [← h2]
    exact mul_le_mul_of_nonneg_right h1 (by positivity)
  refine ⟨⟨by positivity, ?_, (zpow_pos (by norm_num) _).le, ?_⟩, ?_, ?_, ?_, ?_, ?_, ?_, hf⟩
  · apply one_div_le_one_div_of_le (by positivity)
    exact pow_le_pow_right₀ (by norm_num) (by omega)
  · rw [ht]
    have : (0 : ℝ) < 1 / 2 ^ (P + 1) := by positivity
    nlinarith
  · intro x
    have := rndR_err_abs (P := P) (E := E) x
    rw [hr]
    calc _ ≤ _ := this
      _ = _ := by ring
  · intro x y h; rw [hr]; exact rndR_mono h
  · intro x; rw [hr]; exact rndR_neg x
  · intro x; rw [hr]; exact rndR_rep (repR_rndR x)
  · intro k hk
    rw [hr]
    apply rndR_rep
    apply repR_nat _ (by omega)
    rw [mul_one_div, div_le_one hQ] at hk
    exact_mod_cast hk
  · intro x hx ht'
    rw [hr] at hx ⊢
    apply sqrt_sq_rndR
    · rw [← hx]; exact repR_rndR x
    · rw [ht] at ht'
      have : (0 : ℝ) < 1 / 2 ^ (P + 1) := by positivity
      nlinarith
    · omega

/-- C98. The arithmetic of `float`, with any library of functions good to `d`, is one of those of the theorem above, with a
relative error of 2^-24; smaller numbers underflow at 2^-150. -/
theorem C98_float (A : FltLib) (hr : ∀ x, A.r x = rndR 23 (-126) x) (d : ℝ) (hf : Functions A d) :
    Accurate A (1 / 2 ^ 24) (1 / 2 ^ 150) d := by
  have h := accurate_format (P := 23) (E := -126) (by norm_num) (by norm_num) (funext hr) hf
  have e : (2 : ℝ) ^ ((-126 : ℤ) - (23 : ℕ) - 1) = 1 / 2 ^ 150 := by norm_num
  rw [e] at h
  exact h

/-- C98. So is the arithmetic of `double`, with 2^-53 and 2^-1075. -/
theorem C98_double (A : FltLib) (hr : ∀ x, A.r x = rndR 52 (-1022) x) (d : ℝ) (hf : Functions A d) :
    Accurate A (1 / 2 ^ 53) (1 / 2 ^ 1075) d := by
  have h := accurate_format (P := 52) (E := -1022) (by norm_num) (by norm_num) (funext hr) hf
  have e : (2 : ℝ) ^ ((-1022 : ℤ) - (52 : ℕ) - 1) = 1 / 2 ^ 1075 := by
    rw [show ((-1022 : ℤ) - ((52 : ℕ) : ℤ) - 1) = -((1075 : ℕ) : ℤ) by norm_num, zpow_neg, zpow_natCast, one_div]
  rw [e] at h
  exact h

/-- A library whose functions are correctly rounded. -/
def FltLib.rounded (P : ℕ) (E : ℤ) : FltLib where
  r := rndR P E
  acos x := rndR P E (Real.arccos x)
  atan x := rndR P E (Real.arctan x)
  sin x := rndR P E (Real.sin x)
  cos x := rndR P E (Real.cos x)
  pi := rndR P E Real.pi
  atanInf := rndR P E (Real.pi / 2)

theorem functions_rounded : Functions (.rounded 23 (-126)) (1 / 2 ^ 22) := by
  have hpi := Real.pi_pos
  have hpi4 : Real.pi < 3.15 := Real.pi_lt_d2
  have key : ∀ x : ℝ, |x| ≤ 3.15 → |rndR 23 (-126) x - x| ≤ 1 / 2 ^ 22 := by
    intro x hx
    refine (rndR_err_abs x).trans ?_
    have e : (2 : ℝ) ^ ((-126 : ℤ) - (23 : ℕ) - 1) = 1 / 2 ^ 150 := by norm_num
    rw [e]
    have : |x| / 2 ^ (23 + 1) ≤ 3.15 / 2 ^ (23 + 1) := div_le_div_of_nonneg_right hx (by positivity)
    refine (add_le_add this le_rfl).trans ?_
    norm_num
  refine ⟨⟨by positivity, by norm_num⟩, ?_, ?_, ?_, ?_, ?_, ?_⟩
  · intro x _
    exact key _ (by rw [abs_of_nonneg (Real.arccos_nonneg x)]; linarith [Real.arccos_le_pi x])
  · intro x
    exact key _ (by rw [abs_le]; constructor <;> linarith [Real.neg_pi_div_two_lt_arctan x, Real.arctan_lt_pi_div_two x])
  · intro x _
    exact key _ ((Real.abs_sin_le_one x).trans (by norm_num))
  · intro x _
    exact key _ ((Real.abs_cos_le_one x).trans (by norm_num))
  · exact key _ (by rw [abs_of_pos hpi]; exact hpi4.le)
  · exact key _ (by rw [abs_of_pos (by linarith)]; linarith)

-- the rate bias (`float`, 0 to 0.35, precision 14): a vector of length 0.3125 is sent in 49 bits and decoded to 8 thousandths of a percent
example : ∃ bits, serializeR (.rounded 23 (-126)) 0 (7 / 20) 14 (.fin (3 / 16) 0 (1 / 4) false) = some bits ∧ bits.length = 49 ∧
    ∃ w, deserializeR (.rounded 23 (-126)) 0 (7 / 20) 14 bits = some w ∧ dist3 w (3 / 16, 0, 1 / 4) ≤ 6 / 100000 := by
  have hl : length3 (3 / 16, 0, 1 / 4) = 5 / 16 := by
    unfold length3
    rw [show ((3 / 16 : ℝ) ^ 2 + 0 ^ 2 + (1 / 4) ^ 2) = (5 / 16) ^ 2 by norm_num, Real.sqrt_sq (by norm_num)]
  have hA := C98_float (.rounded 23 (-126)) (fun _ => rfl) _ functions_rounded
  have hz : (FltLib.rounded 23 (-126)).r (1 / 4) = 1 / 4 :=
    rndR_rep ⟨1, -2, by norm_num, by norm_num, by norm_num⟩
  obtain ⟨bits, h1, h2, w, h3, h4⟩ := C98_rounded_partial _ _ _ _ hA 0 (7 / 20) 14 (.inl le_rfl) (by norm_num)
    ⟨by unfold b1; norm_num, by unfold b1; norm_num⟩ ⟨by rw [b2_zero (by norm_num)]; norm_num, by rw [b2_zero (by norm_num)]; norm_num⟩
    (by norm_num) (3 / 16) 0 (1 / 4) false hz (by rw [hl]; norm_num) (.inl ⟨by norm_num, by rw [hl]; norm_num⟩)
  refine ⟨bits, h1, by rw [h2, totalSize, b2_zero (by norm_num)]; rfl, w, h3, ?_⟩
  have e2 : shell 0 (7 / 20) (3 / 16, 0, 1 / 4) = (3 / 16, 0, 1 / 4) := by
    unfold shell; rw [hl, nearest_self (by norm_num) (by norm_num)]; norm_num
  rw [e2, hl] at h4
  refine h4.trans ?_
  have hs : √((3 / 16 : ℝ) ^ 2 + 0 ^ 2) = 3 / 16 := by
    rw [show ((3 / 16 : ℝ) ^ 2 + 0 ^ 2) = (3 / 16) ^ 2 by norm_num, Real.sqrt_sq (by norm_num)]
  rw [hs]
  have := min_le_right (8 * √(1 / 2 ^ 24 : ℝ)) (33 * (1 / 2 ^ 24) * (5 / 16) / (3 / 16))
  have hnum : 21 / 10 * ((7 / 20 - 0) / 2 ^ 14) + 7 / 20 * (220 * (1 / 2 ^ 24) + 11 * (1 / 2 ^ 22) + 33 * (1 / 2 ^ 24) * (5 / 16) / (3 / 16)) ≤
      (6 / 100000 : ℝ) := by norm_num
  linarith

/-! ### Where the claim fails because of rounding -/

/-- C98. A vector of `float` so short that its squares underflow cannot be transmitted, wherever it points. -/
theorem C98_counterexample_underflow (A : FltLib) (hr : ∀ x, A.r x = rndR 23 (-126) x) (lo hi : ℝ) (p : ℕ) (x y z : ℝ) (nz : Bool)
    (hx : |x| < 1 / 2 ^ 75) (hy : |y| < 1 / 2 ^ 75) (hz : |z| < 1 / 2 ^ 75) : serializeR A lo hi p (.fin x y z nz) = none := by
  have key : ∀ q : ℝ, |q| < 1 / 2 ^ 75 → A.r (q * q) = 0 := by
    intro q hq
    rw [hr]
    have h1 : |q * q| < 1 / 2 ^ 150 := by
      rw [abs_mul]
      calc |q| * |q| < 1 / 2 ^ 75 * (1 / 2 ^ 75) := mul_lt_mul'' hq hq (abs_nonneg _) (abs_nonneg _)
        _ = _ := by norm_num
    by_cases h0 : q * q = 0
    · rw [h0, rndR_zero]
    have h2 : expR (-126) (q * q) < -125 := expR_lt h0 (h1.trans_le (by norm_num)) (by norm_num)
    have h3 := expR_ge (E := -126) (q * q)
    have h4 : ulpR 23 (-126) (q * q) = 1 / 2 ^ 149 := by
      rw [ulpR_eq, show expR (-126) (q * q) = -126 by omega]; norm_num
    unfold rndR
    rw [h4]
    have h5 : rneR (q * q / (1 / 2 ^ 149)) = 0 := by
      apply rneR_near
      rw [Int.cast_zero, sub_zero, abs_div, abs_of_pos (by positivity : (0 : ℝ) < 1 / 2 ^ 149), div_lt_iff₀ (by positivity)]
      refine h1.trans_le (by norm_num)
    rw [h5]; simp
  have h0 : A.r 0 = 0 := by rw [hr]; exact rndR_zero _ _
  unfold serializeR normR
  dsimp only
  simp only [key x hx, key y hy, key z hz, add_zero, h0, Real.sqrt_zero, if_true]

/-- The beginning of a range is sent as no steps. -/
theorem component_zero {A : FltLib} (h0 : A.r 0 = 0) {P : ℝ} {n : ℕ} (hP : 0 ≤ P) (hn : n ≤ 53) {s' : FltSer ℝ}
    (h : (FltSer.mk' 0 P n).serialize A.r (.fin 0) = some s') :
    ({ FltSer.mk' 0 P n with bits := s'.bits } : FltSer ℝ).deserialize A.r = some 0 := by
  have hlen : (FltSer.mk' 0 P n).bits.length = n := by simp [FltSer.mk']
  unfold FltSer.serialize at h
  rw [hlen, show intervals n = some (2 ^ n - 1) by unfold intervals; rw [if_pos hn], clamp_fin _ hP] at h
  dsimp only at h
  split at h
  · simp at h
  have hc : nearest (FltSer.mk' 0 P n).min (FltSer.mk' 0 P n).max 0 = 0 := nearest_self le_rfl hP
  have hmin : (FltSer.mk' 0 P n).min = 0 := rfl
  rw [hc, hmin, sub_zero, h0, zero_div, h0] at h
  obtain ⟨bits, hset, hbl, hval⟩ := setUllong_small (FltSer.mk' 0 P n).bits 0 (by rw [hlen]; positivity) (by norm_num)
  rw [show ⌊(0 : ℝ)⌋.toNat = 0 by simp, hset] at h
  split at h
  · simp only [Option.some.injEq] at h
    subst h
    unfold FltSer.deserialize
    have hbl' : bits.length = n := by rw [hbl, hlen]
    dsimp only
    rw [hbl', show intervals n = some (2 ^ n - 1) by unfold intervals; rw [if_pos hn]]
    dsimp only
    rw [toUllong_eq bits (by omega), hval, Nat.cast_zero, h0, mul_zero, h0, add_zero, hmin, h0]
  · simp at h

/-- C98. Near the third axis the precision of a `float` is too coarse for the fields of precision 14: this value of the rate
bias (range 0 to 0.35) is decoded as a vector on the axis, farther away than 2.1 times the documented precision, with every
library whose arc cosine of 1 and sine of 0 are 0. -/
theorem C98_counterexample_pole (A : FltLib) (hr : ∀ x, A.r x = rndR 23 (-126) x) (d : ℝ) (hf : Functions A d)
    (hacos : A.acos 1 = 0) (hsin : A.sin 0 = 0) (hi : ℝ) (h1 : 3 / 10 ≤ hi) (h2 : hi ≤ 7 / 20) :
    length3 (15 / 2 ^ 18, 0, 1 / 4) < hi ∧
    ∃ bits, serializeR A 0 hi 14 (.fin (15 / 2 ^ 18) 0 (1 / 4) false) = some bits ∧
      ∃ w, deserializeR A 0 hi 14 bits = some w ∧ 21 / 10 * ((hi - 0) / 2 ^ 14) < dist3 w (15 / 2 ^ 18, 0, 1 / 4) := by
  have hA := C98_float A hr d hf
  have h0 := acc_zero hA
  have hpi3 : 3.14 < Real.pi := Real.pi_gt_d2
  have hd := hf.range.2
  have hd2 : d ≤ 1 / 10000 := hd.trans (by norm_num)
  obtain ⟨hA1, hA2⟩ := abs_le.mp hf.pi
  have rep : ∀ q : ℝ, RepR 23 (-126) q → A.r q = q := fun q hq => by rw [hr]; exact rndR_rep hq
  -- the length
  have hn : normR A (15 / 2 ^ 18) 0 (1 / 4) = 1 / 4 := by
    unfold normR
    have e1 : A.r (15 / 2 ^ 18 * (15 / 2 ^ 18)) = 225 / 2 ^ 36 := by
      rw [show (15 / 2 ^ 18 * (15 / 2 ^ 18) : ℝ) = 225 / 2 ^ 36 by norm_num]
      exact rep _ ⟨225, -36, by norm_num, by norm_num, by norm_num⟩
    have e2 : A.r (1 / 4 * (1 / 4)) = 1 / 2 ^ 4 := by
      rw [show (1 / 4 * (1 / 4) : ℝ) = 1 / 2 ^ 4 by norm_num]
      exact rep _ ⟨1, -4, by norm_num, by norm_num, by norm_num⟩
    have e3 : A.r (225 / 2 ^ 36) = 225 / 2 ^ 36 := rep _ ⟨225, -36, by norm_num, by norm_num, by norm_num⟩
    have e4 : A.r (225 / 2 ^ 36 + 1 / 2 ^ 4) = 1 / 2 ^ 4 := by
      rw [hr]
      have hx : expR (-126) (225 / 2 ^ 36 + 1 / 2 ^ 4) = -4 :=
        expR_eq (by rw [abs_of_pos (by norm_num)]; norm_num) (by rw [abs_of_pos (by norm_num)]; norm_num) (by norm_num)
      unfold rndR
      rw [ulpR_eq, hx]
      have h5 : rneR ((225 / 2 ^ 36 + 1 / 2 ^ 4) / 2 ^ ((-4 : ℤ) - (23 : ℕ))) = 2 ^ 23 := by
        apply rneR_near; norm_num [abs_lt]
      rw [h5]; norm_num
    have e5 : √(1 / 2 ^ 4 : ℝ) = 1 / 4 := by
      rw [show (1 / 2 ^ 4 : ℝ) = (1 / 4) ^ 2 by norm_num, Real.sqrt_sq (by norm_num)]
    rw [e1, mul_zero, h0, add_zero, e3, e2, e4, e5]
    exact rep _ ⟨1, -2, by norm_num, by norm_num, by norm_num⟩
  have hzn : A.r (1 / 4 / (1 / 4)) = 1 := by rw [div_self (by norm_num)]; exact acc_one hA
  have hxn : A.r (15 / 2 ^ 18 / (1 / 4)) = 15 / 2 ^ 16 := by
    rw [show (15 / 2 ^ 18 / (1 / 4) : ℝ) = 15 / 2 ^ 16 by norm_num]
    exact rep _ ⟨15, -16, by norm_num, by norm_num, by norm_num⟩
  have hlen : length3 (15 / 2 ^ 18, 0, 1 / 4) < hi := by
    unfold length3
    rw [Real.sqrt_lt' (by linarith)]
    have : (3 / 10) ^ 2 ≤ hi ^ 2 := pow_le_pow_left₀ (by norm_num) h1 2
    refine lt_of_lt_of_le ?_ this
    norm_num
  refine ⟨hlen, ?_⟩
  have hb : b2 0 hi 14 = 16 := b2_zero (by linarith) 14
  have hb1 : b1 14 = 16 := rfl
  obtain ⟨H, hH⟩ : ∃ H, H = A.r (A.pi / 2) := ⟨_, rfl⟩
  have hHneg : A.r (-A.pi / 2) = -H := by rw [neg_div, hA.odd, hH]
  have hH1 : 1 ≤ H := by
    have := hA.mono 1 (A.pi / 2) (by linarith); rwa [acc_one hA, ← hH] at this
  obtain ⟨a, ha, hal, m', hma, -⟩ := componentR hA (lo := 0) (hi := hi) (n := 16) (by linarith) (by norm_num) (by norm_num) (by norm_num)
    (by rw [sub_zero]; norm_num; linarith) (1 / 4)
  obtain ⟨b, hb', hbl, th', hta, -⟩ := componentR hA (lo := 0) (hi := A.pi) (n := 16) (by linarith) (by norm_num) (by norm_num) (by norm_num)
    (by rw [sub_zero]; norm_num; linarith) 0
  obtain ⟨c, hc, hcl, ph, hpa, -⟩ := componentR hA (lo := -H) (hi := H) (n := 16) (by linarith) (by norm_num) (by norm_num) (by norm_num)
    (by norm_num; linarith) (A.atan 0)
  rw [component_zero h0 (by linarith) (by norm_num) hb'] at hta
  cases hta
  refine ⟨decide ((0 : ℝ) < 15 / 2 ^ 16) :: (a.bits ++ b.bits ++ c.bits), ?_, ?_⟩
  · unfold serializeR
    dsimp only
    rw [hn, if_neg (by norm_num), hzn, if_neg (by norm_num), hxn, zero_div, h0, hacos]
    have hq : atanQuotR A (15 / 2 ^ 16) 0 (if (15 / 2 ^ 18 : ℝ) = 0 then false else decide ((15 / 2 ^ 18 : ℝ) < 0)) = some (A.atan 0) := by
      unfold atanQuotR; rw [if_neg (by norm_num), zero_div, h0]
    rw [hq]
    dsimp only
    unfold mag thetaR phiR
    rw [hHneg, ← hH, hb, hb1, ha, hb', hc]
  · unfold deserializeR
    have hts : totalSize 0 hi 14 = 49 := by unfold totalSize; rw [hb]; rfl
    rw [hts, if_pos (by simp only [List.length_cons, List.length_append, hal, hbl, hcl])]
    dsimp only
    rw [hb, hb1]
    have e1 : ∀ q, (List.drop 1 (q :: (a.bits ++ b.bits ++ c.bits))) = a.bits ++ b.bits ++ c.bits := fun _ => rfl
    have e2 : List.take 16 (a.bits ++ b.bits ++ c.bits) = a.bits := by
      rw [List.append_assoc]; exact List.take_left' hal
    have e3 : List.drop 16 (a.bits ++ b.bits ++ c.bits) = b.bits ++ c.bits := by
      rw [List.append_assoc]; exact List.drop_left' hal
    have e4 : List.drop (16 + 16) (a.bits ++ b.bits ++ c.bits) = c.bits :=
      List.drop_left' (by rw [List.length_append, hal, hbl])
    rw [e1, e2, e3, e4, List.take_left' hbl, List.take_of_length_le hcl.le]
    unfold mag thetaR phiR
    rw [hHneg, ← hH, hb, hb1, hma, component_zero h0 (by linarith) (by norm_num) hb', hpa]
    dsimp only
    refine ⟨_, rfl, ?_⟩
    rw [hsin, mul_zero, h0, zero_mul, h0, zero_mul, h0]
    unfold dist3 length3
    dsimp only
    apply Real.lt_sqrt_of_sq_lt
    have hpos : 0 ≤ 21 / 10 * ((hi - 0) / 2 ^ 14) := by
      have : 0 ≤ hi - 0 := by linarith
      positivity
    have hle : 21 / 10 * ((hi - 0) / 2 ^ 14) ≤ 21 / 10 * (7 / 20 / 2 ^ 14) := by
      have := div_le_div_of_nonneg_right (by linarith : hi - 0 ≤ 7 / 20) (by positivity : (0 : ℝ) ≤ 2 ^ 14)
      linarith
    have := pow_le_pow_left₀ hpos hle 2
    have hnum : (21 / 10 * (7 / 20 / 2 ^ 14) : ℝ) ^ 2 < (0 - 15 / 2 ^ 18) ^ 2 := by norm_num
    nlinarith [sq_nonneg ((0 : ℝ) - 0), sq_nonneg (A.r (m' * A.cos 0) - 1 / 4)]

-- the correctly rounded library is one of these
example : (FltLib.rounded 23 (-126)).acos 1 = 0 ∧ (FltLib.rounded 23 (-126)).sin 0 = 0 := by
  constructor
  · change rndR 23 (-126) (Real.arccos 1) = 0
    rw [Real.arccos_one, rndR_zero]
  · change rndR 23 (-126) (Real.sin 0) = 0
    rw [Real.sin_zero, rndR_zero]

end
end PAN
