import Verif.Model.QuaternionSerRnd
import Verif.Props.QuaternionSer
import Verif.Props.VectorSerRnd
/-!
C99 with rounding: attitudes are transmitted to a hundredth by `float` and `double` arithmetic too.
-/
namespace PAN
open Spec BitArray FltSer QuatSer
noncomputable section

theorem quat_serializeR_exact (v : QuatIn) : QuatSer.serializeR .exact v = QuatSer.serialize v := by
  cases v with
  | other => rfl
  | fin q =>
    unfold QuatSer.serializeR QuatSer.serialize normR4
    simp only [FltLib.exact, id, ← sq]
    rfl

theorem quat_deserializeR_exact (bits : List Bool) : QuatSer.deserializeR .exact bits = QuatSer.deserialize bits := rfl

section
variable {A : FltLib} {u t d : ℝ}

/-- The rounded length. -/
theorem norm4_err (h : Accurate A u t d) {q : Fin 4 → ℝ} (hm : 8 * t ≤ u * length4 q ^ 2) :
    |normR4 A q - length4 q| ≤ 8 * u * length4 q := by
  obtain ⟨hu0, hu1, ht0, htu, -, -⟩ := h.range
  obtain ⟨m, hmdef⟩ : ∃ m, m = length4 q := ⟨_, rfl⟩
  have hm0 : 0 ≤ m := by rw [hmdef]; exact Real.sqrt_nonneg _
  have hm2 : m ^ 2 = q 0 ^ 2 + q 1 ^ 2 + q 2 ^ 2 + q 3 ^ 2 := by rw [hmdef]; unfold length4; rw [Real.sq_sqrt (by positivity)]
  rw [← hmdef] at hm ⊢
  have hu2 : u ≤ 1 / 1000 := hu1.trans (by norm_num)
  obtain ⟨M, hM⟩ : ∃ M, M = m ^ 2 := ⟨_, rfl⟩
  have hM0 : 0 ≤ M := by rw [hM]; positivity
  rw [← hM] at hm hm2
  have htm : 8 * t ≤ u * m := by
    rcases le_total m 1 with h1 | h1
    · have : M ≤ m := by rw [hM]; nlinarith
      nlinarith
    · have : t * 8 ≤ t * 2 ^ 53 := mul_le_mul_of_nonneg_left (by norm_num) ht0
      nlinarith
  unfold normR4
  generalize q 0 = x at *
  generalize q 1 = y at *
  generalize q 2 = z at *
  generalize q 3 = v at *
  have hx0 := sq_nonneg x
  have hy0 := sq_nonneg y
  have hz0 := sq_nonneg z
  have hv0 := sq_nonneg v
  have ex := h.err (x * x)
  have ey := h.err (y * y)
  have ez := h.err (z * z)
  have ev := h.err (v * v)
  have ax := acc_nonneg h (mul_self_nonneg x)
  have ay := acc_nonneg h (mul_self_nonneg y)
  have az := acc_nonneg h (mul_self_nonneg z)
  have av := acc_nonneg h (mul_self_nonneg v)
  rw [← sq] at ex ey ez ev ax ay az av
  rw [abs_of_nonneg hx0] at ex
  rw [abs_of_nonneg hy0] at ey
  rw [abs_of_nonneg hz0] at ez
  rw [abs_of_nonneg hv0] at ev
  rw [← sq, ← sq, ← sq, ← sq]
  generalize A.r (x ^ 2) = a at *
  generalize A.r (y ^ 2) = b at *
  generalize A.r (z ^ 2) = c at *
  generalize A.r (v ^ 2) = f at *
  have e1 := h.err (a + b)
  have as1 := acc_nonneg h (add_nonneg ax ay)
  rw [abs_of_nonneg (add_nonneg ax ay)] at e1
  generalize A.r (a + b) = s1 at *
  have e2 := h.err (s1 + c)
  have as2 := acc_nonneg h (add_nonneg as1 az)
  rw [abs_of_nonneg (add_nonneg as1 az)] at e2
  generalize A.r (s1 + c) = s2 at *
  have e3 := h.err (s2 + f)
  have as3 := acc_nonneg h (add_nonneg as2 av)
  rw [abs_of_nonneg (add_nonneg as2 av)] at e3
  generalize A.r (s2 + f) = s3 at *
  rw [abs_le] at ex ey ez ev e1 e2 e3
  obtain ⟨ex1, ex2⟩ := ex
  obtain ⟨ey1, ey2⟩ := ey
  obtain ⟨ez1, ez2⟩ := ez
  obtain ⟨ev1, ev2⟩ := ev
  obtain ⟨e11, e12⟩ := e1
  obtain ⟨e21, e22⟩ := e2
  obtain ⟨e31, e32⟩ := e3
  have huM : u * M ≤ 1 / 1000 * M := mul_le_mul_of_nonneg_right hu2 hM0
  have huM0 : 0 ≤ u * M := mul_nonneg hu0 hM0
  have hux : u * x ^ 2 + u * y ^ 2 + u * z ^ 2 + u * v ^ 2 = u * M := by rw [hm2]; ring
  have hux0 := mul_nonneg hu0 hx0
  have huy0 := mul_nonneg hu0 hy0
  have huz0 := mul_nonneg hu0 hz0
  have huv0 := mul_nonneg hu0 hv0
  have hab : a + b ≤ 11 / 10 * M := by linarith
  have hab' : u * (a + b) ≤ 11 / 10 * (u * M) := by
    have := mul_le_mul_of_nonneg_left hab hu0; linarith
  have hsc : s1 + c ≤ 11 / 10 * M := by linarith
  have hsc' : u * (s1 + c) ≤ 11 / 10 * (u * M) := by
    have := mul_le_mul_of_nonneg_left hsc hu0; linarith
  have hsf : s2 + f ≤ 11 / 10 * M := by linarith
  have hsf' : u * (s2 + f) ≤ 11 / 10 * (u * M) := by
    have := mul_le_mul_of_nonneg_left hsf hu0; linarith
  have hs3 : |s3 - M| ≤ 6 * (u * M) := by rw [abs_le]; constructor <;> linarith
  -- the root
  have hy0' := Real.sqrt_nonneg s3
  have hys := Real.sq_sqrt as3
  generalize √s3 = w at *
  have hw : |w - m| ≤ 6 * (u * m) := by
    rcases hm0.eq_or_lt with hz | hpos
    · have hM' : M = 0 := by rw [hM, ← hz]; ring
      rw [hM'] at hs3
      have : s3 = 0 := by simpa using hs3
      rw [this] at hys
      have : w = 0 := by nlinarith
      rw [this, ← hz]; simp
    · have hprod : |w - m| * (w + m) = |s3 - M| := by
        rw [← hys, hM, show w ^ 2 - m ^ 2 = (w - m) * (w + m) by ring, abs_mul, abs_of_nonneg (by linarith : 0 ≤ w + m)]
      have h1 : |w - m| * m ≤ 6 * (u * m) * m := by
        calc |w - m| * m ≤ |w - m| * (w + m) := mul_le_mul_of_nonneg_left (by linarith) (abs_nonneg _)
          _ ≤ 6 * (u * M) := by rw [hprod]; exact hs3
          _ = _ := by rw [hM]; ring
      exact le_of_mul_le_mul_right h1 hpos
  have e4 := h.err w
  rw [abs_of_nonneg hy0'] at e4
  have hum : u * m ≤ 1 / 1000 * m := mul_le_mul_of_nonneg_right hu2 hm0
  have hum0 : 0 ≤ u * m := mul_nonneg hu0 hm0
  obtain ⟨hw1, hw2⟩ := abs_le.mp hw
  obtain ⟨e41, e42⟩ := abs_le.mp e4
  have hw' : w ≤ 11 / 10 * m := by linarith
  have huw : u * w ≤ 11 / 10 * (u * m) := by
    have := mul_le_mul_of_nonneg_left hw' hu0; linarith
  rw [abs_le]; constructor <;> linarith

/-- The largest component is recovered from the others, up to rounding. -/
theorem recoverR {n k a b c wa wb wc e f g : ℝ} (hsum : n ^ 2 + a ^ 2 + b ^ 2 + c ^ 2 = 1) (he : 0 ≤ e ∧ e ≤ 1 / 400) (hf : 0 ≤ f ∧ f ≤ 1 / 10000)
    (hg : 0 ≤ g ∧ g ≤ 1 / 10000) (hn : 0 ≤ n) (ha : |a| ≤ n + g) (hb : |b| ≤ n + g) (hc : |c| ≤ n + g) (hwa : |wa - a| ≤ e)
    (hwb : |wb - b| ≤ e) (hwc : |wc - c| ≤ e) (hk : |k - (1 - wa * wa - wb * wb - wc * wc)| ≤ f) :
    0 ≤ k ∧ |√k - n| ≤ 4 * (e + f) := by
  obtain ⟨he0, he1⟩ := he
  obtain ⟨hf0, hf1⟩ := hf
  obtain ⟨hg0, hg1⟩ := hg
  have hn1 : 49 / 100 ≤ n := by
    have h1 := pow_le_pow_left₀ (abs_nonneg a) ha 2
    have h2 := pow_le_pow_left₀ (abs_nonneg b) hb 2
    have h3 := pow_le_pow_left₀ (abs_nonneg c) hc 2
    rw [sq_abs] at h1 h2 h3
    by_contra hlt
    have h4 : (n + g) ^ 2 < (1 / 2) ^ 2 := pow_lt_pow_left₀ (by linarith) (by linarith) (by norm_num)
    nlinarith
  obtain ⟨N, hN⟩ : ∃ N, N = n + g := ⟨_, rfl⟩
  have hN0 : 0 ≤ N := by linarith
  rw [← hN] at ha hb hc
  have up : ∀ x w : ℝ, |x| ≤ N → |w - x| ≤ e → w * w ≤ x ^ 2 + 2 * (e * N) + e ^ 2 := by
    intro x w hx hw
    have h1 : |w| ≤ |x| + e := by
      have := abs_add_le (w - x) x
      rw [sub_add_cancel] at this; linarith
    have h2 : |w| * |w| ≤ (|x| + e) * (|x| + e) := mul_self_le_mul_self (abs_nonneg _) h1
    rw [abs_mul_abs_self] at h2
    have h3 : |x| * |x| = x ^ 2 := by rw [abs_mul_abs_self]; ring
    have h5 : e * |x| ≤ e * N := mul_le_mul_of_nonneg_left hx he0
    nlinarith
  have low : ∀ x w : ℝ, |x| ≤ N → |w - x| ≤ e → x ^ 2 - 2 * (e * N) ≤ w * w := by
    intro x w hx hw
    have h1 : |x| - e ≤ |w| := by
      have := abs_add_le (x - w) w
      rw [sub_add_cancel, abs_sub_comm] at this; linarith
    have h3 : |x| * |x| = x ^ 2 := by rw [abs_mul_abs_self]; ring
    have h4 : |w| * |w| = w * w := abs_mul_abs_self w
    have h5 : e * |x| ≤ e * N := mul_le_mul_of_nonneg_left hx he0
    rcases le_total e |x| with h | h
    · have h2 : (|x| - e) * (|x| - e) ≤ |w| * |w| := mul_self_le_mul_self (by linarith) h1
      nlinarith
    · have : |x| * |x| ≤ e * |x| := mul_le_mul_of_nonneg_right h (abs_nonneg _)
      nlinarith [mul_self_nonneg w, mul_nonneg he0 hN0]
  have u1 := up a wa ha hwa
  have u2 := up b wb hb hwb
  have u3 := up c wc hc hwc
  have l1 := low a wa ha hwa
  have l2 := low b wb hb hwb
  have l3 := low c wc hc hwc
  obtain ⟨k1, k2⟩ := abs_le.mp hk
  have q1 : e * N = e * n + e * g := by rw [hN]; ring
  have q2 : e * g ≤ e * (1 / 10000) := mul_le_mul_of_nonneg_left hg1 he0
  have q3 : e * (49 / 100) ≤ e * n := mul_le_mul_of_nonneg_left hn1 he0
  have q4 : f * (49 / 100) ≤ f * n := mul_le_mul_of_nonneg_left hn1 hf0
  have q5 : e ^ 2 ≤ e * (1 / 400) := by rw [sq]; exact mul_le_mul_of_nonneg_left he1 he0
  have q6 : e * f ≤ f * (1 / 400) := by rw [mul_comm]; exact mul_le_mul_of_nonneg_left he1 hf0
  have q7 : f ^ 2 ≤ f * (1 / 10000) := by rw [sq]; exact mul_le_mul_of_nonneg_left hf1 hf0
  have q8 := mul_nonneg he0 hg0
  have hlow : (n - 4 * (e + f)) ^ 2 ≤ k := by
    have : (n - 4 * (e + f)) ^ 2 = n ^ 2 - 8 * (e * n) - 8 * (f * n) + 16 * e ^ 2 + 32 * (e * f) + 16 * f ^ 2 := by ring
    rw [this]; linarith
  have hup : k ≤ (n + 4 * (e + f)) ^ 2 := by
    have : (n + 4 * (e + f)) ^ 2 = n ^ 2 + 8 * (e * n) + 8 * (f * n) + 16 * (e + f) ^ 2 := by ring
    have h' := sq_nonneg (e + f)
    rw [this]; linarith
  have h4 : 0 ≤ n - 4 * (e + f) := by linarith
  refine ⟨(sq_nonneg _).trans hlow, abs_le.mpr ⟨?_, ?_⟩⟩
  · have := Real.sqrt_le_sqrt hlow; rw [Real.sqrt_sq h4] at this; linarith
  · have := Real.sqrt_le_sqrt hup; rw [Real.sqrt_sq (by linarith)] at this; linarith

/-- A component of a quaternion that is nearly a unit quaternion. -/
theorem element_sentR (h : Accurate A u t d) {x y : ℝ} (hx : |x| ≤ 1) (hy : |y - x| ≤ 10 * u) :
    ∃ s', element.serialize A.r (.fin y) = some s' ∧ s'.bits.length = 10 ∧
    ∃ w, ({ element with bits := s'.bits } : FltSer ℝ).deserialize A.r = some w ∧ |w - x| ≤ 2 / 1023 + 50 * u ∧ |w| ≤ 1 + 40 * u := by
  obtain ⟨hu0, hu1, ht0, htu, -, -⟩ := h.range
  obtain ⟨s', h1, h2, w, h3, h4, h5, h6⟩ := componentR h (lo := (-1 : ℝ)) (hi := 1) (n := 10) (by norm_num) (by norm_num) (by norm_num)
    (by linarith [show (2 : ℝ) ^ 10 * (1 / 2 ^ 20) ≤ 1 / 16 by norm_num, mul_le_mul_of_nonneg_left hu1 (show (0 : ℝ) ≤ 2 ^ 10 by norm_num)])
    (by linarith) y
  refine ⟨s', h1, h2, w, h3, ?_, ?_⟩
  · have e : nearest (-1) 1 x = x := by
      obtain ⟨ha, hb⟩ := abs_le.mp hx
      unfold nearest; rw [min_eq_left hb, max_eq_right ha]
    have h7 := (nearest_lipschitz (-1) 1 y x).trans hy
    rw [e] at h7
    have h8 := abs_add_le (w - nearest (-1) 1 y) (nearest (-1) 1 y - x)
    rw [sub_add_sub_cancel] at h8
    norm_num at h4
    norm_num
    linarith
  · norm_num at h5 h6
    rw [abs_le]; constructor <;> linarith

/-- The radicand of the largest component. -/
theorem radicand (h : Accurate A u t d) {a b c : ℝ} (ha : |a| ≤ 1 + 40 * u) (hb : |b| ≤ 1 + 40 * u) (hc : |c| ≤ 1 + 40 * u) :
    |A.r (A.r (A.r (1 - A.r (a * a)) - A.r (b * b)) - A.r (c * c)) - (1 - a * a - b * b - c * c)| ≤ 12 * u := by
  obtain ⟨hu0, hu1, ht0, htu, -, -⟩ := h.range
  have hu2 : u ≤ 1 / 10000 := hu1.trans (by norm_num)
  have ht1 : 1000 * t ≤ u := by nlinarith
  have sq1 : ∀ x : ℝ, |x| ≤ 1 + 40 * u → x * x ≤ 102 / 100 ∧ |A.r (x * x) - x * x| ≤ 103 / 100 * u := by
    intro x hx
    have h1 : |x| ≤ 1005 / 1000 := by linarith
    have h2 : |x| * |x| ≤ 1005 / 1000 * (1005 / 1000) := mul_self_le_mul_self (abs_nonneg _) h1
    rw [abs_mul_abs_self] at h2
    have h3 : x * x ≤ 102 / 100 := by linarith
    refine ⟨h3, ?_⟩
    have h4 := h.err (x * x)
    rw [abs_of_nonneg (mul_self_nonneg x)] at h4
    have := mul_le_mul_of_nonneg_left h3 hu0
    linarith
  obtain ⟨a1, a2⟩ := sq1 a ha
  obtain ⟨b1, b2⟩ := sq1 b hb
  obtain ⟨c1, c2⟩ := sq1 c hc
  have a0 := mul_self_nonneg a
  have b0 := mul_self_nonneg b
  have c0 := mul_self_nonneg c
  generalize A.r (a * a) = x at *
  generalize A.r (b * b) = y at *
  generalize A.r (c * c) = z at *
  generalize a * a = aa at *
  generalize b * b = bb at *
  generalize c * c = cc at *
  obtain ⟨a3, a4⟩ := abs_le.mp a2
  obtain ⟨b3, b4⟩ := abs_le.mp b2
  obtain ⟨c3, c4⟩ := abs_le.mp c2
  have stp : ∀ p K : ℝ, |p| ≤ K → |A.r p - p| ≤ K * u + t := by
    intro p K hp
    have := mul_le_mul_of_nonneg_left hp hu0
    linarith [h.err p]
  have e1 := stp (1 - x) (103 / 100) (by rw [abs_le]; constructor <;> linarith)
  generalize A.r (1 - x) = s1 at *
  obtain ⟨e11, e12⟩ := abs_le.mp e1
  have e2 := stp (s1 - y) (22 / 10) (by rw [abs_le]; constructor <;> linarith)
  generalize A.r (s1 - y) = s2 at *
  obtain ⟨e21, e22⟩ := abs_le.mp e2
  have e3 := stp (s2 - z) (33 / 10) (by rw [abs_le]; constructor <;> linarith)
  generalize A.r (s2 - z) = s3 at *
  obtain ⟨e31, e32⟩ := abs_le.mp e3
  rw [abs_le]; constructor <;> linarith

/-- The bits of three components decode to these components and the largest. -/
theorem decode_threeR (k : Fin 4) {a b c : FltSer ℝ} {wa wb wc : ℝ} (ha : a.bits.length = 10) (hb : b.bits.length = 10)
    (hc : c.bits.length = 10) (hwa : ({ element with bits := a.bits } : FltSer ℝ).deserialize A.r = some wa)
    (hwb : ({ element with bits := b.bits } : FltSer ℝ).deserialize A.r = some wb)
    (hwc : ({ element with bits := c.bits } : FltSer ℝ).deserialize A.r = some wc)
    (hs : 0 ≤ A.r (A.r (A.r (1 - A.r (wa * wa)) - A.r (wb * wb)) - A.r (wc * wc))) {i j l : Fin 4} (ho : others k = [i, j, l]) :
    QuatSer.deserializeR A (k.val.testBit 0 :: k.val.testBit 1 :: ([a, b, c].map (·.bits)).flatten) =
      some (fun n => if n = k then A.r √(A.r (A.r (A.r (1 - A.r (wa * wa)) - A.r (wb * wb)) - A.r (wc * wc))) else if n = i then wa else
        if n = j then wb else if n = l then wc else 0) := by
  have hk : (⟨(k.val.testBit 0).toNat + 2 * (k.val.testBit 1).toNat, by
      cases k.val.testBit 0 <;> cases k.val.testBit 1 <;> decide⟩ : Fin 4) = k := by fin_cases k <;> rfl
  unfold QuatSer.deserializeR
  have e0 : ([a, b, c].map (·.bits)).flatten = a.bits ++ (b.bits ++ c.bits) := by simp
  rw [e0]
  dsimp only
  rw [if_pos (by rw [List.length_append, List.length_append, ha, hb, hc]; rfl)]
  have e1 : List.take componentSize (List.drop (componentSize * 0) (a.bits ++ (b.bits ++ c.bits))) = a.bits := by
    rw [mul_zero, List.drop_zero]; exact List.take_left' ha
  have e2 : List.take componentSize (List.drop (componentSize * 1) (a.bits ++ (b.bits ++ c.bits))) = b.bits := by
    rw [mul_one, List.drop_left' ha]; exact List.take_left' hb
  have e3 : List.take componentSize (List.drop (componentSize * 2) (a.bits ++ (b.bits ++ c.bits))) = c.bits := by
    rw [← List.append_assoc, List.drop_left' (by rw [List.length_append, ha, hb]; rfl)]; exact List.take_of_length_le hc.le
  rw [e1, e2, e3, hwa, hwb, hwc]
  dsimp only
  rw [if_neg (not_lt.mpr hs)]
  rw [hk, ho]

set_option maxHeartbeats 1000000 in
/-- C99, with the rounding of every operation. Every quaternion other than zero and not so short that its square underflows is
transmitted in 32 bits, and what the receiver decodes is, up to rounding, a unit quaternion of the same rotation: the
normalised quaternion or its negative, each component to 8/1023 and 250 times the relative error of one operation.
Missing: overflow of the squares, and lengths that underflow (refuted). -/
theorem C99_rounded_partial (A : FltLib) (u t d : ℝ) (hA : Accurate A u t d) (q : Fin 4 → ℝ) (hq : q ≠ 0)
    (hlen : 8 * t ≤ u * length4 q ^ 2) :
    ∃ bits, QuatSer.serializeR A (.fin q) = some bits ∧ bits.length = 32 ∧
      ∃ w, QuatSer.deserializeR A bits = some w ∧ |length4 w - 1| ≤ 15 * u ∧
        ∃ σ : ℝ, (σ = 1 ∨ σ = -1) ∧ ∀ i, |w i - σ * (q i / length4 q)| ≤ 8 / 1023 + 250 * u := by
  obtain ⟨hu0, hu1, ht0, htu, -, -⟩ := hA.range
  have hu2 : u ≤ 1 / 1000000 * 2 := hu1.trans (by norm_num)
  have ht1 : 1000 * t ≤ u := by nlinarith
  have hm0 : 0 < length4 q := by
    apply Real.sqrt_pos.mpr
    by_contra hn
    apply hq
    have h0 := sq_nonneg (q 0)
    have h1 := sq_nonneg (q 1)
    have h2 := sq_nonneg (q 2)
    have h3 := sq_nonneg (q 3)
    funext i
    have : q i ^ 2 = 0 := by fin_cases i <;> simp only [Fin.isValue, Fin.zero_eta, Fin.mk_one, Fin.reduceFinMk] <;> linarith
    exact pow_eq_zero_iff (two_ne_zero) |>.mp this
  have hsq : length4 q ^ 2 = q 0 ^ 2 + q 1 ^ 2 + q 2 ^ 2 + q 3 ^ 2 := Real.sq_sqrt (by positivity)
  have hnm := norm4_err hA hlen
  obtain ⟨m, hm⟩ : ∃ m, m = normR4 A q := ⟨_, rfl⟩
  rw [← hm] at hnm
  have hmpos : 0 < m := (comp_err hA (z := 0) hm0 hnm).1
  -- the exact and the rounded unit quaternion
  obtain ⟨n, hn⟩ : ∃ n : Fin 4 → ℝ, n = fun i => q i / length4 q := ⟨_, rfl⟩
  obtain ⟨n', hn'⟩ : ∃ n' : Fin 4 → ℝ, n' = fun i => A.r (q i / m) := ⟨_, rfl⟩
  have hsum : n 0 ^ 2 + n 1 ^ 2 + n 2 ^ 2 + n 3 ^ 2 = 1 := by rw [hn]; field_simp; linarith
  have hle : ∀ i, |n i| ≤ 1 := by
    intro i
    apply abs_le_one_iff_mul_self_le_one.mpr
    have h0 := sq_nonneg (n 0)
    have h1 := sq_nonneg (n 1)
    have h2 := sq_nonneg (n 2)
    have h3 := sq_nonneg (n 3)
    fin_cases i <;> simp only [Fin.isValue, Fin.zero_eta, Fin.mk_one, Fin.reduceFinMk] <;> nlinarith
  have hnn : ∀ i, |n' i - n i| ≤ 10 * u := by
    intro i
    obtain ⟨-, h1, h2⟩ := comp_err hA (z := q i) hm0 hnm
    have e1 : q i / length4 q = n i := by rw [hn]
    have e2 : A.r (q i / m) = n' i := by rw [hn']
    rw [e1] at h2
    rw [e2] at h1
    have h3 := mul_le_mul_of_nonneg_left (hle i) (show 0 ≤ 81 / 10 * u by linarith)
    have h4 : |q i / m| ≤ 11 / 10 := by
      have := abs_add_le (q i / m - n i) (n i)
      rw [sub_add_cancel] at this
      linarith [hle i]
    have h5 := mul_le_mul_of_nonneg_left h4 hu0
    have h6 := abs_add_le (n' i - q i / m) (q i / m - n i)
    rw [sub_add_sub_cancel] at h6
    linarith
  obtain ⟨k, hk⟩ : ∃ k, k = maxIdx n' := ⟨_, rfl⟩
  have hmax' := maxIdx_le n'
  rw [← hk] at hmax'
  have hmax : ∀ i, |n i| ≤ |n k| + 20 * u := by
    intro i
    have h1 := abs_add_le (n i - n' i) (n' i)
    rw [sub_add_cancel, abs_sub_comm] at h1
    have h2 := abs_add_le (n' k - n k) (n k)
    rw [sub_add_cancel] at h2
    linarith [hnn i, hnn k, hmax' i]
  obtain ⟨σ, hσ, hσk, hσq⟩ : ∃ σ : ℝ, (σ = 1 ∨ σ = -1) ∧ σ * n k = |n k| ∧
      ∀ i, (if q k < 0 then A.r (A.r (q i / m) * -1) else A.r (q i / m)) = σ * n' i := by
    by_cases hneg : q k < 0
    · refine ⟨-1, .inr rfl, ?_, fun i => ?_⟩
      · have : n k < 0 := by rw [hn]; exact div_neg_of_neg_of_pos hneg hm0
        rw [abs_of_neg this]; ring
      · rw [if_pos hneg, hn', mul_neg_one, hA.odd, hA.idem]; ring
    · refine ⟨1, .inl rfl, ?_, fun i => by rw [if_neg hneg, hn']; ring⟩
      have : 0 ≤ n k := by rw [hn]; exact div_nonneg (not_lt.mp hneg) hm0.le
      rw [abs_of_nonneg this]; ring
  have hσ2 : σ ^ 2 = 1 := by rcases hσ with rfl | rfl <;> norm_num
  have hσa : ∀ x, |σ * x| = |x| := by intro x; rcases hσ with rfl | rfl <;> simp
  -- the three other components
  have hcases : ∃ i j l, others k = [i, j, l] ∧ n k ^ 2 + n i ^ 2 + n j ^ 2 + n l ^ 2 = 1 ∧
      ∀ i', i' = k ∨ (i' ≠ k ∧ i' = i) ∨ (i' ≠ k ∧ i' ≠ i ∧ i' = j) ∨ (i' ≠ k ∧ i' ≠ i ∧ i' ≠ j ∧ i' = l) := by
    have : k = 0 ∨ k = 1 ∨ k = 2 ∨ k = 3 := by fin_cases k <;> simp
    rcases this with h | h | h | h <;> rw [h]
    · exact ⟨1, 2, 3, rfl, by linarith, by decide⟩
    · exact ⟨0, 2, 3, rfl, by linarith, by decide⟩
    · exact ⟨0, 1, 3, rfl, by linarith, by decide⟩
    · exact ⟨0, 1, 2, rfl, by linarith, by decide⟩
  obtain ⟨i, j, l, ho, hsum', hall⟩ := hcases
  have hle1 : ∀ x, |σ * n x| ≤ 1 := fun x => by rw [hσa]; exact hle x
  have hnn1 : ∀ x, |σ * n' x - σ * n x| ≤ 10 * u := fun x => by rw [← mul_sub, hσa]; exact hnn x
  obtain ⟨a, ha, hal, wa, hwa, hwa', hwa1⟩ := element_sentR hA (hle1 i) (hnn1 i)
  obtain ⟨b, hb, hbl, wb, hwb, hwb', hwb1⟩ := element_sentR hA (hle1 j) (hnn1 j)
  obtain ⟨c, hc, hcl, wc, hwc, hwc', hwc1⟩ := element_sentR hA (hle1 l) (hnn1 l)
  have hrad := radicand hA hwa1 hwb1 hwc1
  obtain ⟨hs0, hsd⟩ := recoverR (n := |n k|) (a := σ * n i) (b := σ * n j) (c := σ * n l) (wa := wa) (wb := wb) (wc := wc)
    (e := 2 / 1023 + 50 * u) (f := 12 * u) (g := 20 * u)
    (by rw [sq_abs, mul_pow, mul_pow, mul_pow, hσ2]; linarith) ⟨by linarith, by norm_num; linarith⟩ ⟨by linarith, by linarith⟩
    ⟨by linarith, by linarith⟩ (abs_nonneg _) (by rw [hσa]; exact hmax i)
    (by rw [hσa]; exact hmax j) (by rw [hσa]; exact hmax l) hwa' hwb' hwc' hrad
  have hd := decode_threeR k hal hbl hcl hwa hwb hwc hs0 ho
  obtain ⟨S, hS⟩ : ∃ S, S = A.r (A.r (A.r (1 - A.r (wa * wa)) - A.r (wb * wb)) - A.r (wc * wc)) := ⟨_, rfl⟩
  rw [← hS] at hs0 hsd hd hrad
  have hS1 : √S ≤ 101 / 100 := by
    have h1 := (abs_le.mp hsd).2
    have h2 := hle k
    norm_num at h1
    linarith
  have hS0 := Real.sqrt_nonneg S
  have hSr : |A.r √S - √S| ≤ 102 / 100 * u := by
    have h1 := hA.err √S
    rw [abs_of_nonneg hS0] at h1
    have h2 := mul_le_mul_of_nonneg_left hS1 hu0
    linarith
  refine ⟨_, ?_, ?_, _, hd, ?_, σ, hσ, ?_⟩
  · unfold QuatSer.serializeR
    dsimp only
    rw [← hm, if_neg hmpos.ne', ← hn', ← hk, ho]
    simp only [hσq, hn', List.mapM_cons, List.mapM_nil] at ha hb hc ⊢
    simp only [ha, hb, hc]
    rfl
  · simp [hal, hbl, hcl]
  · have hw : ∀ f : Fin 4 → ℝ, f k ^ 2 + f i ^ 2 + f j ^ 2 + f l ^ 2 = f 0 ^ 2 + f 1 ^ 2 + f 2 ^ 2 + f 3 ^ 2 := by
      intro f
      have : k = 0 ∨ k = 1 ∨ k = 2 ∨ k = 3 := by fin_cases k <;> simp
      rcases this with h | h | h | h <;> rw [h] at ho ⊢ <;> simp [others, List.finRange] at ho <;> obtain ⟨rfl, rfl, rfl⟩ := ho <;> ring
    obtain ⟨w, hw0⟩ : ∃ w : Fin 4 → ℝ, w = fun n => if n = k then A.r √S else if n = i then wa else if n = j then wb else
      if n = l then wc else 0 := ⟨_, rfl⟩
    rw [← hw0]
    have hne : i ≠ k ∧ j ≠ k ∧ l ≠ k ∧ j ≠ i ∧ l ≠ i ∧ l ≠ j := by
      have : k = 0 ∨ k = 1 ∨ k = 2 ∨ k = 3 := by fin_cases k <;> simp
      rcases this with h | h | h | h <;> rw [h] at ho ⊢ <;> simp [others, List.finRange] at ho <;> obtain ⟨rfl, rfl, rfl⟩ := ho <;> decide
    obtain ⟨n1, n2, n3, n4, n5, n6⟩ := hne
    have hL : length4 w ^ 2 = A.r √S ^ 2 + wa ^ 2 + wb ^ 2 + wc ^ 2 := by
      unfold length4
      rw [Real.sq_sqrt (by positivity), ← hw w, hw0]
      simp only [if_true, n1, n2, n3, n4, n5, n6, if_false]
    have hL0 : 0 ≤ length4 w := Real.sqrt_nonneg _
    have hr2 : |A.r √S ^ 2 - S| ≤ 3 * u := by
      have e : A.r √S ^ 2 - S = (A.r √S - √S) * (A.r √S + √S) := by
        have := Real.sq_sqrt hs0
        nlinarith
      rw [e, abs_mul]
      have h1 : |A.r √S + √S| ≤ 21 / 10 := by
        have := abs_le.mp hSr
        rw [abs_le]; constructor <;> linarith
      calc |A.r √S - √S| * |A.r √S + √S| ≤ 102 / 100 * u * (21 / 10) := mul_le_mul hSr h1 (abs_nonneg _) (by linarith)
        _ ≤ _ := by linarith
    have hL2 : |length4 w ^ 2 - 1| ≤ 15 * u := by
      rw [hL]
      obtain ⟨h1, h2⟩ := abs_le.mp hr2
      obtain ⟨h3, h4⟩ := abs_le.mp hrad
      rw [abs_le]; constructor <;> nlinarith
    have e : length4 w ^ 2 - 1 = (length4 w - 1) * (length4 w + 1) := by ring
    rw [e, abs_mul, abs_of_nonneg (by linarith : 0 ≤ length4 w + 1)] at hL2
    have := mul_le_mul_of_nonneg_left (show 1 ≤ length4 w + 1 by linarith) (abs_nonneg (length4 w - 1))
    linarith
  · intro x
    have hnx : q x / length4 q = n x := by rw [hn]
    rw [hnx]
    rcases hall x with h | ⟨h, h'⟩ | ⟨h, h', h''⟩ | ⟨h, h', h'', h'''⟩
    · rw [h]
      simp only [if_true]
      rw [hσk]
      have h1 := abs_add_le (A.r √S - √S) (√S - |n k|)
      rw [sub_add_sub_cancel] at h1
      norm_num at hsd ⊢
      linarith
    · subst h'
      simp only [h, if_true, if_false]
      norm_num at hwa' ⊢
      linarith
    · subst h''
      simp only [h, h', if_true, if_false]
      norm_num at hwb' ⊢
      linarith
    · subst h'''
      simp only [h, h', h'', if_true, if_false]
      norm_num at hwc' ⊢
      linarith

end

/-- C99. In `float` arithmetic every quaternion at least 2^-61 long is transmitted to 0.8 %: with any rounding to nearest, ties
to even. -/
theorem C99_float_partial (A : FltLib) (hr : ∀ x, A.r x = rndR 23 (-126) x) (d : ℝ) (hf : Functions A d) (q : Fin 4 → ℝ)
    (hlen : 1 / 2 ^ 61 ≤ length4 q) :
    ∃ bits, QuatSer.serializeR A (.fin q) = some bits ∧ bits.length = 32 ∧
      ∃ w, QuatSer.deserializeR A bits = some w ∧ |length4 w - 1| ≤ 1 / 2 ^ 20 ∧
        ∃ σ : ℝ, (σ = 1 ∨ σ = -1) ∧ ∀ i, |w i - σ * (q i / length4 q)| ≤ 8 / 1000 := by
  have hA := C98_float A hr d hf
  have h1 : (1 / 2 ^ 61 : ℝ) ^ 2 ≤ length4 q ^ 2 := pow_le_pow_left₀ (by positivity) hlen 2
  have hq : q ≠ 0 := by
    rintro rfl
    have : length4 0 = 0 := by simp [length4]
    rw [this] at hlen
    norm_num at hlen
  obtain ⟨bits, h2, h3, w, h4, h5, σ, h6, h7⟩ := C99_rounded_partial A _ _ d hA q hq (by
    have : (8 : ℝ) * (1 / 2 ^ 150) ≤ 1 / 2 ^ 24 * (1 / 2 ^ 61) ^ 2 := by norm_num
    nlinarith)
  exact ⟨bits, h2, h3, w, h4, h5.trans (by norm_num), σ, h6, fun i => (h7 i).trans (by norm_num)⟩

-- the attitude of a quarter turn about the third axis, not normalised
example : (1 / 2 ^ 61 : ℝ) ≤ length4 ![0, 0, -1, -1] := by
  have h : length4 ![0, 0, -1, -1] = √2 := by simp [length4]; norm_num
  rw [h]
  have : (1 : ℝ) ≤ √2 := Real.one_le_sqrt.mpr (by norm_num)
  refine le_trans (by norm_num) this

example : ∃ A : FltLib, (∀ x, A.r x = rndR 23 (-126) x) ∧ ∃ d, Functions A d := ⟨.rounded 23 (-126), fun _ => rfl, _, functions_rounded⟩

/-- C99. A quaternion of `float` so short that its squares underflow cannot be transmitted, whatever rotation it stands for. -/
theorem C99_counterexample_underflow (A : FltLib) (hr : ∀ x, A.r x = rndR 23 (-126) x) (q : Fin 4 → ℝ) (hq : ∀ i, |q i| < 1 / 2 ^ 75) :
    QuatSer.serializeR A (.fin q) = none := by
  have key : ∀ q : ℝ, |q| < 1 / 2 ^ 75 → A.r (q * q) = 0 := by
    intro q hq
    rw [hr]
    have h1 : |q * q| < 1 / 2 ^ 150 := by
      rw [abs_mul]
      calc |q| * |q| < 1 / 2 ^ 75 * (1 / 2 ^ 75) := mul_lt_mul'' hq hq (abs_nonneg _) (abs_nonneg _)
        _ = _ := by norm_num
    by_cases h0 : q * q = 0
    · rw [h0, rndR_zero]
    have h2 : expR (-126) (q * q) < -125 := expR_lt h0 (h1.trans_le (by norm_num)) (by norm_num)
    have h3 := expR_ge (E := -126) (q * q)
    have h4 : ulpR 23 (-126) (q * q) = 1 / 2 ^ 149 := by
      rw [ulpR_eq, show expR (-126) (q * q) = -126 by omega]; norm_num
    unfold rndR
    rw [h4]
    have h5 : rneR (q * q / (1 / 2 ^ 149)) = 0 := by
      apply rneR_near
      rw [Int.cast_zero, sub_zero, abs_div, abs_of_pos (by positivity : (0 : ℝ) < 1 / 2 ^ 149), div_lt_iff₀ (by positivity)]
      refine h1.trans_le (by norm_num)
    rw [h5]; simp
  have h0 : A.r 0 = 0 := by rw [hr]; exact rndR_zero _ _
  unfold QuatSer.serializeR normR4
  dsimp only
  simp only [key _ (hq _), add_zero, h0, Real.sqrt_zero, if_true]

-- a unit quaternion times 2^-76
example : ∀ i, |(![0, 0, 0, 1 / 2 ^ 76] : Fin 4 → ℝ) i| < 1 / 2 ^ 75 := by
  intro i
  fin_cases i <;> simp
  norm_num

end
end PAN
