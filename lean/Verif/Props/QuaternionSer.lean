import Verif.Lemmas.VectorSer
/-!
C99: attitudes are transmitted to a hundredth.
-/
namespace PAN
open Spec BitArray FltSer QuatSer
noncomputable section

theorem maxIdx_le (q : Fin 4 → ℝ) (i : Fin 4) : |q i| ≤ |q (maxIdx q)| := by
  have h : |q 0| ≤ |q (maxIdx q)| ∧ |q 1| ≤ |q (maxIdx q)| ∧ |q 2| ≤ |q (maxIdx q)| ∧ |q 3| ≤ |q (maxIdx q)| := by
    unfold maxIdx
    rw [show List.finRange 4 = [0, 1, 2, 3] from rfl]
    simp only [List.foldl_cons, List.foldl_nil]
    have h0 := abs_nonneg (q 0)
    have h1 := abs_nonneg (q 1)
    have h2 := abs_nonneg (q 2)
    have h3 := abs_nonneg (q 3)
    split_ifs <;> simp only at * <;> refine ⟨?_, ?_, ?_, ?_⟩ <;> linarith
  obtain ⟨h0, h1, h2, h3⟩ := h
  match i with
  | 0 => exact h0
  | 1 => exact h1
  | 2 => exact h2
  | 3 => exact h3

/-- The largest component is recovered from the others. -/
theorem recover {n k a b c wa wb wc e : ℝ} (hsum : n ^ 2 + a ^ 2 + b ^ 2 + c ^ 2 = 1) (he : e = 2 / 1023) (hn : 0 ≤ n)
    (ha : |a| ≤ n) (hb : |b| ≤ n) (hc : |c| ≤ n) (hwa : |wa - a| ≤ e) (hwb : |wb - b| ≤ e) (hwc : |wc - c| ≤ e)
    (hk : k = 1 - wa * wa - wb * wb - wc * wc) : 0 ≤ k ∧ |√k - n| ≤ 4 * e := by
  have he0 : 0 < e := by rw [he]; norm_num
  have hn1 : 1 / 2 ≤ n := by
    have h1 := pow_le_pow_left₀ (abs_nonneg a) ha 2
    have h2 := pow_le_pow_left₀ (abs_nonneg b) hb 2
    have h3 := pow_le_pow_left₀ (abs_nonneg c) hc 2
    rw [sq_abs] at h1 h2 h3
    nlinarith
  have up : ∀ x w : ℝ, |x| ≤ n → |w - x| ≤ e → w * w ≤ x ^ 2 + 2 * e * n + e ^ 2 := by
    intro x w hx hw
    have h1 : |w| ≤ |x| + e := by
      have := abs_add_le (w - x) x
      rw [sub_add_cancel] at this; linarith
    have h2 : |w| * |w| ≤ (|x| + e) * (|x| + e) := mul_self_le_mul_self (abs_nonneg _) h1
    rw [abs_mul_abs_self] at h2
    have h3 : |x| * |x| = x ^ 2 := by rw [abs_mul_abs_self]; ring
    nlinarith
  have low : ∀ x w : ℝ, |x| ≤ n → |w - x| ≤ e → x ^ 2 - 2 * e * n ≤ w * w := by
    intro x w hx hw
    have h1 : |x| - e ≤ |w| := by
      have := abs_add_le (x - w) w
      rw [sub_add_cancel, abs_sub_comm] at this; linarith
    have h3 : |x| * |x| = x ^ 2 := by rw [abs_mul_abs_self]; ring
    have h4 : |w| * |w| = w * w := abs_mul_abs_self w
    have h5 : e * |x| ≤ e * n := mul_le_mul_of_nonneg_left hx he0.le
    rcases le_total e |x| with h | h
    · have h2 : (|x| - e) * (|x| - e) ≤ |w| * |w| := mul_self_le_mul_self (by linarith) h1
      nlinarith
    · have : |x| * |x| ≤ e * |x| := mul_le_mul_of_nonneg_right h (abs_nonneg _)
      nlinarith [mul_self_nonneg w]
  have u1 := up a wa ha hwa
  have u2 := up b wb hb hwb
  have u3 := up c wc hc hwc
  have l1 := low a wa ha hwa
  have l2 := low b wb hb hwb
  have l3 := low c wc hc hwc
  have hlow : (n - 4 * e) ^ 2 ≤ k := by rw [hk]; nlinarith
  have hup : k ≤ (n + 4 * e) ^ 2 := by rw [hk]; nlinarith
  have h4 : 0 ≤ n - 4 * e := by rw [he]; linarith
  refine ⟨(sq_nonneg _).trans hlow, abs_le.mpr ⟨?_, ?_⟩⟩
  · have := Real.sqrt_le_sqrt hlow; rw [Real.sqrt_sq h4] at this; linarith
  · have := Real.sqrt_le_sqrt hup; rw [Real.sqrt_sq (by linarith)] at this; linarith

/-- A component of a unit quaternion. -/
theorem element_sent {x : ℝ} (h : |x| ≤ 1) : ∃ s', element.serialize id (.fin x) = some s' ∧ s'.bits.length = 10 ∧
    ∃ w, ({ element with bits := s'.bits } : FltSer ℝ).deserialize id = some w ∧ |w - x| ≤ 2 / 1023 := by
  obtain ⟨s', h1, h2, w, h3, h4, -, -⟩ := component (lo := (-1 : ℝ)) (hi := 1) (n := 10) (by norm_num) (by norm_num) (by norm_num) x
  refine ⟨s', h1, h2, w, h3, ?_⟩
  have : nearest (-1) 1 x = x := by
    obtain ⟨ha, hb⟩ := abs_le.mp h
    unfold nearest; rw [min_eq_left hb, max_eq_right ha]
  rw [this] at h4
  exact h4.trans (by norm_num)

/-- The bits of three components decode to these components and the largest. -/
theorem decode_three (k : Fin 4) {a b c : FltSer ℝ} {wa wb wc : ℝ} (ha : a.bits.length = 10) (hb : b.bits.length = 10)
    (hc : c.bits.length = 10) (hwa : ({ element with bits := a.bits } : FltSer ℝ).deserialize id = some wa)
    (hwb : ({ element with bits := b.bits } : FltSer ℝ).deserialize id = some wb)
    (hwc : ({ element with bits := c.bits } : FltSer ℝ).deserialize id = some wc)
    (hs : 0 ≤ 1 - wa * wa - wb * wb - wc * wc) {i j l : Fin 4} (ho : others k = [i, j, l]) :
    QuatSer.deserialize (k.val.testBit 0 :: k.val.testBit 1 :: ([a, b, c].map (·.bits)).flatten) =
      some (fun n => if n = k then √(1 - wa * wa - wb * wb - wc * wc) else if n = i then wa else if n = j then wb else
        if n = l then wc else 0) := by
  have hk : (⟨(k.val.testBit 0).toNat + 2 * (k.val.testBit 1).toNat, by
      cases k.val.testBit 0 <;> cases k.val.testBit 1 <;> decide⟩ : Fin 4) = k := by fin_cases k <;> rfl
  unfold QuatSer.deserialize
  have e0 : ([a, b, c].map (·.bits)).flatten = a.bits ++ (b.bits ++ c.bits) := by simp
  rw [e0]
  dsimp only
  rw [if_pos (by rw [List.length_append, List.length_append, ha, hb, hc]; rfl)]
  have e1 : List.take componentSize (List.drop (componentSize * 0) (a.bits ++ (b.bits ++ c.bits))) = a.bits := by
    rw [mul_zero, List.drop_zero]; exact List.take_left' ha
  have e2 : List.take componentSize (List.drop (componentSize * 1) (a.bits ++ (b.bits ++ c.bits))) = b.bits := by
    rw [mul_one, List.drop_left' ha]; exact List.take_left' hb
  have e3 : List.take componentSize (List.drop (componentSize * 2) (a.bits ++ (b.bits ++ c.bits))) = c.bits := by
    rw [← List.append_assoc, List.drop_left' (by rw [List.length_append, ha, hb]; rfl)]; exact List.take_of_length_le hc.le
  rw [e1, e2, e3, hwa, hwb, hwc]
  dsimp only
  rw [if_neg (not_lt.mpr hs)]
  rw [hk, ho]

/-- C99. Every quaternion other than zero is transmitted in 32 bits, and what the receiver decodes is a unit quaternion of the
same rotation: the normalised quaternion or its negative, each component to 8/1023. -/
theorem C99_accuracy (q : Fin 4 → ℝ) (hq : q ≠ 0) :
    ∃ bits, QuatSer.serialize (.fin q) = some bits ∧ bits.length = 32 ∧
      ∃ w, QuatSer.deserialize bits = some w ∧ length4 w = 1 ∧
        ∃ σ : ℝ, (σ = 1 ∨ σ = -1) ∧ ∀ i, |w i - σ * (q i / length4 q)| ≤ 8 / 1023 := by
  have hm0 : 0 < length4 q := by
    apply Real.sqrt_pos.mpr
    by_contra hn
    apply hq
    have h0 := sq_nonneg (q 0)
    have h1 := sq_nonneg (q 1)
    have h2 := sq_nonneg (q 2)
    have h3 := sq_nonneg (q 3)
    funext i
    have : q i ^ 2 = 0 := by fin_cases i <;> simp only [Fin.isValue, Fin.zero_eta, Fin.mk_one, Fin.reduceFinMk] <;> linarith
    exact pow_eq_zero_iff (two_ne_zero) |>.mp this
  have hsq : length4 q ^ 2 = q 0 ^ 2 + q 1 ^ 2 + q 2 ^ 2 + q 3 ^ 2 := Real.sq_sqrt (by positivity)
  have hm' : √(q 0 ^ 2 + q 1 ^ 2 + q 2 ^ 2 + q 3 ^ 2) = length4 q := rfl
  obtain ⟨n, hn⟩ : ∃ n : Fin 4 → ℝ, n = fun i => q i / length4 q := ⟨_, rfl⟩
  have hsum : n 0 ^ 2 + n 1 ^ 2 + n 2 ^ 2 + n 3 ^ 2 = 1 := by rw [hn]; field_simp; linarith
  obtain ⟨k, hk⟩ : ∃ k, k = maxIdx n := ⟨_, rfl⟩
  have hmax := maxIdx_le n
  rw [← hk] at hmax
  obtain ⟨σ, hσ, hσk, hσq⟩ : ∃ σ : ℝ, (σ = 1 ∨ σ = -1) ∧ σ * n k = |n k| ∧
      ∀ i, (if q k < 0 then q i / length4 q * -1 else q i / length4 q) = σ * n i := by
    by_cases hneg : q k < 0
    · refine ⟨-1, .inr rfl, ?_, fun i => by rw [if_pos hneg, hn]; ring⟩
      have : n k < 0 := by rw [hn]; exact div_neg_of_neg_of_pos hneg hm0
      rw [abs_of_neg this]; ring
    · refine ⟨1, .inl rfl, ?_, fun i => by rw [if_neg hneg, hn]; ring⟩
      have : 0 ≤ n k := by rw [hn]; exact div_nonneg (not_lt.mp hneg) hm0.le
      rw [abs_of_nonneg this]; ring
  have hσ2 : σ ^ 2 = 1 := by rcases hσ with rfl | rfl <;> norm_num
  have hσa : ∀ x, |σ * x| = |x| := by intro x; rcases hσ with rfl | rfl <;> simp
  -- the three other components
  have hcases : ∃ i j l, others k = [i, j, l] ∧ n k ^ 2 + n i ^ 2 + n j ^ 2 + n l ^ 2 = 1 ∧
      ∀ i', i' = k ∨ (i' ≠ k ∧ i' = i) ∨ (i' ≠ k ∧ i' ≠ i ∧ i' = j) ∨ (i' ≠ k ∧ i' ≠ i ∧ i' ≠ j ∧ i' = l) := by
    have : k = 0 ∨ k = 1 ∨ k = 2 ∨ k = 3 := by fin_cases k <;> simp
    rcases this with h | h | h | h <;> rw [h]
    · exact ⟨1, 2, 3, rfl, by linarith, by decide⟩
    · exact ⟨0, 2, 3, rfl, by linarith, by decide⟩
    · exact ⟨0, 1, 3, rfl, by linarith, by decide⟩
    · exact ⟨0, 1, 2, rfl, by linarith, by decide⟩
  obtain ⟨i, j, l, ho, hsum', hall⟩ := hcases
  have hk1 : |n k| ≤ 1 := by
    apply abs_le_one_iff_mul_self_le_one.mpr
    nlinarith [sq_nonneg (n i), sq_nonneg (n j), sq_nonneg (n l)]
  have hle1 : ∀ x, |σ * n x| ≤ 1 := fun x => by rw [hσa]; exact (hmax x).trans hk1
  obtain ⟨a, ha, hal, wa, hwa, hwa'⟩ := element_sent (hle1 i)
  obtain ⟨b, hb, hbl, wb, hwb, hwb'⟩ := element_sent (hle1 j)
  obtain ⟨c, hc, hcl, wc, hwc, hwc'⟩ := element_sent (hle1 l)
  obtain ⟨hs0, hsd⟩ := recover (n := |n k|) (a := σ * n i) (b := σ * n j) (c := σ * n l) (wa := wa) (wb := wb) (wc := wc)
    (by rw [sq_abs, mul_pow, mul_pow, mul_pow, hσ2]; linarith) rfl (abs_nonneg _) (by rw [hσa]; exact hmax i)
    (by rw [hσa]; exact hmax j) (by rw [hσa]; exact hmax l) hwa' hwb' hwc' rfl
  have hd := decode_three k hal hbl hcl hwa hwb hwc hs0 ho
  refine ⟨_, ?_, ?_, _, hd, ?_, σ, hσ, ?_⟩
  · unfold QuatSer.serialize
    dsimp only
    rw [hm', if_neg hm0.ne', ← hn, ← hk, ho]
    simp only [hσq, List.mapM_cons, List.mapM_nil, ha, hb, hc]
    rfl
  · simp [hal, hbl, hcl]
  · unfold length4
    have hw : ∀ f : Fin 4 → ℝ, f k ^ 2 + f i ^ 2 + f j ^ 2 + f l ^ 2 = f 0 ^ 2 + f 1 ^ 2 + f 2 ^ 2 + f 3 ^ 2 := by
      intro f
      have : k = 0 ∨ k = 1 ∨ k = 2 ∨ k = 3 := by fin_cases k <;> simp
      rcases this with h | h | h | h <;> subst h <;> simp [others, List.finRange] at ho <;> obtain ⟨rfl, rfl, rfl⟩ := ho <;> ring
    rw [← hw fun n => if n = k then √(1 - wa * wa - wb * wb - wc * wc) else if n = i then wa else if n = j then wb else
      if n = l then wc else 0]
    have hne : i ≠ k ∧ j ≠ k ∧ l ≠ k ∧ j ≠ i ∧ l ≠ i ∧ l ≠ j := by
      have : k = 0 ∨ k = 1 ∨ k = 2 ∨ k = 3 := by fin_cases k <;> simp
      rcases this with h | h | h | h <;> subst h <;> simp [others, List.finRange] at ho <;> obtain ⟨rfl, rfl, rfl⟩ := ho <;> decide
    obtain ⟨n1, n2, n3, n4, n5, n6⟩ := hne
    simp only [if_true, n1, n2, n3, n4, n5, n6, if_false]
    rw [Real.sq_sqrt hs0]
    have : 1 - wa * wa - wb * wb - wc * wc + wa ^ 2 + wb ^ 2 + wc ^ 2 = 1 := by ring
    rw [this, Real.sqrt_one]
  · intro x
    have hnx : q x / length4 q = n x := by rw [hn]
    rw [hnx]
    rcases hall x with h | ⟨h, h'⟩ | ⟨h, h', h''⟩ | ⟨h, h', h'', h'''⟩
    · subst h
      simp only [if_true]
      rw [hσk]; exact hsd.trans (by norm_num)
    · subst h'
      simp only [h, if_true, if_false]
      exact hwa'.trans (by norm_num)
    · subst h''
      simp only [h, h', if_true, if_false]
      exact hwb'.trans (by norm_num)
    · subst h'''
      simp only [h, h', h'', if_true, if_false]
      exact hwc'.trans (by norm_num)

-- the attitude of a quarter turn about the third axis
example : (![0, 0, -1, -1] : Fin 4 → ℝ) ≠ 0 := by
  intro h
  have := congrFun h 2
  simp at this

/-- C99. The zero quaternion, and one with a component that is not finite, cannot be transmitted: the conversion of its
components to integers is undefined. -/
theorem C99_counterexample_zero : QuatSer.serialize (.fin 0) = none ∧ QuatSer.serialize .other = none := by
  refine ⟨?_, rfl⟩
  unfold QuatSer.serialize
  dsimp only
  rw [if_pos (by simp)]

/-- C99. Not every pattern of bits decodes to a quaternion: with all bits set the largest component would be the root of -2. -/
theorem C99_counterexample_bits : QuatSer.deserialize (List.replicate 32 true) = none := by
  have hone : ∀ j, j < 3 → ({ element with bits := ((List.replicate 30 true).drop (componentSize * j)).take componentSize } : FltSer ℝ).deserialize id =
      some 1 := by
    intro j hj
    have hb : ((List.replicate 30 true).drop (componentSize * j)).take componentSize = List.replicate 10 true := by
      rw [List.drop_replicate, List.take_replicate]; congr 1; simp only [componentSize]; omega
    rw [hb]
    unfold FltSer.deserialize
    have : intervals (List.replicate 10 true).length = some 1023 := by decide
    dsimp only
    rw [this]
    have ht : toUllong (List.replicate 10 true) = 1023 := by decide
    dsimp only
    rw [ht]
    unfold FltSer.resolution
    simp only [element, FltSer.mk', id]
    norm_num
  unfold QuatSer.deserialize
  change (match true :: true :: List.replicate 30 true with | _ => _) = none
  simp only
  rw [if_pos (by rfl), hone 0 (by norm_num), hone 1 (by norm_num), hone 2 (by norm_num)]
  simp only
  rw [if_pos (by norm_num)]

end
end PAN
