import Verif.Model.Echo
import Verif.Spec.Echo
import Verif.Props.Downlink
import Verif.Props.VectorSerRnd
/-!
C124: a value the ground has commanded is the value telemetry then shows.
-/
namespace PAN
open Spec Uplink Ground
noncomputable section

theorem nearest_lip {K : Type} [Field K] [LinearOrder K] [IsStrictOrderedRing K] (lo hi x y : K) :
    |nearest lo hi x - nearest lo hi y| ≤ |x - y| := by
  unfold nearest
  have h1 := abs_max_sub_max_le_max lo (min x hi) lo (min y hi)
  have h2 := abs_min_sub_min_le_max x hi y hi
  rw [sub_self, abs_zero] at h1 h2
  have h1' : |max lo (min x hi) - max lo (min y hi)| ≤ |min x hi - min y hi| := h1.trans (max_le (abs_nonneg _) le_rfl)
  have h2' : |min x hi - min y hi| ≤ |x - y| := h2.trans (max_le le_rfl (abs_nonneg _))
  exact h1'.trans h2'

theorem fits_with_bits {d : Bool} {s : FltSer ℚ} (h : s.Fits (rnd d)) {b : List Bool} (hb : b.length = s.bits.length) :
    ({ s with bits := b } : FltSer ℚ).Fits (rnd d) :=
  ⟨h.lt, by simp only; rw [hb]; exact h.len, by simp only; rw [hb]; exact h.ints, by simp only; rw [hb]; exact h.small,
    by simp only; rw [hb]; exact h.normal, h.tiny⟩

theorem gps_with_bits {s : GpsSer} (h : s.Valid) {b : List Bool} (hb : b.length = s.bits.length) :
    ({ s with bits := b } : GpsSer).Valid :=
  ⟨h.wn, h.tow, h.ns, by simp only; rw [hb]; exact h.len⟩

/-- A number sent, held, reported and read back. -/
theorem real_echo {d : Bool} {s : FltSer ℚ} (h : s.Fits (rnd d)) {x v : ℚ}
    (hin : s.min ≤ asReal d x ∧ asReal d x ≤ s.max)
    (hv : ArrivedReal s.min s.max s.bits.length (if d then 1 / 2 ^ 53 else 1 / 2 ^ 24) x v) {b : List Bool}
    (hb : b.length = s.bits.length) :
    ∃ b' w, (({ s with bits := b } : FltSer ℚ).serialize (if d then f64 else f32) (.fin v)).map (·.bits) = some b' ∧
      b'.length = s.bits.length ∧ ({ s with bits := b' } : FltSer ℚ).deserialize (if d then f64 else f32) = some w ∧
      |w - x| ≤ 2 * ((s.max - s.min) / (2 ^ s.bits.length - 1) +
        22 * (if d then 1 / 2 ^ 53 else 1 / 2 ^ 24) * (|s.min| + |s.max|)) := by
  have hr : (if d then f64 else f32) = (rnd d).r := by cases d <;> rfl
  have heps : (rnd d).eps = if d then 1 / 2 ^ 53 else 1 / 2 ^ 24 := by cases d <;> rfl
  obtain ⟨s', a1, a2, a3, a4, w, a5, a6⟩ := C97_accuracy (rnd d) _ (fits_with_bits h hb) v
  simp only at a2 a3 a4 a6
  have he : ({ s with bits := s'.bits } : FltSer ℚ) = s' := by
    cases s'; simp only at a2 a3; subst a2 a3; rfl
  refine ⟨s'.bits, w, by rw [hr, a1]; rfl, by rw [a4, hb], by rw [he, hr]; exact a5, ?_⟩
  unfold FltSer.step at a6
  simp only at a6
  rw [hb] at a6
  unfold ArrivedReal at hv
  rw [← heps] at hv ⊢
  have hn : nearest s.min s.max (asReal d x) = asReal d x := by
    unfold nearest; rw [min_eq_left hin.2, max_eq_right hin.1]
  have hl1 := nearest_lip s.min s.max v x
  have hnx : |nearest s.min s.max x - x| ≤ |asReal d x - x| := by
    unfold nearest
    rcases le_total x s.min with h1 | h1
    · rw [min_eq_left (h1.trans h.lt.le), max_eq_left h1, abs_of_nonneg (by linarith), abs_of_nonneg (by linarith)]
      linarith
    · rcases le_total x s.max with h2 | h2
      · rw [min_eq_left h2, max_eq_right h1, sub_self, abs_zero]; exact abs_nonneg _
      · rw [min_eq_right h2, max_eq_right h.lt.le, abs_of_nonpos (by linarith), abs_of_nonpos (by linarith)]
        linarith
  have herr := (rnd d).err x
  rw [rnd_asReal] at herr
  have hP : (2 : ℚ) ≤ 2 ^ s.bits.length := by
    calc (2 : ℚ) = 2 ^ 1 := by norm_num
      _ ≤ _ := pow_le_pow_right₀ (by norm_num) h.len.1
  have he : (rnd d).eps ≤ 1 / 32 := by have := h.small; have := (rnd d).epsPos; nlinarith
  have hD : s.max - s.min ≤ |s.min| + |s.max| := by
    have := le_abs_self s.max; have := neg_abs_le s.min; linarith
  have hy : |asReal d x| ≤ |s.min| + |s.max| := by
    rw [abs_le]
    have := le_abs_self s.max; have := neg_abs_le s.min; have := abs_nonneg s.max; have := abs_nonneg s.min
    constructor <;> linarith [hin.1, hin.2]
  have hl := literal_error (rnd d).epsPos he (rnd d).tinyPos hP h.normal hD hy herr
  have t1 : |w - x| ≤ |w - nearest s.min s.max v| + |nearest s.min s.max v - x| := abs_sub_le _ _ _
  have t2 : |nearest s.min s.max v - x| ≤ |nearest s.min s.max v - nearest s.min s.max x| + |nearest s.min s.max x - x| :=
    abs_sub_le _ _ _
  linarith

/-- A scalar component of any bits is within the range. -/
theorem component_mem {lo hi : ℝ} {n : ℕ} (h : lo < hi) (hl : 1 ≤ n) (hl' : n ≤ 53) {b : List Bool} (hb : b.length = n) :
    ∃ w, ({ FltSer.mk' lo hi n with bits := b } : FltSer ℝ).deserialize id = some w ∧ lo ≤ w ∧ w ≤ hi := by
  have hf : FltSer.Fits rndExact ({ FltSer.mk' lo hi n with bits := b } : FltSer ℝ) := fits_exact h (by omega) (by omega)
  obtain ⟨w, h7, h8⟩ := C97_decode rndExact _ hf
  refine ⟨w, h7, ?_⟩
  have e : w = lo + (hi - lo) / (2 ^ n - 1) * (bitsToNat b : ℝ) := by
    have h9 := abs_nonpos_iff.mp (h8.trans (by simp [rndExact]))
    have := sub_eq_zero.mp h9
    rw [this]; simp only [FltSer.step, FltSer.mk', hb]
  have hp : (2 : ℝ) ≤ 2 ^ n := by
    calc (2 : ℝ) = 2 ^ 1 := by norm_num
      _ ≤ _ := pow_le_pow_right₀ (by norm_num) hl
  have hk : (bitsToNat b : ℝ) ≤ 2 ^ n - 1 := by
    have := BitArray.bitsToNat_lt b
    rw [hb] at this
    have h' : (bitsToNat b : ℝ) + 1 ≤ 2 ^ n := by exact_mod_cast this
    linarith
  have hu : 0 ≤ (hi - lo) / (2 ^ n - 1) := div_nonneg (by linarith) (by linarith)
  have hk0 : (0 : ℝ) ≤ (bitsToNat b : ℝ) := Nat.cast_nonneg _
  rw [e]
  refine ⟨by linarith [mul_nonneg hu hk0], ?_⟩
  have h1 := mul_le_mul_of_nonneg_left hk hu
  have h2 : (hi - lo) / (2 ^ n - 1) * (2 ^ n - 1) = hi - lo := by
    rw [div_mul_cancel₀]; linarith
  linarith

/-- The length of a decoded vector is within the range. -/
theorem decoded_length {lo hi : ℝ} {p : ℕ} (h0 : VecSer.Range lo hi p) (h : lo < hi) (hb : VecSer.b2 lo hi p ≤ 53) {b : List Bool}
    {v : ℝ × ℝ × ℝ} (hv : VecSer.deserialize lo hi p b = some v) : lo ≤ length3 v ∧ length3 v ≤ hi := by
  obtain ⟨⟨hbp, hbp'⟩, -⟩ := VecSer.b2_bound h0 h
  have hp51 : p ≤ 51 := by
    rcases h0 with h0 | h0
    · have := hbp' h0; omega
    · exact h0.2.2
  unfold VecSer.deserialize at hv
  split at hv
  · rename_i hl
    dsimp only at hv
    obtain ⟨m, hm, h1, h2⟩ := component_mem (n := VecSer.b1 p) h (by unfold VecSer.b1; omega) (by unfold VecSer.b1; omega)
      (b := (b.drop 1).take (VecSer.b1 p)) (by
        rw [List.length_take, List.length_drop, hl]; unfold VecSer.totalSize; omega)
    unfold VecSer.mag at hv
    rw [hm] at hv
    split at hv
    · rename_i m' th ph e1 e2 e3
      cases e1
      cases hv
      have hsq : length3 ((if b.headD false = true then (1 : ℝ) else -1) * m * Real.sin th * Real.cos ph,
          (if b.headD false = true then (1 : ℝ) else -1) * m * Real.sin th * Real.sin ph, m * Real.cos th) = |m| := by
        unfold length3
        rw [← Real.sqrt_sq_eq_abs]
        congr 1
        dsimp only
        have hxf : (if b.headD false = true then (1 : ℝ) else -1) ^ 2 = 1 := by split <;> norm_num
        generalize (if b.headD false = true then (1 : ℝ) else -1) = f at hxf ⊢
        have s1 := Real.sin_sq_add_cos_sq th
        have s2 := Real.sin_sq_add_cos_sq ph
        calc (f * m * Real.sin th * Real.cos ph) ^ 2 + (f * m * Real.sin th * Real.sin ph) ^ 2 + (m * Real.cos th) ^ 2
            = f ^ 2 * (m ^ 2 * Real.sin th ^ 2 * (Real.sin ph ^ 2 + Real.cos ph ^ 2)) + m ^ 2 * Real.cos th ^ 2 := by ring
          _ = m ^ 2 * (Real.sin th ^ 2 + Real.cos th ^ 2) := by rw [hxf, s2]; ring
          _ = m ^ 2 := by rw [s1, mul_one]
      rw [hsq]
      rcases h0 with h0 | h0
      · rw [abs_of_nonneg (h0.trans h1)]; exact ⟨h1, h2⟩
      · exact ⟨h1.trans (le_abs_self m), abs_le.mpr ⟨h0.1.trans h1, h2⟩⟩
    · exact absurd hv (by simp)
  · exact absurd hv (by simp)

/-- A vector sent, held, reported and read back. -/
theorem vec_echo {lo hi : ℝ} {p : ℕ} (h0 : VecSer.Range lo hi p) (h : lo < hi) (hb : VecSer.b2 lo hi p ≤ 53) {u v : ℝ × ℝ × ℝ}
    {b : List Bool} (hv : VecSer.deserialize lo hi p b = some v) (hd : dist3 v u ≤ 21 / 10 * ((hi - lo) / 2 ^ p)) (hx : v.1 ≠ 0) :
    ∃ b' w, VecSer.serialize lo hi p (.fin v.1 v.2.1 v.2.2 false) = some b' ∧ b'.length = VecSer.totalSize lo hi p ∧
      VecSer.deserialize lo hi p b' = some w ∧ dist3 w u ≤ 42 / 10 * ((hi - lo) / 2 ^ p) := by
  obtain ⟨b', k1, k2, w, k3, k4⟩ := C98_accuracy_partial lo hi p h0 h hb v.1 v.2.1 v.2.2 false (.inl hx)
  obtain ⟨l1, l2⟩ := decoded_length h0 h hb hv
  have hl0 : length3 v ≠ 0 := by
    intro hl
    have := Real.sqrt_eq_zero'.mp hl
    have h3 : 0 < v.1 ^ 2 := by positivity
    nlinarith [sq_nonneg v.2.1, sq_nonneg v.2.2]
  have hs : shell lo hi (v.1, v.2.1, v.2.2) = v := by
    unfold shell
    rw [nearest_self l1 l2, div_self hl0]
    simp
  rw [hs] at k4
  refine ⟨b', w, k1, k2, k3, (dist3_triangle w v u).trans ?_⟩
  linarith

/-- C124, one field: what the tool takes for a field, decoded on board, reported by the downlink task and decoded on the ground.
The condition concerns vectors only: the first component of the vector held is not zero (such vectors are refuted below). -/
theorem C124_field_partial (f : Ground.Field) (hf : f.Ok) (j : Json)
    (hj : Fair f j) (b : List Bool) (hb : f.add j = .ok b) (old old' : Value) (hx : ∀ v, f.decode b old = .vec v → v.1 ≠ 0) :
    ∃ b', (f.withBits b).encode (f.decode b old) = some b' ∧ b'.length = f.bits.length ∧
      Shown f j (f.decode b old) (f.decode b' old') := by
  have harr := add_arrives hf hj hb old
  have htk := (add_ok_iff hf hj).mp ⟨b, hb⟩
  obtain ⟨hlen, -, har⟩ := harr
  cases f with
  | vec d lo hi p bits =>
    obtain ⟨f0, f1, f2, f3⟩ := hf
    have hv : ∃ v, VecSer.deserialize lo hi p b = some v := by
      obtain ⟨u, hu, hux⟩ := hj
      obtain ⟨c1, c2⟩ := C104_vector_partial d lo hi p f0 f1 f2 j u hu hux
      simp only [Field.add] at hb
      by_cases hc : lo ≤ length3 u ∧ length3 u ≤ hi
      · obtain ⟨b', v, d1, d2, d3, d4⟩ := c1 hc
        rw [hb] at d1; cases d1
        exact ⟨v, d3⟩
      · rw [c2 hc] at hb; exact absurd hb (by simp)
    obtain ⟨v, hv⟩ := hv
    have hval : Field.decode (.vec d lo hi p bits) b old = .vec v := by simp only [Field.decode, hv]
    have hvx := hx v hval
    rw [hval] at har ⊢
    cases har with
    | vec _ _ _ _ _ _ u _ hu hd =>
      obtain ⟨b', w, k1, k2, k3, k4⟩ := vec_echo f0 f1 f2 hv hd hvx
      refine ⟨b', ?_, by simp only [Field.bits]; rw [k2, f3], ?_⟩
      · simp only [Field.withBits, Field.encode, k1]
      · have : Field.decode (.vec d lo hi p bits) b' old' = .vec w := by simp only [Field.decode, k3]
        rw [this]
        exact .vec d lo hi p bits j u v w hu hvx k4
  | int s =>
    have hser : ∃ n s', s.serialize n = some s' ∧ s'.bits = b := by
      simp only [Field.add, addInt] at hb
      split at hb
      · exact absurd hb (by simp)
      · exact absurd hb (by simp)
      · rename_i v _
        split at hb
        · exact absurd hb (by simp)
        · split at hb
          · exact absurd hb (by simp)
          · split at hb
            · rename_i s' hs'
              exact ⟨v, s', hs', by simpa using hb⟩
            · exact absurd hb (by simp)
    obtain ⟨n, s', h1, h2⟩ := hser
    obtain ⟨s2, g1, -, g2, g3, g4, -⟩ := IntSer.roundtrip hf.1 n
    rw [h1] at g1; cases g1
    obtain ⟨s3, k1, -, -, -, -, -, -, k2⟩ := C05_roundtrip_partial s hf.1 n
    rw [h1] at k1; cases k1
    have he : ({ s with bits := b } : IntSer) = s' := by
      cases s'; simp only at g2 g3 g4 h2; subst g2 g3 g4 h2; rfl
    refine ⟨b, ?_, hlen, ?_⟩
    · simp only [Field.withBits, Field.decode, Field.encode, he, k2, Option.map_some, h2]
    · cases j <;> try exact absurd hj id
      rename_i m
      simp only [Field.decode] at har ⊢
      cases har with
      | int _ _ _ ha => exact .int s m _ ha
  | bool s =>
    cases j <;> try exact absurd hj id
    rename_i x
    simp only [Field.add, addBool, Reply.ok.injEq] at hb
    have hs : s.bits.length = 1 := hf
    obtain ⟨y, hy⟩ := List.length_eq_one_iff.mp hs
    have : b = [x] := by rw [← hb]; simp [BoolSer.serialize, hy]
    subst this
    exact ⟨[x], rfl, hlen, .bool s x⟩
  | real d s =>
    have key : ∀ x v, s.min ≤ asReal d x ∧ asReal d x ≤ s.max → Field.decode (.real d s) b old = .real v →
        ArrivedReal s.min s.max s.bits.length (if d then 1 / 2 ^ 53 else 1 / 2 ^ 24) x v →
        ∃ b' w, (Field.withBits (.real d s) b).encode (.real v) = some b' ∧ b'.length = s.bits.length ∧
          Field.decode (.real d s) b' old' = .real w ∧
          |w - x| ≤ 2 * ((s.max - s.min) / (2 ^ s.bits.length - 1) +
            22 * (if d then 1 / 2 ^ 53 else 1 / 2 ^ 24) * (|s.min| + |s.max|)) := by
      intro x v hin hdec hv
      obtain ⟨b', w, a1, a2, a3, a4⟩ := real_echo hf hin hv hlen
      exact ⟨b', w, a1, a2, by simp only [Field.decode, a3], a4⟩
    cases j <;> try exact absurd hj id
    · rename_i n
      generalize hval : Field.decode (.real d s) b old = val at har ⊢
      cases har with
      | whole _ _ _ v hv =>
        obtain ⟨b', w, a1, a2, a3, a4⟩ := key n v ⟨htk.1, htk.2.1⟩ hval hv
        exact ⟨b', a1, a2, a3 ▸ .whole d s n v w a4⟩
    · rename_i x
      generalize hval : Field.decode (.real d s) b old = val at har ⊢
      cases har with
      | real _ _ _ v hv =>
        obtain ⟨b', w, a1, a2, a3, a4⟩ := key x v ⟨htk.1, htk.2.1⟩ hval hv
        exact ⟨b', a1, a2, a3 ▸ .real d s x v w a4⟩
  | time s =>
    match j, hj with
    | .arr (.num wn :: .num tow :: .num ns :: rest), hj =>
      generalize hval : Field.decode (.time s) b old = val at har ⊢
      cases har with
      | time _ _ _ _ _ t h1 h2 h3 h4 =>
        have hs : s.Valid := hf
        obtain ⟨s', a1, a2, a3⟩ := C06_gps_roundtrip _ (gps_with_bits hs hlen) t old'.asTime h1 (by
          obtain ⟨r1, r2, r3, r4, r5, r6⟩ := hj
          unfold GpsInRange; omega)
        refine ⟨s'.bits, ?_, by simp only [Field.bits]; rw [a2.len, hs.len], ?_⟩
        · simp only [Field.withBits, Field.encode, a1, Option.map_some]
        · have : Field.decode (.time s) s'.bits old' = .time t := by
            simp only [Field.decode]
            rw [gps_decode_with hs a2, a3]
          rw [this]
          exact .time s wn tow ns rest t h1 h2 h3 h4
  | quat d bits =>
    have hbits : bits.length = 32 := hf
    generalize hval : Field.decode (.quat d bits) b old = val at har ⊢
    cases har with
    | quat _ _ _ q v σ hq hv hσ hd =>
      have hv0 : v ≠ 0 := by
        rintro rfl
        unfold length4 at hv
        simp at hv
      obtain ⟨b', k1, k2, w, k3, k4, τ, k5, k6⟩ := C99_accuracy v hv0
      refine ⟨b', ?_, by simp only [Field.bits]; omega, ?_⟩
      · simp only [Field.withBits, Field.encode, k1]
      · have : Field.decode (.quat d bits) b' old' = .quat w := by
          simp only [Field.decode, k3]
        rw [this]
        refine .quat d bits j q v w (τ * σ) hq k4 ?_ ?_
        · rcases hσ with rfl | rfl <;> rcases k5 with rfl | rfl <;> norm_num
        · intro i
          have e1 := k6 i
          have e2 := hd i
          rw [hv, div_one] at e1
          have e3 : |τ * v i - τ * σ * (q i / length4 q)| ≤ 8 / 1023 := by
            have : τ * v i - τ * σ * (q i / length4 q) = τ * (v i - σ * (q i / length4 q)) := by ring
            rw [this, abs_mul]
            have ht : |τ| = 1 := by rcases k5 with rfl | rfl <;> norm_num
            rw [ht, one_mul]; exact e2
          have := abs_sub_le (w i) (τ * v i) (τ * σ * (q i / length4 q))
          linarith

/-- C124: a command file goes up, and afterwards a frame is sent before any task has changed the commanded fields. `place` is
the number of a commanded field among the fields of telemetry. The parser finds, in every flow of the frame that contains a
commanded field, a value for it that shows what was asked for. Hypotheses on the frame as in `C13_roundtrip_partial`, on the
command file as in `C104_delivered_partial`. Missing: vectors held with a first component of zero, and that other numbers are shown as they are held (refuted
below). -/
theorem C124_echo_partial (fields : List Ground.Field) (hok : ∀ f ∈ fields, f.Ok) (hsmall : fields.length < 2 ^ 63 - 1)
    (junk : Nat → Bool) (cmd : List (Nat × Json)) (hne : cmd ≠ []) (hnd : (cmd.map (·.1)).Nodup)
    (hfair : ∀ p ∈ cmd, ∀ f, fields[p.1]? = some f → Fair f p.2)
    (bytes rest : List U8) (hcreate : create fields junk cmd = .ok bytes)
    (c : Consumer Value) (hc : SameFields fields c.fields) :
    ∃ c', ({ c with len := bytes.length, buf := some (bytes ++ rest) } : Consumer Value).execute = some c' ∧
    -- if the vectors now held have a first component that is not zero,
    ((∀ p ∈ cmd, ∀ w v, c'.fields[p.1]? = some w → w.value = .vec v → v.1 ≠ 0) →
    -- every commanded field can be reported
    (∀ p ∈ cmd, ∀ f w, fields[p.1]? = some f → c'.fields[p.1]? = some w →
      ∃ b', (f.withBits w.bits).encode w.value = some b' ∧ b'.length = f.bits.length) ∧
    -- and a frame that reports it is read by the ground as what was asked for
    ∀ (width : Nat → Nat) (data : List Downlink.FlowData), data.length < 256 → data ≠ [] → DistinctIds data →
      ∀ (p p' : Downlink.Producer), Reachable width data p →
      ∀ (env : Nat → List Bool) (place : Nat → Nat), Fits width env →
      (∀ e ∈ cmd, ∀ f w, fields[e.1]? = some f → c'.fields[e.1]? = some w →
        (f.withBits w.bits).encode w.value = some (env (place e.1))) →
      ∀ (cc : U32), Downlink.execute width env cc p = some p' →
      ∀ (g : List Downlink.Flow) (k : Nat), Downlink.makeFlows width data.length data = some (g, k) →
      p'.snapSize % 70 ≠ 0 → frameLen (activePayload width data.length p) ≤ 8 * p'.snapSize →
      (∀ i k, slot i = 64 * k → 1 ≤ k → k ≤ (activePayload width data.length p - 1) / 559 →
        (payload env cc (activeFlows p) data.length)[i]? ≠ some true) →
      ∃ r, Downlink.parseFrame width g (p'.buf.take p'.snapSize) = some r ∧ r.cc = cc.toNat ∧
        ∀ e ∈ cmd, ∀ flow ∈ activeFlows p, place e.1 ∈ flow.2 →
          ∃ f w vals bits, fields[e.1]? = some f ∧ c'.fields[e.1]? = some w ∧ ((flow.1 : Int), vals) ∈ r.flows ∧
            (place e.1, bits) ∈ vals ∧ ∀ before, Shown f e.2 w.value (f.decode bits before)) := by
  have hmem : ∀ {i f}, fields[i]? = some f → f ∈ fields := fun h => List.mem_of_getElem? h
  cases he : encodeAll fields cmd with
  | refused => unfold create at hcreate; rw [he] at hcreate; exact absurd hcreate (by simp)
  | undef => unfold create at hcreate; rw [he] at hcreate; exact absurd hcreate (by simp)
  | ok es =>
    obtain ⟨bytes', hb', h⟩ := delivered_bits fields hok hsmall junk cmd hne hnd hfair es he
    rw [hcreate] at hb'; cases hb'
    obtain ⟨c', e1, e2, e3, e4⟩ := h c hc rest
    refine ⟨c', e1, fun hvec => ?_⟩
    have key : ∀ p ∈ cmd, ∃ f w b', fields[p.1]? = some f ∧ c'.fields[p.1]? = some w ∧
        (f.withBits w.bits).encode w.value = some b' ∧ b'.length = f.bits.length ∧
        ∀ before, Shown f p.2 w.value (f.decode b' before) := by
      intro p hp
      obtain ⟨f, b, w, old, g1, g2, g3, g4, g5⟩ := e3 p hp
      have hv : ∀ v, f.decode b old = .vec v → v.1 ≠ 0 := fun v hfv => hvec p hp w v g3 (by rw [g4, hfv])
      have hall := fun before => C124_field_partial f (hok f (hmem g1)) p.2 (hfair p hp f g1) b g2 old before hv
      obtain ⟨b', k1, k2, -⟩ := hall (.int 0)
      refine ⟨f, w, b', g1, g3, by rw [g5, g4]; exact k1, k2, fun before => ?_⟩
      obtain ⟨b2, m1, m2, m3⟩ := hall before
      rw [k1] at m1; cases m1
      rw [g4]; exact m3
    refine ⟨?_, ?_⟩
    · intro p hp f w hf hw
      obtain ⟨f', w', b', k1, k2, k3, k4, -⟩ := key p hp
      rw [hf] at k1; cases k1
      rw [hw] at k2; cases k2
      exact ⟨b', k3, k4⟩
    · intro width data h256 h0 hd p p' hp env place hfit henv cc hex g k hg h70 hlong hclear
      obtain ⟨r, q1, q2, q3, -⟩ := C13_roundtrip_partial width data h256 h0 hd p p' hp env hfit cc hex g k hg h70 hlong hclear
      refine ⟨r, q1, q2, ?_⟩
      intro e hemem flow hflow hplace
      obtain ⟨f, w, b', k1, k2, k3, k4, k5⟩ := key e hemem
      have hb := henv e hemem f w k1 k2
      rw [k3] at hb
      cases hb
      refine ⟨f, w, flow.2.map fun x => (x, env x), env (place e.1), k1, k2, ?_, ?_, k5⟩
      · rw [q3]; unfold report; exact List.mem_map.mpr ⟨flow, hflow, rfl⟩
      · exact List.mem_map.mpr ⟨place e.1, hplace, rfl⟩

/-- C124 does not hold for other numbers: the firing pressure commanded as 20 is held as about 19.5 and shown as about 18.9,
more than a step and a half below what was asked for. -/
theorem C124_counterexample_pressure :
    ∃ b v b' w, addReal false (.mk' 10 50 6) (.num 20) = .ok b ∧
      (⟨10, 50, b⟩ : FltSer ℚ).deserialize f32 = some v ∧
      ((⟨10, 50, b⟩ : FltSer ℚ).serialize f32 (.fin v)).map (·.bits) = some b' ∧
      (⟨10, 50, b'⟩ : FltSer ℚ).deserialize f32 = some w ∧
      (1 : ℚ) / 2 < v - w ∧ 3 / 2 * ((50 - 10 : ℚ) / 63) < 20 - w := by
  refine ⟨[true, true, true, true, false, false], ((⟨10, 50, [true, true, true, true, false, false]⟩ : FltSer ℚ).deserialize f32).getD 0,
    [false, true, true, true, false, false], ((⟨10, 50, [false, true, true, true, false, false]⟩ : FltSer ℚ).deserialize f32).getD 0,
    ?_, ?_, ?_, ?_, ?_, ?_⟩ <;> decide +kernel

/-- C124 for vectors: one whose first component is larger than the accuracy of the field is shown to twice that accuracy. -/
theorem C124_vector_partial (d : Bool) (lo hi : ℝ) (p : ℕ) (bits : List Bool) (hf : Ground.Field.Ok (.vec d lo hi p bits)) (j : Json)
    (u : ℝ × ℝ × ℝ) (hj : j.vector d = some u) (hx : 21 / 10 * ((hi - lo) / 2 ^ p) < |u.1|) (b : List Bool)
    (hb : Ground.Field.add (.vec d lo hi p bits) j = .ok b) (old old' : Value) :
    ∃ b', (Ground.Field.withBits (.vec d lo hi p bits) b).encode (Ground.Field.decode (.vec d lo hi p bits) b old) = some b' ∧
      ∃ w, Ground.Field.decode (.vec d lo hi p bits) b' old' = .vec w ∧ dist3 w u ≤ 42 / 10 * ((hi - lo) / 2 ^ p) := by
  have hδ : 0 ≤ 21 / 10 * ((hi - lo) / 2 ^ p) := by
    have := sub_pos.mpr hf.2.1; positivity
  have hu0 : u.1 ≠ 0 := by intro hc; rw [hc, abs_zero] at hx; linarith
  have hfair : Fair (.vec d lo hi p bits) j := ⟨u, hj, hu0⟩
  obtain ⟨b', h1, h2, h3⟩ := C124_field_partial _ hf j hfair b hb old old' (by
    intro v hv hv0
    have har := (add_arrives hf hfair hb old).2.2
    rw [hv] at har
    cases har with
    | vec _ _ _ _ _ _ u' _ hu' hd =>
      rw [hj] at hu'; cases hu'
      have hle : |u.1| ≤ dist3 v u := by
        unfold dist3 length3
        rw [hv0, ← Real.sqrt_sq_eq_abs]
        apply Real.sqrt_le_sqrt
        nlinarith [sq_nonneg (v.2.1 - u.2.1), sq_nonneg (v.2.2 - u.2.2)]
      linarith)
  refine ⟨b', h1, ?_⟩
  generalize Ground.Field.decode (.vec d lo hi p bits) b' old' = w at h3 ⊢
  generalize Ground.Field.decode (.vec d lo hi p bits) b old = v0 at h3
  cases h3 with
  | vec _ _ _ _ _ _ u' v w hu' _ hd =>
    rw [hj] at hu'; cases hu'
    exact ⟨w, rfl, hd⟩

-- The impulse of 1/512 N s backwards and 1/256 up, in the orbit controller's field.
example : 21 / 10 * ((1 / 40 - 0 : ℝ) / 2 ^ 10) < |((-1 / 512 : ℚ) : ℝ)| := by norm_num [abs_of_neg]

/-- C124 does not hold for short vectors: one shorter than a step of the magnitude is taken, held as zero, and then reporting it
is undefined. -/
theorem C124_counterexample_vanishes (hi : ℝ) (hhi : 0 < hi) (p : ℕ) (hp : p ≤ 51) (u : ℝ × ℝ × ℝ) (hx : u.1 ≠ 0)
    (hu : length3 u < hi / (2 ^ (2 + p) - 1)) :
    ∃ b, VecSer.serialize 0 hi p (.fin u.1 u.2.1 u.2.2 false) = some b ∧ VecSer.deserialize 0 hi p b = some (0, 0, 0) ∧
      VecSer.serialize 0 hi p (.fin 0 0 0 false) = none := by
  have hl0 : 0 < length3 u := by
    apply Real.sqrt_pos.mpr
    have h3 : 0 < u.1 ^ 2 := by positivity
    nlinarith [sq_nonneg u.2.1, sq_nonneg u.2.2]
  have hb2 : VecSer.b2 0 hi p = 2 + p := b2_zero hhi p
  have hpow : (4 : ℝ) ≤ 2 ^ (2 + p) := by
    rw [pow_add]
    have : (1 : ℝ) ≤ 2 ^ p := one_le_pow₀ (by norm_num)
    linarith
  have hle : length3 u ≤ hi := hu.le.trans (div_le_self hhi.le (by linarith))
  have hpi := Real.pi_pos
  obtain ⟨a, ha, hal, hma⟩ := component_exact (lo := 0) (n := VecSer.b1 p) hhi (by unfold VecSer.b1; omega) (by unfold VecSer.b1; omega)
    hl0.le hle (k := 0) (by simpa using hl0.le) (by simpa [VecSer.b1] using hu)
  obtain ⟨c, hc, hcl, th, hth, -⟩ := component (lo := 0) (n := VecSer.b2 0 hi p) hpi (by omega) (by omega)
    (Real.arccos (u.2.2 / length3 u))
  obtain ⟨e, he, hel, ph, hph, -⟩ := component (lo := -Real.pi / 2) (hi := Real.pi / 2) (n := VecSer.b2 0 hi p)
    (by linarith) (by omega) (by omega) (Real.arctan (u.2.1 / length3 u / (u.1 / length3 u)))
  have hm' : √(u.1 ^ 2 + u.2.1 ^ 2 + u.2.2 ^ 2) = length3 u := rfl
  refine ⟨decide (0 < u.1 / length3 u) :: (a.bits ++ c.bits ++ e.bits), ?_, ?_, (C98_counterexample_axis 0 hi p 0 false).1⟩
  · unfold VecSer.serialize
    dsimp only
    rw [hm', if_neg hl0.ne']
    unfold VecSer.atanQuot
    rw [if_neg (div_ne_zero hx hl0.ne')]
    dsimp only
    unfold VecSer.mag VecSer.theta VecSer.phi
    rw [ha, hc, he]
  · unfold VecSer.deserialize
    rw [if_pos (by simp only [List.length_cons, List.length_append, hal, hcl, hel, VecSer.totalSize]; omega)]
    dsimp only
    have e1 : (List.drop 1 (decide (0 < u.1 / length3 u) :: (a.bits ++ c.bits ++ e.bits))) = a.bits ++ c.bits ++ e.bits := rfl
    have e2 : List.take (VecSer.b1 p) (a.bits ++ c.bits ++ e.bits) = a.bits := by
      rw [List.append_assoc]; exact List.take_left' hal
    have e3 : List.drop (VecSer.b1 p) (a.bits ++ c.bits ++ e.bits) = c.bits ++ e.bits := by
      rw [List.append_assoc]; exact List.drop_left' hal
    have e4 : List.drop (VecSer.b1 p + VecSer.b2 0 hi p) (a.bits ++ c.bits ++ e.bits) = e.bits :=
      List.drop_left' (by rw [List.length_append, hal, hcl])
    rw [e1, e2, e3, e4, List.take_left' hcl, List.take_of_length_le hel.le]
    unfold VecSer.mag VecSer.theta VecSer.phi
    rw [hma, hth, hph]
    simp

-- An impulse of 5 micronewton seconds for the orbit controller's field (up to 0.025 in 12 bits) is such a vector.
example : length3 (1 / 200000, 0, 0) < (1 / 40) / (2 ^ (2 + 10) - 1) := by
  unfold length3
  rw [show ((1 / 200000 : ℝ)) ^ 2 + (0 : ℝ) ^ 2 + 0 ^ 2 = (1 / 200000) ^ 2 by ring, Real.sqrt_sq (by norm_num)]
  norm_num

-- The state of the attitude system, commanded to 3: the hypotheses are met, and 3 is what is shown. (A command file for six
-- fields is beside `C104_delivered_partial`, a frame beside `C13_roundtrip_partial`.)
example : ∃ (f : Ground.Field) (b b' : List Bool), f = .int (.mkRange .uchar 0 10) ∧ f.Ok ∧ Fair f (.num 3) ∧
    f.add (.num 3) = .ok b ∧ (f.withBits b).encode (f.decode b (.int 0)) = some b' ∧ f.decode b' (.int 0) = .int 3 := by
  have hok : Ground.Field.Ok (.int (.mkRange .uchar 0 10)) :=
    ⟨(IntSer.mkRange_valid .uchar 0 10 (by decide) (by decide) (by decide)).1, by decide⟩
  have hfair : Fair (.int (.mkRange .uchar 0 10)) (.num 3) := by show IntKind.InRange _ _; decide
  obtain ⟨b, hb⟩ := (add_ok_iff hok hfair).mpr (by refine ⟨?_, ?_, ?_⟩ <;> decide +kernel)
  obtain ⟨b', h1, h2, h3⟩ := C124_field_partial _ hok _ hfair b hb (.int 0) (.int 0) (by simp [Ground.Field.decode])
  refine ⟨_, b, b', rfl, hok, hfair, hb, h1, ?_⟩
  generalize Ground.Field.decode (.int (.mkRange .uchar 0 10)) b' (.int 0) = w at h3 ⊢
  cases h3 with
  | int _ _ v ha => rw [ha.2.2.2 (by decide +kernel)]

end
end PAN
