import Verif.Lemmas.BitArray
import Verif.Model.Serializer
/-! C05 and C06: integer and GPS time serialization. -/
namespace PAN
open Spec BitArray

namespace IntSer

/-- What the constructors guarantee (and, for signed characters, that one step fits in the type). -/
structure Valid (s : IntSer) : Prop where
  le : s.min ≤ s.max
  minIn : s.kind.InRange s.min
  maxIn : s.kind.InRange s.max
  width : s.bits.length ≤ s.kind.bits
  some : 1 ≤ s.bits.length ∨ s.min = s.max
  step : s.kind = .schar → stepSize (s.max - s.min).toNat s.bits.length ≤ 127

theorem cast_between {k : IntKind} {a b x : Int} (ha : k.InRange a) (hb : k.InRange b) (h1 : a ≤ x) (h2 : x ≤ b) :
    k.cast x = x := by
  unfold IntKind.InRange at ha hb
  cases k <;> simp only [IntKind.cast] at * <;> omega

theorem range_lt {s : IntSer} (h : s.Valid) : (s.max - s.min).toNat < 2 ^ s.kind.bits := by
  have h1 := h.minIn; have h2 := h.maxIn; have h3 := h.le
  unfold IntKind.InRange at h1 h2
  generalize s.kind = k at *
  cases k <;> simp only [IntKind.cast, IntKind.bits] at * <;> omega

theorem bits_le_32 (k : IntKind) : k.bits ≤ 32 := by cases k <;> decide

theorem range_mod {s : IntSer} (h : s.Valid) : ((s.max - s.min) % 2 ^ 32).toNat = (s.max - s.min).toNat := by
  have h1 := range_lt h
  have h2 := Nat.pow_le_pow_right (n := 2) (by omega) (bits_le_32 s.kind)
  have h3 := h.le
  omega

theorem numIntervals_eq {w : Nat} (h : w ≤ 32) : numIntervals w = 2 ^ w - 1 := by
  unfold numIntervals
  split
  · rfl
  · have : w = 32 := by omega
    subst this; rfl

theorem ceil_eq {r n : Nat} (hn : 1 ≤ n) :
    (r + n - 1) / n = if r / n * n < r then r / n + 1 else r / n := by
  have hd : n * (r / n) + r % n = r := Nat.div_add_mod r n
  have hm : r % n < n := Nat.mod_lt _ hn
  rw [Nat.mul_comm] at hd
  split
  · apply Nat.div_eq_of_lt_le
    · rw [Nat.add_mul]; omega
    · rw [Nat.add_mul, Nat.add_mul]; omega
  · apply Nat.div_eq_of_lt_le
    · omega
    · rw [Nat.add_mul]; omega

theorem res_core (k : IntKind) (r n q P : Nat) (hP : (q : Int) * n = P) (hr : r < 2 ^ k.bits) (hle : P ≤ r)
    (hx : q ≤ r) (hhalf : P < r → 2 * q < r) (hst : k = .schar → (if P < r then q + 1 else q) ≤ 127) :
    ((if (k.cast q * n) % 2 ^ 32 < (r : Int) then k.cast (k.cast q + 1) else k.cast q) % 2 ^ 32).toNat
      = if P < r then q + 1 else q := by
  cases k
  · simp only [IntKind.bits] at hr
    have e1 : IntKind.uint.cast q = q := by simp only [IntKind.cast]; omega
    rw [e1, hP]
    simp only [IntKind.cast]
    split <;> split <;> omega
  · simp only [IntKind.bits] at hr
    by_cases hq : q < 2 ^ 31
    · have e1 : IntKind.sint.cast q = q := by simp only [IntKind.cast]; omega
      rw [e1, hP]
      simp only [IntKind.cast]
      split <;> split <;> omega
    · have e1 : IntKind.sint.cast q = q - 2 ^ 32 := by simp only [IntKind.cast]; omega
      rw [e1, Int.sub_mul, hP]
      simp only [IntKind.cast]
      split <;> split <;> omega
  · simp only [IntKind.bits] at hr
    have e1 : IntKind.uchar.cast q = q := by simp only [IntKind.cast]; omega
    rw [e1, hP]
    simp only [IntKind.cast]
    split <;> split <;> omega
  · simp only [IntKind.bits] at hr
    have hst' := hst rfl
    have e1 : IntKind.schar.cast q = q := by simp only [IntKind.cast]; split at hst' <;> omega
    rw [e1, hP]
    simp only [IntKind.cast]
    split at hst' <;> split <;> (try split) <;> omega

theorem resolution_eq {s : IntSer} (h : s.Valid) : s.resolution = stepSize (s.max - s.min).toNat s.bits.length := by
  have hw32 : s.bits.length ≤ 32 := Nat.le_trans h.width (bits_le_32 _)
  unfold resolution
  simp only [range_mod h, numIntervals_eq hw32]
  have hr := range_lt h
  have hstep := h.step
  unfold stepSize at hstep ⊢
  generalize (s.max - s.min).toNat = r at *
  generalize hN : 2 ^ s.bits.length - 1 = n at *
  by_cases hn : n = 0
  · rw [if_pos hn, hn]; simp
  · rw [if_neg hn, ceil_eq (by omega)]
    rw [ceil_eq (by omega)] at hstep
    have hbig : r / n * n < r → 2 ≤ n := by
      intro h1
      by_contra hc
      have : n = 1 := by omega
      rw [this] at h1; simp at h1
    have hhalf : r / n * n < r → 2 * (r / n) < r := by
      intro h1
      have := Nat.mul_le_mul_left (r / n) (hbig h1)
      omega
    exact res_core s.kind r n (r / n) (r / n * n) (by simp) hr (Nat.div_mul_le_self r n) (Nat.div_le_self r n) hhalf hstep

theorem clamp_eq {s : IntSer} (h : s.min ≤ s.max) (x : Int) : s.clamp x = limit s.min s.max x := by
  unfold clamp limit
  simp only
  split <;> split <;> (try split) <;> (try split) <;> omega

theorem limit_bounds {lo hi : Int} (h : lo ≤ hi) (x : Int) : lo ≤ limit lo hi x ∧ limit lo hi x ≤ hi := by
  unfold limit; split
  · omega
  · split <;> omega

theorem limit_mono {lo hi x y : Int} (h : lo ≤ hi) (hxy : x ≤ y) : limit lo hi x ≤ limit lo hi y := by
  unfold limit
  split <;> split <;> (try split) <;> (try split) <;> omega

theorem step_covers {r w : Nat} (h : 1 ≤ w ∨ r = 0) : r ≤ stepSize r w * (2 ^ w - 1) := by
  rcases h with h | h
  · have hn : 1 ≤ 2 ^ w - 1 := by
      have := Nat.pow_le_pow_right (n := 2) (by omega) h
      omega
    unfold stepSize
    rw [ceil_eq hn]
    have hd : (2 ^ w - 1) * (r / (2 ^ w - 1)) + r % (2 ^ w - 1) = r := Nat.div_add_mod r _
    have hm : r % (2 ^ w - 1) < 2 ^ w - 1 := Nat.mod_lt _ hn
    rw [Nat.mul_comm] at hd
    split
    · rw [Nat.add_mul]; omega
    · omega
  · subst h; omega

/-- The value stored by `serialize`. -/
def code (s : IntSer) (x : Int) : Nat := (limit s.min s.max x - s.min).toNat / stepSize (s.max - s.min).toNat s.bits.length

theorem code_le {s : IntSer} (h : s.Valid) (x : Int) : s.code x ≤ 2 ^ s.bits.length - 1 := by
  have hb := limit_bounds h.le x
  have hc := step_covers (r := (s.max - s.min).toNat) (w := s.bits.length)
    (h.some.imp id (fun e => by rw [e]; simp))
  unfold code
  by_cases h0 : stepSize (s.max - s.min).toNat s.bits.length = 0
  · rw [h0, Nat.div_zero]; omega
  · apply Nat.div_le_of_le_mul
    have : (limit s.min s.max x - s.min).toNat ≤ (s.max - s.min).toNat := by omega
    omega

theorem serialize_eq {s : IntSer} (h : s.Valid) (x : Int) :
    ∃ b, s.serialize x = some { s with bits := b } ∧ b.length = s.bits.length ∧ bitsToNat b = s.code x := by
  have hw32 : s.bits.length ≤ 32 := Nat.le_trans h.width (bits_le_32 _)
  have hb := limit_bounds h.le x
  have hv : (if s.resolution ≠ 0 then ((s.clamp x - s.min) % 2 ^ 32).toNat / s.resolution else 0) = s.code x := by
    have hm : ((s.clamp x - s.min) % 2 ^ 32).toNat = (limit s.min s.max x - s.min).toNat := by
      rw [clamp_eq h.le]
      have h1 := range_lt h
      have h2 := Nat.pow_le_pow_right (n := 2) (by omega) (bits_le_32 s.kind)
      omega
    rw [hm, resolution_eq h]
    unfold code
    by_cases h0 : stepSize (s.max - s.min).toNat s.bits.length = 0
    · rw [if_neg (by simp [h0]), h0, Nat.div_zero]
    · rw [if_pos h0]
  have hc := code_le h x
  have hp : 1 ≤ 2 ^ s.bits.length := Nat.one_le_two_pow
  have hp32 := Nat.pow_le_pow_right (n := 2) (by omega) hw32
  obtain ⟨b, h1, h2, h3⟩ := setUllong_small s.bits (s.code x) (by omega) (by omega)
  refine ⟨b, ?_, h2, h3⟩
  unfold serialize
  simp only [hv, h1]

theorem deserialize_eq {s : IntSer} (h : s.Valid)
    (hin : s.min + (bitsToNat s.bits : Int) * (stepSize (s.max - s.min).toNat s.bits.length : Nat) ≤ s.max) :
    s.deserialize = s.min + (bitsToNat s.bits : Int) * (stepSize (s.max - s.min).toNat s.bits.length : Nat) := by
  have hw32 : s.bits.length ≤ 32 := Nat.le_trans h.width (bits_le_32 _)
  unfold deserialize
  rw [toUllong_eq _ (by omega), resolution_eq h]
  apply cast_between h.minIn h.maxIn _ hin
  have : (0 : Int) ≤ (bitsToNat s.bits : Int) * (stepSize (s.max - s.min).toNat s.bits.length : Nat) :=
    Int.mul_nonneg (by omega) (by omega)
  omega

theorem valid_with_bits {s : IntSer} (h : s.Valid) {b : List Bool} (hb : b.length = s.bits.length) :
    ({ s with bits := b } : IntSer).Valid :=
  ⟨h.le, h.minIn, h.maxIn, by simpa [hb] using h.width, by simpa [hb] using h.some, by simpa [hb] using h.step⟩

/-- Round trip through `serialize` and `deserialize`, in closed form. -/
theorem roundtrip {s : IntSer} (h : s.Valid) (x : Int) :
    ∃ s', s.serialize x = some s' ∧ s'.Valid ∧ s'.min = s.min ∧ s'.max = s.max ∧ s'.kind = s.kind ∧
      s'.bits.length = s.bits.length ∧ bitsToNat s'.bits = s.code x ∧
      s'.deserialize = s.min + ((s.code x * stepSize (s.max - s.min).toNat s.bits.length : Nat) : Int) ∧
      s'.deserialize ≤ limit s.min s.max x := by
  obtain ⟨b, h1, h2, h3⟩ := serialize_eq h x
  have hb := limit_bounds h.le x
  have hle : s.code x * stepSize (s.max - s.min).toNat s.bits.length ≤ (limit s.min s.max x - s.min).toNat :=
    Nat.div_mul_le_self _ _
  have hv := valid_with_bits h h2
  have hd := deserialize_eq hv (by
    simp only [h2, h3]
    have : ((s.code x : Nat) : Int) * ((stepSize (s.max - s.min).toNat s.bits.length : Nat) : Int) =
      ((s.code x * stepSize (s.max - s.min).toNat s.bits.length : Nat) : Int) := by simp
    rw [this]; omega)
  simp only [h2, h3] at hd
  have hcast : ((s.code x : Nat) : Int) * ((stepSize (s.max - s.min).toNat s.bits.length : Nat) : Int) =
      ((s.code x * stepSize (s.max - s.min).toNat s.bits.length : Nat) : Int) := by simp
  rw [hcast] at hd
  exact ⟨_, h1, hv, rfl, rfl, rfl, h2, h3, hd, by rw [hd]; omega⟩

theorem bitsToNat_inj : ∀ {a b : List Bool}, a.length = b.length → bitsToNat a = bitsToNat b → a = b
  | [], [], _, _ => rfl
  | [], _ :: _, h, _ => by simp at h
  | _ :: _, [], h, _ => by simp at h
  | x :: a, y :: b, h, he => by
    simp only [bitsToNat] at he
    have hxy : x = y := by cases x <;> cases y <;> simp at he ⊢ <;> omega
    subst hxy
    rw [bitsToNat_inj (a := a) (b := b) (by simpa using h) (by omega)]

end IntSer

/-- C05 (partial: every kind, range, width and input, except signed-character fields whose step is wider
than 127, for which it is false — see the counterexample below). Serializing then deserializing gives a
value inside the range, at most the clamped input, less than one step below it, exact when the width holds
the whole range; serializing the result again gives the same bits. -/
theorem C05_roundtrip_partial (s : IntSer) (h : s.Valid) (x : Int) :
    ∃ s', s.serialize x = some s' ∧ s'.bits.length = s.bits.length ∧
      s.min ≤ s'.deserialize ∧ s'.deserialize ≤ limit s.min s.max x ∧ limit s.min s.max x ≤ s.max ∧
      (s.min < s.max → limit s.min s.max x - s'.deserialize < stepSize (s.max - s.min).toNat s.bits.length) ∧
      ((s.max - s.min).toNat ≤ 2 ^ s.bits.length - 1 → s'.deserialize = limit s.min s.max x) ∧
      s'.serialize s'.deserialize = some s' := by
  obtain ⟨s', h1, hv, hmin, hmax, hk, h2, h3, h4, h5⟩ := IntSer.roundtrip h x
  have hb := IntSer.limit_bounds h.le x
  have hcov := IntSer.step_covers (r := (s.max - s.min).toNat) (w := s.bits.length)
    (h.some.imp id (fun e => by rw [e]; simp))
  have hstep : s.min < s.max → 0 < stepSize (s.max - s.min).toNat s.bits.length := by
    intro hlt
    rcases Nat.eq_zero_or_pos (stepSize (s.max - s.min).toNat s.bits.length) with h0 | h0
    · rw [h0] at hcov; omega
    · exact h0
  have hmod : s.min < s.max → ((limit s.min s.max x - s.min).toNat <
      s.code x * stepSize (s.max - s.min).toNat s.bits.length + stepSize (s.max - s.min).toNat s.bits.length) := by
    intro hlt
    have := Nat.div_add_mod (limit s.min s.max x - s.min).toNat (stepSize (s.max - s.min).toNat s.bits.length)
    have hm := Nat.mod_lt (limit s.min s.max x - s.min).toNat (hstep hlt)
    unfold IntSer.code
    rw [Nat.mul_comm] at this
    omega
  have herr : s.min < s.max → limit s.min s.max x - s'.deserialize < stepSize (s.max - s.min).toNat s.bits.length := by
    intro hlt; have := hmod hlt; omega
  refine ⟨s', h1, h2, by omega, h5, hb.2, herr, ?_, ?_⟩
  · intro hr
    by_cases hlt : s.min < s.max
    · have hs1 : stepSize (s.max - s.min).toNat s.bits.length = 1 := by
        have := hstep hlt
        have hn : 1 ≤ 2 ^ s.bits.length - 1 := by omega
        unfold stepSize at this ⊢
        apply Nat.div_eq_of_lt_le <;> omega
      have := herr hlt
      rw [hs1] at this
      omega
    · have := h.le; omega
  · obtain ⟨s'', g1, -, g2, g3, g4, g5, g6, -, -⟩ := IntSer.roundtrip hv s'.deserialize
    have hlim : limit s'.min s'.max s'.deserialize = s'.deserialize := by
      unfold limit; rw [if_neg (by omega), if_neg (by omega)]
    have hcode : s'.code s'.deserialize = s.code x := by
      unfold IntSer.code at h4 ⊢
      rw [hlim, hmin, hmax, h2, h4]
      have : ∀ (m : Int) (k : Nat), (m + (k : Int) - m).toNat = k := by intro m k; omega
      rw [this]
      by_cases h0 : stepSize (s.max - s.min).toNat s.bits.length = 0
      · rw [h0]; simp
      · rw [Nat.mul_div_cancel _ (by omega)]
    rw [g1]
    have hbits : s''.bits = s'.bits := IntSer.bitsToNat_inj g5 (by rw [g6, hcode, h3])
    cases s''; cases s'; simp_all

/-- C05: the decoded value is monotone in the input. -/
theorem C05_monotone_partial (s : IntSer) (h : s.Valid) (x y : Int) (hxy : x ≤ y) :
    ∃ sx sy, s.serialize x = some sx ∧ s.serialize y = some sy ∧ sx.deserialize ≤ sy.deserialize := by
  obtain ⟨sx, h1, -, -, -, -, -, -, h4, -⟩ := IntSer.roundtrip h x
  obtain ⟨sy, g1, -, -, -, -, -, -, g4, -⟩ := IntSer.roundtrip h y
  refine ⟨sx, sy, h1, g1, ?_⟩
  rw [h4, g4]
  have hc : s.code x ≤ s.code y := by
    unfold IntSer.code
    apply Nat.div_le_div_right
    have := IntSer.limit_mono h.le hxy
    omega
  have := Nat.mul_le_mul_right (stepSize (s.max - s.min).toNat s.bits.length) hc
  omega

/-- C57 (partial): whatever bits arrive from outside, decoding a field whose width exactly covers its range
stays inside the range. -/
theorem C57_decode_any_bits_partial (s : IntSer) (h : s.Valid) (hfull : (s.max - s.min).toNat = 2 ^ s.bits.length - 1)
    (b : List Bool) (hb : b.length = s.bits.length) :
    s.min ≤ (s.setBits b).deserialize ∧ (s.setBits b).deserialize ≤ s.max := by
  have hs : s.setBits b = { s with bits := b } := by unfold IntSer.setBits; rw [if_neg (by omega)]
  rw [hs]
  have hlt := bitsToNat_lt b
  have hle := h.le
  have hs1 : bitsToNat b * stepSize (s.max - s.min).toNat s.bits.length ≤ (s.max - s.min).toNat := by
    by_cases h0 : (s.max - s.min).toNat = 0
    · have : stepSize (s.max - s.min).toNat s.bits.length = 0 := by
        rw [h0]; unfold stepSize
        by_cases hw : 2 ^ s.bits.length - 1 = 0
        · rw [hw]
        · apply Nat.div_eq_of_lt; omega
      rw [this]; omega
    · have : stepSize (s.max - s.min).toNat s.bits.length = 1 := by
        unfold stepSize
        apply Nat.div_eq_of_lt_le <;> omega
      rw [this, hfull, ← hb]; omega
  have hd := IntSer.deserialize_eq (IntSer.valid_with_bits h hb) (by
    simp only [hb]
    have : ((bitsToNat b : Nat) : Int) * ((stepSize (s.max - s.min).toNat s.bits.length : Nat) : Int) =
      ((bitsToNat b * stepSize (s.max - s.min).toNat s.bits.length : Nat) : Int) := by simp
    rw [this]; omega)
  simp only [hb] at hd
  have hc : ((bitsToNat b : Nat) : Int) * ((stepSize (s.max - s.min).toNat s.bits.length : Nat) : Int) =
      ((bitsToNat b * stepSize (s.max - s.min).toNat s.bits.length : Nat) : Int) := by simp
  rw [hd, hc]; omega

/-- C57 does not hold in general: the photovoltaic output command (range [0,8500], 9 bits, step 17) decodes
the all-ones pattern as 8687. -/
theorem C57_counterexample_decode_above_max :
    ∃ (s : IntSer) (b : List Bool), s = IntSer.mkSized .uint 0 8500 9 ∧ s.Valid ∧ b.length = s.bits.length ∧
      s.max < (s.setBits b).deserialize :=
  ⟨_, List.replicate 9 true, rfl, ⟨by decide, by decide, by decide, by decide, by decide, by decide⟩, by decide, by decide⟩

/-- C57, exactly: the value decoded from any bits of a valid field, as long as it does not leave the type:
`min + code * step`. So it is inside the range precisely when the code is at most `range / step`. -/
theorem C57_decode_value_partial (s : IntSer) (h : s.Valid) (b : List Bool) (hb : b.length = s.bits.length)
    (hin : bitsToNat b * stepSize (s.max - s.min).toNat s.bits.length ≤ (s.max - s.min).toNat) :
    (s.setBits b).deserialize = s.min + (bitsToNat b * stepSize (s.max - s.min).toNat s.bits.length : Nat) := by
  have hs : s.setBits b = { s with bits := b } := by unfold IntSer.setBits; rw [if_neg (by omega)]
  have hle := h.le
  rw [hs]
  have hc : ((bitsToNat b : Nat) : Int) * ((stepSize (s.max - s.min).toNat s.bits.length : Nat) : Int) =
      ((bitsToNat b * stepSize (s.max - s.min).toNat s.bits.length : Nat) : Int) := by simp
  have hd := IntSer.deserialize_eq (IntSer.valid_with_bits h hb) (by simp only [hb]; rw [hc]; omega)
  simp only [hb] at hd
  rw [hd, hc]

/-- C05 does not hold for a signed character field of range [-128,127] in one bit: the step (255) does not
fit in `signed char`, and the maximum decodes as the minimum. -/
theorem C05_counterexample_signed_char_step :
    ∃ s s' : IntSer, s = IntSer.mkSized .schar (-128) 127 1 ∧ s.serialize 127 = some s' ∧
      s'.deserialize = -128 ∧ stepSize 255 1 = 255 := by
  refine ⟨_, IntSer.mkSized .schar (-128) 127 1, rfl, ?_, by decide, by decide⟩
  unfold IntSer.serialize
  have : (if (IntSer.mkSized .schar (-128) 127 1).resolution ≠ 0 then
      (((IntSer.mkSized .schar (-128) 127 1).clamp 127 - (IntSer.mkSized .schar (-128) 127 1).min) % 2 ^ 32).toNat /
        (IntSer.mkSized .schar (-128) 127 1).resolution else 0) = 0 := by decide
  simp only [this]
  have h2 : BitArray.setUllong (IntSer.mkSized .schar (-128) 127 1).bits 0 = some (true, [false]) := by
    unfold BitArray.setUllong
    rw [if_pos (by decide)]
    rw [BitArray.setLoop]; rfl
  rw [h2]; rfl

/-- Non-vacuity: the battery-voltage field of the power controller (range [5000,9500] in 10 bits, step 5). -/
example : (IntSer.mkSized .uint 5000 9500 10).Valid ∧ stepSize 4500 10 = 5 :=
  ⟨⟨by decide, by decide, by decide, by decide, by decide, by decide⟩, by decide⟩

/-! ### C06 -/

/-- The documented range of GPS times. -/
def Spec.GpsInRange (t : GpsTime) : Prop :=
  2000 ≤ t.wn.toNat ∧ t.wn.toNat ≤ 3000 ∧ t.tow.toNat ≤ 604800000 ∧ -1000000 ≤ t.ns.toInt ∧ t.ns.toInt ≤ 1000000

namespace GpsSer

theorem log2i_1000 : IntSer.log2i 1000 = 10 := by simp [IntSer.log2i]
theorem log2i_tow : IntSer.log2i 604800000 = 30 := by simp [IntSer.log2i]
theorem log2i_ns : IntSer.log2i 2000000 = 21 := by simp [IntSer.log2i]

/-- The states a GPS time serializer can be in after any sequence of calls. -/
structure Valid (s : GpsSer) : Prop where
  wn : s.wn.Valid ∧ s.wn.kind = .uint ∧ s.wn.min = 2000 ∧ s.wn.max = 3000 ∧ s.wn.bits.length = 10
  tow : s.tow.Valid ∧ s.tow.kind = .uint ∧ s.tow.min = 0 ∧ s.tow.max = 604800000 ∧ s.tow.bits.length = 30
  ns : s.ns.Valid ∧ s.ns.kind = .sint ∧ s.ns.min = -1000000 ∧ s.ns.max = 1000000 ∧ s.ns.bits.length = 21
  len : s.bits.length = 62

theorem valid_new : new.Valid := by
  have e1 : (IntSer.mkRange .uint 2000 3000).bits.length = 10 := by
    simp only [IntSer.mkRange, List.length_replicate]; exact log2i_1000
  have e2 : (IntSer.mkRange .uint 0 604800000).bits.length = 30 := by
    simp only [IntSer.mkRange, List.length_replicate]; exact log2i_tow
  have e3 : (IntSer.mkRange .sint (-1000000) 1000000).bits.length = 21 := by
    simp only [IntSer.mkRange, List.length_replicate]; exact log2i_ns
  refine ⟨⟨⟨by decide, by decide, by decide, ?_, ?_, by decide⟩, rfl, rfl, rfl, e1⟩,
    ⟨⟨by decide, by decide, by decide, ?_, ?_, by decide⟩, rfl, rfl, rfl, e2⟩,
    ⟨⟨by decide, by decide, by decide, ?_, ?_, by decide⟩, rfl, rfl, rfl, e3⟩, ?_⟩
  · show (IntSer.mkRange .uint 2000 3000).bits.length ≤ 32; omega
  · left; show 1 ≤ (IntSer.mkRange .uint 2000 3000).bits.length; omega
  · show (IntSer.mkRange .uint 0 604800000).bits.length ≤ 32; omega
  · left; show 1 ≤ (IntSer.mkRange .uint 0 604800000).bits.length; omega
  · show (IntSer.mkRange .sint (-1000000) 1000000).bits.length ≤ 32; omega
  · left; show 1 ≤ (IntSer.mkRange .sint (-1000000) 1000000).bits.length; omega
  · simp only [new, List.length_replicate, e1, e2, e3]

theorem copyAt_end (a c src : List Bool) (n : Nat) (ha : a.length = n) (hc : src.length ≤ c.length) :
    copyAt (a ++ c) n src = some (a ++ src ++ c.drop src.length) := by
  subst ha
  unfold copyAt
  rw [if_pos (by simp; omega)]
  simp [List.drop_append]

/-- The layout of a serialized time that is set. -/
theorem serialize_set (s : GpsSer) (h : s.Valid) (t : GpsTime) (ht : t.isSet = true) :
    ∃ wn tow ns, s.wn.serialize t.wn.toNat = some wn ∧ s.tow.serialize t.tow.toNat = some tow ∧
      s.ns.serialize t.ns.toInt = some ns ∧
      s.serialize t = some { wn, tow, ns, bits := true :: (wn.bits ++ tow.bits ++ ns.bits) } := by
  obtain ⟨hw, -, -, -, hwl⟩ := h.wn
  obtain ⟨hto, -, -, -, htol⟩ := h.tow
  obtain ⟨hn, -, -, -, hnl⟩ := h.ns
  obtain ⟨wn, a1, -, -, -, -, a2, -⟩ := IntSer.roundtrip hw t.wn.toNat
  obtain ⟨tow, b1, -, -, -, -, b2, -⟩ := IntSer.roundtrip hto t.tow.toNat
  obtain ⟨ns, c1, -, -, -, -, c2, -⟩ := IntSer.roundtrip hn t.ns.toInt
  refine ⟨wn, tow, ns, a1, b1, c1, ?_⟩
  have hlen := h.len
  unfold serialize
  cases hb : s.bits with
  | nil => rw [hb] at hlen; simp at hlen
  | cons x rest =>
    rw [hb] at hlen
    simp only [List.length_cons] at hlen
    simp only [if_pos ht, a1, b1, c1]
    rw [show (true :: rest) = [true] ++ rest from rfl, copyAt_end _ _ _ 1 rfl (by omega)]
    simp only
    rw [copyAt_end ([true] ++ wn.bits) _ tow.bits _ (by simp; omega) (by simp; omega)]
    simp only
    rw [copyAt_end ([true] ++ wn.bits ++ tow.bits) _ ns.bits _ (by simp; omega) (by simp; omega)]
    simp only [Option.some.injEq]
    have : ((rest.drop wn.bits.length).drop tow.bits.length).drop ns.bits.length = [] := by
      apply List.drop_eq_nil_of_le; simp; omega
    rw [this]; simp

end GpsSer

/-- C06: every set GPS time in the documented range survives serialize/deserialize unchanged, whatever the
serializer held before and whatever the destination held before. -/
theorem C06_gps_roundtrip (s : GpsSer) (h : s.Valid) (t dest : GpsTime) (ht : t.isSet = true) (hr : Spec.GpsInRange t) :
    ∃ s', s.serialize t = some s' ∧ s'.Valid ∧ s'.deserialize dest = some t := by
  obtain ⟨wn, tow, ns, a1, b1, c1, hs⟩ := GpsSer.serialize_set s h t ht
  obtain ⟨hw, kw, lw, uw, hwl⟩ := h.wn
  obtain ⟨hto, kt, lt, ut, htol⟩ := h.tow
  obtain ⟨hn, kn, ln, un, hnl⟩ := h.ns
  obtain ⟨r1, r2, r3, r4, r5⟩ := hr
  obtain ⟨wn', a1', va, a2, a3, a4, a5, -⟩ := IntSer.roundtrip hw t.wn.toNat
  obtain ⟨tow', b1', vb, b2, b3, b4, b5, -⟩ := IntSer.roundtrip hto t.tow.toNat
  obtain ⟨ns', c1', vc, c2, c3, c4, c5, -⟩ := IntSer.roundtrip hn t.ns.toInt
  rw [a1] at a1'; rw [b1] at b1'; rw [c1] at c1'
  obtain rfl := Option.some.inj a1'
  obtain rfl := Option.some.inj b1'
  obtain rfl := Option.some.inj c1'
  have dw : wn.deserialize = t.wn.toNat := by
    obtain ⟨x, g1, -, -, -, -, -, g2, -⟩ := C05_roundtrip_partial s.wn hw t.wn.toNat
    rw [a1] at g1; obtain rfl := Option.some.inj g1
    rw [g2 (by rw [lw, uw, hwl]; decide), lw, uw]
    unfold limit; rw [if_neg (by omega), if_neg (by omega)]
  have dt : tow.deserialize = t.tow.toNat := by
    obtain ⟨x, g1, -, -, -, -, -, g2, -⟩ := C05_roundtrip_partial s.tow hto t.tow.toNat
    rw [b1] at g1; obtain rfl := Option.some.inj g1
    rw [g2 (by rw [lt, ut, htol]; decide), lt, ut]
    unfold limit; rw [if_neg (by omega), if_neg (by omega)]
  have dn : ns.deserialize = t.ns.toInt := by
    obtain ⟨x, g1, -, -, -, -, -, g2, -⟩ := C05_roundtrip_partial s.ns hn t.ns.toInt
    rw [c1] at g1; obtain rfl := Option.some.inj g1
    rw [g2 (by rw [ln, un, hnl]; decide), ln, un]
    unfold limit; rw [if_neg (by omega), if_neg (by omega)]
  refine ⟨_, hs, ⟨⟨va, by rw [a4, kw], by rw [a2, lw], by rw [a3, uw], a5.trans hwl⟩,
    ⟨vb, by rw [b4, kt], by rw [b2, lt], by rw [b3, ut], b5.trans htol⟩,
    ⟨vc, by rw [c4, kn], by rw [c2, ln], by rw [c3, un], c5.trans hnl⟩, by simp; omega⟩, ?_⟩
  unfold GpsSer.deserialize
  simp only [if_true]
  rw [if_pos (by simp; omega)]
  have e1 : (wn.bits ++ tow.bits ++ ns.bits).take wn.bits.length = wn.bits := by
    rw [List.append_assoc]; exact List.take_left
  have e2 : ((wn.bits ++ tow.bits ++ ns.bits).drop wn.bits.length).take tow.bits.length = tow.bits := by
    rw [List.append_assoc, List.drop_left]; exact List.take_left
  have e3 : ((wn.bits ++ tow.bits ++ ns.bits).drop (wn.bits.length + tow.bits.length)).take ns.bits.length = ns.bits := by
    rw [List.drop_left' (by simp)]; exact List.take_length
  rw [e1, e2, e3]
  simp only [Option.some.injEq]
  rw [show ({ wn with bits := wn.bits } : IntSer) = wn from rfl, show ({ tow with bits := tow.bits } : IntSer) = tow from rfl,
    show ({ ns with bits := ns.bits } : IntSer) = ns from rfl, dw, dt, dn]
  cases t
  simp_all

/-- C06: an unset time deserializes as unset, whatever was serialized before and whatever the destination
held. -/
theorem C06_gps_unset (s : GpsSer) (h : s.Valid) (t dest : GpsTime) (ht : t.isSet = false) :
    ∃ s' d, s.serialize t = some s' ∧ s'.Valid ∧ s'.deserialize dest = some d ∧ d.isSet = false := by
  have hlen := h.len
  unfold GpsSer.serialize
  cases hb : s.bits with
  | nil => rw [hb] at hlen; simp at hlen
  | cons x rest =>
    refine ⟨{ s with bits := false :: rest }, { dest with isSet := false }, by simp [ht],
      ⟨h.wn, h.tow, h.ns, by rw [hb] at hlen; simpa using hlen⟩, ?_, rfl⟩
    unfold GpsSer.deserialize
    simp

/-- Non-vacuity: a fresh serializer is valid, and a mid-mission time is in range. -/
example : GpsSer.new.Valid ∧ Spec.GpsInRange (GpsTime.mk3 2145 345600000 (-999999)) :=
  ⟨GpsSer.valid_new, by unfold Spec.GpsInRange; decide⟩

/-- A GPS serializer stays usable after any time has been serialized, in range or not. -/
theorem GpsSer.serialize_valid (s : GpsSer) (h : s.Valid) (t : GpsTime) : ∃ s', s.serialize t = some s' ∧ s'.Valid := by
  cases ht : t.isSet with
  | false =>
    obtain ⟨s', -, h1, h2, -⟩ := C06_gps_unset s h t t ht
    exact ⟨s', h1, h2⟩
  | true =>
    obtain ⟨wn, tow, ns, a1, b1, c1, hs⟩ := GpsSer.serialize_set s h t ht
    obtain ⟨hw, kw, lw, uw, hwl⟩ := h.wn
    obtain ⟨hto, kt, lt, ut, htol⟩ := h.tow
    obtain ⟨hn, kn, ln, un, hnl⟩ := h.ns
    obtain ⟨wn', a1', va, a2, a3, a4, a5, -⟩ := IntSer.roundtrip hw t.wn.toNat
    obtain ⟨tow', b1', vb, b2, b3, b4, b5, -⟩ := IntSer.roundtrip hto t.tow.toNat
    obtain ⟨ns', c1', vc, c2, c3, c4, c5, -⟩ := IntSer.roundtrip hn t.ns.toInt
    rw [a1] at a1'; rw [b1] at b1'; rw [c1] at c1'
    obtain rfl := Option.some.inj a1'
    obtain rfl := Option.some.inj b1'
    obtain rfl := Option.some.inj c1'
    exact ⟨_, hs, ⟨va, by rw [a4, kw], by rw [a2, lw], by rw [a3, uw], a5.trans hwl⟩,
      ⟨vb, by rw [b4, kt], by rw [b2, lt], by rw [b3, ut], b5.trans htol⟩,
      ⟨vc, by rw [c4, kn], by rw [c2, ln], by rw [c3, un], c5.trans hnl⟩, by simp; omega⟩

/-- C06: a freshly constructed serializer, after any sequence of serialized times, carries the next time
through serialize/deserialize: a set time in range comes back unchanged, an unset one comes back unset. -/
theorem C06_gps_any_history (ts : List GpsTime) (t dest : GpsTime) :
    ∃ s s', ts.foldlM GpsSer.serialize GpsSer.new = some s ∧ s.serialize t = some s' ∧
      (t.isSet = true → Spec.GpsInRange t → s'.deserialize dest = some t) ∧
      (t.isSet = false → ∃ d, s'.deserialize dest = some d ∧ d.isSet = false) := by
  have hist : ∀ (ts : List GpsTime) (s0 : GpsSer), s0.Valid → ∃ s, ts.foldlM GpsSer.serialize s0 = some s ∧ s.Valid := by
    intro ts
    induction ts with
    | nil => intro s0 h; exact ⟨s0, rfl, h⟩
    | cons t ts ih =>
      intro s0 h
      obtain ⟨s1, h1, h2⟩ := GpsSer.serialize_valid s0 h t
      obtain ⟨s2, h3, h4⟩ := ih s1 h2
      exact ⟨s2, by rw [List.foldlM_cons, h1]; exact h3, h4⟩
  obtain ⟨s, h1, h2⟩ := hist ts GpsSer.new GpsSer.valid_new
  obtain ⟨s', h3, -⟩ := GpsSer.serialize_valid s h2 t
  refine ⟨s, s', h1, h3, fun ht hr => ?_, fun ht => ?_⟩
  · obtain ⟨s'', a, -, b⟩ := C06_gps_roundtrip s h2 t dest ht hr
    rw [h3] at a; obtain rfl := Option.some.inj a; exact b
  · obtain ⟨s'', d, a, -, b, c⟩ := C06_gps_unset s h2 t dest ht
    rw [h3] at a; obtain rfl := Option.some.inj a; exact ⟨d, b, c⟩

theorem IntSer.log2i_spec (n : Nat) : n < 2 ^ IntSer.log2i n := by
  induction n using Nat.strongRecOn with
  | _ n ih =>
    rw [IntSer.log2i]
    split
    · have := ih (n / 2) (by omega)
      rw [Nat.pow_succ]; omega
    · omega

theorem IntSer.log2i_le (n w : Nat) (h : n < 2 ^ w) : IntSer.log2i n ≤ w := by
  induction w generalizing n with
  | zero => rw [IntSer.log2i, dif_neg (by omega)]; omega
  | succ w ih =>
    rw [IntSer.log2i]
    split
    · have := ih (n / 2) (by rw [Nat.pow_succ] at h; omega)
      omega
    · omega

/-- The constructor that takes only a range yields a usable serializer of exactly sufficient width. -/
theorem IntSer.mkRange_valid (k : IntKind) (min max : Int) (hle : min ≤ max) (h1 : k.InRange min) (h2 : k.InRange max) :
    (IntSer.mkRange k min max).Valid ∧
    (max - min).toNat ≤ 2 ^ (IntSer.mkRange k min max).bits.length - 1 := by
  have hr : (max - min).toNat < 2 ^ k.bits := by
    unfold IntKind.InRange at h1 h2
    cases k <;> simp only [IntKind.cast, IntKind.bits] at * <;> omega
  have hmod : ((max - min) % 2 ^ 32).toNat = (max - min).toNat := by
    have := Nat.pow_le_pow_right (n := 2) (by omega) (IntSer.bits_le_32 k)
    omega
  have hlen : (IntSer.mkRange k min max).bits.length = IntSer.log2i (max - min).toNat := by
    simp only [IntSer.mkRange, List.length_replicate, hmod]
  have hs := IntSer.log2i_spec (max - min).toNat
  refine ⟨⟨hle, h1, h2, ?_, ?_, ?_⟩, by rw [hlen]; omega⟩
  · rw [hlen]; exact IntSer.log2i_le _ _ hr
  · rw [hlen]
    by_cases h : (max - min).toNat = 0
    · right; show min = max; omega
    · left; rw [IntSer.log2i, dif_pos (by omega)]; omega
  · intro _
    rw [hlen]
    show stepSize (max - min).toNat _ ≤ 127
    unfold stepSize
    have : (max - min).toNat + (2 ^ IntSer.log2i (max - min).toNat - 1) - 1 < 2 * (2 ^ IntSer.log2i (max - min).toNat - 1) ∨
      2 ^ IntSer.log2i (max - min).toNat - 1 = 0 := by omega
    rcases this with h | h
    · have := Nat.div_lt_of_lt_mul (m := (max - min).toNat + (2 ^ IntSer.log2i (max - min).toNat - 1) - 1) (n := 2 ^ IntSer.log2i (max - min).toNat - 1) (k := 2) (by omega)
      omega
    · rw [h]; simp

/-- C05: a serializer constructed from a range alone (every integer kind, every range) reproduces every value of
the range exactly, and clamps every other value to the nearer end. -/
theorem C05_range_constructor_exact (k : IntKind) (min max : Int) (hle : min ≤ max) (h1 : k.InRange min)
    (h2 : k.InRange max) (x : Int) :
    ∃ s', (IntSer.mkRange k min max).serialize x = some s' ∧ s'.deserialize = limit min max x := by
  obtain ⟨hv, hw⟩ := IntSer.mkRange_valid k min max hle h1 h2
  obtain ⟨s', a, -, -, -, -, -, b, -⟩ := C05_roundtrip_partial _ hv x
  exact ⟨s', a, b hw⟩

/-- Non-vacuity: the week-number and nanosecond ranges. -/
example : IntKind.InRange .uint 2000 ∧ IntKind.InRange .uint 3000 ∧ IntKind.InRange .sint (-1000000) := by decide

/-- The constructor that takes a width yields a usable serializer (for signed characters, provided one step
fits in the type). -/
theorem IntSer.mkSized_valid (k : IntKind) (min max : Int) (size : Nat) (hle : min ≤ max) (h1 : k.InRange min)
    (h2 : k.InRange max) (hs : 1 ≤ size)
    (hstep : k = .schar → stepSize (max - min).toNat (Nat.min size k.bits) ≤ 127) :
    (IntSer.mkSized k min max size).Valid := by
  have hlen : (IntSer.mkSized k min max size).bits.length = Nat.min size k.bits := by
    simp only [IntSer.mkSized, List.length_replicate]
  refine ⟨hle, h1, h2, ?_, ?_, ?_⟩
  · rw [hlen]; exact Nat.min_le_right _ _
  · left; rw [hlen]; cases k <;> exact Nat.le_min.mpr ⟨hs, by decide⟩
  · intro hk; rw [hlen]; exact hstep hk

/-- C05 (partial, for the same reason as above): a serializer constructed with an explicit width loses less than
one step, where the step is the range divided by the number of intervals, rounded up. -/
theorem C05_sized_constructor_partial (k : IntKind) (min max : Int) (size : Nat) (hlt : min < max) (h1 : k.InRange min)
    (h2 : k.InRange max) (hs : 1 ≤ size) (hk : k ≠ .schar) (x : Int) :
    ∃ s', (IntSer.mkSized k min max size).serialize x = some s' ∧ s'.deserialize ≤ limit min max x ∧
      limit min max x - s'.deserialize < stepSize (max - min).toNat (Nat.min size k.bits) ∧ min ≤ s'.deserialize := by
  have hv := IntSer.mkSized_valid k min max size (by omega) h1 h2 hs (fun h => absurd h hk)
  have hlen : (IntSer.mkSized k min max size).bits.length = Nat.min size k.bits := by
    simp only [IntSer.mkSized, List.length_replicate]
  obtain ⟨s', a, -, b, c, -, d, -⟩ := C05_roundtrip_partial _ hv x
  rw [hlen] at d
  exact ⟨s', a, c, d hlt, b⟩

end PAN
