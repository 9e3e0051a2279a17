import Verif.Lemmas.Bits
/-! C01–C03: reading and writing bit streams. -/
namespace PAN
open Spec Bitstream

/-! ### C01 -/

/-- C01: writing `n` bits that fit succeeds, reports `n`, advances the position by `n`, replaces exactly
the `n` bits at the position by the first `n` source bits and leaves every other bit as it was. -/
theorem C01_write_exact (s : Bitstream) (n : Nat) (src : List U8) (hw : WellFormed s)
    (hfit : n ≤ (remaining s).length) (hs : n ≤ (bitsOf src).length) :
    ∃ s', s.editN n src = some (n, s') ∧ WellFormed s' ∧ pos s' = pos s + n ∧
      s'.bytes.length = s.bytes.length ∧
      bitsOf s'.bytes =
        (bitsOf s.bytes).take (pos s) ++ (bitsOf src).take n ++ (bitsOf s.bytes).drop (pos s + n) := by
  unfold remaining at hfit
  rw [List.length_drop, bitsOf_length] at hfit
  rw [bitsOf_length] at hs
  exact editN_bits s n src hw (by have := hw.2; omega) hs

/-- C01: write `n` bits, seek back by `n`, read `n` bits: the bits read are the bits written. -/
theorem C01_write_then_read (s : Bitstream) (n : Nat) (src : List U8) (hw : WellFormed s)
    (hfit : n ≤ (remaining s).length) (hs : n ≤ (bitsOf src).length) :
    ∃ s' s'' out, s.editN n src = some (n, s') ∧ s'.seekG n false = (n, s'') ∧
      s''.nextN n = some (n, out, s') ∧ (bitsOf out).take n = (bitsOf src).take n := by
  obtain ⟨s', h1, h2, h3, h4, h5⟩ := C01_write_exact s n src hw hfit hs
  have hb := seekG_back s' n h2.2 (by omega)
  have hw'' : WellFormed (s'.at' (pos s' - n)) := wf_at _ _ (by have := h2.2; omega)
  obtain ⟨out, h6, h7, h8⟩ := nextN_spec _ n hw''
  simp only [pos_at, bytes_at, at_at] at h6 h8
  have hl := h2.2
  have e1 : min n (8 * s'.bytes.length - (pos s' - n)) = n := by omega
  have e2 : pos s' - n + n = pos s' := by omega
  rw [e1, e2, at_pos _ h2.1] at h6
  refine ⟨s', _, out, h1, hb, h6, ?_⟩
  obtain ⟨-, -, -, h9⟩ := nextN_bits _ n hw'' h6
  have hsl := hs
  have e3 : pos s' - n = pos s := by omega
  have hlp : ((bitsOf s.bytes).take (pos s)).length = pos s := by
    rw [List.length_take, bitsOf_length]; have := hw.2; omega
  have hr : remaining (s'.at' (pos s' - n)) = (bitsOf src).take n ++ (bitsOf s.bytes).drop (pos s + n) := by
    unfold remaining
    rw [pos_at, bytes_at, h5, e3, List.append_assoc, List.drop_left' hlp]
  rw [h9, hr]
  have ht : ((bitsOf src).take n).length = n := by rw [List.length_take]; omega
  rw [List.take_left' ht, List.take_left' ht]

/-- Write a list of values `(n, source)` one after the other; `none` if any write fails. -/
def writeAll : Bitstream → List (Nat × List U8) → Option Bitstream
  | s, [] => some s
  | s, (n, src) :: rest =>
    match s.editN n src with
    | none => none
    | some (_, s') => writeAll s' rest

/-- C01: any sequence of writes that fits lays the written bits out one after the other, starting at the
current position, and changes nothing else. -/
theorem C01_write_sequence (ws : List (Nat × List U8)) : ∀ (s : Bitstream), WellFormed s →
    (∀ w ∈ ws, w.1 ≤ (bitsOf w.2).length) → (ws.map Prod.fst).sum ≤ (remaining s).length →
    ∃ s', writeAll s ws = some s' ∧ WellFormed s' ∧ pos s' = pos s + (ws.map Prod.fst).sum ∧
      bitsOf s'.bytes = (bitsOf s.bytes).take (pos s) ++ ws.flatMap (fun w => (bitsOf w.2).take w.1)
        ++ (bitsOf s.bytes).drop (pos s + (ws.map Prod.fst).sum) := by
  induction ws with
  | nil => intro s hw _ _; exact ⟨s, rfl, hw, rfl, by simp⟩
  | cons w ws ih =>
    intro s hw hsrc hfit
    obtain ⟨n, src⟩ := w
    simp only [List.map_cons, List.sum_cons] at hfit ⊢
    obtain ⟨s1, h1, h2, h3, h4, h5⟩ := C01_write_exact s n src hw (by omega) (hsrc (n, src) (by simp))
    have hr : (remaining s).length = 8 * s.bytes.length - pos s := by
      unfold remaining; rw [List.length_drop, bitsOf_length]
    have hr1 : (remaining s1).length = 8 * s1.bytes.length - pos s1 := by
      unfold remaining; rw [List.length_drop, bitsOf_length]
    obtain ⟨s2, g1, g2, g3, g4⟩ := ih s1 h2 (fun w hw => hsrc w (by simp [hw])) (by omega)
    refine ⟨s2, ?_, g2, by omega, ?_⟩
    · unfold writeAll; rw [h1]; exact g1
    · rw [g4, h5, h3]
      have hlp : ((bitsOf s.bytes).take (pos s)).length = pos s := by
        rw [List.length_take, bitsOf_length]; have := hw.2; omega
      have hsl := hsrc (n, src) (by simp)
      simp only at hsl
      have ht : ((bitsOf src).take n).length = n := by rw [List.length_take]; omega
      have hl2 : ((bitsOf s.bytes).take (pos s) ++ (bitsOf src).take n).length = pos s + n := by
        rw [List.length_append, hlp, ht]
      rw [List.take_left' hl2, ← List.drop_drop (i := (ws.map Prod.fst).sum) (j := pos s + n), List.drop_left' hl2,
        List.drop_drop]
      simp [List.append_assoc, Nat.add_assoc]

/-- Non-vacuity: a 10-bit write at bit position 5 of a three-byte buffer, straddling all three bytes. -/
example : WellFormed ⟨[0xff, 0, 0xff], 0, 5⟩ ∧ 10 ≤ (remaining ⟨[0xff, 0, 0xff], 0, 5⟩).length ∧
    (Bitstream.editN ⟨[0xff, 0, 0xff], 0, 5⟩ 10 [0x55, 0x02]) = some (10, ⟨[0xbf, 0x4a, 0xff], 1, 7⟩) := by decide

/-! ### C02 -/

/-- C02: reading `n` bits returns the next `min n remaining` bits in order, zero-fills the rest of the
destination, advances by the number of bits read, and never leaves the buffer (it is never `none`). -/
theorem C02_read_sequential (s : Bitstream) (n : Nat) (hw : WellFormed s) :
    ∃ c out s', s.nextN n = some (c, out, s') ∧ c = min n (remaining s).length ∧
      out.length = (n + 7) / 8 ∧
      bitsOf out = (remaining s).take n ++ List.replicate (8 * out.length - c) false ∧
      s'.bytes = s.bytes ∧ WellFormed s' ∧ pos s' = pos s + c ∧ remaining s' = (remaining s).drop c := by
  obtain ⟨out, h1, h2, -⟩ := nextN_spec s n hw
  obtain ⟨g1, g2, g3, g4⟩ := nextN_bits s n hw h1
  refine ⟨_, out, _, h1, g1, h2, by rw [h2]; exact g4, rfl, wf_at _ _ (by have := hw.2; omega), pos_at _ _, ?_⟩
  unfold remaining
  rw [pos_at, bytes_at, List.drop_drop]

/-- C02: peeking returns what reading would and leaves the stream exactly as it was. -/
theorem C02_peek (s : Bitstream) (n : Nat) (hw : WellFormed s) :
    ∃ c out s', s.nextN n = some (c, out, s') ∧ s.peekN n = some (c, out, s) := by
  obtain ⟨out, h1, h2, -⟩ := nextN_spec s n hw
  refine ⟨_, out, _, h1, ?_⟩
  unfold peekN
  rw [h1]
  simp only
  rw [seekG_back _ _ (by simp; have := hw.2; omega) (by simp)]
  simp only [pos_at]
  have : pos s + min n (8 * s.bytes.length - pos s) - min n (8 * s.bytes.length - pos s) = pos s := by omega
  rw [this]
  have := at_pos s hw.1
  simp only [at'] at this ⊢
  rw [this]

/-- C02: a seek is carried out exactly when the target is inside the buffer (end included); a refused seek
reports 0 and leaves the position unchanged. -/
theorem C02_seek (s : Bitstream) (amt : Nat) (hw : WellFormed s) :
    (amt ≤ (remaining s).length → ∃ s', s.seekG amt true = (amt, s') ∧ pos s' = pos s + amt ∧ s'.bytes = s.bytes ∧ WellFormed s') ∧
    ((remaining s).length < amt → s.seekG amt true = (0, s)) ∧
    (amt ≤ pos s → ∃ s', s.seekG amt false = (amt, s') ∧ pos s' = pos s - amt ∧ s'.bytes = s.bytes ∧ WellFormed s') ∧
    (pos s < amt → s.seekG amt false = (0, s)) := by
  have hr : (remaining s).length = 8 * s.bytes.length - pos s := by
    unfold remaining; rw [List.length_drop, bitsOf_length]
  have hw2 := hw.2
  refine ⟨fun h => ?_, fun h => seekG_fwd_refuse _ _ (by omega), fun h => ?_, fun h => ?_⟩
  · exact ⟨_, seekG_fwd _ _ (by omega), pos_at s _, rfl, wf_at s _ (by omega)⟩
  · exact ⟨_, seekG_back _ _ hw.2 h, pos_at s _, rfl, wf_at s _ (by omega)⟩
  · unfold pos at h
    simp only [seekG, maxLen, Bool.false_eq_true, if_false]
    rw [if_pos (by omega)]

theorem nextBitsLoop_spec (k : Nat) : ∀ (s : Bitstream) (u : U8), WellFormed s → (∀ i, 1 ≤ i → i < 8 → u.getLsbD i = false) →
    s.nextBitsLoop k u = some ((remaining s).take k, s.at' (pos s + min k (remaining s).length)) := by
  induction k with
  | zero => intro s u hw _; simp [nextBitsLoop, at_pos s hw.1]
  | succ k ih =>
    intro s u hw hu
    have hr : (remaining s).length = 8 * s.bytes.length - pos s := by
      unfold remaining; rw [List.length_drop, bitsOf_length]
    unfold nextBitsLoop
    by_cases hh : s.hasNext = true
    · rw [if_pos hh]
      have hl := (hasNext_iff s hw.1).mp hh
      obtain ⟨b, h1, h2⟩ := next_spec s 1 u hw.1 (by omega) hl
      have e : min 1 (8 * s.bytes.length - pos s) = 1 := by omega
      rw [e] at h1 h2
      rw [h1]
      simp only [ne_eq, Nat.one_ne_zero, not_false_eq_true, if_true]
      have hb : ∀ i, 1 ≤ i → i < 8 → b.getLsbD i = false := by
        intro i h3 h4; rw [h2 i h4, if_neg (by omega), hu i h3 h4]
      rw [ih _ _ (wf_at _ _ (by omega)) hb]
      have hb0 : (b != 0) = bitAt s.bytes (pos s) := by
        have h0 := h2 0 (by omega)
        rw [if_pos (by omega)] at h0
        rw [Nat.add_zero] at h0
        rw [← h0]
        by_cases hz : b.getLsbD 0 = true
        · rw [hz]
          have : b ≠ 0 := by intro h; rw [h] at hz; simp at hz
          simpa using this
        · have hz' : b.getLsbD 0 = false := by simpa using hz
          rw [hz']
          have : b = 0 := by
            apply u8_ext
            intro i hi
            by_cases h : i = 0
            · subst h; rw [hz']; simp
            · rw [hb i (by omega) hi]; simp
          simp [this]
      have hr2 : remaining (s.at' (pos s + 1)) = (remaining s).drop 1 := by
        unfold remaining; rw [pos_at, bytes_at, List.drop_drop]
      have hcons : remaining s = bitAt s.bytes (pos s) :: remaining (s.at' (pos s + 1)) := by
        unfold remaining
        rw [pos_at, bytes_at, List.drop_eq_getElem_cons (by rw [bitsOf_length]; exact hl), bitsOf_getElem]
      simp only [pos_at, at_at]
      rw [hcons, List.take_succ_cons, hb0, List.length_cons]
      congr 3
      omega
    · rw [if_neg hh]
      have hl : ¬ pos s < 8 * s.bytes.length := fun h => hh ((hasNext_iff s hw.1).mpr h)
      have hz : remaining s = [] := List.eq_nil_of_length_eq_zero (by omega)
      rw [hz]; simp [at_pos s hw.1]

/-- C02: the bit-array version of read delivers the same bits and moves the same distance; it is refused
(nothing read, destination untouched) when the destination is too short. -/
theorem C02_read_bit_array (s : Bitstream) (n size : Nat) (old : List Bool) (hw : WellFormed s) :
    (size < n → s.nextNBits n size old = some (0, old, s)) ∧
    (n ≤ size → ∃ s', s.nextNBits n size old = some (min n (remaining s).length,
        (remaining s).take n ++ List.replicate (size - min n (remaining s).length) false, s') ∧
      s'.bytes = s.bytes ∧ WellFormed s' ∧ pos s' = pos s + min n (remaining s).length) := by
  have hr : (remaining s).length = 8 * s.bytes.length - pos s := by
    unfold remaining; rw [List.length_drop, bitsOf_length]
  constructor
  · intro h; unfold nextNBits; rw [if_pos h]
  · intro h
    unfold nextNBits
    rw [if_neg (by omega), nextBitsLoop_spec n s 0 hw (by intro i _ _; simp)]
    refine ⟨_, ?_, ?_, wf_at s (pos s + min n (remaining s).length) (by have := hw.2; omega), pos_at _ _⟩
    · simp only [List.length_take]
    · rfl

/-- Non-vacuity: a request longer than what is left (11 bits left, 16 requested). -/
example : WellFormed ⟨[0x0f, 0xf1, 0xab], 1, 5⟩ ∧
    Bitstream.nextN ⟨[0x0f, 0xf1, 0xab], 1, 5⟩ 16 = some (11, [0x5f, 0x05], ⟨[0x0f, 0xf1, 0xab], 3, 0⟩) ∧
    Bitstream.nextN ⟨[0x0f, 0xf1, 0xab], 3, 0⟩ 16 = some (0, [0, 0], ⟨[0x0f, 0xf1, 0xab], 3, 0⟩) := by decide

/-! ### C03 -/

/-- C03 does not hold: a stream at its end writes one byte past the buffer. -/
theorem C03_counterexample_write_past_end :
    ∃ (s : Bitstream) (n : Nat) (src : List U8), WellFormed s ∧ n ≤ (bitsOf src).length ∧ s.editN n src = none :=
  ⟨⟨[0], 1, 0⟩, 1, [1], by decide⟩

/-- C03 does not hold: a write that starts inside the buffer and runs past its end leaves it. -/
theorem C03_counterexample_write_across_end :
    ∃ (s : Bitstream) (n : Nat) (src : List U8), WellFormed s ∧ pos s < 8 * s.bytes.length ∧
      n ≤ (bitsOf src).length ∧ s.editN n src = none :=
  ⟨⟨[0, 0], 1, 4⟩, 16, [1, 1], by decide⟩

/-- C03 (partial): exactly when a write of `n` bits stays inside the buffer. The full claim would be that
the right-hand side is always true. The first alternative is the ordinary one; the second is the bound
check of `editN`, which only fires when `n` is larger than the whole buffer plus the byte offset and then
still leaves the buffer unless `n` is a multiple of 8. -/
theorem C03_write_in_bounds_iff_partial (s : Bitstream) (n : Nat) (src : List U8) (hw : WellFormed s)
    (hs : n ≤ (bitsOf src).length) :
    s.editN n src ≠ none ↔
      (n / 8 ≤ s.byteOff + s.bytes.length ∧ (n = 0 ∨ pos s + 8 * ((n - 1) / 8) < 8 * s.bytes.length)) ∨
      (n / 8 > s.byteOff + s.bytes.length ∧ n % 8 = 0) := by
  rw [bitsOf_length] at hs
  by_cases hi : n / 8 > s.byteOff + s.maxLen
  · have hi' : n / 8 > s.byteOff + s.bytes.length := hi
    have hp : pos s = 8 * s.byteOff + s.bitOff := rfl
    have hb := hw.1
    have hw2 := hw.2
    have : s.editN n src ≠ none ↔ n % 8 = 0 := by
      unfold editN
      simp only [if_pos hi]
      obtain ⟨by1, h1, h2, h3⟩ := editLoop_spec (s.maxLen - s.byteOff) s 0 src hw
        (by unfold maxLen; omega) (by unfold maxLen; omega)
      rw [h1]
      simp only
      by_cases hm : n % 8 ≠ 0
      · rw [if_pos hm]
        constructor
        · intro h; exfalso; apply h
          cases hd : src.drop (s.maxLen - s.byteOff) with
          | nil => rfl
          | cons b t =>
            simp only
            rw [edit_oob _ _ _ (bitOff_at _ _) (by simp [h2]; unfold maxLen; omega)]
        · intro h; exact absurd h hm
      · rw [if_neg hm]
        constructor
        · intro _; simpa using hm
        · intro _ h; exact absurd h (by simp)
    rw [this]
    constructor
    · intro h; exact Or.inr ⟨hi', h⟩
    · rintro (h | h)
      · omega
      · exact h.2
  · have hi' : ¬ n / 8 > s.byteOff + s.bytes.length := hi
    constructor
    · intro h
      left
      refine ⟨by omega, ?_⟩
      by_cases hn : n = 0
      · exact Or.inl hn
      · right
        by_cases hl : pos s + 8 * ((n - 1) / 8) < 8 * s.bytes.length
        · exact hl
        · exact absurd (editN_oob s n src hw hi hn (by omega)) h
    · rintro (h | h)
      · obtain ⟨b, h1, -⟩ := editN_spec' s n src hw hi h.2 (by omega)
        rw [h1]; simp
      · omega

/-- C03 (partial): a write of at most the remaining number of bits never leaves the buffer, and when a
write that overflows by less than one byte is in bounds the excess bits are dropped and not counted. -/
theorem C03_excess_dropped_partial (s : Bitstream) (n : Nat) (src : List U8) (hw : WellFormed s)
    (hs : n ≤ (bitsOf src).length)
    (hsafe : n = 0 ∨ (pos s + 8 * ((n - 1) / 8) < 8 * s.bytes.length)) :
    ∃ s', s.editN n src = some (min n (remaining s).length, s') ∧ s'.bytes.length = s.bytes.length ∧
      (bitsOf s'.bytes).take (pos s) = (bitsOf s.bytes).take (pos s) ∧
      pos s' = pos s + min n (remaining s).length := by
  have hr : (remaining s).length = 8 * s.bytes.length - pos s := by
    unfold remaining; rw [List.length_drop, bitsOf_length]
  rw [bitsOf_length] at hs
  have hw2 := hw.2
  obtain ⟨b, h1, h2, h3⟩ := editN_spec' s n src hw (by unfold maxLen; omega) hsafe (by omega)
  rw [hr]
  refine ⟨_, h1, h2, ?_, pos_at _ _⟩
  apply List.ext_getElem
  · simp [bitsOf_length, h2]
  · intro i hi1 hi2
    rw [List.getElem_take, List.getElem_take, bitsOf_getElem, bitsOf_getElem]
    rw [List.length_take] at hi1
    simp only [bytes_at]
    rw [h3, if_neg (by omega)]

/-- Non-vacuity: a 6-bit write with 4 bits left stays in the buffer and drops two bits. -/
example : WellFormed ⟨[0, 0], 1, 4⟩ ∧ Bitstream.editN ⟨[0, 0], 1, 4⟩ 6 [0x3f] = some (4, ⟨[0, 0xf0], 2, 0⟩) := by decide

end PAN
