import Verif.Spec.Bits
/-! Lemmas about bits of bytes and bit streams. -/
namespace PAN
open Spec

theorem getLsbD_modifyBit (n : U8) (p : Nat) (b : Bool) (i : Nat) (hp : p < 8) (hi : i < 8) :
    (modifyBit n p b).getLsbD i = if i = p then b else n.getLsbD i := by
  unfold modifyBit
  rcases Nat.lt_trichotomy i p with h | h | h
  · cases b <;> simp [hi, h, Nat.ne_of_lt h]
  · subst h
    cases b <;> simp [hi]
  · have : i - p ≠ 0 := by omega
    cases b <;> simp [hi, this, Nat.ne_of_gt h, Nat.not_lt.mpr (Nat.le_of_lt h)]

theorem getLsbD_copyBits (k : Nat) : ∀ (src dst : U8) (p i : Nat), p + k ≤ 8 → i < 8 →
    (copyBits src dst p k).getLsbD i = if p ≤ i ∧ i < p + k then src.getLsbD (i - p) else dst.getLsbD i := by
  induction k with
  | zero => intro src dst p i _ _; simp [copyBits]; omega
  | succ k ih =>
    intro src dst p i hk hi
    rw [copyBits, ih _ _ _ _ (by omega) hi, getLsbD_modifyBit _ _ _ _ (by omega) hi]
    by_cases h1 : i = p
    · subst h1; rw [if_neg (by omega), if_pos rfl, if_pos (by omega)]; simp
    · by_cases h2 : p + 1 ≤ i ∧ i < p + 1 + k
      · rw [if_pos h2, if_pos (by omega)]
        simp [BitVec.getLsbD_ushiftRight]
        congr 1; omega
      · rw [if_neg h2, if_neg h1, if_neg (by omega)]

/-! ### bits of a byte list -/

theorem byteBits_length (b : U8) : (byteBits b).length = 8 := rfl

theorem byteBits_get (b : U8) (i : Nat) (h : i < 8) : (byteBits b)[i]? = some (b.getLsbD i) := by
  match i, h with
  | 0, _ | 1, _ | 2, _ | 3, _ | 4, _ | 5, _ | 6, _ | 7, _ => rfl

theorem bitsOf_nil : bitsOf [] = [] := rfl
theorem bitsOf_cons (b : U8) (bs : List U8) : bitsOf (b :: bs) = byteBits b ++ bitsOf bs := rfl
theorem bitsOf_append (a b : List U8) : bitsOf (a ++ b) = bitsOf a ++ bitsOf b := by
  simp [bitsOf]

theorem bitsOf_length (bs : List U8) : (bitsOf bs).length = 8 * bs.length := by
  induction bs with
  | nil => rfl
  | cons b bs ih => rw [bitsOf_cons, List.length_append, ih, byteBits_length, List.length_cons]; omega

theorem bitsOf_get (bs : List U8) : ∀ i, (bitsOf bs)[i]? = bs[i / 8]?.map (fun b => b.getLsbD (i % 8)) := by
  induction bs with
  | nil => intro i; simp [bitsOf]
  | cons b bs ih =>
    intro i
    rw [bitsOf_cons]
    by_cases h : i < 8
    · rw [List.getElem?_append_left (by rw [byteBits_length]; exact h), byteBits_get _ _ h]
      have : i / 8 = 0 := by omega
      rw [this, Nat.mod_eq_of_lt h]; rfl
    · rw [List.getElem?_append_right (by rw [byteBits_length]; omega), byteBits_length, ih]
      have : i / 8 = (i - 8) / 8 + 1 := by omega
      rw [this, List.getElem?_cons_succ]
      congr 2; funext b; congr 1; omega

/-- Bit `i` of a byte list, `false` outside. -/
def bitAt (bs : List U8) (i : Nat) : Bool := (bitsOf bs)[i]?.getD false

theorem bitAt_eq (bs : List U8) (i : Nat) : bitAt bs i = ((bs[i / 8]?).getD 0).getLsbD (i % 8) := by
  unfold bitAt
  rw [bitsOf_get]
  cases bs[i / 8]? <;> simp

theorem u8_ext {a b : U8} (h : ∀ i, i < 8 → a.getLsbD i = b.getLsbD i) : a = b :=
  BitVec.eq_of_getLsbD_eq fun i hi => h i hi

theorem bytes_ext {a b : List U8} (hl : a.length = b.length)
    (h : ∀ i, i < 8 * a.length → bitAt a i = bitAt b i) : a = b := by
  apply List.ext_getElem hl
  intro i h1 h2
  apply u8_ext
  intro j hj
  have := h (8 * i + j) (by omega)
  rw [bitAt_eq, bitAt_eq] at this
  have e1 : (8 * i + j) / 8 = i := by omega
  have e2 : (8 * i + j) % 8 = j := by omega
  rw [e1, e2, List.getElem?_eq_getElem h1, List.getElem?_eq_getElem h2] at this
  simpa using this

theorem bitsOf_getElem (bs : List U8) (i : Nat) (h : i < (bitsOf bs).length) : (bitsOf bs)[i] = bitAt bs i := by
  unfold bitAt; rw [List.getElem?_eq_getElem h]; rfl

theorem bitsOf_inj {a b : List U8} (h : bitsOf a = bitsOf b) : a = b := by
  apply bytes_ext
  · have := congrArg List.length h
    rw [bitsOf_length, bitsOf_length] at this; omega
  · intro i _; unfold bitAt; rw [h]

namespace Bitstream

theorem seekG_fwd (s : Bitstream) (amt : Nat) (h : pos s + amt ≤ 8 * s.bytes.length) :
    s.seekG amt true = (amt, { s with byteOff := (pos s + amt) / 8, bitOff := (pos s + amt) % 8 }) := by
  unfold pos at h
  simp only [seekG, maxLen, if_true]
  rw [if_neg (by omega)]
  have : (8 * (s.byteOff : Int) + s.bitOff + amt).toNat = pos s + amt := by unfold pos; omega
  rw [this]

theorem seekG_fwd_refuse (s : Bitstream) (amt : Nat) (h : ¬ pos s + amt ≤ 8 * s.bytes.length) :
    s.seekG amt true = (0, s) := by
  unfold pos at h
  simp only [seekG, maxLen, if_true]
  rw [if_pos (by omega)]

theorem seekG_back (s : Bitstream) (amt : Nat) (hw : pos s ≤ 8 * s.bytes.length) (h : amt ≤ pos s) :
    s.seekG amt false = (amt, { s with byteOff := (pos s - amt) / 8, bitOff := (pos s - amt) % 8 }) := by
  unfold pos at h hw
  simp only [seekG, maxLen, Bool.false_eq_true, if_false]
  rw [if_neg (by omega)]
  have : (8 * (s.byteOff : Int) + s.bitOff - amt).toNat = pos s - amt := by unfold pos; omega
  rw [this]

/-- The stream after moving to absolute position `p`. -/
def at' (s : Bitstream) (p : Nat) : Bitstream := { s with byteOff := p / 8, bitOff := p % 8 }

theorem at_pos (s : Bitstream) (h : s.bitOff < 8) : s.at' (pos s) = s := by
  unfold at' pos
  cases s with | mk b y i =>
  simp at h ⊢; omega

@[simp] theorem pos_at (s : Bitstream) (p : Nat) : pos (s.at' p) = p := by
  unfold at' pos; simp; omega

@[simp] theorem bytes_at (s : Bitstream) (p : Nat) : (s.at' p).bytes = s.bytes := rfl
@[simp] theorem at_at (s : Bitstream) (p q : Nat) : (s.at' p).at' q = s.at' q := rfl
theorem bitOff_at (s : Bitstream) (p : Nat) : (s.at' p).bitOff < 8 := Nat.mod_lt _ (by decide)

theorem wf_at (s : Bitstream) (p : Nat) (h : p ≤ 8 * s.bytes.length) : WellFormed (s.at' p) :=
  ⟨bitOff_at s p, by rw [pos_at]; exact h⟩

theorem hasNext_iff (s : Bitstream) (h : s.bitOff < 8) : s.hasNext = true ↔ pos s < 8 * s.bytes.length := by
  unfold hasNext maxLen pos; simp; omega

/-- `next` reads `min n (bits left)` bits. -/
theorem next_spec (s : Bitstream) (n : Nat) (u : U8) (hb : s.bitOff < 8) (hn : n ≤ 8)
    (hl : pos s < 8 * s.bytes.length) :
    ∃ b, s.next n u = some (min n (8 * s.bytes.length - pos s), b,
        s.at' (pos s + min n (8 * s.bytes.length - pos s))) ∧
      ∀ i, i < 8 → b.getLsbD i = if i < min n (8 * s.bytes.length - pos s) then bitAt s.bytes (pos s + i) else u.getLsbD i := by
  have hp : pos s = 8 * s.byteOff + s.bitOff := rfl
  have hlt : s.byteOff < s.bytes.length := by omega
  unfold next
  rw [if_neg (by omega), List.getElem?_eq_getElem hlt]
  simp only
  have hml : s.maxLen = s.bytes.length := rfl
  by_cases hc : s.byteOff + 1 < s.maxLen ∧ min (8 - s.bitOff) n < n
  · rw [if_pos hc]
    rw [hml] at hc
    rw [ List.getElem?_eq_getElem hc.1]
    have e : min (8 - s.bitOff) n + min s.bitOff (n - min (8 - s.bitOff) n) = min n (8 * s.bytes.length - pos s) := by
      omega
    simp only [e]
    rw [seekG_fwd _ _ (by omega)]
    refine ⟨_, rfl, ?_⟩
    · intro i hi
      rw [getLsbD_copyBits _ _ _ _ _ (by omega) hi, getLsbD_copyBits _ _ _ _ _ (by omega) hi, bitAt_eq]
      by_cases h1 : i < 8 - s.bitOff
      · rw [if_neg (by omega), if_pos (by omega), if_pos (by omega)]
        have e1 : (pos s + i) / 8 = s.byteOff := by omega
        have e2 : (pos s + i) % 8 = s.bitOff + i := by omega
        rw [e1, e2, List.getElem?_eq_getElem hlt]
        simp [BitVec.getLsbD_ushiftRight]
      · by_cases h2 : i < min n (8 * s.bytes.length - pos s)
        · rw [if_pos (by omega), if_pos h2]
          have e1 : (pos s + i) / 8 = s.byteOff + 1 := by omega
          have e2 : (pos s + i) % 8 = i - min (8 - s.bitOff) n := by omega
          rw [e1, e2, List.getElem?_eq_getElem hc.1]
          rfl
        · rw [if_neg (by omega), if_neg (by omega), if_neg h2]
  · rw [if_neg hc]
    have e : min (8 - s.bitOff) n = min n (8 * s.bytes.length - pos s) := by omega
    simp only [e]
    rw [seekG_fwd _ _ (by omega)]
    refine ⟨_, rfl, ?_⟩
    · intro i hi
      rw [getLsbD_copyBits _ _ _ _ _ (by omega) hi, bitAt_eq]
      by_cases h2 : i < min n (8 * s.bytes.length - pos s)
      · rw [if_pos (by omega), if_pos h2]
        have e1 : (pos s + i) / 8 = s.byteOff := by omega
        have e2 : (pos s + i) % 8 = s.bitOff + i := by omega
        rw [e1, e2, List.getElem?_eq_getElem hlt]
        simp [BitVec.getLsbD_ushiftRight]
      · rw [if_neg (by omega), if_neg h2]

theorem bitAt_cons (b : U8) (bs : List U8) (i : Nat) :
    bitAt (b :: bs) i = if i < 8 then b.getLsbD i else bitAt bs (i - 8) := by
  unfold bitAt
  rw [bitsOf_cons]
  split
  · rename_i h
    rw [List.getElem?_append_left (by rw [byteBits_length]; exact h), byteBits_get _ _ h]; rfl
  · rename_i h
    rw [List.getElem?_append_right (by rw [byteBits_length]; omega), byteBits_length]

theorem bitAt_append (a b : List U8) (i : Nat) :
    bitAt (a ++ b) i = if i < 8 * a.length then bitAt a i else bitAt b (i - 8 * a.length) := by
  unfold bitAt
  rw [bitsOf_append]
  split
  · rename_i h
    rw [List.getElem?_append_left (by rw [bitsOf_length]; exact h)]
  · rename_i h
    rw [List.getElem?_append_right (by rw [bitsOf_length]; omega), bitsOf_length]

theorem bitAt_replicate_zero (k i : Nat) : bitAt (List.replicate k 0) i = false := by
  rw [bitAt_eq, List.getElem?_replicate]
  split <;> simp

theorem bitAt_oob (bs : List U8) (i : Nat) (h : 8 * bs.length ≤ i) : bitAt bs i = false := by
  unfold bitAt
  rw [List.getElem?_eq_none (by rw [bitsOf_length]; exact h)]; rfl

theorem nextLoop_spec (k : Nat) : ∀ (s : Bitstream) (w : Nat), WellFormed s →
    ∃ bs, s.nextLoop w k = some (w + min (8 * k) (8 * s.bytes.length - pos s), bs,
        s.at' (pos s + min (8 * k) (8 * s.bytes.length - pos s))) ∧ bs.length = k ∧
      ∀ i, bitAt bs i = if i < min (8 * k) (8 * s.bytes.length - pos s) then bitAt s.bytes (pos s + i) else false := by
  induction k with
  | zero =>
    intro s w hw
    refine ⟨[], ?_, rfl, ?_⟩
    · simp [nextLoop, at_pos s hw.1]
    · intro i; simp [bitAt, bitsOf]
  | succ k ih =>
    intro s w hw
    unfold nextLoop
    by_cases hh : s.hasNext = true
    · rw [if_pos hh]
      have hl := (hasNext_iff s hw.1).mp hh
      obtain ⟨b, h1, h2⟩ := next_spec s 8 0 hw.1 (by omega) hl
      rw [h1]
      have hp : pos s + min 8 (8 * s.bytes.length - pos s) ≤ 8 * s.bytes.length := by omega
      obtain ⟨bs, h3, h4, h5⟩ := ih (s.at' (pos s + min 8 (8 * s.bytes.length - pos s))) (w + min 8 (8 * s.bytes.length - pos s)) (wf_at _ _ hp)
      simp only [h3]
      refine ⟨b :: bs, ?_, by simp [h4], ?_⟩
      · simp only [pos_at, bytes_at, at_at, Option.some.injEq, Prod.mk.injEq, true_and]
        constructor
        · omega
        · congr 1; omega
      · intro i
        rw [bitAt_cons, h5]
        simp only [pos_at, bytes_at]
        by_cases hi : i < 8
        · rw [if_pos hi, h2 i hi]
          by_cases hi2 : i < min 8 (8 * s.bytes.length - pos s)
          · rw [if_pos hi2, if_pos (by omega)]
          · rw [if_neg hi2, if_neg (by omega)]; simp
        · rw [if_neg hi]
          by_cases hi2 : i < min (8 * (k + 1)) (8 * s.bytes.length - pos s)
          · rw [if_pos (by omega), if_pos hi2]; congr 1; omega
          · rw [if_neg (by omega), if_neg hi2]
    · rw [if_neg hh]
      have hl : ¬ pos s < 8 * s.bytes.length := fun h => hh ((hasNext_iff s hw.1).mpr h)
      refine ⟨List.replicate (k + 1) 0, ?_, by simp, ?_⟩
      · have : min (8 * (k + 1)) (8 * s.bytes.length - pos s) = 0 := by omega
        rw [this]; simp [at_pos s hw.1]
      · intro i; rw [bitAt_replicate_zero, if_neg (by omega)]

/-- `nextN` reads `min n (bits left)` bits, stores them in order and zero-fills the rest. -/
theorem nextN_spec (s : Bitstream) (n : Nat) (hw : WellFormed s) :
    ∃ bs, s.nextN n = some (min n (8 * s.bytes.length - pos s), bs,
        s.at' (pos s + min n (8 * s.bytes.length - pos s))) ∧ bs.length = (n + 7) / 8 ∧
      ∀ i, bitAt bs i = if i < min n (8 * s.bytes.length - pos s) then bitAt s.bytes (pos s + i) else false := by
  obtain ⟨bs, h1, h2, h3⟩ := nextLoop_spec (n / 8) s 0 hw
  unfold nextN
  rw [h1]
  simp only
  by_cases hm : n % 8 ≠ 0
  · rw [if_pos hm]
    have hp : pos s + min (8 * (n / 8)) (8 * s.bytes.length - pos s) ≤ 8 * s.bytes.length := by
      have := hw.2; omega
    have hw' := wf_at s _ hp
    by_cases hh : (s.at' (pos s + min (8 * (n / 8)) (8 * s.bytes.length - pos s))).hasNext = true
    · rw [if_pos hh]
      have hl := (hasNext_iff _ hw'.1).mp hh
      obtain ⟨b, h4, h5⟩ := next_spec _ (n % 8) 0 hw'.1 (by omega) hl
      rw [h4]
      simp only [pos_at, bytes_at, at_at] at *
      refine ⟨bs ++ [b], ?_, by simp [h2]; omega, ?_⟩
      · simp only [Option.some.injEq, Prod.mk.injEq, true_and]
        constructor
        · omega
        · congr 1; omega
      · intro i
        rw [bitAt_append, h2]
        by_cases hi : i < 8 * (n / 8)
        · rw [if_pos hi, h3]
          by_cases hi2 : i < min n (8 * s.bytes.length - pos s)
          · rw [if_pos (by omega), if_pos hi2]
          · rw [if_neg (by omega), if_neg hi2]
        · rw [if_neg hi, bitAt_cons]
          by_cases hi8 : i - 8 * (n / 8) < 8
          · rw [if_pos hi8, h5 _ hi8]
            by_cases hi2 : i < min n (8 * s.bytes.length - pos s)
            · rw [if_pos (by omega), if_pos hi2]; congr 1; omega
            · rw [if_neg (by omega), if_neg hi2]; simp
          · rw [if_neg hi8, if_neg (by omega)]; simp [bitAt, bitsOf]
    · rw [if_neg hh]
      have hl : ¬ pos s + min (8 * (n / 8)) (8 * s.bytes.length - pos s) < 8 * s.bytes.length := by
        intro h; apply hh; rw [hasNext_iff _ hw'.1]; simpa using h
      have e : min (8 * (n / 8)) (8 * s.bytes.length - pos s) = min n (8 * s.bytes.length - pos s) := by omega
      refine ⟨bs ++ [0], ?_, by simp [h2]; omega, ?_⟩
      · rw [e]; simp
      · intro i
        rw [bitAt_append, h2]
        by_cases hi : i < 8 * (n / 8)
        · rw [if_pos hi, h3, e]
        · rw [if_neg hi, if_neg (by omega)]
          exact bitAt_replicate_zero 1 _
  · rw [if_neg hm]
    have e : 8 * (n / 8) = n := by omega
    rw [e] at h3 ⊢
    exact ⟨bs, by simp, by omega, h3⟩

/-- The bits `nextN` delivers, as a list. -/
theorem nextN_bits (s : Bitstream) (n : Nat) (hw : WellFormed s) {c bs s'} (h : s.nextN n = some (c, bs, s')) :
    c = min n (remaining s).length ∧ s' = s.at' (pos s + c) ∧ bs.length = (n + 7) / 8 ∧
    bitsOf bs = (remaining s).take n ++ List.replicate (8 * ((n + 7) / 8) - c) false := by
  obtain ⟨bs', h1, h2, h3⟩ := nextN_spec s n hw
  rw [h1] at h
  simp only [Option.some.injEq, Prod.mk.injEq] at h
  obtain ⟨rfl, rfl, rfl⟩ := h
  have hr : (remaining s).length = 8 * s.bytes.length - pos s := by
    unfold remaining; rw [List.length_drop, bitsOf_length]
  refine ⟨by rw [hr], rfl, h2, ?_⟩
  apply List.ext_getElem
  · rw [bitsOf_length, List.length_append, List.length_take, hr, List.length_replicate, h2]; omega
  · intro i hi1 hi2
    rw [bitsOf_getElem, h3]
    by_cases hi : i < min n (8 * s.bytes.length - pos s)
    · rw [if_pos hi, List.getElem_append_left (by rw [List.length_take, hr]; exact hi)]
      simp only [List.getElem_take, remaining, List.getElem_drop]
      rw [bitsOf_getElem]
    · rw [if_neg hi, List.getElem_append_right (by rw [List.length_take, hr]; omega)]
      simp

/-! ### writing -/

theorem bitAt_set (bs : List U8) (j : Nat) (b : U8) (hj : j < bs.length) (i : Nat) :
    bitAt (bs.set j b) i = if i / 8 = j then b.getLsbD (i % 8) else bitAt bs i := by
  rw [bitAt_eq, bitAt_eq, List.getElem?_set]
  by_cases h : i / 8 = j
  · subst h; simp [hj]
  · rw [if_neg (fun e => h e.symm), if_neg h]

theorem edit_spec (s : Bitstream) (n : Nat) (u : U8) (hb : s.bitOff < 8) (hn : n ≤ 8)
    (hl : pos s < 8 * s.bytes.length) :
    ∃ bytes, s.edit n u = some (min n (8 * s.bytes.length - pos s),
        ({ s with bytes } : Bitstream).at' (pos s + min n (8 * s.bytes.length - pos s))) ∧
      bytes.length = s.bytes.length ∧
      ∀ i, bitAt bytes i = if pos s ≤ i ∧ i < pos s + min n (8 * s.bytes.length - pos s) then u.getLsbD (i - pos s) else bitAt s.bytes i := by
  have hp : pos s = 8 * s.byteOff + s.bitOff := rfl
  have hlt : s.byteOff < s.bytes.length := by omega
  unfold edit
  rw [List.getElem?_eq_getElem hlt]
  simp only
  have hml : s.maxLen = s.bytes.length := rfl
  by_cases hc : s.byteOff + 1 < s.maxLen ∧ min (8 - s.bitOff) n < n
  · rw [if_pos hc]
    rw [hml] at hc
    rw [ List.getElem?_eq_getElem (by simpa using hc.1)]
    have e : min (8 - s.bitOff) n + min s.bitOff (n - min (8 - s.bitOff) n) = min n (8 * s.bytes.length - pos s) := by
      omega
    simp only [e]
    rw [seekG_fwd _ _ (by simp [pos]; omega)]
    refine ⟨_, rfl, by simp, ?_⟩
    · intro i
      rw [bitAt_set _ _ _ (by simpa using hc.1), bitAt_set _ _ _ hlt]
      by_cases h1 : i / 8 = s.byteOff + 1
      · rw [if_pos h1, getLsbD_copyBits _ _ _ _ _ (by omega) (by omega)]
        by_cases h2 : pos s ≤ i ∧ i < pos s + min n (8 * s.bytes.length - pos s)
        · rw [if_pos (by omega), if_pos h2, BitVec.getLsbD_ushiftRight]; congr 1; omega
        · rw [if_neg (by omega), if_neg h2, bitAt_eq, h1, List.getElem?_eq_getElem hc.1]
          simp
      · rw [if_neg h1]
        by_cases h3 : i / 8 = s.byteOff
        · rw [if_pos h3, getLsbD_copyBits _ _ _ _ _ (by omega) (by omega)]
          by_cases h2 : pos s ≤ i ∧ i < pos s + min n (8 * s.bytes.length - pos s)
          · rw [if_pos (by omega), if_pos h2]; congr 1; omega
          · rw [if_neg (by omega), if_neg h2, bitAt_eq, h3, List.getElem?_eq_getElem hlt]; rfl
        · rw [if_neg h3, if_neg (by omega)]
  · rw [if_neg hc]
    have e : min (8 - s.bitOff) n = min n (8 * s.bytes.length - pos s) := by omega
    simp only [e]
    rw [seekG_fwd _ _ (by simp [pos]; omega)]
    refine ⟨_, rfl, by simp, ?_⟩
    · intro i
      rw [bitAt_set _ _ _ hlt]
      by_cases h3 : i / 8 = s.byteOff
      · rw [if_pos h3, getLsbD_copyBits _ _ _ _ _ (by omega) (by omega)]
        by_cases h2 : pos s ≤ i ∧ i < pos s + min n (8 * s.bytes.length - pos s)
        · rw [if_pos (by omega), if_pos h2]; congr 1; omega
        · rw [if_neg (by omega), if_neg h2, bitAt_eq, h3, List.getElem?_eq_getElem hlt]; rfl
      · rw [if_neg h3, if_neg (by omega)]

theorem edit_oob (s : Bitstream) (n : Nat) (u : U8) (hb : s.bitOff < 8) (hl : 8 * s.bytes.length ≤ pos s) :
    s.edit n u = none := by
  have hp : pos s = 8 * s.byteOff + s.bitOff := rfl
  unfold edit
  rw [List.getElem?_eq_none (by omega)]

theorem editLoop_spec (k : Nat) : ∀ (s : Bitstream) (w : Nat) (src : List U8), WellFormed s →
    (k = 0 ∨ pos s + 8 * (k - 1) < 8 * s.bytes.length) → k ≤ src.length →
    ∃ bytes, s.editLoop w k src = some (w + min (8 * k) (8 * s.bytes.length - pos s), src.drop k,
        ({ s with bytes } : Bitstream).at' (pos s + min (8 * k) (8 * s.bytes.length - pos s))) ∧
      bytes.length = s.bytes.length ∧
      ∀ i, bitAt bytes i = if pos s ≤ i ∧ i < pos s + min (8 * k) (8 * s.bytes.length - pos s)
        then bitAt src (i - pos s) else bitAt s.bytes i := by
  induction k with
  | zero =>
    intro s w src hw _ _
    refine ⟨s.bytes, ?_, rfl, ?_⟩
    · simp [editLoop, at_pos s hw.1]
    · intro i; rw [if_neg (by omega)]
  | succ k ih =>
    intro s w src hw hfit hs
    match src, hs with
    | b :: src, hs =>
    obtain ⟨by1, h1, h2, h3⟩ := edit_spec s 8 b hw.1 (by omega) (by omega)
    unfold editLoop
    rw [h1]
    simp only
    obtain ⟨by2, h4, h5, h6⟩ := ih (({ s with bytes := by1 } : Bitstream).at' (pos s + min 8 (8 * s.bytes.length - pos s)))
      (w + min 8 (8 * s.bytes.length - pos s)) src
      (wf_at _ _ (by simp [h2]; omega)) (by simp [h2]; omega) (by simpa using hs)
    simp only [pos_at, bytes_at, h2] at h4 h5 h6
    rw [h4]
    refine ⟨by2, ?_, h5, ?_⟩
    · simp only [Option.some.injEq, Prod.mk.injEq, List.drop_succ_cons, true_and]
      have : pos s + min 8 (8 * s.bytes.length - pos s) +
          min (8 * k) (8 * s.bytes.length - (pos s + min 8 (8 * s.bytes.length - pos s))) =
          pos s + min (8 * (k + 1)) (8 * s.bytes.length - pos s) := by omega
      constructor
      · omega
      · rw [this]; rfl
    · intro i
      rw [h6, h3, bitAt_cons]
      split
      · rw [if_pos (by omega), if_neg (by omega)]; congr 1; omega
      · split
        · rw [if_pos (by omega), if_pos (by omega)]
        · rw [if_neg (by omega)]

theorem editLoop_oob (k : Nat) : ∀ (s : Bitstream) (w : Nat) (src : List U8), WellFormed s →
    k ≠ 0 → 8 * s.bytes.length ≤ pos s + 8 * (k - 1) → s.editLoop w k src = none := by
  induction k with
  | zero => intro s w src _ h; exact absurd rfl h
  | succ k ih =>
    intro s w src hw _ hl
    match src with
    | [] => rfl
    | b :: src =>
      unfold editLoop
      by_cases h : pos s < 8 * s.bytes.length
      · obtain ⟨by1, h1, h2, h3⟩ := edit_spec s 8 b hw.1 (by omega) h
        rw [h1]
        exact ih _ _ _ (wf_at _ _ (by simp [h2]; omega)) (by omega) (by simp [h2]; omega)
      · rw [edit_oob _ _ _ hw.1 (by omega)]

/-- `editN` when no byte outside the buffer is touched (and the bound check of line 171 does not fire). -/
theorem editN_spec' (s : Bitstream) (n : Nat) (src : List U8) (hw : WellFormed s)
    (hi : ¬ n / 8 > s.byteOff + s.maxLen)
    (hfit : n = 0 ∨ pos s + 8 * ((n - 1) / 8) < 8 * s.bytes.length) (hs : n ≤ 8 * src.length) :
    ∃ bytes, s.editN n src = some (min n (8 * s.bytes.length - pos s),
        ({ s with bytes } : Bitstream).at' (pos s + min n (8 * s.bytes.length - pos s))) ∧
      bytes.length = s.bytes.length ∧
      ∀ i, bitAt bytes i = if pos s ≤ i ∧ i < pos s + min n (8 * s.bytes.length - pos s)
        then bitAt src (i - pos s) else bitAt s.bytes i := by
  unfold editN
  simp only [if_neg hi]
  obtain ⟨by1, h1, h2, h3⟩ := editLoop_spec (n / 8) s 0 src hw (by omega) (by omega)
  rw [h1]
  simp only
  by_cases hm : n % 8 ≠ 0
  · rw [if_pos hm]
    have hlt : n / 8 < src.length := by omega
    have e0 : min (8 * (n / 8)) (8 * s.bytes.length - pos s) = 8 * (n / 8) := by omega
    rw [e0] at h3 ⊢
    rw [List.drop_eq_getElem_cons hlt]
    simp only
    obtain ⟨by2, h4, h5, h6⟩ := edit_spec (({ s with bytes := by1 } : Bitstream).at' (pos s + 8 * (n / 8))) (n % 8)
      src[n / 8] (bitOff_at _ _) (by omega) (by simp [h2]; omega)
    simp only [pos_at, bytes_at, h2] at h4 h6 h5
    rw [h4]
    refine ⟨by2, ?_, h5, ?_⟩
    · simp only [Option.some.injEq, Prod.mk.injEq]
      have : pos s + 8 * (n / 8) + min (n % 8) (8 * s.bytes.length - (pos s + 8 * (n / 8))) =
        pos s + min n (8 * s.bytes.length - pos s) := by omega
      constructor
      · omega
      · rw [this]; rfl
    · intro i
      rw [h6, h3]
      split
      · rw [if_pos (by omega), bitAt_eq src]
        have e1 : (i - pos s) / 8 = n / 8 := by omega
        have e2 : (i - pos s) % 8 = i - (pos s + 8 * (n / 8)) := by omega
        rw [e1, e2, List.getElem?_eq_getElem hlt]; rfl
      · split
        · rw [if_pos (by omega)]
        · rw [if_neg (by omega)]
  · rw [if_neg hm]
    have e : 8 * (n / 8) = n := by omega
    rw [e] at h3
    refine ⟨by1, ?_, h2, h3⟩
    rw [e]; simp

theorem editN_oob (s : Bitstream) (n : Nat) (src : List U8) (hw : WellFormed s)
    (hi : ¬ n / 8 > s.byteOff + s.maxLen)
    (hn : n ≠ 0) (hl : 8 * s.bytes.length ≤ pos s + 8 * ((n - 1) / 8)) : s.editN n src = none := by
  unfold editN
  simp only [if_neg hi]
  by_cases hm : n % 8 ≠ 0
  · by_cases hk : n / 8 = 0 ∨ pos s + 8 * (n / 8 - 1) < 8 * s.bytes.length
    · by_cases hs : n / 8 ≤ src.length
      · obtain ⟨by1, h1, h2, h3⟩ := editLoop_spec (n / 8) s 0 src hw hk hs
        rw [h1]
        simp only [if_pos hm]
        cases hd : src.drop (n / 8) with
        | nil => rfl
        | cons b t =>
          simp only
          rw [edit_oob _ _ _ (bitOff_at _ _) (by simp [h2]; omega)]
      · have : ∀ (k : Nat) (s : Bitstream) (w : Nat) (src : List U8), ¬ k ≤ src.length → s.editLoop w k src = none := by
          intro k
          induction k with
          | zero => intro s w src h; exact absurd (Nat.zero_le _) h
          | succ k ih =>
            intro s w src h
            match src with
            | [] => rfl
            | b :: src =>
              unfold editLoop
              cases s.edit 8 b with
              | none => rfl
              | some r => exact ih _ _ _ (by simpa using h)
        rw [this _ _ _ _ hs]
    · rw [editLoop_oob _ _ _ _ hw (by omega) (by omega)]
  · rw [editLoop_oob _ _ _ _ hw (by omega) (by omega)]

/-- `editN` of a value that fits. -/
theorem editN_spec (s : Bitstream) (n : Nat) (src : List U8) (hw : WellFormed s)
    (hfit : pos s + n ≤ 8 * s.bytes.length) (hs : n ≤ 8 * src.length) :
    ∃ bytes, s.editN n src = some (n, ({ s with bytes } : Bitstream).at' (pos s + n)) ∧
      bytes.length = s.bytes.length ∧
      ∀ i, bitAt bytes i = if pos s ≤ i ∧ i < pos s + n then bitAt src (i - pos s) else bitAt s.bytes i := by
  have := editN_spec' s n src hw (by unfold maxLen; omega) (by omega) hs
  have e : min n (8 * s.bytes.length - pos s) = n := by omega
  rwa [e] at this

/-- The list form of `editN_spec`. -/
theorem editN_bits (s : Bitstream) (n : Nat) (src : List U8) (hw : WellFormed s)
    (hfit : pos s + n ≤ 8 * s.bytes.length) (hs : n ≤ 8 * src.length) :
    ∃ s', s.editN n src = some (n, s') ∧ WellFormed s' ∧ pos s' = pos s + n ∧ s'.bytes.length = s.bytes.length ∧
      bitsOf s'.bytes = (bitsOf s.bytes).take (pos s) ++ (bitsOf src).take n ++ (bitsOf s.bytes).drop (pos s + n) := by
  obtain ⟨by1, h1, h2, h3⟩ := editN_spec s n src hw hfit hs
  refine ⟨_, h1, wf_at _ _ (by simp [h2]; omega), pos_at _ _, h2, ?_⟩
  have hlp : ((bitsOf s.bytes).take (pos s)).length = pos s := by
    rw [List.length_take, bitsOf_length]; omega
  have hln : ((bitsOf src).take n).length = n := by
    rw [List.length_take, bitsOf_length]; omega
  apply List.ext_getElem
  · simp only [bytes_at, bitsOf_length, List.length_append, hlp, hln, List.length_drop, h2]; omega
  · intro i hi1 hi2
    rw [bitsOf_getElem]
    simp only [bytes_at]
    rw [h3]
    by_cases ha : i < pos s
    · rw [if_neg (by omega), List.getElem_append_left (by rw [List.length_append]; omega),
        List.getElem_append_left (by omega), List.getElem_take, bitsOf_getElem]
    · by_cases hb : i < pos s + n
      · rw [if_pos (by omega), List.getElem_append_left (by rw [List.length_append]; omega),
          List.getElem_append_right (by omega), List.getElem_take, bitsOf_getElem]
        congr 1; omega
      · rw [if_neg (by omega), List.getElem_append_right (by rw [List.length_append]; omega),
          List.getElem_drop, bitsOf_getElem]
        congr 1; rw [List.length_append]; omega

end Bitstream
end PAN
