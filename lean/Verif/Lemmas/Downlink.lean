import Verif.Spec.Downlink
import Verif.Lemmas.Bits
import Verif.Lemmas.Uplink
import Verif.Props.Serializer
/-! Lemmas about the downlink model. -/
namespace PAN
open Spec

/-! ### serializers for ranges starting at 0 -/

theorem stepSize_one {r w : Nat} (h0 : 0 < r) (h : r ≤ 2 ^ w - 1) : stepSize r w = 1 := by
  unfold stepSize
  apply Nat.div_eq_of_lt_le <;> omega

theorem rangeSer_serialize (k : IntKind) (M : Nat) (hM : 0 < M) (h0 : k.InRange 0) (h1 : k.InRange (M : Int)) (x : Nat)
    (hx : x ≤ M) :
    (IntSer.mkRange k 0 M).serialize x =
      some { IntSer.mkRange k 0 M with bits := natBits (IntSer.mkRange k 0 M).bits.length x } := by
  obtain ⟨hv, hw⟩ := IntSer.mkRange_valid k 0 M (by omega) h0 h1
  obtain ⟨s', e, -, a1, a2, a3, a4, a5, -, -⟩ := IntSer.roundtrip hv x
  have hs : stepSize ((M : Int) - 0).toNat (IntSer.mkRange k 0 M).bits.length = 1 := stepSize_one (by omega) hw
  have hc : (IntSer.mkRange k 0 M).code x = x := by
    unfold IntSer.code
    have e1 : (IntSer.mkRange k 0 M).max = M := rfl
    have e2 : (IntSer.mkRange k 0 M).min = 0 := rfl
    rw [e1, e2, hs, Nat.div_one]
    unfold limit
    rw [if_neg (by omega), if_neg (by omega)]; omega
  rw [e]
  have hb : s'.bits = natBits (IntSer.mkRange k 0 M).bits.length x := by
    rw [← natBits_bitsToNat s'.bits, a4, a5, hc]
  cases s'; simp only [IntSer.mkRange] at *; simp_all

theorem rangeSer_decode (k : IntKind) (M : Nat) (hM : 0 < M) (h0 : k.InRange 0) (h1 : k.InRange (M : Int)) (b : List Bool)
    (hb : b.length = (IntSer.mkRange k 0 M).bits.length) (hle : bitsToNat b ≤ M) :
    ((IntSer.mkRange k 0 M).setBits b).deserialize = bitsToNat b := by
  obtain ⟨hv, hw⟩ := IntSer.mkRange_valid k 0 M (by omega) h0 h1
  have hs : stepSize ((M : Int) - 0).toNat (IntSer.mkRange k 0 M).bits.length = 1 := stepSize_one (by omega) hw
  have e : (IntSer.mkRange k 0 M).setBits b = { IntSer.mkRange k 0 M with bits := b } := by
    unfold IntSer.setBits; rw [if_neg (by omega)]
  rw [e]
  have e1 : (IntSer.mkRange k 0 M).max = M := rfl
  have e2 : (IntSer.mkRange k 0 M).min = 0 := rfl
  have hd := IntSer.deserialize_eq (IntSer.valid_with_bits hv hb) (by
    simp only [hb, e1, e2, hs]; omega)
  simp only [hb, e1, e2, hs] at hd
  refine Eq.trans hd ?_
  omega

theorem log2i_eq (n : Nat) (h : 0 < n) : IntSer.log2i n = idWidth n := by
  unfold idWidth
  induction n using Nat.strongRecOn with
  | _ n ih =>
    rw [IntSer.log2i, dif_pos h]
    by_cases h2 : 2 ≤ n
    · rw [ih (n / 2) (by omega) (by omega)]
      conv => rhs; rw [Nat.log2_def, if_pos h2]
    · have : n = 1 := by omega
      subst this; rw [IntSer.log2i]; rfl

namespace Downlink

theorem idSer_width (n : Nat) (h0 : 0 < n) (h : n < 256) : (idSer n).bits.length = idWidth n := by
  unfold idSer IntSer.mkRange
  rw [List.length_replicate, ← log2i_eq n h0]
  congr 1; omega

theorem uchar_inRange {n : Nat} (h : n < 256) : IntKind.InRange .uchar (n : Int) := by
  simp only [IntKind.InRange, IntKind.cast]; omega

theorem idSer_serialize (n x : Nat) (h0 : 0 < n) (h : n < 256) (hx : x ≤ n) :
    (idSer n).serialize x = some { idSer n with bits := natBits (idWidth n) x } := by
  have := rangeSer_serialize .uchar n h0 (by decide) (uchar_inRange h) x hx
  rw [← idSer_width n h0 h]
  unfold idSer; rw [Nat.mod_eq_of_lt h]; exact this

theorem idSer_decode (n : Nat) (b : List Bool) (h0 : 0 < n) (h : n < 256) (hb : b.length = idWidth n) (hle : bitsToNat b ≤ n) :
    ((idSer n).setBits b).deserialize = bitsToNat b := by
  rw [← idSer_width n h0 h] at hb
  unfold idSer at hb ⊢; rw [Nat.mod_eq_of_lt h] at hb ⊢
  exact rangeSer_decode .uchar n h0 (by decide) (uchar_inRange h) b hb hle

theorem idWidth_lt (n : Nat) : n < 2 ^ idWidth n := by unfold idWidth; exact Nat.lt_log2_self

theorem idSer_natBits (n x : Nat) (h0 : 0 < n) (h : n < 256) (hx : x ≤ n) :
    (({ idSer n with bits := natBits (idWidth n) x } : IntSer)).deserialize = x := by
  have hm : bitsToNat (natBits (idWidth n) x) = x := by
    rw [bitsToNat_natBits]; exact Nat.mod_eq_of_lt (Nat.lt_of_le_of_lt hx (idWidth_lt n))
  have := idSer_decode n (natBits (idWidth n) x) h0 h (natBits_length _ _) (by omega)
  unfold IntSer.setBits at this
  rw [if_neg (by rw [natBits_length, idSer_width n h0 h]; simp), hm] at this
  exact this

theorem ccBits_eq (cc : U32) : ccBits cc = some (natBits 32 cc.toNat) := by
  unfold ccBits
  have hlt := cc.isLt
  have := rangeSer_serialize .uint 4294967295 (by omega) (by decide) (by decide) cc.toNat (by omega)
  have hw : (IntSer.mkRange .uint 0 ((4294967295 : Nat) : Int)).bits.length = 32 := by
    unfold IntSer.mkRange; rw [List.length_replicate]; simp [IntSer.log2i]
  rw [hw] at this
  have hc : ((4294967295 : Nat) : Int) = 4294967295 := rfl
  rw [hc] at this; rw [this]; rfl

theorem cc_decode (b : List Bool) (hb : b.length = 32) :
    ((IntSer.mkRange .uint 0 4294967295).setBits b).deserialize = bitsToNat b := by
  have hw : (IntSer.mkRange .uint 0 ((4294967295 : Nat) : Int)).bits.length = 32 := by
    unfold IntSer.mkRange; rw [List.length_replicate]; simp [IntSer.log2i]
  have hlt := BitArray.bitsToNat_lt b
  rw [hb] at hlt
  exact rangeSer_decode .uint 4294967295 (by omega) (by decide) (by decide) b (by rw [hw, hb]) (by omega)

/-! ### frame bits -/

theorem frameBit_set (buf : List U8) (j p : Nat) (c : U8) (b : Bool) (hc : buf[j]? = some c) (hp : p < 8) (q : Nat) :
    frameBit (buf.set j (modifyBit c p b)) q = if q = 8 * j + (7 - p) then b else frameBit buf q := by
  have hj : j < buf.length := by
    rcases Nat.lt_or_ge j buf.length with h | h
    · exact h
    · rw [List.getElem?_eq_none h] at hc; cases hc
  unfold frameBit
  by_cases hq : q / 8 = j
  · rw [List.getElem?_set, if_pos hq.symm, if_pos hj, Option.getD_some,
      getLsbD_modifyBit _ _ _ _ hp (by omega), hq, hc, Option.getD_some]
    by_cases h : 7 - q % 8 = p
    · rw [if_pos h, if_pos (by omega)]
    · rw [if_neg h, if_neg (by omega)]
  · rw [List.getElem?_set, if_neg (fun h => hq h.symm), if_neg (by omega)]

theorem frame_ext {a b : List U8} (hl : a.length = b.length) (h : ∀ q, frameBit a q = frameBit b q) : a = b := by
  apply bytes_ext hl
  intro i _
  rw [bitAt_eq, bitAt_eq]
  have := h (8 * (i / 8) + (7 - i % 8))
  unfold frameBit at this
  have e1 : (8 * (i / 8) + (7 - i % 8)) / 8 = i / 8 := by omega
  have e2 : 7 - (8 * (i / 8) + (7 - i % 8)) % 8 = i % 8 := by omega
  rwa [e1, e2] at this

theorem putBit_spec (buf : List U8) (off : Nat) (b : Bool) (h : off < 8 * buf.length) :
    ∃ buf', putBit buf off b = some buf' ∧ buf'.length = buf.length ∧
      ∀ q, frameBit buf' q = if q = off then b else frameBit buf q := by
  obtain ⟨c, hc⟩ : ∃ c, buf[off / 8]? = some c := ⟨_, List.getElem?_eq_getElem (by omega)⟩
  refine ⟨_, by unfold putBit; rw [hc], by simp, fun q => ?_⟩
  rw [frameBit_set _ _ _ _ _ hc (by omega)]
  have : 8 * (off / 8) + (7 - (7 - off % 8)) = off := by omega
  rw [this]

theorem putBit_oob (buf : List U8) (off : Nat) (b : Bool) (h : 8 * buf.length ≤ off) : putBit buf off b = none := by
  unfold putBit; rw [List.getElem?_eq_none (by omega)]

theorem toStr_spec (bits : List Bool) : ∀ (buf : List U8) (off : Nat), off + bits.length ≤ 8 * buf.length →
    ∃ buf', toStr buf off bits = some buf' ∧ buf'.length = buf.length ∧
      ∀ q, frameBit buf' q = if off ≤ q ∧ q < off + bits.length then bits[q - off]?.getD false else frameBit buf q := by
  induction bits with
  | nil => intro buf off _; exact ⟨buf, rfl, rfl, fun q => by rw [if_neg (by simp)]⟩
  | cons b bs ih =>
    intro buf off h
    rw [List.length_cons] at h
    obtain ⟨b1, e1, l1, f1⟩ := putBit_spec buf off b (by omega)
    obtain ⟨b2, e2, l2, f2⟩ := ih b1 (off + 1) (by omega)
    refine ⟨b2, by simp only [toStr, e1]; exact e2, by omega, fun q => ?_⟩
    rw [f2, f1, List.length_cons]
    by_cases hq : q = off
    · subst hq
      rw [if_neg (by omega), if_pos rfl, if_pos (by omega)]; simp
    · by_cases h2 : off + 1 ≤ q ∧ q < off + 1 + bs.length
      · rw [if_pos h2, if_pos (by omega)]
        have : q - off = (q - (off + 1)) + 1 := by omega
        rw [this, List.getElem?_cons_succ]
      · rw [if_neg h2, if_neg hq, if_neg (by omega)]

theorem toStr_oob (bits : List Bool) : ∀ (buf : List U8) (off : Nat), bits ≠ [] → 8 * buf.length < off + bits.length →
    toStr buf off bits = none := by
  induction bits with
  | nil => intro _ _ h; exact absurd rfl h
  | cons b bs ih =>
    intro buf off _ h
    rw [List.length_cons] at h
    simp only [toStr]
    by_cases ho : off < 8 * buf.length
    · obtain ⟨b1, e1, l1, f1⟩ := putBit_spec buf off b ho
      rw [e1]
      by_cases hb : bs = []
      · subst hb; simp at h; omega
      · exact ih b1 (off + 1) hb (by omega)
    · rw [putBit_oob _ _ _ (by omega)]

/-- What the frame buffer holds at bit `q` after the payload `P` has been written over the buffer `buf0`. -/
def written (buf0 : List U8) (P : List Bool) (q : Nat) : Bool :=
  if q = 0 then true
  else if q % 64 = 0 ∧ q / 64 ≤ (P.length - 1) / 559 then false
  else if q % 560 ≠ 0 ∧ q - 1 - q / 560 < P.length then P[q - 1 - q / 560]?.getD false
  else frameBit buf0 q

/-- The cursor after the payload `P` has been written over `buf0`. -/
structure After (buf0 : List U8) (P : List Bool) (c : Cursor) : Prop where
  len : c.buf.length = buf0.length
  off : c.frameOff = frameLen P.length
  poff : c.packetOff = frameLen P.length - 560 * ((P.length - 1) / 559)
  bits : ∀ q, frameBit c.buf q = written buf0 P q

theorem addBits_spec (buf0 : List U8) (P : List Bool) (c : Cursor) (h : After buf0 P c) (bits : List Bool)
    (hb : bits.length ≤ 559) (hfit : frameLen (P.length + bits.length) ≤ 8 * buf0.length) :
    ∃ c', addBits c bits = some c' ∧ After buf0 (P ++ bits) c' := by
  obtain ⟨hl, ho, hp, hw⟩ := h
  unfold frameLen at *
  unfold addBits
  simp only []
  by_cases hov : (bits.length : Int) + c.packetOff - 560 ≤ 0
  · rw [if_pos hov]
    obtain ⟨b1, e1, l1, f1⟩ := toStr_spec bits c.buf c.frameOff (by omega)
    rw [e1]
    have hk : (P.length + bits.length - 1) / 559 = (P.length - 1) / 559 := by omega
    refine ⟨_, rfl, by rw [← hl, ← l1], ?_, ?_, ?_⟩
    · simp only [List.length_append, frameLen]; omega
    · simp only [List.length_append, frameLen]; omega
    · intro q
      rw [f1, hw]
      unfold written
      rw [List.length_append, hk]
      by_cases hb0 : bits.length = 0
      · rw [if_neg (by omega)]
        have : bits = [] := List.length_eq_zero_iff.mp hb0
        subst this; simp
      by_cases hq : c.frameOff ≤ q ∧ q < c.frameOff + bits.length
      · rw [if_pos hq, if_neg (by omega), if_neg (by omega), if_pos (by omega), List.getElem?_append_right (by omega)]
        congr 2; omega
      · rw [if_neg hq]
        by_cases h0 : q = 0
        · rw [if_pos h0, if_pos h0]
        rw [if_neg h0, if_neg h0]
        by_cases h64 : q % 64 = 0 ∧ q / 64 ≤ (P.length - 1) / 559
        · rw [if_pos h64, if_pos h64]
        rw [if_neg h64, if_neg h64]
        by_cases hq5 : q % 560 ≠ 0 ∧ q - 1 - q / 560 < P.length
        · rw [if_pos hq5, if_pos (by omega), List.getElem?_append_left (by omega)]
        · rw [if_neg hq5, if_neg (by omega)]
  · rw [if_neg hov]
    have hx : ((bits.length : Int) - ((bits.length : Int) + c.packetOff - 560)).toNat = 560 - c.packetOff := by omega
    have hov' : ((bits.length : Int) + c.packetOff - 560).toNat = bits.length + c.packetOff - 560 := by omega
    rw [hx, hov']
    have hk : (P.length + bits.length - 1) / 559 = (P.length - 1) / 559 + 1 := by omega
    have hx2 : c.frameOff + (560 - c.packetOff) = 560 * ((P.length - 1) / 559 + 1) := by omega
    have hlt : (bits.take (560 - c.packetOff)).length = 560 - c.packetOff := by rw [List.length_take]; omega
    have hld : (bits.drop (560 - c.packetOff)).length = bits.length - (560 - c.packetOff) := List.length_drop
    obtain ⟨b1, e1, l1, f1⟩ := toStr_spec (bits.take (560 - c.packetOff)) c.buf c.frameOff (by omega)
    rw [e1]
    simp only []
    rw [hx2]
    have h70 : 560 * ((P.length - 1) / 559 + 1) / 70 = 8 * ((P.length - 1) / 559 + 1) := by omega
    rw [h70]
    obtain ⟨st, hst⟩ : ∃ st, b1[8 * ((P.length - 1) / 559 + 1)]? = some st := ⟨_, List.getElem?_eq_getElem (by omega)⟩
    rw [hst]
    simp only []
    obtain ⟨b2, e2, l2, f2⟩ := toStr_spec (bits.drop (560 - c.packetOff))
      (b1.set (8 * ((P.length - 1) / 559 + 1)) (modifyBit st 7 false)) (560 * ((P.length - 1) / 559 + 1) + 1)
      (by rw [List.length_set]; omega)
    rw [e2]
    rw [List.length_set] at l2
    refine ⟨_, rfl, by rw [← hl, ← l1, ← l2], ?_, ?_, ?_⟩
    · simp only [List.length_append, frameLen]; omega
    · simp only [List.length_append, frameLen]; omega
    · intro q
      simp only []
      rw [f2, frameBit_set _ _ _ _ _ hst (by omega), f1, hw, hld, hlt]
      generalize hK : (P.length - 1) / 559 = K at *
      unfold written
      rw [List.length_append, hk, hK]
      by_cases hq : 560 * (K + 1) + 1 ≤ q ∧ q < 560 * (K + 1) + 1 + (bits.length - (560 - c.packetOff))
      · rw [if_pos hq, if_neg (by omega), if_neg (by omega), if_pos (by omega), List.getElem?_append_right (by omega),
          List.getElem?_drop]
        have : 560 - c.packetOff + (q - (560 * (K + 1) + 1)) = q - 1 - q / 560 - P.length := by omega
        rw [this]
      rw [if_neg hq]
      by_cases hc : q = 8 * (8 * (K + 1)) + (7 - 7)
      · rw [if_pos hc, if_neg (by omega), if_pos (by omega)]
      rw [if_neg hc]
      by_cases hq1 : c.frameOff ≤ q ∧ q < c.frameOff + (560 - c.packetOff)
      · rw [if_pos hq1, if_neg (by omega), if_neg (by omega), if_pos (by omega), List.getElem?_append_right (by omega),
          List.getElem?_take, if_pos (by omega)]
        congr 2; omega
      rw [if_neg hq1]
      by_cases h0 : q = 0
      · rw [if_pos h0, if_pos h0]
      rw [if_neg h0, if_neg h0]
      by_cases h64 : q % 64 = 0 ∧ q / 64 ≤ K
      · rw [if_pos h64, if_pos (by omega)]
      have h64' : ¬ (q % 64 = 0 ∧ q / 64 ≤ K + 1) := by omega
      rw [if_neg h64, if_neg h64']
      by_cases hq5 : q % 560 ≠ 0 ∧ q - 1 - q / 560 < P.length
      · rw [if_pos hq5, if_pos (by omega), List.getElem?_append_left (by omega)]
      · rw [if_neg hq5, if_neg (by omega)]

theorem addBits_oob (buf0 : List U8) (P : List Bool) (c : Cursor) (h : After buf0 P c) (bits : List Bool)
    (hb : bits.length ≤ 559) (hb0 : bits ≠ []) (hP : frameLen P.length ≤ 8 * buf0.length)
    (hfit : 8 * buf0.length < frameLen (P.length + bits.length)) : addBits c bits = none := by
  obtain ⟨hl, ho, hp, hw⟩ := h
  have hpos : 0 < bits.length := List.length_pos_iff.mpr hb0
  unfold frameLen at *
  unfold addBits
  simp only []
  by_cases hov : (bits.length : Int) + c.packetOff - 560 ≤ 0
  · rw [if_pos hov, toStr_oob _ _ _ hb0 (by omega)]
  · rw [if_neg hov]
    have hx : ((bits.length : Int) - ((bits.length : Int) + c.packetOff - 560)).toNat = 560 - c.packetOff := by omega
    have hov' : ((bits.length : Int) + c.packetOff - 560).toNat = bits.length + c.packetOff - 560 := by omega
    rw [hx, hov']
    have hlt : (bits.take (560 - c.packetOff)).length = 560 - c.packetOff := by rw [List.length_take]; omega
    have hld : (bits.drop (560 - c.packetOff)).length = bits.length - (560 - c.packetOff) := List.length_drop
    have hd0 : bits.drop (560 - c.packetOff) ≠ [] := by
      intro h0; rw [h0] at hld; simp at hld; omega
    by_cases hfirst : c.frameOff + (560 - c.packetOff) ≤ 8 * c.buf.length
    · obtain ⟨b1, e1, l1, f1⟩ := toStr_spec (bits.take (560 - c.packetOff)) c.buf c.frameOff (by omega)
      rw [e1]
      simp only []
      split
      · rfl
      · rw [toStr_oob _ _ _ hd0 (by rw [List.length_set]; omega)]
    · have : bits.take (560 - c.packetOff) ≠ [] := by
        intro h0; rw [h0] at hlt; simp at hlt; omega
      rw [toStr_oob _ _ _ this (by omega)]

theorem frameLen_mono {a b : Nat} (h : a ≤ b) : frameLen a ≤ frameLen b := by
  unfold frameLen
  have : (a - 1) / 559 ≤ (b - 1) / 559 := Nat.div_le_div_right (by omega)
  omega

theorem addAllBits_spec (buf0 : List U8) (segs : List (List Bool)) : ∀ (P : List Bool) (c : Cursor), After buf0 P c →
    (∀ b ∈ segs, b.length ≤ 559) → frameLen (P.length + segs.flatten.length) ≤ 8 * buf0.length →
    ∃ c', addAllBits c segs = some c' ∧ After buf0 (P ++ segs.flatten) c' := by
  induction segs with
  | nil => intro P c h _ _; exact ⟨c, rfl, by simpa using h⟩
  | cons b segs ih =>
    intro P c h hb hfit
    rw [List.flatten_cons, List.length_append] at hfit
    obtain ⟨c1, e1, a1⟩ := addBits_spec buf0 P c h b (hb b List.mem_cons_self)
      (Nat.le_trans (frameLen_mono (by omega)) hfit)
    obtain ⟨c2, e2, a2⟩ := ih (P ++ b) c1 a1 (fun x hx => hb x (List.mem_cons_of_mem _ hx))
      (by rw [List.length_append, Nat.add_assoc]; exact hfit)
    exact ⟨c2, by simp only [addAllBits, e1]; exact e2, by rw [List.flatten_cons, ← List.append_assoc]; exact a2⟩

theorem addAllBits_oob (buf0 : List U8) (segs : List (List Bool)) : ∀ (P : List Bool) (c : Cursor), After buf0 P c →
    (∀ b ∈ segs, b.length ≤ 559) → frameLen P.length ≤ 8 * buf0.length →
    8 * buf0.length < frameLen (P.length + segs.flatten.length) → addAllBits c segs = none := by
  induction segs with
  | nil => intro P c h _ h1 h2; simp at h2; omega
  | cons b segs ih =>
    intro P c h hb h1 h2
    rw [List.flatten_cons, List.length_append] at h2
    simp only [addAllBits]
    have hbl := hb b List.mem_cons_self
    by_cases hfit : frameLen (P.length + b.length) ≤ 8 * buf0.length
    · obtain ⟨c1, e1, a1⟩ := addBits_spec buf0 P c h b hbl hfit
      rw [e1]
      exact ih (P ++ b) c1 a1 (fun x hx => hb x (List.mem_cons_of_mem _ hx)) (by rw [List.length_append]; exact hfit)
        (by rw [List.length_append, Nat.add_assoc]; exact h2)
    · rw [addBits_oob buf0 P c h b hbl (by rintro rfl; simp at hfit; omega) h1 (by omega)]

theorem clearLow_spec (k : Nat) : ∀ (buf : List U8) (i : Nat), i < buf.length → k ≤ 8 →
    ∃ buf', clearLow buf i k = some buf' ∧ buf'.length = buf.length ∧
      ∀ q, frameBit buf' q = if 8 * i + (8 - k) ≤ q ∧ q < 8 * i + 8 then false else frameBit buf q := by
  induction k with
  | zero => intro buf i _ _; exact ⟨buf, rfl, rfl, fun q => by rw [if_neg (by omega)]⟩
  | succ k ih =>
    intro buf i hi hk
    obtain ⟨c, hc⟩ : ∃ c, buf[i]? = some c := ⟨_, List.getElem?_eq_getElem hi⟩
    obtain ⟨b2, e2, l2, f2⟩ := ih (buf.set i (modifyBit c k false)) i (by simpa using hi) (by omega)
    refine ⟨b2, by simp only [clearLow, hc]; exact e2, by simpa using l2, fun q => ?_⟩
    rw [f2, frameBit_set _ _ _ _ _ hc (by omega)]
    by_cases h1 : 8 * i + (8 - k) ≤ q ∧ q < 8 * i + 8
    · rw [if_pos h1, if_pos (by omega)]
    · rw [if_neg h1]
      by_cases h2 : q = 8 * i + (7 - k)
      · rw [if_pos h2, if_pos (by omega)]
      · rw [if_neg h2, if_neg (by omega)]

theorem clearLow_oob (k : Nat) (buf : List U8) (i : Nat) (hi : buf.length ≤ i) (hk : 0 < k) : clearLow buf i k = none := by
  obtain ⟨k, rfl⟩ : ∃ j, k = j + 1 := ⟨k - 1, by omega⟩
  simp only [clearLow, List.getElem?_eq_none hi]

theorem written_nil (buf0 : List U8) (q : Nat) : written buf0 [] q = if q = 0 then true else frameBit buf0 q := by
  unfold written
  by_cases h0 : q = 0
  · rw [if_pos h0, if_pos h0]
  · rw [if_neg h0, if_neg h0, if_neg (by simp; omega), if_neg (by simp)]

/-- The payload as the producer assembles it. -/
def rawPayload (env : Nat → List Bool) (cc : U32) (p : Producer) : List Bool :=
  (natBits 32 cc.toNat :: (p.flows.filter (·.active)).flatMap (Flow.segments env)).flatten

theorem produce_spec (width : Nat → Nat) (env : Nat → List Bool) (cc : U32) (p : Producer)
    (hseg : ∀ f ∈ p.flows, ∀ b ∈ Flow.segments env f, b.length ≤ 559)
    (hfit : frameLen (rawPayload env cc p).length < 8 * p.buf.length) :
    ∃ buf, produce width env cc p = some { p with snapSize := downlinkSize width p.flows false, buf } ∧
      buf.length = p.buf.length ∧
      ∀ q, frameBit buf q = if frameLen (rawPayload env cc p).length ≤ q ∧ q < 8 * (frameLen (rawPayload env cc p).length / 8 + 1)
        then false else written p.buf (rawPayload env cc p) q := by
  obtain ⟨b0, hb0⟩ : ∃ b0, p.buf[0]? = some b0 := ⟨_, List.getElem?_eq_getElem (by omega)⟩
  have hA : After p.buf [] { buf := p.buf.set 0 (modifyBit b0 7 true), packetOff := 1, frameOff := 1 } := by
    refine ⟨by simp, by simp [frameLen], by simp [frameLen], fun q => ?_⟩
    rw [frameBit_set _ _ _ _ _ hb0 (by omega), written_nil]
  obtain ⟨c, e, hc⟩ := addAllBits_spec p.buf (natBits 32 cc.toNat :: (p.flows.filter (·.active)).flatMap (Flow.segments env))
    [] _ hA (by
      intro b hb
      rcases List.mem_cons.mp hb with rfl | hb
      · rw [natBits_length]; omega
      · obtain ⟨f, hf, hb⟩ := List.mem_flatMap.mp hb
        exact hseg f (List.mem_filter.mp hf).1 b hb) (by
      rw [List.length_nil, Nat.zero_add]; exact Nat.le_of_lt hfit)
  rw [List.nil_append] at hc
  have hfl : c.frameOff = frameLen (rawPayload env cc p).length := hc.off
  obtain ⟨buf, e2, l2, f2⟩ := clearLow_spec (8 - c.frameOff % 8) c.buf (c.frameOff / 8) (by rw [hc.len]; omega) (by omega)
  refine ⟨buf, by unfold produce; simp only [hb0, ccBits_eq, e, e2], by rw [l2, hc.len], fun q => ?_⟩
  rw [f2, hc.bits, hfl]
  have : 8 * (frameLen (rawPayload env cc p).length / 8) + (8 - (8 - frameLen (rawPayload env cc p).length % 8)) =
    frameLen (rawPayload env cc p).length := by omega
  rw [this]
  have h8 : 8 * (frameLen (rawPayload env cc p).length / 8) + 8 = 8 * (frameLen (rawPayload env cc p).length / 8 + 1) := by omega
  rw [h8]
  rfl

theorem produce_oob (width : Nat → Nat) (env : Nat → List Bool) (cc : U32) (p : Producer)
    (hseg : ∀ f ∈ p.flows, ∀ b ∈ Flow.segments env f, b.length ≤ 559)
    (hfit : 8 * p.buf.length ≤ frameLen (rawPayload env cc p).length) : produce width env cc p = none := by
  unfold produce
  simp only [ccBits_eq]
  cases hb0 : p.buf[0]? with
  | none => rfl
  | some b0 =>
    simp only []
    have hpos : 0 < p.buf.length := by
      rcases Nat.eq_zero_or_pos p.buf.length with h | h
      · rw [List.length_eq_zero_iff.mp h] at hb0; simp at hb0
      · exact h
    have hA : After p.buf [] { buf := p.buf.set 0 (modifyBit b0 7 true), packetOff := 1, frameOff := 1 } := by
      refine ⟨by simp, by simp [frameLen], by simp [frameLen], fun q => ?_⟩
      rw [frameBit_set _ _ _ _ _ hb0 (by omega), written_nil]
    have hb : ∀ b ∈ natBits 32 cc.toNat :: (p.flows.filter (·.active)).flatMap (Flow.segments env), b.length ≤ 559 := by
      intro b hb
      rcases List.mem_cons.mp hb with rfl | hb
      · rw [natBits_length]; omega
      · obtain ⟨f, hf, hb⟩ := List.mem_flatMap.mp hb
        exact hseg f (List.mem_filter.mp hf).1 b hb
    by_cases hlt : 8 * p.buf.length < frameLen (rawPayload env cc p).length
    · rw [addAllBits_oob p.buf _ [] _ hA hb (by simp [frameLen]; omega) (by
        rw [List.length_nil, Nat.zero_add]; exact hlt)]
    · obtain ⟨c, e, hc⟩ := addAllBits_spec p.buf _ [] _ hA hb (by
        rw [List.length_nil, Nat.zero_add]; exact Nat.le_of_not_lt hlt)
      rw [e]
      simp only []
      have hfl : c.frameOff = frameLen (rawPayload env cc p).length := by
        rw [hc.off, List.nil_append]; rfl
      rw [clearLow_oob _ _ _ (by rw [hc.len]; omega) (by omega)]

/-! ### parser -/

theorem frameBits_length (buf : List U8) : (frameBits buf).length = 8 * buf.length := by
  unfold frameBits
  induction buf with
  | nil => rfl
  | cons b bs ih => rw [List.flatMap_cons, List.length_append, ih]; simp; omega

theorem frameBits_get (buf : List U8) : ∀ q, q < 8 * buf.length → (frameBits buf)[q]? = some (frameBit buf q) := by
  induction buf with
  | nil => intro q h; simp at h
  | cons b bs ih =>
    intro q h
    rw [List.length_cons] at h
    have e : frameBits (b :: bs) = ((List.range 8).map fun j => b.getLsbD (7 - j)) ++ frameBits bs := rfl
    rw [e]
    have hl : ((List.range 8).map fun j => b.getLsbD (7 - j)).length = 8 := by simp
    by_cases hq : q < 8
    · rw [List.getElem?_append_left (by omega), List.getElem?_map, List.getElem?_range hq]
      unfold frameBit
      have h0 : q / 8 = 0 := by omega
      have h1 : q % 8 = q := by omega
      rw [h0, h1]; rfl
    · rw [List.getElem?_append_right (by omega), hl, ih (q - 8) (by omega)]
      unfold frameBit
      have h0 : q / 8 = (q - 8) / 8 + 1 := by omega
      have h1 : q % 8 = (q - 8) % 8 := by omega
      rw [h0, h1, List.getElem?_cons_succ]

theorem frameBit_take (buf : List U8) (n q : Nat) (h : q < 8 * n) : frameBit (buf.take n) q = frameBit buf q := by
  unfold frameBit
  rw [List.getElem?_take, if_pos (by omega)]

theorem eraseHeaders_spec (i : Nat) : ∀ (B : List Bool), 560 * i < B.length →
    ∃ R, eraseHeaders i B = some R ∧ R.length = B.length - (i + 1) ∧
      ∀ j, R[j]? = B[j + Nat.min (j / 559) i + 1]? := by
  induction i with
  | zero =>
    intro B h
    refine ⟨B.eraseIdx 0, by simp only [eraseHeaders]; rw [if_pos (by omega)], ?_, fun j => ?_⟩
    · rw [List.length_eraseIdx_of_lt (by omega)]
    · rw [List.getElem?_eraseIdx, if_neg (by omega)]; simp
  | succ i ih =>
    intro B h
    have hl : (B.eraseIdx (560 * (i + 1))).length = B.length - 1 := List.length_eraseIdx_of_lt h
    have h1 : 560 * i < B.length - 1 := by clear hl ih; omega
    obtain ⟨R, e, l, g⟩ := ih (B.eraseIdx (560 * (i + 1))) (Nat.lt_of_lt_of_eq h1 hl.symm)
    refine ⟨R, by simp only [eraseHeaders]; rw [if_pos h]; exact e, by rw [l, hl]; omega, fun j => ?_⟩
    rw [g, List.getElem?_eraseIdx]
    by_cases hj : j / 559 ≤ i
    · have m1 : Nat.min (j / 559) i = j / 559 := Nat.min_eq_left hj
      have m2 : Nat.min (j / 559) (i + 1) = j / 559 := Nat.min_eq_left (by omega)
      rw [m1, m2, if_pos (by omega)]
    · have m1 : Nat.min (j / 559) i = i := Nat.min_eq_right (by omega)
      have m2 : Nat.min (j / 559) (i + 1) = i + 1 := Nat.min_eq_right (by omega)
      rw [m1, m2, if_neg (by omega)]
      have : j + (i + 1) + 1 = j + i + 1 + 1 := by omega
      rw [this]

/-- The bits left after removing the header bits. -/
theorem eraseHeaders_frame (B : List Bool) (h : B.length % 560 ≠ 0) :
    ∃ R, eraseHeaders (B.length / 560) B = some R ∧ R.length = B.length - (B.length / 560 + 1) ∧
      ∀ j, j < R.length → R[j]? = B[slot j]? := by
  have hB : 560 * (B.length / 560) < B.length := by
    have := Nat.div_add_mod B.length 560
    have := Nat.pos_of_ne_zero h
    omega
  obtain ⟨R, e, l, g⟩ := eraseHeaders_spec (B.length / 560) B hB
  refine ⟨R, e, l, fun j hj => ?_⟩
  rw [g]
  have hle : j / 559 ≤ B.length / 560 := by omega
  have hmin : Nat.min (j / 559) (B.length / 560) = j / 559 := Nat.min_eq_left hle
  have he : j + j / 559 + 1 = slot j := by unfold slot; omega
  rw [hmin, he]

theorem takeFields_spec (width : Nat → Nat) (env : Nat → List Bool) (hf : Fits width env) (rest : List Bool) :
    ∀ fs : List Nat, takeFields width fs (fs.flatMap env ++ rest) = some (fs.map (fun x => (x, env x)), rest)
  | [] => rfl
  | f :: fs => by
    have hl := hf f
    simp only [takeFields, List.flatMap_cons, List.append_assoc]
    rw [if_neg (by rw [List.length_append]; omega), ← hl, List.drop_left, List.take_left, takeFields_spec width env hf rest fs]
    rfl

theorem parseFlows_zeros (width : Nat → Nat) (gflows : List Flow) (ids : List Int) (z : Nat)
    (h0 : 0 < gflows.length) (h256 : gflows.length < 256) :
    parseFlows width gflows (List.replicate z false) ids =
      some (ids, [], if z ≠ 0 ∧ z < idWidth gflows.length then .idIncomplete else .done) := by
  rw [parseFlows]
  simp only [List.length_replicate]
  rw [idSer_width _ h0 h256]
  have hw : 0 < idWidth gflows.length := by unfold idWidth; omega
  by_cases hz : z = 0
  · rw [dif_pos hz, if_neg (by omega)]
  rw [dif_neg hz]
  by_cases hw2 : idWidth gflows.length > z
  · rw [if_pos hw2, if_pos ⟨hz, by omega⟩]
  rw [if_neg hw2, dif_neg (by omega)]
  have hdec : ((idSer gflows.length).setBits ((List.replicate z false).take (idWidth gflows.length))).deserialize = 0 := by
    have ht : (List.replicate z false).take (idWidth gflows.length) = List.replicate (idWidth gflows.length) false := by
      rw [List.take_replicate]; congr 1; omega
    have hb := bitsToNat_zeros (idWidth gflows.length)
    rw [ht, idSer_decode _ _ h0 h256 (by simp) (by omega), hb]; rfl
  rw [if_pos hdec, if_neg (by omega)]

theorem parseFlows_spec (width : Nat → Nat) (env : Nat → List Bool) (hf : Fits width env) (gflows : List Flow)
    (h0 : 0 < gflows.length) (h256 : gflows.length < 256) (z : Nat) :
    ∀ (A : List (Nat × List Nat)) (ids : List Int),
    (∀ a ∈ A, 0 < a.1 ∧ a.1 ≤ gflows.length ∧ ∃ f, gflows.find? (fun f => f.idVal = (a.1 : Int)) = some f ∧ f.fields = a.2) →
    (A.map (·.1)).Nodup → (∀ a ∈ A, (a.1 : Int) ∉ ids) →
    parseFlows width gflows ((A.flatMap fun a => natBits (idWidth gflows.length) a.1 ++ a.2.flatMap env) ++ List.replicate z false) ids =
      some (ids ++ A.map (fun a => (a.1 : Int)), report env A,
        if z ≠ 0 ∧ z < idWidth gflows.length then .idIncomplete else .done)
  | [], ids, _, _, _ => by
    rw [List.flatMap_nil, List.nil_append, parseFlows_zeros width gflows ids z h0 h256]; simp [report]
  | a :: A, ids, ha, hn, hids => by
    obtain ⟨g1, g2, f, g3, g4⟩ := ha a List.mem_cons_self
    have hw : 0 < idWidth gflows.length := by unfold idWidth; omega
    rw [List.flatMap_cons, List.append_assoc, List.append_assoc, parseFlows]
    simp only []
    rw [idSer_width _ h0 h256, dif_neg (by rw [List.length_append, natBits_length]; omega),
      if_neg (by rw [List.length_append, natBits_length]; omega), dif_neg (by omega)]
    rw [Uplink.take_natBits, Uplink.drop_natBits]
    have hm : bitsToNat (natBits (idWidth gflows.length) a.1) = a.1 := by
      rw [bitsToNat_natBits]; exact Nat.mod_eq_of_lt (Nat.lt_of_le_of_lt g2 (idWidth_lt _))
    rw [idSer_decode _ _ h0 h256 (natBits_length _ _) (by omega), hm]
    rw [if_neg (by omega), if_neg (hids a List.mem_cons_self), g3]
    simp only []
    rw [List.map_cons, List.nodup_cons] at hn
    have ih := parseFlows_spec width env hf gflows h0 h256 z A (ids ++ [(a.1 : Int)])
      (fun x hx => ha x (List.mem_cons_of_mem _ hx)) hn.2 (by
        intro x hx hmem
        rcases List.mem_append.mp hmem with h | h
        · exact hids x (List.mem_cons_of_mem _ hx) h
        · have : x.1 = a.1 := by
            have := List.mem_singleton.mp h; omega
          exact hn.1 (this ▸ List.mem_map_of_mem hx))
    have ht := takeFields_spec width env hf
      ((A.flatMap fun a => natBits (idWidth gflows.length) a.1 ++ a.2.flatMap env) ++ List.replicate z false) f.fields
    rw [g4] at ht
    rw [g4]
    split
    · rename_i he; rw [ht] at he; cases he
    · rename_i out rest he
      rw [ht] at he
      obtain ⟨rfl, rfl⟩ := Prod.mk.inj (Option.some.inj he)
      rw [ih]
      simp [report]

/-! ### configuration and commands -/

/-- The flow built from its configuration. -/
def mkFlow (n : Nat) (d : FlowData) : Flow :=
  { id := { idSer n with bits := natBits (idWidth n) d.id }, active := d.active, fields := d.fields }

/-- The configuration is accepted: ids between 1 and the number of flows, flows not too large. -/
def OkData (width : Nat → Nat) (n : Nat) (data : List FlowData) : Prop :=
  ∀ d ∈ data, 0 < d.id ∧ d.id ≤ n ∧ idWidth n + (d.fields.map width).sum ≤ 527

theorem make_eq (width : Nat → Nat) (d : FlowData) (n : Nat) (h256 : n < 256) :
    Flow.make width d n = if 0 < d.id ∧ d.id ≤ n ∧ idWidth n + (d.fields.map width).sum ≤ 527 then some (mkFlow n d) else none := by
  unfold Flow.make
  by_cases h : d.id > n ∨ d.id = 0
  · rw [if_pos h, if_neg (by omega)]
  rw [if_neg h, idSer_serialize n d.id (by omega) h256 (by omega)]
  simp only [Flow.packetSize, natBits_length, mkFlow]
  by_cases hs : idWidth n + (d.fields.map width).sum ≤ 527
  · rw [if_neg (by omega), if_pos (by omega)]
  · rw [if_pos (by omega), if_neg (by omega)]

theorem makeFlows_eq (width : Nat → Nat) (n : Nat) (h256 : n < 256) (data : List FlowData) (h : OkData width n data) :
    makeFlows width n data = some (data.map (mkFlow n), data.countP (·.active)) := by
  induction data with
  | nil => rfl
  | cons d ds ih =>
    have hd := h d List.mem_cons_self
    simp only [makeFlows, make_eq width d n h256]
    rw [if_pos hd, ih (fun x hx => h x (List.mem_cons_of_mem _ hx))]
    simp only [List.countP_cons, List.map_cons]
    cases d.active <;> simp

theorem makeFlows_ok (width : Nat → Nat) (n : Nat) (h256 : n < 256) : ∀ (data : List FlowData) {r},
    makeFlows width n data = some r → OkData width n data
  | [], _, _ => by intro d hd; simp at hd
  | d :: ds, r, h => by
    simp only [makeFlows, make_eq width d n h256] at h
    by_cases hd : 0 < d.id ∧ d.id ≤ n ∧ idWidth n + (d.fields.map width).sum ≤ 527
    · rw [if_pos hd] at h
      cases h2 : makeFlows width n ds with
      | none => rw [h2] at h; simp at h
      | some r2 =>
        have := makeFlows_ok width n h256 ds h2
        intro x hx
        rcases List.mem_cons.mp hx with rfl | hx
        · exact hd
        · exact this x hx
    · rw [if_neg hd] at h; simp at h

theorem mkFlow_id (n : Nat) (d : FlowData) (h256 : n < 256) (h0 : 0 < d.id) (h : d.id ≤ n) : (mkFlow n d).idVal = d.id :=
  idSer_natBits n d.id (by omega) h256 h

/-- What stays true of a producer: its flows are the configured ones, reordered and with other activity. -/
structure Inv (width : Nat → Nat) (data : List FlowData) (p : Producer) : Prop where
  ok : OkData width data.length data
  perm : (p.flows.map fun f => (f.id, f.fields)).Perm (data.map fun d => ((mkFlow data.length d).id, d.fields))
  count : p.numActive = p.flows.countP (·.active)
  len : p.buf.length = downlinkSize width (data.map (mkFlow data.length)) true

theorem init_inv (width : Nat → Nat) (junk : Nat → U8) (data : List FlowData) (h256 : data.length < 256) {p : Producer}
    (h : init width junk data = some p) : Inv width data p := by
  unfold init at h
  cases h2 : makeFlows width data.length data with
  | none => rw [h2] at h; simp at h
  | some r =>
    have hok := makeFlows_ok width data.length h256 data h2
    rw [makeFlows_eq width _ h256 data hok] at h
    simp only [Option.some.injEq] at h
    subst h
    refine ⟨hok, ?_, ?_, by simp⟩
    · simp only [List.map_map]; exact List.Perm.refl _
    · simp only [List.countP_map]; rfl

theorem produce_frame {width : Nat → Nat} {env : Nat → List Bool} {cc : U32} {p p' : Producer}
    (h : produce width env cc p = some p') : ∃ buf, p' = { p with snapSize := downlinkSize width p.flows false, buf } := by
  unfold produce at h
  simp only [] at h
  split at h
  · cases h
  · split at h
    · cases h
    · split at h
      · cases h
      · split at h
        · cases h
        · rename_i buf _
          exact ⟨buf, (Option.some.inj h).symm⟩

theorem swapFlows_eq {a b : Flow} : swapFlows a b = if a.fields.length = b.fields.length then some (b, a) else none := by
  unfold swapFlows moveAssign
  by_cases h : a.fields.length = b.fields.length
  · rw [if_neg (by omega), if_pos h]
    simp only []
    rw [if_neg (by omega)]
    simp only [← h, List.drop_length, List.append_nil]
    rw [h]; simp
  · rw [if_neg h]
    by_cases h2 : b.fields.length > a.fields.length
    · rw [if_pos h2]
    · rw [if_neg h2]
      simp only []
      rw [if_pos (by omega)]

theorem swapAt_some {flows r : List Flow} {i j : Nat} (h : swapAt flows i j = some r) :
    ∃ (hi : i < flows.length) (hj : j < flows.length), flows[i].fields.length = flows[j].fields.length ∧
      r = (flows.set i flows[j]).set j flows[i] := by
  unfold swapAt at h
  split at h
  · rename_i a b ha hb
    obtain ⟨hi, rfl⟩ := List.getElem?_eq_some_iff.mp ha
    obtain ⟨hj, rfl⟩ := List.getElem?_eq_some_iff.mp hb
    rw [swapFlows_eq] at h
    by_cases hl : flows[i].fields.length = flows[j].fields.length
    · rw [if_pos hl] at h
      exact ⟨hi, hj, hl, (Option.some.inj h).symm⟩
    · rw [if_neg hl] at h; cases h
  · cases h

theorem swapAt_ok {flows : List Flow} {i j : Nat} (hi : i < flows.length) (hj : j < flows.length)
    (hl : flows[i].fields.length = flows[j].fields.length) :
    swapAt flows i j = some ((flows.set i flows[j]).set j flows[i]) := by
  unfold swapAt
  rw [List.getElem?_eq_getElem hi, List.getElem?_eq_getElem hj]
  simp only [swapFlows_eq, if_pos hl]

theorem swapAt_get {flows r : List Flow} {i j : Nat} (h : swapAt flows i j = some r) (m : Nat) :
    r[m]? = if m = j then flows[i]? else if m = i then flows[j]? else flows[m]? := by
  obtain ⟨hi, hj, -, rfl⟩ := swapAt_some h
  rw [List.getElem?_set, List.getElem?_set, List.length_set, List.getElem?_eq_getElem hi, List.getElem?_eq_getElem hj]
  by_cases h1 : j = m
  · rw [if_pos h1, if_pos h1.symm, if_pos hj]
  · have h1' : ¬ m = j := fun h => h1 h.symm
    rw [if_neg h1, if_neg h1']
    by_cases h2 : i = m
    · rw [if_pos h2, if_pos h2.symm, if_pos hi]
    · have h2' : ¬ m = i := fun h => h2 h.symm
      rw [if_neg h2, if_neg h2']

theorem shiftUp_get (k : Nat) : ∀ (flows : List Flow) (i : Nat) {r}, shiftUp flows i k = some r → ∀ m,
    r[m]? = if m < i ∨ i + k < m then flows[m]? else if m = i + k then flows[i]? else flows[m + 1]? := by
  induction k with
  | zero =>
    intro flows i r h m
    simp only [shiftUp, Option.some.injEq] at h
    subst h
    by_cases h1 : m < i ∨ i + 0 < m
    · rw [if_pos h1]
    · rw [if_neg h1, if_pos (by omega)]; congr 1; omega
  | succ k ih =>
    intro flows i r h m
    simp only [shiftUp] at h
    cases h2 : swapAt flows i (i + 1) with
    | none => rw [h2] at h; cases h
    | some f2 =>
      rw [h2] at h
      rw [ih f2 (i + 1) h m, swapAt_get h2, swapAt_get h2, swapAt_get h2]
      by_cases h1 : m < i ∨ i + (k + 1) < m
      · rw [if_pos h1, if_pos (by omega), if_neg (by omega), if_neg (by omega)]
      rw [if_neg h1]
      by_cases h3 : m = i
      · subst h3
        rw [if_pos (by omega), if_neg (by omega), if_pos rfl, if_neg (by omega)]
      rw [if_neg (by omega)]
      by_cases h4 : m = i + (k + 1)
      · rw [if_pos (by omega), if_pos rfl, if_pos h4]
      · rw [if_neg (by omega), if_neg (by omega), if_neg (by omega), if_neg h4]

theorem shiftDown_get (k : Nat) : ∀ (flows : List Flow) (i : Nat), k ≤ i → ∀ {r}, shiftDown flows i k = some r → ∀ m,
    r[m]? = if m < i - k ∨ i < m then flows[m]? else if m = i - k then flows[i]? else flows[m - 1]? := by
  induction k with
  | zero =>
    intro flows i _ r h m
    simp only [shiftDown, Option.some.injEq] at h
    subst h
    by_cases h1 : m < i - 0 ∨ i < m
    · rw [if_pos h1]
    · rw [if_neg h1, if_pos (by omega)]; congr 1; omega
  | succ k ih =>
    intro flows i hk r h m
    simp only [shiftDown] at h
    cases h2 : swapAt flows i (i - 1) with
    | none => rw [h2] at h; cases h
    | some f2 =>
      rw [h2] at h
      rw [ih f2 (i - 1) (by omega) h m, swapAt_get h2, swapAt_get h2, swapAt_get h2]
      by_cases h1 : m < i - (k + 1) ∨ i < m
      · rw [if_pos h1, if_pos (by omega), if_neg (by omega), if_neg (by omega)]
      rw [if_neg h1]
      by_cases h3 : m = i
      · subst h3
        rw [if_pos (by omega), if_neg (by omega), if_pos rfl, if_neg (by omega)]
      rw [if_neg (by omega)]
      by_cases h4 : m = i - (k + 1)
      · rw [if_pos (by omega), if_pos rfl, if_pos h4]
      · rw [if_neg (by omega), if_neg (by omega), if_neg (by omega), if_neg h4]

theorem swapAt_perm {flows r : List Flow} {i j : Nat} (h : swapAt flows i j = some r) : r.Perm flows := by
  obtain ⟨hi, hj, -, rfl⟩ := swapAt_some h
  exact List.set_set_perm hi hj

theorem shiftUp_perm (k : Nat) : ∀ (flows : List Flow) (i : Nat) {r}, shiftUp flows i k = some r → r.Perm flows := by
  induction k with
  | zero => intro flows i r h; simp only [shiftUp, Option.some.injEq] at h; subst h; exact List.Perm.refl _
  | succ k ih =>
    intro flows i r h
    simp only [shiftUp] at h
    cases h2 : swapAt flows i (i + 1) with
    | none => rw [h2] at h; cases h
    | some f2 => rw [h2] at h; exact (ih f2 _ h).trans (swapAt_perm h2)

theorem shiftDown_perm (k : Nat) : ∀ (flows : List Flow) (i : Nat) {r}, shiftDown flows i k = some r → r.Perm flows := by
  induction k with
  | zero => intro flows i r h; simp only [shiftDown, Option.some.injEq] at h; subst h; exact List.Perm.refl _
  | succ k ih =>
    intro flows i r h
    simp only [shiftDown] at h
    cases h2 : swapAt flows i (i - 1) with
    | none => rw [h2] at h; cases h
    | some f2 => rw [h2] at h; exact (ih f2 _ h).trans (swapAt_perm h2)

theorem shift_perm {a b : Nat} {p p' : Producer} (h : shift a b p = some p') :
    ∃ fs, p' = { p with flows := fs } ∧ fs.Perm p.flows := by
  unfold shift at h
  split at h
  · cases h
  split at h
  · cases h
  simp only [] at h
  split at h
  · cases h2 : shiftDown p.flows (lastIdx a p.flows 0 0) (lastIdx a p.flows 0 0 - lastIdx b p.flows 0 0) with
    | none => rw [h2] at h; cases h
    | some fs => rw [h2] at h; exact ⟨fs, (Option.some.inj h).symm, shiftDown_perm _ _ _ h2⟩
  · cases h2 : shiftUp p.flows (lastIdx a p.flows 0 0) (lastIdx b p.flows 0 0 - lastIdx a p.flows 0 0) with
    | none => rw [h2] at h; cases h
    | some fs => rw [h2] at h; exact ⟨fs, (Option.some.inj h).symm, shiftUp_perm _ _ _ h2⟩

theorem toggleLoop_map (id : Nat) (flows : List Flow) :
    (toggleLoop id flows).1.map (fun f => (f.id, f.fields)) = flows.map fun f => (f.id, f.fields) := by
  induction flows with
  | nil => rfl
  | cons f fs ih =>
    simp only [toggleLoop]
    split
    · rfl
    · simp only [List.map_cons, ih]

theorem toggleLoop_count (id : Nat) (flows : List Flow) :
    (((toggleLoop id flows).1.countP (·.active) : Nat) : Int) = flows.countP (·.active) + (toggleLoop id flows).2 := by
  induction flows with
  | nil => rfl
  | cons f fs ih =>
    simp only [toggleLoop]
    split
    · cases hf : f.active
      · simp [hf]; try omega
      · simp [hf]; try omega
    · simp only [List.countP_cons]; omega

theorem toggle_frame {id : Nat} {p p' : Producer} (h : toggle id p = some p') (hc : p.numActive = p.flows.countP (·.active))
    (hl : p.flows.length < 2 ^ 32) :
    p'.flows.map (fun f => (f.id, f.fields)) = p.flows.map (fun f => (f.id, f.fields)) ∧
    p'.numActive = p'.flows.countP (·.active) ∧ p'.buf = p.buf ∧ p'.snapSize = p.snapSize := by
  unfold toggle at h
  split at h
  · cases h
  simp only [Option.some.injEq] at h
  subst h
  refine ⟨toggleLoop_map _ _, ?_, rfl, rfl⟩
  have h1 := toggleLoop_count id p.flows
  have h2 := toggleLoop_map id p.flows
  have h3 : (toggleLoop id p.flows).1.length = p.flows.length := by
    have := congrArg List.length h2; simpa using this
  have h4 := List.countP_le_length (p := fun f : Flow => f.active) (l := (toggleLoop id p.flows).1)
  simp only []
  rw [hc, ← h1]
  omega

theorem commands_frame {width : Nat → Nat} {data : List FlowData} (h256 : data.length < 256) {p p' : Producer} (hi : Inv width data p)
    (h : commands p = some p') : Inv width data p' ∧ p'.buf = p.buf ∧ p'.snapSize = p.snapSize := by
  unfold commands at h
  simp only [] at h
  have hshift : ∀ q, (if p.shiftId1 > 0 ∧ p.shiftId2 > 0
      then (shift p.shiftId1 p.shiftId2 p).map fun q => { q with shiftId1 := 0, shiftId2 := 0 } else some p) = some q →
      Inv width data q ∧ q.buf = p.buf ∧ q.snapSize = p.snapSize := by
    intro q hq
    split at hq
    · cases h2 : shift p.shiftId1 p.shiftId2 p with
      | none => rw [h2] at hq; cases hq
      | some r =>
        rw [h2] at hq
        obtain ⟨fs, rfl, hperm⟩ := shift_perm h2
        have hq := Option.some.inj hq
        subst hq
        refine ⟨⟨hi.ok, ?_, ?_, hi.len⟩, rfl, rfl⟩
        · exact (hperm.map _).trans hi.perm
        · show p.numActive = fs.countP (·.active)
          rw [hi.count]; exact (hperm.countP_eq _).symm
    · obtain rfl := Option.some.inj hq; exact ⟨hi, rfl, rfl⟩
  split at h
  · cases h
  · rename_i q hq
    obtain ⟨iq, hb, hs⟩ := hshift q hq
    split at h
    · cases h2 : toggle q.toggleId q with
      | none => rw [h2] at h; cases h
      | some r =>
        rw [h2] at h
        obtain rfl := Option.some.inj h
        have hlen : q.flows.length = data.length := by
          have := iq.perm.length_eq; simpa using this
        obtain ⟨a1, a2, a3, a4⟩ := toggle_frame h2 iq.count (by omega)
        refine ⟨⟨iq.ok, ?_, a2, ?_⟩, by simp only [a3, hb], by simp only [a4, hs]⟩
        · simp only [a1]; exact iq.perm
        · simp only [a3]; exact iq.len
    · obtain rfl := Option.some.inj h; exact ⟨iq, hb, hs⟩

theorem le_sum_of_mem {l : List Nat} {x : Nat} (h : x ∈ l) : x ≤ l.sum := by
  induction l with
  | nil => simp at h
  | cons y ys ih =>
    rw [List.sum_cons]
    rcases List.mem_cons.mp h with rfl | h
    · omega
    · have := ih h; omega

/-- Every segment of a configured flow fits in a packet. -/
theorem inv_seg {width : Nat → Nat} {data : List FlowData} {p : Producer} (hi : Inv width data p)
    {env : Nat → List Bool} (hf : Fits width env) : ∀ f ∈ p.flows, ∀ b ∈ Flow.segments env f, b.length ≤ 559 := by
  intro f hfm b hb
  have : (f.id, f.fields) ∈ data.map fun d => ((mkFlow data.length d).id, d.fields) :=
    hi.perm.mem_iff.mp (List.mem_map_of_mem (f := fun f : Flow => (f.id, f.fields)) hfm)
  obtain ⟨d, hd, he⟩ := List.mem_map.mp this
  obtain ⟨e1, e2⟩ := Prod.mk.inj he
  obtain ⟨-, -, h3⟩ := hi.ok d hd
  unfold Flow.segments at hb
  rcases List.mem_cons.mp hb with rfl | hb
  · rw [← e1]; simp only [mkFlow, natBits_length]; omega
  · obtain ⟨x, hx, rfl⟩ := List.mem_map.mp hb
    rw [hf x]
    rw [← e2] at hx
    have := le_sum_of_mem (List.mem_map_of_mem (f := width) hx)
    omega

theorem execute_inv {width : Nat → Nat} {data : List FlowData} (h256 : data.length < 256) {p p' : Producer}
    (hi : Inv width data p) {env : Nat → List Bool} (hf : Fits width env) {cc : U32}
    (h : execute width env cc p = some p') :
    Inv width data p' ∧ ∃ p1, produce width env cc p = some p1 ∧ p'.buf = p1.buf ∧ p'.snapSize = p1.snapSize ∧
      commands p1 = some p' := by
  unfold execute at h
  cases h1 : produce width env cc p with
  | none => rw [h1] at h; cases h
  | some p1 =>
    rw [h1] at h
    simp only [] at h
    obtain ⟨buf, rfl⟩ := produce_frame h1
    have hlen : buf.length = p.buf.length := by
      by_cases hfit : frameLen (rawPayload env cc p).length < 8 * p.buf.length
      · obtain ⟨b2, e2, l2, -⟩ := produce_spec width env cc p (inv_seg hi hf) hfit
        rw [h1] at e2
        have := congrArg Producer.buf (Option.some.inj e2)
        simp only [] at this
        rw [this, l2]
      · rw [produce_oob width env cc p (inv_seg hi hf) (by omega)] at h1; cases h1
    have hi1 : Inv width data { p with snapSize := downlinkSize width p.flows false, buf } :=
      ⟨hi.ok, hi.perm, hi.count, by simp only [hlen]; exact hi.len⟩
    obtain ⟨a1, a2, a3⟩ := commands_frame h256 hi1 h
    exact ⟨a1, _, rfl, a2, a3, h⟩

theorem run_inv {width : Nat → Nat} {data : List FlowData} (h256 : data.length < 256) (cycles : List Cycle) :
    ∀ {p p' : Producer}, Inv width data p → (∀ c ∈ cycles, Fits width c.env) → run width p cycles = some p' → Inv width data p' := by
  induction cycles with
  | nil => intro p p' hi _ h; simp only [run, Option.some.injEq] at h; subst h; exact hi
  | cons c cs ih =>
    intro p p' hi hf h
    simp only [run] at h
    split at h
    · cases h
    · rename_i q hq
      have hi' : Inv width data { p with toggleId := c.toggleId, shiftId1 := c.shiftId1, shiftId2 := c.shiftId2 } :=
        ⟨hi.ok, hi.perm, hi.count, hi.len⟩
      exact ih (execute_inv h256 hi' (hf c List.mem_cons_self) hq).1 (fun x hx => hf x (List.mem_cons_of_mem _ hx)) h

theorem reachable_inv {width : Nat → Nat} {data : List FlowData} (h256 : data.length < 256) {p : Producer}
    (h : Reachable width data p) : Inv width data p := by
  obtain ⟨junk, p0, cycles, h1, h2, h3⟩ := h
  exact run_inv h256 cycles (init_inv width junk data h256 h1) h2 h3

/-! ### payloads of reachable producers -/

theorem inv_flow {width : Nat → Nat} {data : List FlowData} {p : Producer} (hi : Inv width data p) {f : Flow} (hf : f ∈ p.flows) :
    ∃ d ∈ data, f.id = (mkFlow data.length d).id ∧ f.fields = d.fields := by
  have : (f.id, f.fields) ∈ data.map fun d => ((mkFlow data.length d).id, d.fields) :=
    hi.perm.mem_iff.mp (List.mem_map_of_mem (f := fun f : Flow => (f.id, f.fields)) hf)
  obtain ⟨d, hd, he⟩ := List.mem_map.mp this
  obtain ⟨e1, e2⟩ := Prod.mk.inj he
  exact ⟨d, hd, e1.symm, e2.symm⟩

theorem inv_flow_id {width : Nat → Nat} {data : List FlowData} (h256 : data.length < 256) {p : Producer} (hi : Inv width data p)
    {f : Flow} (hf : f ∈ p.flows) :
    ∃ d ∈ data, f.idVal = d.id ∧ f.fields = d.fields ∧ f.id.bits = natBits (idWidth data.length) f.idVal.toNat ∧
      0 < d.id ∧ d.id ≤ data.length := by
  obtain ⟨d, hd, e1, e2⟩ := inv_flow hi hf
  obtain ⟨h1, h2, -⟩ := hi.ok d hd
  have hid : f.idVal = d.id := by
    have := mkFlow_id data.length d h256 h1 h2
    unfold Flow.idVal at this ⊢
    rw [e1]; exact this
  refine ⟨d, hd, hid, e2, ?_, h1, h2⟩
  rw [hid, e1]; rfl

theorem rawPayload_eq {width : Nat → Nat} {data : List FlowData} (h256 : data.length < 256) {p : Producer} (hi : Inv width data p)
    (env : Nat → List Bool) (cc : U32) : rawPayload env cc p = payload env cc (activeFlows p) data.length := by
  unfold rawPayload payload activeFlows
  rw [List.flatten_cons]
  congr 1
  have : ∀ fs : List Flow, (∀ f ∈ fs, f ∈ p.flows) → (fs.flatMap (Flow.segments env)).flatten =
      (fs.map fun f => (f.idVal.toNat, f.fields)).flatMap fun f => natBits (idWidth data.length) f.1 ++ f.2.flatMap env := by
    intro fs
    induction fs with
    | nil => intro _; rfl
    | cons f fs ih =>
      intro h
      obtain ⟨-, -, -, -, hb, -, -⟩ := inv_flow_id h256 hi (h f List.mem_cons_self)
      rw [List.flatMap_cons, List.flatten_append, ih (fun x hx => h x (List.mem_cons_of_mem _ hx)), List.map_cons, List.flatMap_cons]
      congr 1
      simp only [Flow.segments, List.flatten_cons, hb]
      rw [List.flatMap_def]
  exact this _ (fun f hf => (List.mem_filter.mp hf).1)

theorem rawPayload_length {width : Nat → Nat} {data : List FlowData} {p : Producer} (_hi : Inv width data p)
    {env : Nat → List Bool} (hf : Fits width env) (cc : U32) :
    (rawPayload env cc p).length = 32 + ((p.flows.filter (·.active)).map fun f => f.packetSize width).sum := by
  unfold rawPayload
  rw [List.flatten_cons, List.length_append, natBits_length]
  congr 1
  induction p.flows.filter (·.active) with
  | nil => rfl
  | cons f fs ih =>
    rw [List.flatMap_cons, List.flatten_append, List.length_append, ih, List.map_cons, List.sum_cons]
    congr 1
    unfold Flow.segments Flow.packetSize
    rw [List.flatten_cons, List.length_append]
    congr 1
    induction f.fields with
    | nil => rfl
    | cons x xs ih2 => rw [List.map_cons, List.flatten_cons, List.length_append, ih2, hf x, List.map_cons, List.sum_cons]

theorem downlinkSize_eq {width : Nat → Nat} {data : List FlowData} {p : Producer} (hi : Inv width data p)
    {env : Nat → List Bool} (hf : Fits width env) (cc : U32) :
    downlinkSize width p.flows false = ((rawPayload env cc p).length + ((rawPayload env cc p).length + 559) / 560 + 7) / 8 := by
  rw [rawPayload_length hi hf]
  unfold downlinkSize
  have : (fun f : Flow => f.active || false) = fun f => f.active := by funext f; simp
  rw [this]
  simp only []
  have h2 : ∀ n : Nat, n + 32 + (n + 32 + 560 - 1) / 560 = 32 + n + (32 + n + 559) / 560 := by intro n; omega
  rw [h2]

theorem active_ids_nodup {width : Nat → Nat} {data : List FlowData} (h256 : data.length < 256) {p : Producer} (hi : Inv width data p)
    (hd : DistinctIds data) : ((activeFlows p).map (·.1)).Nodup := by
  have h1 : (p.flows.map fun f => f.idVal.toNat).Perm (data.map (·.id)) := by
    have h2 := hi.perm.map fun x : IntSer × List Nat => x.1.deserialize.toNat
    rw [List.map_map, List.map_map] at h2
    refine h2.trans (List.Perm.of_eq ?_)
    apply List.map_congr_left
    intro d hdm
    obtain ⟨h1, h2, -⟩ := hi.ok d hdm
    have := mkFlow_id data.length d h256 h1 h2
    unfold Flow.idVal at this
    simp only [Function.comp, this]; omega
  have h3 : (p.flows.map fun f => f.idVal.toNat).Nodup := h1.nodup_iff.mpr hd
  unfold activeFlows
  rw [List.map_map]
  exact h3.sublist (List.filter_sublist.map _)

/-- The ground station looks flows up in its own table, built from the same configuration. -/
theorem find_ground {width : Nat → Nat} (data : List FlowData) (h256 : data.length < 256) (hd : DistinctIds data)
    (hok : OkData width data.length data) {d : FlowData} (hdm : d ∈ data) :
    (data.map (mkFlow data.length)).find? (fun f => f.idVal = (d.id : Int)) = some (mkFlow data.length d) := by
  have : ∀ (n : Nat) (l : List FlowData), (∀ x ∈ l, x ∈ data) → (l.map (·.id)).Nodup → d ∈ l →
      (l.map (mkFlow data.length)).find? (fun f => f.idVal = (d.id : Int)) = some (mkFlow data.length d) := by
    intro n l
    induction l with
    | nil => intro _ _ h; simp at h
    | cons x xs ih =>
      intro hsub hn hm
      rw [List.map_cons, List.nodup_cons] at hn
      obtain ⟨h1, h2, -⟩ := hok x (hsub x List.mem_cons_self)
      have hx := mkFlow_id data.length x h256 h1 h2
      rw [List.map_cons, List.find?_cons]
      rcases List.mem_cons.mp hm with rfl | hm
      · rw [hx]; simp
      · have hne : x.id ≠ d.id := fun h => hn.1 (h ▸ List.mem_map_of_mem hm)
        have : decide ((mkFlow data.length x).idVal = (d.id : Int)) = false := by rw [hx]; simp; omega
        rw [this]
        exact ih (fun y hy => hsub y (List.mem_cons_of_mem _ hy)) hn.2 hm
  exact this 0 data (fun _ h => h) hd hdm

end Downlink
end PAN
