import Verif.Model.BitstreamOps
import Verif.Lemmas.Uplink
/-! C120: the stream operators. -/
namespace PAN
open Spec Bitstream Uplink BitOps

namespace Spec

/-- The bits of an item: a number's, least significant first, or those of the array. -/
def itemBits : Item → List Bool
  | .num k v => natBits (8 * k) v
  | .bits ba => ba

/-- A number of 1, 2 or 4 bytes that has its type's range; any bit array. -/
def ItemOk : Item → Prop
  | .num k v => (k = 1 ∨ k = 2 ∨ k = 4) ∧ v < 256 ^ k
  | .bits _ => True

/-- All bits of a list of items, one after the other. -/
def itemsBits (is : List Item) : List Bool := is.flatMap itemBits

end Spec

namespace BitOps

/-- Laying out bits at the position of a stream. -/
private def Laid (s s' : Bitstream) (bs : List Bool) : Prop :=
  WellFormed s' ∧ pos s' = pos s + bs.length ∧ s'.bytes.length = s.bytes.length ∧
    bitsOf s'.bytes = (bitsOf s.bytes).take (pos s) ++ bs ++ (bitsOf s.bytes).drop (pos s + bs.length)

private theorem Laid.trans {s s1 s2 : Bitstream} {a b : List Bool} (hw : WellFormed s) (h1 : Laid s s1 a) (h2 : Laid s1 s2 b) :
    Laid s s2 (a ++ b) := by
  obtain ⟨a1, a2, a3, a4⟩ := h1
  obtain ⟨b1, b2, b3, b4⟩ := h2
  have hl : ((bitsOf s.bytes).take (pos s)).length = pos s := by
    rw [List.length_take, bitsOf_length]; have := hw.2; omega
  have hA : ((bitsOf s.bytes).take (pos s) ++ a).length = pos s1 := by rw [List.length_append, hl, a2]
  refine ⟨b1, by rw [b2, a2, List.length_append]; omega, by omega, ?_⟩
  rw [b4, a4, List.take_left' hA, ← List.drop_drop, List.drop_left' hA, List.drop_drop, List.length_append]
  simp only [List.append_assoc, Nat.add_assoc]

theorem putNum_laid (s : Bitstream) (k v : Nat) (hw : WellFormed s) (hk : k ≤ 8) (hf : 8 * k ≤ (remaining s).length) :
    ∃ s', putNum s k v = some s' ∧ WellFormed s' ∧ pos s' = pos s + (natBits (8 * k) v).length ∧
      s'.bytes.length = s.bytes.length ∧ bitsOf s'.bytes = (bitsOf s.bytes).take (pos s) ++ natBits (8 * k) v ++
        (bitsOf s.bytes).drop (pos s + (natBits (8 * k) v).length) := by
  have hl : (sizeTBytes v).length = 8 := by simp [sizeTBytes]
  obtain ⟨s', h1, h2, h3, h4, h5⟩ := C01_write_exact s (8 * k) ((sizeTBytes v).take k) hw hf
    (by rw [bitsOf_length, List.length_take]; omega)
  unfold putNum
  rw [h1]
  refine ⟨s', rfl, h2, by rw [natBits_length]; exact h3, h4, ?_⟩
  rw [bitsOf_take, List.take_take, Nat.min_self, sizeT_bits _ _ (by omega)] at h5
  rw [natBits_length]
  exact h5

theorem putStream_laid (s other : Bitstream) (hw : WellFormed s) (ho : WellFormed other)
    (hf : (remaining other).length ≤ (remaining s).length) :
    ∃ s' o', putStream s other = some (s', o') ∧ WellFormed s' ∧ pos s' = pos s + (remaining other).length ∧
      s'.bytes.length = s.bytes.length ∧ bitsOf s'.bytes = (bitsOf s.bytes).take (pos s) ++ remaining other ++
        (bitsOf s.bytes).drop (pos s + (remaining other).length) ∧ o'.bytes = other.bytes ∧ remaining o' = [] := by
  have hn : (other.maxLen - other.byteOff) * 8 - other.bitOff = (remaining other).length := by
    rw [remaining_length]
    unfold Bitstream.maxLen Spec.pos
    omega
  unfold putStream
  rw [hn]
  obtain ⟨c, out, t, d1, d2, d3, d4, d5, d6, d7, d8⟩ := C02_read_sequential other (remaining other).length ho
  rw [Nat.min_self] at d2
  subst d2
  have hout : (bitsOf out).take (remaining other).length = remaining other := by
    rw [d4, List.take_length, List.take_left' rfl]
  have hol : (remaining other).length ≤ (bitsOf out).length := by rw [bitsOf_length]; omega
  obtain ⟨s2, e1, e2, e3, e4, e5⟩ := C01_write_exact s (remaining other).length out hw hf hol
  unfold Bitstream.editNFrom
  rw [d1]
  simp only [e1]
  rw [hout] at e5
  exact ⟨s2, t, rfl, e2, e3, e4, e5, d5, by rw [d8, List.drop_length]⟩

private theorem put_laid (junk : Nat → Bool) (is : List Item) : ∀ s : Bitstream, WellFormed s →
    (∀ i ∈ is, ItemOk i) → (∀ ba, .bits ba ∈ is → ba.length % 8 = 0) → (itemsBits is).length ≤ (remaining s).length →
    ∃ s', putAll junk s is = some s' ∧ Laid s s' (itemsBits is) := by
  induction is with
  | nil => intro s hw _ _ _; exact ⟨s, rfl, hw, by simp [itemsBits], rfl, by simp [itemsBits]⟩
  | cons i is ih =>
    intro s hw hok h8 hf
    have hsplit : itemsBits (i :: is) = itemBits i ++ itemsBits is := rfl
    have key : ∀ s1, Laid s s1 (itemBits i) → ∃ s', putAll junk s1 is = some s' ∧ Laid s s' (itemsBits (i :: is)) := by
      intro s1 h1
      have hr := remaining_length s
      have hr1 := remaining_length s1
      rw [hsplit, List.length_append] at hf
      obtain ⟨s', g1, g2⟩ := ih s1 h1.1 (fun j hj => hok j (by simp [hj])) (fun ba hb => h8 ba (by simp [hb]))
        (by have := h1.2.1; have := h1.2.2.1; omega)
      exact ⟨s', g1, hsplit ▸ h1.trans hw g2⟩
    have hfi : (itemBits i).length ≤ (remaining s).length := by
      rw [hsplit, List.length_append] at hf; omega
    cases i with
    | num k v =>
      have h0 : (k = 1 ∨ k = 2 ∨ k = 4) ∧ v < 256 ^ k := hok (.num k v) (by simp)
      have hk : k ≤ 8 := by omega
      obtain ⟨s1, g1, g2⟩ := putNum_laid s k v hw hk (by simpa [itemBits, natBits_length] using hfi)
      obtain ⟨s', e1, e2⟩ := key s1 g2
      exact ⟨s', by simp [putAll, g1, e1], e2⟩
    | bits ba =>
      have hb := h8 ba (by simp)
      obtain ⟨b1, b2, b3⟩ := ofBits_remaining ba junk
      have hlen : (remaining (ofBits ba junk)).length = ba.length := by rw [b3]; omega
      have heq : remaining (ofBits ba junk) = ba := by rw [← hlen, List.take_length] at b2; exact b2
      obtain ⟨s1, o1, g1, g2, g3, g4, g5, -⟩ := putStream_laid s (ofBits ba junk) hw b1 (by rw [hlen]; exact hfi)
      rw [heq] at g3 g5
      obtain ⟨s', e1, e2⟩ := key s1 ⟨g2, g3, g4, g5⟩
      exact ⟨s', by simp [putAll, putBits, g1, e1], e2⟩

theorem getAll_read (is : List Item) : ∀ (s : Bitstream) (rest : List Bool), WellFormed s → (∀ i ∈ is, ItemOk i) →
    remaining s = itemsBits is ++ rest → getAll s is = some (is, s.at' (pos s + (itemsBits is).length)) := by
  induction is with
  | nil => intro s rest hw _ _; simp [getAll, itemsBits, at_pos s hw.1]
  | cons i is ih =>
    intro s rest hw hok hr
    have hsplit : itemsBits (i :: is) = itemBits i ++ itemsBits is := rfl
    rw [hsplit, List.append_assoc] at hr
    have hrl := remaining_length s
    have hlen : (itemBits i).length ≤ (remaining s).length := by rw [hr, List.length_append]; omega
    have hw' : WellFormed (s.at' (pos s + (itemBits i).length)) := wf_at _ _ (by have := hw.2; omega)
    have hr' : remaining (s.at' (pos s + (itemBits i).length)) = itemsBits is ++ rest := by
      rw [remaining_at, hr, List.drop_left' rfl]
    have ih' := ih _ rest hw' (fun j hj => hok j (by simp [hj])) hr'
    rw [pos_at, at_at] at ih'
    have he : pos s + (itemsBits (i :: is)).length = pos s + (itemBits i).length + (itemsBits is).length := by
      rw [hsplit, List.length_append]; omega
    rw [he]
    cases i with
    | num k v =>
      have h0 : (k = 1 ∨ k = 2 ∨ k = 4) ∧ v < 256 ^ k := hok (.num k v) (by simp)
      have hv := h0.2
      obtain ⟨out, h1, h2⟩ := nextN_nat s (8 * k) hw
      have hl8 : (itemBits (.num k v)).length = 8 * k := natBits_length _ _
      rw [hl8] at hlen ih' ⊢
      rw [Nat.min_eq_left hlen] at h1
      rw [hr, show itemBits (.num k v) = natBits (8 * k) v from rfl, take_natBits, bitsToNat_natBits,
        show (2 : Nat) ^ (8 * k) = 256 ^ k by rw [Nat.pow_mul], Nat.mod_eq_of_lt hv] at h2
      simp [getAll, getNum, h1, h2, ih']
    | bits ba =>
      obtain ⟨s', h1, h2, h3, h4⟩ := (C02_read_bit_array s ba.length ba.length (List.replicate ba.length false) hw).2 (by omega)
      have hb : (itemBits (.bits ba)).length = ba.length := rfl
      rw [hb] at hlen ih' ⊢
      rw [Nat.min_eq_left hlen] at h1 h4
      have hs' : s' = s.at' (pos s + ba.length) := by
        have := at_pos s' h3.1
        rw [← this, h4]
        unfold Bitstream.at'
        rw [h2]
      rw [hr, show itemBits (.bits ba) = ba from rfl, List.take_left' rfl] at h1
      simp [getAll, getBits, h1, hs', ih']

end BitOps

/-- C120. Numbers and bit arrays of whole bytes put into a stream one after the other: if there is room for all of them, every one
is accepted, their bits follow each other from the position of the stream on, and no other bit of the buffer changes. -/
theorem C120_written_partial (junk : Nat → Bool) (s : Bitstream) (is : List Item) (hw : WellFormed s) (hok : ∀ i ∈ is, ItemOk i)
    (h8 : ∀ ba, .bits ba ∈ is → ba.length % 8 = 0) (hf : (itemsBits is).length ≤ (remaining s).length) :
    ∃ s', putAll junk s is = some s' ∧ WellFormed s' ∧ pos s' = pos s + (itemsBits is).length ∧
      bitsOf s'.bytes = (bitsOf s.bytes).take (pos s) ++ itemsBits is ++
        (bitsOf s.bytes).drop (pos s + (itemsBits is).length) := by
  obtain ⟨s', h1, h2, h3, -, h5⟩ := put_laid junk is s hw hok h8 hf
  exact ⟨s', h1, h2, h3, h5⟩

/-- C120. Going back to where the first was put and taking out items of the same kinds in the same order gives what was put in,
and ends at the same position. -/
theorem C120_read_back_partial (junk : Nat → Bool) (s : Bitstream) (is : List Item) (hw : WellFormed s) (hok : ∀ i ∈ is, ItemOk i)
    (h8 : ∀ ba, .bits ba ∈ is → ba.length % 8 = 0) (hf : (itemsBits is).length ≤ (remaining s).length) :
    ∃ s' s'', putAll junk s is = some s' ∧ s'.seekG (itemsBits is).length false = ((itemsBits is).length, s'') ∧
      getAll s'' is = some (is, s') := by
  obtain ⟨s', h1, h2, h3, h4, h5⟩ := put_laid junk is s hw hok h8 hf
  have hb := seekG_back s' (itemsBits is).length h2.2 (by omega)
  refine ⟨s', _, h1, hb, ?_⟩
  have e : pos s' - (itemsBits is).length = pos s := by omega
  have hwb : WellFormed (s'.at' (pos s' - (itemsBits is).length)) := wf_at _ _ (by have := h2.2; omega)
  have hlp : ((bitsOf s.bytes).take (pos s)).length = pos s := by
    rw [List.length_take, bitsOf_length]; have := hw.2; omega
  have hr : remaining (s'.at' (pos s' - (itemsBits is).length)) = itemsBits is ++ (bitsOf s.bytes).drop (pos s + (itemsBits is).length) := by
    unfold remaining
    rw [pos_at, bytes_at, h5, e, List.append_assoc, List.drop_left' hlp]
  have := getAll_read is _ _ hwb hok hr
  rw [pos_at, at_at, e, ← h3, at_pos s' h2.1, ← e] at this
  exact this

-- A buffer of ten bytes, position 3: a number of four bytes, an array of eight bits and a number of one byte.
example : WellFormed ⟨List.replicate 10 0xA5, 0, 3⟩ ∧ (∀ i ∈ [Item.num 4 0xDEADBEEF, .bits [true, false, true, true, false, false, true, true], .num 1 77], ItemOk i) ∧
    (itemsBits [Item.num 4 0xDEADBEEF, .bits [true, false, true, true, false, false, true, true], .num 1 77]).length ≤
      (remaining ⟨List.replicate 10 0xA5, 0, 3⟩).length := by
  refine ⟨by decide, ?_, by decide⟩
  intro i hi
  simp only [List.mem_cons, List.not_mem_nil, or_false] at hi
  rcases hi with rfl | rfl | rfl
  · exact ⟨by simp, by decide⟩
  · trivial
  · exact ⟨by simp, by decide⟩

/-- C120. A stream put into another: everything of it that has not been read, and nothing else, is copied to the position of the
other; it has been read to its end afterwards. -/
theorem C120_stream (s other : Bitstream) (hw : WellFormed s) (ho : WellFormed other)
    (hf : (remaining other).length ≤ (remaining s).length) :
    ∃ s' o', putStream s other = some (s', o') ∧ WellFormed s' ∧ pos s' = pos s + (remaining other).length ∧
      bitsOf s'.bytes = (bitsOf s.bytes).take (pos s) ++ remaining other ++
        (bitsOf s.bytes).drop (pos s + (remaining other).length) ∧ o'.bytes = other.bytes ∧ remaining o' = [] := by
  obtain ⟨s', o', h1, h2, h3, -, h5, h6⟩ := putStream_laid s other hw ho hf
  exact ⟨s', o', h1, h2, h3, h5, h6⟩

example : WellFormed ⟨[1, 2, 3], 0, 5⟩ ∧ WellFormed ⟨[7, 8], 1, 2⟩ ∧
    (remaining ⟨[7, 8], 1, 2⟩).length = 6 ∧ (remaining ⟨[1, 2, 3], 0, 5⟩).length = 19 := by decide

/-- C120 does not hold for bit arrays that are not whole bytes: the position ends beyond the array, on the next multiple of eight
bits from where it began. -/
theorem C120_counterexample_position (junk : Nat → Bool) (s : Bitstream) (ba : List Bool) (hw : WellFormed s) (h8 : ba.length % 8 ≠ 0)
    (hf : ba.length + 8 ≤ (remaining s).length) :
    ∃ s', putBits s ba junk = some s' ∧ pos s' = pos s + 8 * (ba.length / 8 + 1) ∧ pos s + ba.length < pos s' := by
  obtain ⟨b1, -, b3⟩ := ofBits_remaining ba junk
  obtain ⟨s', o', g1, -, g3, -⟩ := putStream_laid s (ofBits ba junk) hw b1 (by rw [b3]; omega)
  refine ⟨s', by simp [putBits, g1], ?_, ?_⟩ <;> rw [g3, b3] <;> omega

example : WellFormed ⟨[0, 0, 0], 0, 3⟩ ∧ [true, false, true].length + 8 ≤ (remaining ⟨[0, 0, 0], 0, 3⟩).length := by decide

/-- C120 does not hold for bit arrays that are not whole bytes: the bits of the buffer behind the array are overwritten by whatever
the memory behind the array holds. Whichever of them is looked at and whatever it was, it can come out as either value. -/
theorem C120_counterexample_overwritten (s : Bitstream) (ba : List Bool) (hw : WellFormed s) (k : Nat) (hk : ba.length ≤ k)
    (hk' : k < 8 * ((ba.length + 7) / 8)) (hf : ba.length + 8 ≤ (remaining s).length) (b : Bool) :
    ∃ junk s', putBits s ba junk = some s' ∧ (bitsOf s'.bytes)[pos s + k]? = some b := by
  refine ⟨fun _ => b, ?_⟩
  obtain ⟨b1, b2, b3⟩ := ofBits_remaining ba (fun _ => b)
  obtain ⟨s', o', g1, -, -, -, g5, -⟩ := putStream_laid s (ofBits ba fun _ => b) hw b1 (by rw [b3]; omega)
  refine ⟨s', by simp [putBits, g1], ?_⟩
  have hl : ((bitsOf s.bytes).take (pos s)).length = pos s := by
    rw [List.length_take, bitsOf_length]; have := hw.2; omega
  rw [g5, List.append_assoc, List.getElem?_append_right (by omega), hl, Nat.add_sub_cancel_left,
    List.getElem?_append_left (by rw [b3]; exact hk')]
  have hrem : remaining (ofBits ba fun _ => b) = bitsOf (ofBits ba fun _ => b).bytes := by
    unfold remaining
    rw [show pos (ofBits ba fun _ => b) = 0 from rfl, List.drop_zero]
  rw [hrem, bitsOf_get]
  have hi : k / 8 < (ba.length + 7) / 8 := by omega
  simp only [ofBits, Bitstream.ofBytes, List.getElem?_map, List.getElem?_range hi, Option.map_some, Option.some.injEq]
  rw [packByte_get _ _ 8 (by omega) _ (by omega)]
  have e : 8 * (k / 8) + k % 8 = k := by omega
  simp only [e]
  rw [dif_neg (by omega)]
  simp
  omega

example : [true].length ≤ 5 ∧ 5 < 8 * (([true].length + 7) / 8) ∧ [true].length + 8 ≤ (remaining ⟨[0, 0], 0, 1⟩).length := by decide

end PAN
