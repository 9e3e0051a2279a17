import Verif.Lemmas.Bits
import Verif.Lemmas.BitArray
import Verif.Model.Uplink
import Verif.Spec.Uplink
import Verif.Props.Bitstream
import Mathlib.Data.List.Nodup
import Mathlib.Data.List.Perm.Subperm
/-! Lemmas about the uplink path. -/
namespace PAN
open Spec Bitstream

theorem natBits_length (w : Nat) : ∀ n, (natBits w n).length = w := by
  induction w with
  | zero => intro n; rfl
  | succ w ih => intro n; simp [natBits, ih]

theorem bitsToNat_natBits (w : Nat) : ∀ n, bitsToNat (natBits w n) = n % 2 ^ w := by
  induction w with
  | zero => intro n; simp [natBits, bitsToNat]; omega
  | succ w ih =>
    intro n
    rw [natBits, bitsToNat, ih, Nat.pow_succ, Nat.mul_comm (2 ^ w) 2, Nat.mod_mul]
    by_cases h : n % 2 = 1
    · simp [h]
    · have : n % 2 = 0 := by omega
      simp [this]

theorem natBits_bitsToNat (l : List Bool) : natBits l.length (bitsToNat l) = l := by
  induction l with
  | nil => rfl
  | cons b l ih =>
    simp only [List.length_cons, natBits, bitsToNat]
    have h1 : (b.toNat + 2 * bitsToNat l) / 2 = bitsToNat l := by cases b <;> simp; omega
    rw [h1, ih]
    cases b <;> simp

theorem bitsToNat_append (a b : List Bool) : bitsToNat (a ++ b) = bitsToNat a + 2 ^ a.length * bitsToNat b := by
  induction a with
  | nil => simp [bitsToNat]
  | cons x a ih =>
    simp only [List.cons_append, bitsToNat, ih, List.length_cons, Nat.pow_succ]
    rw [Nat.mul_add, ← Nat.mul_assoc, Nat.mul_comm 2 (2 ^ a.length)]; omega

theorem bitsToNat_zeros (k : Nat) : bitsToNat (List.replicate k false) = 0 := by
  induction k with
  | zero => rfl
  | succ k ih => simp [List.replicate_succ, bitsToNat, ih]

theorem bitsToNat_eq_zero {l : List Bool} (h : bitsToNat l = 0) : l = List.replicate l.length false := by
  induction l with
  | nil => rfl
  | cons b l ih =>
    simp only [bitsToNat] at h
    have hb : b = false := by cases b <;> simp at h ⊢
    have hl : bitsToNat l = 0 := by omega
    rw [List.length_cons, List.replicate_succ, hb, ← ih hl]

theorem byteBits_toNat (b : U8) : bitsToNat (byteBits b) = b.toNat := by
  have h : natBits 8 b.toNat = byteBits b := by
    simp only [natBits, byteBits, BitVec.getLsbD, Nat.testBit_eq_decide_div_mod_eq, Nat.div_div_eq_div_mul]
    simp
  rw [← h, bitsToNat_natBits, Nat.mod_eq_of_lt b.isLt]

theorem leNat_eq (bs : List U8) : Uplink.leNat bs = bitsToNat (bitsOf bs) := by
  induction bs with
  | nil => rfl
  | cons b bs ih =>
    rw [Uplink.leNat, bitsOf_cons, bitsToNat_append, byteBits_toNat, ih, byteBits_length]

theorem remaining_length (s : Bitstream) : (remaining s).length = 8 * s.bytes.length - pos s := by
  unfold remaining; rw [List.length_drop, bitsOf_length]

theorem remaining_at (s : Bitstream) (k : Nat) : remaining (s.at' (pos s + k)) = (remaining s).drop k := by
  unfold remaining; rw [pos_at, bytes_at, List.drop_drop]

/-- Reading a number from a stream. -/
theorem nextN_nat (s : Bitstream) (n : Nat) (hw : WellFormed s) :
    ∃ out, s.nextN n = some (min n (remaining s).length, out, s.at' (pos s + min n (remaining s).length)) ∧
      Uplink.leNat out = bitsToNat ((remaining s).take n) := by
  obtain ⟨out, h1, h2, -⟩ := nextN_spec s n hw
  obtain ⟨-, -, -, h4⟩ := nextN_bits s n hw h1
  rw [← remaining_length] at h1 h4
  refine ⟨out, h1, ?_⟩
  rw [leNat_eq, h4, bitsToNat_append, bitsToNat_zeros]; simp

namespace Uplink

theorem indexSizeFrom_spec (n : Nat) : ∀ k, n + 1 < 2 ^ indexSizeFrom n k ∧ k ≤ indexSizeFrom n k := by
  have : ∀ m k, n + 2 - k = m → n + 1 < 2 ^ indexSizeFrom n k ∧ k ≤ indexSizeFrom n k := by
    intro m
    induction m using Nat.strongRecOn with
    | _ m ih =>
      intro k hk
      rw [indexSizeFrom]
      by_cases h : (n + 1) / 2 ^ k > 0
      · rw [dif_pos h]
        have h1 : 2 ^ k ≤ n + 1 := by
          by_contra h2
          rw [Nat.div_eq_of_lt (by omega)] at h; omega
        have := Nat.lt_two_pow_self (n := k)
        have := ih (n + 2 - (k + 1)) (by omega) (k + 1) rfl
        omega
      · rw [dif_neg h]
        refine ⟨?_, Nat.le_refl _⟩
        by_contra h2
        have : 0 < (n + 1) / 2 ^ k := Nat.div_pos (by omega) (Nat.pow_pos (by omega))
        omega
  intro k; exact this _ k rfl

theorem indexSize_spec (n : Nat) : n + 1 < 2 ^ indexSize n ∧ 1 ≤ indexSize n := indexSizeFrom_spec n 1

/-- Widths of the registry's fields. -/
def widths {α : Type} (fields : List (WField α)) : List Nat := fields.map (fun f => f.bits.length)

theorem fieldLength_eq {α : Type} (fields : List (WField α)) (i : Nat) :
    fieldLength fields i = ((widths fields)[i]?).getD 0 := by
  unfold fieldLength widths
  rw [List.getElem?_map]
  cases fields[i]? <;> rfl

theorem widths_some {α : Type} {fields : List (WField α)} {i w : Nat} (h : (widths fields)[i]? = some w) :
    i < fields.length ∧ fieldLength fields i = w := by
  refine ⟨?_, by rw [fieldLength_eq, h]; rfl⟩
  have := (List.getElem?_eq_some_iff.mp h).1
  simpa [widths] using this

theorem fieldLength_ne_zero {α : Type} {fields : List (WField α)} {i : Nat} (h : fieldLength fields i ≠ 0) :
    (widths fields)[i]? = some (fieldLength fields i) ∧ i < fields.length := by
  rw [fieldLength_eq] at h ⊢
  cases hc : (widths fields)[i]? with
  | none => rw [hc] at h; exact absurd rfl h
  | some w =>
    have := (List.getElem?_eq_some_iff.mp hc).1
    exact ⟨rfl, by simpa [widths] using this⟩

/-- The entries that may still come, given which fields have been seen. -/
def Rest (isz : Nat) (ws : List Nat) (seen : List Bool) (bits : List Bool) : Prop :=
  ∃ es pad, IsPacket isz ws bits es pad ∧ pad ≤ isz + 7 ∧ ∀ e ∈ es, seen[e.index]? = some false

theorem encode_cons (isz : Nat) (e : Entry) (es : List Entry) :
    encode isz (e :: es) = natBits isz (e.index + 1) ++ (e.bits ++ encode isz es) := by
  simp [encode, encodeEntry]

theorem take_natBits (isz n : Nat) (l : List Bool) : (natBits isz n ++ l).take isz = natBits isz n := by
  have h := natBits_length isz n
  exact List.take_left' h

theorem drop_natBits (isz n : Nat) (l : List Bool) : (natBits isz n ++ l).drop isz = l := by
  have h := natBits_length isz n
  exact List.drop_left' h

/-- Anything that starts with an entry has that entry's index as its first number. -/
theorem first_index {isz : Nat} {ws : List Nat} {e : Entry} {es : List Entry} {pad : Nat} {R : List Bool}
    (hisz : ws.length + 1 < 2 ^ isz) (h : IsPacket isz ws R (e :: es) pad) :
    bitsToNat (R.take isz) = e.index + 1 ∧ isz ≤ R.length ∧ isz + e.bits.length ≤ R.length ∧
      (R.drop isz).take e.bits.length = e.bits ∧
      R.drop (isz + e.bits.length) = encode isz es ++ List.replicate pad false := by
  obtain ⟨h1, h2, h3⟩ := h
  have hw := (h3 e (by simp)).1
  have hi := (List.getElem?_eq_some_iff.mp hw).1
  rw [encode_cons, List.append_assoc, List.append_assoc] at h1
  refine ⟨?_, ?_, ?_, ?_, ?_⟩
  · rw [h1, take_natBits, bitsToNat_natBits, Nat.mod_eq_of_lt (by omega)]
  · rw [h1, List.length_append, natBits_length]; omega
  · rw [h1, List.length_append, natBits_length, List.length_append]; omega
  · rw [h1, drop_natBits, List.take_left' rfl]
  · rw [h1, ← List.drop_drop, drop_natBits, List.drop_left' rfl]

theorem zeros_of_nil {isz : Nat} {ws : List Nat} {pad : Nat} {R : List Bool} (h : IsPacket isz ws R [] pad) :
    R = List.replicate pad false := by
  simpa [IsPacket, encode] using h.1

theorem take_zeros_nat (R : List Bool) (n pad : Nat) (h : R = List.replicate pad false) : bitsToNat (R.take n) = 0 := by
  rw [h, List.take_replicate, bitsToNat_zeros]

/-- Correctness of the validation loop: it never leaves the buffer, and it ends acceptably exactly when the
rest of the stream is a packet. -/
theorem validateLoop_spec {α : Type} (fields : List (WField α)) (isz : Nat) (hisz : fields.length + 1 < 2 ^ isz) (m : Nat) :
    ∀ (s : Bitstream) (seen : List Bool), WellFormed s → seen.length = fields.length → (remaining s).length = m →
    ∃ r, validateLoop (8 * s.bytes.length) fields isz s (pos s) seen = some r ∧
      (∀ s', r = some s' → WellFormed s' ∧ s'.bytes = s.bytes) ∧
      ((∃ s', r = some s' ∧ (remaining s').length ≤ 7 ∧ bitsToNat (remaining s') = 0) ↔
        Rest isz (widths fields) seen (remaining s)) := by
  have hwl : (widths fields).length = fields.length := by simp [widths]
  induction m using Nat.strongRecOn with
  | _ m ih =>
    intro s seen hw hseen hm
    have hrl := remaining_length s
    have hw2 := hw.2
    rw [validateLoop]
    by_cases hlt : pos s < 8 * s.bytes.length
    · rw [dif_pos hlt]
      obtain ⟨out, hn, hv⟩ := nextN_nat s isz hw
      rw [hn]
      simp only [hv]
      by_cases hz : bitsToNat ((remaining s).take isz) = 0
      · rw [if_pos hz]
        have hwf : WellFormed (s.at' (pos s + min isz (remaining s).length)) := wf_at _ _ (by omega)
        refine ⟨_, rfl, ?_, ?_⟩
        · intro s' h; cases h; exact ⟨hwf, rfl⟩
        · constructor
          · rintro ⟨s', h1, h2, h3⟩
            cases h1
            rw [remaining_at] at h2 h3
            refine ⟨[], (remaining s).length, ⟨?_, ?_⟩, ?_, ?_⟩
            · rw [show encode isz [] = [] from rfl, List.nil_append]
              have e1 := bitsToNat_eq_zero hz
              have e2 := bitsToNat_eq_zero h3
              have hsplit := List.take_append_drop (min isz (remaining s).length) (remaining s)
              have htake : (remaining s).take (min isz (remaining s).length) = (remaining s).take isz := by
                rcases Nat.le_total isz (remaining s).length with h | h
                · rw [Nat.min_eq_left h]
                · rw [Nat.min_eq_right h, List.take_length, List.take_of_length_le h]
              rw [← hsplit, htake, e1, e2, List.replicate_append_replicate]
              congr 1
              simp only [List.length_replicate]
            · exact ⟨by simp, by simp⟩
            · rw [List.length_drop] at h2; omega
            · simp
          · rintro ⟨es, pad, hp, hpad, -⟩
            cases es with
            | nil =>
              have hR := zeros_of_nil hp
              refine ⟨_, rfl, ?_, ?_⟩
              · rw [remaining_at, List.length_drop]
                have : (remaining s).length = pad := by rw [hR, List.length_replicate]
                omega
              · rw [remaining_at, hR, List.drop_replicate, bitsToNat_zeros]
            | cons e es =>
              have := (first_index (by omega) hp).1
              omega
      · rw [if_neg hz]
        have hnil : ∀ {es pad}, IsPacket isz (widths fields) (remaining s) es pad → es ≠ [] := by
          intro es pad hp h
          subst h
          exact hz (take_zeros_nat _ _ _ (zeros_of_nil hp))
        by_cases hfl : fieldLength fields (bitsToNat ((remaining s).take isz) - 1) = 0
        · rw [dif_pos hfl]
          refine ⟨none, rfl, by simp, ?_⟩
          constructor
          · rintro ⟨s', h1, -⟩; cases h1
          · rintro ⟨es, pad, hp, -, -⟩
            cases es with
            | nil => exact absurd rfl (hnil hp)
            | cons e es =>
              have h1 := (first_index (by omega) hp).1
              have h2 := hp.2.2 e (by simp)
              have h3 := (widths_some h2.1).2
              rw [h1, Nat.add_sub_cancel, h3] at hfl
              exact absurd (List.eq_nil_of_length_eq_zero hfl) h2.2
        · rw [dif_neg hfl]
          obtain ⟨hwid, hidx⟩ := fieldLength_ne_zero hfl
          have hsl : bitsToNat ((remaining s).take isz) - 1 < seen.length := by omega
          rw [List.getElem?_eq_getElem hsl]
          simp only
          by_cases hrej : seen[bitsToNat ((remaining s).take isz) - 1] = true ∨ min isz (remaining s).length ≠ isz
          · rw [if_pos hrej]
            refine ⟨none, rfl, by simp, ?_⟩
            constructor
            · rintro ⟨s', h1, -⟩; cases h1
            · rintro ⟨es, pad, hp, -, hns⟩
              cases es with
              | nil => exact absurd rfl (hnil hp)
              | cons e es =>
                obtain ⟨h1, h2, -⟩ := first_index (by omega) hp
                have h3 := hns e (by simp)
                have h4 : bitsToNat ((remaining s).take isz) - 1 = e.index := by omega
                rcases hrej with hr | hr
                · have h5 : seen[bitsToNat ((remaining s).take isz) - 1]? = some true := by
                    rw [List.getElem?_eq_getElem hsl, hr]
                  rw [h4, h3] at h5; cases h5
                · omega
          · rw [if_neg hrej]
            have hns : seen[bitsToNat ((remaining s).take isz) - 1] = false := by
              have : ¬ seen[bitsToNat ((remaining s).take isz) - 1] = true := fun h => hrej (Or.inl h)
              simpa using this
            have hcm : min isz (remaining s).length = isz := by
              by_contra h; exact hrej (Or.inr h)
            have hle : isz ≤ (remaining s).length := by omega
            simp only [hcm]
            by_cases hfit : isz + fieldLength fields (bitsToNat ((remaining s).take isz) - 1) ≤ (remaining s).length
            · rw [seekG_fwd _ _ (by rw [pos_at, bytes_at]; omega)]
              simp only [ne_eq, not_true, if_false, pos_at, Nat.add_assoc]
              have hat : ({ s.at' (pos s + isz) with
                  byteOff := (pos s + (isz + fieldLength fields (bitsToNat ((remaining s).take isz) - 1))) / 8,
                  bitOff := (pos s + (isz + fieldLength fields (bitsToNat ((remaining s).take isz) - 1))) % 8 } : Bitstream) =
                  s.at' (pos s + (isz + fieldLength fields (bitsToNat ((remaining s).take isz) - 1))) := rfl
              rw [hat]
              generalize hs2 : s.at' (pos s + (isz + fieldLength fields (bitsToNat ((remaining s).take isz) - 1))) = s2
              have hp2 : pos s2 = pos s + (isz + fieldLength fields (bitsToNat ((remaining s).take isz) - 1)) := by
                rw [← hs2, pos_at]
              have hb2 : s2.bytes = s.bytes := by rw [← hs2]; rfl
              have hr2 : remaining s2 = (remaining s).drop (isz + fieldLength fields (bitsToNat ((remaining s).take isz) - 1)) := by
                rw [← hs2, remaining_at]
              have hw' : WellFormed s2 := by rw [← hs2]; exact wf_at _ _ (by omega)
              obtain ⟨r, i1, i2, i3⟩ := ih (remaining s2).length (by rw [hr2, List.length_drop]; omega) s2
                (seen.set (bitsToNat ((remaining s).take isz) - 1) true) hw' (by simpa using hseen) rfl
              rw [hb2, hp2] at i1
              refine ⟨r, i1, fun s' h => by obtain ⟨a, b⟩ := i2 s' h; exact ⟨a, by rw [b, hb2]⟩, ?_⟩
              rw [i3, hr2]
              constructor
              · rintro ⟨es, pad, ⟨h1, h2, h3⟩, hpad, hs⟩
                refine ⟨⟨bitsToNat ((remaining s).take isz) - 1,
                  ((remaining s).drop isz).take (fieldLength fields (bitsToNat ((remaining s).take isz) - 1))⟩ :: es, pad, ⟨?_, ?_, ?_⟩, hpad, ?_⟩
                · rw [encode_cons, List.append_assoc, List.append_assoc, ← h1]
                  have hlt : ((remaining s).take isz).length = isz := by rw [List.length_take]; omega
                  have hnb : natBits isz (bitsToNat ((remaining s).take isz)) = (remaining s).take isz := by
                    have := natBits_bitsToNat ((remaining s).take isz)
                    rwa [hlt] at this
                  have hsub : bitsToNat ((remaining s).take isz) - 1 + 1 = bitsToNat ((remaining s).take isz) :=
                    Nat.succ_pred_eq_of_ne_zero hz
                  simp only [hsub]
                  rw [hnb, ← List.drop_drop, List.take_append_drop, List.take_append_drop]
                · rw [List.map_cons, List.nodup_cons]
                  refine ⟨?_, h2⟩
                  intro hmem
                  obtain ⟨e, he1, he2⟩ := List.mem_map.mp hmem
                  have := hs e he1
                  rw [he2, List.getElem?_set_self hsl] at this
                  cases this
                · intro e he
                  rcases List.mem_cons.mp he with rfl | he
                  · have hl : (((remaining s).drop isz).take (fieldLength fields (bitsToNat ((remaining s).take isz) - 1))).length =
                        fieldLength fields (bitsToNat ((remaining s).take isz) - 1) := by
                      rw [List.length_take, List.length_drop]; omega
                    refine ⟨by rw [hl]; exact hwid, ?_⟩
                    intro hnil'
                    have := congrArg List.length hnil'
                    simp only at this
                    rw [hl] at this
                    exact hfl this
                  · exact h3 e he
                · intro e he
                  rcases List.mem_cons.mp he with rfl | he
                  · simp only; rw [List.getElem?_eq_getElem hsl, hns]
                  · have := hs e he
                    by_cases hee : bitsToNat ((remaining s).take isz) - 1 = e.index
                    · rw [hee, List.getElem?_set_self (by rw [← hee]; exact hsl)] at this; cases this
                    · rwa [List.getElem?_set_ne hee] at this
              · rintro ⟨es, pad, hp, hpad, hs⟩
                cases es with
                | nil => exact absurd rfl (hnil hp)
                | cons e es =>
                  obtain ⟨g1, g2, g3, g4, g5⟩ := first_index (by omega) hp
                  obtain ⟨h1, h2, h3⟩ := hp
                  have hei : bitsToNat ((remaining s).take isz) - 1 = e.index := by rw [g1]; rfl
                  have hel := (widths_some (h3 e (by simp)).1).2
                  rw [hei, hel, g5]
                  rw [List.map_cons, List.nodup_cons] at h2
                  refine ⟨es, pad, ⟨rfl, h2.2, fun e' he' => h3 e' (by simp [he'])⟩, hpad, ?_⟩
                  intro e' he'
                  have hne : e.index ≠ e'.index := by
                    intro h; apply h2.1; rw [h]; exact List.mem_map.mpr ⟨e', he', rfl⟩
                  rw [List.getElem?_set_ne hne]
                  exact hs e' (by simp [he'])
            · rw [seekG_fwd_refuse _ _ (by rw [pos_at, bytes_at]; omega)]
              simp only
              rw [if_pos (fun h => hfl h.symm)]
              refine ⟨none, rfl, by simp, ?_⟩
              constructor
              · rintro ⟨s', h1, -⟩; cases h1
              · rintro ⟨es, pad, hp, -, -⟩
                cases es with
                | nil => exact absurd rfl (hnil hp)
                | cons e es =>
                  obtain ⟨h1, -, h2, -⟩ := first_index (by omega) hp
                  have h3 := (widths_some (hp.2.2 e (by simp)).1).2
                  have h4 : bitsToNat ((remaining s).take isz) - 1 = e.index := by omega
                  rw [h4, h3] at hfit
                  exact absurd h2 hfit
    · rw [dif_neg hlt]
      have hnil : remaining s = [] := List.eq_nil_of_length_eq_zero (by omega)
      refine ⟨_, rfl, fun s' h => by cases h; exact ⟨hw, rfl⟩, ?_⟩
      constructor
      · intro _
        exact ⟨[], 0, ⟨by rw [hnil]; rfl, by simp, by simp⟩, by omega, by simp⟩
      · intro _
        exact ⟨s, rfl, by rw [hnil]; simp, by rw [hnil]; rfl⟩

/-- Correctness of packet validation, for every byte string. -/
theorem validate_spec {α : Type} (fields : List (WField α)) (isz : Nat) (hisz : fields.length + 1 < 2 ^ isz) (bytes : List U8) :
    ∃ b, validate fields isz (Bitstream.ofBytes bytes) = some b ∧
      (b = true ↔ ∃ es pad, IsPacket isz (widths fields) (bitsOf bytes) es pad ∧ pad ≤ isz + 7) := by
  have hw : WellFormed (Bitstream.ofBytes bytes) := ⟨by simp [Bitstream.ofBytes], by simp [pos, Bitstream.ofBytes]⟩
  obtain ⟨r, h1, h2, h3⟩ := validateLoop_spec fields isz hisz _ (Bitstream.ofBytes bytes) (fields.map fun _ => false) hw
    (by simp) rfl
  have hpos : pos (Bitstream.ofBytes bytes) = 0 := rfl
  have hrem : remaining (Bitstream.ofBytes bytes) = bitsOf bytes := by
    unfold remaining; rw [hpos]; rfl
  have hrest : Rest isz (widths fields) (fields.map fun _ => false) (bitsOf bytes) ↔
      ∃ es pad, IsPacket isz (widths fields) (bitsOf bytes) es pad ∧ pad ≤ isz + 7 := by
    constructor
    · rintro ⟨es, pad, a, b, -⟩; exact ⟨es, pad, a, b⟩
    · rintro ⟨es, pad, a, b⟩
      refine ⟨es, pad, a, b, ?_⟩
      intro e he
      have := (widths_some (a.2.2 e he).1).1
      rw [List.getElem?_map, List.getElem?_eq_getElem this]; rfl
  rw [hrem, hrest] at h3
  rw [hpos] at h1
  unfold validate
  have hreset : (Bitstream.ofBytes bytes).reset = Bitstream.ofBytes bytes := rfl
  have hml : 8 * (Bitstream.ofBytes bytes).maxLen = 8 * (Bitstream.ofBytes bytes).bytes.length := rfl
  rw [hreset, hml, h1]
  cases r with
  | none =>
    refine ⟨false, rfl, ?_⟩
    rw [← h3]; simp
  | some s' =>
    obtain ⟨hw', -⟩ := h2 s' rfl
    obtain ⟨out, hn, hv⟩ := nextN_nat s' 8 hw'
    simp only [hn, hv]
    by_cases hc : bitsToNat ((remaining s').take 8) ≠ 0 ∨ min 8 (remaining s').length > 7
    · rw [if_pos hc]
      refine ⟨false, rfl, ?_⟩
      rw [← h3]
      constructor
      · intro h; cases h
      · rintro ⟨s'', e, ha, hb⟩
        cases e
        rcases hc with hc | hc
        · rw [List.take_of_length_le (by omega)] at hc; exact absurd hb hc
        · omega
    · rw [if_neg hc]
      refine ⟨true, rfl, ?_⟩
      rw [← h3]
      refine ⟨fun _ => ⟨s', rfl, ?_, ?_⟩, fun _ => rfl⟩
      · omega
      · have : bitsToNat ((remaining s').take 8) = 0 := by
          by_contra h; exact hc (Or.inl h)
        rwa [List.take_of_length_le (by omega)] at this


/-- A field with new bits and the value decoded from them. -/
def _root_.PAN.WField.withBits {α : Type} (f : WField α) (bits : List Bool) : WField α :=
  { f with bits, value := f.decode bits f.value }

/-- The fields after one update. -/
def applyEntry {α : Type} (fields : List (WField α)) (e : Entry) : List (WField α) :=
  fields.modify e.index (·.withBits e.bits)

theorem applyEntry_self {α : Type} (fields : List (WField α)) (e : Entry) :
    (applyEntry fields e)[e.index]? = fields[e.index]?.map (·.withBits e.bits) := by
  simp [applyEntry]

theorem applyEntry_ne {α : Type} (fields : List (WField α)) (e : Entry) (i : Nat) (h : e.index ≠ i) :
    (applyEntry fields e)[i]? = fields[i]? := by
  simp [applyEntry, h]

theorem widths_apply {α : Type} (fields : List (WField α)) (e : Entry)
    (h : (widths fields)[e.index]? = some e.bits.length) : widths (applyEntry fields e) = widths fields := by
  apply List.ext_getElem?
  intro i
  unfold widths
  rw [List.getElem?_map, List.getElem?_map]
  by_cases hi : e.index = i
  · subst hi
    rw [widths, List.getElem?_map] at h
    rw [applyEntry_self]
    cases hf : fields[e.index]? with
    | none => rfl
    | some f =>
      rw [hf] at h
      simp only [Option.map_some, Option.some.injEq] at h ⊢
      simp [WField.withBits, h]
  · rw [applyEntry_ne _ _ _ hi]

theorem updateLoop_spec {α : Type} (isz : Nat) (es : List Entry) :
    ∀ (s : Bitstream) (fields : List (WField α)) (pad : Nat), fields.length + 1 < 2 ^ isz → 1 ≤ isz → WellFormed s →
    IsPacket isz (widths fields) (remaining s) es pad →
    updateLoop (8 * s.bytes.length) isz fields s (pos s) = some (es.foldl applyEntry fields) := by
  induction es with
  | nil =>
    intro s fields pad hisz h1 hw hp
    rw [updateLoop]
    split
    · obtain ⟨out, hn, hv⟩ := nextN_nat s isz hw
      rw [hn]
      simp only [hv, take_zeros_nat _ _ _ (zeros_of_nil hp), if_true, List.foldl_nil]
    · rfl
  | cons e es ih =>
    intro s fields pad hisz h1 hw hp
    have hwl : (widths fields).length = fields.length := by simp [widths]
    obtain ⟨g1, g2, g3, g4, g5⟩ := first_index (by omega) hp
    have hrl := remaining_length s
    have hw2 := hw.2
    have hmin : min isz (remaining s).length = isz := by omega
    obtain ⟨hpk, hnd, hall⟩ := hp
    have hwid := (hall e (by simp)).1
    obtain ⟨hlt, hfl⟩ := widths_some hwid
    have hbl : fields[e.index].bits.length = e.bits.length := by
      rw [widths, List.getElem?_map, List.getElem?_eq_getElem hlt] at hwid
      simpa using hwid
    obtain ⟨out, hn, hv⟩ := nextN_nat s isz hw
    rw [updateLoop, dif_pos (by omega), hn]
    simp only [hv, g1, Nat.add_sub_cancel, List.getElem?_eq_getElem hlt, if_neg (Nat.succ_ne_zero e.index), hmin, hfl]
    obtain ⟨s2, k1, k2, k3, k4⟩ := (C02_read_bit_array (s.at' (pos s + isz)) e.bits.length
      fields[e.index].bits.length (fields[e.index].bits.map fun _ => false) (wf_at _ _ (by omega))).2 (by omega)
    rw [remaining_at] at k1 k4
    have hm2 : min e.bits.length ((remaining s).drop isz).length = e.bits.length := by rw [List.length_drop]; omega
    rw [hm2, g4, hbl, Nat.sub_self, List.replicate_zero, List.append_nil] at k1
    rw [hm2, pos_at] at k4
    rw [hbl, k1]
    simp only
    rw [dif_neg (by omega)]
    have hap : fields.set e.index { fields[e.index] with bits := e.bits, value := fields[e.index].decode e.bits fields[e.index].value }
        = applyEntry fields e := by
      apply List.ext_getElem?
      intro i
      rw [List.getElem?_set]
      by_cases hi : e.index = i
      · subst hi; rw [if_pos rfl, if_pos hlt, applyEntry_self, List.getElem?_eq_getElem hlt]; rfl
      · rw [if_neg hi, applyEntry_ne _ _ _ hi]
    rw [hap, ← k4]
    have hb : s2.bytes = s.bytes := k2
    rw [← hb]
    have hr2 : remaining s2 = (remaining s).drop (isz + e.bits.length) := by
      unfold remaining; rw [k4, hb, List.drop_drop, Nat.add_assoc]
    have hwa := widths_apply fields e hwid
    rw [List.foldl_cons]
    apply ih s2 (applyEntry fields e) pad
    · simpa [applyEntry] using hisz
    · exact h1
    · exact k3
    · rw [hwa, hr2, g5]
      exact ⟨rfl, (List.nodup_cons.mp (by simpa using hnd)).2, fun e' he' => hall e' (by simp [he'])⟩

theorem update_spec {α : Type} (fields : List (WField α)) (isz : Nat) (hisz : fields.length + 1 < 2 ^ isz) (h1 : 1 ≤ isz)
    (bytes : List U8) (es : List Entry) (pad : Nat) (hp : IsPacket isz (widths fields) (bitsOf bytes) es pad) :
    update fields isz (Bitstream.ofBytes bytes) = some (es.foldl applyEntry fields) := by
  have hw : WellFormed (Bitstream.ofBytes bytes) := ⟨by simp [Bitstream.ofBytes], by simp [pos, Bitstream.ofBytes]⟩
  exact updateLoop_spec isz es (Bitstream.ofBytes bytes) fields pad hisz h1 hw hp

theorem foldl_apply {α : Type} (es : List Entry) : ∀ (fields : List (WField α)), (es.map (·.index)).Nodup →
    (∀ e ∈ es, (es.foldl applyEntry fields)[e.index]? = fields[e.index]?.map (·.withBits e.bits)) ∧
    (∀ i, (∀ e ∈ es, e.index ≠ i) → (es.foldl applyEntry fields)[i]? = fields[i]?) := by
  induction es with
  | nil => intro fields _; simp
  | cons e es ih =>
    intro fields hnd
    rw [List.map_cons, List.nodup_cons] at hnd
    obtain ⟨i1, i2⟩ := ih (applyEntry fields e) hnd.2
    simp only [List.foldl_cons]
    have hne : ∀ e' ∈ es, e'.index ≠ e.index := by
      intro e' he' h; exact hnd.1 (h ▸ List.mem_map.mpr ⟨e', he', rfl⟩)
    refine ⟨fun e' he' => ?_, fun i hi => ?_⟩
    · rcases List.mem_cons.mp he' with rfl | he'
      · rw [i2 _ hne, applyEntry_self]
      · rw [i1 e' he', applyEntry_ne _ _ _ (fun h => hne e' he' h.symm)]
    · rw [i2 i (fun e' he' => hi e' (by simp [he'])), applyEntry_ne _ _ _ (hi e (by simp))]

/-! ### Ground side -/

theorem packByte_get (bit : Nat → Bool) (i : Nat) : ∀ k, k ≤ 8 → ∀ j, j < 8 →
    (packByte bit i k).getLsbD j = if j < k then bit (8 * i + j) else false := by
  intro k
  induction k with
  | zero => intro _ j _; simp [packByte]
  | succ k ih =>
    intro hk j hj
    rw [packByte, BitVec.getLsbD_or, ih (by omega) j hj, BitVec.getLsbD_shiftLeft]
    rcases Nat.lt_trichotomy j k with h | h | h
    · simp [h, Nat.lt_succ_of_lt h]
    · subst h
      simp [hj]
      cases bit (8 * i + j) <;> simp
    · have h1 : ¬ j < k := by omega
      have h2 : ¬ j < k + 1 := by omega
      have h3 : j - k ≠ 0 := by omega
      simp only [h1, h2, if_false, Bool.false_or]
      cases bit (8 * i + k) <;> simp [h3]

theorem ofBits_remaining (val : List Bool) (junk : Nat → Bool) :
    WellFormed (ofBits val junk) ∧ (remaining (ofBits val junk)).take val.length = val ∧
    (remaining (ofBits val junk)).length = 8 * ((val.length + 7) / 8) := by
  have hlen : (ofBits val junk).bytes.length = (val.length + 7) / 8 := by simp [ofBits, Bitstream.ofBytes]
  have hpos : pos (ofBits val junk) = 0 := rfl
  have hrl : (remaining (ofBits val junk)).length = 8 * ((val.length + 7) / 8) := by
    rw [remaining_length, hlen, hpos]; omega
  refine ⟨⟨by simp [ofBits, Bitstream.ofBytes], by rw [hpos]; omega⟩, ?_, hrl⟩
  have hrem : remaining (ofBits val junk) = bitsOf (ofBits val junk).bytes := by
    unfold remaining; rw [hpos]; rfl
  rw [hrem] at hrl ⊢
  apply List.ext_getElem
  · rw [List.length_take, hrl]; omega
  · intro i h1 h2
    rw [List.getElem_take, bitsOf_getElem, bitAt_eq]
    have hi : i / 8 < (ofBits val junk).bytes.length := by rw [hlen]; omega
    rw [List.getElem?_eq_getElem hi]
    simp only [ofBits, Bitstream.ofBytes, List.getElem_map, List.getElem_range, Option.getD_some]
    rw [packByte_get _ _ 8 (by omega) _ (by omega), if_pos (by omega)]
    have : 8 * (i / 8) + i % 8 = i := by omega
    simp only [this]
    rw [dif_pos h2]

theorem natBits_get (w : Nat) : ∀ n i, i < w → (natBits w n)[i]? = some (n.testBit i) := by
  induction w with
  | zero => intro n i h; omega
  | succ w ih =>
    intro n i h
    cases i with
    | zero => simp [natBits, Nat.testBit_zero]
    | succ i => rw [natBits, List.getElem?_cons_succ, ih _ _ (by omega), Nat.testBit_succ]

theorem sizeT_bits (isz n : Nat) (h : isz ≤ 64) : (bitsOf (sizeTBytes n)).take isz = natBits isz n := by
  have hl : (sizeTBytes n).length = 8 := by simp [sizeTBytes]
  apply List.ext_getElem?
  intro i
  by_cases hi : i < isz
  · rw [List.getElem?_take_of_lt hi, natBits_get _ _ _ hi, bitsOf_get]
    have h1 : i / 8 < 8 := by omega
    simp only [sizeTBytes, List.getElem?_map, List.getElem?_range h1, Option.map_some, Option.some.injEq,
      BitVec.getLsbD_ofNat]
    rw [show (256 : Nat) = 2 ^ 8 by rfl, ← Nat.pow_mul, Nat.testBit_div_two_pow]
    have : i % 8 + 8 * (i / 8) = i := by omega
    have h8 : i % 8 < 8 := by omega
    simp [this, h8]
  · rw [List.getElem?_eq_none (by rw [List.length_take]; omega), List.getElem?_eq_none (by rw [natBits_length]; omega)]

/-- One entry is written as specified. -/
theorem addEntry_spec {α : Type} (fields : List (WField α)) (isz : Nat) (s : Bitstream) (e : Entry) (junk : Nat → Bool)
    (hw : WellFormed s) (h64 : isz ≤ 64) (hwid : (widths fields)[e.index]? = some e.bits.length) (hne : e.bits ≠ [])
    (hfit : (encodeEntry isz e).length ≤ (remaining s).length) :
    ∃ s', addEntry fields isz s e.bits e.index junk = some ((encodeEntry isz e).length, s') ∧ WellFormed s' ∧
      pos s' = pos s + (encodeEntry isz e).length ∧ s'.bytes.length = s.bytes.length ∧
      bitsOf s'.bytes = (bitsOf s.bytes).take (pos s) ++ encodeEntry isz e ++
        (bitsOf s.bytes).drop (pos s + (encodeEntry isz e).length) := by
  have hle : (encodeEntry isz e).length = isz + e.bits.length := by
    rw [encodeEntry, List.length_append, natBits_length]
  rw [hle] at hfit ⊢
  obtain ⟨-, hfl⟩ := widths_some hwid
  have hpos : 0 < e.bits.length := List.length_pos_iff.mpr hne
  unfold addEntry
  rw [hfl, if_neg (by omega)]
  have hsl : (sizeTBytes (e.index + 1)).length = 8 := by simp [sizeTBytes]
  obtain ⟨s1, a1, a2, a3, a4, a5⟩ := C01_write_exact s isz (sizeTBytes (e.index + 1)) hw (by omega)
    (by rw [bitsOf_length, hsl]; omega)
  rw [sizeT_bits _ _ h64] at a5
  rw [a1]
  simp only
  obtain ⟨b1, b2, b3⟩ := ofBits_remaining e.bits junk
  obtain ⟨c, out, t, d1, d2, d3, d4, -⟩ := C02_read_sequential (ofBits e.bits junk) e.bits.length b1
  have hc : c = e.bits.length := by rw [d2, b3]; omega
  rw [hc] at d1 d4
  have hrl := remaining_length s
  have hrl1 := remaining_length s1
  have hout : (bitsOf out).take e.bits.length = e.bits := by
    rw [d4, b2, List.take_left' rfl]
  obtain ⟨s2, e1, e2, e3, e4, e5⟩ := C01_write_exact s1 e.bits.length out a2 (by omega)
    (by rw [bitsOf_length]; omega)
  unfold Bitstream.editNFrom
  rw [d1]
  simp only [e1]
  refine ⟨s2, rfl, e2, by omega, by omega, ?_⟩
  have hp1 : ((bitsOf s.bytes).take (pos s)).length = pos s := by
    rw [List.length_take, bitsOf_length]; have := hw.2; omega
  have hA : ((bitsOf s.bytes).take (pos s) ++ natBits isz (e.index + 1)).length = pos s1 := by
    rw [List.length_append, hp1, natBits_length, a3]
  rw [e5, hout, a5, encodeEntry, List.take_left' hA]
  have hdrop : ((bitsOf s.bytes).take (pos s) ++ natBits isz (e.index + 1) ++ (bitsOf s.bytes).drop (pos s + isz)).drop
      (pos s1 + e.bits.length) = (bitsOf s.bytes).drop (pos s + (isz + e.bits.length)) := by
    rw [← List.drop_drop, List.drop_left' hA, List.drop_drop, Nat.add_assoc]
  rw [hdrop]
  simp only [List.append_assoc]

theorem addAll_spec {α : Type} (fields : List (WField α)) (isz : Nat) (junk : Nat → Bool) (h64 : isz ≤ 64) (es : List Entry) :
    ∀ (s : Bitstream), WellFormed s →
    (∀ e ∈ es, (widths fields)[e.index]? = some e.bits.length ∧ e.bits ≠ []) →
    (encode isz es).length ≤ (remaining s).length →
    ∃ s', addAll fields isz junk s (es.map fun e => (e.index, e.bits)) = some s' ∧ WellFormed s' ∧
      pos s' = pos s + (encode isz es).length ∧ s'.bytes.length = s.bytes.length ∧
      bitsOf s'.bytes = (bitsOf s.bytes).take (pos s) ++ encode isz es ++
        (bitsOf s.bytes).drop (pos s + (encode isz es).length) := by
  induction es with
  | nil => intro s hw _ _; exact ⟨s, rfl, hw, by simp [encode], rfl, by simp [encode]⟩
  | cons e es ih =>
    intro s hw hok hfit
    have hcons : encode isz (e :: es) = encodeEntry isz e ++ encode isz es := rfl
    rw [hcons, List.length_append] at hfit ⊢
    have hne := (hok e (by simp)).2
    have hle : (encodeEntry isz e).length = isz + e.bits.length := by
      rw [encodeEntry, List.length_append, natBits_length]
    have hpos : 0 < e.bits.length := List.length_pos_iff.mpr hne
    have hrl := remaining_length s
    have hn : s.hasNext = true := (hasNext_iff s hw.1).mpr (by omega)
    obtain ⟨s1, a1, a2, a3, a4, a5⟩ := addEntry_spec fields isz s e junk hw h64 (hok e (by simp)).1 hne (by omega)
    have hrl1 := remaining_length s1
    obtain ⟨s2, b1, b2, b3, b4, b5⟩ := ih s1 a2 (fun e' he' => hok e' (by simp [he'])) (by omega)
    simp only [List.map_cons, addAll, if_pos hn, a1]
    rw [if_neg (by omega)]
    refine ⟨s2, b1, b2, by omega, by omega, ?_⟩
    have hp1 : ((bitsOf s.bytes).take (pos s)).length = pos s := by
      rw [List.length_take, bitsOf_length]; have := hw.2; omega
    have hA : ((bitsOf s.bytes).take (pos s) ++ encodeEntry isz e).length = pos s1 := by
      rw [List.length_append, hp1, a3]
    rw [b5, a5, List.take_left' hA]
    have hdrop : ((bitsOf s.bytes).take (pos s) ++ encodeEntry isz e ++ (bitsOf s.bytes).drop (pos s + (encodeEntry isz e).length)).drop
        (pos s1 + (encode isz es).length) = (bitsOf s.bytes).drop (pos s + ((encodeEntry isz e).length + (encode isz es).length)) := by
      rw [← List.drop_drop, List.drop_left' hA, List.drop_drop, Nat.add_assoc]
    rw [hdrop]
    simp only [List.append_assoc]

theorem bitsOf_zeros (k : Nat) : bitsOf (List.replicate k 0) = List.replicate (8 * k) false := by
  apply List.ext_getElem
  · rw [bitsOf_length]; simp
  · intro i h1 h2; rw [bitsOf_getElem, bitAt_replicate_zero]; simp

theorem bitsOf_take (bs : List U8) (k : Nat) : bitsOf (bs.take k) = (bitsOf bs).take (8 * k) := by
  induction bs generalizing k with
  | nil => simp [bitsOf]
  | cons b bs ih =>
    cases k with
    | zero => simp [bitsOf]
    | succ k =>
      have h1 : (byteBits b).take (8 * (k + 1)) = byteBits b :=
        List.take_of_length_le (by rw [byteBits_length]; omega)
      have h2 : 8 * (k + 1) - 8 = 8 * k := by omega
      rw [List.take_succ_cons, bitsOf_cons, bitsOf_cons, ih, List.take_append, byteBits_length, h1, h2]

/-- The ground's packet for valid entries: their encoding, padded with fewer than eight zero bits. -/
theorem createPacket_spec {α : Type} (fields : List (WField α)) (isz cap : Nat) (junk : Nat → Bool) (h64 : isz ≤ 64)
    (es : List Entry) (hok : ∀ e ∈ es, (widths fields)[e.index]? = some e.bits.length ∧ e.bits ≠ [])
    (hcap : (encode isz es).length ≤ 8 * cap) :
    ∃ bytes pad, createPacket fields isz cap junk (es.map fun e => (e.index, e.bits)) = some bytes ∧
      bitsOf bytes = encode isz es ++ List.replicate pad false ∧ pad ≤ 7 := by
  have hw : WellFormed (Bitstream.ofBytes (List.replicate cap 0)) :=
    ⟨by simp [Bitstream.ofBytes], by simp [pos, Bitstream.ofBytes]⟩
  have hp : pos (Bitstream.ofBytes (List.replicate cap 0)) = 0 := rfl
  have hb : (Bitstream.ofBytes (List.replicate cap 0)).bytes = List.replicate cap 0 := rfl
  obtain ⟨s, a1, a2, a3, a4, a5⟩ := addAll_spec fields isz junk h64 es _ hw hok
    (by rw [remaining_length, hp, hb, List.length_replicate]; omega)
  rw [hp, hb, bitsOf_zeros] at a5
  rw [hp] at a3
  rw [hb, List.length_replicate] at a4
  unfold createPacket
  rw [a1]
  have hps : 8 * s.byteOff + s.bitOff = (encode isz es).length := by
    have : pos s = 8 * s.byteOff + s.bitOff := rfl
    omega
  simp only [hps]
  refine ⟨_, 8 * (((encode isz es).length + 7) / 8) - (encode isz es).length, rfl, ?_, by omega⟩
  rw [bitsOf_take, a5, List.take_zero, List.nil_append, Nat.zero_add, List.drop_replicate, List.take_append,
    List.take_of_length_le (by omega), List.take_replicate]
  congr 2; omega

theorem sum_sublist {a b : List Nat} (h : a.Sublist b) : a.sum ≤ b.sum := by
  induction h with
  | slnil => exact Nat.le_refl _
  | cons x _ ih => rw [List.sum_cons]; omega
  | cons_cons x _ ih => rw [List.sum_cons, List.sum_cons]; omega

theorem sum_perm {a b : List Nat} (h : a.Perm b) : a.sum = b.sum := by
  induction h with
  | nil => rfl
  | cons x _ ih => rw [List.sum_cons, List.sum_cons, ih]
  | swap x y l => simp only [List.sum_cons]; omega
  | trans _ _ ih1 ih2 => rw [ih1, ih2]

/-- A packet of distinct entries fits in the buffer the ground tool allocates. -/
theorem encode_le_max {α : Type} (fields : List (WField α)) (isz : Nat) (es : List Entry) (hok : EntriesOk (widths fields) es) :
    (encode isz es).length ≤ maxPacketSize fields isz := by
  obtain ⟨hnd, hall⟩ := hok
  have h1 : (encode isz es).length = ((es.map (·.index)).map fun i => isz + ((widths fields)[i]?).getD 0).sum := by
    clear hnd
    induction es with
    | nil => rfl
    | cons e es ih =>
      have hle : (encodeEntry isz e).length = isz + e.bits.length := by
        rw [encodeEntry, List.length_append, natBits_length]
      have hcons : encode isz (e :: es) = encodeEntry isz e ++ encode isz es := rfl
      rw [hcons, List.length_append, ih (fun e' he' => hall e' (by simp [he'])), hle]
      simp only [List.map_cons, List.sum_cons, (hall e (by simp)).1, Option.getD_some]
  have h2 : maxPacketSize fields isz = ((List.range fields.length).map fun i => isz + ((widths fields)[i]?).getD 0).sum := by
    unfold maxPacketSize
    congr 1
    apply List.ext_getElem
    · simp
    · intro i h1 h2
      have hi : i < fields.length := by simpa using h1
      simp [widths, hi]
  have hsub : (es.map (·.index)) ⊆ List.range fields.length := by
    intro i hi
    obtain ⟨e, he, rfl⟩ := List.mem_map.mp hi
    rw [List.mem_range]
    exact (widths_some (hall e he).1).1
  obtain ⟨l, hl1, hl2⟩ := hnd.subperm hsub
  rw [h1, h2, ← sum_perm (hl1.map _)]
  exact sum_sublist (hl2.map _)

end Uplink
end PAN
