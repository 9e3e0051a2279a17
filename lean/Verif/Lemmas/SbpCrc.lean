import Verif.Model.Sbp
import Verif.Spec.Sbp
import Mathlib.Tactic.IntervalCases
/-!
The table-driven checksum of the code is the polynomial remainder of the specification; the remainder is linear, keeps
parity and no step loses information.
-/
namespace PAN
open Spec
namespace Sbp

theorem x0 (c : BitVec 16) : c ^^^ (0 : BitVec 16) = c := BitVec.xor_zero

theorem crcBit_eq (r : BitVec 16) (b : Bool) :
    crcBit r b = (r <<< 1) ^^^ (bif r.msb ^^ b then 0x1021#16 else 0#16) := by
  unfold crcBit
  cases r.msb <;> cases b <;> simp

theorem crcBit_xor (r r' : BitVec 16) (b b' : Bool) :
    crcBit (r ^^^ r') (b ^^ b') = crcBit r b ^^^ crcBit r' b' := by
  rw [crcBit_eq, crcBit_eq, crcBit_eq, BitVec.msb_xor, BitVec.shiftLeft_xor_distrib]
  have h : (bif (r.msb ^^ r'.msb) ^^ (b ^^ b') then 0x1021#16 else 0#16) =
      (bif r.msb ^^ b then 0x1021#16 else 0#16) ^^^ (bif r'.msb ^^ b' then 0x1021#16 else 0#16) := by
    cases r.msb <;> cases r'.msb <;> cases b <;> cases b' <;> decide
  rw [h]
  ac_rfl

theorem fold_xor : ∀ (l l' : List Bool) (r r' : BitVec 16), l.length = l'.length →
    (List.zipWith xor l l').foldl crcBit (r ^^^ r') = l.foldl crcBit r ^^^ l'.foldl crcBit r'
  | [], [], _, _, _ => rfl
  | b :: l, b' :: l', r, r', h => by
    simp only [List.zipWith_cons_cons, List.foldl_cons]
    rw [crcBit_xor]
    exact fold_xor l l' _ _ (by simpa using h)
  | [], _ :: _, _, _, h => by simp at h
  | _ :: _, [], _, _, h => by simp at h

theorem bitsOf_xor (a b : U8) : wireBits (a ^^^ b) = List.zipWith xor (wireBits a) (wireBits b) := by
  simp [wireBits]

theorem crcTab_spec_fin : ∀ i : Fin 256, crcTab.getD i.val 0 = (wireBits (BitVec.ofNat 8 i.val)).foldl crcBit 0 := by
  decide +kernel

theorem hi_fin : ∀ i : Fin 256, (wireBits 0).foldl crcBit ((BitVec.ofNat 8 i.val).setWidth 16 <<< 8) =
    (wireBits (BitVec.ofNat 8 i.val)).foldl crcBit 0 := by
  decide +kernel

theorem lo_fin : ∀ i : Fin 256, (wireBits 0).foldl crcBit ((BitVec.ofNat 8 i.val).setWidth 16) =
    (BitVec.ofNat 8 i.val).setWidth 16 <<< 8 := by
  decide +kernel

theorem crcTab_spec (x : U8) : crcTab.getD x.toNat 0 = (wireBits x).foldl crcBit 0 := by
  have h := crcTab_spec_fin ⟨x.toNat, x.isLt⟩
  simpa using h

theorem hi_bits (x : U8) : (wireBits 0).foldl crcBit (x.setWidth 16 <<< 8) = (wireBits x).foldl crcBit 0 := by
  have h := hi_fin ⟨x.toNat, x.isLt⟩
  simpa using h

theorem lo_bits (x : U8) : (wireBits 0).foldl crcBit (x.setWidth 16) = x.setWidth 16 <<< 8 := by
  have h := lo_fin ⟨x.toNat, x.isLt⟩
  simpa using h

theorem split_xor (c : BitVec 16) :
    c = (((c >>> 8).setWidth 8).setWidth 16 <<< 8) ^^^ ((c.setWidth 8).setWidth 16) := by
  apply BitVec.eq_of_getLsbD_eq
  intro i hi
  interval_cases i <;> simp

theorem hi_index (c : BitVec 16) (b : U8) :
    (((c >>> 8) ^^^ b.setWidth 16) &&& 0x00FF).toNat = ((c >>> 8).setWidth 8 ^^^ b).toNat := by
  have h : ((c >>> 8) ^^^ b.setWidth 16) &&& (0x00FF : BitVec 16) = ((c >>> 8).setWidth 8 ^^^ b).setWidth 16 := by
    apply BitVec.eq_of_getLsbD_eq
    intro i hi
    interval_cases i <;> simp
  rw [h, BitVec.toNat_setWidth]
  apply Nat.mod_eq_of_lt
  exact Nat.lt_trans (BitVec.isLt _) (by decide)

theorem shl_lo (c : BitVec 16) : (c.setWidth 8).setWidth 16 <<< 8 = c <<< 8 := by
  apply BitVec.eq_of_getLsbD_eq
  intro i hi
  interval_cases i <;> simp

theorem xor_zero_bits (b : U8) : List.zipWith xor (wireBits b) (wireBits 0) = wireBits b := by
  simp [wireBits]

theorem xor_bits_zero (b : U8) : List.zipWith xor (wireBits 0) (wireBits b) = wireBits b := by
  simp [wireBits]

theorem crcByte_spec (c : BitVec 16) (b : U8) : crcByte c b = (wireBits b).foldl crcBit c := by
  have h1 : (wireBits b).foldl crcBit c = (wireBits 0).foldl crcBit c ^^^ (wireBits b).foldl crcBit 0 := by
    have h := fold_xor (wireBits 0) (wireBits b) c 0 rfl
    rw [xor_bits_zero, x0] at h
    exact h
  have h2 : (wireBits 0).foldl crcBit c =
      (wireBits ((c >>> 8).setWidth 8)).foldl crcBit 0 ^^^ c <<< 8 := by
    have h := fold_xor (wireBits 0) (wireBits 0) (((c >>> 8).setWidth 8).setWidth 16 <<< 8) ((c.setWidth 8).setWidth 16) rfl
    rw [xor_bits_zero, ← split_xor, hi_bits, lo_bits, shl_lo] at h
    exact h
  have h3 : (wireBits ((c >>> 8).setWidth 8 ^^^ b)).foldl crcBit 0 =
      (wireBits ((c >>> 8).setWidth 8)).foldl crcBit 0 ^^^ (wireBits b).foldl crcBit 0 := by
    have h := fold_xor (wireBits ((c >>> 8).setWidth 8)) (wireBits b) 0 0 rfl
    rw [x0, ← bitsOf_xor] at h
    exact h
  unfold crcByte
  rw [hi_index, crcTab_spec, h3, h1, h2]
  ac_rfl

theorem crc16_fold (l : List U8) (c : BitVec 16) : crc16 l c = (l.flatMap wireBits).foldl crcBit c := by
  induction l generalizing c with
  | nil => rfl
  | cons b l ih =>
    rw [List.flatMap_cons, List.foldl_append, ← crcByte_spec]
    exact ih _

/-- The code's checksum is the specified one. -/
theorem crc16_spec (l : List U8) : crc16 l 0 = crcOf l := crc16_fold l 0

theorem crc16_append (l l' : List U8) (c : BitVec 16) : crc16 (l ++ l') c = crc16 l' (crc16 l c) := by
  simp [crc16, List.foldl_append]

/-- Bytewise difference of two byte sequences. -/
theorem bits_xor : ∀ l l' : List U8, l.length = l'.length →
    (List.zipWith (· ^^^ ·) l l').flatMap wireBits = List.zipWith xor (l.flatMap wireBits) (l'.flatMap wireBits)
  | [], [], _ => rfl
  | a :: l, b :: l', h => by
    simp only [List.zipWith_cons_cons, List.flatMap_cons]
    rw [bitsOf_xor, bits_xor l l' (by simpa using h), List.zipWith_append (by rfl)]
  | [], _ :: _, h => by simp at h
  | _ :: _, [], h => by simp at h

theorem bits_length (l : List U8) : (l.flatMap wireBits).length = 8 * l.length := by
  induction l with
  | nil => rfl
  | cons a l ih => rw [List.flatMap_cons, List.length_append, ih, List.length_cons]; simp [wireBits]; omega

theorem crcOf_xor (l l' : List U8) (h : l.length = l'.length) :
    crcOf (List.zipWith (· ^^^ ·) l l') = crcOf l ^^^ crcOf l' := by
  unfold crcOf
  rw [bits_xor l l' h]
  have := fold_xor (l.flatMap wireBits) (l'.flatMap wireBits) 0 0 (by rw [bits_length, bits_length, h])
  rwa [x0] at this

/-- A step loses nothing: the lowest bit of the result tells whether the polynomial was subtracted. -/
theorem crcBit_inj {r r' : BitVec 16} {b : Bool} (h : crcBit r b = crcBit r' b) : r = r' := by
  rw [crcBit_eq, crcBit_eq] at h
  have hb : ∀ i : Nat, ((r <<< 1) ^^^ (bif r.msb ^^ b then 0x1021#16 else 0#16)).getLsbD i =
      ((r' <<< 1) ^^^ (bif r'.msb ^^ b then 0x1021#16 else 0#16)).getLsbD i := fun i => by rw [h]
  have h0 := hb 0
  have hm : r.msb = r'.msb := by
    revert h0
    cases r.msb <;> cases r'.msb <;> cases b <;> simp
  apply BitVec.eq_of_getLsbD_eq
  intro i hi
  by_cases h15 : i = 15
  · subst h15
    simpa [BitVec.msb_eq_getLsbD_last] using hm
  · have h1 := hb (i + 1)
    rw [hm, BitVec.getLsbD_xor, BitVec.getLsbD_xor] at h1
    have h2 : (r <<< 1).getLsbD (i + 1) = (r' <<< 1).getLsbD (i + 1) := by
      revert h1
      generalize (bif r'.msb ^^ b then 0x1021#16 else 0#16).getLsbD (i + 1) = z
      generalize (r <<< 1).getLsbD (i + 1) = x
      generalize (r' <<< 1).getLsbD (i + 1) = y
      cases x <;> cases y <;> cases z <;> simp
    have h3 : i + 1 < 16 := by omega
    simp [h3] at h2
    rw [BitVec.getLsbD_eq_getElem hi, BitVec.getLsbD_eq_getElem hi]
    exact h2

theorem fold_inj (l : List Bool) {r r' : BitVec 16} (h : l.foldl crcBit r = l.foldl crcBit r') : r = r' := by
  induction l generalizing r r' with
  | nil => exact h
  | cons b l ih => exact crcBit_inj (ih h)

theorem zeros_fold_zero (n : Nat) : (List.replicate n false).foldl crcBit 0 = 0 := by
  induction n with
  | zero => rfl
  | succ n ih => rw [List.replicate_succ, List.foldl_cons]; exact ih

/-- After zeros the remainder is zero only if it was before. -/
theorem fold_zeros_ne {n : Nat} {r : BitVec 16} (h : r ≠ 0) : (List.replicate n false).foldl crcBit r ≠ 0 := by
  intro h0
  rw [← zeros_fold_zero n] at h0
  exact h (fold_inj _ h0)

/-- A bit sequence as a register content, first bit highest. -/
def reg : List Bool → BitVec 16
  | [] => 0
  | b :: l => (bif b then 0x8000#16 else 0#16) ^^^ (reg l >>> 1)

theorem reg_low (l : List Bool) (i : Nat) (h : i + l.length < 16) : (reg l).getLsbD i = false := by
  induction l generalizing i with
  | nil => simp [reg]
  | cons b l ih =>
    simp only [List.length_cons] at h
    rw [reg, BitVec.getLsbD_xor, BitVec.getLsbD_ushiftRight, ih (1 + i) (by omega)]
    cases b
    · simp
    · simp only [cond_true, Bool.xor_false]
      have : i < 15 := by omega
      interval_cases i <;> rfl

theorem crcBit_in (r : BitVec 16) (b : Bool) : crcBit r b = crcBit (r ^^^ (bif b then 0x8000#16 else 0#16)) false := by
  rw [crcBit_eq, crcBit_eq, BitVec.msb_xor, BitVec.shiftLeft_xor_distrib]
  cases b
  · simp
  · have h1 : (0x8000#16).msb = true := by decide
    have h2 : (0x8000#16 <<< 1) = 0#16 := by decide
    simp only [cond_true, h1, h2, BitVec.xor_zero, Bool.xor_false]

theorem crcBit_shift (x y : BitVec 16) (h : y.getLsbD 0 = false) :
    crcBit (x ^^^ (y >>> 1)) false = crcBit x false ^^^ y := by
  have h1 := crcBit_xor x (y >>> 1) false false
  rw [Bool.xor_false] at h1
  rw [h1]
  congr 1
  rw [crcBit_eq]
  have hm : (y >>> 1).msb = false := by
    rw [BitVec.msb_eq_getLsbD_last]
    simp
  rw [hm]
  simp only [Bool.xor_false, cond_false, BitVec.xor_zero]
  apply BitVec.eq_of_getLsbD_eq
  intro i hi
  rw [BitVec.getLsbD_shiftLeft, BitVec.getLsbD_ushiftRight]
  by_cases h0 : i = 0
  · subst h0; rw [h]; simp
  · have e : 1 + (i - 1) = i := by omega
    have e2 : ¬ i < 1 := by omega
    rw [e]
    simp [hi, e2]

theorem fold_reg (l : List Bool) (h : l.length ≤ 16) (r : BitVec 16) :
    l.foldl crcBit r = (List.replicate l.length false).foldl crcBit (r ^^^ reg l) := by
  induction l generalizing r with
  | nil => simp [reg]
  | cons b l ih =>
    simp only [List.length_cons] at h
    rw [List.foldl_cons, ih (by omega), List.length_cons, List.replicate_succ, List.foldl_cons, reg, ← BitVec.xor_assoc,
      crcBit_shift _ _ (reg_low l 0 (by omega)), crcBit_in r b]

theorem reg_ne (l : List Bool) (h : l.length ≤ 16) (ht : true ∈ l) : reg l ≠ 0 := by
  induction l with
  | nil => simp at ht
  | cons b l ih =>
    simp only [List.length_cons] at h
    intro h0
    have hb : ∀ i : Nat, (reg (b :: l)).getLsbD i = false := fun i => by rw [h0]; simp
    cases b
    · have hl : true ∈ l := by simpa using ht
      apply ih (by omega) hl
      apply BitVec.eq_of_getLsbD_eq
      intro i hi
      by_cases hz : i = 0
      · subst hz
        rw [reg_low l 0 (by omega)]
        simp
      · have h1 := hb (i - 1)
        rw [reg, BitVec.getLsbD_xor, BitVec.getLsbD_ushiftRight] at h1
        have e : 1 + (i - 1) = i := by omega
        rw [e] at h1
        simp at h1
        rw [h1]
        simp
    · have h1 := hb 15
      rw [reg, BitVec.getLsbD_xor, BitVec.getLsbD_ushiftRight] at h1
      simp at h1

/-- An error burst of at most sixteen bits leaves a remainder. -/
theorem burst_ne (l : List Bool) (h : l.length ≤ 16) (ht : true ∈ l) (m n : Nat) :
    (List.replicate m false ++ l ++ List.replicate n false).foldl crcBit 0 ≠ 0 := by
  rw [List.foldl_append, List.foldl_append, zeros_fold_zero, fold_reg l h]
  apply fold_zeros_ne
  apply fold_zeros_ne
  have : (0 : BitVec 16) ^^^ reg l = reg l := BitVec.zero_xor
  rw [this]
  exact reg_ne l h ht

/-- The parity of a register. -/
def par (r : BitVec 16) : Bool := (List.range 16).foldl (fun p i => p ^^ r.getLsbD i) false

theorem par_fold_xor (L : List Nat) (x y : BitVec 16) (p q : Bool) :
    L.foldl (fun p i => p ^^ (x ^^^ y).getLsbD i) (p ^^ q) =
      (L.foldl (fun p i => p ^^ x.getLsbD i) p ^^ L.foldl (fun p i => p ^^ y.getLsbD i) q) := by
  induction L generalizing p q with
  | nil => rfl
  | cons i L ih =>
    simp only [List.foldl_cons]
    rw [← ih, BitVec.getLsbD_xor]
    congr 1
    cases p <;> cases q <;> cases x.getLsbD i <;> cases y.getLsbD i <;> rfl

theorem par_xor (x y : BitVec 16) : par (x ^^^ y) = (par x ^^ par y) := par_fold_xor _ x y false false

theorem par_shl (r : BitVec 16) : par (r <<< 1) = (par r ^^ r.msb) := by
  unfold par
  rw [BitVec.msb_eq_getLsbD_last]
  simp only [show List.range 16 = [0,1,2,3,4,5,6,7,8,9,10,11,12,13,14,15] from rfl, List.foldl_cons, List.foldl_nil,
    BitVec.getLsbD_shiftLeft]
  simp

theorem par_step (r : BitVec 16) (b : Bool) : par (crcBit r b) = (par r ^^ b) := by
  rw [crcBit_eq, par_xor, par_shl]
  have h1 : par 0x1021#16 = true := by decide
  have h2 : par 0#16 = false := by decide
  generalize r.msb = m
  generalize par r = q
  cases m <;> cases b <;> cases q <;> simp [h1, h2]

/-- The parity of a bit sequence. -/
def parity (l : List Bool) : Bool := l.foldl xor false

theorem foldl_xor_init (l : List Bool) (p : Bool) : l.foldl xor p = (p ^^ l.foldl xor false) := by
  induction l generalizing p with
  | nil => simp
  | cons b l ih => rw [List.foldl_cons, List.foldl_cons, ih, ih (false ^^ b)]; simp

theorem par_foldl (l : List Bool) (r : BitVec 16) : par (l.foldl crcBit r) = (par r ^^ parity l) := by
  induction l generalizing r with
  | nil => simp [parity]
  | cons b l ih =>
    rw [List.foldl_cons, ih, par_step, parity, parity, List.foldl_cons, foldl_xor_init l (false ^^ b)]
    simp

theorem par_crcOf (l : List U8) : par (crcOf l) = parity (l.flatMap wireBits) := by
  unfold crcOf
  rw [par_foldl]
  have h : par (0 : BitVec 16) = false := by decide
  rw [h, Bool.false_xor]

theorem parity_append (a b : List Bool) : parity (a ++ b) = (parity a ^^ parity b) := by
  unfold parity
  rw [List.foldl_append, foldl_xor_init b]

theorem parity_count (l : List Bool) : parity l = decide (l.count true % 2 = 1) := by
  induction l with
  | nil => rfl
  | cons b l ih =>
    rw [show b :: l = [b] ++ l from rfl, parity_append, ih]
    cases b
    · simp [parity]
    · simp only [parity, List.foldl_cons, List.foldl_nil, List.cons_append, List.nil_append, List.count_cons_self]
      by_cases h : List.count true l % 2 = 1 <;> simp [h] <;> omega

theorem le16_par (v : BitVec 16) : parity ((le16 v).flatMap wireBits) = par v := by
  simp only [le16, List.flatMap_cons, List.flatMap_nil, wireBits, par, parity]
  simp only [show List.range 16 = [0,1,2,3,4,5,6,7,8,9,10,11,12,13,14,15] from rfl, List.foldl_cons, List.foldl_nil,
    List.cons_append, List.nil_append]
  simp only [BitVec.getLsbD_extractLsb', Nat.zero_add, Nat.reduceAdd, Nat.reduceLT, decide_true, Bool.true_and,
    Bool.false_xor]
  have : Std.Commutative (α := Bool) xor := ⟨Bool.xor_comm⟩
  ac_rfl

theorem bytes16_eq (v : BitVec 16) : bytes16 v = le16 v := by
  have h1 : v.setWidth 8 = v.extractLsb' 0 8 := by
    apply BitVec.eq_of_getLsbD_eq
    intro i hi
    simp [hi]
  have h2 : (v >>> 8).setWidth 8 = v.extractLsb' 8 8 := by
    apply BitVec.eq_of_getLsbD_eq
    intro i hi
    simp [hi]
  rw [bytes16, le16, h1, h2]

theorem val16_le16 (v : BitVec 16) : val16 (le16 v) = v := by
  unfold val16 le16
  apply BitVec.eq_of_getLsbD_eq
  intro i hi
  simp only [List.getD_cons_zero, List.getD_cons_succ]
  interval_cases i <;> simp

theorem le16_val16 (a b : U8) : le16 (val16 [a, b]) = [a, b] := by
  unfold val16 le16
  simp only [List.getD_cons_zero, List.getD_cons_succ, List.cons.injEq, and_true]
  constructor
  · apply BitVec.eq_of_getLsbD_eq
    intro i hi
    interval_cases i <;> simp
  · apply BitVec.eq_of_getLsbD_eq
    intro i hi
    interval_cases i <;> simp

theorem le16_inj {v w : BitVec 16} (h : le16 v = le16 w) : v = w := by
  rw [← val16_le16 v, h, val16_le16]

end Sbp
end PAN
