import Verif.Lemmas.Sbp
/-!
Whole frames fed to the decoder; what a delivered message says about the stream.
-/
namespace PAN
open Spec
namespace Sbp

theorem reads_ok (cbs : List (BitVec 16)) (cs : List (List U8)) (s : State) (hi : Inv s) :
    ∃ s' evs, reads cbs s cs = some (s', evs) ∧ Inv s' ∧ (norm s', loud evs) = feeds cbs (norm s) cs.flatten := by
  induction cs generalizing s with
  | nil => exact ⟨s, [], rfl, hi, rfl⟩
  | cons c cs ih =>
    obtain ⟨s1, e1, h1, hi1, hf1⟩ := drain_ok cbs (2 * c.length + 1) s c hi (by split <;> omega)
    obtain ⟨s2, e2, h2, hi2, hf2⟩ := ih s1 hi1
    refine ⟨s2, e1 ++ e2, ?_, hi2, ?_⟩
    · simp only [reads, h1, h2]
    · rw [List.flatten_cons, feeds_append, ← hf1]
      dsimp only
      rw [← hf2]
      simp [loud]

/-- The decoder with a whole frame read, before it looks at the checksum. -/
def atCrc (s : State) (t0 t1 s0 s1 len : U8) (p : List U8) (c0 c1 : U8) : State :=
  { st := .getCrc, msgType := [t0, t1], sender := [s0, s1], crc := [c0, c1], len := len, nRead := 2,
    buf := store s.buf 0 p }

/-- Any bytes in the layout of a frame bring a waiting decoder to the checksum test. -/
theorem feeds_layout (cbs : List (BitVec 16)) (s : State) (hi : Inv s) (hw : s.st = .waiting)
    (t0 t1 s0 s1 len : U8) (p : List U8) (c0 c1 : U8) (hp : p.length = len.toNat) :
    feeds cbs s (0x55 :: ([t0, t1, s0, s1, len] ++ p ++ [c0, c1])) =
      ({ atCrc s t0 t1 s0 s1 len p c0 c1 with st := .waiting },
        [((finish cbs (atCrc s t0 t1 s0 s1 len p c0 c1) []).status, (finish cbs (atCrc s t0 t1 s0 s1 len p c0 c1) []).msg)]) := by
  obtain ⟨ph, ty, sn, cr, ln, n, buf⟩ := s
  have hty := hi.ty; have hsn := hi.sn; have hcr := hi.cr; have hbf := hi.bf
  dsimp only at hw hty hsn hcr hbf
  subst hw
  obtain ⟨a1, a2, rfl⟩ := two_cases hty
  obtain ⟨b1, b2, rfl⟩ := two_cases hsn
  obtain ⟨d1, d2, rfl⟩ := two_cases hcr
  have h1 : feeds cbs ⟨.waiting, [a1, a2], [b1, b2], [d1, d2], ln, n, buf⟩ [0x55, t0, t1, s0, s1] =
      (⟨.getLen, [t0, t1], [s0, s1], [d1, d2], ln, 2, buf⟩, []) := rfl
  have h2 : ∀ nn : U8, feeds cbs ⟨.getLen, [t0, t1], [s0, s1], [d1, d2], ln, nn, buf⟩ (len :: p) =
      (⟨.getCrc, [t0, t1], [s0, s1], [d1, d2], len, 0, store buf 0 p⟩, []) := by
    intro nn
    simp only [feeds, feed, Option.toList_none, List.nil_append]
    by_cases h0 : p = []
    · subst h0
      have hl : len.toNat ≤ (0 : U8).toNat := by simp at hp; omega
      unfold norm
      rw [if_pos ⟨rfl, hl⟩, store_nil]
      rfl
    · have hpos : 0 < p.length := List.length_pos_iff.mpr h0
      rw [norm_of_lt (show (0 : U8).toNat < len.toNat by rw [← hp]; exact hpos)]
      have hz : (0 : U8).toNat = 0 := rfl
      rw [feeds_msg cbs p _ rfl hbf h0 (by dsimp only; rw [hz]; omega)]
      unfold norm
      have hk : (0 + BitVec.ofNat 8 p.length : U8).toNat = p.length := by
        rw [addk (by rw [hz]; have := len.isLt; omega), hz, Nat.zero_add]
      rw [if_pos ⟨rfl, by dsimp only; rw [hk]; omega⟩]
      rfl
  have h3 : ∀ B : List U8, feeds cbs ⟨.getCrc, [t0, t1], [s0, s1], [d1, d2], len, 0, B⟩ [c0, c1] =
      ((finish cbs ⟨.getCrc, [t0, t1], [s0, s1], [c0, c1], len, 2, B⟩ []).s,
        [((finish cbs ⟨.getCrc, [t0, t1], [s0, s1], [c0, c1], len, 2, B⟩ []).status,
          (finish cbs ⟨.getCrc, [t0, t1], [s0, s1], [c0, c1], len, 2, B⟩ []).msg)]) := fun B => rfl
  have he : (0x55 :: ([t0, t1, s0, s1, len] ++ p ++ [c0, c1]) : List U8) =
      [0x55, t0, t1, s0, s1] ++ ((len :: p) ++ [c0, c1]) := by simp
  rw [he, feeds_append, h1]
  dsimp only
  rw [feeds_append, h2]
  dsimp only
  rw [h3, finish_s]
  rfl

theorem inv_waiting {s : State} (hi : Inv s) : Inv { s with st := .waiting } :=
  ⟨hi.ty, hi.sn, hi.cr, hi.bf, fun h => by simp at h, fun h => by cases h⟩

theorem atCrc_inv {s : State} (hi : Inv s) (t0 t1 s0 s1 len : U8) {p : List U8} (c0 c1 : U8) (hp : p.length = len.toNat) :
    Inv { atCrc s t0 t1 s0 s1 len p c0 c1 with st := .waiting } :=
  ⟨rfl, rfl, rfl, (store_length (by have := hi.bf; have := len.isLt; omega)).trans hi.bf, fun h => by simp at h,
    fun h => by cases h⟩

theorem store_take {mem p : List U8} : (store mem 0 p).take p.length = p := by
  unfold store
  simp

/-- The checksum the decoder computes is that of the bytes it has read. -/
theorem finish_eq (cbs : List (BitVec 16)) (s : State) (t0 t1 s0 s1 len : U8) (p : List U8) (c0 c1 : U8)
    (hp : p.length = len.toNat) :
    ((finish cbs (atCrc s t0 t1 s0 s1 len p c0 c1) []).status, (finish cbs (atCrc s t0 t1 s0 s1 len p c0 c1) []).msg) =
      if val16 [c0, c1] = crcOf ([t0, t1, s0, s1, len] ++ p) then
        if val16 [t0, t1] ∈ cbs then
          (.executed, some { ty := val16 [t0, t1], sender := val16 [s0, s1], len := len, buf := store s.buf 0 p })
        else (.undefined, none)
      else (.crcError, none) := by
  have hc : crc16 p (crc16 [len] (crc16 [s0, s1] (crc16 [t0, t1] 0))) = crcOf ([t0, t1, s0, s1, len] ++ p) := by
    rw [← crc16_spec, ← crc16_append, ← crc16_append, ← crc16_append]
    rfl
  unfold finish atCrc
  dsimp only
  rw [← hp, store_take, hc]
  by_cases h1 : val16 [c0, c1] = crcOf ([t0, t1, s0, s1, len] ++ p)
  · rw [if_pos h1, if_pos h1]
    by_cases h2 : val16 [t0, t1] ∈ cbs
    · rw [if_pos (by simpa using h2), if_pos h2]
    · rw [if_neg (by simpa using h2), if_neg h2]
  · rw [if_neg h1, if_neg h1]

/-- Bytes other than the preamble leave a waiting decoder alone. -/
theorem feeds_noise (cbs : List (BitVec 16)) (s : State) (hw : s.st = .waiting) (l : List U8) (hl : (0x55 : U8) ∉ l) :
    feeds cbs s l = (s, []) := by
  induction l with
  | nil => rfl
  | cons b l ih =>
    rw [List.mem_cons, not_or] at hl
    have hf : feed cbs s b = (s, none) := by
      simp only [feed, hw]
      rw [if_neg (fun h => hl.1 h.symm)]
    simp only [feeds, hf, ih hl.2]
    rfl

/-- Bytes a decoder may still take for the frame it believes to be in. -/
def left (s : State) : Nat :=
  match s.st with
  | .waiting => 0
  | .getType => (2 - s.nRead.toNat) + 260
  | .getSender => (2 - s.nRead.toNat) + 258
  | .getLen => 258
  | .getMsg => (s.len.toNat - s.nRead.toNat) + 2
  | .getCrc => 2 - s.nRead.toNat

theorem left_norm (s : State) : left (norm s) ≤ left s := by
  unfold norm
  split
  · next h =>
    simp only [left, h.1]
    show 2 - 0 ≤ _
    omega
  · exact Nat.le_refl _

theorem feed_inv (cbs : List (BitVec 16)) {s : State} (hi : Inv s) (hn : norm s = s) (b : U8) :
    Inv (feed cbs s b).1 ∧ norm (feed cbs s b).1 = (feed cbs s b).1 := by
  obtain ⟨s', evs, _, hi', he⟩ := drain_ok cbs 2 s [b] hi (by rw [if_pos hn]; simp)
  rw [hn] at he
  have h1 : norm s' = (feed cbs s b).1 := (congrArg Prod.fst he).trans rfl
  rw [← h1]
  refine ⟨?_, norm_norm s'⟩
  by_cases hne : norm s' = s'
  · rw [hne]; exact hi'
  · exact (call_norm (cbs := cbs) hi' hne []).2

theorem feeds_inv (cbs : List (BitVec 16)) (l : List U8) {s : State} (hi : Inv s) (hn : norm s = s) :
    Inv (feeds cbs s l).1 ∧ norm (feeds cbs s l).1 = (feeds cbs s l).1 := by
  induction l generalizing s with
  | nil => exact ⟨hi, hn⟩
  | cons b l ih =>
    have h := feed_inv cbs hi hn b
    exact ih h.1 h.2

theorem left_feed (cbs : List (BitVec 16)) {s : State} (hi : Inv s) (hn : norm s = s) (b : U8) (hw : s.st ≠ .waiting) :
    left (feed cbs s b).1 + 1 ≤ left s := by
  cases hs : s.st with
  | waiting => exact absurd hs hw
  | getType =>
    have h2 := hi.n2 (Or.inl hs)
    have h1 := add1 (n := s.nRead) (by omega)
    simp only [feed, hs]
    split
    · simp only [left, hs]; show 2 - 0 + 258 + 1 ≤ _; omega
    · simp only [left, hs, h1]; omega
  | getSender =>
    have h2 := hi.n2 (Or.inr (Or.inl hs))
    have h1 := add1 (n := s.nRead) (by omega)
    simp only [feed, hs]
    split
    · simp only [left, hs]; omega
    · simp only [left, hs, h1]; omega
  | getLen =>
    simp only [feed, hs]
    refine Nat.le_trans (Nat.add_le_add_right (left_norm _) 1) ?_
    simp only [left, hs]
    have := b.isLt
    omega
  | getMsg =>
    have hlt : s.nRead.toNat < s.len.toNat := by
      apply Nat.lt_of_not_le
      intro h
      have h2 : (norm s).st = .getCrc := by unfold norm; rw [if_pos ⟨hs, h⟩]
      rw [hn, hs] at h2
      cases h2
    have h1 := add1 (n := s.nRead) (by have := s.len.isLt; omega)
    simp only [feed, hs]
    refine Nat.le_trans (Nat.add_le_add_right (left_norm _) 1) ?_
    simp only [left, hs, h1]
    omega
  | getCrc =>
    have h2 := hi.n2 (Or.inr (Or.inr hs))
    have h1 := add1 (n := s.nRead) (by omega)
    simp only [feed, hs]
    split
    · rw [finish_s]; simp only [left, hs]; omega
    · simp only [left, hs, h1]; omega

/-- Enough bytes without a preamble end whatever frame the decoder believes to be in. -/
theorem feeds_quiet (cbs : List (BitVec 16)) (l : List U8) {s : State} (hi : Inv s) (hn : norm s = s)
    (hl : (0x55 : U8) ∉ l) (h : left s ≤ l.length) : (feeds cbs s l).1.st = .waiting := by
  induction l generalizing s with
  | nil =>
    simp only [List.length_nil, Nat.le_zero] at h
    show s.st = .waiting
    cases hs : s.st with
    | waiting => rfl
    | getType => simp only [left, hs] at h; omega
    | getSender => simp only [left, hs] at h; omega
    | getLen => simp only [left, hs] at h; omega
    | getMsg => simp only [left, hs] at h; omega
    | getCrc => simp only [left, hs] at h; have := hi.n2 (Or.inr (Or.inr hs)); omega
  | cons b l ih =>
    by_cases hw : s.st = .waiting
    · rw [feeds_noise cbs s hw _ hl]; exact hw
    · have h1 := left_feed cbs hi hn b hw
      have h2 := feed_inv cbs hi hn b
      rw [List.mem_cons, not_or] at hl
      exact ih h2.1 h2.2 hl.2 (by simp only [List.length_cons] at h; omega)

/-! ### What the decoder's state says about the stream -/

/-- The stream so far ends with the frame the decoder believes to be in. -/
def Mid (s : State) (past : List U8) : Prop :=
  match s.st with
  | .waiting => True
  | .getType => ∃ pre, past = pre ++ 0x55 :: s.msgType.take s.nRead.toNat
  | .getSender => ∃ pre, past = pre ++ 0x55 :: (s.msgType ++ s.sender.take s.nRead.toNat)
  | .getLen => ∃ pre, past = pre ++ 0x55 :: (s.msgType ++ s.sender)
  | .getMsg => ∃ pre, past = pre ++ 0x55 :: (s.msgType ++ s.sender ++ [s.len] ++ s.buf.take s.nRead.toNat)
  | .getCrc => ∃ pre, past = pre ++ 0x55 :: (s.msgType ++ s.sender ++ [s.len] ++ s.buf.take s.len.toNat ++
      s.crc.take s.nRead.toNat)

theorem mid_norm {s : State} {past : List U8} (hi : s.st = .getMsg → s.nRead.toNat ≤ s.len.toNat) (h : Mid s past) :
    Mid (norm s) past := by
  unfold norm
  split
  · next hc =>
    have he : s.nRead.toNat = s.len.toNat := Nat.le_antisymm (hi hc.1) hc.2
    unfold Mid at h ⊢
    simp only [hc.1] at h
    obtain ⟨pre, h⟩ := h
    refine ⟨pre, ?_⟩
    rw [h, he]
    show _ = pre ++ 0x55 :: (s.msgType ++ s.sender ++ [s.len] ++ s.buf.take s.len.toNat ++ s.crc.take 0)
    simp
  · exact h

theorem take_store {mem : List U8} {off : Nat} (b : U8) (h : off + 1 ≤ mem.length) :
    (store mem off [b]).take (off + 1) = mem.take off ++ [b] := by
  unfold store
  have hl : (mem.take off ++ [b]).length = off + 1 := by simp; omega
  rw [show mem.take off ++ [b] ++ mem.drop (off + [b].length) = (mem.take off ++ [b]) ++ mem.drop (off + 1) from rfl]
  rw [List.take_append_of_le_length (by omega), List.take_of_length_le (by omega)]

/-- What a report says about the stream: a delivered message stands there as a whole frame with the right checksum, and
the last byte of the frame is one of the last `n`. -/
def Told (stream : List U8) (n : Nat) (e : Ev) : Prop :=
  ∀ m, e.2 = some m → m.buf.length = 256 ∧
    ∃ pre post, post.length < n ∧ stream = pre ++ frame m.ty m.sender (m.buf.take m.len.toNat) ++ post

theorem feed_mid (cbs : List (BitVec 16)) {s : State} (hi : Inv s) (hn : norm s = s) (b : U8) {past : List U8}
    (h : Mid s past) : Mid (feed cbs s b).1 (past ++ [b]) ∧ ∀ e, (feed cbs s b).2 = some e → Told (past ++ [b]) 1 e := by
  cases hs : s.st with
  | waiting =>
    simp only [feed, hs]
    refine ⟨?_, fun e he => by cases he⟩
    split
    · next hb => subst hb; exact ⟨past, by simp⟩
    · simp only [Mid, hs]
  | getType =>
    have h2 := hi.n2 (Or.inl hs)
    have h1 := add1 (n := s.nRead) (by omega)
    simp only [Mid, hs] at h
    obtain ⟨pre, h⟩ := h
    have ht := take_store (mem := s.msgType) (off := s.nRead.toNat) b (by rw [hi.ty]; omega)
    have hl := store_length (mem := s.msgType) (off := s.nRead.toNat) (bs := [b]) (by rw [hi.ty]; simp; omega)
    simp only [feed, hs]
    refine ⟨?_, fun e he => by cases he⟩
    split
    · next hb =>
      refine ⟨pre, ?_⟩
      show _ = pre ++ 0x55 :: (store s.msgType s.nRead.toNat [b] ++ s.sender.take 0)
      rw [List.take_of_length_le (by rw [hl, hi.ty]; omega)] at ht
      rw [h, ht]
      simp
    · simp only [Mid]
      refine ⟨pre, ?_⟩
      rw [h1, ht, h]
      simp
  | getSender =>
    have h2 := hi.n2 (Or.inr (Or.inl hs))
    have h1 := add1 (n := s.nRead) (by omega)
    simp only [Mid, hs] at h
    obtain ⟨pre, h⟩ := h
    have ht := take_store (mem := s.sender) (off := s.nRead.toNat) b (by rw [hi.sn]; omega)
    have hl := store_length (mem := s.sender) (off := s.nRead.toNat) (bs := [b]) (by rw [hi.sn]; simp; omega)
    simp only [feed, hs]
    refine ⟨?_, fun e he => by cases he⟩
    split
    · next hb =>
      refine ⟨pre, ?_⟩
      dsimp only
      rw [List.take_of_length_le (by rw [hl, hi.sn]; omega)] at ht
      rw [h, ht]
      simp
    · simp only [Mid]
      refine ⟨pre, ?_⟩
      rw [h1, ht, h]
      simp
  | getLen =>
    simp only [Mid, hs] at h
    obtain ⟨pre, h⟩ := h
    simp only [feed, hs]
    refine ⟨mid_norm (fun _ => Nat.zero_le _) ⟨pre, ?_⟩, fun e he => by cases he⟩
    show _ = pre ++ 0x55 :: (s.msgType ++ s.sender ++ [b] ++ s.buf.take 0)
    rw [h]
    simp
  | getMsg =>
    have hlt : s.nRead.toNat < s.len.toNat := by
      apply Nat.lt_of_not_le
      intro h
      have h2 : (norm s).st = .getCrc := by unfold norm; rw [if_pos ⟨hs, h⟩]
      rw [hn, hs] at h2
      cases h2
    have hll := s.len.isLt
    have h1 := add1 (n := s.nRead) (by omega)
    simp only [Mid, hs] at h
    obtain ⟨pre, h⟩ := h
    have ht := take_store (mem := s.buf) (off := s.nRead.toNat) b (by rw [hi.bf]; omega)
    simp only [feed, hs]
    refine ⟨mid_norm (fun _ => by show (s.nRead + 1).toNat ≤ s.len.toNat; omega) ?_, fun e he => by cases he⟩
    simp only [Mid]
    refine ⟨pre, ?_⟩
    rw [h1, ht, h]
    simp
  | getCrc =>
    have h2 := hi.n2 (Or.inr (Or.inr hs))
    have h1 := add1 (n := s.nRead) (by omega)
    simp only [Mid, hs] at h
    obtain ⟨pre, h⟩ := h
    have ht := take_store (mem := s.crc) (off := s.nRead.toNat) b (by rw [hi.cr]; omega)
    have hl := store_length (mem := s.crc) (off := s.nRead.toNat) (bs := [b]) (by rw [hi.cr]; simp; omega)
    simp only [feed, hs]
    split
    · next hb =>
      rw [List.take_of_length_le (by rw [hl, hi.cr]; omega)] at ht
      refine ⟨by simp only [Mid, finish_s], fun e he m hm => ?_⟩
      simp only [Option.some.injEq] at he
      subst he
      unfold finish at hm
      dsimp only at hm
      have hlen : (s.buf.take s.len.toNat).length = s.len.toNat := by
        rw [List.length_take, hi.bf]; have := s.len.isLt; omega
      split at hm
      · next hcrc =>
        split at hm
        · simp only [Option.some.injEq] at hm
          subst hm
          refine ⟨hi.bf, pre, [], Nat.zero_lt_one, ?_⟩
          obtain ⟨x, y, hxy⟩ := two_cases hi.ty
          obtain ⟨z, w, hzw⟩ := two_cases hi.sn
          obtain ⟨u, v, huv⟩ := two_cases (hl.trans hi.cr)
          rw [huv] at hcrc ht
          have hbody : frameBody (val16 s.msgType) (val16 s.sender) (s.buf.take s.len.toNat) =
              s.msgType ++ s.sender ++ [s.len] ++ s.buf.take s.len.toNat := by
            unfold frameBody
            rw [hxy, hzw, le16_val16, le16_val16, hlen, BitVec.ofNat_toNat, BitVec.setWidth_eq]
          have hc : val16 [u, v] = crcOf (s.msgType ++ s.sender ++ [s.len] ++ s.buf.take s.len.toNat) := by
            rw [hcrc, ← crc16_spec, ← crc16_append, ← crc16_append, ← crc16_append, List.append_assoc, List.append_assoc]
          unfold frame
          dsimp only
          rw [hbody, ← hc, le16_val16, ht, h]
          simp
        · cases hm
      · cases hm
    · refine ⟨?_, fun e he => by cases he⟩
      simp only [Mid]
      refine ⟨pre, ?_⟩
      rw [h1, ht, h]
      simp

theorem told_append {a : List U8} {n : Nat} {e : Ev} (h : Told a n e) (b : List U8) : Told (a ++ b) (n + b.length) e := by
  intro m hm
  obtain ⟨h0, pre, post, hp, h1⟩ := h m hm
  exact ⟨h0, pre, post ++ b, by rw [List.length_append]; omega, by rw [h1]; simp⟩

theorem told_mono {a : List U8} {n n' : Nat} {e : Ev} (h : Told a n e) (hn : n ≤ n') : Told a n' e := by
  intro m hm
  obtain ⟨h0, pre, post, hp, h1⟩ := h m hm
  exact ⟨h0, pre, post, by omega, h1⟩

theorem feeds_told (cbs : List (BitVec 16)) (l : List U8) {s : State} (hi : Inv s) (hn : norm s = s) {past : List U8}
    (h : Mid s past) : ∀ e ∈ (feeds cbs s l).2, Told (past ++ l) l.length e := by
  induction l generalizing s past with
  | nil => intro e he; cases he
  | cons b l ih =>
    intro e he
    have h1 := feed_mid cbs hi hn b h
    have h2 := feed_inv cbs hi hn b
    simp only [feeds, List.mem_append, Option.mem_toList] at he
    rw [show past ++ b :: l = (past ++ [b]) ++ l by simp]
    rcases he with he | he
    · exact told_mono (told_append (h1.2 e he) l) (by simp; omega)
    · exact told_mono (ih h2.1 h2.2 h1.1 e he) (by simp)

theorem feeds_mid (cbs : List (BitVec 16)) (l : List U8) {s : State} (hi : Inv s) (hn : norm s = s) {past : List U8}
    (h : Mid s past) : Mid (feeds cbs s l).1 (past ++ l) := by
  induction l generalizing s past with
  | nil => rw [List.append_nil]; exact h
  | cons b l ih =>
    have h1 := feed_mid cbs hi hn b h
    have h2 := feed_inv cbs hi hn b
    rw [show past ++ b :: l = (past ++ [b]) ++ l by simp]
    exact ih h2.1 h2.2 h1.1

/-- Only a frame with the right checksum and a listener is handed on. -/
theorem process_msg {cbs : List (BitVec 16)} {s : State} {inp : List U8} {o : Out} (h : process cbs s inp = some o)
    {m : Msg} (hm : o.msg = some m) : o.status = .executed ∧ m.ty ∈ cbs := by
  have key : ∀ s' inp', o = finish cbs s' inp' → o.status = .executed ∧ m.ty ∈ cbs := by
    intro s' inp' ho
    subst ho
    unfold finish at hm ⊢
    dsimp only at hm ⊢
    split at hm
    · next h1 =>
      rw [if_pos h1]
      split at hm
      · next h2 =>
        rw [if_pos h2]
        simp only [Option.some.injEq] at hm
        subst hm
        exact ⟨rfl, by simpa using h2⟩
      · cases hm
    · cases hm
  cases hs : s.st <;> simp only [process, hs] at h <;> repeat' split at h
  all_goals first
    | (cases h; done)
    | (simp only [Option.some.injEq] at h; subst h; first | (cases hm) | exact key _ _ rfl)

theorem drain_msg {cbs : List (BitVec 16)} {fuel : Nat} {s : State} {inp : List U8} {s' : State} {evs : List Ev}
    (h : drain cbs fuel s inp = some (s', evs)) : ∀ e ∈ evs, ∀ m, e.2 = some m → e.1 = .executed ∧ m.ty ∈ cbs := by
  induction fuel generalizing s inp s' evs with
  | zero =>
    cases inp with
    | nil => simp only [drain, Option.some.injEq, Prod.mk.injEq] at h; rw [← h.2]; intro e he; cases he
    | cons b l => cases h
  | succ fuel ih =>
    cases inp with
    | nil => simp only [drain, Option.some.injEq, Prod.mk.injEq] at h; rw [← h.2]; intro e he; cases he
    | cons b l =>
      simp only [drain] at h
      split at h
      · cases h
      · next o ho =>
        split at h
        · cases h
        · next t ev hd =>
          simp only [Option.some.injEq, Prod.mk.injEq] at h
          obtain ⟨rfl, rfl⟩ := h
          intro e he m hm
          rcases List.mem_cons.mp he with rfl | he
          · exact process_msg ho hm
          · exact ih hd e he m hm

theorem reads_msg {cbs : List (BitVec 16)} {cs : List (List U8)} {s s' : State} {evs : List Ev}
    (h : reads cbs s cs = some (s', evs)) : ∀ e ∈ evs, ∀ m, e.2 = some m → e.1 = .executed ∧ m.ty ∈ cbs := by
  induction cs generalizing s s' evs with
  | nil => simp only [reads, Option.some.injEq, Prod.mk.injEq] at h; rw [← h.2]; intro e he; cases he
  | cons c cs ih =>
    simp only [reads] at h
    split at h
    · cases h
    · next t ev hd =>
      split at h
      · cases h
      · next t' ev' hd' =>
        simp only [Option.some.injEq, Prod.mk.injEq] at h
        obtain ⟨rfl, rfl⟩ := h
        intro e he
        rcases List.mem_append.mp he with he | he
        · exact drain_msg hd e he
        · exact ih hd' e he

end Sbp
end PAN
