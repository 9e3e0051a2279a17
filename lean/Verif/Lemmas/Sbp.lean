import Verif.Lemmas.SbpCrc
/-!
The decoder reads its input in pieces of up to 255 bytes. Here it is shown to do the same as a machine that takes one
byte at a time (`feed`), whatever the pieces.
-/
namespace PAN
open Spec
namespace Sbp

/-- `bs` written into `mem` at `off`. -/
def store (mem : List U8) (off : Nat) (bs : List U8) : List U8 := mem.take off ++ bs ++ mem.drop (off + bs.length)

theorem store_length {mem : List U8} {off : Nat} {bs : List U8} (h : off + bs.length ≤ mem.length) :
    (store mem off bs).length = mem.length := by
  simp [store]; omega

theorem store_nil (mem : List U8) (off : Nat) : store mem off [] = mem := by
  simp [store]

theorem store_store (mem : List U8) (off : Nat) (b : U8) (bs : List U8) (h : off + 1 + bs.length ≤ mem.length) :
    store (store mem off [b]) (off + 1) bs = store mem off (b :: bs) := by
  have hl : (mem.take off ++ [b]).length = off + 1 := by simp; omega
  unfold store
  rw [show mem.take off ++ [b] ++ mem.drop (off + [b].length) = (mem.take off ++ [b]) ++ mem.drop (off + 1) from rfl]
  rw [List.take_append_of_le_length (by omega), List.take_of_length_le (by omega),
    List.drop_append, hl, List.drop_of_length_le (by omega)]
  simp only [List.nil_append, List.drop_drop, List.length_cons, List.append_assoc, List.cons_append]
  congr 4
  omega

/-- The invariant of the decoder. -/
structure Inv (s : State) : Prop where
  ty : s.msgType.length = 2
  sn : s.sender.length = 2
  cr : s.crc.length = 2
  bf : s.buf.length = 256
  n2 : (s.st = .getType ∨ s.st = .getSender ∨ s.st = .getCrc) → s.nRead.toNat < 2
  nm : s.st = .getMsg → s.nRead.toNat ≤ s.len.toNat

theorem inv_init : Inv State.init :=
  ⟨rfl, rfl, rfl, List.length_replicate, fun h => by rcases h with h | h | h <;> exact absurd h (by decide),
    fun h => absurd h (by decide)⟩

/-- A message whose payload is complete waits for its checksum. -/
def norm (s : State) : State :=
  if s.st = .getMsg ∧ s.len.toNat ≤ s.nRead.toNat then { s with nRead := 0, st := .getCrc } else s

abbrev Ev := Status × Option Msg

/-- One byte. -/
def feed (cbs : List (BitVec 16)) (s : State) (b : U8) : State × Option Ev :=
  match s.st with
  | .waiting => (if b = 0x55 then { s with nRead := 0, st := .getType } else s, none)
  | .getType =>
    (if (s.nRead + 1).toNat ≥ 2 then
      { s with msgType := store s.msgType s.nRead.toNat [b], nRead := 0, st := .getSender }
     else { s with msgType := store s.msgType s.nRead.toNat [b], nRead := s.nRead + 1 }, none)
  | .getSender =>
    (if (s.nRead + 1).toNat ≥ 2 then
      { s with sender := store s.sender s.nRead.toNat [b], nRead := s.nRead + 1, st := .getLen }
     else { s with sender := store s.sender s.nRead.toNat [b], nRead := s.nRead + 1 }, none)
  | .getLen => (norm { s with len := b, nRead := 0, st := .getMsg }, none)
  | .getMsg => (norm { s with buf := store s.buf s.nRead.toNat [b], nRead := s.nRead + 1 }, none)
  | .getCrc =>
    if (s.nRead + 1).toNat ≥ 2 then
      let o := finish cbs { s with crc := store s.crc s.nRead.toNat [b], nRead := s.nRead + 1 } []
      (o.s, some (o.status, o.msg))
    else ({ s with crc := store s.crc s.nRead.toNat [b], nRead := s.nRead + 1 }, none)

def feeds (cbs : List (BitVec 16)) : State → List U8 → State × List Ev
  | s, [] => (s, [])
  | s, b :: l => ((feeds cbs (feed cbs s b).1 l).1, (feed cbs s b).2.toList ++ (feeds cbs (feed cbs s b).1 l).2)

theorem feeds_append (cbs : List (BitVec 16)) (s : State) (a b : List U8) :
    feeds cbs s (a ++ b) = ((feeds cbs (feeds cbs s a).1 b).1, (feeds cbs s a).2 ++ (feeds cbs (feeds cbs s a).1 b).2) := by
  induction a generalizing s with
  | nil => rfl
  | cons x a ih => simp only [List.cons_append, feeds, ih, List.append_assoc]

theorem norm_of_ne {s : State} (h : s.st ≠ .getMsg) : norm s = s := by
  unfold norm
  rw [if_neg (by rintro ⟨h', _⟩; exact h h')]

theorem norm_of_lt {s : State} (h : s.nRead.toNat < s.len.toNat) : norm s = s := by
  unfold norm
  rw [if_neg (by rintro ⟨_, h'⟩; omega)]

theorem norm_norm (s : State) : norm (norm s) = norm s := by
  by_cases h : s.st = .getMsg ∧ s.len.toNat ≤ s.nRead.toNat
  · have : norm s = { s with nRead := 0, st := .getCrc } := if_pos h
    rw [this]
    exact norm_of_ne (by simp)
  · have : norm s = s := if_neg h
    rw [this, this]

theorem toU32_nat {a b : Nat} (h : b ≤ a) (ha : a < 2 ^ 32) : toU32 ((a : Int) - (b : Int)) = a - b := by
  unfold toU32
  omega

theorem readInto_eq {mem : List U8} {off n : Nat} {inp : List U8} (h : off + n ≤ mem.length) :
    readInto mem off n inp = some ((inp.take n).length, store mem off (inp.take n), inp.drop n) := by
  unfold readInto store
  rw [if_pos]
  have := List.length_take_le n inp
  omega

theorem finish_inp (cbs : List (BitVec 16)) (s : State) (inp : List U8) :
    finish cbs s inp = { finish cbs s [] with inp := inp } := by
  unfold finish
  dsimp only
  split
  · split <;> rfl
  · rfl

theorem finish_status (cbs : List (BitVec 16)) (s : State) (inp : List U8) : (finish cbs s inp).status ≠ .ok := by
  unfold finish
  dsimp only
  split
  · split <;> simp
  · simp

theorem finish_s (cbs : List (BitVec 16)) (s : State) (inp : List U8) :
    (finish cbs s inp).s = { s with st := .waiting } := by
  unfold finish
  dsimp only
  split
  · split <;> rfl
  · rfl

/-- The calls that report something. -/
def loud (evs : List Ev) : List Ev := evs.filter (fun e => e.1 ≠ .ok)

theorem add1 {n : U8} (h : n.toNat < 255) : (n + 1).toNat = n.toNat + 1 := by
  rw [BitVec.toNat_add]
  show (n.toNat + 1) % 256 = _
  omega

theorem addk {n : U8} {k : Nat} (h : n.toNat + k < 256) : (n + BitVec.ofNat 8 k).toNat = n.toNat + k := by
  rw [BitVec.toNat_add, BitVec.toNat_ofNat]
  show (n.toNat + k % 256) % 256 = _
  omega

theorem feeds_msg (cbs : List (BitVec 16)) (c : List U8) (s : State) (hs : s.st = .getMsg) (hb : s.buf.length = 256)
    (hc : c ≠ []) (h : s.nRead.toNat + c.length ≤ s.len.toNat) :
    feeds cbs s c = (norm { s with buf := store s.buf s.nRead.toNat c, nRead := s.nRead + BitVec.ofNat 8 c.length }, []) := by
  have hl := s.len.isLt
  induction c generalizing s with
  | nil => exact absurd rfl hc
  | cons b c ih =>
    simp only [List.length_cons] at h
    have h1 : (s.nRead + 1).toNat = s.nRead.toNat + 1 := add1 (by omega)
    have hf : feed cbs s b = (norm { s with buf := store s.buf s.nRead.toNat [b], nRead := s.nRead + 1 }, none) := by
      simp only [feed, hs]
    simp only [feeds, hf, Option.toList_none, List.nil_append]
    by_cases hc0 : c = []
    · subst hc0
      rfl
    · have hpos : 0 < c.length := List.length_pos_iff.mpr hc0
      have hnn : norm { s with buf := store s.buf s.nRead.toNat [b], nRead := s.nRead + 1 } =
          { s with buf := store s.buf s.nRead.toNat [b], nRead := s.nRead + 1 } := norm_of_lt (by
            show (s.nRead + 1).toNat < s.len.toNat
            omega)
      rw [hnn, ih { s with buf := store s.buf s.nRead.toNat [b], nRead := s.nRead + 1 } hs
        (by show (store s.buf s.nRead.toNat [b]).length = 256; rw [store_length (by simp; omega)]; exact hb) hc0
        (by show (s.nRead + 1).toNat + c.length ≤ s.len.toNat; omega) hl]
      dsimp only
      rw [h1, store_store _ _ _ _ (by omega)]
      have he : s.nRead + 1 + BitVec.ofNat 8 c.length = s.nRead + BitVec.ofNat 8 (b :: c).length := by
        rw [List.length_cons, BitVec.add_assoc]
        congr 1
        rw [BitVec.add_comm]
        exact (BitVec.ofNat_add c.length 1).symm
      rw [he]

/-- What one call of the decoder on non-empty input amounts to: it takes some bytes `c` from the front, and has the
effect of feeding them one by one. -/
def CallOk (cbs : List (BitVec 16)) (s : State) (inp : List U8) : Prop :=
  ∃ o c, process cbs s inp = some o ∧ inp = c ++ o.inp ∧ c ≠ [] ∧ Inv o.s ∧
    feeds cbs s c = (norm o.s, loud [(o.status, o.msg)])

theorem inv_with {s : State} (hi : Inv s) {st : Phase} {n : U8}
    (h2 : (st = .getType ∨ st = .getSender ∨ st = .getCrc) → n.toNat < 2) (hm : st = .getMsg → n.toNat ≤ s.len.toNat) :
    Inv { s with st := st, nRead := n } :=
  ⟨hi.ty, hi.sn, hi.cr, hi.bf, h2, hm⟩

theorem call_waiting {cbs : List (BitVec 16)} {s : State} (hi : Inv s) (hs : s.st = .waiting) (b : U8) (rest : List U8) :
    CallOk cbs s (b :: rest) := by
  by_cases hb : b = 0x55
  · refine ⟨⟨{ s with nRead := 0, st := .getType }, rest, .ok, none⟩, [b], ?_, rfl, by simp, ?_, ?_⟩
    · simp only [process, hs, if_pos hb]
    · exact ⟨hi.ty, hi.sn, hi.cr, hi.bf, fun _ => Nat.zero_lt_two, fun h => by cases h⟩
    · simp only [feeds, feed, hs, if_pos hb]
      rw [norm_of_ne (by simp)]
      rfl
  · refine ⟨⟨s, rest, .ok, none⟩, [b], ?_, rfl, by simp, hi, ?_⟩
    · simp only [process, hs, if_neg hb]
    · simp only [feeds, feed, hs, if_neg hb]
      rw [norm_of_ne (by simp [hs])]
      rfl

theorem call_len {cbs : List (BitVec 16)} {s : State} (hi : Inv s) (hs : s.st = .getLen) (b : U8) (rest : List U8) :
    CallOk cbs s (b :: rest) := by
  refine ⟨⟨{ s with len := b, nRead := 0, st := .getMsg }, rest, .ok, none⟩, [b], ?_, rfl, by simp, ?_, ?_⟩
  · simp only [process, hs]
  · exact ⟨hi.ty, hi.sn, hi.cr, hi.bf, fun h => by simp at h, fun _ => Nat.zero_le _⟩
  · simp only [feeds, feed, hs]
    rfl

theorem n_cases {n : U8} (h : n.toNat < 2) : n = 0 ∨ n = 1 := by
  have : n.toNat = 0 ∨ n.toNat = 1 := by omega
  rcases this with h | h
  · exact Or.inl (BitVec.eq_of_toNat_eq h)
  · exact Or.inr (BitVec.eq_of_toNat_eq h)

theorem two_cases {m : List U8} (h : m.length = 2) : ∃ a b, m = [a, b] := by
  match m, h with
  | [a, b], _ => exact ⟨a, b, rfl⟩

theorem call_type {cbs : List (BitVec 16)} {s : State} (hi : Inv s) (hs : s.st = .getType) (b : U8) (rest : List U8) :
    CallOk cbs s (b :: rest) := by
  obtain ⟨ph, ty, sn, cr, len, n, buf⟩ := s
  obtain ⟨x, y, hxy⟩ := two_cases hi.ty
  dsimp only at hs hxy
  subst hs hxy
  rcases n_cases (hi.n2 (Or.inl rfl)) with h | h <;> dsimp only at h <;> subst h
  · cases rest with
    | nil =>
      refine ⟨⟨⟨.getType, [b, y], sn, cr, len, 1, buf⟩, [], .ok, none⟩, [b], rfl, rfl, by simp, ⟨rfl, hi.sn, hi.cr, hi.bf, fun _ => Nat.one_lt_two, fun h => by cases h⟩, ?_⟩
      rw [norm_of_ne (by simp)]
      rfl
    | cons b2 rest =>
      refine ⟨⟨⟨.getSender, [b, b2], sn, cr, len, 0, buf⟩, rest, .ok, none⟩, [b, b2], rfl, rfl, by simp, ⟨rfl, hi.sn, hi.cr, hi.bf, fun _ => Nat.zero_lt_two, fun h => by cases h⟩, ?_⟩
      rw [norm_of_ne (by simp)]
      rfl
  · refine ⟨⟨⟨.getSender, [x, b], sn, cr, len, 0, buf⟩, rest, .ok, none⟩, [b], rfl, rfl, by simp, ⟨rfl, hi.sn, hi.cr, hi.bf, fun _ => Nat.zero_lt_two, fun h => by cases h⟩, ?_⟩
    rw [norm_of_ne (by simp)]
    rfl

theorem call_sender {cbs : List (BitVec 16)} {s : State} (hi : Inv s) (hs : s.st = .getSender) (b : U8) (rest : List U8) :
    CallOk cbs s (b :: rest) := by
  obtain ⟨ph, ty, sn, cr, len, n, buf⟩ := s
  obtain ⟨x, y, hxy⟩ := two_cases hi.sn
  dsimp only at hs hxy
  subst hs hxy
  rcases n_cases (hi.n2 (Or.inr (Or.inl rfl))) with h | h <;> dsimp only at h <;> subst h
  · cases rest with
    | nil =>
      refine ⟨⟨⟨.getSender, ty, [b, y], cr, len, 1, buf⟩, [], .ok, none⟩, [b], rfl, rfl, by simp, ⟨hi.ty, rfl, hi.cr, hi.bf, fun _ => Nat.one_lt_two, fun h => by cases h⟩, ?_⟩
      rw [norm_of_ne (by simp)]
      rfl
    | cons b2 rest =>
      refine ⟨⟨⟨.getLen, ty, [b, b2], cr, len, 2, buf⟩, rest, .ok, none⟩, [b, b2], rfl, rfl, by simp, ⟨hi.ty, rfl, hi.cr, hi.bf, fun h => by simp at h, fun h => by cases h⟩, ?_⟩
      rw [norm_of_ne (by simp)]
      rfl
  · refine ⟨⟨⟨.getLen, ty, [x, b], cr, len, 2, buf⟩, rest, .ok, none⟩, [b], rfl, rfl, by simp, ⟨hi.ty, rfl, hi.cr, hi.bf, fun h => by simp at h, fun h => by cases h⟩, ?_⟩
    rw [norm_of_ne (by simp)]
    rfl

theorem finish_loud (cbs : List (BitVec 16)) (s : State) (inp : List U8) :
    loud [((finish cbs s inp).status, (finish cbs s inp).msg)] = [((finish cbs s []).status, (finish cbs s []).msg)] := by
  rw [finish_inp]
  simp [loud, finish_status]

theorem call_crc {cbs : List (BitVec 16)} {s : State} (hi : Inv s) (hs : s.st = .getCrc) (b : U8) (rest : List U8) :
    CallOk cbs s (b :: rest) := by
  obtain ⟨ph, ty, sn, cr, len, n, buf⟩ := s
  obtain ⟨x, y, hxy⟩ := two_cases hi.cr
  dsimp only at hs hxy
  subst hs hxy
  rcases n_cases (hi.n2 (Or.inr (Or.inr rfl))) with h | h <;> dsimp only at h <;> subst h
  · cases rest with
    | nil =>
      refine ⟨⟨⟨.getCrc, ty, sn, [b, y], len, 1, buf⟩, [], .ok, none⟩, [b], rfl, rfl, by simp,
        ⟨hi.ty, hi.sn, rfl, hi.bf, fun _ => Nat.one_lt_two, fun h => by cases h⟩, ?_⟩
      rw [norm_of_ne (by simp)]
      rfl
    | cons b2 rest =>
      refine ⟨finish cbs ⟨.getCrc, ty, sn, [b, b2], len, 2, buf⟩ rest, [b, b2], rfl, ?_, by simp, ?_, ?_⟩
      · rw [finish_inp]; rfl
      · rw [finish_s]
        exact ⟨hi.ty, hi.sn, rfl, hi.bf, fun h => by simp at h, fun h => by cases h⟩
      · rw [finish_loud, finish_s, norm_of_ne (by simp)]
        show ((finish cbs ⟨.getCrc, ty, sn, [b, b2], len, 2, buf⟩ []).s, _) = _
        rw [finish_s]
        rfl
  · refine ⟨finish cbs ⟨.getCrc, ty, sn, [x, b], len, 2, buf⟩ rest, [b], rfl, ?_, by simp, ?_, ?_⟩
    · rw [finish_inp]; rfl
    · rw [finish_s]
      exact ⟨hi.ty, hi.sn, rfl, hi.bf, fun h => by simp at h, fun h => by cases h⟩
    · rw [finish_loud, finish_s, norm_of_ne (by simp)]
      show ((finish cbs ⟨.getCrc, ty, sn, [x, b], len, 2, buf⟩ []).s, _) = _
      rw [finish_s]
      rfl

theorem call_msg {cbs : List (BitVec 16)} {s : State} (hi : Inv s) (hs : s.st = .getMsg)
    (hlt : s.nRead.toNat < s.len.toNat) (b : U8) (rest : List U8) : CallOk cbs s (b :: rest) := by
  have hl := s.len.isLt
  have hb := hi.bf
  have hr := readInto_eq (mem := s.buf) (off := s.nRead.toNat) (n := s.len.toNat - s.nRead.toNat) (inp := b :: rest)
    (by omega)
  have ht : toU32 ((s.len.toNat : Int) - (s.nRead.toNat : Int)) = s.len.toNat - s.nRead.toNat :=
    toU32_nat (by omega) (by omega)
  obtain ⟨c, hc⟩ : ∃ c, c = (b :: rest).take (s.len.toNat - s.nRead.toNat) := ⟨_, rfl⟩
  have hcl : c.length ≤ s.len.toNat - s.nRead.toNat := by rw [hc]; exact List.length_take_le _ _
  have hcn : c ≠ [] := by
    rw [hc]
    intro h0
    rw [List.take_eq_nil_iff] at h0
    rcases h0 with h0 | h0
    · omega
    · cases h0
  have hk := addk (n := s.nRead) (k := c.length) (by omega)
  have hf := feeds_msg cbs c s hs hb hcn (by omega)
  rw [← hc] at hr
  have hsplit : b :: rest = c ++ (b :: rest).drop (s.len.toNat - s.nRead.toNat) := by
    rw [hc]; exact (List.take_append_drop _ _).symm
  by_cases hd : s.len.toNat - s.nRead.toNat ≤ c.length
  · refine ⟨⟨{ s with buf := store s.buf s.nRead.toNat c, nRead := 0, st := .getCrc }, _, .ok, none⟩, c, ?_, hsplit, hcn,
      ?_, ?_⟩
    · simp only [process, hs, ht, hr]
      rw [if_pos (by rw [hk]; omega)]
    · exact ⟨hi.ty, hi.sn, hi.cr, (store_length (by omega)).trans hb, fun _ => Nat.zero_lt_two, fun h => by cases h⟩
    · rw [hf, norm_of_ne (s := { s with buf := store s.buf s.nRead.toNat c, nRead := 0, st := .getCrc }) (by simp)]
      unfold norm
      rw [if_pos ⟨hs, by show _ ≤ (s.nRead + BitVec.ofNat 8 c.length).toNat; rw [hk]; dsimp only; omega⟩]
      rfl
  · refine ⟨⟨{ s with buf := store s.buf s.nRead.toNat c, nRead := s.nRead + BitVec.ofNat 8 c.length }, _, .ok, none⟩, c,
      ?_, hsplit, hcn, ?_, ?_⟩
    · simp only [process, hs, ht, hr]
      rw [if_neg (by rw [hk]; omega)]
    · refine ⟨hi.ty, hi.sn, hi.cr, (store_length (by omega)).trans hb, fun h => by simp [hs] at h, fun _ => ?_⟩
      show (s.nRead + BitVec.ofNat 8 c.length).toNat ≤ s.len.toNat
      omega
    · rw [hf]
      rfl

/-- Every call on a state that is not waiting to notice a complete payload. -/
theorem call_ok {cbs : List (BitVec 16)} {s : State} (hi : Inv s) (hn : norm s = s) (b : U8) (rest : List U8) :
    CallOk cbs s (b :: rest) := by
  cases hs : s.st with
  | waiting => exact call_waiting hi hs b rest
  | getType => exact call_type hi hs b rest
  | getSender => exact call_sender hi hs b rest
  | getLen => exact call_len hi hs b rest
  | getMsg =>
    refine call_msg hi hs ?_ b rest
    apply Nat.lt_of_not_le
    intro h
    have h2 : (norm s).st = .getCrc := by unfold norm; rw [if_pos ⟨hs, h⟩]
    rw [hn, hs] at h2
    cases h2
  | getCrc => exact call_crc hi hs b rest

/-- A complete payload is noticed without reading. -/
theorem call_norm {cbs : List (BitVec 16)} {s : State} (hi : Inv s) (hn : norm s ≠ s) (inp : List U8) :
    process cbs s inp = some ⟨norm s, inp, .ok, none⟩ ∧ Inv (norm s) := by
  have hc : s.st = .getMsg ∧ s.len.toNat ≤ s.nRead.toNat := by
    by_contra h
    exact hn (if_neg h)
  have he : s.nRead.toNat = s.len.toNat := Nat.le_antisymm (hi.nm hc.1) hc.2
  have hnorm : norm s = { s with nRead := 0, st := .getCrc } := if_pos hc
  constructor
  · have hl := s.len.isLt
    have ht : toU32 ((s.len.toNat : Int) - (s.nRead.toNat : Int)) = 0 := by
      rw [toU32_nat (by omega) (by omega)]; omega
    have hr := readInto_eq (mem := s.buf) (off := s.nRead.toNat) (n := 0) (inp := inp)
      (by have := hi.bf; omega)
    simp only [process, hc.1, ht, hr, List.take_zero, List.length_nil, List.drop_zero, store_nil]
    rw [if_pos (by rw [addk (by omega)]; omega), hnorm]
  · rw [hnorm]
    exact ⟨hi.ty, hi.sn, hi.cr, hi.bf, fun _ => Nat.zero_lt_two, fun h => by cases h⟩

/-- The driver's loop, with enough rounds, ends without a stray write and has the effect of feeding the bytes one by
one. -/
theorem drain_ok (cbs : List (BitVec 16)) (fuel : Nat) (s : State) (inp : List U8) (hi : Inv s)
    (hf : 2 * inp.length + (if norm s = s then 0 else 1) ≤ fuel) :
    ∃ s' evs, drain cbs fuel s inp = some (s', evs) ∧ Inv s' ∧
      (norm s', loud evs) = feeds cbs (norm s) inp := by
  induction fuel generalizing s inp with
  | zero =>
    have : inp = [] := by
      cases inp with
      | nil => rfl
      | cons b l => simp at hf
    subst this
    exact ⟨s, [], by simp [drain], hi, rfl⟩
  | succ fuel ih =>
    cases inp with
    | nil => exact ⟨s, [], by simp [drain], hi, rfl⟩
    | cons b l =>
      by_cases hn : norm s = s
      · obtain ⟨o, c, ho, hc, hcn, hio, hfe⟩ := call_ok (cbs := cbs) hi hn b l
        have hlen : (b :: l).length = c.length + o.inp.length := by rw [hc, List.length_append]
        have hpos : 0 < c.length := List.length_pos_iff.mpr hcn
        obtain ⟨s', evs, hd, hi', he⟩ := ih o.s o.inp hio (by
          rw [if_pos hn, hlen] at hf
          split <;> omega)
        refine ⟨s', (o.status, o.msg) :: evs, ?_, hi', ?_⟩
        · simp only [drain, ho, hd]
        · rw [hn, hc, feeds_append, hfe]
          dsimp only
          rw [← he]
          simp only [loud, List.filter_cons, List.filter_nil]
          split <;> rfl
      · obtain ⟨ho, hio⟩ := call_norm (cbs := cbs) hi hn (b :: l)
        obtain ⟨s', evs, hd, hi', he⟩ := ih (norm s) (b :: l) hio (by
          rw [if_neg hn] at hf
          rw [if_pos (norm_norm s)]
          omega)
        refine ⟨s', (.ok, none) :: evs, ?_, hi', ?_⟩
        · simp only [drain, ho, hd]
        · rw [norm_norm] at he
          rw [← he]
          rfl

end Sbp
end PAN
