import Verif.Model.PiksiAux
import Verif.Props.Piksi
/-!
C113: the GPS driver's status readings, its log and its commands to the receiver.
-/
namespace PAN
open Spec Piksi

namespace Spec

/-- The "dilution of precision" message: time of week; geometric, position, time, horizontal and vertical values. -/
def dopsMsg (tow : BitVec 32) (g p t h v : BitVec 16) : List U8 :=
  leBytes 4 tow.toNat ++ leBytes 2 g.toNat ++ leBytes 2 p.toNat ++ leBytes 2 t.toNat ++ leBytes 2 h.toNat ++
    leBytes 2 v.toNat

/-- One channel of the "UART state" message. -/
structure Channel where
  tx : BitVec 32
  rx : BitVec 32
  crcErrors : BitVec 16
  ioErrors : BitVec 16
  txLevel : U8
  rxLevel : U8

/-- A channel on the wire. -/
def Channel.bytes (c : Channel) : List U8 :=
  leBytes 4 c.tx.toNat ++ leBytes 4 c.rx.toNat ++ leBytes 2 c.crcErrors.toNat ++ leBytes 2 c.ioErrors.toNat ++
    [c.txLevel, c.rxLevel]

/-- The six readings of a channel, in that order. -/
def Channel.readings (c : Channel) : List Nat :=
  [c.tx.toNat, c.rx.toNat, c.crcErrors.toNat, c.ioErrors.toNat, c.txLevel.toNat, c.rxLevel.toNat]

/-- The "UART state" message: channels A, B and FTDI, then latency and period (four words each). -/
def uartMsg (a b ftdi : Channel) (rest : List U8) : List U8 := a.bytes ++ b.bytes ++ ftdi.bytes ++ rest

/-- The "base station position" message. -/
def basePosMsg (x y z : BitVec 64) : List U8 := leBytes 8 x.toNat ++ leBytes 8 y.toNat ++ leBytes 8 z.toNat

/-- A log message: its level and its text. -/
def logMsg (level : U8) (text : List U8) : List U8 := level :: text

end Spec

/-! ### The messages the callbacks get -/

/-- A message as the arrival it came from. -/
def Piksi.IsOf (a : Arrival) (m : Sbp.Msg) : Prop :=
  m.ty = a.ty ∧ m.len.toNat = a.payload.length ∧ m.buf.take m.len.toNat = a.payload

theorem reported_msgs {cbs : List (BitVec 16)} {as : List Arrival} {L : List (Sbp.Status × Option Sbp.Msg)}
    (h : List.Forall₂ (Reported cbs) as L) :
    List.Forall₂ IsOf (as.filter (fun a => decide (a.ty ∈ cbs))) (L.filterMap (·.2)) := by
  induction h with
  | nil => exact .nil
  | @cons a e as L ha _ ih =>
    unfold Reported at ha
    by_cases hm : a.ty ∈ cbs
    · rw [if_pos hm] at ha
      obtain ⟨_, m, hem, h1, _, h3, h4⟩ := ha
      rw [List.filterMap_cons_some hem, List.filter_cons_of_pos (by simpa using hm)]
      exact .cons ⟨h1, h3, h4⟩ ih
    · rw [if_neg hm] at ha
      subst ha
      rw [List.filterMap_cons_none rfl, List.filter_cons_of_neg (by simpa using hm)]
      exact ih

theorem quiet_filterMap : ∀ {evs : List (Sbp.Status × Option Sbp.Msg)},
    (∀ e ∈ evs, ∀ m, e.2 = some m → e.1 = .executed) → evs.filterMap (·.2) = (Sbp.loud evs).filterMap (·.2) := by
  intro evs h
  induction evs with
  | nil => rfl
  | cons e evs ih =>
    have ih := ih (fun e he => h e (List.mem_cons_of_mem _ he))
    unfold Sbp.loud at ih ⊢
    cases hm : e.2 with
    | none =>
      rw [List.filterMap_cons_none hm, ih, List.filter_cons]
      split
      · rw [List.filterMap_cons_none hm]
      · rfl
    | some m =>
      have hx := h e List.mem_cons_self m hm
      rw [List.filterMap_cons_some hm, List.filter_cons_of_pos (by simp [hx]), List.filterMap_cons_some hm, ih]

/-- Where the decoder stands after whole frames. -/
def Piksi.Between (s : Sbp.State) : Prop :=
  Sbp.Inv s ∧ ∃ t, Sbp.Inv t ∧ Sbp.norm s = t ∧ t.st = .waiting

theorem between_init : Between Sbp.State.init := ⟨Sbp.inv_init, _, Sbp.inv_init, rfl, rfl⟩

theorem norm_norm (s : Sbp.State) : Sbp.norm (Sbp.norm s) = Sbp.norm s := by
  unfold Sbp.norm
  split <;> simp_all

/-- Whole frames: the callbacks get the messages of the frames the driver listens to. -/
theorem run_msgs {s : Sbp.State} (hs : Between s) (d : Aux) (as : List Arrival) (hok : ∀ a ∈ as, a.Ok)
    (chunks : List (List U8)) (h : chunks.flatten = as.flatMap Arrival.bytes) :
    ∃ s' ms, Aux.run (s, d) chunks = some (s', ms.foldl Aux.callback d) ∧ Between s' ∧
      List.Forall₂ IsOf (as.filter (fun a => decide (a.ty ∈ callbacks))) ms := by
  obtain ⟨hi, t, hti, hn, hw⟩ := hs
  obtain ⟨s', evs, hr, hi', hf⟩ := Sbp.reads_ok callbacks chunks s hi
  rw [hn, h] at hf
  refine ⟨s', evs.filterMap (·.2), by unfold Aux.run; simp only [hr], ?_, ?_⟩
  · have hnn : Sbp.norm t = t := by rw [← hn, norm_norm]
    exact ⟨hi', _, (Sbp.feeds_inv callbacks (as.flatMap Arrival.bytes) hti hnn).1, congrArg Prod.fst hf,
      arrivals_state callbacks as hok t hti hw⟩
  · have hrep := feeds_arrivals callbacks as hok t hti hw
    rw [quiet_filterMap (fun e he m hm => (Sbp.reads_msg hr e he m hm).1)]
    have h2 : Sbp.loud evs = (Sbp.feeds callbacks t (as.flatMap Arrival.bytes)).2 := congrArg Prod.snd hf
    rw [h2]
    exact reported_msgs hrep

theorem filter_isOf {ty : BitVec 16} (hty : ty ∈ callbacks) {as : List Arrival} {ms : List Sbp.Msg}
    (h : List.Forall₂ IsOf (as.filter (fun a => decide (a.ty ∈ callbacks))) ms) :
    List.Forall₂ IsOf (as.filter (fun a => a.ty == ty)) (ms.filter (fun m => m.ty == ty)) := by
  induction as generalizing ms with
  | nil =>
    cases h
    exact .nil
  | cons a as ih =>
    by_cases hm : a.ty ∈ callbacks
    · rw [List.filter_cons_of_pos (by simpa using hm)] at h
      cases h with
      | @cons _ m _ ms ha hrest =>
        have := ih hrest
        by_cases he : a.ty = ty
        · rw [List.filter_cons_of_pos (by simp [he]), List.filter_cons_of_pos (by simp [ha.1, he])]
          exact .cons ha this
        · rw [List.filter_cons_of_neg (by simp [he]), List.filter_cons_of_neg (by simp [ha.1, he])]
          exact this
    · rw [List.filter_cons_of_neg (by simpa using hm)] at h
      rw [List.filter_cons_of_neg (by
        simp only [beq_iff_eq]
        intro he
        exact hm (he ▸ hty))]
      exact ih h

theorem forall2_last {R : α → β → Prop} {l : List α} {k : List β} (h : List.Forall₂ R l k) :
    (l.getLast? = none ∧ k.getLast? = none) ∨ ∃ a b, l.getLast? = some a ∧ k.getLast? = some b ∧ R a b := by
  induction h with
  | nil => exact Or.inl ⟨rfl, rfl⟩
  | @cons a b l k hab _ ih =>
    refine Or.inr ?_
    rcases ih with ⟨h1, h2⟩ | ⟨x, y, h1, h2, h3⟩
    · rw [List.getLast?_eq_none_iff] at h1 h2
      subst h1; subst h2
      exact ⟨a, b, rfl, rfl, hab⟩
    · refine ⟨x, y, ?_, ?_, h3⟩
      · rw [List.getLast?_cons, h1]; rfl
      · rw [List.getLast?_cons, h2]; rfl

theorem field_last (get : Aux → List U8) (ty : BitVec 16) (n : Nat)
    (hget : ∀ d m, get (Aux.callback d m) = if m.ty = ty then m.buf.take n else get d) (ms : List Sbp.Msg) (d : Aux) :
    get (ms.foldl Aux.callback d) =
      ((ms.filter (fun m => m.ty == ty)).getLast?.map (fun m => m.buf.take n)).getD (get d) := by
  induction ms generalizing d with
  | nil => rfl
  | cons m ms ih =>
    rw [List.foldl_cons, ih, hget]
    by_cases he : m.ty = ty
    · rw [if_pos he, List.filter_cons_of_pos (by simp [he]), List.getLast?_cons]
      cases (ms.filter (fun m => m.ty == ty)).getLast? <;> rfl
    · rw [if_neg he, List.filter_cons_of_neg (by simp [he])]

/-- What a member holds after whole frames. -/
theorem member_last (get : Aux → List U8) (ty : BitVec 16) (n : Nat) (hty : ty ∈ callbacks)
    (hget : ∀ d m, get (Aux.callback d m) = if m.ty = ty then m.buf.take n else get d)
    (as : List Arrival) (hok : ∀ a ∈ as, a.Ok) (chunks : List (List U8))
    (h : chunks.flatten = as.flatMap Arrival.bytes) :
    ∃ s d, Aux.run (Sbp.State.init, Aux.init) chunks = some (s, d) ∧
      (lastPayload ty as = none → get d = get Aux.init) ∧
      ∀ p, lastPayload ty as = some p → n ≤ p.length → get d = p.take n := by
  obtain ⟨s, ms, hr, _, hms⟩ := run_msgs between_init Aux.init as hok chunks h
  refine ⟨s, _, hr, ?_⟩
  rw [field_last get ty n hget]
  unfold lastPayload
  rcases forall2_last (filter_isOf hty hms) with ⟨h1, h2⟩ | ⟨a, m, h1, h2, _, h3, h4⟩
  · rw [h1, h2]
    exact ⟨fun _ => rfl, fun p hp _ => (nomatch hp)⟩
  · rw [h1, h2]
    refine ⟨fun hp => (nomatch hp), fun p hp hn => ?_⟩
    simp only [Option.map_some, Option.some.injEq] at hp
    subst hp
    show m.buf.take n = _
    rw [← h4, List.take_take, Nat.min_eq_left (by omega)]

/-! ### Numbers at offsets -/

theorem num_prefix (m : List U8) (off n k : Nat) (h : off + n ≤ k) : num (m.take k) off n = num m off n := by
  unfold num
  rw [List.drop_take, List.take_take, Nat.min_eq_left (by omega)]

theorem num_mid {a c : List U8} {n v off : Nat} (m : List U8) (hm : m = a ++ leBytes n v ++ c) (ho : off = a.length)
    (hv : v < 256 ^ n) : num m off n = v := by
  rw [hm, List.append_assoc]
  exact num_at a n v c ho hv

theorem lt16 (v : BitVec 16) : v.toNat < 256 ^ 2 := v.isLt
theorem lt32 (v : BitVec 32) : v.toNat < 256 ^ 4 := v.isLt
theorem lt64 (v : BitVec 64) : v.toNat < 256 ^ 8 := v.isLt

theorem dopsMsg_length (tow : BitVec 32) (g p t h v : BitVec 16) : (dopsMsg tow g p t h v).length = 14 := by
  simp [dopsMsg, leBytes_length]

theorem dops_get (d : Aux) (m : Sbp.Msg) :
    (Aux.callback d m).dops = if m.ty = 0x0206 then m.buf.take dopsSize else d.dops := by
  unfold Aux.callback Aux.insertLog
  (repeat' split) <;> simp_all

theorem pos_get (d : Aux) (m : Sbp.Msg) :
    (Aux.callback d m).posEcef = if m.ty = 0x0200 then m.buf.take posSize else d.posEcef := by
  unfold Aux.callback Aux.insertLog
  (repeat' split) <;> simp_all

theorem iar_get (d : Aux) (m : Sbp.Msg) :
    (Aux.callback d m).iar = if m.ty = 0x0019 then m.buf.take wordSize else d.iar := by
  unfold Aux.callback Aux.insertLog
  (repeat' split) <;> simp_all

theorem heartbeat_get (d : Aux) (m : Sbp.Msg) :
    (Aux.callback d m).heartbeat = if m.ty = 0xFFFF then m.buf.take wordSize else d.heartbeat := by
  unfold Aux.callback Aux.insertLog
  (repeat' split) <;> simp_all

theorem uart_get (d : Aux) (m : Sbp.Msg) :
    (Aux.callback d m).uart = if m.ty = 0x001D then m.buf.take uartSize else d.uart := by
  unfold Aux.callback Aux.insertLog
  (repeat' split) <;> simp_all

/-- The six dilution-of-precision readings are those of the last such message, and zero before the first, however the
bytes are split over the control cycles and whatever else arrives. -/
theorem C113_dops (as : List Arrival) (hok : ∀ a ∈ as, a.Ok) (chunks : List (List U8))
    (h : chunks.flatten = as.flatMap Arrival.bytes) :
    ∃ s d, Aux.run (Sbp.State.init, Aux.init) chunks = some (s, d) ∧
      (lastPayload 0x0206 as = none → d.getDops = [0, 0, 0, 0, 0, 0]) ∧
      ∀ tow g p t hz v, lastPayload 0x0206 as = some (dopsMsg tow g p t hz v) →
        d.getDops = [tow.toNat, g.toNat, p.toNat, t.toNat, hz.toNat, v.toNat] := by
  obtain ⟨s, d, hr, h0, h1⟩ := member_last Aux.dops 0x0206 dopsSize (by decide) dops_get as hok chunks h
  refine ⟨s, d, hr, fun hn => ?_, fun tow g p t hz v hl => ?_⟩
  · unfold Aux.getDops
    rw [h0 hn]
    decide
  · have hd := h1 _ hl (by rw [dopsMsg_length])
    rw [List.take_of_length_le (by rw [dopsMsg_length])] at hd
    unfold Aux.getDops
    simp only [rd_num]
    rw [hd, num_mid (a := []) (n := 4) (v := tow.toNat) (off := 0) (dopsMsg tow g p t hz v)
        (by simp only [dopsMsg, List.append_assoc, List.nil_append]; rfl) rfl (lt32 _),
      num_mid (a := leBytes 4 tow.toNat) (v := g.toNat) (dopsMsg tow g p t hz v)
        (by simp only [dopsMsg, List.append_assoc]; rfl) (by simp [leBytes_length]) (lt16 _),
      num_mid (a := leBytes 4 tow.toNat ++ leBytes 2 g.toNat) (v := p.toNat) (dopsMsg tow g p t hz v)
        (by simp only [dopsMsg, List.append_assoc]; rfl) (by simp [leBytes_length]) (lt16 _),
      num_mid (a := leBytes 4 tow.toNat ++ leBytes 2 g.toNat ++ leBytes 2 p.toNat) (v := t.toNat)
        (dopsMsg tow g p t hz v)
        (by simp only [dopsMsg, List.append_assoc]; rfl) (by simp [leBytes_length]) (lt16 _),
      num_mid (a := leBytes 4 tow.toNat ++ leBytes 2 g.toNat ++ leBytes 2 p.toNat ++ leBytes 2 t.toNat) (v := hz.toNat)
        (dopsMsg tow g p t hz v)
        (by simp only [dopsMsg, List.append_assoc]; rfl) (by simp [leBytes_length]) (lt16 _),
      num_mid (a := leBytes 4 tow.toNat ++ leBytes 2 g.toNat ++ leBytes 2 p.toNat ++ leBytes 2 t.toNat ++
          leBytes 2 hz.toNat) (v := v.toNat) (c := []) (dopsMsg tow g p t hz v)
        (by simp only [dopsMsg, List.append_assoc, List.append_nil]) (by simp [leBytes_length]) (lt16 _)]

theorem channel_length (c : Channel) : c.bytes.length = 14 := by simp [Channel.bytes, leBytes_length]

theorem channel_at (a : List U8) (c : Channel) (b : List U8) {o : Nat} (ho : o = a.length) :
    [num (a ++ c.bytes ++ b) o 4, num (a ++ c.bytes ++ b) (o + 4) 4, num (a ++ c.bytes ++ b) (o + 8) 2,
      num (a ++ c.bytes ++ b) (o + 10) 2, num (a ++ c.bytes ++ b) (o + 12) 1, num (a ++ c.bytes ++ b) (o + 13) 1] =
      c.readings := by
  subst ho
  unfold Channel.readings
  rw [num_mid (a := a) (n := 4) (v := c.tx.toNat) (a ++ c.bytes ++ b)
      (by simp only [Channel.bytes, List.append_assoc]; rfl) rfl (lt32 _),
    num_mid (a := a ++ leBytes 4 c.tx.toNat) (n := 4) (v := c.rx.toNat) (a ++ c.bytes ++ b)
      (by simp only [Channel.bytes, List.append_assoc]; rfl) (by simp [leBytes_length]) (lt32 _),
    num_mid (a := a ++ leBytes 4 c.tx.toNat ++ leBytes 4 c.rx.toNat) (n := 2) (v := c.crcErrors.toNat)
      (a ++ c.bytes ++ b)
      (by simp only [Channel.bytes, List.append_assoc]; rfl) (by simp [leBytes_length]) (lt16 _),
    num_mid (a := a ++ leBytes 4 c.tx.toNat ++ leBytes 4 c.rx.toNat ++ leBytes 2 c.crcErrors.toNat) (n := 2)
      (v := c.ioErrors.toNat) (a ++ c.bytes ++ b)
      (by simp only [Channel.bytes, List.append_assoc]; rfl) (by simp [leBytes_length]) (lt16 _)]
  have e1 : a ++ c.bytes ++ b = (a ++ leBytes 4 c.tx.toNat ++ leBytes 4 c.rx.toNat ++ leBytes 2 c.crcErrors.toNat ++
      leBytes 2 c.ioErrors.toNat) ++ (c.txLevel :: (c.rxLevel :: b)) := by
    simp only [Channel.bytes, List.append_assoc, List.cons_append, List.nil_append]
  have e2 : a ++ c.bytes ++ b = (a ++ leBytes 4 c.tx.toNat ++ leBytes 4 c.rx.toNat ++ leBytes 2 c.crcErrors.toNat ++
      leBytes 2 c.ioErrors.toNat ++ [c.txLevel]) ++ (c.rxLevel :: b) := by
    simp only [Channel.bytes, List.append_assoc, List.cons_append, List.nil_append]
  have n1 := num_byte (a ++ leBytes 4 c.tx.toNat ++ leBytes 4 c.rx.toNat ++ leBytes 2 c.crcErrors.toNat ++
    leBytes 2 c.ioErrors.toNat) c.txLevel (c.rxLevel :: b) (off := a.length + 12) (by simp [leBytes_length])
  have n2 := num_byte (a ++ leBytes 4 c.tx.toNat ++ leBytes 4 c.rx.toNat ++ leBytes 2 c.crcErrors.toNat ++
    leBytes 2 c.ioErrors.toNat ++ [c.txLevel]) c.rxLevel b (off := a.length + 13) (by simp [leBytes_length])
  rw [← e1] at n1
  rw [← e2] at n2
  rw [n1, n2]

/-- The twelve readings of the two serial channels are those of the last "UART state" message, each from its channel. -/
theorem C113_uart (as : List Arrival) (hok : ∀ a ∈ as, a.Ok) (chunks : List (List U8))
    (h : chunks.flatten = as.flatMap Arrival.bytes) :
    ∃ s d, Aux.run (Sbp.State.init, Aux.init) chunks = some (s, d) ∧
      ∀ a b f rest, rest.length = 32 → lastPayload 0x001D as = some (uartMsg a b f rest) →
        d.getUartA = a.readings ∧ d.getUartB = b.readings := by
  obtain ⟨s, d, hr, _, h1⟩ := member_last Aux.uart 0x001D uartSize (by decide) uart_get as hok chunks h
  refine ⟨s, d, hr, fun a b f rest hrest hl => ?_⟩
  have hlen : (uartMsg a b f rest).length = 74 := by simp [uartMsg, channel_length, hrest]
  have hd := h1 _ hl (by rw [hlen])
  rw [List.take_of_length_le (by rw [hlen])] at hd
  unfold Aux.getUartA Aux.getUartB
  simp only [rd_num]
  rw [hd]
  constructor
  · have := channel_at [] a (b.bytes ++ f.bytes ++ rest) (o := 0) rfl
    have e : uartMsg a b f rest = [] ++ a.bytes ++ (b.bytes ++ f.bytes ++ rest) := by
      simp only [uartMsg, List.append_assoc, List.nil_append]
    rw [e]
    exact this
  · have := channel_at a.bytes b (f.bytes ++ rest) (o := 14) (by rw [channel_length])
    have e : uartMsg a b f rest = a.bytes ++ b.bytes ++ (f.bytes ++ rest) := by
      simp only [uartMsg, List.append_assoc]
    rw [e]
    exact this

/-- The number of ambiguity hypotheses is that of the last such message. -/
theorem C113_iar (as : List Arrival) (hok : ∀ a ∈ as, a.Ok) (chunks : List (List U8))
    (h : chunks.flatten = as.flatMap Arrival.bytes) :
    ∃ s d, Aux.run (Sbp.State.init, Aux.init) chunks = some (s, d) ∧
      ∀ n : BitVec 32, lastPayload 0x0019 as = some (leBytes 4 n.toNat) → d.getIar = n.toNat := by
  obtain ⟨s, d, hr, _, h1⟩ := member_last Aux.iar 0x0019 wordSize (by decide) iar_get as hok chunks h
  refine ⟨s, d, hr, fun n hl => ?_⟩
  have hd := h1 _ hl (by rw [leBytes_length])
  rw [List.take_of_length_le (by rw [leBytes_length])] at hd
  unfold Aux.getIar
  rw [rd_num, hd]
  exact num_mid (a := []) (c := []) _ (by simp) rfl (lt32 _)

/-! ### Health -/

theorem mask_pow (f : BitVec 32) (k : Nat) (hk : k < 32) : (f &&& BitVec.twoPow 32 k == 0) = !f.getLsbD k := by
  show decide (f &&& BitVec.twoPow 32 k = 0) = _
  cases hb : f.getLsbD k
  · simp only [Bool.not_false, decide_eq_true_eq]
    apply BitVec.eq_of_getLsbD_eq
    intro i hi
    rw [BitVec.getLsbD_and, BitVec.getLsbD_twoPow]
    by_cases h0 : k = i
    · subst h0; rw [hb]; simp
    · simp [h0]
  · simp only [Bool.not_true, decide_eq_false_iff_not]
    intro hc
    have e : (f &&& BitVec.twoPow 32 k).getLsbD k = true := by
      rw [BitVec.getLsbD_and, BitVec.getLsbD_twoPow, hb]
      simp [hk]
    rw [hc] at e
    simp at e

theorem mask_three (f : BitVec 32) : (f &&& 0x0003 == 0) = (!f.getLsbD 0 && !f.getLsbD 1) := by
  rw [← mask_pow f 0 (by omega), ← mask_pow f 1 (by omega)]
  have e : (0x0003 : BitVec 32) = BitVec.twoPow 32 0 ||| BitVec.twoPow 32 1 := rfl
  rw [e, BitVec.and_or_distrib_left]
  generalize f &&& BitVec.twoPow 32 0 = a
  generalize f &&& BitVec.twoPow 32 1 = b
  by_cases ha : a = 0
  · by_cases hb : b = 0
    · subst ha; subst hb; rfl
    · subst ha; simp
  · have : a ||| b ≠ 0 := by
      intro h
      exact ha (BitVec.or_eq_zero_iff.mp h).1
    have e1 : (a ||| b == 0) = false := by simpa using this
    have e2 : (a == 0) = false := by simpa using ha
    rw [e1, e2]; rfl

theorem functional_bits (d : Aux) : d.isFunctional = true ↔
    d.getHeartbeat.getLsbD 0 = false ∧ d.getHeartbeat.getLsbD 1 = false ∧ d.getHeartbeat.getLsbD 2 = false := by
  unfold Aux.isFunctional Aux.systemHealthy Aux.ioHealthy Aux.swiftnapHealthy Aux.antennaHealthy
  have e1 : (d.getHeartbeat &&& 0x0001 == 0) = _ := mask_pow d.getHeartbeat 0 (by omega)
  have e2 : (d.getHeartbeat &&& 0x0002 == 0) = _ := mask_pow d.getHeartbeat 1 (by omega)
  have e3 : (d.getHeartbeat &&& 0x0004 == 0) = _ := mask_pow d.getHeartbeat 2 (by omega)
  rw [e1, e2, e3, mask_three]
  cases d.getHeartbeat.getLsbD 0 <;> cases d.getHeartbeat.getLsbD 1 <;> cases d.getHeartbeat.getLsbD 2 <;> simp

theorem heartbeat_after (as : List Arrival) (hok : ∀ a ∈ as, a.Ok) (chunks : List (List U8))
    (h : chunks.flatten = as.flatMap Arrival.bytes) :
    ∃ s d, Aux.run (Sbp.State.init, Aux.init) chunks = some (s, d) ∧
      (lastPayload 0xFFFF as = none → d.getHeartbeat = 1) ∧
      ∀ flags : BitVec 32, lastPayload 0xFFFF as = some (leBytes 4 flags.toNat) → d.getHeartbeat = flags := by
  obtain ⟨s, d, hr, h0, h1⟩ := member_last Aux.heartbeat 0xFFFF wordSize (by decide) heartbeat_get as hok chunks h
  refine ⟨s, d, hr, fun hn => ?_, fun f hl => ?_⟩
  · unfold Aux.getHeartbeat
    rw [h0 hn]
    decide
  · have hd := h1 _ hl (by rw [leBytes_length])
    rw [List.take_of_length_le (by rw [leBytes_length])] at hd
    unfold Aux.getHeartbeat
    rw [rd_num, hd, num_mid (a := []) (c := []) (n := 4) (v := f.toNat) (off := 0) (leBytes 4 f.toNat) (by simp) rfl (lt32 _), BitVec.ofNat_toNat,
      BitVec.setWidth_eq]

/-- The status word is that of the last heartbeat. The receiver counts as functional exactly if none of the three lowest
(error) bits of the last heartbeat is set; before the first heartbeat it does not. -/
theorem C113_healthy (as : List Arrival) (hok : ∀ a ∈ as, a.Ok) (chunks : List (List U8))
    (h : chunks.flatten = as.flatMap Arrival.bytes) :
    ∃ s d, Aux.run (Sbp.State.init, Aux.init) chunks = some (s, d) ∧
      (lastPayload 0xFFFF as = none → d.isFunctional = false) ∧
      ∀ flags : BitVec 32, lastPayload 0xFFFF as = some (leBytes 4 flags.toNat) →
        d.getHeartbeat = flags ∧
        (d.isFunctional = true ↔ flags.getLsbD 0 = false ∧ flags.getLsbD 1 = false ∧ flags.getLsbD 2 = false) ∧
        d.systemHealthy = !flags.getLsbD 0 ∧ d.ioHealthy = !flags.getLsbD 1 := by
  obtain ⟨s, d, hr, h0, h1⟩ := heartbeat_after as hok chunks h
  refine ⟨s, d, hr, fun hn => ?_, fun f hl => ⟨h1 f hl, ?_, ?_, ?_⟩⟩
  · have := functional_bits d
    rw [h0 hn] at this
    cases hf : d.isFunctional
    · rfl
    · exact absurd (this.mp hf).1 (by decide)
  · rw [functional_bits, h1 f hl]
  · unfold Aux.systemHealthy
    rw [h1 f hl]
    exact mask_pow f 0 (by omega)
  · unfold Aux.ioHealthy
    rw [h1 f hl]
    exact mask_pow f 1 (by omega)

/-- Finding: the answer to "is the SwiftNAP healthy" is not about the SwiftNAP's flag (bit 2). It repeats the system and
I/O answers, and the SwiftNAP's flag decides the antenna's answer instead: whatever the last heartbeat says, a SwiftNAP
error alone leaves "SwiftNAP healthy" true. -/
theorem C113_counterexample_swiftnap (as : List Arrival) (hok : ∀ a ∈ as, a.Ok) (chunks : List (List U8))
    (h : chunks.flatten = as.flatMap Arrival.bytes) :
    ∃ s d, Aux.run (Sbp.State.init, Aux.init) chunks = some (s, d) ∧
      ∀ flags : BitVec 32, lastPayload 0xFFFF as = some (leBytes 4 flags.toNat) →
        d.swiftnapHealthy = (!flags.getLsbD 0 && !flags.getLsbD 1) ∧ d.antennaHealthy = !flags.getLsbD 2 := by
  obtain ⟨s, d, hr, _, h1⟩ := heartbeat_after as hok chunks h
  refine ⟨s, d, hr, fun f hl => ⟨?_, ?_⟩⟩
  · unfold Aux.swiftnapHealthy
    rw [h1 f hl]
    exact mask_three f
  · unfold Aux.antennaHealthy
    rw [h1 f hl]
    exact mask_pow f 2 (by omega)

/-! ### The base station's position -/

/-- Finding: asked for the base station's position, the driver gives the receiver's own position: that of the last "own
position" message, whatever base positions arrived. -/
theorem C113_counterexample_base (as : List Arrival) (hok : ∀ a ∈ as, a.Ok) (chunks : List (List U8))
    (h : chunks.flatten = as.flatMap Arrival.bytes) :
    ∃ s d, Aux.run (Sbp.State.init, Aux.init) chunks = some (s, d) ∧
      ∀ tow x y z acc n fl, lastPayload 0x0200 as = some (posMsg tow x y z acc n fl) →
        d.getBasePos = [x.toNat, y.toNat, z.toNat] := by
  obtain ⟨s, d, hr, _, h1⟩ := member_last Aux.posEcef 0x0200 posSize (by decide) pos_get as hok chunks h
  refine ⟨s, d, hr, fun tow x y z acc n fl hl => ?_⟩
  have hlen : (posMsg tow x y z acc n fl).length = 32 := by simp [posMsg, leBytes_length]
  have hd := h1 _ hl (by rw [hlen])
  rw [List.take_of_length_le (by rw [hlen])] at hd
  unfold Aux.getBasePos
  simp only [rd_num]
  rw [hd, num_mid (a := leBytes 4 tow.toNat) (v := x.toNat) (posMsg tow x y z acc n fl)
      (by simp only [posMsg, List.append_assoc]; rfl) (by simp [leBytes_length]) (lt64 _),
    num_mid (a := leBytes 4 tow.toNat ++ leBytes 8 x.toNat) (v := y.toNat) (posMsg tow x y z acc n fl)
      (by simp only [posMsg, List.append_assoc]; rfl) (by simp [leBytes_length]) (lt64 _),
    num_mid (a := leBytes 4 tow.toNat ++ leBytes 8 x.toNat ++ leBytes 8 y.toNat) (v := z.toNat)
      (posMsg tow x y z acc n fl)
      (by simp only [posMsg, List.append_assoc]; rfl) (by simp [leBytes_length]) (lt64 _)]

/-! ### The log -/

/-- The logbook after some messages: the record at `j % 128` is that of message `j`, for the latest 128. -/
structure Piksi.LogIs (d : Aux) (recs : List (List U8)) : Prop where
  room : d.logbook.length = 128
  one : ∀ r ∈ d.logbook, r.length = 1
  size : d.logSize = min recs.length 128
  latest : d.latest = if recs.length = 0 then -1 else (((recs.length - 1) % 128 : Nat) : Int)
  entry : ∀ j (hj : j < recs.length), recs.length ≤ j + 128 → d.logbook[j % 128]? = some recs[j]

theorem logIs_insert {d : Aux} {recs : List (List U8)} (h : LogIs d recs) (msg : List U8) (hm : msg.length ≠ 0) :
    LogIs (d.insertLog msg) (recs ++ [msg.take 1]) := by
  obtain ⟨h1, h2, h3, h4, h5⟩ := h
  have hl : (if d.latest + 1 ≥ ((128 : Nat) : Int) then 0 else d.latest + 1) = ((recs.length % 128 : Nat) : Int) := by
    rw [h4]
    by_cases h0 : recs.length = 0
    · rw [if_pos h0, h0]; decide
    · rw [if_neg h0]
      split <;> omega
  have hlen : (recs ++ [msg.take 1]).length = recs.length + 1 := by simp
  refine ⟨?_, ?_, ?_, ?_, ?_⟩
  · simp [Aux.insertLog, h1]
  · intro r hr
    rcases List.mem_or_eq_of_mem_set hr with hr | hr
    · exact h2 r hr
    · rw [hr, List.length_take]; show min 1 _ = 1; omega
  · show (if d.logSize < 128 then d.logSize + 1 else d.logSize) = _
    rw [h3, hlen]
    split <;> omega
  · show (if d.latest + 1 ≥ ((128 : Nat) : Int) then 0 else d.latest + 1) = _
    rw [hl, hlen, if_neg (by omega)]
    simp
  · intro j hj hw
    show (d.logbook.set (if d.latest + 1 ≥ ((128 : Nat) : Int) then 0 else d.latest + 1).toNat (msg.take 1))[j % 128]? = _
    rw [hl, Int.toNat_natCast]
    rw [hlen] at hj hw
    by_cases he : j = recs.length
    · subst he
      rw [List.getElem?_set_self (by rw [h1]; omega)]
      simp
    · rw [List.getElem?_set_ne (by omega), h5 j (by omega) (by omega), List.getElem_append_left (by omega)]

theorem logIs_callback {d : Aux} {recs : List (List U8)} (h : LogIs d recs) (m : Sbp.Msg) (hm : m.ty ≠ 0x0401) :
    LogIs (d.callback m) recs := by
  obtain ⟨h1, h2, h3, h4, h5⟩ := h
  unfold Aux.callback
  rw [if_neg hm]
  (repeat' split) <;> exact ⟨h1, h2, h3, h4, h5⟩

theorem logIs_fold (ms : List Sbp.Msg) {d : Aux} {recs : List (List U8)} (h : LogIs d recs)
    (hne : ∀ m ∈ ms, m.ty = 0x0401 → m.buf.length ≠ 0) :
    LogIs (ms.foldl Aux.callback d) (recs ++ (ms.filter (fun m => m.ty == 0x0401)).map (fun m => m.buf.take 1)) := by
  induction ms generalizing d recs with
  | nil => simpa using h
  | cons m ms ih =>
    rw [List.foldl_cons]
    have hne' : ∀ m ∈ ms, m.ty = 0x0401 → m.buf.length ≠ 0 := fun m hm => hne m (List.mem_cons_of_mem _ hm)
    by_cases he : m.ty = 0x0401
    · have hc : Aux.callback d m = d.insertLog m.buf := by unfold Aux.callback; rw [if_pos he]
      rw [List.filter_cons_of_pos (by simp [he]), List.map_cons, hc]
      have := ih (logIs_insert h m.buf (hne m List.mem_cons_self he)) hne'
      rwa [List.append_assoc] at this
    · rw [List.filter_cons_of_neg (by simpa using he)]
      exact ih (logIs_callback h m he) hne'

theorem logIs_clear {d : Aux} {recs : List (List U8)} (h : LogIs d recs) : LogIs d.clearLog [] :=
  ⟨h.room, h.one, rfl, rfl, fun j hj => absurd hj (by simp)⟩

theorem logIs_init : LogIs Aux.init [] := by
  refine ⟨rfl, fun r hr => ?_, rfl, rfl, fun j hj => absurd hj (by simp)⟩
  rw [List.eq_of_mem_replicate (n := 128) (a := ([0] : List U8)) hr]
  rfl

theorem flatten_one {l : List (List U8)} (h : ∀ r ∈ l, r.length = 1) (k : Nat) :
    l.flatten.length = l.length ∧ l.flatten[k]? = (l[k]?).bind (fun r => r[0]?) := by
  induction l generalizing k with
  | nil => simp
  | cons r l ih =>
    have hr := h r List.mem_cons_self
    have ih := ih (fun r hr => h r (List.mem_cons_of_mem _ hr))
    obtain ⟨x, rfl⟩ := List.length_eq_one_iff.mp hr
    refine ⟨by simp [(ih 0).1], ?_⟩
    cases k with
    | zero => rfl
    | succ k => simpa using (ih k).2

theorem isOf_level {as : List Arrival} {ms : List Sbp.Msg} (h : List.Forall₂ IsOf as ms)
    (hne : ∀ a ∈ as, a.payload ≠ []) :
    ms.map (fun m => m.buf.take 1) = as.map (fun a => a.payload.take 1) ∧ ∀ m ∈ ms, m.buf.length ≠ 0 := by
  induction h with
  | nil => exact ⟨rfl, fun m hm => by cases hm⟩
  | @cons a m as ms ha _ ih =>
    obtain ⟨i1, i2⟩ := ih (fun a h => hne a (List.mem_cons_of_mem _ h))
    have hp : a.payload.length ≠ 0 := by
      have := hne a List.mem_cons_self
      intro h
      exact this (List.length_eq_zero_iff.mp h)
    obtain ⟨_, h2, h3⟩ := ha
    constructor
    · rw [List.map_cons, List.map_cons, i1]
      congr 1
      rw [← h3, List.take_take, Nat.min_eq_left (by omega)]
    · intro x hx
      rcases List.mem_cons.mp hx with rfl | hx
      · intro h0
        have := congrArg List.length h3
        rw [List.length_take, h0] at this
        omega
      · exact i2 x hx

namespace Spec
/-- The levels of the log messages among some arrivals. -/
def levels (as : List Arrival) : List U8 :=
  (as.filter (fun a => a.ty == 0x0401)).map (fun a => a.payload.headD 0)
end Spec

theorem levels_take (as : List Arrival) (hne : ∀ a ∈ as, a.ty = 0x0401 → a.payload ≠ []) :
    (as.filter (fun a => a.ty == 0x0401)).map (fun a => a.payload.take 1) = (levels as).map (fun x => [x]) := by
  unfold levels
  rw [List.map_map]
  apply List.map_congr_left
  intro a ha
  rw [List.mem_filter] at ha
  have := hne a ha.1 (by simpa using ha.2)
  show a.payload.take 1 = [a.payload.headD 0]
  cases hp : a.payload with
  | nil => exact absurd hp this
  | cons x q => rfl

theorem log_run {s : Sbp.State} (hs : Between s) {d : Aux} {l : List U8} (hd : LogIs d (l.map (fun x => [x])))
    (as : List Arrival) (hok : ∀ a ∈ as, a.Ok) (hne : ∀ a ∈ as, a.ty = 0x0401 → a.payload ≠ [])
    (chunks : List (List U8)) (h : chunks.flatten = as.flatMap Arrival.bytes) :
    ∃ s' d', Aux.run (s, d) chunks = some (s', d') ∧ Between s' ∧ LogIs d' ((l ++ levels as).map (fun x => [x])) := by
  obtain ⟨s', ms, hr, hb, hms⟩ := run_msgs hs d as hok chunks h
  have hfil := filter_isOf (ty := 0x0401) (by decide) hms
  have hlev := isOf_level hfil (by
    intro a ha
    rw [List.mem_filter] at ha
    exact hne a ha.1 (by simpa using ha.2))
  have hbuf : ∀ m ∈ ms, m.ty = 0x0401 → m.buf.length ≠ 0 := by
    intro m hm he
    exact hlev.2 m (List.mem_filter.mpr ⟨hm, by simp [he]⟩)
  have hlog := logIs_fold ms hd hbuf
  rw [hlev.1, levels_take as hne, ← List.map_append] at hlog
  exact ⟨s', _, hr, hb, hlog⟩

theorem dump_of {d : Aux} {l : List U8} (h : LogIs d (l.map (fun x => [x]))) :
    d.dumpLog.length = min l.length 128 ∧
      ∀ j (hj : j < l.length), l.length ≤ j + 128 → d.dumpLog[j % 128]? = some l[j] := by
  obtain ⟨l1, l2, l3, _, l5⟩ := h
  rw [List.length_map] at l3
  have hd : d.dumpLog = d.logbook.flatten.take (min l.length 128) := by
    unfold Aux.dumpLog
    rw [l3, Nat.mul_one]
  constructor
  · rw [hd, List.length_take, (flatten_one l2 0).1, l1]
    omega
  · intro j hj hw
    rw [hd, List.getElem?_take_of_lt (by omega), (flatten_one l2 _).2,
      l5 j (by rw [List.length_map]; exact hj) (by rw [List.length_map]; exact hw)]
    simp

theorem dump_all {d : Aux} {l : List U8} (h : LogIs d (l.map (fun x => [x]))) (hl : l.length ≤ 128) : d.dumpLog = l := by
  obtain ⟨h1, h2⟩ := dump_of h
  apply List.ext_getElem?
  intro i
  by_cases hi : i < l.length
  · have := h2 i hi (by omega)
    rw [Nat.mod_eq_of_lt (by omega)] at this
    rw [this, List.getElem?_eq_getElem hi]
  · rw [List.getElem?_eq_none (by omega), List.getElem?_eq_none (by omega)]

/-- What the log holds: after `clear_log` (or `setup`) and any arrivals, one byte for each of the latest 128 log messages,
namely its level, that of the `j`-th message at place `j mod 128`; so up to 128 messages in the order they came. Missing
from the full claim ("the log messages"): their texts, see the next theorems. -/
theorem C113_log_partial (prev as : List Arrival) (hpo : ∀ a ∈ prev, a.Ok) (hok : ∀ a ∈ as, a.Ok)
    (hpe : ∀ a ∈ prev, a.ty = 0x0401 → a.payload ≠ []) (hne : ∀ a ∈ as, a.ty = 0x0401 → a.payload ≠ [])
    (chunks chunks' : List (List U8)) (h : chunks.flatten = prev.flatMap Arrival.bytes)
    (h' : chunks'.flatten = as.flatMap Arrival.bytes) :
    ∃ s d s' d', Aux.run (Sbp.State.init, Aux.init) chunks = some (s, d) ∧
      Aux.run (s, d.clearLog) chunks' = some (s', d') ∧
      d'.dumpLog.length = min (levels as).length 128 ∧
      ∀ j (hj : j < (levels as).length), (levels as).length ≤ j + 128 → d'.dumpLog[j % 128]? = some (levels as)[j] := by
  obtain ⟨s, d, hr, hb, hl⟩ := log_run (l := []) between_init logIs_init prev hpo hpe chunks h
  obtain ⟨s', d', hr', _, hl'⟩ := log_run (l := []) hb (logIs_clear hl) as hok hne chunks' h'
  exact ⟨s, d, s', d', hr, hr', dump_of hl'⟩

/-- Finding: the text of a log message is never kept. Two sequences of arrivals whose log messages have the same levels
give the same log, whatever their texts. -/
theorem C113_counterexample_log_text (as bs : List Arrival) (hao : ∀ a ∈ as, a.Ok) (hbo : ∀ a ∈ bs, a.Ok)
    (hae : ∀ a ∈ as, a.ty = 0x0401 → a.payload ≠ []) (hbe : ∀ a ∈ bs, a.ty = 0x0401 → a.payload ≠ [])
    (hl : levels as = levels bs) (chunks chunks' : List (List U8)) (h : chunks.flatten = as.flatMap Arrival.bytes)
    (h' : chunks'.flatten = bs.flatMap Arrival.bytes) :
    ∃ s d s' d', Aux.run (Sbp.State.init, Aux.init) chunks = some (s, d) ∧
      Aux.run (Sbp.State.init, Aux.init) chunks' = some (s', d') ∧ d.dumpLog = d'.dumpLog := by
  obtain ⟨s, d, hr, _, hd⟩ := log_run (l := []) between_init logIs_init as hao hae chunks h
  obtain ⟨s', d', hr', _, hd'⟩ := log_run (l := []) between_init logIs_init bs hbo hbe chunks' h'
  refine ⟨s, d, s', d', hr, hr', ?_⟩
  obtain ⟨h1, h2⟩ := dump_of hd
  obtain ⟨h1', h2'⟩ := dump_of hd'
  rw [List.nil_append] at h1 h1'
  simp only [List.nil_append] at h2 h2'
  simp only [← hl] at h1' h2'
  apply List.ext_getElem?
  intro i
  by_cases hi : i < min (levels as).length 128
  · -- the latest message that went to place `i`
    obtain ⟨n, hn⟩ : ∃ n, n = (levels as).length := ⟨_, rfl⟩
    have hj : ∃ j, j < n ∧ n ≤ j + 128 ∧ j % 128 = i := by
      refine ⟨n - 1 - (n - 1 - i) % 128, by omega, by omega, by omega⟩
    obtain ⟨j, hj1, hj2, hj3⟩ := hj
    rw [← hj3, h2 j (by omega) (by omega), h2' j (by omega) (by omega)]
  · rw [List.getElem?_eq_none (by omega), List.getElem?_eq_none (by omega)]

/-- Finding: dumping the log does not clear it (its documentation says it does): the function only reads, so a second
dump after further messages repeats what the first gave. Here: with at most 128 messages in all, the first dump is the
beginning of the second. -/
theorem C113_counterexample_dump (as bs : List Arrival) (hao : ∀ a ∈ as, a.Ok) (hbo : ∀ a ∈ bs, a.Ok)
    (hae : ∀ a ∈ as, a.ty = 0x0401 → a.payload ≠ []) (hbe : ∀ a ∈ bs, a.ty = 0x0401 → a.payload ≠ [])
    (hn : (levels as).length + (levels bs).length ≤ 128) (chunks chunks' : List (List U8))
    (h : chunks.flatten = as.flatMap Arrival.bytes) (h' : chunks'.flatten = bs.flatMap Arrival.bytes) :
    ∃ s d s' d', Aux.run (Sbp.State.init, Aux.init) chunks = some (s, d) ∧ Aux.run (s, d) chunks' = some (s', d') ∧
      d.dumpLog = levels as ∧ d'.dumpLog = levels as ++ levels bs := by
  obtain ⟨s, d, hr, hb, hd⟩ := log_run (l := []) between_init logIs_init as hao hae chunks h
  obtain ⟨s', d', hr', _, hd'⟩ := log_run hb hd bs hbo hbe chunks' h'
  rw [List.nil_append] at hd hd'
  exact ⟨s, d, s', d', hr, hr', dump_all hd (by omega), dump_all hd' (by rw [List.length_append]; exact hn)⟩

/-! ### Commands -/

theorem frame_room (ty sender : BitVec 16) (p : List U8) (hl : p.length ≤ 255) (room : Nat)
    (hr : (frame ty sender p).length ≤ room) : (Sbp.send ty sender p room).1 = frame ty sender p := by
  rw [C82_sent ty sender p hl room]
  exact List.take_of_length_le hr

/-- "Reset" and "save the settings" reach a receiver that listens to them as exactly these messages, sent under the
sender number 0x42 and without payload, if the port takes the eight bytes. -/
theorem C113_commands (room : Nat) (hr : 8 ≤ room) (cbs : List (BitVec 16)) (hc : 0x00A1 ∈ cbs ∧ 0x00B2 ∈ cbs) :
    (∃ s m, Sbp.reads cbs Sbp.State.init [piksiReset room] = some s ∧ reports s.2 = [(.executed, some m)] ∧
      m.ty = 0x00B2 ∧ m.sender = 0x42 ∧ m.len = 0) ∧
    ∃ s m, Sbp.reads cbs Sbp.State.init [settingsSave room] = some s ∧ reports s.2 = [(.executed, some m)] ∧
      m.ty = 0x00A1 ∧ m.sender = 0x42 ∧ m.len = 0 := by
  have key : ∀ ty ∈ cbs, ∃ s m, Sbp.reads cbs Sbp.State.init [(Sbp.send ty senderId [] room).1] = some s ∧
      reports s.2 = [(.executed, some m)] ∧ m.ty = ty ∧ m.sender = 0x42 ∧ m.len = 0 := by
    intro ty hty
    rw [frame_room ty senderId [] (by simp) room (by simp [frame, frameBody, le16]; omega)]
    obtain ⟨s, evs, h1, h2⟩ := C82_delivered cbs [{ noise := [], ty := ty, sender := senderId, payload := [] }]
      (by intro a ha; simp at ha; subst ha; exact ⟨by simp, by simp⟩) [frame ty senderId []]
      (by simp [Arrival.bytes])
    cases hrep : reports evs with
    | nil => rw [hrep] at h2; cases h2
    | cons e l =>
      rw [hrep] at h2
      cases h2 with
      | cons ha hrest =>
        cases hrest
        unfold Reported at ha
        rw [if_pos hty] at ha
        obtain ⟨h3, m, h4, h5, h6, h7, _⟩ := ha
        refine ⟨(s, evs), m, h1, ?_, h5, h6, ?_⟩
        · rw [hrep, ← h3, ← h4]
        · apply BitVec.eq_of_toNat_eq
          simpa using h7
  exact ⟨key _ hc.2, key _ hc.1⟩

/-- Finding: writing settings and sending user data send an empty message, whatever settings or data are given. -/
theorem C113_counterexample_settings (settings data : List U8) (room : Nat) (hr : 8 ≤ room) :
    settingsWrite settings room = frame 0x00A0 0x42 [] ∧ sendUserData data room = frame 0x0800 0x42 [] := by
  constructor
  · exact frame_room _ _ _ (by simp) room (by simp [frame, frameBody, le16]; omega)
  · exact frame_room _ _ _ (by simp) room (by simp [frame, frameBody, le16]; omega)

/-! ### The length of the message processed -/

theorem process_len {cbs : List (BitVec 16)} {s : Sbp.State} {inp : List U8} {o : Sbp.Out}
    (h : Sbp.process cbs s inp = some o) {m : Sbp.Msg} (hm : o.msg = some m) : m.len = s.len := by
  have key : ∀ s' inp', o = Sbp.finish cbs s' inp' → m.len = s'.len := by
    intro s' inp' ho
    subst ho
    unfold Sbp.finish at hm
    dsimp only at hm
    split at hm
    · split at hm
      · simp only [Option.some.injEq] at hm
        subst hm
        rfl
      · cases hm
    · cases hm
  cases hs : s.st <;> simp only [Sbp.process, hs] at h <;> repeat' split at h
  all_goals first
    | (cases h; done)
    | (simp only [Option.some.injEq] at h; subst h; first | (cases hm) | (have hk := key _ _ rfl; exact hk))

/-- A call of the decoder that ends a whole frame some callback listens to returns the length of its payload; a call that
needs more bytes, or finds a frame damaged, returns 0. -/
theorem C113_msg_len (s : Sbp.State) (inp : List U8) (o : Sbp.Out) (h : Sbp.process callbacks s inp = some o) :
    ∃ n, processMsgLen s inp = some (o.s, o.inp, n) ∧ (∀ m, o.msg = some m → n = m.len) ∧
      ((o.status = .ok ∨ o.status = .crcError) → n = 0) := by
  refine ⟨_, by unfold processMsgLen; simp only [h]; rfl, ?_, ?_⟩
  · intro m hm
    rw [if_pos (Or.inl (Sbp.process_msg h hm).1), process_len h hm]
  · rintro (h1 | h1) <;> rw [h1] <;> rfl

/-! ### Cases that meet the hypotheses -/

namespace PiksiAuxCase

/-- A heartbeat without error, line noise, a log message, and a heartbeat with the SwiftNAP's error flag. -/
def arrivals : List Arrival :=
  [{ noise := [], ty := 0xFFFF, sender := 7, payload := leBytes 4 0 },
   { noise := [1, 2, 3], ty := 0x0401, sender := 7, payload := logMsg 6 [72, 105] },
   { noise := [9], ty := 0xFFFF, sender := 7, payload := leBytes 4 4 }]

theorem ok : ∀ a ∈ arrivals, a.Ok := by
  intro a ha
  simp only [arrivals, List.mem_cons, List.not_mem_nil, or_false] at ha
  rcases ha with rfl | rfl | rfl <;> exact ⟨by decide, by decide⟩

/-- After them: not functional, with "SwiftNAP healthy" and "antenna unhealthy". -/
example : ∃ s d, Aux.run (Sbp.State.init, Aux.init) [arrivals.flatMap Arrival.bytes] = some (s, d) ∧
    d.swiftnapHealthy = true ∧ d.antennaHealthy = false := by
  obtain ⟨s, d, h, h1⟩ := C113_counterexample_swiftnap arrivals ok [arrivals.flatMap Arrival.bytes] (by simp)
  obtain ⟨h2, h3⟩ := h1 4 (by decide)
  exact ⟨s, d, h, by rw [h2]; decide, by rw [h3]; decide⟩

example : ∃ s d, Aux.run (Sbp.State.init, Aux.init) [arrivals.flatMap Arrival.bytes] = some (s, d) ∧
    d.isFunctional = false ∧ d.getHeartbeat = 4 := by
  obtain ⟨s, d, h, _, h1⟩ := C113_healthy arrivals ok [arrivals.flatMap Arrival.bytes] (by simp)
  obtain ⟨h2, h3, _⟩ := h1 4 (by decide)
  refine ⟨s, d, h, ?_, h2⟩
  cases hf : d.isFunctional
  · rfl
  · exact absurd (h3.mp hf).2.2 (by decide)

/-- The log of them holds the level 6 and nothing of the text. -/
example : ∃ s d s' d', Aux.run (Sbp.State.init, Aux.init) [] = some (s, d) ∧
    Aux.run (s, d.clearLog) [arrivals.flatMap Arrival.bytes] = some (s', d') ∧ d'.dumpLog.length = 1 ∧
    d'.dumpLog[0]? = some 6 := by
  obtain ⟨s, d, s', d', h1, h2, h3, h4⟩ := C113_log_partial [] arrivals (by simp) ok (by simp)
    (by
      intro a ha
      simp only [arrivals, List.mem_cons, List.not_mem_nil, or_false] at ha
      rcases ha with rfl | rfl | rfl <;> decide) [] [arrivals.flatMap Arrival.bytes] rfl (by simp)
  exact ⟨s, d, s', d', h1, h2, h3, h4 0 (by decide) (by decide)⟩

/-- Readings of precision, of a channel, of the ambiguity search and of the position. -/
def readings : List Arrival :=
  [{ noise := [], ty := 0x0206, sender := 7, payload := dopsMsg 1000 180 150 100 90 120 },
   { noise := [], ty := 0x001D, sender := 7,
     payload := uartMsg ⟨1, 2, 3, 4, 5, 6⟩ ⟨7, 8, 9, 10, 11, 12⟩ ⟨0, 0, 0, 0, 0, 0⟩ (List.replicate 32 0) },
   { noise := [], ty := 0x0019, sender := 7, payload := leBytes 4 77 },
   { noise := [], ty := 0x0048, sender := 7, payload := basePosMsg 1 2 3 },
   { noise := [], ty := 0x0200, sender := 7, payload := posMsg 1000 4 5 6 7 8 1 }]

example : lastPayload 0x0206 readings = some (dopsMsg 1000 180 150 100 90 120) ∧
    lastPayload 0x0019 readings = some (leBytes 4 (77 : BitVec 32).toNat) ∧
    lastPayload 0x0200 readings = some (posMsg 1000 4 5 6 7 8 1) ∧
    lastPayload 0x001D readings =
      some (uartMsg ⟨1, 2, 3, 4, 5, 6⟩ ⟨7, 8, 9, 10, 11, 12⟩ ⟨0, 0, 0, 0, 0, 0⟩ (List.replicate 32 0)) ∧
    ∀ a ∈ readings, a.payload.length ≤ 255 ∧ a.noise = [] := by
  refine ⟨rfl, rfl, rfl, rfl, ?_⟩
  intro a ha
  simp only [readings, List.mem_cons, List.not_mem_nil, or_false] at ha
  rcases ha with rfl | rfl | rfl | rfl | rfl <;> decide

/-- The last byte of a heartbeat frame ends it: the value returned is 4. -/
example : ∃ o, Sbp.process callbacks
      { st := .getCrc, msgType := [0xFF, 0xFF], sender := [7, 0], crc := [0, 0], len := 4, nRead := 0,
        buf := List.replicate 256 0 }
      (le16 (crcOf [0xFF, 0xFF, 7, 0, 4, 0, 0, 0, 0])) = some o ∧ o.status = .executed :=
  ⟨_, rfl, by decide +kernel⟩

end PiksiAuxCase

end PAN
