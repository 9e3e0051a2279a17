import Verif.Props.QuakeSend
/-!
C45: what is checked of a message from the modem before it is handed to the uplink consumer.
-/
namespace PAN

namespace Spec

/-- The value read from the port for two bytes: a missing byte reads as -1. -/
def twoBytes (hi lo : Option U8) : Int :=
  256 * (match hi with | some b => (b.toNat : Int) | none => -1) + (match lo with | some b => (b.toNat : Int) | none => -1)

/-- The message buffer, 341 bytes, after `got` was received into a cleared buffer. -/
def receivedInto (got : List U8) : List U8 := got ++ List.replicate (341 - got.length) 0

end Spec
open Spec

namespace QM

/-- While the modem's answer to a read command is outstanding, the buffer is clear. -/
def MtInv (s : QM) : Prop := s.state = Radio.read → s.fn ≠ 0 → s.dev.mt = List.replicate 341 0

theorem two_eq (a b : Option U8) : 256 * QLocate.readByte a + QLocate.readByte b = twoBytes a b := by
  cases a <;> cases b <;> rfl

/-- The message reader on a cleared buffer. -/
theorem getSbdrb_cases (q : QLocate) (p : ModemIn) (hmt : q.mt = List.replicate 341 0) :
    q.getSbdrb p = (QCode.portUnavailable, q) ∨ (∃ r d, q.getSbdrb p = (r, d) ∧ isError r = true) ∨
    (∃ size : Nat, q.getSbdrb p = (QCode.ok, { q with mt := receivedInto (p.rx.take size) }) ∧ twoBytes p.hi p.lo = size ∧ size ≤ 340 ∧
      BitVec.ofInt 16 (twoBytes p.chi p.clo) = BitVec.ofNat 16 (byteSum ((receivedInto (p.rx.take size)).take size))) := by
  unfold QLocate.getSbdrb
  split
  · exact Or.inl rfl
  · rw [two_eq, two_eq, hmt]
    dsimp only
    split
    · exact Or.inr (Or.inl ⟨_, _, rfl, by decide⟩)
    · rename_i hsz
      rw [show ((QLocate.maxMsgSize : Nat) : Int) = 340 from rfl] at hsz
      obtain ⟨size, hsize⟩ : ∃ n : Nat, twoBytes p.hi p.lo = n := ⟨(twoBytes p.hi p.lo).toNat, by omega⟩
      rw [hsize] at hsz ⊢
      rw [Int.toNat_natCast]
      have hb : (p.rx.take size) ++ (List.replicate 341 0).drop (p.rx.take size).length = receivedInto (p.rx.take size) := by
        unfold receivedInto
        rw [List.drop_replicate]
      rw [hb]
      have hcs : ∀ msg, QLocate.checksum msg = BitVec.ofNat 16 (byteSum msg) := by
        intro msg
        apply BitVec.eq_of_toNat_eq
        rw [checksum_sum, BitVec.toNat_ofNat]
      rw [hcs]
      by_cases hc : BitVec.ofInt 16 (twoBytes p.chi p.clo) = BitVec.ofNat 16 (byteSum ((receivedInto (p.rx.take size)).take size))
      · rw [if_pos hc]
        exact Or.inr (Or.inr ⟨size, rfl, rfl, by omega, hc⟩)
      · rw [if_neg hc]
        exact Or.inr (Or.inl ⟨_, _, rfl, by decide⟩)

/-- One execution in the reading state, in full. -/
theorem read_full (s : QM) (i : QIn) (h : s.state = Radio.read) (hi : MtInv s) (h0 : s.mtLen = 0) :
    ((s.execute i).1.mtLen = 0 ∧ MtInv (s.execute i).1) ∨
    ((s.execute i).1.state = Radio.write ∧ (s.execute i).2 = some (.getSbdrb, QCode.ok) ∧
      (s.execute i).1.mtLen = BitVec.ofInt 32 (s.dev.sbdix.getD 4 0) ∧
      ∃ size : Nat, twoBytes i.port.hi i.port.lo = size ∧ size ≤ 340 ∧ (s.execute i).1.dev.mt = receivedInto (i.port.rx.take size) ∧
        BitVec.ofInt 16 (twoBytes i.port.chi i.port.clo) = BitVec.ofNat 16 (byteSum ((s.execute i).1.dev.mt.take size))) := by
  rw [execute_read s i h]
  unfold dispatchRead
  split
  · exact Or.inl ⟨h0, fun g => absurd (show Radio.wait = Radio.read from g) (by decide)⟩
  · unfold dispatchSbdrb
    by_cases hf : s.fn = 0
    · rw [if_pos hf]
      dsimp only [QLocate.querySbdrb1, QLocate.sendCommand]
      cases hw : i.port.wrote with
      | false =>
        rw [if_neg (show ¬ false = true by decide), if_pos (show isError QCode.writeFail = true by decide)]
        exact Or.inl ⟨h0, fun g => absurd (show Radio.wait = Radio.read from g) (by decide)⟩
      | true =>
        rw [if_pos (show true = true from rfl), if_neg (show ¬ isError QCode.ok = true by decide), advance_frame, if_pos rfl]
        rw [if_neg (by unfold hasFinished; rw [hf]; simp)]
        exact Or.inl ⟨h0, fun _ _ => rfl⟩
    · rw [if_neg hf]
      by_cases h1 : s.fn = 1
      · rw [if_pos h1]
        have hmt := hi h hf
        rcases getSbdrb_cases s.dev i.port hmt with g | ⟨r, d, g, hr⟩ | ⟨size, g, e1, e2, e3⟩
        · rw [g]
          dsimp only
          rw [if_neg (show ¬ isError QCode.portUnavailable = true by decide), advance_frame, if_neg (show ¬ QCode.portUnavailable = QCode.ok by decide)]
          rw [if_neg (by unfold hasFinished; simp [hf])]
          exact Or.inl ⟨h0, fun _ _ => hmt⟩
        · rw [g]
          dsimp only
          rw [if_pos hr]
          refine Or.inl ⟨?_, fun g => absurd (show Radio.wait = Radio.read from g) (by decide)⟩
          rw [advance_frame]
          exact h0
        · rw [g]
          dsimp only
          rw [if_neg (show ¬ isError QCode.ok = true by decide), advance_frame, if_pos rfl]
          split
          · exact Or.inr ⟨rfl, rfl, rfl, size, e1, e2, rfl, e3⟩
          · refine Or.inl ⟨h0, fun _ g => absurd ?_ g⟩
            show (s.fn + 1) % 2 = 0
            rw [h1]
      · rw [if_neg h1]
        dsimp only
        rw [if_pos (by decide)]
        exact Or.inl ⟨h0, fun g => absurd (show Radio.wait = Radio.read from g) (by decide)⟩

/-- Outside the reading state nothing is delivered, and a reading state is entered at its beginning. -/
theorem others_full (s : QM) (i : QIn) (h : s.state ≠ Radio.read) : (s.execute i).1.mtLen = s.mtLen ∧
    ((s.execute i).1.state = Radio.read → (s.execute i).1.fn = 0) := by
  unfold execute
  split
  · exact ⟨rfl, fun _ => rfl⟩
  split
  · rename_i h1
    unfold dispatchConfig
    split
    · exact ⟨rfl, fun _ => rfl⟩
    · rcases qctConfig_spec s i.port with ⟨r, c, f, he, hfe, hc⟩ | ⟨he, h4⟩ <;> rw [he] <;> dsimp only
      · split
        · exact ⟨rfl, fun _ => rfl⟩
        · split
          · exact ⟨rfl, fun _ => rfl⟩
          · exact ⟨rfl, fun g => absurd g h⟩
      · split
        · exact ⟨rfl, fun _ => rfl⟩
        · split
          · exact ⟨rfl, fun _ => rfl⟩
          · exact ⟨rfl, fun g => absurd g h⟩
  split
  · rcases dispatchWait_cases s i with ⟨g1, _⟩ | ⟨_, _, ⟨_, g3⟩ | ⟨_, g3⟩⟩
    · dsimp only; rw [g1]; exact ⟨rfl, fun g => absurd g h⟩
    · dsimp only; rw [g3]; exact ⟨rfl, fun _ => rfl⟩
    · dsimp only; rw [g3]; exact ⟨rfl, fun _ => rfl⟩
  split
  · unfold dispatchTransceive
    split
    · exact ⟨rfl, fun _ => rfl⟩
    · rcases dispatchSbdix_spec s i.port with ⟨r, c, f, d, he, hfe, hc⟩ | ⟨he, h4⟩ <;> rw [he] <;> dsimp only
      · split
        · exact ⟨rfl, fun _ => rfl⟩
        · split
          · split
            · unfold handleNoComms
              split
              · exact ⟨rfl, fun g => absurd g h⟩
              · exact ⟨rfl, fun _ => rfl⟩
            · split <;> exact ⟨rfl, fun _ => rfl⟩
          · exact ⟨rfl, fun g => absurd g h⟩
      · rw [if_pos (by decide)]
        exact ⟨rfl, fun _ => rfl⟩
  split
  · unfold dispatchWrite
    split
    · exact ⟨rfl, fun _ => rfl⟩
    · have hp : (s.prepareWrite i).mtLen = s.mtLen ∧ (s.prepareWrite i).state = s.state := by
        unfold prepareWrite
        split
        · split <;> exact ⟨rfl, rfl⟩
        · exact ⟨rfl, rfl⟩
      generalize s.prepareWrite i = p at hp
      rcases dispatchSbdwb_spec p i.port with ⟨r, c, f, l, he, hfe, hc⟩ | ⟨he, h4⟩ <;> rw [he] <;> dsimp only
      · split
        · exact ⟨hp.1, fun _ => rfl⟩
        · split
          · exact ⟨hp.1, fun _ => rfl⟩
          · exact ⟨hp.1, fun g => absurd (hp.2.symm.trans g) h⟩
      · rw [if_pos (by decide)]
        exact ⟨hp.1, fun _ => rfl⟩
  · rcases dispatchWait_cases { s with unexpected := true } i with ⟨g1, _⟩ | ⟨_, _, ⟨_, g3⟩ | ⟨_, g3⟩⟩
    · dsimp only; rw [g1]; exact ⟨rfl, fun g => absurd g h⟩
    · dsimp only; rw [g3]; exact ⟨rfl, fun _ => rfl⟩
    · dsimp only; rw [g3]; exact ⟨rfl, fun _ => rfl⟩

theorem before_mtLen (s : QM) (y : QCycle) : (s.before y).mtLen = 0 := by
  have : ∀ (ws : List QWrite) (s : QM), (s.writes ws).mtLen = s.mtLen := by
    intro ws
    induction ws with
    | nil => intro s; rfl
    | cons w ws ih =>
      intro s
      show ((s.write w).writes ws).mtLen = _
      rw [ih]
      cases w <;> rfl
  exact this _ _

theorem before_mt {s : QM} (y : QCycle) (h : MtInv s) (hd : DisciplinedStep s y) : MtInv (s.before y) := by
  obtain ⟨a, b, c, hb⟩ := before_frame s y
  unfold DisciplinedStep at hd
  rw [hb] at hd ⊢
  intro g
  have g : a = Radio.read := g
  rcases hd with k | k | k
  · exact h ((show a = s.state from k) ▸ g)
  · exact absurd ((show a = Radio.disabled from k).symm.trans g) (by decide)
  · exact absurd ((show a = Radio.config from k.1).symm.trans g) (by decide)

theorem cycle_mt {s : QM} (y : QCycle) (h : MtInv s) (hd : DisciplinedStep s y) : MtInv (s.cycle y) := by
  have hb := before_mt y h hd
  by_cases hr : (s.before y).state = Radio.read
  · rcases read_full (s.before y) y.inp hr hb (before_mtLen s y) with g | g
    · exact g.2
    · intro g'
      rw [show (s.cycle y).state = Radio.write from g.1] at g'
      exact absurd g' (by decide)
  · intro g g'
    exact absurd ((others_full (s.before y) y.inp hr).2 g) g'

theorem run_mt (ys : List QCycle) : ∀ s : QM, MtInv s → DisciplinedRadio s ys → MtInv (s.run ys) := by
  induction ys with
  | nil => intro s h _; exact h
  | cons y ys ih => intro s h hd; exact ih _ (cycle_mt y h hd.1) hd.2

end QM
open QM

/-- C45: a message is handed to the uplink consumer in a cycle only if, in that cycle, the modem's answer to a read command was accepted:
its announced length was at most 340 bytes, the message buffer (cleared before) holds the bytes received, and the two checksum bytes
equal the 16-bit sum of the announced number of bytes in the buffer.
Missing from the full property: the length the consumer is given is the one the modem announced in its earlier status report, which is
not compared with the length checked here (`C45_counterexample_length`), and missing bytes count as zeros and missing checksum
bytes as -1 (`C45_counterexample_missing`). -/
theorem C45_checked_partial (n : Nat) (ys : List QCycle) (y : QCycle) (hd : DisciplinedRadio (QM.init n) ys)
    (hy : DisciplinedStep ((QM.init n).run ys) y) (h : (((QM.init n).run ys).cycle y).mtLen ≠ 0) :
    let s := (QM.init n).run ys
    s.state = Radio.read ∧ s.call y = some (.getSbdrb, QCode.ok) ∧ (s.cycle y).mtLen = BitVec.ofInt 32 (s.dev.sbdix.getD 4 0) ∧
    ∃ size : Nat, twoBytes y.inp.port.hi y.inp.port.lo = size ∧ size ≤ 340 ∧
      (s.cycle y).dev.mt = receivedInto (y.inp.port.rx.take size) ∧
      BitVec.ofInt 16 (twoBytes y.inp.port.chi y.inp.port.clo) = BitVec.ofNat 16 (byteSum ((s.cycle y).dev.mt.take size)) := by
  intro s
  have hm : MtInv s := run_mt ys _ (fun g => absurd (show Radio.disabled = Radio.read from g) (by decide)) hd
  have hb := before_mt y hm hy
  by_cases hr : (s.before y).state = Radio.read
  · have hs : s.state = Radio.read := by
      have hy' : DisciplinedStep s y := hy
      unfold DisciplinedStep at hy'
      rw [hr] at hy'
      rcases hy' with g | g | ⟨g, _⟩
      · exact g.symm
      · exact absurd g (by decide)
      · exact absurd g (by decide)
    have hdev : (s.before y).dev = s.dev := by obtain ⟨a, b, c, he⟩ := before_frame s y; rw [he]
    rcases read_full (s.before y) y.inp hr hb (before_mtLen s y) with g | g
    · exact absurd g.1 h
    · rw [hdev] at g
      exact ⟨hs, g.2.1, g.2.2.1, g.2.2.2⟩
  · exact absurd (((others_full (s.before y) y.inp hr).1).trans (before_mtLen s y)) h

/-- C45: when all bytes arrive, the two checks are about exactly the bytes received: the first `size` bytes of the buffer are the `size`
bytes that followed the length, and their sum is the checksum received. -/
theorem C45_complete_message (n : Nat) (ys : List QCycle) (y : QCycle) (hd : DisciplinedRadio (QM.init n) ys)
    (hy : DisciplinedStep ((QM.init n).run ys) y) (h : (((QM.init n).run ys).cycle y).mtLen ≠ 0) (hi lo ci cl : U8)
    (h1 : y.inp.port.hi = some hi) (h2 : y.inp.port.lo = some lo) (h3 : y.inp.port.chi = some ci) (h4 : y.inp.port.clo = some cl)
    (hrx : 256 * hi.toNat + lo.toNat ≤ y.inp.port.rx.length) :
    let size := 256 * hi.toNat + lo.toNat
    size ≤ 340 ∧ (((QM.init n).run ys).cycle y).dev.mt.take size = y.inp.port.rx.take size ∧
    256 * ci.toNat + cl.toNat = byteSum (y.inp.port.rx.take size) % 65536 := by
  obtain ⟨_, _, _, size, e1, e2, e3, e4⟩ := C45_checked_partial n ys y hd hy h
  rw [h1, h2] at e1
  have e1 : 256 * (hi.toNat : Int) + (lo.toNat : Int) = size := e1
  have e1 : 256 * hi.toNat + lo.toNat = size := by omega
  rw [e1] at hrx ⊢
  have hl : (y.inp.port.rx.take size).length = size := by rw [List.length_take]; omega
  have ht : (((QM.init n).run ys).cycle y).dev.mt.take size = y.inp.port.rx.take size := by
    rw [e3]
    unfold receivedInto
    rw [List.take_append_of_le_length (by omega), List.take_of_length_le (by omega)]
  refine ⟨e2, ht, ?_⟩
  rw [ht, h3, h4] at e4
  have e4 : BitVec.ofInt 16 (256 * (ci.toNat : Int) + (cl.toNat : Int)) = BitVec.ofNat 16 (byteSum (y.inp.port.rx.take size)) := e4
  rw [show (256 * (ci.toNat : Int) + (cl.toNat : Int)) = ((256 * ci.toNat + cl.toNat : Nat) : Int) by omega, BitVec.ofInt_natCast] at e4
  have := congrArg BitVec.toNat e4
  rw [BitVec.toNat_ofNat, BitVec.toNat_ofNat] at this
  have a := ci.isLt
  have b := cl.isLt
  omega

namespace QDemo
/-- The modem reports a transmission and a received message of `len` bytes. -/
def sentMt (len : Int) : ModemIn := { quiet with avail := 40, scan := [1, 0, 1, 0, len, 0] }
/-- Boot, one transmission, a reported message of `len` bytes, and the read command. -/
def toRead (len : Int) : List QCycle :=
  boot ++ [cyc 6 quiet [], cyc 7 ready [], cyc 8 took [], cyc 9 quiet [], cyc 10 (sentMt len) [], cyc 11 quiet []]
/-- A message. -/
def mtMsg : ModemIn := { quiet with avail := 7, hi := some 0, lo := some 3, rx := [5, 6, 250, 99], chi := some 1, clo := some 5 }
end QDemo
open QDemo

/- A good message is delivered; with the length or the checksum damaged it is not. -/
example : DisciplinedRadio (QM.init 100) (toRead 3) ∧ ((QM.init 100).run (toRead 3)).state = Radio.read ∧
    (((QM.init 100).run (toRead 3)).cycle (cyc 12 mtMsg [])).mtLen = 3 ∧
    (((QM.init 100).run (toRead 3)).cycle (cyc 12 mtMsg [])).dev.mt.take 4 = [5, 6, 250, 0] ∧
    (((QM.init 100).run (toRead 3)).cycle (cyc 12 { mtMsg with clo := some 6 } [])).mtLen = 0 ∧
    (((QM.init 100).run (toRead 3)).cycle (cyc 12 { mtMsg with hi := some 2 } [])).mtLen = 0 := by
  refine ⟨disciplinedB_spec _ _ ?_, ?_, ?_, ?_, ?_, ?_⟩ <;> decide +kernel

/-- C45 is false of the length: the consumer is handed the length of the status report, 344, although the message that was checked has 3
bytes and the buffer has 341: it reads beyond the buffer. -/
theorem C45_counterexample_length :
    DisciplinedRadio (QM.init 100) (toRead 344) ∧
    (((QM.init 100).run (toRead 344)).cycle (cyc 12 { mtMsg with avail := 340 } [])).mtLen = 344 ∧
    (((QM.init 100).run (toRead 344)).cycle (cyc 12 { mtMsg with avail := 340 } [])).dev.mt.length = 341 := by
  refine ⟨disciplinedB_spec _ _ ?_, ?_, ?_⟩ <;> decide +kernel

/-- C45 is false of missing checksum bytes: they read as -1, so a message whose bytes add up to 0xFEFF is accepted without a checksum. -/
theorem C45_counterexample_missing :
    let m : ModemIn := { quiet with avail := 258, hi := some 1, lo := some 0, rx := List.replicate 255 255 ++ [254] }
    m.chi = none ∧ m.clo = none ∧ (((QM.init 100).run (toRead 256)).cycle (cyc 12 m [])).mtLen = 256 := by
  refine ⟨rfl, rfl, ?_⟩
  decide +kernel

end PAN
