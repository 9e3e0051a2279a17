import Verif.Props.Quake
/-!
C44: which bytes of the telemetry snapshots are transmitted.
-/
namespace PAN

namespace Spec

/-- The number of bytes the radio manager copies from a snapshot buffer of `n` bytes. -/
def copied (n : Nat) : Nat := if n + 1 < 70 then 70 else n + 1

/-- The number of packets it sends of each copy. -/
def packetsOf (n : Nat) : Nat := copied n / 70

/-- The first `len` bytes of memory from the start of the snapshot buffer: the buffer, then whatever follows it. -/
def memoryRead (i : QIn) (len : Nat) : List U8 :=
  (List.range len).map fun k => (i.snap[k]?).getD (i.after (k - i.snap.length))

/-- Packet `k` of a copy. -/
def packetOf (bytes : List U8) (k : Nat) : List U8 := (bytes.drop (70 * k)).take 70

/-- The sum of the bytes of a message. -/
def byteSum (msg : List U8) : Nat := (msg.map BitVec.toNat).sum

/-- A message as the modem is given it: the bytes and the low 16 bits of their sum, most significant byte first. -/
def framed (msg : List U8) : List U8 := msg ++ [BitVec.ofNat 8 (byteSum msg / 256), BitVec.ofNat 8 (byteSum msg)]

/-- What an observer of the modem line knows: the number of packets delivered since the radio was last switched off or had an error or
no connection, and the current copy of the snapshot. -/
structure Sender where
  count : Nat
  copy : List U8

/-- The modem reports in this cycle that the message was transmitted: the radio leaves transceiving and the reported status is at
most 4. -/
def Delivered (s : QM) (y : QCycle) : Prop :=
  (s.before y).state = Radio.transceive ∧ ((s.cycle y).state = Radio.read ∨ (s.cycle y).state = Radio.write) ∧ y.inp.port.scan.getD 0 0 ≤ 4

/-- A new copy is made when a message is started and all packets of the last copy have been delivered. -/
def Sender.started (n : Nat) (o : Sender) (s : QM) (y : QCycle) : Sender :=
  if (s.call y).map (·.1) = some .sbdwb1 ∧ o.count % packetsOf n = 0 then { o with copy := memoryRead y.inp (copied n) } else o

/-- The observer over one cycle. -/
def Sender.step (n : Nat) (o : Sender) (s : QM) (y : QCycle) : Sender :=
  if (s.cycle y).state = Radio.wait ∨ (s.cycle y).state = Radio.disabled then { o.started n s y with count := 0 }
  else if (s.before y).state = Radio.transceive ∧ (s.cycle y).state ≠ Radio.transceive then
    { o.started n s y with count := if y.inp.port.scan.getD 0 0 ≤ 4 then o.count + 1 else 0 }
  else o.started n s y

/-- The observer over a history. -/
def Sender.run (n : Nat) : Sender → QM → List QCycle → Sender
  | o, _, [] => o
  | o, s, y :: ys => Sender.run n (o.step n s y) (s.cycle y) ys

/-- The observer at the beginning. -/
def Sender.init : Sender := { count := 0, copy := [] }

end Spec
open Spec

namespace QM

/-- What the manager's state says about the observer's (`cc` is the cycle just finished). -/
structure SendInv (n : Nat) (s : QM) (o : Sender) (cc : U32) : Prop where
  size : s.maxSnap = copied n
  cases : (s.state = Radio.disabled ∧ o.count = 0) ∨ (s.state = Radio.wait ∧ o.count = 0) ∨ (s.state = Radio.config ∧ o.count = 0) ∨
    (s.state = Radio.write ∧ s.fn = 0 ∧ s.entry = cc ∧ s.moIdx = o.count % packetsOf n ∧ (o.count % packetsOf n ≠ 0 → s.buf = o.copy)) ∨
    (s.state = Radio.write ∧ s.fn ≠ 0 ∧ s.fn ≤ (cc - s.entry).toNat ∧ (cc - s.entry).toNat ≤ 5 ∧
      s.moPtr = 70 * (o.count % packetsOf n) ∧ s.moLen = 70 ∧ s.moIdx = (o.count + 1) % packetsOf n ∧ s.buf = o.copy ∧
      (s.fn = 2 → s.loaded = framed (packetOf o.copy (o.count % packetsOf n)))) ∨
    (s.state = Radio.transceive ∧ s.moIdx = (o.count + 1) % packetsOf n ∧ s.buf = o.copy ∧
      s.loaded = framed (packetOf o.copy (o.count % packetsOf n))) ∨
    (s.state = Radio.read ∧ s.moIdx = o.count % packetsOf n ∧ s.buf = o.copy)

theorem checksum_sum (msg : List U8) : (QLocate.checksum msg).toNat = byteSum msg % 65536 := by
  have gen : ∀ (msg : List U8) (c : BitVec 16), ((msg.map fun b => BitVec.ofNat 16 b.toNat).foldl (· + ·) c).toNat = (c.toNat + byteSum msg) % 65536 := by
    intro msg
    induction msg with
    | nil => intro c; show c.toNat = (c.toNat + 0) % 65536; have := c.isLt; omega
    | cons b bs ih =>
      intro c
      rw [List.map_cons, List.foldl_cons, ih]
      show _ = (c.toNat + (b.toNat + byteSum bs)) % 65536
      rw [BitVec.toNat_add, BitVec.toNat_ofNat]
      have := b.isLt
      omega
  have h := gen msg 0
  rw [show (0 : BitVec 16).toNat = 0 from rfl, Nat.zero_add] at h
  exact h

theorem framed_eq (msg : List U8) :
    msg ++ [(QLocate.checksum msg >>> 8).setWidth 8, (QLocate.checksum msg).setWidth 8] = framed msg := by
  have h := checksum_sum msg
  have e1 : (QLocate.checksum msg >>> 8).setWidth 8 = BitVec.ofNat 8 (byteSum msg / 256) := by
    apply BitVec.eq_of_toNat_eq
    rw [BitVec.toNat_setWidth, BitVec.toNat_ushiftRight, BitVec.toNat_ofNat, h, Nat.shiftRight_eq_div_pow]
    omega
  have e2 : (QLocate.checksum msg).setWidth 8 = BitVec.ofNat 8 (byteSum msg) := by
    apply BitVec.eq_of_toNat_eq
    rw [BitVec.toNat_setWidth, BitVec.toNat_ofNat, h]
    omega
  unfold framed
  rw [e1, e2]

theorem init_send (n : Nat) : SendInv n (init n) Sender.init 0 := by
  refine ⟨?_, Or.inl ⟨rfl, rfl⟩⟩
  show max (n + 1) 70 = if n + 1 < 70 then 70 else n + 1
  split <;> omega

theorem packets_pos (n : Nat) : 0 < packetsOf n := by
  unfold packetsOf copied
  split <;> omega

/-- One execution in the configuring state. -/
theorem config_result (s : QM) (i : QIn) (h : s.state = Radio.config) :
    (s.execute i).1.maxSnap = s.maxSnap ∧ ((s.execute i).2.map (·.1) ≠ some .sbdwb1) ∧
    ((s.execute i).1.state = Radio.wait ∨ (s.execute i).1.state = Radio.config ∨
      ((s.execute i).1.state = Radio.write ∧ (s.execute i).1.fn = 0 ∧ (s.execute i).1.entry = i.cc ∧ (s.execute i).1.moIdx = 0)) := by
  rw [execute_config s i h]
  unfold dispatchConfig
  split
  · exact ⟨rfl, nofun, Or.inl rfl⟩
  · rcases qctConfig_spec s i.port with ⟨r, c, f, he, hfe, hc⟩ | ⟨he, h4⟩
    · have hcne : c ≠ .sbdwb1 := by
        intro hh; subst hh
        have := List.mem_of_getElem? hc
        revert this; decide
      rw [he]
      dsimp only
      split
      · exact ⟨rfl, fun g => hcne (Option.some.inj g), Or.inl rfl⟩
      · split
        · exact ⟨rfl, fun g => hcne (Option.some.inj g), Or.inr (Or.inr ⟨rfl, rfl, rfl, rfl⟩)⟩
        · exact ⟨rfl, fun g => hcne (Option.some.inj g), Or.inr (Or.inl h)⟩
    · rw [he]
      dsimp only
      rw [if_pos (by decide)]
      exact ⟨rfl, nofun, Or.inl rfl⟩

/-- One execution in the reading state. -/
theorem read_result (s : QM) (i : QIn) (h : s.state = Radio.read) :
    (s.execute i).1.maxSnap = s.maxSnap ∧ ((s.execute i).2.map (·.1) ≠ some .sbdwb1) ∧ (s.execute i).1.moIdx = s.moIdx ∧
    (s.execute i).1.buf = s.buf ∧
    ((s.execute i).1.state = Radio.wait ∨ (s.execute i).1.state = Radio.read ∨
      ((s.execute i).1.state = Radio.write ∧ (s.execute i).1.fn = 0 ∧ (s.execute i).1.entry = i.cc)) := by
  rw [execute_read s i h]
  unfold dispatchRead
  split
  · exact ⟨rfl, nofun, rfl, rfl, Or.inl rfl⟩
  · rcases dispatchSbdrb_spec s i.port with ⟨r, c, f, d, he, hfe, hc⟩ | ⟨he, h4⟩
    · have hcne : c ≠ .sbdwb1 := by
        intro hh; subst hh
        have := List.mem_of_getElem? hc
        revert this; decide
      rw [he]
      dsimp only
      split
      · exact ⟨rfl, fun g => hcne (Option.some.inj g), rfl, rfl, Or.inl rfl⟩
      · split
        · exact ⟨rfl, fun g => hcne (Option.some.inj g), rfl, rfl, Or.inr (Or.inr ⟨rfl, rfl, rfl⟩)⟩
        · exact ⟨rfl, fun g => hcne (Option.some.inj g), rfl, rfl, Or.inr (Or.inl h)⟩
    · rw [he]
      dsimp only
      rw [if_pos (by decide)]
      exact ⟨rfl, nofun, rfl, rfl, Or.inl rfl⟩

/-- A complete SBDIX answer is stored. -/
theorem getSbdix_ok (q : QLocate) (p : ModemIn) (h : (q.getSbdix p).1 = QCode.ok) :
    (q.getSbdix p).2.sbdix.getD 0 0 = p.scan.getD 0 0 ∧ (q.getSbdix p).2.mt = q.mt ∧ (q.getSbdix p).2.sbdix.getD 4 0 = p.scan.getD 4 0 := by
  unfold QLocate.getSbdix at h ⊢
  split
  · rename_i g; rw [if_pos g] at h; exact absurd (show QCode.portUnavailable = QCode.ok from h) (by decide)
  · rename_i g
    rw [if_neg g] at h
    split
    · rename_i g'; rw [if_pos g'] at h; exact absurd (show QCode.unexpectedResponse = QCode.ok from h) (by decide)
    · rename_i g'
      rw [if_neg g'] at h
      dsimp only at h ⊢
      have hl : (p.scan.take 6).length = 6 := by
        apply Classical.byContradiction
        intro hne
        rw [if_neg hne] at h
        exact absurd h (by decide)
      rw [List.length_take] at hl
      have h6 : 6 ≤ p.scan.length := by omega
      refine ⟨?_, rfl, ?_⟩ <;>
      · rw [List.getD_eq_getElem?_getD, List.getD_eq_getElem?_getD, List.getElem?_append_left (by rw [List.length_take]; omega),
          List.getElem?_take_of_lt (by decide)]

/-- One execution in the transceiving state. -/
theorem trans_result (s : QM) (i : QIn) (h : s.state = Radio.transceive) :
    (s.execute i).1.maxSnap = s.maxSnap ∧ ((s.execute i).2.map (·.1) ≠ some .sbdwb1) ∧
    (s.execute i).1.buf = s.buf ∧ (s.execute i).1.loaded = s.loaded ∧
    ((s.execute i).1.state = Radio.wait ∨ ((s.execute i).1.state = Radio.transceive ∧ (s.execute i).1.moIdx = s.moIdx) ∨
      ((s.execute i).1.state = Radio.write ∧ (s.execute i).1.fn = 0 ∧ (s.execute i).1.entry = i.cc ∧ (s.execute i).1.moIdx = 0 ∧
        ¬ i.port.scan.getD 0 0 ≤ 4) ∨
      ((s.execute i).1.state = Radio.write ∧ (s.execute i).1.fn = 0 ∧ (s.execute i).1.entry = i.cc ∧ (s.execute i).1.moIdx = s.moIdx ∧
        i.port.scan.getD 0 0 ≤ 4) ∨
      ((s.execute i).1.state = Radio.read ∧ (s.execute i).1.moIdx = s.moIdx ∧ i.port.scan.getD 0 0 ≤ 4)) := by
  rw [execute_trans s i h]
  unfold dispatchTransceive
  split
  · exact ⟨rfl, nofun, rfl, rfl, Or.inl rfl⟩
  · unfold dispatchSbdix
    by_cases h0 : s.fn = 0
    · rw [if_pos h0]
      dsimp only [QLocate.querySbdix1, QLocate.sendCommand]
      cases hw : i.port.wrote with
      | false =>
        rw [if_neg (show ¬ false = true by decide), if_pos (show isError QCode.writeFail = true by decide)]
        exact ⟨rfl, nofun, rfl, rfl, Or.inl rfl⟩
      | true =>
        rw [if_pos (show true = true from rfl), if_neg (show ¬ isError QCode.ok = true by decide)]
        rw [advance_frame, if_pos rfl]
        rw [if_neg (by unfold hasFinished; rw [h0]; simp)]
        exact ⟨rfl, nofun, rfl, rfl, Or.inr (Or.inl ⟨h, rfl⟩)⟩
    · rw [if_neg h0]
      by_cases h1 : s.fn = 1
      · rw [if_pos h1]
        have hok := getSbdix_ok s.dev i.port
        generalize hg : s.dev.getSbdix i.port = g at hok
        obtain ⟨r, d⟩ := g
        dsimp only at hok ⊢
        rw [advance_frame]
        split
        · exact ⟨rfl, nofun, rfl, rfl, Or.inl rfl⟩
        · by_cases hr0 : r = QCode.ok
          · rw [if_pos hr0]
            obtain ⟨hs, _, _⟩ := hok hr0
            generalize (s.fn + 1) % 2 = f
            split
            · dsimp only
              rw [hs]
              split
              · unfold handleNoComms
                split
                · exact ⟨rfl, nofun, rfl, rfl, Or.inr (Or.inl ⟨h, rfl⟩)⟩
                · exact ⟨rfl, nofun, rfl, rfl, Or.inr (Or.inr (Or.inl ⟨rfl, rfl, rfl, rfl, by omega⟩))⟩
              · split
                · exact ⟨rfl, nofun, rfl, rfl, Or.inr (Or.inr (Or.inr (Or.inr ⟨rfl, rfl, by omega⟩)))⟩
                · exact ⟨rfl, nofun, rfl, rfl, Or.inr (Or.inr (Or.inr (Or.inl ⟨rfl, rfl, rfl, rfl, by omega⟩)))⟩
            · exact ⟨rfl, nofun, rfl, rfl, Or.inr (Or.inl ⟨h, rfl⟩)⟩
          · rw [if_neg hr0]
            rw [if_neg (by unfold hasFinished; simp [h0])]
            exact ⟨rfl, nofun, rfl, rfl, Or.inr (Or.inl ⟨h, rfl⟩)⟩
      · rw [if_neg h1]
        dsimp only
        rw [if_pos (by decide)]
        exact ⟨rfl, nofun, rfl, rfl, Or.inl rfl⟩

theorem tick_sub (cc e : U32) (h : (cc - e).toNat ≤ 5) : (cc + 1 - e).toNat = (cc - e).toNat + 1 := by
  have : cc + 1 - e = (cc - e) + 1 := by
    rw [BitVec.sub_eq_add_neg, BitVec.sub_eq_add_neg, BitVec.add_assoc, BitVec.add_comm 1, ← BitVec.add_assoc]
  rw [this, BitVec.toNat_add, show (1 : U32).toNat = 1 from rfl]
  omega

/-- The beginning of a message. -/
theorem write_first (s : QM) (i : QIn) (h : s.state = Radio.write) (h0 : s.fn = 0) (he : i.cc = s.entry + 1) :
    (s.execute i).1.maxSnap = s.maxSnap ∧ (s.execute i).2.map (·.1) = some .sbdwb1 ∧
    ((s.execute i).1.state = Radio.wait ∨
      ((s.execute i).1.state = Radio.write ∧ (s.execute i).1.fn = 1 ∧ (s.execute i).1.entry = s.entry ∧
        (s.execute i).1.moPtr = 70 * s.moIdx ∧ (s.execute i).1.moLen = 70 ∧ (s.execute i).1.moIdx = (s.moIdx + 1) % (s.maxSnap / 70) ∧
        (s.execute i).1.buf = if s.moIdx = 0 then memoryRead i s.maxSnap else s.buf)) := by
  have hsub : i.cc - s.entry = 1 := by rw [he, BitVec.add_comm, BitVec.add_sub_cancel]
  rw [execute_write s i h]
  unfold dispatchWrite
  rw [if_neg (by unfold noMoreCycles; rw [hsub]; decide)]
  have hp : s.prepareWrite i = { s with buf := (if s.moIdx = 0 then memoryRead i s.maxSnap else s.buf), moPtr := 70 * s.moIdx, moLen := 70, moIdx := (s.moIdx + 1) % (s.maxSnap / 70) } := by
    unfold prepareWrite justEntered
    rw [hsub, if_pos (by rw [h0]; decide)]
    split
    · unfold copySnapshot copyPacket packetSize memoryRead
      dsimp only
      congr 1
      apply List.map_congr_left
      intro k _
      split
      · rename_i hk; rw [List.getElem?_eq_getElem hk]; rfl
      · rename_i hk; rw [List.getElem?_eq_none (by omega)]; rfl
    · rfl
  rw [hp]
  generalize (if s.moIdx = 0 then memoryRead i s.maxSnap else s.buf) = b
  unfold dispatchSbdwb
  rw [if_pos (show ({ s with buf := b, moPtr := 70 * s.moIdx, moLen := 70, moIdx := (s.moIdx + 1) % (s.maxSnap / 70) } : QM).fn = 0 from h0)]
  have hq : QLocate.querySbdwb1 i.port 70 = if i.port.wrote then QCode.ok else QCode.writeFail := by
    unfold QLocate.querySbdwb1
    rw [if_neg (by decide)]; rfl
  dsimp only
  rw [hq]
  cases hw : i.port.wrote with
  | false =>
    rw [if_neg (show ¬ false = true by decide), if_pos (show isError QCode.writeFail = true by decide)]
    exact ⟨rfl, rfl, Or.inl rfl⟩
  | true =>
    rw [if_pos (show true = true from rfl), if_neg (show ¬ isError QCode.ok = true by decide), advance_frame, if_pos rfl]
    rw [if_neg (by unfold hasFinished; rw [h0]; simp)]
    refine ⟨rfl, rfl, Or.inr ⟨h, ?_, rfl, rfl, rfl, rfl, rfl⟩⟩
    show (s.fn + 1) % 3 = 1
    rw [h0]

/-- The rest of a message. -/
theorem write_later (s : QM) (i : QIn) (h : s.state = Radio.write) (h0 : s.fn ≠ 0) (hgt : 1 < (i.cc - s.entry).toNat) :
    (s.execute i).1.maxSnap = s.maxSnap ∧ (s.execute i).2.map (·.1) ≠ some .sbdwb1 ∧
    ((s.execute i).1.state = Radio.wait ∨
      (s.execute i).1.moPtr = s.moPtr ∧ (s.execute i).1.moLen = s.moLen ∧ (s.execute i).1.moIdx = s.moIdx ∧ (s.execute i).1.buf = s.buf ∧
        (((s.execute i).1.state = Radio.write ∧ (s.execute i).1.entry = s.entry ∧ (i.cc - s.entry).toNat ≤ 5 ∧
           (((s.execute i).1.fn = s.fn ∧ (s.execute i).1.loaded = s.loaded) ∨
            (s.fn = 1 ∧ (s.execute i).1.fn = 2 ∧ (s.execute i).1.loaded = framed s.message))) ∨
         ((s.execute i).1.state = Radio.transceive ∧ s.fn = 2 ∧ (s.execute i).1.loaded = s.loaded))) := by
  rw [execute_write s i h]
  unfold dispatchWrite
  split
  · exact ⟨rfl, nofun, Or.inl rfl⟩
  · rename_i hn
    have hle : (i.cc - s.entry).toNat ≤ 5 := le_of_noMore hn
    have hp : s.prepareWrite i = s := by
      unfold prepareWrite justEntered
      rw [if_neg (by simp [h0])]
    rw [hp]
    unfold dispatchSbdwb
    rw [if_neg h0]
    by_cases h1 : s.fn = 1
    · rw [if_pos h1]
      have hq : (QLocate.querySbdwb2 i.port s.message).1 = QCode.ok → (QLocate.querySbdwb2 i.port s.message).2 = framed s.message := by
        unfold QLocate.querySbdwb2
        dsimp only
        split
        · rename_i hc; intro g; exact absurd g hc
        · split
          · intro _; exact framed_eq _
          · intro g; exact absurd g (by decide)
      generalize QLocate.querySbdwb2 i.port s.message = q at hq
      dsimp only
      rw [advance_frame]
      split
      · exact ⟨rfl, nofun, Or.inl rfl⟩
      · by_cases hok : q.1 = QCode.ok
        · rw [if_pos hok, if_pos hok]
          rw [if_neg (by unfold hasFinished; rw [h1]; simp)]
          refine ⟨rfl, nofun, Or.inr ⟨rfl, rfl, rfl, rfl, Or.inl ⟨h, rfl, hle, Or.inr ⟨h1, ?_, hq hok⟩⟩⟩⟩
          show (s.fn + 1) % 3 = 2
          rw [h1]
        · rw [if_neg hok, if_neg hok]
          rw [if_neg (by unfold hasFinished; simp [h0])]
          exact ⟨rfl, nofun, Or.inr ⟨rfl, rfl, rfl, rfl, Or.inl ⟨h, rfl, hle, Or.inl ⟨rfl, rfl⟩⟩⟩⟩
    · rw [if_neg h1]
      by_cases h2 : s.fn = 2
      · rw [if_pos h2]
        generalize QLocate.getSbdwb i.port = r
        dsimp only
        rw [advance_frame]
        split
        · exact ⟨rfl, nofun, Or.inl rfl⟩
        · by_cases hok : r = QCode.ok
          · rw [if_pos hok]
            rw [if_pos (finished_iff.2 ⟨by show (s.fn + 1) % 3 = 0; rw [h2], by show (1 : U32).toNat < _; exact hgt⟩)]
            exact ⟨rfl, nofun, Or.inr ⟨rfl, rfl, rfl, rfl, Or.inr ⟨rfl, h2, rfl⟩⟩⟩
          · rw [if_neg hok]
            rw [if_neg (by unfold hasFinished; simp [h0])]
            exact ⟨rfl, nofun, Or.inr ⟨rfl, rfl, rfl, rfl, Or.inl ⟨h, rfl, hle, Or.inl ⟨rfl, rfl⟩⟩⟩⟩
      · rw [if_neg h2]
        dsimp only
        rw [if_pos (by decide)]
        exact ⟨rfl, nofun, Or.inl rfl⟩

/-- Writes of other tasks. -/
theorem before_send {n : Nat} {s : QM} {o : Sender} {cc : U32} (y : QCycle) (h : SendInv n s o cc) (hd : DisciplinedStep s y) :
    (s.before y).state = Radio.disabled ∨ SendInv n (s.before y) o cc := by
  obtain ⟨a, b, c, hb⟩ := before_frame s y
  unfold DisciplinedStep at hd
  rw [hb] at hd ⊢
  rcases hd with g | g | ⟨g, g'⟩
  · right
    have g : a = s.state := g
    subst g
    exact ⟨h.size, h.cases⟩
  · exact Or.inl g
  · right
    have g : a = Radio.config := g
    subst g
    refine ⟨h.size, Or.inr (Or.inr (Or.inl ⟨rfl, ?_⟩))⟩
    rcases h.cases with k | k | k | k | k | k | k
    · exact k.2
    all_goals (rw [k.1] at g'; exact absurd g' (by decide))

theorem step_send {n : Nat} {s : QM} {o : Sender} {cc : U32} (y : QCycle) (h : SendInv n s o cc) (hd : DisciplinedStep s y)
    (hc : y.inp.cc = cc + 1) : SendInv n (s.cycle y) (o.step n s y) (cc + 1) := by
  have hmod := packets_pos n
  have hsz : (s.before y).maxSnap = copied n := by
    obtain ⟨a, b, c, hb⟩ := before_frame s y
    rw [hb]; exact h.size
  rcases before_send y h hd with hdis | hi
  · have he : s.cycle y = (s.before y).goto y.inp.cc Radio.disabled := by
      show ((s.before y).execute y.inp).1 = _
      rw [execute_disabled _ _ hdis]
    refine ⟨by rw [he]; exact hsz, Or.inl ⟨by rw [he]; rfl, ?_⟩⟩
    unfold Sender.step
    rw [if_pos (Or.inr (by rw [he]; rfl))]
  · have hcyc : s.cycle y = ((s.before y).execute y.inp).1 := rfl
    have hcall : s.call y = ((s.before y).execute y.inp).2 := rfl
    have towait : (s.cycle y).maxSnap = copied n → (s.cycle y).state = Radio.wait → SendInv n (s.cycle y) (o.step n s y) (cc + 1) := by
      intro g0 g
      refine ⟨g0, Or.inr (Or.inl ⟨g, ?_⟩)⟩
      unfold Sender.step
      rw [if_pos (Or.inl g)]
    -- the observer when nothing of note happens
    have quiet : (s.call y).map (·.1) ≠ some .sbdwb1 → (s.cycle y).state ≠ Radio.wait → (s.cycle y).state ≠ Radio.disabled →
        ¬ ((s.before y).state = Radio.transceive ∧ (s.cycle y).state ≠ Radio.transceive) → o.step n s y = o := by
      intro g1 g2 g3 g4
      unfold Sender.step
      rw [if_neg (fun h => h.elim g2 g3), if_neg g4]
      exact if_neg (fun h => g1 h.1)
    rcases hi.cases with k | k | k | k | k | k | k
    · have he : s.cycle y = (s.before y).goto y.inp.cc Radio.disabled := by rw [hcyc, execute_disabled _ _ k.1]
      refine ⟨by rw [he]; exact hsz, Or.inl ⟨by rw [he]; rfl, ?_⟩⟩
      unfold Sender.step
      rw [if_pos (Or.inr (by rw [he]; rfl))]
    · -- waiting
      have hx := execute_wait (s.before y) y.inp k.1
      rcases dispatchWait_cases (s.before y) y.inp with ⟨g1, g2⟩ | ⟨g1, g2, ⟨_, g3⟩ | ⟨_, g3⟩⟩
      · have he : s.cycle y = s.before y := by rw [hcyc, hx, g1]
        exact towait (by rw [he]; exact hsz) (by rw [he]; exact k.1)
      · have he : s.cycle y = QM.goto { (s.before y) with unexpected := false } y.inp.cc Radio.config := by rw [hcyc, hx, g3]
        have hq := quiet (by rw [hcall, hx]; nofun) (by rw [he]; show Radio.config ≠ Radio.wait; decide)
          (by rw [he]; show Radio.config ≠ Radio.disabled; decide) (by rw [k.1]; rintro ⟨g, _⟩; exact absurd g (by decide))
        rw [hq]
        exact ⟨by rw [he]; exact hsz, Or.inr (Or.inr (Or.inl ⟨by rw [he]; rfl, k.2⟩))⟩
      · have he : s.cycle y = QM.goto { (s.before y) with moIdx := 0 } y.inp.cc Radio.write := by rw [hcyc, hx, g3]
        have hq := quiet (by rw [hcall, hx]; nofun) (by rw [he]; show Radio.write ≠ Radio.wait; decide)
          (by rw [he]; show Radio.write ≠ Radio.disabled; decide) (by rw [k.1]; rintro ⟨g, _⟩; exact absurd g (by decide))
        rw [hq]
        refine ⟨by rw [he]; exact hsz, Or.inr (Or.inr (Or.inr (Or.inl ⟨by rw [he]; rfl, by rw [he]; rfl, by rw [he]; exact hc, ?_, ?_⟩)))⟩
        · rw [he, k.2, Nat.zero_mod]; rfl
        · intro g; rw [k.2, Nat.zero_mod] at g; exact absurd rfl g
    · -- configuring
      obtain ⟨g0, g1, g2⟩ := config_result (s.before y) y.inp k.1
      rw [← hcyc] at g0 g2
      rw [← hcall] at g1
      rw [hsz] at g0
      rcases g2 with g | g | ⟨g, g3, g4, g5⟩
      · exact towait g0 g
      · have hq := quiet g1 (by rw [g]; decide) (by rw [g]; decide) (by rw [k.1]; rintro ⟨g, _⟩; exact absurd g (by decide))
        rw [hq]
        exact ⟨g0, Or.inr (Or.inr (Or.inl ⟨g, k.2⟩))⟩
      · have hq := quiet g1 (by rw [g]; decide) (by rw [g]; decide) (by rw [k.1]; rintro ⟨g, _⟩; exact absurd g (by decide))
        rw [hq]
        refine ⟨g0, Or.inr (Or.inr (Or.inr (Or.inl ⟨g, g3, g4.trans hc, ?_, ?_⟩)))⟩
        · rw [g5, k.2, Nat.zero_mod]
        · intro g'; rw [k.2, Nat.zero_mod] at g'; exact absurd rfl g'
    · -- beginning a message
      obtain ⟨k1, k2, k3, k4, k5⟩ := k
      obtain ⟨g0, g1, g2⟩ := write_first (s.before y) y.inp k1 k2 (by rw [hc, k3])
      rw [← hcyc] at g0 g2
      rw [← hcall] at g1
      rw [hsz] at g0 g2
      rcases g2 with g | ⟨g, g3, g4, g5, g6, g7, g8⟩
      · exact towait g0 g
      · have hq : o.step n s y = { o with copy := (if o.count % packetsOf n = 0 then memoryRead y.inp (copied n) else o.copy) } := by
          unfold Sender.step
          rw [if_neg (by rw [g]; decide), if_neg (by rw [k1]; rintro ⟨g, _⟩; exact absurd g (by decide))]
          unfold Sender.started
          by_cases hz : o.count % packetsOf n = 0
          · rw [if_pos ⟨g1, hz⟩, if_pos hz]
          · rw [if_neg (fun h => hz h.2), if_neg hz]
        have hent : ((s.cycle y).entry) = cc := by rw [g4, k3]
        have h1 : (cc + 1 - (s.cycle y).entry).toNat = 1 := by
          rw [hent, BitVec.add_comm, BitVec.add_sub_cancel]; rfl
        rw [hq]
        refine ⟨g0, Or.inr (Or.inr (Or.inr (Or.inr (Or.inl ⟨g, by rw [g3]; decide, by rw [g3, h1]; exact Nat.le_refl 1, by rw [h1]; decide, ?_, g6, ?_, ?_, ?_⟩))))⟩
        · rw [g5, k4]
        · rw [g7, k4]
          show (o.count % packetsOf n + 1) % packetsOf n = _
          rw [Nat.mod_add_mod]
        · rw [g8, k4]
          show _ = if o.count % packetsOf n = 0 then _ else o.copy
          split
          · rfl
          · rename_i hz; exact k5 hz
        · intro g'; rw [g3] at g'; exact absurd g' (by decide)
    · -- going on with a message
      obtain ⟨k1, k2, k3, k4, k5, k6, k7, k8, k9⟩ := k
      have htick := tick_sub cc (s.before y).entry k4
      have hpos : 1 < (y.inp.cc - (s.before y).entry).toNat := by rw [hc, htick]; omega
      obtain ⟨g0, g1, g2⟩ := write_later (s.before y) y.inp k1 k2 hpos
      rw [← hcyc] at g0 g2
      rw [← hcall] at g1
      rw [hsz] at g0
      rcases g2 with g | ⟨e1, e2, e3, e4, ⟨g, g3, g4, g5⟩ | ⟨g, g3, g4⟩⟩
      · exact towait g0 g
      · have hq := quiet g1 (by rw [g]; decide) (by rw [g]; decide) (by rw [k1]; rintro ⟨g, _⟩; exact absurd g (by decide))
        rw [hq]
        rw [hc] at g4
        rcases g5 with ⟨g5, g6⟩ | ⟨g5, g6, g7⟩
        · exact ⟨g0, Or.inr (Or.inr (Or.inr (Or.inr (Or.inl ⟨g, by rw [g5]; exact k2, by rw [g3, g5, htick]; omega, by rw [g3]; exact g4,
            by rw [e1, k5], by rw [e2, k6], by rw [e3, k7], by rw [e4, k8], fun f => by rw [g6]; exact k9 (g5 ▸ f)⟩))))⟩
        · refine ⟨g0, Or.inr (Or.inr (Or.inr (Or.inr (Or.inl ⟨g, by rw [g6]; decide, by rw [g3, g6, htick]; omega, by rw [g3]; exact g4,
            by rw [e1, k5], by rw [e2, k6], by rw [e3, k7], by rw [e4, k8], fun _ => ?_⟩))))⟩
          rw [g7]
          unfold message packetOf
          rw [k5, k6, k8]
      · have hq := quiet g1 (by rw [g]; decide) (by rw [g]; decide) (by rw [k1]; rintro ⟨g, _⟩; exact absurd g (by decide))
        rw [hq]
        exact ⟨g0, Or.inr (Or.inr (Or.inr (Or.inr (Or.inr (Or.inl ⟨g, by rw [e3, k7], by rw [e4, k8], by rw [g4]; exact k9 g3⟩)))))⟩
    · -- transceiving
      obtain ⟨k1, k2, k3, k4⟩ := k
      obtain ⟨g0, g1, g2, g3, g4⟩ := trans_result (s.before y) y.inp k1
      rw [← hcyc] at g0 g2 g3 g4
      rw [← hcall] at g1
      rw [hsz] at g0
      have leave : (s.cycle y).state ≠ Radio.wait → (s.cycle y).state ≠ Radio.disabled → (s.cycle y).state ≠ Radio.transceive →
          o.step n s y = { o with count := if y.inp.port.scan.getD 0 0 ≤ 4 then o.count + 1 else 0 } := by
        intro a b c
        unfold Sender.step
        rw [if_neg (fun h => h.elim a b), if_pos ⟨k1, c⟩, show o.started n s y = o from if_neg (fun h => g1 h.1)]
      rcases g4 with g | ⟨g, g5⟩ | ⟨g, g5, g6, g7, g8⟩ | ⟨g, g5, g6, g7, g8⟩ | ⟨g, g7, g8⟩
      · exact towait g0 g
      · have hq := quiet g1 (by rw [g]; decide) (by rw [g]; decide) (fun h => h.2 g)
        rw [hq]
        exact ⟨g0, Or.inr (Or.inr (Or.inr (Or.inr (Or.inr (Or.inl ⟨g, by rw [g5, k2], by rw [g2, k3], by rw [g3, k4]⟩)))))⟩
      · rw [leave (by rw [g]; decide) (by rw [g]; decide) (by rw [g]; decide), if_neg g8]
        refine ⟨g0, Or.inr (Or.inr (Or.inr (Or.inl ⟨g, g5, g6.trans hc, ?_, ?_⟩)))⟩
        · rw [g7]; exact (Nat.zero_mod _).symm
        · intro g'; exact absurd (Nat.zero_mod _) g'
      · rw [leave (by rw [g]; decide) (by rw [g]; decide) (by rw [g]; decide), if_pos g8]
        exact ⟨g0, Or.inr (Or.inr (Or.inr (Or.inl ⟨g, g5, g6.trans hc, g7.trans k2, fun _ => g2.trans k3⟩)))⟩
      · rw [leave (by rw [g]; decide) (by rw [g]; decide) (by rw [g]; decide), if_pos g8]
        exact ⟨g0, Or.inr (Or.inr (Or.inr (Or.inr (Or.inr (Or.inr ⟨g, g7.trans k2, g2.trans k3⟩)))))⟩
    · -- reading
      obtain ⟨k1, k2, k3⟩ := k
      obtain ⟨g0, g1, g2, g3, g4⟩ := read_result (s.before y) y.inp k1
      rw [← hcyc] at g0 g2 g3 g4
      rw [← hcall] at g1
      rw [hsz] at g0
      rcases g4 with g | g | ⟨g, g5, g6⟩
      · exact towait g0 g
      · have hq := quiet g1 (by rw [g]; decide) (by rw [g]; decide) (by rw [k1]; rintro ⟨g, _⟩; exact absurd g (by decide))
        rw [hq]
        exact ⟨g0, Or.inr (Or.inr (Or.inr (Or.inr (Or.inr (Or.inr ⟨g, g2.trans k2, g3.trans k3⟩)))))⟩
      · have hq := quiet g1 (by rw [g]; decide) (by rw [g]; decide) (by rw [k1]; rintro ⟨g, _⟩; exact absurd g (by decide))
        rw [hq]
        exact ⟨g0, Or.inr (Or.inr (Or.inr (Or.inl ⟨g, g5, g6.trans hc, g2.trans k2, fun _ => g3.trans k3⟩)))⟩

theorem run_send {n : Nat} (ys : List QCycle) : ∀ (s : QM) (o : Sender) (cc : U32), SendInv n s o cc → DisciplinedRadio s ys → RadioTicks cc ys →
    ∃ cc', SendInv n (s.run ys) (Sender.run n o s ys) cc' := by
  induction ys with
  | nil => intro s o cc h _ _; exact ⟨cc, h⟩
  | cons y ys ih => intro s o cc h hd ht; exact ih _ _ _ (step_send y h hd.1 ht.1) hd.2 ht.2

end QM
open QM

/-- C44: whenever the modem reports that a message was transmitted, the message was the next packet of the current copy of the snapshot:
packet `k` after `k` deliveries (modulo the number of packets), with the checksum the modem asks for. A new copy is only made
after the last packet of the previous one was delivered, or after the radio was off, failed, or had no connection. -/
theorem C44_packets (n : Nat) (ys : List QCycle) (y : QCycle) (hd : DisciplinedRadio (QM.init n) (ys ++ [y])) (ht : RadioTicks 0 (ys ++ [y]))
    (hdel : Delivered ((QM.init n).run ys) y) :
    let o := Sender.run n Sender.init (QM.init n) ys
    ((QM.init n).run ys).loaded = framed (packetOf o.copy (o.count % packetsOf n)) := by
  intro o
  have split : ∀ (ys : List QCycle) (s : QM) (cc : U32), DisciplinedRadio s (ys ++ [y]) → RadioTicks cc (ys ++ [y]) →
      DisciplinedRadio s ys ∧ RadioTicks cc ys ∧ DisciplinedStep (s.run ys) y := by
    intro ys
    induction ys with
    | nil => intro s cc hd ht; exact ⟨trivial, trivial, hd.1⟩
    | cons z zs ih =>
      intro s cc hd ht
      obtain ⟨a, b, c⟩ := ih _ _ hd.2 ht.2
      exact ⟨⟨hd.1, a⟩, ⟨ht.1, b⟩, c⟩
  obtain ⟨h1, h2, h3⟩ := split ys _ _ hd ht
  obtain ⟨cc, hi⟩ := run_send ys _ _ _ (init_send n) h1 h2
  obtain ⟨a, b, c, hb⟩ := before_frame ((QM.init n).run ys) y
  have hst := hdel.1
  have h3' := h3
  unfold DisciplinedStep at h3'
  rw [hst] at h3'
  have hsame : ((QM.init n).run ys).state = Radio.transceive := by
    rcases h3' with g | g | ⟨g, _⟩
    · exact g.symm
    · exact absurd g (by decide)
    · exact absurd g (by decide)
  rcases hi.cases with k | k | k | k | k | k | k
  all_goals first
    | exact k.2.2.2
    | (have := k.1; rw [hsame] at this; exact absurd this (by decide))

/-- C44: the first message after the radio was off, failed or lost its connection begins a new copy, which is read when its first packet
is handed to the modem: no packet of an older snapshot is sent. -/
theorem C44_fresh_copy (n : Nat) (o : Sender) (s : QM) (y : QCycle) (hc : o.count = 0) (h : (s.call y).map (·.1) = some .sbdwb1) :
    (o.step n s y).copy = memoryRead y.inp (copied n) := by
  have hs : o.started n s y = { o with copy := memoryRead y.inp (copied n) } := by
    unfold Sender.started
    rw [if_pos ⟨h, by rw [hc, Nat.zero_mod]⟩]
  unfold Sender.step
  rw [hs]
  split
  · rfl
  · split <;> rfl

theorem packetOf_get (bytes : List U8) (k : Nat) : (packetOf bytes (k / 70))[k % 70]? = bytes[k]? := by
  unfold packetOf
  rw [List.getElem?_take_of_lt (Nat.mod_lt _ (by decide)), List.getElem?_drop, Nat.div_add_mod]

/-- C44: every byte of the snapshot below `70 * packetsOf n` is transmitted, in the delivery whose number within the round is `k / 70`, at
position `k % 70` of the message.
Missing from the full property: the remaining bytes (see `C44_counterexample_tail`). -/
theorem C44_covers_partial (n : Nat) (ys : List QCycle) (y : QCycle) (hd : DisciplinedRadio (QM.init n) (ys ++ [y]))
    (ht : RadioTicks 0 (ys ++ [y])) (hdel : Delivered ((QM.init n).run ys) y) (k : Nat)
    (hk : k < (Sender.run n Sender.init (QM.init n) ys).copy.length)
    (hround : (Sender.run n Sender.init (QM.init n) ys).count % packetsOf n = k / 70) :
    ((QM.init n).run ys).loaded[k % 70]? = (Sender.run n Sender.init (QM.init n) ys).copy[k]? := by
  have h := C44_packets n ys y hd ht hdel
  dsimp only at h
  rw [h, hround]
  unfold framed
  rw [List.getElem?_append_left, packetOf_get]
  unfold packetOf
  rw [List.length_take, List.length_drop]
  have := Nat.div_add_mod k 70
  have := Nat.mod_lt k (show 0 < 70 by decide)
  omega

/-- C44 is false for most snapshot sizes: when the copy is not a whole number of packets, its last bytes are never transmitted. Every
delivered message is a function of the first `70 * packetsOf n` bytes, so for 100 bytes of telemetry the last 30 are lost. -/
theorem C44_counterexample_tail (n : Nat) (ys : List QCycle) (y : QCycle) (hd : DisciplinedRadio (QM.init n) (ys ++ [y]))
    (ht : RadioTicks 0 (ys ++ [y])) (hdel : Delivered ((QM.init n).run ys) y) :
    let o := Sender.run n Sender.init (QM.init n) ys
    ((QM.init n).run ys).loaded = framed (packetOf (o.copy.take (70 * packetsOf n)) (o.count % packetsOf n)) := by
  intro o
  rw [C44_packets n ys y hd ht hdel]
  congr 1
  unfold packetOf
  have hm := Nat.mod_lt o.count (packets_pos n)
  rw [List.drop_take, List.take_take]
  congr 1
  have : 70 * (o.count % packetsOf n) + 70 ≤ 70 * packetsOf n := by
    have := Nat.mul_le_mul_left 70 (show o.count % packetsOf n + 1 ≤ packetsOf n from hm)
    omega
  omega

/-- Exactly when the whole snapshot is transmitted. -/
theorem C44_when_complete (n : Nat) : n ≤ 70 * packetsOf n ↔ n < 70 ∨ n % 70 = 0 ∨ n % 70 = 69 := by
  unfold packetsOf copied
  split <;> omega

example : 70 * packetsOf 100 = 70 ∧ 70 * packetsOf 139 = 140 := by decide

/-- C44: the copy always reads past the end of the snapshot buffer. For every buffer size the last bytes of the copy come from the memory
after the buffer. -/
theorem C44_counterexample_overread (i : QIn) : ∃ k, (memoryRead i (copied i.snap.length))[i.snap.length + k]? = some (i.after k) := by
  refine ⟨0, ?_⟩
  unfold memoryRead
  have hlt : i.snap.length < copied i.snap.length := by unfold copied; split <;> omega
  rw [List.getElem?_map, Nat.add_zero, List.getElem?_range hlt]
  show some ((i.snap[i.snap.length]?).getD (i.after (i.snap.length - i.snap.length))) = _
  rw [List.getElem?_eq_none (Nat.le_refl _), Nat.sub_self]
  rfl

namespace QDemo
/-- A snapshot of `n` bytes `0, 1, 2, …` followed in memory by the byte `9`s or `x`s. -/
def cycN (n : Nat) (x : U8) (cc : Nat) (p : ModemIn) (ws : List QWrite) : QCycle :=
  { writes := ws, inp := { cc := BitVec.ofNat 32 cc, powerCycle := false, port := p,
                           snap := (List.range n).map (fun k => BitVec.ofNat 8 k), after := fun _ => x } }
/-- The modem asks for the message. -/
def ready : ModemIn := { quiet with avail := 9, rx := ascii "READY\r\n" }
/-- The modem took the message. -/
def took : ModemIn := { quiet with avail := 4, rx := ascii "0\r\n0" }
/-- The modem reports a transmission with nothing to receive. -/
def sent : ModemIn := { quiet with avail := 40, scan := [1, 0, 0, 0, 0, 0] }
/-- A boot followed by `k` deliveries. -/
def deliveries (n : Nat) (x : U8) (k : Nat) : List QCycle :=
  [cycN n x 1 quiet [.state Radio.config], cycN n x 2 ans2 [], cycN n x 3 quiet [], cycN n x 4 ans3 [], cycN n x 5 ans4 []] ++
    (List.range k).flatMap fun j => [cycN n x (6 + 5 * j) quiet [], cycN n x (7 + 5 * j) ready [], cycN n x (8 + 5 * j) took [],
      cycN n x (9 + 5 * j) quiet [], cycN n x (10 + 5 * j) sent []]
/-- The history up to the last delivery. -/
def upTo (n : Nat) (x : U8) (k : Nat) : List QCycle := (deliveries n x k).dropLast
end QDemo
open QDemo

/-- The cycle of the last delivery. -/
def QDemo.lastOf (n : Nat) (x : U8) (k : Nat) : QCycle := (deliveries n x k).getLastD (cycN n x 0 quiet [])

/-- Whether the hypotheses of the theorems above hold of a history, as computable tests. -/
def QDemo.disciplinedB (s : QM) : List QCycle → Bool
  | [] => true
  | y :: ys => ((s.before y).state == s.state || (s.before y).state == Radio.disabled ||
      ((s.before y).state == Radio.config && s.state == Radio.disabled)) && QDemo.disciplinedB (s.cycle y) ys

theorem QDemo.disciplinedB_spec (ys : List QCycle) : ∀ s : QM, QDemo.disciplinedB s ys = true → DisciplinedRadio s ys := by
  induction ys with
  | nil => intro s _; trivial
  | cons y ys ih =>
    intro s h
    simp only [QDemo.disciplinedB, Bool.and_eq_true, Bool.or_eq_true, beq_iff_eq] at h
    exact ⟨by rcases h.1 with (g | g) | g; exact Or.inl g; exact Or.inr (Or.inl g); exact Or.inr (Or.inr g), ih _ h.2⟩

/- Two deliveries of a 150-byte snapshot: hypotheses met, second packet sent. -/
example : DisciplinedRadio (QM.init 150) (upTo 150 9 2 ++ [lastOf 150 9 2]) ∧ Delivered ((QM.init 150).run (upTo 150 9 2)) (lastOf 150 9 2) ∧
    (Sender.run 150 Sender.init (QM.init 150) (upTo 150 9 2)).count = 1 ∧ packetsOf 150 = 2 ∧
    ((QM.init 150).run (upTo 150 9 2)).loaded.getD 3 0 = 73 := by
  refine ⟨disciplinedB_spec _ _ ?_, ⟨?_, ?_, ?_⟩, ?_, ?_, ?_⟩ <;> decide +kernel

example : RadioTicks 0 (upTo 150 9 2 ++ [lastOf 150 9 2]) := by
  have : upTo 150 9 2 ++ [lastOf 150 9 2] = deliveries 150 9 2 := rfl
  rw [this]
  repeat' first | exact trivial | refine ⟨by decide +kernel, ?_⟩

/-- C44: the memory after the buffer is transmitted: with a 69-byte snapshot two runs that differ only in that memory deliver different
messages. -/
theorem C44_counterexample_leak :
    Delivered ((QM.init 69).run (upTo 69 9 1)) (lastOf 69 9 1) ∧ Delivered ((QM.init 69).run (upTo 69 8 1)) (lastOf 69 8 1) ∧
    ((QM.init 69).run (upTo 69 9 1)).loaded.getD 69 0 = 9 ∧ ((QM.init 69).run (upTo 69 8 1)).loaded.getD 69 0 = 8 := by
  refine ⟨⟨?_, ?_, ?_⟩, ⟨?_, ?_, ?_⟩, ?_, ?_⟩ <;> decide +kernel

end PAN
