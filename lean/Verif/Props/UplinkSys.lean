import Verif.Spec.UplinkSys
import Verif.Props.Uplink
import Verif.Props.QuakeModem
import Verif.Props.Ground
/-!
C127: every message the modem hands over is delivered to the commanded fields exactly once, in the next cycle.
-/
namespace PAN
open Spec Uplink

namespace QM

/-- In the reading state the driver holds the announced length. -/
def LenInv (s : QM) (a : Int) : Prop := s.state = Radio.read → s.dev.sbdix.getD 4 0 = a

theorem before_len {s : QM} {a : Int} (y : QCycle) (h : LenInv s a) (hd : DisciplinedStep s y) : LenInv (s.before y) a := by
  intro g
  rw [(before_comms s y).2.2]
  rcases hd with k | k | k
  · exact h (k ▸ g)
  · exact absurd (k.symm.trans g) (by decide)
  · exact absurd (k.1.symm.trans g) (by decide)

theorem read_dev (s : QM) (i : QIn) (h : s.state = Radio.read) : (s.execute i).1.dev.sbdix = s.dev.sbdix ∧
    (s.execute i).2 ≠ some (.getSbdix, QCode.ok) := by
  rw [execute_read s i h]
  unfold dispatchRead
  split
  · exact ⟨rfl, by simp⟩
  have hx : ∀ q : QLocate, (q.querySbdrb1 i.port).2.sbdix = q.sbdix := fun _ => rfl
  have hz : ∀ q : QLocate, (q.getSbdrb i.port).2.sbdix = q.sbdix := by
    intro q
    unfold QLocate.getSbdrb
    split
    · rfl
    · dsimp only
      split <;> rfl
  unfold dispatchSbdrb
  by_cases h0 : s.fn = 0
  · rw [if_pos h0]
    dsimp only
    rw [advance_frame]
    dsimp only
    generalize (if (s.dev.querySbdrb1 i.port).1 = QCode.ok then (s.fn + 1) % 2 else s.fn) = f
    split
    · exact ⟨hx _, by simp⟩
    · split
      · exact ⟨hx _, by simp⟩
      · exact ⟨hx _, by simp⟩
  rw [if_neg h0]
  by_cases h1 : s.fn = 1
  · rw [if_pos h1]
    dsimp only
    rw [advance_frame]
    dsimp only
    generalize (if (s.dev.getSbdrb i.port).1 = QCode.ok then (s.fn + 1) % 2 else s.fn) = f
    split
    · exact ⟨hz _, by simp⟩
    · split
      · exact ⟨hz _, by simp⟩
      · exact ⟨hz _, by simp⟩
  · rw [if_neg h1]
    dsimp only
    rw [if_pos (by decide)]
    exact ⟨rfl, by simp⟩

theorem trans_dev (s : QM) (i : QIn) (h : s.state = Radio.transceive) (hr : (s.execute i).1.state = Radio.read) :
    (s.execute i).2 = some (.getSbdix, QCode.ok) ∧ (s.execute i).1.dev.sbdix.getD 4 0 = i.port.scan.getD 4 0 := by
  rw [execute_trans s i h] at hr ⊢
  unfold dispatchTransceive at hr ⊢
  split at hr
  · exact absurd (show Radio.wait = Radio.read from hr) (by decide)
  rename_i hn
  rw [if_neg hn]
  unfold dispatchSbdix at hr ⊢
  by_cases h0 : s.fn = 0
  · rw [if_pos h0] at hr
    dsimp only [QLocate.querySbdix1, QLocate.sendCommand] at hr
    by_cases hw : i.port.wrote = true
    · simp only [if_pos hw] at hr
      rw [if_neg (show ¬ isError QCode.ok = true by decide), advance_frame, if_pos rfl,
        if_neg (by unfold hasFinished; rw [h0]; simp)] at hr
      exact absurd (h.symm.trans hr) (by decide)
    · simp only [if_neg hw] at hr
      rw [if_pos (show isError QCode.writeFail = true by decide)] at hr
      exact absurd (show Radio.wait = Radio.read from hr) (by decide)
  · rw [if_neg h0] at hr ⊢
    by_cases h1 : s.fn = 1
    · rw [if_pos h1] at hr ⊢
      have hok := (getSbdix_ok_iff s.dev i.port)
      have hval : (s.dev.getSbdix i.port).1 = QCode.ok → (s.dev.getSbdix i.port).2.sbdix.getD 4 0 = i.port.scan.getD 4 0 := by
        unfold QLocate.getSbdix
        split
        · intro g; exact absurd (show QCode.portUnavailable = QCode.ok from g) (by decide)
        split
        · intro g; exact absurd (show QCode.unexpectedResponse = QCode.ok from g) (by decide)
        · dsimp only
          intro g
          split at g
          · rename_i g6
            have h4 : 4 < (i.port.scan.take 6).length := by omega
            rw [List.getD_eq_getElem?_getD, List.getElem?_append_left h4, List.getElem?_take_of_lt (by omega), List.getD_eq_getElem?_getD]
          · exact absurd g (by decide)
      clear hok
      generalize s.dev.getSbdix i.port = g at hr hval ⊢
      obtain ⟨r, d⟩ := g
      dsimp only at hr hval ⊢
      rw [advance_frame] at hr ⊢
      split at hr
      · exact absurd (show Radio.wait = Radio.read from hr) (by decide)
      · rename_i he
        rw [if_neg he]
        by_cases hro : r = QCode.ok
        · subst hro
          rw [if_pos rfl] at hr ⊢
          dsimp only at hr ⊢
          split at hr
          · rename_i hfin
            rw [if_pos hfin]
            split at hr
            · rename_i h4
              unfold handleNoComms at hr
              split at hr
              · exact absurd (h.symm.trans hr) (by decide)
              · exact absurd (show Radio.write = Radio.read from hr) (by decide)
            · rename_i h4
              rw [if_neg h4]
              split at hr
              · rename_i h2
                rw [if_pos h2]
                exact ⟨rfl, hval rfl⟩
              · exact absurd (show Radio.write = Radio.read from hr) (by decide)
          · exact absurd (h.symm.trans hr) (by decide)
        · rw [if_neg hro] at hr
          rw [if_neg (by unfold hasFinished; simp [h0])] at hr
          exact absurd (h.symm.trans hr) (by decide)
    · rw [if_neg h1] at hr
      dsimp only at hr
      rw [if_pos (by decide)] at hr
      exact absurd (show Radio.wait = Radio.read from hr) (by decide)

theorem cycle_len {s : QM} {a : Int} (y : QCycle) (h : LenInv s a) (hd : DisciplinedStep s y) : LenInv (s.cycle y) (announcedAfter s a y) := by
  have hb := before_len y h hd
  intro g
  have g : ((s.before y).execute y.inp).1.state = Radio.read := g
  show ((s.before y).execute y.inp).1.dev.sbdix.getD 4 0 = _
  unfold announcedAfter call
  by_cases hr : (s.before y).state = Radio.read
  · obtain ⟨r1, r2⟩ := read_dev (s.before y) y.inp hr
    rw [r1, if_neg r2]
    exact hb hr
  · by_cases ht : (s.before y).state = Radio.transceive
    · obtain ⟨t1, t2⟩ := trans_dev (s.before y) y.inp ht g
      rw [if_pos t1, t2]
    · exfalso
      by_cases hdis : (s.before y).state = Radio.disabled
      · rw [execute_disabled _ _ hdis] at g
        exact absurd (show Radio.disabled = Radio.read from g) (by decide)
      · have hm := C42_moves (s.before y) y.inp hdis (by rw [g]; exact fun k => hr k.symm)
        rw [g] at hm
        rcases hm with ⟨-, k, -⟩ | ⟨-, k⟩ | ⟨-, k⟩ | ⟨k, -⟩ | ⟨-, k⟩ | ⟨-, k⟩ | ⟨-, -, k⟩ | ⟨-, -, k⟩ | ⟨-, k⟩
        · exact absurd k (by decide)
        · exact absurd k (by decide)
        · exact absurd k (by decide)
        · exact ht k
        · exact absurd k (by decide)
        · exact absurd k (by decide)
        · exact absurd k (by decide)
        · exact absurd k (by decide)
        · exact absurd k (by decide)

/-- The reading state when no command is answered in the cycle the state was entered. -/
theorem read_call (s : QM) (i : QIn) (h : s.state = Radio.read) (hi : MtInv s) (h0 : s.mtLen = 0) (hgap : s.fn ≠ 0 → i.cc - s.entry > 1) :
    ((s.execute i).2 ≠ some (.getSbdrb, QCode.ok) ∧ (s.execute i).1.mtLen = 0) ∨
    ((s.execute i).2 = some (.getSbdrb, QCode.ok) ∧ (s.execute i).1.mtLen = BitVec.ofInt 32 (s.dev.sbdix.getD 4 0) ∧
      ∃ size : Nat, twoBytes i.port.hi i.port.lo = size ∧ size ≤ 340 ∧ (s.execute i).1.dev.mt = receivedInto (i.port.rx.take size)) := by
  rw [execute_read s i h]
  unfold dispatchRead
  split
  · exact Or.inl ⟨by simp, h0⟩
  · unfold dispatchSbdrb
    by_cases hf : s.fn = 0
    · rw [if_pos hf]
      dsimp only [QLocate.querySbdrb1, QLocate.sendCommand]
      cases hw : i.port.wrote with
      | false =>
        rw [if_neg (show ¬ false = true by decide), if_pos (show isError QCode.writeFail = true by decide)]
        exact Or.inl ⟨by simp, h0⟩
      | true =>
        rw [if_pos (show true = true from rfl), if_neg (show ¬ isError QCode.ok = true by decide), advance_frame, if_pos rfl]
        rw [if_neg (by unfold hasFinished; rw [hf]; simp)]
        exact Or.inl ⟨by simp, h0⟩
    · rw [if_neg hf]
      by_cases h1 : s.fn = 1
      · rw [if_pos h1]
        have hmt := hi h hf
        rcases getSbdrb_cases s.dev i.port hmt with g | ⟨r, d, g, hr⟩ | ⟨size, g, e1, e2, e3⟩
        · rw [g]
          dsimp only
          rw [if_neg (show ¬ isError QCode.portUnavailable = true by decide), advance_frame, if_neg (show ¬ QCode.portUnavailable = QCode.ok by decide)]
          rw [if_neg (by unfold hasFinished; simp [hf])]
          exact Or.inl ⟨by simp, h0⟩
        · rw [g]
          dsimp only
          rw [if_pos hr]
          refine Or.inl ⟨?_, ?_⟩
          · intro k
            cases k
            exact absurd hr (by decide)
          · rw [advance_frame]; exact h0
        · rw [g]
          dsimp only
          rw [if_neg (show ¬ isError QCode.ok = true by decide), advance_frame, if_pos rfl]
          split
          · exact Or.inr ⟨rfl, rfl, size, e1, e2, rfl⟩
          · rename_i hnf
            rw [finished_iff] at hnf
            exact absurd ⟨by show (s.fn + 1) % 2 = 0; rw [h1], hgap hf⟩ hnf
      · rw [if_neg h1]
        dsimp only
        rw [if_pos (by decide)]
        exact Or.inl ⟨by simp, h0⟩

/-- The message waiting for the consumer. -/
def Waiting (s : QM) : Option (List U8) → Prop
  | none => s.mtLen = 0
  | some bytes => bytes.length ≤ 340 ∧ s.mtLen.toNat = bytes.length ∧ s.dev.mt = receivedInto bytes

theorem not_read_call (s : QM) (i : QIn) (h : s.state ≠ Radio.read) : (s.execute i).2 ≠ some (.getSbdrb, QCode.ok) := by
  intro hc
  by_cases hw : RadioWorking s.state
  · rcases (outcome s i hw).cases with g | g | ⟨-, c, r, g1, g2, -⟩
    · rw [hc] at g; exact absurd g.2.1 (by simp)
    · rw [hc] at g; exact absurd g.2.2.1 (by simp)
    · rw [hc] at g1
      cases g1
      have hm := List.mem_of_getElem? g2
      rcases hw with k | k | k | k
      · rw [k] at hm; exact absurd hm (by decide)
      · rw [k] at hm; exact absurd hm (by decide)
      · rw [k] at hm; exact absurd hm (by decide)
      · exact h k
  · by_cases hd : s.state = Radio.disabled
    · rw [execute_disabled _ _ hd] at hc; exact absurd hc (by simp)
    · rw [execute_idle _ _ hw hd] at hc; exact absurd hc (by simp)

theorem cycle_waiting {s : QM} {a : Int} {c : Nat} (y : QCycle) (hl : LenInv s a) (hm : MtInv s) (ht : TimeInv s c) (hd : DisciplinedStep s y)
    (hc : c + 1 < 2 ^ 32) (hy : y.inp.cc = BitVec.ofNat 32 (c + 1)) (hk : ModemKeepsWord s a y) : Waiting (s.cycle y) (handedOver s y) := by
  by_cases hr : (s.before y).state = Radio.read
  · rcases read_call (s.before y) y.inp hr (before_mt y hm hd) (before_mtLen s y)
      (fun hf => by rw [before_fn] at hf; rw [before_entry]; exact gap_of_time y ht hc hy hf) with ⟨g1, g2⟩ | ⟨g1, g2, size, e1, e2, e3⟩
    · unfold handedOver
      rw [if_neg (show ¬ s.call y = _ from g1)]
      exact g2
    · obtain ⟨hi, lo, k1, k2, k3, k4⟩ := hk g1
      unfold handedOver
      rw [if_pos (show s.call y = _ from g1), k1, k2, Option.getD_some, Option.getD_some]
      rw [k1, k2] at e1
      have e1 : 256 * (hi.toNat : Int) + (lo.toNat : Int) = size := e1
      have e1 : 256 * hi.toNat + lo.toNat = size := by omega
      rw [e1] at k3 k4 ⊢
      have hlen : (y.inp.port.rx.take size).length = size := by rw [List.length_take]; omega
      refine ⟨by omega, ?_, e3⟩
      show ((s.before y).execute y.inp).1.mtLen.toNat = _
      rw [g2, before_len y hl hd hr, k4, hlen, BitVec.toNat_ofInt]
      omega
  · unfold handedOver
    rw [if_neg (show ¬ s.call y = _ from not_read_call _ _ hr)]
    exact ((others_full (s.before y) y.inp hr).1).trans (before_mtLen s y)

end QM

namespace UplinkSys
variable {α : Type}

/-- The consumer delivers the waiting message. -/
theorem consume_effect (s : UplinkSys α) (m : Option (List U8)) (hw : s.qm.Waiting m) :
    ∃ c : Consumer α, Consumer.execute { fields := s.fields, len := s.qm.mtLen.toNat, buf := some s.qm.dev.mt } = some c ∧ c.len = 0 ∧
      UplinkEffect m s.fields c.fields := by
  cases m with
  | none =>
    have hw : s.qm.mtLen = 0 := hw
    exact ⟨_, C09_no_packet _ (Or.inr (by show s.qm.mtLen.toNat = 0; rw [hw]; rfl)), by show s.qm.mtLen.toNat = 0; rw [hw]; rfl, .nothing _⟩
  | some bytes =>
    obtain ⟨w1, w2, w3⟩ := hw
    have htake : s.qm.dev.mt.take s.qm.mtLen.toNat = bytes := by
      rw [w2, w3]; unfold receivedInto; exact List.take_left' rfl
    have hle : s.qm.mtLen.toNat ≤ s.qm.dev.mt.length := by
      rw [w2, w3]; unfold receivedInto; simp
    by_cases h0 : s.qm.mtLen.toNat = 0
    · refine ⟨_, C09_no_packet _ (Or.inr h0), h0, ?_⟩
      have hb : bytes = [] := by rw [h0] at w2; exact List.length_eq_zero_iff.mp w2.symm
      subst hb
      exact .taken [] _ _ [] 0 (by simp [IsPacket, encode, EntriesOk, bitsOf]) (by omega) rfl (by simp) (fun _ _ => rfl)
    · by_cases hp : ∃ es pad, IsPacket (indexSize s.fields.length) (widths s.fields) (bitsOf bytes) es pad ∧ pad ≤ indexSize s.fields.length + 7
      · obtain ⟨es, pad, p1, p2⟩ := hp
        obtain ⟨c', q1, q2, q3, q4, q5⟩ := C10_accepted_updates_exactly
          ({ fields := s.fields, len := s.qm.mtLen.toNat, buf := some s.qm.dev.mt } : Consumer α) s.qm.dev.mt rfl hle h0 es pad
          (by simp only [htake]; exact p1) p2
        exact ⟨c', q1, q2, .taken bytes _ _ es pad p1 p2 q3 q4 q5⟩
      · obtain ⟨c', q1, q2, -, q4⟩ := C09_consume
          ({ fields := s.fields, len := s.qm.mtLen.toNat, buf := some s.qm.dev.mt } : Consumer α) s.qm.dev.mt rfl hle h0
        refine ⟨c', q1, q2, ?_⟩
        rcases q4 with q4 | ⟨es, pad, p1, p2⟩
        · rw [q4]
          refine .refused bytes _ fun es pad hpk => ?_
          by_contra hc
          exact hp ⟨es, pad, hpk, by omega⟩
        · exact absurd ⟨es, pad, by simp only [htake] at p1; exact p1, p2⟩ hp

theorem cycle_eq (s : UplinkSys α) (y : UplinkCycle α) (m : Option (List U8)) (hw : s.qm.Waiting m) :
    ∃ f', UplinkEffect m s.fields f' ∧ s.cycle y = some { fields := y.others f', qm := s.qm.cycle y.radio } := by
  obtain ⟨c, h1, h2, h3⟩ := consume_effect s m hw
  refine ⟨c.fields, h3, ?_⟩
  unfold cycle
  rw [h1]
  dsimp only
  rw [h2]
  rfl

/-- The message handed over in the last cycle of a history. -/
def lastHanded (q : QM) (m : Option (List U8)) : List QCycle → Option (List U8)
  | [] => m
  | y :: ys => lastHanded (q.cycle y) (handedOver q y) ys

theorem lastHanded_append (ys : List QCycle) (y : QCycle) : ∀ (q : QM) (m : Option (List U8)),
    lastHanded q m (ys ++ [y]) = handedOver (q.run ys) y := by
  induction ys with
  | nil => intro q m; rfl
  | cons z ys ih => intro q m; exact ih _ _

theorem run_commanded (ys : List (UplinkCycle α)) : ∀ (s : UplinkSys α) (m : Option (List U8)) (a : Int) (c : Nat),
    s.qm.Waiting m → s.qm.LenInv a → s.qm.MtInv → s.qm.TimeInv c → DisciplinedRadio s.qm (ys.map (·.radio)) →
    RadioTicks (BitVec.ofNat 32 c) (ys.map (·.radio)) → c + ys.length < 2 ^ 32 → ModemWorks s.qm a (ys.map (·.radio)) →
    ∃ s', s.run ys = some s' ∧ s'.qm = s.qm.run (ys.map (·.radio)) ∧ Commanded s.qm m s.fields ys s'.fields ∧
      s'.qm.Waiting (lastHanded s.qm m (ys.map (·.radio))) := by
  induction ys with
  | nil => intro s m a c hw _ _ _ _ _ _ _; exact ⟨s, rfl, rfl, .done _ _ _, hw⟩
  | cons y ys ih =>
    intro s m a c hw hl hm ht hd hr hn hk
    obtain ⟨f', e1, e2⟩ := cycle_eq s y m hw
    have hs : BitVec.ofNat 32 c + 1 = BitVec.ofNat 32 (c + 1) := by
      apply BitVec.eq_of_toNat_eq; simp [BitVec.toNat_add]
    obtain ⟨r1, r2⟩ := hr
    rw [hs] at r1 r2
    simp only [List.length_cons] at hn
    obtain ⟨s', i1, i2, i3, i4⟩ := ih { fields := y.others f', qm := s.qm.cycle y.radio } (handedOver s.qm y.radio)
      (announcedAfter s.qm a y.radio) (c + 1)
      (QM.cycle_waiting y.radio hl hm ht hd.1 (by omega) r1 hk.1) (QM.cycle_len y.radio hl hd.1) (QM.cycle_mt y.radio hm hd.1)
      (QM.cycle_time y.radio ht (by omega) r1) hd.2 r2 (by omega) hk.2
    refine ⟨s', ?_, i2, .step _ _ _ _ _ _ _ e1 i3, i4⟩
    unfold run
    rw [e2]
    exact i1

theorem from_start (n : Nat) (fields : List (WField α)) (ys : List (UplinkCycle α))
    (hd : DisciplinedRadio (QM.init n) (ys.map (·.radio))) (ht : RadioTicks 0 (ys.map (·.radio))) (hn : ys.length < 2 ^ 32)
    (hk : ModemWorks (QM.init n) 0 (ys.map (·.radio))) :
    ∃ s', (UplinkSys.init n fields).run ys = some s' ∧ s'.qm = (QM.init n).run (ys.map (·.radio)) ∧
      Commanded (QM.init n) none fields ys s'.fields ∧ s'.qm.Waiting (lastHanded (QM.init n) none (ys.map (·.radio))) :=
  run_commanded ys (init n fields) none 0 0 rfl (fun g => absurd (show Radio.disabled = Radio.read from g) (by decide))
    (fun g => absurd (show Radio.disabled = Radio.read from g) (by decide)) ⟨Nat.zero_le _, fun g => absurd rfl g⟩ hd ht (by omega) hk

end UplinkSys

/-- **C127.** In every history of control cycles (fewer than 2^32) with a modem that keeps its word, the consumer never reads
outside its buffer, and the commanded fields change only as follows: each message the modem hands over is delivered in the next
cycle, whole and once; and what other tasks do. -/
theorem C127_history {α : Type} (n : Nat) (fields : List (WField α)) (ys : List (UplinkCycle α))
    (hd : DisciplinedRadio (QM.init n) (ys.map (·.radio))) (ht : RadioTicks 0 (ys.map (·.radio))) (hn : ys.length < 2 ^ 32)
    (hk : ModemWorks (QM.init n) 0 (ys.map (·.radio))) :
    ∃ s', (UplinkSys.init n fields).run ys = some s' ∧ s'.qm = (QM.init n).run (ys.map (·.radio)) ∧
      Commanded (QM.init n) none fields ys s'.fields := by
  obtain ⟨s', h1, h2, h3, -⟩ := UplinkSys.from_start n fields ys hd ht hn hk
  exact ⟨s', h1, h2, h3⟩

/-- C127, from the ground's command file on: if the modem hands over the packet the ground tool made of a command file, then the
next cycle's tasks after the consumer find every field named in the file with its value, and all others as they were. -/
theorem C127_command (n : Nat) (start : List (WField Ground.Value)) (ys : List (UplinkCycle Ground.Value)) (y y' : UplinkCycle Ground.Value)
    (hd : DisciplinedRadio (QM.init n) ((ys ++ [y]).map (·.radio))) (ht : RadioTicks 0 ((ys ++ [y]).map (·.radio)))
    (hn : ys.length + 1 < 2 ^ 32) (hk : ModemWorks (QM.init n) 0 ((ys ++ [y]).map (·.radio)))
    (fields : List Ground.Field) (hok : ∀ f ∈ fields, f.Ok) (hsmall : fields.length < 2 ^ 63 - 1) (junk : Nat → Bool)
    (cmd : List (Nat × Ground.Json)) (hne : cmd ≠ []) (hnd : (cmd.map (·.1)).Nodup)
    (hfair : ∀ p ∈ cmd, ∀ f, fields[p.1]? = some f → Ground.Fair f p.2) (bytes : List U8) (hb : Ground.create fields junk cmd = .ok bytes)
    (hm : handedOver ((QM.init n).run (ys.map (·.radio))) y.radio = some bytes) :
    ∃ s, (UplinkSys.init n start).run (ys ++ [y]) = some s ∧ (SameFields fields s.fields →
      ∃ f', s.cycle y' = some { fields := y'.others f', qm := s.qm.cycle y'.radio } ∧
        (∀ p ∈ cmd, ∃ f w, fields[p.1]? = some f ∧ f'[p.1]? = some w ∧ Ground.Arrived f p.2 w.value) ∧
        (∀ i, i ∉ cmd.map (·.1) → f'[i]? = s.fields[i]?)) := by
  obtain ⟨s, h1, h2, -, h4⟩ := UplinkSys.from_start n start (ys ++ [y]) hd ht (by simpa using hn) hk
  rw [List.map_append, List.map_cons, List.map_nil, UplinkSys.lastHanded_append, hm] at h4
  refine ⟨s, h1, fun hsame => ?_⟩
  obtain ⟨w1, w2, w3⟩ := h4
  obtain ⟨c', d1, d2, d3, d4⟩ := (C104_delivered_partial fields hok hsmall junk cmd hne hnd hfair).2 bytes hb
    { fields := s.fields, len := 0, buf := none } hsame (List.replicate (341 - bytes.length) 0)
  refine ⟨c'.fields, ?_, d3, d4⟩
  unfold UplinkSys.cycle
  rw [w2, w3]
  dsimp only at d1
  unfold receivedInto
  rw [d1]
  dsimp only
  rw [d2]
  rfl

namespace QDemo

/-- A checker for `ModemWorks`. -/
def modemB (q : QM) (a : Int) : List QCycle → Bool
  | [] => true
  | y :: ys => (if q.call y = some (.getSbdrb, QCode.ok) then
      y.inp.port.hi.isSome && y.inp.port.lo.isSome &&
        decide (256 * (y.inp.port.hi.getD 0).toNat + (y.inp.port.lo.getD 0).toNat ≤ y.inp.port.rx.length) &&
        decide (a = (256 * (y.inp.port.hi.getD 0).toNat + (y.inp.port.lo.getD 0).toNat : Nat)) else true) &&
    modemB (q.cycle y) (announcedAfter q a y) ys

theorem modemB_spec (ys : List QCycle) : ∀ (q : QM) (a : Int), modemB q a ys = true → ModemWorks q a ys := by
  induction ys with
  | nil => intro q a _; trivial
  | cons y ys ih =>
    intro q a h
    unfold modemB at h
    rw [Bool.and_eq_true] at h
    refine ⟨fun hc => ?_, ih _ _ h.2⟩
    have h1 := h.1
    rw [if_pos hc] at h1
    simp only [Bool.and_eq_true, decide_eq_true_eq, Option.isSome_iff_exists] at h1
    obtain ⟨⟨⟨⟨hi, e1⟩, ⟨lo, e2⟩⟩, e3⟩, e4⟩ := h1
    rw [e1, e2] at e3 e4
    exact ⟨hi, lo, e1, e2, e3, e4⟩

/-- Three fields that can be written: 4, 1 and 5 bits wide. -/
def board : List (WField Nat) := [4, 1, 5].map fun k => { bits := List.replicate k false, value := 0, decode := fun b _ => b.foldr (fun x n => 2 * n + x.toNat) 0 }

/-- A session that hands over a command for the third field, then one more cycle. -/
def session : List (UplinkCycle Nat) :=
  (toRead 2 ++ [cyc 12 { quiet with avail := 6, hi := some 0, lo := some 2, rx := [0x9b, 0], chi := some 0, clo := some 0x9b } [], cyc 13 quiet []]).map
    fun y => { others := id, radio := y }

end QDemo
open QDemo

/- The command is in the field after the cycle that follows the session, and not before. -/
example : DisciplinedRadio (QM.init 100) (session.map (·.radio)) ∧ RadioTicks 0 (session.map (·.radio)) ∧
    ModemWorks (QM.init 100) 0 (session.map (·.radio)) ∧
    ((UplinkSys.init 100 board).run session).map (fun s => s.fields.map (·.value)) = some [0, 0, 19] ∧
    ((UplinkSys.init 100 board).run session.dropLast).map (fun s => s.fields.map (·.value)) = some [0, 0, 0] := by
  refine ⟨disciplinedB_spec _ _ ?_, ?_, modemB_spec _ _ _ ?_, ?_, ?_⟩
  · decide +kernel
  · repeat' first | exact trivial | refine ⟨by decide +kernel, ?_⟩
  · decide +kernel
  · decide +kernel
  · decide +kernel

/-- C127 needs the modem's word: if the session report announces 344 bytes and the message read has three, the consumer reads
beyond the buffer. -/
theorem C127_counterexample_length :
    DisciplinedRadio (QM.init 100) (toRead 344 ++ [cyc 12 { mtMsg with avail := 340 } [], cyc 13 quiet []]) ∧
    ((UplinkSys.init 100 board).run ((toRead 344 ++ [cyc 12 { mtMsg with avail := 340 } []]).map fun y => { others := id, radio := y })).isSome = true ∧
    ((UplinkSys.init 100 board).run
      ((toRead 344 ++ [cyc 12 { mtMsg with avail := 340 } [], cyc 13 quiet []]).map fun y => { others := id, radio := y })).isNone = true := by
  refine ⟨disciplinedB_spec _ _ ?_, ?_, ?_⟩ <;> decide +kernel

end PAN
