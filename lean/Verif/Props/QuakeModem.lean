import Verif.Props.QuakeSend
/-!
C71 (a modem command counts as accepted exactly when the modem gave the expected answer, and every error is reported) and
C72 (contacts are recorded).
-/
namespace PAN

namespace Spec

/-- The modem's answer starts with the text `t`, and at least as many bytes were waiting. -/
def Answered (p : ModemIn) (t : String) : Prop := t.length ≤ p.avail ∧ p.rx.take t.length = ascii t

/-- The answer the modem must give, and the writes that must succeed, for each command to count as accepted. For the reading of a
received message (length, checksum) see C45. -/
def AcceptedBy (p : ModemIn) (s : QM) : Cmd → Prop
  | .config1 => p.wrote = true
  | .config2 => 0 < p.avail ∧ p.wrote = true
  | .config3 => Answered p "AT&K0;&D0;E0;V0;+SBDMTA=0\r0\r" ∧ p.wrote = true
  | .getConfig => Answered p "0\r\n0\r"
  | .sbdwb1 => p.wrote = true
  | .sbdwb2 => Answered p "READY\r\n" ∧ p.wrote = true
  | .getSbdwb => 0 < p.avail ∧ p.rx.take 3 = ascii "0\r\n"
  | .sbdix1 => p.wrote = true
  | .getSbdix => 26 ≤ p.avail ∧ p.avail < 128 ∧ 6 ≤ p.scan.length
  | .sbdrb1 => p.wrote = true
  | .getSbdrb => (s.dev.getSbdrb p).1 = QCode.ok

end Spec
open Spec

namespace QM

theorem sendCommand_ok (p : ModemIn) : QLocate.sendCommand p = QCode.ok ↔ p.wrote = true := by
  unfold QLocate.sendCommand
  split
  · rename_i h; exact ⟨fun _ => h, fun _ => rfl⟩
  · rename_i h; exact ⟨fun g => absurd g (by decide), fun g => absurd g h⟩

theorem consume_ok (p : ModemIn) (t : String) : QLocate.consume p t = QCode.ok ↔ Answered p t := by
  unfold QLocate.consume Answered
  split
  · exact ⟨fun g => absurd g (by decide), fun g => by omega⟩
  · split
    · rename_i h1 h2; exact ⟨fun _ => ⟨by omega, h2⟩, fun _ => rfl⟩
    · rename_i h1 h2; exact ⟨fun g => absurd g (by decide), fun g => absurd g.2 h2⟩

theorem getSbdwb_ok (p : ModemIn) : QLocate.getSbdwb p = QCode.ok ↔ 0 < p.avail ∧ p.rx.take 3 = ascii "0\r\n" := by
  have e : ascii "0\r\n" = [48, 13, 10] := by decide
  rw [e]
  unfold QLocate.getSbdwb
  split
  · rename_i h; exact ⟨fun g => absurd g (by decide), fun g => by omega⟩
  · rename_i h
    have h0 : 0 < p.avail := by omega
    simp only [h0, true_and]
    match hr : p.rx with
    | [] => simp [QCode.unknown, QCode.ok]
    | [a] => simp [QCode.unknown, QCode.ok]
    | [a, b] => simp [QCode.unknown, QCode.ok]
    | a :: b :: c :: l =>
      have ht : (a :: b :: c :: l).take 3 = [a, b, c] := rfl
      rw [ht]
      have hl : ¬ ((a :: b :: c :: l).take 5).length < 3 := by simp
      have g0 : ((a :: b :: c :: l).take 5).getD 0 0 = a := rfl
      have g1 : ((a :: b :: c :: l).take 5).getD 1 0 = b := rfl
      have g2 : ((a :: b :: c :: l).take 5).getD 2 0 = c := rfl
      rw [if_neg hl, g0, g1, g2]
      split
      · rename_i h3
        refine ⟨fun g => absurd g (by decide), fun g => ?_⟩
        simp only [List.cons.injEq, and_true] at g
        obtain ⟨rfl, rfl, rfl⟩ := g
        revert h3; decide
      · rename_i h3
        simp only [not_or, Classical.not_not] at h3
        obtain ⟨rfl, rfl, h3⟩ := h3
        simp only [List.cons.injEq, and_true]
        show (a.toNat : Int) - 48 = 0 ↔ a = 48
        constructor
        · intro g; apply BitVec.eq_of_toNat_eq; show a.toNat = 48; omega
        · rintro rfl; rfl

theorem getSbdix_ok_iff (q : QLocate) (p : ModemIn) :
    (q.getSbdix p).1 = QCode.ok ↔ 26 ≤ p.avail ∧ p.avail < 128 ∧ 6 ≤ p.scan.length := by
  unfold QLocate.getSbdix
  split
  · exact ⟨fun g => absurd (show QCode.portUnavailable = QCode.ok from g) (by decide), fun g => by omega⟩
  · split
    · exact ⟨fun g => absurd (show QCode.unexpectedResponse = QCode.ok from g) (by decide), fun g => by omega⟩
    · dsimp only
      rw [List.length_take]
      split
      · exact ⟨fun _ => by omega, fun _ => rfl⟩
      · exact ⟨fun g => absurd g (by decide), fun g => by omega⟩

/-- A call made in a state comes from the sequence of that state. -/
theorem call_dispatch (s : QM) (i : QIn) {c : Cmd} {r : Int} (hc : (s.execute i).2 = some (c, r)) :
    (s.qctConfig i.port).2.2 = some (c, r) ∨ ((s.prepareWrite i).dispatchSbdwb i.port).2.2 = some (c, r)
    ∨ (s.dispatchSbdix i.port).2.2 = some (c, r) ∨ (s.dispatchSbdrb i.port).2.2 = some (c, r) := by
  by_cases hw : RadioWorking s.state
  · rcases hw with h | h | h | h
    · exact Or.inl (call_config s i h hc)
    · exact Or.inr (Or.inl (call_write s i h hc))
    · exact Or.inr (Or.inr (Or.inl (call_trans s i h hc)))
    · exact Or.inr (Or.inr (Or.inr (call_read s i h hc)))
  · exfalso
    by_cases hd : s.state = Radio.disabled
    · rw [execute_disabled _ _ hd] at hc; cases hc
    · rw [execute_idle _ _ hw hd] at hc; cases hc

theorem write_length (s : QM) (i : QIn) (h : s.justEntered i.cc = true) : (s.prepareWrite i).moLen = 70 := by
  unfold prepareWrite
  rw [if_pos h]
  split <;> rfl

theorem accepted_iff (s : QM) (i : QIn) {c : Cmd} {r : Int} (hc : (s.execute i).2 = some (c, r))
    (hm : c = .sbdwb1 → (s.prepareWrite i).moLen = 70) : r = QCode.ok ↔ AcceptedBy i.port s c := by
  rcases call_dispatch s i hc with h | h | h | h
  · unfold qctConfig at h
    split at h
    · cases h; exact sendCommand_ok _
    split at h
    · cases h
      unfold QLocate.queryConfig2
      show _ ↔ 0 < i.port.avail ∧ _
      split
      · exact ⟨fun g => absurd g (by decide), fun g => by omega⟩
      · rw [sendCommand_ok]; exact ⟨fun g => ⟨by omega, g⟩, fun g => g.2⟩
    split at h
    · cases h
      unfold QLocate.queryConfig3
      dsimp only
      show _ ↔ Answered _ _ ∧ _
      rw [← consume_ok]
      split
      · rename_i g0; exact ⟨fun g => absurd g g0, fun g => absurd g.1 g0⟩
      · rename_i g0; rw [sendCommand_ok]; exact ⟨fun g => ⟨Classical.not_not.1 g0, g⟩, fun g => g.2⟩
    split at h
    · cases h; exact consume_ok _ _
    · cases h
  · unfold dispatchSbdwb at h
    split at h
    · cases h
      have hm := hm rfl
      unfold QLocate.querySbdwb1
      rw [hm, if_neg (by decide)]
      exact sendCommand_ok _
    split at h
    · cases h
      unfold QLocate.querySbdwb2
      dsimp only
      show _ ↔ Answered _ _ ∧ _
      rw [← consume_ok]
      split
      · rename_i g0; exact ⟨fun g => absurd g g0, fun g => absurd g.1 g0⟩
      · rename_i g0
        split
        · rename_i g1; exact ⟨fun g => ⟨Classical.not_not.1 g0, g1⟩, fun _ => rfl⟩
        · rename_i g1; exact ⟨fun g => absurd (show QCode.writeFail = QCode.ok from g) (by decide), fun g => absurd g.2 g1⟩
    split at h
    · cases h; exact getSbdwb_ok _
    · cases h
  · unfold dispatchSbdix at h
    split at h
    · cases h; exact sendCommand_ok _
    split at h
    · cases h; exact getSbdix_ok_iff _ _
    · cases h
  · unfold dispatchSbdrb at h
    split at h
    · cases h; exact sendCommand_ok _
    split at h
    · cases h; exact Iff.rfl
    · cases h

/-- The error code after an execution, in a working state. -/
theorem exec_err (s : QM) (i : QIn) : (s.execute i).1.err =
    if RadioWorking s.state then
      if i.cc - s.entry > stateLimit s then QCode.timeout
      else match (s.execute i).2 with
        | some (_, r) => if r = QCode.ok ∨ r = QCode.portUnavailable then s.err else r
        | none => QCode.wrongFnOrder
    else s.err := by
  have herr : ∀ r : Int, isError r = true ↔ ¬ (r = QCode.ok ∨ r = QCode.portUnavailable) := by
    intro r; unfold isError; simp [not_or]
  by_cases hw : RadioWorking s.state
  · rw [if_pos hw]
    rcases hw with h | h | h | h
    · rw [execute_config s i h, show stateLimit s = maxCycles from limit_config h]
      unfold dispatchConfig
      split
      · rename_i g; rw [if_pos (show _ > _ from gt_of_noMore g)]; rfl
      · rename_i g
        rw [if_neg (BitVec.not_lt.2 (le_of_noMore g))]
        rcases qctConfig_spec s i.port with ⟨r, c, f, he, hfe, hc⟩ | ⟨he, h4⟩ <;> rw [he] <;> dsimp only
        · split
          · rename_i g1; dsimp only; rw [if_neg ((herr r).1 g1)]; rfl
          · rename_i g1
            have g2 := Classical.not_not.1 (mt (herr r).2 g1)
            split <;> (dsimp only; rw [if_pos g2]) <;> rfl
        · rw [if_pos (by decide)]; rfl
    · rw [execute_write s i h, show stateLimit s = maxCycles from limit_write h]
      unfold dispatchWrite
      split
      · rename_i g; rw [if_pos (show _ > _ from gt_of_noMore g)]; rfl
      · rename_i g
        rw [if_neg (BitVec.not_lt.2 (le_of_noMore g))]
        obtain ⟨b, p, l, m, hp⟩ := prepareWrite_frame s i
        rw [hp]
        rcases dispatchSbdwb_spec { s with buf := b, moPtr := p, moLen := l, moIdx := m } i.port with
          ⟨r, c, f, l, he, hfe, hc⟩ | ⟨he, h4⟩ <;> rw [he] <;> dsimp only
        · split
          · rename_i g1; dsimp only; rw [if_neg ((herr r).1 g1)]; rfl
          · rename_i g1
            have g2 := Classical.not_not.1 (mt (herr r).2 g1)
            split <;> (dsimp only; rw [if_pos g2]) <;> rfl
        · rw [if_pos (by decide)]; rfl
    · rw [execute_trans s i h, limit_trans h]
      unfold dispatchTransceive
      split
      · rename_i g; rw [if_pos (show _ > _ from gt_of_noMore g)]; rfl
      · rename_i g
        rw [if_neg (BitVec.not_lt.2 (le_of_noMore g))]
        rcases dispatchSbdix_spec s i.port with ⟨r, c, f, d, he, hfe, hc⟩ | ⟨he, h4⟩ <;> rw [he] <;> dsimp only
        · split
          · rename_i g1; dsimp only; rw [if_neg ((herr r).1 g1)]; rfl
          · rename_i g1
            have g2 := Classical.not_not.1 (mt (herr r).2 g1)
            split
            · split
              · dsimp only; rw [if_pos g2]
                unfold handleNoComms
                split <;> rfl
              · split <;> (dsimp only; rw [if_pos g2]) <;> rfl
            · dsimp only; rw [if_pos g2]
        · rw [if_pos (by decide)]; rfl
    · rw [execute_read s i h, show stateLimit s = maxCycles from limit_read h]
      unfold dispatchRead
      split
      · rename_i g; rw [if_pos (show _ > _ from gt_of_noMore g)]; rfl
      · rename_i g
        rw [if_neg (BitVec.not_lt.2 (le_of_noMore g))]
        rcases dispatchSbdrb_spec s i.port with ⟨r, c, f, d, he, hfe, hc⟩ | ⟨he, h4⟩ <;> rw [he] <;> dsimp only
        · split
          · rename_i g1; dsimp only; rw [if_neg ((herr r).1 g1)]; rfl
          · rename_i g1
            have g2 := Classical.not_not.1 (mt (herr r).2 g1)
            split <;> (dsimp only; rw [if_pos g2]) <;> rfl
        · rw [if_pos (by decide)]; rfl
  · rw [if_neg hw]
    by_cases hd : s.state = Radio.disabled
    · rw [execute_disabled _ _ hd]; rfl
    · rw [execute_idle _ _ hw hd]
      dsimp only
      rcases dispatchWait_cases { s with unexpected := if s.state = Radio.wait then s.unexpected else true } i with
        ⟨g1, _⟩ | ⟨_, _, ⟨_, g3⟩ | ⟨_, g3⟩⟩
      · rw [g1]
      · rw [g3]; rfl
      · rw [g3]; rfl

/-- The time of the last contact in the result `p` of an execution. -/
def CommsOk (s : QM) (i : QIn) (p : QM × QCall) : Prop :=
  (p.2 = some (.getSbdix, QCode.ok) ∧ i.port.scan.getD 0 0 ≤ 4 → p.1.lastComms = i.cc) ∧
  (¬ (p.2 = some (.getSbdix, QCode.ok) ∧ i.port.scan.getD 0 0 ≤ 4) → p.1.lastComms = s.lastComms)

theorem exec_comms (s : QM) (i : QIn) (hf : s.fn ≠ 0 → i.cc - s.entry > 1) : CommsOk s i (s.execute i) := by
  by_cases ht : s.state = Radio.transceive
  · rw [execute_trans s i ht]
    unfold dispatchTransceive
    split
    · exact ⟨(fun g => nomatch g.1), fun _ => rfl⟩
    · unfold dispatchSbdix
      by_cases h0 : s.fn = 0
      · rw [if_pos h0]
        dsimp only [QLocate.querySbdix1, QLocate.sendCommand]
        by_cases hw : i.port.wrote = true
        · simp only [if_pos hw]
          rw [if_neg (show ¬ isError QCode.ok = true by decide)]
          rw [advance_frame, if_pos rfl]
          rw [if_neg (by unfold hasFinished; rw [h0]; simp)]
          exact ⟨(fun g => nomatch g.1), fun _ => rfl⟩
        · simp only [if_neg hw]
          rw [if_pos (show isError QCode.writeFail = true by decide)]
          exact ⟨(fun g => nomatch g.1), fun _ => rfl⟩
      · rw [if_neg h0]
        by_cases h1 : s.fn = 1
        · rw [if_pos h1]
          have hok := getSbdix_ok s.dev i.port
          generalize hg : s.dev.getSbdix i.port = g at hok
          obtain ⟨r, d⟩ := g
          dsimp only at hok ⊢
          rw [advance_frame]
          have hgt := hf h0
          split
          · rename_i g1
            refine ⟨fun g => ?_, fun _ => rfl⟩
            obtain ⟨g, -⟩ := g
            cases g
            exact absurd g1 (by decide)
          · by_cases hr0 : r = QCode.ok
            · rw [if_pos hr0]
              obtain ⟨hs, _, _⟩ := hok hr0
              have hfin : ({ s with dev := d, fn := (s.fn + 1) % 2 } : QM).hasFinished i.cc = true := by
                rw [finished_iff]; exact ⟨by show (s.fn + 1) % 2 = 0; rw [h1], hgt⟩
              rw [if_pos hfin]
              dsimp only
              rw [hs, hr0]
              split
              · refine ⟨fun g => by omega, fun _ => ?_⟩
                show (handleNoComms _ _).lastComms = _
                unfold handleNoComms
                split <;> rfl
              · have : i.port.scan.getD 0 0 ≤ 4 := by omega
                split <;> exact ⟨fun _ => rfl, fun g => absurd ⟨rfl, this⟩ g⟩
            · rw [if_neg hr0]
              rw [if_neg (by unfold hasFinished; simp [h0])]
              refine ⟨fun g => ?_, fun _ => rfl⟩
              obtain ⟨g, -⟩ := g
              cases g
              exact absurd rfl hr0
        · rw [if_neg h1]
          dsimp only
          rw [if_pos (by decide)]
          exact ⟨(fun g => nomatch g.1), fun _ => rfl⟩
  · have hno : (s.execute i).2 ≠ some (.getSbdix, QCode.ok) := by
      intro g
      by_cases hw : RadioWorking s.state
      · rcases hw with h | h | h | h
        · have := call_config s i h g
          rcases qctConfig_spec s i.port with ⟨r, c, f, he, hfe, hc⟩ | ⟨he, h4⟩ <;> rw [he] at this <;> cases this
          have := List.mem_of_getElem? hc
          revert this; decide
        · have := call_write s i h g
          rcases dispatchSbdwb_spec (s.prepareWrite i) i.port with ⟨r, c, f, l, he, hfe, hc⟩ | ⟨he, h4⟩ <;> rw [he] at this <;> cases this
          have := List.mem_of_getElem? hc
          revert this; decide
        · exact ht h
        · have := call_read s i h g
          rcases dispatchSbdrb_spec s i.port with ⟨r, c, f, l, he, hfe, hc⟩ | ⟨he, h4⟩ <;> rw [he] at this <;> cases this
          have := List.mem_of_getElem? hc
          revert this; decide
      · by_cases hd : s.state = Radio.disabled
        · rw [execute_disabled _ _ hd] at g; cases g
        · rw [execute_idle _ _ hw hd] at g; cases g
    refine ⟨fun g => absurd g.1 hno, fun _ => ?_⟩
    unfold execute
    split
    · rfl
    split
    · unfold dispatchConfig
      split
      · rfl
      · rcases qctConfig_spec s i.port with ⟨r, c, f, he, hfe, hc⟩ | ⟨he, h4⟩ <;> rw [he] <;> dsimp only
        · split
          · rfl
          · split <;> rfl
        · rw [if_pos (by decide)]; rfl
    split
    · rcases dispatchWait_cases s i with ⟨g1, _⟩ | ⟨_, _, ⟨_, g3⟩ | ⟨_, g3⟩⟩ <;> dsimp only
      · rw [g1]
      · rw [g3]; rfl
      · rw [g3]; rfl
    split
    · unfold dispatchRead
      split
      · rfl
      · rcases dispatchSbdrb_spec s i.port with ⟨r, c, f, d, he, hfe, hc⟩ | ⟨he, h4⟩ <;> rw [he] <;> dsimp only
        · split
          · rfl
          · split <;> rfl
        · rw [if_pos (by decide)]; rfl
    split
    · unfold dispatchWrite
      split
      · rfl
      · obtain ⟨b, p, l, m, hp⟩ := prepareWrite_frame s i
        rw [hp]
        rcases dispatchSbdwb_spec { s with buf := b, moPtr := p, moLen := l, moIdx := m } i.port with
          ⟨r, c, f, l, he, hfe, hc⟩ | ⟨he, h4⟩ <;> rw [he] <;> dsimp only
        · split
          · rfl
          · split <;> rfl
        · rw [if_pos (by decide)]; rfl
    · rcases dispatchWait_cases { s with unexpected := true } i with ⟨g1, _⟩ | ⟨_, _, ⟨_, g3⟩ | ⟨_, g3⟩⟩ <;> dsimp only
      · rw [g1]
      · rw [g3]; rfl
      · rw [g3]; rfl

/-- Entry time and step of a command sequence: a sequence is under way only if the state was entered in an earlier cycle. -/
def TimeInv (s : QM) (c : Nat) : Prop := s.entry.toNat ≤ c ∧ (s.fn ≠ 0 → s.entry.toNat < c)

theorem exec_time (s : QM) (i : QIn) : ((s.execute i).1.entry = i.cc ∧ (s.execute i).1.fn = 0) ∨ (s.execute i).1.entry = s.entry := by
  by_cases hw : RadioWorking s.state
  · rcases (outcome s i hw).cases with g | g | ⟨g0, c, r, g1, g2, g3 | ⟨g3, g5, g4 | ⟨g6, g4⟩⟩⟩
    · exact Or.inl ⟨g.2.2.2.2.2, g.2.2.2.2.1⟩
    · exact Or.inl ⟨g.2.2.2.2.2.2, g.2.2.2.2.2.1⟩
    · exact Or.inl ⟨g3.2.2.2.2, g3.2.2.2.1⟩
    · exact Or.inr g4.2.1
    · exact Or.inl ⟨g4.1, g4.2.1⟩
  · by_cases hd : s.state = Radio.disabled
    · rw [execute_disabled _ _ hd]; exact Or.inl ⟨rfl, rfl⟩
    · rw [execute_idle _ _ hw hd]
      dsimp only
      rcases dispatchWait_cases { s with unexpected := if s.state = Radio.wait then s.unexpected else true } i with
        ⟨g1, _⟩ | ⟨_, _, ⟨_, g3⟩ | ⟨_, g3⟩⟩
      · rw [g1]; exact Or.inr rfl
      · rw [g3]; exact Or.inl ⟨rfl, rfl⟩
      · rw [g3]; exact Or.inl ⟨rfl, rfl⟩

theorem cycle_time {s : QM} {c : Nat} (y : QCycle) (h : TimeInv s c) (hc : c + 1 < 2 ^ 32) (hy : y.inp.cc = BitVec.ofNat 32 (c + 1)) :
    TimeInv (s.cycle y) (c + 1) := by
  have hn : y.inp.cc.toNat = c + 1 := by rw [hy, BitVec.toNat_ofNat]; exact Nat.mod_eq_of_lt hc
  have he := before_entry s y
  rcases exec_time (s.before y) y.inp with ⟨g1, g2⟩ | g
  · refine ⟨?_, fun g => absurd g2 g⟩
    show ((s.before y).execute y.inp).1.entry.toNat ≤ c + 1
    rw [g1, hn]; exact Nat.le_refl _
  · have e : (s.cycle y).entry.toNat = s.entry.toNat := by
      show ((s.before y).execute y.inp).1.entry.toNat = _
      rw [g, he]
    refine ⟨by rw [e]; have := h.1; omega, fun _ => by rw [e]; have := h.1; omega⟩

theorem run_time (ys : List QCycle) : ∀ (s : QM) (c : Nat), TimeInv s c → c + ys.length < 2 ^ 32 → RadioTicks (BitVec.ofNat 32 c) ys →
    TimeInv (s.run ys) (c + ys.length) := by
  induction ys with
  | nil => intro s c h _ _; exact h
  | cons y ys ih =>
    intro s c h hl ht
    have hs : BitVec.ofNat 32 c + 1 = BitVec.ofNat 32 (c + 1) := by
      apply BitVec.eq_of_toNat_eq; simp [BitVec.toNat_add]
    obtain ⟨h1, h2⟩ := ht
    rw [hs] at h1 h2
    simp only [List.length_cons] at hl
    have := ih (s.cycle y) (c + 1) (cycle_time y h (by omega) h1) (by omega) h2
    rwa [show c + 1 + ys.length = c + (y :: ys).length by simp; omega] at this

theorem before_comms (s : QM) (y : QCycle) : (s.before y).lastComms = s.lastComms ∧ (s.before y).err = s.err ∧ (s.before y).dev = s.dev := by
  obtain ⟨a, b, c, h⟩ := before_frame s y
  rw [h]; exact ⟨rfl, rfl, rfl⟩

theorem ticks_append (ys : List QCycle) (y : QCycle) : ∀ c : Nat, RadioTicks (BitVec.ofNat 32 c) (ys ++ [y]) →
    RadioTicks (BitVec.ofNat 32 c) ys ∧ y.inp.cc = BitVec.ofNat 32 (c + ys.length + 1) := by
  have hs : ∀ c : Nat, BitVec.ofNat 32 c + 1 = BitVec.ofNat 32 (c + 1) := by
    intro c; apply BitVec.eq_of_toNat_eq; simp [BitVec.toNat_add]
  induction ys with
  | nil => intro c h; exact ⟨trivial, by rw [h.1, hs]; rfl⟩
  | cons z ys ih =>
    intro c h
    obtain ⟨h1, h2⟩ := h
    rw [hs] at h2
    obtain ⟨i1, i2⟩ := ih (c + 1) h2
    refine ⟨⟨h1, by rw [hs]; exact i1⟩, ?_⟩
    rw [i2, List.length_cons, show c + 1 + ys.length + 1 = c + (ys.length + 1) + 1 by omega]

/-- A sequence that is under way was not started in the cycle before the state was entered. -/
theorem gap_of_time {s : QM} {c : Nat} (y : QCycle) (h : TimeInv s c) (hc : c + 1 < 2 ^ 32) (hy : y.inp.cc = BitVec.ofNat 32 (c + 1))
    (hf : s.fn ≠ 0) : y.inp.cc - s.entry > 1 := by
  have hn : y.inp.cc.toNat = c + 1 := by rw [hy, BitVec.toNat_ofNat]; exact Nat.mod_eq_of_lt hc
  have h2 := h.2 hf
  show (1 : U32) < _
  rw [BitVec.lt_def, BitVec.toNat_sub_of_le (by show _ ≤ _; rw [BitVec.le_def, hn]; omega), hn]
  show 1 < _
  omega

theorem last_send {n : Nat} (ys : List QCycle) (y : QCycle) : ∀ (s : QM) (o : Sender) (cc : U32), SendInv n s o cc →
    DisciplinedRadio s (ys ++ [y]) → RadioTicks cc (ys ++ [y]) →
    ∃ cc' o', SendInv n (s.run ys) o' cc' ∧ y.inp.cc = cc' + 1 ∧ DisciplinedStep (s.run ys) y := by
  induction ys with
  | nil => intro s o cc h hd ht; exact ⟨cc, o, h, ht.1, hd.1⟩
  | cons z ys ih => intro s o cc h hd ht; exact ih _ _ _ (step_send z h hd.1 ht.1) hd.2 ht.2

/-- When the first command of a writing sequence is issued, a message has been set. -/
theorem first_length {n : Nat} {s : QM} {o : Sender} {cc : U32} (y : QCycle) (h : SendInv n s o cc) (hc : y.inp.cc = cc + 1)
    (hd : DisciplinedStep s y) {r : Int} (hcall : s.call y = some (.sbdwb1, r)) : ((s.before y).prepareWrite y.inp).moLen = 70 := by
  have hcall' : ((s.before y).execute y.inp).2 = some (.sbdwb1, r) := hcall
  by_cases hw : (s.before y).state = Radio.write
  · have hq := call_write _ _ hw hcall'
    rcases before_send y h hd with g | g
    · rw [g] at hw; exact absurd hw (by decide)
    · obtain ⟨b, p, l, m, hp⟩ := prepareWrite_frame (s.before y) y.inp
      have h0 : (s.before y).fn = 0 := by
        rw [hp] at hq
        rcases dispatchSbdwb_spec { s.before y with buf := b, moPtr := p, moLen := l, moIdx := m } y.inp.port with
          ⟨r, c, f, l, he, hfe, hc⟩ | ⟨he, h4⟩ <;> rw [he] at hq <;> cases hq
        have := protocol_nodup _ _ _ hc
        exact this.symm
      rcases g.cases with k | k | k | k | k | k | k
      · rw [k.1] at hw; exact absurd hw (by decide)
      · rw [k.1] at hw; exact absurd hw (by decide)
      · rw [k.1] at hw; exact absurd hw (by decide)
      · apply write_length
        unfold justEntered
        rw [h0, hc, k.2.2.1, BitVec.add_comm, BitVec.add_sub_cancel]
        decide
      · exact absurd h0 k.2.1
      · rw [k.1] at hw; exact absurd hw (by decide)
      · rw [k.1] at hw; exact absurd hw (by decide)
  · exfalso
    by_cases hwk : RadioWorking (s.before y).state
    · rcases hwk with g | g | g | g
      · have := call_config _ _ g hcall'
        rcases qctConfig_spec (s.before y) y.inp.port with ⟨r, c, f, he, hfe, hc⟩ | ⟨he, h4⟩ <;> rw [he] at this <;> cases this
        have := List.mem_of_getElem? hc
        revert this; decide
      · exact hw g
      · have := call_trans _ _ g hcall'
        rcases dispatchSbdix_spec (s.before y) y.inp.port with ⟨r, c, f, d, he, hfe, hc⟩ | ⟨he, h4⟩ <;> rw [he] at this <;> cases this
        have := List.mem_of_getElem? hc
        revert this; decide
      · have := call_read _ _ g hcall'
        rcases dispatchSbdrb_spec (s.before y) y.inp.port with ⟨r, c, f, d, he, hfe, hc⟩ | ⟨he, h4⟩ <;> rw [he] at this <;> cases this
        have := List.mem_of_getElem? hc
        revert this; decide
    · by_cases hd : (s.before y).state = Radio.disabled
      · rw [execute_disabled _ _ hd] at hcall'; cases hcall'
      · rw [execute_idle _ _ hwk hd] at hcall'; cases hcall'

end QM

/-- **C71.** Whenever the radio manager issues a modem command, in any history since it was constructed, the command counts as accepted
(result code `OK`) exactly when the modem's answer is the expected one and everything could be written to the modem. -/
theorem C71_accepted (n : Nat) (ys : List QCycle) (y : QCycle) (hd : DisciplinedRadio (QM.init n) (ys ++ [y]))
    (ht : RadioTicks 0 (ys ++ [y])) (c : Cmd) (r : Int) (hc : ((QM.init n).run ys).call y = some (c, r)) :
    r = QCode.ok ↔ AcceptedBy y.inp.port ((QM.init n).run ys) c := by
  have key := QM.accepted_iff (((QM.init n).run ys).before y) y.inp hc ?_
  · rw [key]
    cases c <;> first | exact Iff.rfl | skip
    show ((((QM.init n).run ys).before y).dev.getSbdrb y.inp.port).1 = _ ↔ _
    rw [(QM.before_comms _ y).2.2]
    exact Iff.rfl
  · rintro rfl
    obtain ⟨cc, o, hi, hcc, hst⟩ := QM.last_send ys y _ _ _ (QM.init_send n) hd ht
    exact QM.first_length y hi hcc hst hc

/-- **C71.** The published error code: after a cycle in a working state it is 1 if the state has run out of cycles, the code of the modem
command just issued if that was neither accepted nor waiting for an answer, and otherwise what it was. In all other states it stays. -/
theorem C71_error_code (n : Nat) (ys : List QCycle) (y : QCycle) (h : DisciplinedRadio (QM.init n) ys)
    (hy : DisciplinedStep ((QM.init n).run ys) y) :
    let s := (QM.init n).run ys
    if RadioWorking (s.before y).state then
      if y.inp.cc - s.entry > stateLimit (s.before y) then (s.cycle y).err = 1
      else ∃ c r, s.call y = some (c, r) ∧ (s.cycle y).err = if r = 0 ∨ r = 7 then s.err else r
    else (s.cycle y).err = s.err := by
  intro s
  have e := QM.exec_err (s.before y) y.inp
  rw [QM.before_entry, (QM.before_comms s y).2.1] at e
  split
  · rename_i hw
    rw [if_pos hw] at e
    split
    · rename_i hl; rw [if_pos hl] at e; exact e
    · rename_i hl
      rw [if_neg hl] at e
      obtain ⟨c, r, hc, -⟩ := C43_one_call n ys y h hy hw (BitVec.not_lt.1 hl)
      refine ⟨c, r, hc, ?_⟩
      rw [show ((s.before y).execute y.inp).2 = some (c, r) from hc] at e
      exact e
  · rename_i hw
    rw [if_neg hw] at e
    exact e

/-- **C72.** The time of the last contact is set in exactly those cycles in which the modem gave a complete session status that says the
session succeeded (a status of at most 4), and then to the current cycle; whatever other tasks and ground do to the radio. -/
theorem C72_contact (n : Nat) (ys : List QCycle) (y : QCycle) (ht : RadioTicks 0 (ys ++ [y])) (hl : ys.length + 1 < 2 ^ 32) :
    let s := (QM.init n).run ys
    (s.cycle y).lastComms =
      if s.call y = some (.getSbdix, QCode.ok) ∧ y.inp.port.scan.getD 0 0 ≤ 4 then y.inp.cc else s.lastComms := by
  intro s
  obtain ⟨t1, t2⟩ := QM.ticks_append ys y 0 ht
  rw [Nat.zero_add] at t2
  have hi := QM.run_time ys (QM.init n) 0 ⟨Nat.le_refl _, fun g => absurd rfl g⟩ (by omega) t1
  rw [Nat.zero_add] at hi
  have e := QM.exec_comms (s.before y) y.inp (by
    rw [QM.before_fn, QM.before_entry]
    exact fun g => QM.gap_of_time y hi hl t2 g)
  split
  · rename_i g; exact e.1 g
  · rename_i g; exact (e.2 g).trans (QM.before_comms s y).1

/-- The theorems apply to a history in which the modem answers every command and delivers two packets; the second contact is recorded. -/
example : ∃ y ys, DisciplinedRadio (QM.init 200) (ys ++ [y]) ∧ RadioTicks 0 (ys ++ [y]) ∧ ys.length + 1 < 2 ^ 32
    ∧ ((QM.init 200).run ys).call y = some (.getSbdix, QCode.ok) ∧ y.inp.port.scan.getD 0 0 ≤ 4
    ∧ 0 < ((QM.init 200).run ys).lastComms.toNat ∧ ((QM.init 200).run ys).lastComms ≠ y.inp.cc := by
  refine ⟨QDemo.lastOf 200 7 2, QDemo.upTo 200 7 2, QDemo.disciplinedB_spec _ _ ?_, ?_, ?_, ?_, ?_, ?_, ?_⟩
  · decide +kernel
  · have : QDemo.upTo 200 7 2 ++ [QDemo.lastOf 200 7 2] = QDemo.deliveries 200 7 2 := rfl
    rw [this]
    repeat' first | exact trivial | refine ⟨by decide +kernel, ?_⟩
  all_goals decide +kernel

end PAN
