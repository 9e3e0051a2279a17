import Verif.Model.Quake
/-!
C42 (the radio manager never hangs) and C43 (modem commands in cmdSequence order).
-/
namespace PAN

namespace Spec

/-- The cycle count advances by one per control cycle; `cc` is the count of the cycle before the first. -/
def RadioTicks : U32 → List QCycle → Prop
  | _, [] => True
  | cc, y :: ys => y.inp.cc = cc + 1 ∧ RadioTicks (cc + 1) ys

/-- The radio works through a command sequence of the modem in these states. -/
def RadioWorking (st : U8) : Prop := st = Radio.config ∨ st = Radio.write ∨ st = Radio.transceive ∨ st = Radio.read

instance (st : U8) : Decidable (RadioWorking st) := inferInstanceAs (Decidable (_ ∨ _))

/-- The maximum number of cycles in a state: 5 for configuring, writing and reading; the commanded maxima for transceiving and
waiting (a state number without meaning is treated as waiting). -/
def stateLimit (s : QM) : U32 :=
  if s.state = Radio.config ∨ s.state = Radio.write ∨ s.state = Radio.read then 5
  else if s.state = Radio.transceive then s.maxTrans
  else s.maxWait

/-- The documented command sequence of each radio state. -/
def cmdSequence (st : U8) : List Cmd :=
  if st = Radio.config then [.config1, .config2, .config3, .getConfig]
  else if st = Radio.write then [.sbdwb1, .sbdwb2, .getSbdwb]
  else if st = Radio.transceive then [.sbdix1, .getSbdix]
  else if st = Radio.read then [.sbdrb1, .getSbdrb]
  else []

/-- The command after `c` in the sequence of a state; after the last one the sequence starts again. -/
def nextCmd (st : U8) (c : Cmd) : Option Cmd :=
  (cmdSequence st)[((cmdSequence st).idxOf c + 1) % (cmdSequence st).length]?

/-- What other tasks do to the radio state in a cycle: nothing, or switch the radio off, or switch a radio that is off on to
configuring. -/
def DisciplinedStep (s : QM) (y : QCycle) : Prop :=
  (s.before y).state = s.state ∨ (s.before y).state = Radio.disabled ∨
    ((s.before y).state = Radio.config ∧ s.state = Radio.disabled)

/-- The same for a history. -/
def DisciplinedRadio : QM → List QCycle → Prop
  | _, [] => True
  | s, y :: ys => DisciplinedStep s y ∧ DisciplinedRadio (s.cycle y) ys

end Spec
open Spec

namespace QM

theorem write_frame (ws : List QWrite) : ∀ s : QM, ∃ st w t, s.writes ws = { s with state := st, maxWait := w, maxTrans := t } := by
  induction ws with
  | nil => intro s; exact ⟨s.state, s.maxWait, s.maxTrans, rfl⟩
  | cons w ws ih =>
    intro s
    obtain ⟨a, b, c, h⟩ := ih (s.write w)
    refine ⟨a, b, c, ?_⟩
    show (s.write w).writes ws = _
    rw [h]
    cases w <;> rfl

theorem before_frame (s : QM) (y : QCycle) :
    ∃ st w t, s.before y = { s with mtLen := 0, state := st, maxWait := w, maxTrans := t } := by
  obtain ⟨a, b, c, h⟩ := write_frame y.writes { s with mtLen := 0 }
  exact ⟨a, b, c, h⟩

theorem advance_frame (s : QM) (n : Nat) (r : Int) :
    s.advance n r = { s with fn := if r = QCode.ok then (s.fn + 1) % n else s.fn } := by
  unfold advance
  split <;> rfl

theorem qctConfig_spec (s : QM) (p : ModemIn) :
    (∃ r c f, s.qctConfig p = (r, { s with fn := f }, some (c, r)) ∧ f = (if r = QCode.ok then (s.fn + 1) % 4 else s.fn) ∧
      (cmdSequence Radio.config)[s.fn]? = some c) ∨ (s.qctConfig p = (QCode.wrongFnOrder, s, none) ∧ 4 ≤ s.fn) := by
  unfold qctConfig
  split
  · rename_i h; simp only [advance_frame]; exact Or.inl ⟨_, _, _, rfl, rfl, by rw [h]; rfl⟩
  split
  · rename_i h; simp only [advance_frame]; exact Or.inl ⟨_, _, _, rfl, rfl, by rw [h]; rfl⟩
  split
  · rename_i h; simp only [advance_frame]; exact Or.inl ⟨_, _, _, rfl, rfl, by rw [h]; rfl⟩
  split
  · rename_i h; simp only [advance_frame]; exact Or.inl ⟨_, _, _, rfl, rfl, by rw [h]; rfl⟩
  · exact Or.inr ⟨rfl, by omega⟩

theorem dispatchSbdwb_spec (s : QM) (p : ModemIn) :
    (∃ r c f l, s.dispatchSbdwb p = (r, { s with fn := f, loaded := l }, some (c, r)) ∧ f = (if r = QCode.ok then (s.fn + 1) % 3 else s.fn) ∧
      (cmdSequence Radio.write)[s.fn]? = some c) ∨ (s.dispatchSbdwb p = (QCode.wrongFnOrder, s, none) ∧ 3 ≤ s.fn) := by
  unfold dispatchSbdwb
  split
  · rename_i h; simp only [advance_frame]; exact Or.inl ⟨_, _, _, s.loaded, rfl, rfl, by rw [h]; rfl⟩
  split
  · rename_i h; simp only [advance_frame]; exact Or.inl ⟨_, _, _, _, rfl, rfl, by rw [h]; rfl⟩
  split
  · rename_i h; simp only [advance_frame]; exact Or.inl ⟨_, _, _, s.loaded, rfl, rfl, by rw [h]; rfl⟩
  · exact Or.inr ⟨rfl, by omega⟩

theorem dispatchSbdix_spec (s : QM) (p : ModemIn) :
    (∃ r c f d, s.dispatchSbdix p = (r, { s with fn := f, dev := d }, some (c, r)) ∧ f = (if r = QCode.ok then (s.fn + 1) % 2 else s.fn) ∧
      (cmdSequence Radio.transceive)[s.fn]? = some c) ∨ (s.dispatchSbdix p = (QCode.wrongFnOrder, s, none) ∧ 2 ≤ s.fn) := by
  unfold dispatchSbdix
  split
  · rename_i h; simp only [advance_frame]; exact Or.inl ⟨_, _, _, _, rfl, rfl, by rw [h]; rfl⟩
  split
  · rename_i h; simp only [advance_frame]; exact Or.inl ⟨_, _, _, _, rfl, rfl, by rw [h]; rfl⟩
  · exact Or.inr ⟨rfl, by omega⟩

theorem dispatchSbdrb_spec (s : QM) (p : ModemIn) :
    (∃ r c f d, s.dispatchSbdrb p = (r, { s with fn := f, dev := d }, some (c, r)) ∧ f = (if r = QCode.ok then (s.fn + 1) % 2 else s.fn) ∧
      (cmdSequence Radio.read)[s.fn]? = some c) ∨ (s.dispatchSbdrb p = (QCode.wrongFnOrder, s, none) ∧ 2 ≤ s.fn) := by
  unfold dispatchSbdrb
  split
  · rename_i h; simp only [advance_frame]; exact Or.inl ⟨_, _, _, _, rfl, rfl, by rw [h]; rfl⟩
  split
  · rename_i h; simp only [advance_frame]; exact Or.inl ⟨_, _, _, _, rfl, rfl, by rw [h]; rfl⟩
  · exact Or.inr ⟨rfl, by omega⟩

theorem prepareWrite_frame (s : QM) (i : QIn) :
    ∃ b p l m, s.prepareWrite i = { s with buf := b, moPtr := p, moLen := l, moIdx := m } := by
  unfold prepareWrite
  split
  · split <;> exact ⟨_, _, _, _, rfl⟩
  · exact ⟨s.buf, s.moPtr, s.moLen, s.moIdx, rfl⟩

/-- What one execution in a working state amounts to. `n` is the number of commands of the sequence, `f` the step before and `f'`
after. -/
structure Outcome (s a : QM) (cc : U32) (call : QCall) (next : U8 → Prop) (n : Nat) : Prop where
  /-- Timed out, no call. -/
  cases : (cc - s.entry > stateLimit s ∧ call = none ∧ a.state = Radio.wait ∧ a.unexpected = true ∧ a.fn = 0 ∧ a.entry = cc) ∨
    (cc - s.entry ≤ stateLimit s ∧ n ≤ s.fn ∧ call = none ∧ a.state = Radio.wait ∧ a.unexpected = true ∧ a.fn = 0 ∧ a.entry = cc) ∨
    (cc - s.entry ≤ stateLimit s ∧ ∃ c r, call = some (c, r) ∧ (cmdSequence s.state)[s.fn]? = some c ∧
      ((QM.isError r = true ∧ a.state = Radio.wait ∧ a.unexpected = true ∧ a.fn = 0 ∧ a.entry = cc) ∨
       (QM.isError r = false ∧ a.unexpected = s.unexpected ∧
         ((a.state = s.state ∧ a.entry = s.entry ∧ a.fn = if r = QCode.ok then (s.fn + 1) % n else s.fn) ∨
          (next a.state ∧ a.entry = cc ∧ a.fn = 0 ∧ (if r = QCode.ok then (s.fn + 1) % n else s.fn) = 0 ∧ cc - s.entry > 1)))))
  /-- The limits are not touched. -/
  wait : a.maxWait = s.maxWait
  trans : a.maxTrans = s.maxTrans

theorem limit_config {s : QM} (h : s.state = Radio.config) : stateLimit s = 5 := by
  unfold stateLimit; rw [if_pos (Or.inl h)]

theorem limit_write {s : QM} (h : s.state = Radio.write) : stateLimit s = 5 := by
  unfold stateLimit; rw [if_pos (Or.inr (Or.inl h))]

theorem limit_read {s : QM} (h : s.state = Radio.read) : stateLimit s = 5 := by
  unfold stateLimit; rw [if_pos (Or.inr (Or.inr h))]

theorem limit_trans {s : QM} (h : s.state = Radio.transceive) : stateLimit s = s.maxTrans := by
  unfold stateLimit; rw [if_neg (by rw [h]; decide), if_pos h]

theorem le_of_noMore {s : QM} {cc m : U32} (h : ¬ s.noMoreCycles cc m = true) : cc - s.entry ≤ m := by
  unfold noMoreCycles at h
  simp only [decide_eq_true_eq, gt_iff_lt, BitVec.not_lt] at h
  exact h

theorem gt_of_noMore {s : QM} {cc m : U32} (h : s.noMoreCycles cc m = true) : cc - s.entry > m := of_decide_eq_true h

theorem execute_config (s : QM) (i : QIn) (h : s.state = Radio.config) : s.execute i = s.dispatchConfig i := by
  unfold execute; rw [h]; rfl

theorem execute_write (s : QM) (i : QIn) (h : s.state = Radio.write) : s.execute i = s.dispatchWrite i := by
  unfold execute; rw [h]; rfl

theorem execute_trans (s : QM) (i : QIn) (h : s.state = Radio.transceive) : s.execute i = s.dispatchTransceive i := by
  unfold execute; rw [h]; rfl

theorem execute_read (s : QM) (i : QIn) (h : s.state = Radio.read) : s.execute i = s.dispatchRead i := by
  unfold execute; rw [h]; rfl

theorem execute_wait (s : QM) (i : QIn) (h : s.state = Radio.wait) : s.execute i = (s.dispatchWait i, none) := by
  unfold execute; rw [h]; rfl

theorem execute_disabled (s : QM) (i : QIn) (h : s.state = Radio.disabled) : s.execute i = (s.goto i.cc Radio.disabled, none) := by
  unfold execute; rw [h]; rfl

theorem finished_iff {s : QM} {cc : U32} : s.hasFinished cc = true ↔ s.fn = 0 ∧ cc - s.entry > 1 := by
  unfold hasFinished; simp only [Bool.and_eq_true, decide_eq_true_eq]

theorem outcome_config (s : QM) (i : QIn) (h : s.state = Radio.config) :
    Outcome s (s.execute i).1 i.cc (s.execute i).2 (· = Radio.write) 4 := by
  rw [execute_config s i h]
  unfold dispatchConfig
  split
  · rename_i hn
    exact ⟨Or.inl ⟨by rw [limit_config h]; exact gt_of_noMore hn, rfl, rfl, rfl, rfl, rfl⟩, rfl, rfl⟩
  · rename_i hn
    have hle : i.cc - s.entry ≤ stateLimit s := by rw [limit_config h]; exact le_of_noMore hn
    rcases qctConfig_spec s i.port with ⟨r, c, f, he, hfe, hc⟩ | ⟨he, h4⟩
    · rw [he]
      dsimp only
      split
      · rename_i hr
        exact ⟨Or.inr (Or.inr ⟨hle, c, r, rfl, by rw [h]; exact hc, Or.inl ⟨hr, rfl, rfl, rfl, rfl⟩⟩), rfl, rfl⟩
      · rename_i hr
        have hr := Bool.eq_false_iff.2 hr
        split
        · rename_i hf
          obtain ⟨hf1, hf2⟩ := finished_iff.1 hf
          exact ⟨Or.inr (Or.inr ⟨hle, c, r, rfl, by rw [h]; exact hc, Or.inr ⟨hr, rfl, Or.inr ⟨rfl, rfl, rfl, hfe.symm.trans hf1, hf2⟩⟩⟩), rfl, rfl⟩
        · exact ⟨Or.inr (Or.inr ⟨hle, c, r, rfl, by rw [h]; exact hc, Or.inr ⟨hr, rfl, Or.inl ⟨rfl, rfl, hfe⟩⟩⟩), rfl, rfl⟩
    · rw [he]
      dsimp only
      rw [if_pos (by decide)]
      exact ⟨Or.inr (Or.inl ⟨hle, h4, rfl, rfl, rfl, rfl, rfl⟩), rfl, rfl⟩

theorem outcome_write (s : QM) (i : QIn) (h : s.state = Radio.write) :
    Outcome s (s.execute i).1 i.cc (s.execute i).2 (· = Radio.transceive) 3 := by
  rw [execute_write s i h]
  unfold dispatchWrite
  split
  · rename_i hn
    exact ⟨Or.inl ⟨by rw [limit_write h]; exact gt_of_noMore hn, rfl, rfl, rfl, rfl, rfl⟩, rfl, rfl⟩
  · rename_i hn
    have hle : i.cc - s.entry ≤ stateLimit s := by rw [limit_write h]; exact le_of_noMore hn
    obtain ⟨b, p, l, m, hp⟩ := prepareWrite_frame s i
    rw [hp]
    rcases dispatchSbdwb_spec { s with buf := b, moPtr := p, moLen := l, moIdx := m } i.port with ⟨r, c, f, l', he, hfe, hc⟩ | ⟨he, h4⟩
    · rw [he]
      dsimp only
      split
      · rename_i hr
        exact ⟨Or.inr (Or.inr ⟨hle, c, r, rfl, by rw [h]; exact hc, Or.inl ⟨hr, rfl, rfl, rfl, rfl⟩⟩), rfl, rfl⟩
      · rename_i hr
        have hr := Bool.eq_false_iff.2 hr
        split
        · rename_i hf
          obtain ⟨hf1, hf2⟩ := finished_iff.1 hf
          exact ⟨Or.inr (Or.inr ⟨hle, c, r, rfl, by rw [h]; exact hc, Or.inr ⟨hr, rfl, Or.inr ⟨rfl, rfl, rfl, hfe.symm.trans hf1, hf2⟩⟩⟩), rfl, rfl⟩
        · exact ⟨Or.inr (Or.inr ⟨hle, c, r, rfl, by rw [h]; exact hc, Or.inr ⟨hr, rfl, Or.inl ⟨rfl, rfl, hfe⟩⟩⟩), rfl, rfl⟩
    · rw [he]
      dsimp only
      rw [if_pos (by decide)]
      exact ⟨Or.inr (Or.inl ⟨hle, h4, rfl, rfl, rfl, rfl, rfl⟩), rfl, rfl⟩

theorem outcome_read (s : QM) (i : QIn) (h : s.state = Radio.read) :
    Outcome s (s.execute i).1 i.cc (s.execute i).2 (· = Radio.write) 2 := by
  rw [execute_read s i h]
  unfold dispatchRead
  split
  · rename_i hn
    exact ⟨Or.inl ⟨by rw [limit_read h]; exact gt_of_noMore hn, rfl, rfl, rfl, rfl, rfl⟩, rfl, rfl⟩
  · rename_i hn
    have hle : i.cc - s.entry ≤ stateLimit s := by rw [limit_read h]; exact le_of_noMore hn
    rcases dispatchSbdrb_spec s i.port with ⟨r, c, f, d, he, hfe, hc⟩ | ⟨he, h4⟩
    · rw [he]
      dsimp only
      split
      · rename_i hr
        exact ⟨Or.inr (Or.inr ⟨hle, c, r, rfl, by rw [h]; exact hc, Or.inl ⟨hr, rfl, rfl, rfl, rfl⟩⟩), rfl, rfl⟩
      · rename_i hr
        have hr := Bool.eq_false_iff.2 hr
        split
        · rename_i hf
          obtain ⟨hf1, hf2⟩ := finished_iff.1 hf
          exact ⟨Or.inr (Or.inr ⟨hle, c, r, rfl, by rw [h]; exact hc, Or.inr ⟨hr, rfl, Or.inr ⟨rfl, rfl, rfl, hfe.symm.trans hf1, hf2⟩⟩⟩), rfl, rfl⟩
        · exact ⟨Or.inr (Or.inr ⟨hle, c, r, rfl, by rw [h]; exact hc, Or.inr ⟨hr, rfl, Or.inl ⟨rfl, rfl, hfe⟩⟩⟩), rfl, rfl⟩
    · rw [he]
      dsimp only
      rw [if_pos (by decide)]
      exact ⟨Or.inr (Or.inl ⟨hle, h4, rfl, rfl, rfl, rfl, rfl⟩), rfl, rfl⟩

theorem outcome_trans (s : QM) (i : QIn) (h : s.state = Radio.transceive) :
    Outcome s (s.execute i).1 i.cc (s.execute i).2 (fun st => st = Radio.read ∨ st = Radio.write) 2 := by
  rw [execute_trans s i h]
  unfold dispatchTransceive
  split
  · rename_i hn
    exact ⟨Or.inl ⟨by rw [limit_trans h]; exact gt_of_noMore hn, rfl, rfl, rfl, rfl, rfl⟩, rfl, rfl⟩
  · rename_i hn
    have hle : i.cc - s.entry ≤ stateLimit s := by rw [limit_trans h]; exact le_of_noMore hn
    rcases dispatchSbdix_spec s i.port with ⟨r, c, f, d, he, hfe, hc⟩ | ⟨he, h4⟩
    · rw [he]
      dsimp only
      split
      · rename_i hr
        exact ⟨Or.inr (Or.inr ⟨hle, c, r, rfl, by rw [h]; exact hc, Or.inl ⟨hr, rfl, rfl, rfl, rfl⟩⟩), rfl, rfl⟩
      · rename_i hr
        have hr := Bool.eq_false_iff.2 hr
        split
        · rename_i hf
          obtain ⟨hf1, hf2⟩ := finished_iff.1 hf
          split
          · unfold handleNoComms
            split
            · exact ⟨Or.inr (Or.inr ⟨hle, c, r, rfl, by rw [h]; exact hc, Or.inr ⟨hr, rfl, Or.inl ⟨rfl, rfl, hfe⟩⟩⟩), rfl, rfl⟩
            · exact ⟨Or.inr (Or.inr ⟨hle, c, r, rfl, by rw [h]; exact hc, Or.inr ⟨hr, rfl, Or.inr ⟨Or.inr rfl, rfl, rfl, hfe.symm.trans hf1, hf2⟩⟩⟩), rfl, rfl⟩
          · split
            · exact ⟨Or.inr (Or.inr ⟨hle, c, r, rfl, by rw [h]; exact hc, Or.inr ⟨hr, rfl, Or.inr ⟨Or.inl rfl, rfl, rfl, hfe.symm.trans hf1, hf2⟩⟩⟩), rfl, rfl⟩
            · exact ⟨Or.inr (Or.inr ⟨hle, c, r, rfl, by rw [h]; exact hc, Or.inr ⟨hr, rfl, Or.inr ⟨Or.inr rfl, rfl, rfl, hfe.symm.trans hf1, hf2⟩⟩⟩), rfl, rfl⟩
        · exact ⟨Or.inr (Or.inr ⟨hle, c, r, rfl, by rw [h]; exact hc, Or.inr ⟨hr, rfl, Or.inl ⟨rfl, rfl, hfe⟩⟩⟩), rfl, rfl⟩
    · rw [he]
      dsimp only
      rw [if_pos (by decide)]
      exact ⟨Or.inr (Or.inl ⟨hle, h4, rfl, rfl, rfl, rfl, rfl⟩), rfl, rfl⟩

/-- The states that may follow a working state when its sequence is complete. -/
def nextOf (st : U8) (st' : U8) : Prop :=
  (st = Radio.config ∧ st' = Radio.write) ∨ (st = Radio.write ∧ st' = Radio.transceive) ∨
  (st = Radio.transceive ∧ (st' = Radio.read ∨ st' = Radio.write)) ∨ (st = Radio.read ∧ st' = Radio.write)

theorem Outcome.mono {s a : QM} {cc : U32} {call : QCall} {p q : U8 → Prop} {n : Nat} (h : Outcome s a cc call p n) (hpq : ∀ x, p x → q x) :
    Outcome s a cc call q n := by
  refine ⟨?_, h.wait, h.trans⟩
  rcases h.cases with g | g | ⟨g0, c, r, g1, g2, g3 | ⟨g3, g5, g4 | ⟨g6, g4⟩⟩⟩
  · exact Or.inl g
  · exact Or.inr (Or.inl g)
  · exact Or.inr (Or.inr ⟨g0, c, r, g1, g2, Or.inl g3⟩)
  · exact Or.inr (Or.inr ⟨g0, c, r, g1, g2, Or.inr ⟨g3, g5, Or.inl g4⟩⟩)
  · exact Or.inr (Or.inr ⟨g0, c, r, g1, g2, Or.inr ⟨g3, g5, Or.inr ⟨hpq _ g6, g4⟩⟩⟩)

theorem outcome (s : QM) (i : QIn) (h : RadioWorking s.state) :
    Outcome s (s.execute i).1 i.cc (s.execute i).2 (nextOf s.state) (cmdSequence s.state).length := by
  rcases h with h | h | h | h
  · have := outcome_config s i h
    rw [h]
    exact this.mono fun x hx => Or.inl ⟨rfl, hx⟩
  · have := outcome_write s i h
    rw [h]
    exact this.mono fun x hx => Or.inr (Or.inl ⟨rfl, hx⟩)
  · have := outcome_trans s i h
    rw [h]
    exact this.mono fun x hx => Or.inr (Or.inr (Or.inl ⟨rfl, hx⟩))
  · have := outcome_read s i h
    rw [h]
    exact this.mono fun x hx => Or.inr (Or.inr (Or.inr ⟨rfl, hx⟩))

theorem execute_idle (s : QM) (i : QIn) (h : ¬ RadioWorking s.state) (h' : s.state ≠ Radio.disabled) :
    s.execute i = ({ s with unexpected := if s.state = Radio.wait then s.unexpected else true }.dispatchWait i, none) := by
  by_cases hw : s.state = Radio.wait
  · rw [execute_wait s i hw, if_pos hw]
  · rw [if_neg hw]
    unfold execute
    rw [if_neg h', if_neg fun g => h (Or.inl g), if_neg hw, if_neg fun g => h (Or.inr (Or.inr (Or.inl g))),
      if_neg fun g => h (Or.inr (Or.inr (Or.inr g))), if_neg fun g => h (Or.inr (Or.inl g))]

theorem limit_idle {s : QM} (h : ¬ RadioWorking s.state) : stateLimit s = s.maxWait := by
  unfold stateLimit
  rw [if_neg (fun g => h (g.elim Or.inl fun g => g.elim (fun g => Or.inr (Or.inl g)) fun g => Or.inr (Or.inr (Or.inr g)))),
    if_neg fun g => h (Or.inr (Or.inr (Or.inl g)))]

theorem dispatchWait_cases (s : QM) (i : QIn) :
    (s.dispatchWait i = s ∧ (i.cc - s.entry ≤ s.maxWait ∨ i.powerCycle = true)) ∨
    (i.cc - s.entry > s.maxWait ∧ i.powerCycle = false ∧
      ((s.unexpected = true ∧ s.dispatchWait i = { s with unexpected := false }.goto i.cc Radio.config) ∨
       (s.unexpected = false ∧ s.dispatchWait i = { s with moIdx := 0 }.goto i.cc Radio.write))) := by
  unfold dispatchWait
  split
  · rename_i h
    refine Or.inl ⟨rfl, ?_⟩
    rw [Bool.or_eq_true] at h
    rcases h with h | h
    · refine Or.inl (le_of_noMore ?_)
      intro g
      rw [g] at h
      exact absurd h (by decide)
    · exact Or.inr h
  · rename_i h
    simp only [Bool.or_eq_true, not_or] at h
    have h1 : s.noMoreCycles i.cc s.maxWait = true := by
      cases g : s.noMoreCycles i.cc s.maxWait with
      | true => rfl
      | false => exact absurd (by rw [g]; rfl) h.1
    refine Or.inr ⟨gt_of_noMore h1, Bool.eq_false_iff.2 h.2, ?_⟩
    split
    · rename_i g; exact Or.inl ⟨g, rfl⟩
    · rename_i g; exact Or.inr ⟨Bool.eq_false_iff.2 g, rfl⟩

/-- Staying in a state other than disabled: the cycle stateLimit is not exceeded and the entry time and limits stay. -/
theorem stay (s : QM) (i : QIn) (h : s.state ≠ Radio.disabled) (hs : (s.execute i).1.state = s.state)
    (hp : ¬ RadioWorking s.state → i.powerCycle = false) :
    i.cc - s.entry ≤ stateLimit s ∧ (s.execute i).1.entry = s.entry ∧ stateLimit (s.execute i).1 = stateLimit s := by
  have hl : (s.execute i).1.maxWait = s.maxWait → (s.execute i).1.maxTrans = s.maxTrans → stateLimit (s.execute i).1 = stateLimit s := by
    intro h1 h2
    unfold stateLimit
    rw [hs, h1, h2]
  by_cases hw : RadioWorking s.state
  · have o := outcome s i hw
    have hne : s.state ≠ Radio.wait := by rcases hw with g | g | g | g <;> rw [g] <;> decide
    rcases o.cases with g | g | ⟨g0, c, r, g1, g2, g3 | ⟨g3, g5, g4 | ⟨g6, g4⟩⟩⟩
    · exact absurd (hs.symm.trans g.2.2.1) hne
    · exact absurd (hs.symm.trans g.2.2.2.1) hne
    · exact absurd (hs.symm.trans g3.2.1) hne
    · exact ⟨g0, g4.2.1, hl o.wait o.trans⟩
    · rw [hs] at g6
      rcases g6 with ⟨a, b⟩ | ⟨a, b⟩ | ⟨a, b | b⟩ | ⟨a, b⟩ <;> exact absurd (a.symm.trans b) (by decide)
  · rw [execute_idle s i hw h] at hs ⊢
    have hlw := limit_idle hw
    rcases dispatchWait_cases { s with unexpected := if s.state = Radio.wait then s.unexpected else true } i with
      ⟨g1, g2⟩ | ⟨g1, g2, ⟨_, g3⟩ | ⟨_, g3⟩⟩
    · refine ⟨?_, ?_, ?_⟩
      · rcases g2 with g2 | g2
        · rw [hlw]; exact g2
        · exact absurd (g2.symm.trans (hp hw)) (by decide)
      · show (QM.dispatchWait _ i).entry = _
        rw [g1]
      · show stateLimit (QM.dispatchWait _ i) = _
        rw [g1]
        rfl
    · replace hs : (QM.dispatchWait _ i).state = s.state := hs
      rw [g3] at hs
      exact absurd (Or.inl hs.symm) hw
    · replace hs : (QM.dispatchWait _ i).state = s.state := hs
      rw [g3] at hs
      exact absurd (Or.inr (Or.inl hs.symm)) hw

theorem cycle_quiet (s : QM) (y : QCycle) (h : y.writes = []) : s.before y = { s with mtLen := 0 } := by
  unfold before
  rw [h]
  rfl

theorem leaves (ys : List QCycle) : ∀ (s : QM) (cc : U32), s.state ≠ Radio.disabled → (stateLimit s).toNat + 1 < 2 ^ 32 → RadioTicks cc ys →
    (∀ y ∈ ys, y.writes = []) → (¬ RadioWorking s.state → ∀ y ∈ ys, y.inp.powerCycle = false) →
    (stateLimit s).toNat + 1 - (cc + 1 - s.entry).toNat + 1 ≤ ys.length →
    ∃ k, k ≤ (stateLimit s).toNat + 1 - (cc + 1 - s.entry).toNat + 1 ∧ (s.run (ys.take k)).state ≠ s.state := by
  induction ys with
  | nil => intro s cc _ _ _ _ _ h; exact absurd h (by simp)
  | cons y ys ih =>
    intro s cc hd hM ht hw hp hl
    by_cases hs : (s.cycle y).state = s.state
    · have hb := cycle_quiet s y (hw y List.mem_cons_self)
      have hcc : y.inp.cc = cc + 1 := ht.1
      have hst := stay (s.before y) y.inp (by rw [hb]; exact hd) (by show (s.cycle y).state = _; rw [hs, hb])
        (by intro g; rw [hb] at g; exact hp g y List.mem_cons_self)
      have e1 : (s.cycle y).entry = s.entry := by
        have := hst.2.1
        rw [hb] at this
        show ((s.before y).execute y.inp).1.entry = _
        rw [hb]
        exact this
      have e2 : stateLimit (s.cycle y) = stateLimit s := by
        have := hst.2.2
        rw [hb] at this
        show stateLimit ((s.before y).execute y.inp).1 = _
        rw [hb]
        exact this
      have e3 : cc + 1 - s.entry ≤ stateLimit s := by
        have := hst.1
        rw [hcc, hb] at this
        exact this
      have e4 : (cc + 1 + 1 - s.entry).toNat = (cc + 1 - s.entry).toNat + 1 := by
        have h1 : cc + 1 + 1 - s.entry = (cc + 1 - s.entry) + 1 := by
          rw [BitVec.sub_eq_add_neg, BitVec.sub_eq_add_neg, BitVec.add_assoc (cc + 1), BitVec.add_comm 1, ← BitVec.add_assoc]
        have h2 : (cc + 1 - s.entry).toNat ≤ (stateLimit s).toNat := BitVec.le_def.1 e3
        have h3 : (1 : U32).toNat = 1 := rfl
        rw [h1, BitVec.toNat_add, h3, Nat.mod_eq_of_lt (by omega)]
      have h2 : (cc + 1 - s.entry).toNat ≤ (stateLimit s).toNat := BitVec.le_def.1 e3
      obtain ⟨k, hk, hne⟩ := ih (s.cycle y) (cc + 1) (by rw [hs]; exact hd) (by rw [e2]; exact hM) ht.2
        (fun z hz => hw z (List.mem_cons_of_mem _ hz)) (by rw [hs]; exact fun g z hz => hp g z (List.mem_cons_of_mem _ hz))
        (by rw [e1, e2, e4]; simp only [List.length_cons] at hl; omega)
      refine ⟨k + 1, ?_, ?_⟩
      · rw [e1, e2, e4] at hk
        omega
      · rw [hs] at hne
        exact hne
    · exact ⟨1, by omega, hs⟩

end QM
open QM

/-- C42: whatever the modem answers, the radio manager leaves any state other than disabled after at most its maximum number of
cycles plus one, counted from the cycle in which it entered it, while ground leaves the maxima alone and no other task writes
the radio state. Waiting (and a state number without meaning) also lasts while the radio is being power-cycled. -/
theorem C42_leaves_state (s : QM) (cc : U32) (ys : List QCycle) (hd : s.state ≠ Radio.disabled) (he : s.entry = cc)
    (hM : (stateLimit s).toNat + 1 < 2 ^ 32) (ht : RadioTicks cc ys) (hw : ∀ y ∈ ys, y.writes = [])
    (hp : ¬ RadioWorking s.state → ∀ y ∈ ys, y.inp.powerCycle = false) (hl : (stateLimit s).toNat + 1 ≤ ys.length) :
    ∃ k, k ≤ (stateLimit s).toNat + 1 ∧ (s.run (ys.take k)).state ≠ s.state := by
  have h1 : (cc + 1 - s.entry).toNat = 1 := by
    rw [he, BitVec.add_comm, BitVec.add_sub_cancel]
    rfl
  obtain ⟨k, hk, hne⟩ := leaves ys s cc hd hM ht hw hp (by rw [h1]; omega)
  exact ⟨k, by rw [h1] at hk; omega, hne⟩

/-- C42, from any state of the manager at all (whatever its entry time): at most two cycles more than the maximum. -/
theorem C42_leaves_any_state (s : QM) (cc : U32) (ys : List QCycle) (hd : s.state ≠ Radio.disabled)
    (hM : (stateLimit s).toNat + 1 < 2 ^ 32) (ht : RadioTicks cc ys) (hw : ∀ y ∈ ys, y.writes = [])
    (hp : ¬ RadioWorking s.state → ∀ y ∈ ys, y.inp.powerCycle = false) (hl : (stateLimit s).toNat + 2 ≤ ys.length) :
    ∃ k, k ≤ (stateLimit s).toNat + 2 ∧ (s.run (ys.take k)).state ≠ s.state := by
  obtain ⟨k, hk, hne⟩ := leaves ys s cc hd hM ht hw hp (by omega)
  exact ⟨k, by omega, hne⟩

/-- C42: the moves of the radio manager. It leaves a working state for its documented successor, or, on an error or when it runs
out of cycles, for waiting with the error flag set; it leaves waiting for configuring if the error flag is set and for writing
if not. -/
theorem C42_moves (s : QM) (i : QIn) (hd : s.state ≠ Radio.disabled) (hne : (s.execute i).1.state ≠ s.state) :
    (RadioWorking s.state ∧ (s.execute i).1.state = Radio.wait ∧ (s.execute i).1.unexpected = true) ∨
    (s.state = Radio.config ∧ (s.execute i).1.state = Radio.write) ∨
    (s.state = Radio.write ∧ (s.execute i).1.state = Radio.transceive) ∨
    (s.state = Radio.transceive ∧ (s.execute i).1.state = Radio.read) ∨
    (s.state = Radio.transceive ∧ (s.execute i).1.state = Radio.write) ∨
    (s.state = Radio.read ∧ (s.execute i).1.state = Radio.write) ∨
    (s.state = Radio.wait ∧ s.unexpected = true ∧ (s.execute i).1.state = Radio.config) ∨
    (s.state = Radio.wait ∧ s.unexpected = false ∧ (s.execute i).1.state = Radio.write) ∨
    (5 < s.state.toNat ∧ (s.execute i).1.state = Radio.config) := by
  by_cases hw : RadioWorking s.state
  · have o := outcome s i hw
    rcases o.cases with g | g | ⟨g0, c, r, g1, g2, g3 | ⟨g3, g5, g4 | ⟨g6, g4⟩⟩⟩
    · exact Or.inl ⟨hw, g.2.2.1, g.2.2.2.1⟩
    · exact Or.inl ⟨hw, g.2.2.2.1, g.2.2.2.2.1⟩
    · exact Or.inl ⟨hw, g3.2.1, g3.2.2.1⟩
    · exact absurd g4.1 hne
    · rcases g6 with g | g | ⟨g, g' | g'⟩ | g
      · exact Or.inr (Or.inl g)
      · exact Or.inr (Or.inr (Or.inl g))
      · exact Or.inr (Or.inr (Or.inr (Or.inl ⟨g, g'⟩)))
      · exact Or.inr (Or.inr (Or.inr (Or.inr (Or.inl ⟨g, g'⟩))))
      · exact Or.inr (Or.inr (Or.inr (Or.inr (Or.inr (Or.inl g)))))
  · rw [execute_idle s i hw hd] at hne ⊢
    rcases dispatchWait_cases { s with unexpected := if s.state = Radio.wait then s.unexpected else true } i with
      ⟨g1, g2⟩ | ⟨g1, g2, ⟨g4, g3⟩ | ⟨g4, g3⟩⟩
    · replace hne : (QM.dispatchWait _ i).state ≠ s.state := hne
      rw [g1] at hne
      exact absurd rfl hne
    · refine Or.inr (Or.inr (Or.inr (Or.inr (Or.inr (Or.inr ?_)))))
      have hst : (QM.dispatchWait { s with unexpected := if s.state = Radio.wait then s.unexpected else true } i).state = Radio.config := by
        rw [g3]; rfl
      by_cases hwt : s.state = Radio.wait
      · dsimp only at g4
        rw [if_pos hwt] at g4
        exact Or.inl ⟨hwt, g4, hst⟩
      · refine Or.inr (Or.inr ⟨?_, hst⟩)
        apply Classical.byContradiction
        intro hlt
        have : ∀ x : U8, ¬ 5 < x.toNat → x = Radio.wait ∨ RadioWorking x ∨ x = Radio.disabled := by decide +kernel
        rcases this _ hlt with h | h | h
        · exact hwt h
        · exact hw h
        · exact hd h
    · refine Or.inr (Or.inr (Or.inr (Or.inr (Or.inr (Or.inr (Or.inr (Or.inl ?_)))))))
      have hst : (QM.dispatchWait { s with unexpected := if s.state = Radio.wait then s.unexpected else true } i).state = Radio.write := by
        rw [g3]; rfl
      by_cases hwt : s.state = Radio.wait
      · dsimp only at g4
        rw [if_pos hwt] at g4
        exact ⟨hwt, g4, hst⟩
      · dsimp only at g4
        rw [if_neg hwt] at g4
        exact absurd g4 (by decide)

/-- C42: after an error the manager always gets back to configuring: from waiting with the error flag set, within the waiting time
plus one cycle. -/
theorem C42_recovers (s : QM) (cc : U32) (ys : List QCycle) (hs : s.state = Radio.wait) (hu : s.unexpected = true) (he : s.entry = cc)
    (hM : s.maxWait.toNat + 1 < 2 ^ 32) (ht : RadioTicks cc ys) (hw : ∀ y ∈ ys, y.writes = [])
    (hp : ∀ y ∈ ys, y.inp.powerCycle = false) (hl : s.maxWait.toNat + 1 ≤ ys.length) :
    ∃ k, k ≤ s.maxWait.toNat + 1 ∧ (s.run (ys.take k)).state = Radio.config := by
  have hnw : ¬ RadioWorking s.state := by rw [hs]; decide
  have hlim := limit_idle hnw
  obtain ⟨k, hk, hne⟩ := C42_leaves_state s cc ys (by rw [hs]; decide) he (by rw [hlim]; exact hM) ht hw (fun _ => hp)
    (by rw [hlim]; exact hl)
  rw [hlim] at hk
  suffices ∀ (k : Nat) (ys : List QCycle) (s : QM), s.state = Radio.wait → s.unexpected = true → (∀ y ∈ ys, y.writes = []) →
      (s.run (ys.take k)).state ≠ Radio.wait → ∃ j, j ≤ k ∧ (s.run (ys.take j)).state = Radio.config by
    obtain ⟨j, hj, hc⟩ := this k ys s hs hu hw (by rw [hs] at hne; exact hne)
    exact ⟨j, Nat.le_trans hj hk, hc⟩
  clear hne hk hl hp hw ht hM he hu hs hnw hlim
  intro k
  induction k with
  | zero => intro ys s hs _ _ hne; exact absurd hs hne
  | succ k ih =>
    intro ys s hs hu hw hne
    cases ys with
    | nil => exact absurd hs hne
    | cons y ys =>
      have hb := cycle_quiet s y (hw y List.mem_cons_self)
      have hex : s.cycle y = (s.before y).dispatchWait y.inp := by
        show ((s.before y).execute y.inp).1 = _
        rw [execute_wait _ _ (by rw [hb]; exact hs)]
      rcases dispatchWait_cases (s.before y) y.inp with ⟨g1, g2⟩ | ⟨g1, g2, ⟨g4, g3⟩ | ⟨g4, g3⟩⟩
      · obtain ⟨j, hj, hc⟩ := ih ys (s.cycle y) (by rw [hex, g1, hb]; exact hs) (by rw [hex, g1, hb]; exact hu)
          (fun z hz => hw z (List.mem_cons_of_mem _ hz)) hne
        exact ⟨j + 1, by omega, hc⟩
      · exact ⟨1, by omega, by show (s.cycle y).state = _; rw [hex, g3]; rfl⟩
      · rw [hb] at g4
        exact absurd (hu.symm.trans g4) (by decide)

/-- C42: from any working state, a cycle that ends in waiting (an error or a time-out) is followed by configuring within the waiting
time plus one cycle, if the radio is left alone. -/
theorem C42_back_to_config (s : QM) (y : QCycle) (ys : List QCycle) (hw : RadioWorking (s.before y).state) (he : (s.cycle y).state = Radio.wait)
    (hM : (s.cycle y).maxWait.toNat + 1 < 2 ^ 32) (ht : RadioTicks y.inp.cc ys) (hq : ∀ z ∈ ys, z.writes = [])
    (hp : ∀ z ∈ ys, z.inp.powerCycle = false) (hl : (s.cycle y).maxWait.toNat + 1 ≤ ys.length) :
    ∃ k, k ≤ (s.cycle y).maxWait.toNat + 1 ∧ ((s.cycle y).run (ys.take k)).state = Radio.config := by
  have : (s.cycle y).unexpected = true ∧ (s.cycle y).entry = y.inp.cc := by
    have hne : (s.before y).state ≠ Radio.wait := by rcases hw with g | g | g | g <;> rw [g] <;> decide
    rcases (outcome (s.before y) y.inp hw).cases with g | g | ⟨g0, c, r, g1, g2, g3 | ⟨g3, g5, g4 | ⟨g6, g4⟩⟩⟩
    · exact ⟨g.2.2.2.1, g.2.2.2.2.2⟩
    · exact ⟨g.2.2.2.2.1, g.2.2.2.2.2.2⟩
    · exact ⟨g3.2.2.1, g3.2.2.2.2⟩
    · exact absurd (g4.1.symm.trans he) hne
    · have he' : ((s.before y).execute y.inp).1.state = Radio.wait := he
      rw [he'] at g6
      rcases g6 with ⟨a, b⟩ | ⟨a, b⟩ | ⟨a, b | b⟩ | ⟨a, b⟩ <;> exact absurd b (by decide)
  exact C42_recovers (s.cycle y) y.inp.cc ys he this.1 this.2 hM ht hq hp hl

/-! ### C43 -/

namespace QM

/-- Reachable positions in the command sequences. -/
def FnInv (s : QM) : Prop := s.fn = 0 ∨ (RadioWorking s.state ∧ s.fn < (cmdSequence s.state).length)

theorem execute_fn (s : QM) (i : QIn) (h : FnInv s ∨ s.state = Radio.disabled) : FnInv (s.execute i).1 := by
  by_cases hd : s.state = Radio.disabled
  · rw [execute_disabled s i hd]; exact Or.inl rfl
  have h : FnInv s := h.elim id fun h => absurd h hd
  by_cases hw : RadioWorking s.state
  · have o := outcome s i hw
    have hpos : 0 < (cmdSequence s.state).length := by rcases hw with g | g | g | g <;> rw [g] <;> decide
    rcases o.cases with g | g | ⟨g0, c, r, g1, g2, g3 | ⟨g3, g5, g4 | ⟨g6, g4⟩⟩⟩
    · exact Or.inl g.2.2.2.2.1
    · exact Or.inl g.2.2.2.2.2.1
    · exact Or.inl g3.2.2.2.1
    · refine Or.inr ⟨by rw [g4.1]; exact hw, ?_⟩
      rw [g4.1, g4.2.2]
      split
      · exact Nat.mod_lt _ hpos
      · rcases h with h | h
        · omega
        · exact h.2
    · exact Or.inl g4.2.1
  · have h0 : s.fn = 0 := h.elim id fun h => absurd h.1 hw
    rw [execute_idle s i hw hd]
    rcases dispatchWait_cases { s with unexpected := if s.state = Radio.wait then s.unexpected else true } i with
      ⟨g1, g2⟩ | ⟨g1, g2, ⟨_, g3⟩ | ⟨_, g3⟩⟩
    · left; show (QM.dispatchWait _ i).fn = 0; rw [g1]; exact h0
    · left; show (QM.dispatchWait _ i).fn = 0; rw [g3]; rfl
    · left; show (QM.dispatchWait _ i).fn = 0; rw [g3]; rfl

theorem before_fn (s : QM) (y : QCycle) : (s.before y).fn = s.fn := by
  obtain ⟨a, b, c, h⟩ := before_frame s y
  rw [h]

theorem before_entry (s : QM) (y : QCycle) : (s.before y).entry = s.entry := by
  obtain ⟨a, b, c, h⟩ := before_frame s y
  rw [h]

theorem before_ok (s : QM) (y : QCycle) (h : FnInv s) (hd : DisciplinedStep s y) : FnInv (s.before y) ∨ (s.before y).state = Radio.disabled := by
  rcases hd with g | g | ⟨g, g'⟩
  · left
    unfold FnInv at h ⊢
    rw [before_fn, g]
    exact h
  · exact Or.inr g
  · left
    left
    rw [before_fn]
    rcases h with h | h
    · exact h
    · rw [g'] at h; exact absurd h.1 (by decide)

theorem run_fn (ys : List QCycle) : ∀ s : QM, FnInv s → DisciplinedRadio s ys → FnInv (s.run ys) := by
  induction ys with
  | nil => intro s h _; exact h
  | cons y ys ih => intro s h hd; exact ih _ (execute_fn _ _ (before_ok s y h hd.1)) hd.2

theorem init_fn (n : Nat) : FnInv (init n) := Or.inl rfl

theorem protocol_nodup (st : U8) (k : Nat) (c : Cmd) (h : (cmdSequence st)[k]? = some c) : (cmdSequence st).idxOf c = k := by
  have hk : k < (cmdSequence st).length := by
    rw [List.getElem?_eq_some_iff] at h; exact h.1
  revert h hk
  unfold cmdSequence
  split
  · intro h hk; simp only [List.length_cons, List.length_nil] at hk
    match k, hk with
    | 0, _ => cases h; rfl
    | 1, _ => cases h; rfl
    | 2, _ => cases h; rfl
    | 3, _ => cases h; rfl
  split
  · intro h hk; simp only [List.length_cons, List.length_nil] at hk
    match k, hk with
    | 0, _ => cases h; rfl
    | 1, _ => cases h; rfl
    | 2, _ => cases h; rfl
  split
  · intro h hk; simp only [List.length_cons, List.length_nil] at hk
    match k, hk with
    | 0, _ => cases h; rfl
    | 1, _ => cases h; rfl
  split
  · intro h hk; simp only [List.length_cons, List.length_nil] at hk
    match k, hk with
    | 0, _ => cases h; rfl
    | 1, _ => cases h; rfl
  · intro h hk; exact absurd hk (by simp)

end QM

/-- C43: in every cycle in which the radio manager works in a state and has not run out of cycles it makes exactly one modem call,
a command of that state's sequence. -/
theorem C43_one_call (n : Nat) (ys : List QCycle) (y : QCycle) (h : DisciplinedRadio (QM.init n) ys) (hy : DisciplinedStep ((QM.init n).run ys) y)
    (hw : RadioWorking (((QM.init n).run ys).before y).state)
    (hc : y.inp.cc - ((QM.init n).run ys).entry ≤ stateLimit (((QM.init n).run ys).before y)) :
    ∃ c r, ((QM.init n).run ys).call y = some (c, r) ∧ c ∈ cmdSequence (((QM.init n).run ys).before y).state := by
  have hf := run_fn ys _ (init_fn n) h
  generalize (QM.init n).run ys = s at *
  have o := outcome (s.before y) y.inp hw
  have hb := before_ok s y hf hy
  rcases o.cases with g | g | ⟨g0, c, r, g1, g2, _⟩
  · rw [before_entry] at g
    exact absurd g.1 (BitVec.not_lt.2 hc)
  · have hpos : 0 < (cmdSequence (s.before y).state).length := by rcases hw with g | g | g | g <;> rw [g] <;> decide
    rcases hb with (hb | hb) | hb
    · rw [hb] at g; omega
    · omega
    · rw [hb] at hw; exact absurd hw (by decide)
  · exact ⟨c, r, g1, List.mem_of_getElem? g2⟩

/-- C42: an execution in a working state ends in waiting exactly if the state has run out of cycles or the modem call failed with
something other than a missing answer. -/
theorem C42_waits_iff_error (n : Nat) (ys : List QCycle) (y : QCycle) (h : DisciplinedRadio (QM.init n) ys) (hy : DisciplinedStep ((QM.init n).run ys) y)
    (hw : RadioWorking (((QM.init n).run ys).before y).state) :
    (((QM.init n).run ys).cycle y).state = Radio.wait ↔
      (y.inp.cc - ((QM.init n).run ys).entry > stateLimit (((QM.init n).run ys).before y) ∨
        ∃ c r, ((QM.init n).run ys).call y = some (c, r) ∧ r ≠ QCode.ok ∧ r ≠ QCode.portUnavailable) := by
  have hf := before_ok _ y (run_fn ys _ (init_fn n) h) hy
  generalize (QM.init n).run ys = s at *
  have hpos : 0 < (cmdSequence (s.before y).state).length := by rcases hw with g | g | g | g <;> rw [g] <;> decide
  have hfn : (s.before y).fn < (cmdSequence (s.before y).state).length := by
    rcases hf with (hf | hf) | hf
    · omega
    · exact hf.2
    · rw [hf] at hw; exact absurd hw (by decide)
  have hne : (s.before y).state ≠ Radio.wait := by rcases hw with g | g | g | g <;> rw [g] <;> decide
  have hent := before_entry s y
  have herr : ∀ r, isError r = true ↔ r ≠ QCode.ok ∧ r ≠ QCode.portUnavailable := by
    intro r; unfold isError; simp only [Bool.and_eq_true, decide_eq_true_eq]
  rcases (outcome (s.before y) y.inp hw).cases with g | g | ⟨g0, c, r, g1, g2, g3⟩
  · rw [hent] at g
    exact ⟨fun _ => Or.inl g.1, fun _ => g.2.2.1⟩
  · omega
  · rw [hent] at g0
    have hr : ¬ (isError r = true) → ((s.cycle y).state = Radio.wait → False) := by
      intro hr hwt
      rcases g3 with g3 | ⟨g3, g5, g4 | ⟨g6, g4⟩⟩
      · exact hr g3.1
      · exact hne (g4.1.symm.trans hwt)
      · have hwt' : ((s.before y).execute y.inp).1.state = Radio.wait := hwt
        rw [hwt'] at g6
        rcases g6 with ⟨a, b⟩ | ⟨a, b⟩ | ⟨a, b | b⟩ | ⟨a, b⟩ <;> exact absurd b (by decide)
    constructor
    · intro hwt
      refine Or.inr ⟨c, r, g1, (herr r).1 ?_⟩
      apply Classical.byContradiction
      exact fun hr' => hr hr' hwt
    · intro hor
      rcases hor with hor | ⟨c', r', k1, k2⟩
      · exact absurd g0 (BitVec.not_le.2 hor)
      · have : (c, r) = (c', r') := Option.some.inj (g1.symm.trans k1)
        cases this
        rcases g3 with g3 | ⟨g3, _⟩
        · exact g3.2.1
        · rw [(herr r).2 k2] at g3; cases g3

/-- C43: when the radio manager has just come to a state (in the previous cycle, or another task has switched the radio on in this
cycle), the first command of that state's sequence is issued. -/
theorem C43_starts_at_first (n : Nat) (ys : List QCycle) (y1 y2 : QCycle) (h : DisciplinedRadio (QM.init n) (ys ++ [y1, y2]))
    (c : Cmd) (r : Int) (hc : ((QM.init n).run (ys ++ [y1])).call y2 = some (c, r))
    (hnew : (((QM.init n).run (ys ++ [y1])).before y2).state ≠ (((QM.init n).run ys).before y1).state) :
    (cmdSequence (((QM.init n).run (ys ++ [y1])).before y2).state).head? = some c := by
  have happ : ∀ (zs : List QCycle) (s : QM) (ws : List QCycle), DisciplinedRadio s (zs ++ ws) → DisciplinedRadio s zs ∧ DisciplinedRadio (s.run zs) ws := by
    intro zs
    induction zs with
    | nil => intro s ws h; exact ⟨trivial, h⟩
    | cons z zs ih => intro s ws h; exact ⟨⟨h.1, (ih _ _ h.2).1⟩, (ih _ _ h.2).2⟩
  obtain ⟨h0, h12⟩ := happ ys _ _ h
  have hf := run_fn ys _ (init_fn n) h0
  have hrun : (QM.init n).run (ys ++ [y1]) = ((QM.init n).run ys).cycle y1 := by
    unfold QM.run; rw [List.foldl_append]; rfl
  rw [hrun] at hc hnew ⊢
  generalize (QM.init n).run ys = s at *
  have hf1 := before_ok s y1 hf h12.1
  have hfn : (s.cycle y1).fn = 0 ∨ ((s.cycle y1).state = (s.before y1).state ∧ (s.before y1).state ≠ Radio.disabled) := by
    by_cases hd : (s.before y1).state = Radio.disabled
    · left; show ((s.before y1).execute y1.inp).1.fn = 0; rw [execute_disabled _ _ hd]; rfl
    by_cases hw : RadioWorking (s.before y1).state
    · rcases (outcome (s.before y1) y1.inp hw).cases with g | g | ⟨g0, c, r, g1, g2, g3 | ⟨g3, g5, g4 | ⟨g6, g4⟩⟩⟩
      · exact Or.inl g.2.2.2.2.1
      · exact Or.inl g.2.2.2.2.2.1
      · exact Or.inl g3.2.2.2.1
      · exact Or.inr ⟨g4.1, hd⟩
      · exact Or.inl g4.2.1
    · rcases execute_fn (s.before y1) y1.inp hf1 with g | g
      · exact Or.inl g
      · left
        have h0 : (s.before y1).fn = 0 := by
          rcases hf1 with (h | h) | h
          · exact h
          · exact absurd h.1 hw
          · exact absurd h hd
        show ((s.before y1).execute y1.inp).1.fn = 0
        rw [execute_idle _ _ hw hd]
        rcases dispatchWait_cases { (s.before y1) with unexpected := if (s.before y1).state = Radio.wait then (s.before y1).unexpected else true } y1.inp with
          ⟨k1, _⟩ | ⟨_, _, ⟨_, k3⟩ | ⟨_, k3⟩⟩
        · show (QM.dispatchWait _ y1.inp).fn = 0; rw [k1]; exact h0
        · show (QM.dispatchWait _ y1.inp).fn = 0; rw [k3]; rfl
        · show (QM.dispatchWait _ y1.inp).fn = 0; rw [k3]; rfl
  have hw : RadioWorking ((s.cycle y1).before y2).state := by
    apply Classical.byContradiction
    intro hw
    have : (s.cycle y1).call y2 = none := by
      show (((s.cycle y1).before y2).execute y2.inp).2 = none
      by_cases hd : ((s.cycle y1).before y2).state = Radio.disabled
      · rw [execute_disabled _ _ hd]
      · rw [execute_idle _ _ hw hd]
    rw [this] at hc
    cases hc
  have hfn2 : ((s.cycle y1).before y2).fn = 0 := by
    rw [before_fn]
    rcases hfn with g | ⟨g, g'⟩
    · exact g
    · rcases h12.2.1 with k | k | ⟨k, k'⟩
      · exact absurd (k.trans g) hnew
      · rw [k] at hw; exact absurd hw (by decide)
      · exact absurd (g.symm.trans k') g'
  rcases (outcome ((s.cycle y1).before y2) y2.inp hw).cases with g | g | ⟨g0, c', r', g1, g2, _⟩
  · exact absurd (hc.symm.trans g.2.1) nofun
  · exact absurd (hc.symm.trans g.2.2.1) nofun
  · have : (c, r) = (c', r') := Option.some.inj (hc.symm.trans g1)
    cases this
    rw [hfn2] at g2
    rw [List.head?_eq_getElem?]
    exact g2

/-- C43: while the manager stays in a state, each command is repeated until the modem accepts it, and then followed by the next
command of the sequence. -/
theorem C43_in_order (s : QM) (y1 y2 : QCycle) (c1 c2 : Cmd) (r1 r2 : Int)
    (h1 : s.call y1 = some (c1, r1)) (h2 : (s.cycle y1).call y2 = some (c2, r2))
    (hs : (s.cycle y1).state = (s.before y1).state) (hs2 : ((s.cycle y1).before y2).state = (s.cycle y1).state) :
    if r1 = QCode.ok then nextCmd (s.before y1).state c1 = some c2 else c2 = c1 := by
  have working : ∀ (t : QM) (y : QCycle) (p : Cmd × Int), t.call y = some p → RadioWorking (t.before y).state := by
    intro t y p hc
    apply Classical.byContradiction
    intro hw
    have : t.call y = none := by
      show ((t.before y).execute y.inp).2 = none
      by_cases hd : (t.before y).state = Radio.disabled
      · rw [execute_disabled _ _ hd]
      · rw [execute_idle _ _ hw hd]
    rw [this] at hc
    cases hc
  have hw1 := working s y1 _ h1
  have hw2 := working (s.cycle y1) y2 _ h2
  have hne : (s.before y1).state ≠ Radio.wait := by rcases hw1 with g | g | g | g <;> rw [g] <;> decide
  rcases (outcome (s.before y1) y1.inp hw1).cases with g | g | ⟨g0, c, r, g1, g2, g3 | ⟨g3, g5, g4 | ⟨g6, g4⟩⟩⟩
  · exact absurd (h1.symm.trans g.2.1) nofun
  · exact absurd (h1.symm.trans g.2.2.1) nofun
  · exact absurd (hs.symm.trans g3.2.1) hne
  · have : (c1, r1) = (c, r) := Option.some.inj (h1.symm.trans g1)
    cases this
    have hfn : ((s.cycle y1).before y2).fn = if r1 = QCode.ok then ((s.before y1).fn + 1) % (cmdSequence (s.before y1).state).length else (s.before y1).fn := by
      rw [before_fn]; exact g4.2.2
    rcases (outcome ((s.cycle y1).before y2) y2.inp hw2).cases with k | k | ⟨k0, c', r', k1, k2, _⟩
    · exact absurd (h2.symm.trans k.2.1) nofun
    · exact absurd (h2.symm.trans k.2.2.1) nofun
    · have : (c2, r2) = (c', r') := Option.some.inj (h2.symm.trans k1)
      cases this
      rw [hs2, hs, hfn] at k2
      split
      · rename_i hr
        rw [if_pos hr] at k2
        unfold nextCmd
        rw [protocol_nodup _ _ _ g2]
        exact k2
      · rename_i hr
        rw [if_neg hr] at k2
        exact Option.some.inj (k2.symm.trans g2)
  · rw [show (s.cycle y1).state = ((s.before y1).execute y1.inp).1.state from rfl] at hs
    rw [hs] at g6
    rcases g6 with ⟨a, b⟩ | ⟨a, b⟩ | ⟨a, b | b⟩ | ⟨a, b⟩ <;> exact absurd (a.symm.trans b) (by decide)

namespace QM

theorem sendCommand_answers (p : ModemIn) : QLocate.sendCommand p ≠ QCode.portUnavailable := by
  unfold QLocate.sendCommand
  split <;> decide

theorem call_config (s : QM) (i : QIn) (h : s.state = Radio.config) {p : Cmd × Int} (hc : (s.execute i).2 = some p) :
    (s.qctConfig i.port).2.2 = some p := by
  rw [execute_config s i h] at hc
  unfold dispatchConfig at hc
  split at hc
  · cases hc
  · dsimp only at hc
    split at hc
    · exact hc
    · split at hc <;> exact hc

theorem call_write (s : QM) (i : QIn) (h : s.state = Radio.write) {p : Cmd × Int} (hc : (s.execute i).2 = some p) :
    ((s.prepareWrite i).dispatchSbdwb i.port).2.2 = some p := by
  rw [execute_write s i h] at hc
  unfold dispatchWrite at hc
  split at hc
  · cases hc
  · dsimp only at hc
    split at hc
    · exact hc
    · split at hc <;> exact hc

theorem call_read (s : QM) (i : QIn) (h : s.state = Radio.read) {p : Cmd × Int} (hc : (s.execute i).2 = some p) :
    (s.dispatchSbdrb i.port).2.2 = some p := by
  rw [execute_read s i h] at hc
  unfold dispatchRead at hc
  split at hc
  · cases hc
  · dsimp only at hc
    split at hc
    · exact hc
    · split at hc <;> exact hc

theorem call_trans (s : QM) (i : QIn) (h : s.state = Radio.transceive) {p : Cmd × Int} (hc : (s.execute i).2 = some p) :
    (s.dispatchSbdix i.port).2.2 = some p := by
  rw [execute_trans s i h] at hc
  unfold dispatchTransceive at hc
  split at hc
  · cases hc
  · dsimp only at hc
    split at hc
    · exact hc
    · split at hc
      · split at hc
        · exact hc
        · split at hc <;> exact hc
      · exact hc

/-- The first command of a sequence never answers that the port is unavailable. -/
theorem first_answers (s : QM) (i : QIn) (h : RadioWorking s.state) (h0 : s.fn = 0) {c : Cmd} {r : Int} (hc : (s.execute i).2 = some (c, r)) :
    r ≠ QCode.portUnavailable := by
  rcases h with h | h | h | h
  · have := call_config s i h hc
    unfold qctConfig at this
    rw [if_pos h0] at this
    cases this
    exact sendCommand_answers _
  · have := call_write s i h hc
    obtain ⟨b, p, l, m, hp⟩ := prepareWrite_frame s i
    rw [hp] at this
    unfold dispatchSbdwb at this
    rw [if_pos (show ({ s with buf := b, moPtr := p, moLen := l, moIdx := m } : QM).fn = 0 from h0)] at this
    cases this
    unfold QLocate.querySbdwb1
    split
    · decide
    · exact sendCommand_answers _
  · have := call_trans s i h hc
    unfold dispatchSbdix at this
    rw [if_pos h0] at this
    cases this
    exact sendCommand_answers _
  · have := call_read s i h hc
    unfold dispatchSbdrb at this
    rw [if_pos h0] at this
    cases this
    exact sendCommand_answers _

end QM

/-- C43: the manager leaves a working state other than for an error only when the last command of the sequence has just
succeeded. -/
theorem C43_completes (n : Nat) (ys : List QCycle) (y : QCycle) (h : DisciplinedRadio (QM.init n) ys) (hy : DisciplinedStep ((QM.init n).run ys) y)
    (hw : RadioWorking (((QM.init n).run ys).before y).state) (hne : (((QM.init n).run ys).cycle y).state ≠ (((QM.init n).run ys).before y).state)
    (hwt : (((QM.init n).run ys).cycle y).state ≠ Radio.wait) :
    ∃ c, (cmdSequence (((QM.init n).run ys).before y).state).getLast? = some c ∧ ((QM.init n).run ys).call y = some (c, QCode.ok) := by
  have hf := before_ok _ y (run_fn ys _ (init_fn n) h) hy
  generalize (QM.init n).run ys = s at *
  have hlen : 2 ≤ (cmdSequence (s.before y).state).length := by rcases hw with g | g | g | g <;> rw [g] <;> decide
  have hfn : (s.before y).fn < (cmdSequence (s.before y).state).length := by
    rcases hf with (hf | hf) | hf
    · omega
    · exact hf.2
    · rw [hf] at hw; exact absurd hw (by decide)
  rcases (outcome (s.before y) y.inp hw).cases with g | g | ⟨g0, c, r, g1, g2, g3 | ⟨g3, g5, g4 | ⟨g6, g4⟩⟩⟩
  · exact absurd g.2.2.1 hwt
  · exact absurd g.2.2.2.1 hwt
  · exact absurd g3.2.1 hwt
  · exact absurd g4.1 hne
  · refine ⟨c, ?_, ?_⟩
    · have h0 := g4.2.2.1
      have hr : r = QCode.ok := by
        apply Classical.byContradiction
        intro hr
        rw [if_neg hr] at h0
        have := first_answers _ _ hw h0 g1
        unfold isError at g3
        simp only [Bool.and_eq_false_iff, decide_eq_false_iff_not, Classical.not_not] at g3
        exact g3.elim hr this
      rw [if_pos hr] at h0
      have : (s.before y).fn + 1 = (cmdSequence (s.before y).state).length := by
        apply Classical.byContradiction
        intro hne
        rw [Nat.mod_eq_of_lt (by omega)] at h0
        omega
      rw [List.getLast?_eq_getElem?, show (cmdSequence (s.before y).state).length - 1 = (s.before y).fn from by omega]
      exact g2
    · have h0 := g4.2.2.1
      have hr : r = QCode.ok := by
        apply Classical.byContradiction
        intro hr
        rw [if_neg hr] at h0
        have := first_answers _ _ hw h0 g1
        unfold isError at g3
        simp only [Bool.and_eq_false_iff, decide_eq_false_iff_not, Classical.not_not] at g3
        exact g3.elim hr this
      rw [hr] at g1
      exact g1

/-- C43: no modem command is issued while the radio is off or waiting. -/
theorem C43_silent (s : QM) (y : QCycle) (h : (s.before y).state = Radio.disabled ∨ (s.before y).state = Radio.wait) : s.call y = none := by
  show ((s.before y).execute y.inp).2 = none
  rcases h with h | h
  · rw [execute_disabled _ _ h]
  · rw [execute_wait _ _ h]

/-! Concrete runs. -/

namespace QDemo
/-- A modem that accepts everything it is written, with no answers. -/
def quiet : ModemIn := { wrote := true, avail := 0, rx := [], scan := [], hi := none, lo := none, chi := none, clo := none }
/-- A cycle. -/
def cyc (cc : Nat) (p : ModemIn) (ws : List QWrite) : QCycle :=
  { writes := ws, inp := { cc := BitVec.ofNat 32 cc, powerCycle := false, port := p, snap := List.replicate 100 7, after := fun _ => 9 } }
/-- Answers to a configuration. -/
def ans2 : ModemIn := { quiet with avail := 3 }
/-- Answer to the second query. -/
def ans3 : ModemIn := { quiet with avail := 40, rx := ascii "AT&K0;&D0;E0;V0;+SBDMTA=0\r0\r" }
/-- Answer to the third query. -/
def ans4 : ModemIn := { quiet with avail := 40, rx := ascii "0\r\n0\r" }
/-- Switched on by another task, then configured without a fault. -/
def boot : List QCycle := [cyc 1 quiet [.state Radio.config], cyc 2 ans2 [], cyc 3 quiet [], cyc 4 ans3 [], cyc 5 ans4 []]
end QDemo

example : DisciplinedRadio (QM.init 100) QDemo.boot ∧ RadioTicks 0 QDemo.boot ∧ ((QM.init 100).run QDemo.boot).state = Radio.write := by
  refine ⟨⟨Or.inr (Or.inr ?_), Or.inl ?_, Or.inl ?_, Or.inl ?_, Or.inl ?_, trivial⟩, ⟨?_, ?_, ?_, ?_, ?_, trivial⟩, ?_⟩ <;> decide +kernel

/- The commands of that run, one refused for want of an answer and then repeated. -/
example : (List.range 5).map (fun k => ((QM.init 100).run (QDemo.boot.take k)).call (QDemo.boot.getD k (QDemo.cyc 0 QDemo.quiet []))) =
    [some (.config1, 0), some (.config2, 0), some (.config3, 7), some (.config3, 0), some (.getConfig, 0)] := by decide +kernel

/- A modem that never answers: the radio gives up configuring, waits and tries again. -/
example :
    let ys := QDemo.cyc 1 QDemo.quiet [.state Radio.config] :: (List.range 9).map fun k => QDemo.cyc (k + 2) QDemo.quiet []
    (List.range 11).map (fun k => ((QM.init 100).run (ys.take k)).state) =
      [Radio.disabled, Radio.config, Radio.config, Radio.config, Radio.config, Radio.config, Radio.wait, Radio.wait, Radio.config,
        Radio.config, Radio.config] := by decide +kernel

end PAN
