import Verif.Model.QuakeFH
import Mathlib.Tactic.SplitIfs
import Mathlib.Data.List.Induction
/-!
Properties C27, C28 and C58: the radio fault handler.
-/
namespace PAN

namespace Spec

/-- Control cycles in a day, and in the eight hours between two power cycles. -/
def day : Nat := 508235
def eightHours : Nat := 169411

/-- The steps of the ladder and how long each lasts. -/
inductive Ladder : U8 → U8 → Nat → Prop
  | cycle1 : Ladder Qfh.forcedStandby Qfh.powercycle1 day
  | cycle2 : Ladder Qfh.powercycle1 Qfh.powercycle2 eightHours
  | cycle3 : Ladder Qfh.powercycle2 Qfh.powercycle3 eightHours
  | last : Ladder Qfh.powercycle3 Qfh.safehold eightHours

/-- One of the three states entered by power cycling the radio. -/
def IsPowercycle (x : U8) : Prop := x = Qfh.powercycle1 ∨ x = Qfh.powercycle2 ∨ x = Qfh.powercycle3

/-- Cycles since the last contact, as the 32-bit cycle counter sees it. -/
def sinceContact (r : RadioIO) (cc : U32) : Nat := (cc - r.lastComms).toNat

/-- What the handler is given in one control cycle. -/
structure QIn where
  cc : U32
  io : RadioIO

/-- The handler after a history of control cycles (oldest first); other tasks and ground set the radio's fields at will. -/
def qrun (h : QuakeFH) (ins : List QIn) : QuakeFH := ins.foldl (fun h i => (h.execute i.io i.cc).2.1) h

end Spec
open Spec

namespace QuakeFH

theorem ofNat_toNat {n : Nat} (h : n < 2 ^ 32) : (BitVec.ofNat 32 n).toNat = n := by
  rw [BitVec.toNat_ofNat]; exact Nat.mod_eq_of_lt h

theorem recent_iff (r : RadioIO) (cc : U32) : recentComms r cc = true ↔ sinceContact r cc < day := by
  unfold recentComms sinceContact
  rw [decide_eq_true_iff, BitVec.lt_def, ofNat_toNat (by decide)]
  rfl

theorem inState_iff (h : QuakeFH) (cc : U32) (t : Nat) (ht : t < 2 ^ 32) : h.inStateFor cc t = true ↔ t ≤ (cc - h.entry).toNat := by
  unfold inStateFor
  rw [decide_eq_true_iff, ge_iff_le, BitVec.le_def, ofNat_toNat ht]

theorem inDay_iff (h : QuakeFH) (cc : U32) : h.inStateFor cc oneDayCcno = true ↔ day ≤ (cc - h.entry).toNat := inState_iff h cc _ (by decide)
theorem inThird_iff (h : QuakeFH) (cc : U32) : h.inStateFor cc (oneDayCcno / 3) = true ↔ eightHours ≤ (cc - h.entry).toNat :=
  inState_iff h cc _ (by decide)

theorem ladder_ne {a b : U8} {t : Nat} (h : Ladder a b t) : a ≠ b ∧ b ≠ Qfh.unfaulted ∧ a ≠ Qfh.unfaulted := by
  cases h <;> decide

/-- The three ways out of a power-cycle state. -/
theorem powercycle_cases (h : QuakeFH) (r : RadioIO) (cc : U32) (next : U8) :
    let r1 : RadioIO := if h.entry + 1 ≥ cc then { r with state := Radio.config } else r
    (eightHours ≤ (cc - h.entry).toNat ∧ h.dispatchPowercycle r cc next =
      (.standby, h.goto cc next, if next ≠ Qfh.safehold then { r1 with state := Radio.disabled, powerCycle := true } else r1)) ∨
    (¬ eightHours ≤ (cc - h.entry).toNat ∧ sinceContact r cc < day ∧ h.dispatchPowercycle r cc next = (.none, h.goto cc Qfh.unfaulted, r1)) ∨
    (¬ eightHours ≤ (cc - h.entry).toNat ∧ ¬ sinceContact r cc < day ∧ h.dispatchPowercycle r cc next = (.standby, h, r1)) := by
  intro r1
  have hr1 : recentComms r1 cc = recentComms r cc := by
    show recentComms (if h.entry + 1 ≥ cc then _ else _) cc = _
    split <;> rfl
  unfold dispatchPowercycle
  dsimp only
  by_cases h1 : h.inStateFor cc (oneDayCcno / 3) = true
  · left
    exact ⟨(inThird_iff h cc).1 h1, if_pos h1⟩
  · right
    rw [if_neg h1]
    have h1' := fun x => h1 ((inThird_iff h cc).2 x)
    by_cases h2 : recentComms r cc = true
    · exact Or.inl ⟨h1', (recent_iff r cc).1 h2, if_pos (hr1.trans h2)⟩
    · exact Or.inr ⟨h1', fun x => h2 ((recent_iff r cc).2 x), if_neg (fun x => h2 (hr1.symm.trans x))⟩

/-- `dispatch_powercycle` in each power-cycle state. -/
theorem execute_powercycle (h : QuakeFH) (r : RadioIO) (cc : U32) (he : h.enabled = true) (next : U8)
    (hs : Ladder h.state next eightHours) : h.execute r cc = h.dispatchPowercycle r cc next := by
  unfold execute
  rw [if_neg (by rw [he]; decide)]
  generalize hx : h.state = x at hs
  cases hs <;> rfl

theorem execute_unfaulted (h : QuakeFH) (r : RadioIO) (cc : U32) (he : h.enabled = true) (hs : h.state = Qfh.unfaulted) :
    h.execute r cc = h.dispatchUnfaulted r cc := by
  unfold execute
  rw [if_neg (by rw [he]; decide), if_pos hs]

theorem execute_forced (h : QuakeFH) (r : RadioIO) (cc : U32) (he : h.enabled = true) (hs : h.state = Qfh.forcedStandby) :
    h.execute r cc = h.dispatchForcedStandby r cc := by
  unfold execute
  rw [if_neg (by rw [he]; decide), hs]; rfl

theorem execute_safehold (h : QuakeFH) (r : RadioIO) (cc : U32) (he : h.enabled = true) (hs : h.state = Qfh.safehold) :
    h.execute r cc = h.dispatchSafehold r cc := by
  unfold execute
  rw [if_neg (by rw [he]; decide), hs]; rfl

theorem powercycle_lastComms (h : QuakeFH) (r : RadioIO) (cc : U32) (next : U8) : (h.dispatchPowercycle r cc next).2.2.lastComms = r.lastComms := by
  have hr : (if h.entry + 1 ≥ cc then { r with state := Radio.config } else r : RadioIO).lastComms = r.lastComms := by split <;> rfl
  rcases powercycle_cases h r cc next with ⟨_, x⟩ | ⟨_, _, x⟩ | ⟨_, _, x⟩ <;> rw [x]
  · dsimp only
    by_cases hn : next ≠ Qfh.safehold
    · rw [if_pos hn]; exact hr
    · rw [if_neg hn]; exact hr
  · exact hr
  · exact hr

theorem execute_lastComms (h : QuakeFH) (r : RadioIO) (cc : U32) : (h.execute r cc).2.2.lastComms = r.lastComms := by
  have h1 : (h.dispatchUnfaulted r cc).2.2.lastComms = r.lastComms := by unfold dispatchUnfaulted; split <;> rfl
  have h2 : (h.dispatchForcedStandby r cc).2.2.lastComms = r.lastComms := by
    unfold dispatchForcedStandby; split
    · rfl
    · split <;> rfl
  have h3 : (h.dispatchSafehold r cc).2.2.lastComms = r.lastComms := by unfold dispatchSafehold; split <;> rfl
  unfold execute
  split
  · rfl
  split
  · exact h1
  split
  · exact h2
  split
  · exact powercycle_lastComms h r cc _
  split
  · exact powercycle_lastComms h r cc _
  split
  · exact powercycle_lastComms h r cc _
  split
  · exact h3
  · rfl

/-- Every possible result of one execution of an enabled handler. -/
theorem execute_cases (h : QuakeFH) (r : RadioIO) (cc : U32) (he : h.enabled = true) :
    (∃ next t, Ladder h.state next t ∧ t ≤ (cc - h.entry).toNat ∧ (h.execute r cc).1 = .standby ∧ (h.execute r cc).2.1 = h.goto cc next ∧
      (h.execute r cc).2.2.powerCycle = (r.powerCycle || decide (next ≠ Qfh.safehold)) ∧
      (next ≠ Qfh.safehold → (h.execute r cc).2.2.state = Radio.disabled)) ∨
    (h.state = Qfh.unfaulted ∧ ¬ sinceContact r cc < day ∧ r.state ≠ Radio.disabled ∧
      h.execute r cc = (.standby, h.goto cc Qfh.forcedStandby, r)) ∨
    (h.state ≠ Qfh.unfaulted ∧ (∀ next t, Ladder h.state next t → ¬ t ≤ (cc - h.entry).toNat) ∧ (h.execute r cc).1 = .none ∧
      (h.execute r cc).2.1 = h.goto cc Qfh.unfaulted ∧ (h.execute r cc).2.2.powerCycle = r.powerCycle) ∨
    ((∀ next t, Ladder h.state next t → ¬ t ≤ (cc - h.entry).toNat) ∧ (h.execute r cc).2.1 = h ∧
      (h.execute r cc).2.2.powerCycle = r.powerCycle ∧
      ((h.execute r cc).1 = .none ↔ h.state = Qfh.unfaulted) ∧ (h.state ≠ Qfh.unfaulted → ¬ sinceContact r cc < day) ∧
      ((h.execute r cc).1 = .safehold ↔ h.state = Qfh.safehold)) := by
  have pc : ∀ next, Ladder h.state next eightHours → _ := fun next hl => powercycle_cases h r cc next
  have hpow : (if h.entry + 1 ≥ cc then { r with state := Radio.config } else r : RadioIO).powerCycle = r.powerCycle := by
    split <;> rfl
  have uniq : ∀ {a b c : U8} {t u : Nat}, Ladder a b t → Ladder a c u → t = u := by
    intro a b c t u h1 h2
    generalize ha : a = a' at h2
    cases h1 <;> cases h2 <;> first | rfl | exact absurd ha (by decide)
  by_cases hp : ∃ next, Ladder h.state next eightHours
  · obtain ⟨next, hl⟩ := hp
    have hex := execute_powercycle h r cc he next hl
    have hsh : h.state ≠ Qfh.safehold := by
      intro e; rw [e] at hl
      generalize hq : Qfh.safehold = q at hl
      cases hl <;> exact absurd hq (by decide)
    have hnu := (ladder_ne hl).2.2
    rcases pc next hl with ⟨h1, h2⟩ | ⟨h1, h1', h2⟩ | ⟨h1, h1', h2⟩
    · left
      refine ⟨next, _, hl, h1, ?_⟩
      rw [hex, h2]
      refine ⟨rfl, rfl, ?_, fun hn => by dsimp only; rw [if_pos hn]⟩
      dsimp only
      by_cases hn : next ≠ Qfh.safehold
      · rw [if_pos hn, decide_eq_true hn, Bool.or_true]
      · rw [if_neg hn, hpow, decide_eq_false hn, Bool.or_false]
    · right; right; left
      refine ⟨hnu, fun n t hl' => ?_, ?_⟩
      · rw [← uniq hl hl']; exact h1
      · rw [hex, h2]; exact ⟨rfl, rfl, hpow⟩
    · right; right; right
      refine ⟨fun n t hl' => ?_, ?_⟩
      · rw [← uniq hl hl']; exact h1
      · rw [hex, h2]
        exact ⟨rfl, hpow, ⟨nofun, fun e => absurd e hnu⟩, fun _ => h1', ⟨nofun, fun e => absurd e hsh⟩⟩
  · by_cases hu : h.state = Qfh.unfaulted
    · have hno : ∀ next t, Ladder h.state next t → ¬ t ≤ (cc - h.entry).toNat := fun n t hl => absurd hu (ladder_ne hl).2.2
      have hex := execute_unfaulted h r cc he hu
      unfold dispatchUnfaulted at hex
      by_cases hc : (radioDisabled r || recentComms r cc) = true
      · rw [if_pos hc] at hex
        right; right; right
        refine ⟨hno, ?_⟩
        rw [hex]
        exact ⟨rfl, rfl, ⟨fun _ => hu, fun _ => rfl⟩, fun e => absurd hu e, ⟨nofun, fun e => absurd (hu.symm.trans e) (by decide)⟩⟩
      · rw [if_neg hc] at hex
        right; left
        rw [Bool.or_eq_true, not_or, recent_iff, radioDisabled, decide_eq_true_iff] at hc
        exact ⟨hu, hc.2, hc.1, hex⟩
    · by_cases hf : h.state = Qfh.forcedStandby
      · have hl : Ladder h.state Qfh.powercycle1 day := by rw [hf]; exact .cycle1
        have hex := execute_forced h r cc he hf
        unfold dispatchForcedStandby at hex
        by_cases h1 : h.inStateFor cc oneDayCcno = true
        · rw [if_pos h1] at hex
          left
          refine ⟨_, _, hl, (inDay_iff h cc).1 h1, ?_⟩
          rw [hex]
          exact ⟨rfl, rfl, by simp, fun _ => rfl⟩
        · rw [if_neg h1] at hex
          have h1' := fun x => h1 ((inDay_iff h cc).2 x)
          by_cases hc : (radioDisabled r || recentComms r cc) = true
          · rw [if_pos hc] at hex
            right; right; left
            refine ⟨hu, fun n t hl' => ?_, ?_⟩
            · rw [← uniq hl hl']; exact h1'
            · rw [hex]; exact ⟨rfl, rfl, rfl⟩
          · rw [if_neg hc] at hex
            rw [Bool.or_eq_true, not_or, recent_iff, radioDisabled, decide_eq_true_iff] at hc
            right; right; right
            refine ⟨fun n t hl' => ?_, ?_⟩
            · rw [← uniq hl hl']; exact h1'
            · rw [hex]
              exact ⟨rfl, rfl, ⟨nofun, fun e => absurd e hu⟩, fun _ => hc.2, ⟨nofun, fun e => absurd (hf.symm.trans e) (by decide)⟩⟩
      · have hno : ∀ next t, Ladder h.state next t → ¬ t ≤ (cc - h.entry).toNat := by
          intro n t hl
          exfalso
          by_cases ht : t = eightHours
          · exact hp ⟨n, ht ▸ hl⟩
          · generalize hx : h.state = x at hl
            cases hl
            · exact hf hx
            · exact ht rfl
            · exact ht rfl
            · exact ht rfl
        by_cases hs : h.state = Qfh.safehold
        · have hex := execute_safehold h r cc he hs
          unfold dispatchSafehold at hex
          by_cases hc : (radioDisabled r || recentComms r cc) = true
          · rw [if_pos hc] at hex
            right; right; left
            refine ⟨hu, hno, ?_⟩
            rw [hex]; exact ⟨rfl, rfl, rfl⟩
          · rw [if_neg hc] at hex
            rw [Bool.or_eq_true, not_or, recent_iff, radioDisabled, decide_eq_true_iff] at hc
            right; right; right
            refine ⟨hno, ?_⟩
            rw [hex]
            exact ⟨rfl, rfl, ⟨nofun, fun e => absurd e hu⟩, fun _ => hc.2, ⟨fun _ => hs, fun _ => rfl⟩⟩
        · have hex : h.execute r cc = (.none, h.goto cc Qfh.unfaulted, r) := by
            unfold execute
            rw [if_neg (by rw [he]; decide), if_neg hu, if_neg hf, if_neg (fun e => hp ⟨_, by rw [e]; exact .cycle2⟩),
              if_neg (fun e => hp ⟨_, by rw [e]; exact .cycle3⟩), if_neg (fun e => hp ⟨_, by rw [e]; exact .last⟩), if_neg hs]
          right; right; left
          refine ⟨hu, hno, ?_⟩
          rw [hex]; exact ⟨rfl, rfl, rfl⟩

end QuakeFH
open QuakeFH

/-- C27 (one cycle, every state including undefined ones): the handler stays where it is, clears the fault, starts the ladder,
or takes exactly the next step of it, the latter only when the step's time has passed since its entry. It commands a radio
power cycle exactly when it enters one of the three power-cycle states. -/
theorem C27_step (h : QuakeFH) (r : RadioIO) (cc : U32) (he : h.enabled = true) :
    let h' := (h.execute r cc).2.1
    let r' := (h.execute r cc).2.2
    (h'.state = h.state ∨ h'.state = Qfh.unfaulted ∨
      (h.state = Qfh.unfaulted ∧ h'.state = Qfh.forcedStandby ∧ day ≤ sinceContact r cc ∧ r.state ≠ Radio.disabled) ∨
      (∃ t, Ladder h.state h'.state t ∧ t ≤ (cc - h.entry).toNat)) ∧
    (h'.state ≠ h.state → h'.entry = cc) ∧
    (h'.state = h.state → h'.entry = h.entry) ∧
    (r'.powerCycle = true ↔ r.powerCycle = true ∨ (IsPowercycle h'.state ∧ h'.state ≠ h.state)) ∧
    h'.enabled = true ∧ r'.lastComms = r.lastComms := by
  intro h' r'
  have hlast : r'.lastComms = r.lastComms := by
    show (h.execute r cc).2.2.lastComms = _
    exact execute_lastComms h r cc
  rcases execute_cases h r cc he with ⟨next, t, hl, ht, _, h2, h3, _⟩ | ⟨hu, hc, hd, hex⟩ | ⟨hu, hno, _, h2, h3⟩ | ⟨hno, h2, h3, _⟩
  · have e : h'.state = next := by show (h.execute r cc).2.1.state = _; rw [h2]; rfl
    have ee : h'.entry = cc := by show (h.execute r cc).2.1.entry = _; rw [h2]; rfl
    have een : h'.enabled = true := by show (h.execute r cc).2.1.enabled = _; rw [h2]; exact he
    refine ⟨Or.inr (Or.inr (Or.inr ⟨t, e.symm ▸ hl, ht⟩)), fun _ => ee, fun hh => absurd (hh.symm.trans e) (ladder_ne hl).1, ?_, een, hlast⟩
    have : r'.powerCycle = (r.powerCycle || decide (next ≠ Qfh.safehold)) := h3
    rw [this, Bool.or_eq_true, decide_eq_true_iff, e]
    have hip : IsPowercycle next ↔ next ≠ Qfh.safehold := by
      clear h2 h3 e ht
      generalize h.state = x at hl
      cases hl <;> unfold IsPowercycle <;> decide
    rw [hip]
    exact ⟨fun h => h.imp_right fun x => ⟨x, (ladder_ne hl).1.symm⟩, fun h => h.imp_right fun x => x.1⟩
  · have e : (h', r') = (h.goto cc Qfh.forcedStandby, r) := by show ((h.execute r cc).2.1, (h.execute r cc).2.2) = _; rw [hex]
    have e1 : h' = h.goto cc Qfh.forcedStandby := congrArg Prod.fst e
    have e2 : r' = r := congrArg Prod.snd e
    rw [e1, e2]
    refine ⟨Or.inr (Or.inr (Or.inl ⟨hu, rfl, Nat.le_of_not_lt hc, hd⟩)), fun _ => rfl, fun hh => ?_, ?_, he, rfl⟩
    · have : Qfh.forcedStandby = h.state := hh
      rw [hu] at this; exact absurd this (by decide)
    · exact ⟨Or.inl, fun h => h.elim id fun x => absurd x.1 (show ¬ IsPowercycle Qfh.forcedStandby by unfold IsPowercycle; decide)⟩
  · have e1 : h' = h.goto cc Qfh.unfaulted := h2
    have e2 : r'.powerCycle = r.powerCycle := h3
    refine ⟨Or.inr (Or.inl (by rw [e1]; rfl)), fun _ => by rw [e1]; rfl, fun hh => ?_, ?_, by rw [e1]; exact he, hlast⟩
    · rw [e1] at hh; exact absurd hh.symm hu
    · rw [e1, e2]
      exact ⟨Or.inl, fun h => h.elim id fun x => absurd x.1 (show ¬ IsPowercycle Qfh.unfaulted by unfold IsPowercycle; decide)⟩
  · have e1 : h' = h := h2
    have e2 : r'.powerCycle = r.powerCycle := h3
    rw [e1, e2]
    exact ⟨Or.inl rfl, fun hh => absurd rfl hh, fun _ => rfl, ⟨Or.inl, fun h => h.elim id fun x => absurd rfl x.2⟩, he, hlast⟩

example : let h : QuakeFH := ⟨Qfh.forcedStandby, 10, true⟩
    (h.execute ⟨Radio.wait, 0, false⟩ 508245).2 = (⟨Qfh.powercycle1, 508245, true⟩, ⟨Radio.disabled, 0, true⟩) ∧
    (h.execute ⟨Radio.wait, 0, false⟩ 508244).2 = (h, ⟨Radio.wait, 0, false⟩) := by decide

namespace Spec

/-- The handler state after each cycle of a history is `s` and stays there: `mid` cycles after entering in the cycle `j`. -/
def StaysIn (h : QuakeFH) (s : U8) (pre : List QIn) (j : QIn) (mid : List QIn) : Prop :=
  (qrun h pre).state ≠ s ∧ ∀ k, k ≤ mid.length → (qrun h (pre ++ j :: mid.take k)).state = s

end Spec

theorem sub_ofNat (c0 : U32) (a b : Nat) (h : a ≤ b) : (c0 + BitVec.ofNat 32 b - (c0 + BitVec.ofNat 32 a)).toNat = (b - a) % 2 ^ 32 := by
  obtain ⟨d, rfl⟩ := Nat.exists_eq_add_of_le h
  simp only [BitVec.toNat_sub, BitVec.toNat_add, BitVec.toNat_ofNat]
  have := c0.isLt
  omega

theorem qrun_append (h : QuakeFH) (a b : List QIn) : qrun h (a ++ b) = qrun (qrun h a) b := by
  unfold qrun; rw [List.foldl_append]

theorem qrun_enabled (h : QuakeFH) (he : h.enabled = true) (a : List QIn) : (qrun h a).enabled = true := by
  induction a generalizing h with
  | nil => exact he
  | cons i a ih => exact ih _ (C27_step h i.io i.cc he).2.2.2.2.1

/-- Where the handler is away from its initial state, the history contains the cycle in which it was entered. -/
theorem entry_inv (h : QuakeFH) (he : h.enabled = true) (ins : List QIn) (hs : (qrun h ins).state ≠ h.state) :
    ∃ pre j mid, ins = pre ++ j :: mid ∧ StaysIn h (qrun h ins).state pre j mid ∧ (qrun h ins).entry = j.cc := by
  induction ins using List.reverseRecOn with
  | nil => exact absurd rfl hs
  | append_singleton ins i ih =>
    have hen := qrun_enabled h he ins
    have hq : qrun h (ins ++ [i]) = ((qrun h ins).execute i.io i.cc).2.1 := by rw [qrun_append]; rfl
    obtain ⟨_, s2, s3, _⟩ := C27_step (qrun h ins) i.io i.cc hen
    rw [← hq] at s2 s3
    by_cases hc : (qrun h (ins ++ [i])).state = (qrun h ins).state
    · obtain ⟨pre, j, mid, e, ⟨st1, st2⟩, et⟩ := ih (by rw [← hc]; exact hs)
      refine ⟨pre, j, mid ++ [i], by rw [e]; simp, ⟨by rw [hc]; exact st1, fun k hk => ?_⟩, by rw [s3 hc]; exact et⟩
      rw [List.length_append, List.length_singleton] at hk
      by_cases hk' : k ≤ mid.length
      · rw [List.take_append_of_le_length hk', hc]; exact st2 k hk'
      · have : (mid ++ [i]).take k = mid ++ [i] := List.take_of_length_le (by simp; omega)
        have e' : ins ++ [i] = pre ++ j :: (mid ++ [i]) := by rw [e]; simp
        rw [this, ← e']
    · refine ⟨ins, i, [], rfl, ⟨fun e => hc e.symm, fun k hk => ?_⟩, s2 hc⟩
      rw [List.length_nil, Nat.le_zero] at hk
      rw [hk]; rfl

/-- C27: over every history of control cycles since the handler was last unfaulted (radio states, contact times and cycle numbers
arbitrary, except that consecutive cycles have consecutive numbers), if in some cycle the handler takes a step of the
ladder, then it entered the step it leaves in the cycle before a stretch of `mid` cycles during all of which it stayed
there, and the time from entry to this cycle is at least the step's time: a day for forced standby, eight hours for
each power cycle. -/
theorem C27_waits (h : QuakeFH) (he : h.enabled = true) (h0 : h.state = Qfh.unfaulted) (ins : List QIn) (i : QIn) (c0 : U32)
    (hcc : ∀ k (hk : k < (ins ++ [i]).length), (ins ++ [i])[k].cc = c0 + BitVec.ofNat 32 k)
    (hnew : (qrun h (ins ++ [i])).state ≠ (qrun h ins).state) (hcl : (qrun h (ins ++ [i])).state ≠ Qfh.unfaulted)
    (hst : (qrun h ins).state ≠ Qfh.unfaulted) :
    ∃ t pre j mid, Ladder (qrun h ins).state (qrun h (ins ++ [i])).state t ∧
      ins = pre ++ j :: mid ∧ StaysIn h (qrun h ins).state pre j mid ∧ t ≤ mid.length + 1 := by
  obtain ⟨pre, j, mid, e, st, et⟩ := entry_inv h he ins (by rw [h0]; exact hst)
  have hq : qrun h (ins ++ [i]) = ((qrun h ins).execute i.io i.cc).2.1 := by rw [qrun_append]; rfl
  obtain ⟨s1, _⟩ := C27_step (qrun h ins) i.io i.cc (qrun_enabled h he ins)
  rw [← hq] at s1
  rcases s1 with s | s | s | ⟨t, hl, ht⟩
  · exact absurd s hnew
  · exact absurd s hcl
  · exact absurd s.1 hst
  · refine ⟨t, pre, j, mid, hl, e, st, ?_⟩
    have hlen : ins.length = pre.length + (mid.length + 1) := by rw [e]; simp
    have hi := hcc ins.length (by simp)
    have hj := hcc pre.length (by simp; omega)
    rw [List.getElem_append_right (Nat.le_refl _)] at hi
    rw [List.getElem_append_left (by omega)] at hj
    have hi' : i.cc = c0 + BitVec.ofNat 32 ins.length := by simpa using hi
    have hj' : j.cc = c0 + BitVec.ofNat 32 pre.length := by
      rw [← hj]; congr 1
      simp [e]
    rw [et, hi', hj', hlen] at ht
    rw [sub_ofNat c0 _ _ (Nat.le_add_right _ _), Nat.add_sub_cancel_left] at ht
    exact Nat.le_trans ht (Nat.mod_le _ _)

namespace Spec

/-- The state the ladder prescribes `n` cycles after contact has been missing for a day. -/
def ladderState (n : Nat) : U8 :=
  if n < day then Qfh.forcedStandby
  else if n < day + eightHours then Qfh.powercycle1
  else if n < day + 2 * eightHours then Qfh.powercycle2
  else if n < day + 3 * eightHours then Qfh.powercycle3
  else Qfh.safehold

/-- When that state was entered. -/
def ladderEntry (n : Nat) : Nat :=
  if n < day then 0
  else if n < day + eightHours then day
  else if n < day + 2 * eightHours then day + eightHours
  else if n < day + 3 * eightHours then day + 2 * eightHours
  else day + 3 * eightHours

end Spec

theorem ladder_step (h : QuakeFH) (he : h.enabled = true) (r : RadioIO) (c0 : U32) (n : Nat) (hc : day ≤ sinceContact r (c0 + BitVec.ofNat 32 (n + 1)))
    (hd : (n + 1 < day ∨ day + 3 * eightHours < n + 1) → r.state ≠ Radio.disabled)
    (hs : h.state = ladderState n) (hen : h.entry = c0 + BitVec.ofNat 32 (ladderEntry n)) :
    (h.execute r (c0 + BitVec.ofNat 32 (n + 1))).2.1.state = ladderState (n + 1) ∧
    (h.execute r (c0 + BitVec.ofNat 32 (n + 1))).2.1.entry = c0 + BitVec.ofNat 32 (ladderEntry (n + 1)) ∧
    (h.execute r (c0 + BitVec.ofNat 32 (n + 1))).1 = if n < day + 3 * eightHours then .standby else .safehold := by
  have hD : day = 508235 := rfl
  have hE : eightHours = 169411 := rfl
  have hle : ladderEntry n ≤ n + 1 := by unfold ladderEntry; split_ifs <;> omega
  have hdur : (c0 + BitVec.ofNat 32 (n + 1) - h.entry).toNat = (n + 1 - ladderEntry n) % 2 ^ 32 := by rw [hen]; exact sub_ofNat c0 _ _ hle
  have hnc : ¬ sinceContact r (c0 + BitVec.ofNat 32 (n + 1)) < day := Nat.not_lt.2 hc
  by_cases h5 : day + 3 * eightHours ≤ n
  · have e1 : ladderState n = Qfh.safehold := by
      unfold ladderState; rw [if_neg (by omega), if_neg (by omega), if_neg (by omega), if_neg (by omega)]
    have e2 : ladderState (n + 1) = Qfh.safehold := by
      unfold ladderState; rw [if_neg (by omega), if_neg (by omega), if_neg (by omega), if_neg (by omega)]
    have e3 : ladderEntry (n + 1) = ladderEntry n := by
      unfold ladderEntry
      rw [if_neg (by omega), if_neg (by omega), if_neg (by omega), if_neg (by omega), if_neg (by omega), if_neg (by omega), if_neg (by omega),
        if_neg (by omega)]
    rw [e1] at hs
    rw [execute_safehold h r _ he hs, dispatchSafehold, if_neg, e2, e3, if_neg (by omega)]
    · exact ⟨hs, hen, rfl⟩
    · rw [Bool.or_eq_true, not_or, recent_iff, radioDisabled, decide_eq_true_iff]
      exact ⟨hd (Or.inr (by omega)), hnc⟩
  · rw [if_pos (by omega)]
    by_cases h1 : n < day
    · have e1 : ladderState n = Qfh.forcedStandby := by unfold ladderState; rw [if_pos h1]
      have e0 : ladderEntry n = 0 := by unfold ladderEntry; rw [if_pos h1]
      rw [e1] at hs
      have hdur' : (c0 + BitVec.ofNat 32 (n + 1) - h.entry).toNat = n + 1 := by
        rw [hdur, e0]; exact Nat.mod_eq_of_lt (by omega)
      rw [execute_forced h r _ he hs, dispatchForcedStandby]
      by_cases h2 : n + 1 < day
      · rw [if_neg (fun x => by have := (inDay_iff h _).1 x; omega), if_neg]
        · have e2 : ladderState (n + 1) = Qfh.forcedStandby := by unfold ladderState; rw [if_pos h2]
          have e3 : ladderEntry (n + 1) = 0 := by unfold ladderEntry; rw [if_pos h2]
          rw [e2, e3, ← e0]
          exact ⟨hs, hen, rfl⟩
        · rw [Bool.or_eq_true, not_or, recent_iff, radioDisabled, decide_eq_true_iff]
          exact ⟨hd (Or.inl h2), hnc⟩
      · rw [if_pos ((inDay_iff h _).2 (by omega))]
        have e2 : ladderState (n + 1) = Qfh.powercycle1 := by unfold ladderState; rw [if_neg h2, if_pos (by omega)]
        have e3 : ladderEntry (n + 1) = n + 1 := by unfold ladderEntry; rw [if_neg h2, if_pos (by omega)]; omega
        rw [e2, e3]
        exact ⟨rfl, rfl, rfl⟩
    · have key : ∀ (k : Nat) (next : U8), Ladder h.state next eightHours → day + k * eightHours ≤ n → n < day + (k + 1) * eightHours →
          ladderEntry n = day + k * eightHours →
          (n + 1 < day + (k + 1) * eightHours → ladderState (n + 1) = ladderState n ∧ ladderEntry (n + 1) = ladderEntry n) →
          (n + 1 = day + (k + 1) * eightHours → ladderState (n + 1) = next ∧ ladderEntry (n + 1) = n + 1) →
          k ≤ 2 →
          (h.execute r (c0 + BitVec.ofNat 32 (n + 1))).2.1.state = ladderState (n + 1) ∧
          (h.execute r (c0 + BitVec.ofNat 32 (n + 1))).2.1.entry = c0 + BitVec.ofNat 32 (ladderEntry (n + 1)) ∧
          (h.execute r (c0 + BitVec.ofNat 32 (n + 1))).1 = .standby := by
        intro k next hl hk1 hk2 hke hsame hnext hk
        have hdur' : (c0 + BitVec.ofNat 32 (n + 1) - h.entry).toNat = n + 1 - (day + k * eightHours) := by
          rw [hdur, hke]; exact Nat.mod_eq_of_lt (by omega)
        have hmul : (k + 1) * eightHours = k * eightHours + eightHours := by rw [Nat.add_mul, Nat.one_mul]
        rw [execute_powercycle h r _ he next hl]
        rcases powercycle_cases h r (c0 + BitVec.ofNat 32 (n + 1)) next with ⟨x1, x2⟩ | ⟨_, x1, _⟩ | ⟨x1, _, x2⟩
        · rw [x2]
          rw [hdur'] at x1
          obtain ⟨a1, a2⟩ := hnext (by omega)
          rw [a1, a2]
          exact ⟨rfl, rfl, rfl⟩
        · exact absurd x1 hnc
        · rw [x2]
          rw [hdur'] at x1
          obtain ⟨a1, a2⟩ := hsame (by omega)
          rw [a1, a2]
          exact ⟨hs, hen, rfl⟩
      by_cases h2 : n < day + eightHours
      · have e1 : ladderState n = Qfh.powercycle1 := by unfold ladderState; rw [if_neg h1, if_pos h2]
        have e0 : ladderEntry n = day := by unfold ladderEntry; rw [if_neg h1, if_pos h2]
        refine key 0 Qfh.powercycle2 (by rw [hs, e1]; exact .cycle2) (by omega) (by omega) (by rw [e0]; omega) (fun hx => ?_) (fun hx => ?_) (by omega)
        · rw [e1, e0]; unfold ladderState ladderEntry
          rw [if_neg (by omega), if_pos (by omega), if_neg (by omega), if_pos (by omega)]; exact ⟨rfl, rfl⟩
        · unfold ladderState ladderEntry
          rw [if_neg (by omega), if_neg (by omega), if_pos (by omega), if_neg (by omega), if_neg (by omega), if_pos (by omega)]
          exact ⟨rfl, by omega⟩
      · by_cases h3 : n < day + 2 * eightHours
        · have e1 : ladderState n = Qfh.powercycle2 := by unfold ladderState; rw [if_neg h1, if_neg h2, if_pos h3]
          have e0 : ladderEntry n = day + eightHours := by unfold ladderEntry; rw [if_neg h1, if_neg h2, if_pos h3]
          refine key 1 Qfh.powercycle3 (by rw [hs, e1]; exact .cycle3) (by omega) (by omega) (by rw [e0]; omega) (fun hx => ?_) (fun hx => ?_) (by omega)
          · rw [e1, e0]; unfold ladderState ladderEntry
            rw [if_neg (by omega), if_neg (by omega), if_pos (by omega), if_neg (by omega), if_neg (by omega), if_pos (by omega)]; exact ⟨rfl, rfl⟩
          · unfold ladderState ladderEntry
            rw [if_neg (by omega), if_neg (by omega), if_neg (by omega), if_pos (by omega), if_neg (by omega), if_neg (by omega), if_neg (by omega),
              if_pos (by omega)]
            exact ⟨rfl, by omega⟩
        · have e1 : ladderState n = Qfh.powercycle3 := by unfold ladderState; rw [if_neg h1, if_neg h2, if_neg h3, if_pos (by omega)]
          have e0 : ladderEntry n = day + 2 * eightHours := by unfold ladderEntry; rw [if_neg h1, if_neg h2, if_neg h3, if_pos (by omega)]
          refine key 2 Qfh.safehold (by rw [hs, e1]; exact .last) (by omega) (by omega) (by rw [e0]) (fun hx => ?_) (fun hx => ?_) (by omega)
          · rw [e1, e0]; unfold ladderState ladderEntry
            rw [if_neg (by omega), if_neg (by omega), if_neg (by omega), if_pos (by omega), if_neg (by omega), if_neg (by omega), if_neg (by omega),
              if_pos (by omega)]; exact ⟨rfl, rfl⟩
          · unfold ladderState ladderEntry
            rw [if_neg (by omega), if_neg (by omega), if_neg (by omega), if_neg (by omega), if_neg (by omega), if_neg (by omega), if_neg (by omega),
              if_neg (by omega)]
            exact ⟨rfl, by omega⟩

/-- C27, exact timeline: if the handler is unfaulted and from cycle `c0` on there is no contact for a day in any cycle (and nobody
else turns the radio off while the handler waits in forced standby or safehold), then for any number of cycles its state
is the ladder's: forced standby for a day, three power cycles of eight hours, then safehold for good. The response is
standby up to the last step and safehold from the next cycle on. -/
theorem C27_timeline (h : QuakeFH) (he : h.enabled = true) (h0 : h.state = Qfh.unfaulted) (ins : List QIn) (i : QIn) (c0 : U32)
    (hcc : ∀ k (hk : k < (ins ++ [i]).length), (ins ++ [i])[k].cc = c0 + BitVec.ofNat 32 k)
    (hno : ∀ x ∈ ins ++ [i], day ≤ sinceContact x.io x.cc)
    (hradio : ∀ k (hk : k < (ins ++ [i]).length), (k < day ∨ day + 3 * eightHours < k) → (ins ++ [i])[k].io.state ≠ Radio.disabled) :
    (qrun h (ins ++ [i])).state = ladderState ins.length ∧
    ((qrun h ins).execute i.io i.cc).1 = if ins.length ≤ day + 3 * eightHours then .standby else .safehold := by
  suffices hh : (qrun h (ins ++ [i])).state = ladderState ins.length ∧ (qrun h (ins ++ [i])).entry = c0 + BitVec.ofNat 32 (ladderEntry ins.length) ∧
      ((qrun h ins).execute i.io i.cc).1 = if ins.length ≤ day + 3 * eightHours then .standby else .safehold from ⟨hh.1, hh.2.2⟩
  induction ins using List.reverseRecOn generalizing i with
  | nil =>
    have hc : i.cc = c0 := by have := hcc 0 (by simp); simpa using this
    have h1 : day ≤ sinceContact i.io i.cc := hno i (by simp)
    have h2 : i.io.state ≠ Radio.disabled := by have := hradio 0 (by simp) (Or.inl (by decide)); simpa using this
    have hex := execute_unfaulted h i.io i.cc he h0
    rw [dispatchUnfaulted, if_neg (by
      rw [Bool.or_eq_true, not_or, recent_iff, radioDisabled, decide_eq_true_iff]; exact ⟨h2, Nat.not_lt.2 h1⟩)] at hex
    show (h.execute i.io i.cc).2.1.state = _ ∧ (h.execute i.io i.cc).2.1.entry = _ ∧ (h.execute i.io i.cc).1 = _
    rw [hex, if_pos (show ([] : List QIn).length ≤ _ from Nat.zero_le _)]
    refine ⟨rfl, ?_, rfl⟩
    show i.cc = c0 + 0#32
    rw [hc, BitVec.add_zero]
  | append_singleton ins j ih =>
    obtain ⟨a1, a2, _⟩ := ih j (fun k hk => by
        have := hcc k (by simp at hk ⊢; omega)
        rw [List.getElem_append_left (by simp at hk ⊢; omega)] at this; exact this)
      (fun x hx => hno x (List.mem_append_left _ hx))
      (fun k hk hk' => by
        have := hradio k (by simp at hk ⊢; omega) hk'
        rw [List.getElem_append_left (by simp at hk ⊢; omega)] at this; exact this)
    have hlen : (ins ++ [j]).length = ins.length + 1 := by simp
    have hc : i.cc = c0 + BitVec.ofNat 32 (ins.length + 1) := by
      have := hcc (ins.length + 1) (by simp)
      rw [List.getElem_append_right (by simp)] at this
      simpa using this
    have hst := ladder_step (qrun h (ins ++ [j])) (qrun_enabled h he _) i.io c0 ins.length (by rw [← hc]; exact hno i (by simp))
      (fun hx => by
        have := hradio (ins.length + 1) (by simp) (hx.imp_right id)
        rw [List.getElem_append_right (by simp)] at this
        simpa using this) a1 a2
    rw [qrun_append, hlen]
    show ((qrun h (ins ++ [j])).execute i.io i.cc).2.1.state = _ ∧ ((qrun h (ins ++ [j])).execute i.io i.cc).2.1.entry = _ ∧ _
    rw [hc]
    refine ⟨hst.1, hst.2.1, hst.2.2.trans ?_⟩
    by_cases hx : ins.length < day + 3 * eightHours
    · rw [if_pos hx, if_pos (by omega)]
    · rw [if_neg hx, if_neg (by omega)]

/-- Silence: `n` cycles without contact from cycle 508235 on, the radio waiting. -/
def Spec.silence (n : Nat) : List QIn := (List.range n).map fun k => ⟨508235 + BitVec.ofNat 32 k, ⟨Radio.wait, 0, false⟩⟩

theorem silence_timeline (n : Nat) (hn : n < 2000000) :
    (qrun QuakeFH.init (silence (n + 1))).state = ladderState n := by
  have e : silence (n + 1) = silence n ++ [⟨508235 + BitVec.ofNat 32 n, ⟨Radio.wait, 0, false⟩⟩] := by
    unfold silence; rw [List.range_succ, List.map_append]; rfl
  have hl : (silence n).length = n := by simp [silence]
  have hg : ∀ k (hk : k < (silence (n + 1)).length), (silence (n + 1))[k] = ⟨508235 + BitVec.ofNat 32 k, ⟨Radio.wait, 0, false⟩⟩ := by
    intro k hk; simp [silence]
  have := (C27_timeline QuakeFH.init rfl rfl (silence n) ⟨508235 + BitVec.ofNat 32 n, ⟨Radio.wait, 0, false⟩⟩ 508235
    (by rw [← e]; intro k hk; rw [hg k hk])
    (by
      rw [← e]; intro x hx
      obtain ⟨k, hk, rfl⟩ := List.getElem_of_mem hx
      rw [hg k hk]
      have hk' : k < n + 1 := by simpa [silence] using hk
      show 508235 ≤ (508235 + BitVec.ofNat 32 k - 0 : U32).toNat
      rw [BitVec.toNat_sub, BitVec.toNat_add, BitVec.toNat_ofNat]
      have h1 : (508235 : U32).toNat = 508235 := rfl
      have h2 : (0 : U32).toNat = 0 := rfl
      omega)
    (by rw [← e]; intro k hk _; rw [hg k hk]; exact show Radio.wait ≠ Radio.disabled by decide)).1
  rw [← e, hl] at this
  exact this

-- The ladder reaches safehold at the end of the third power cycle, and the hypotheses of `C27_waits` hold at each step.
example : (qrun QuakeFH.init (silence 1016469)).state = Qfh.safehold ∧ (qrun QuakeFH.init (silence 1016468)).state = Qfh.powercycle3 ∧
    (qrun QuakeFH.init (silence 508236)).state = Qfh.powercycle1 ∧ (qrun QuakeFH.init (silence 508235)).state = Qfh.forcedStandby :=
  ⟨silence_timeline 1016468 (by decide), silence_timeline 1016467 (by decide), silence_timeline 508235 (by decide), silence_timeline 508234 (by decide)⟩

/-- C28: contact within the last day clears the fault in the same cycle, whatever the state, unless the time of the current
ladder step is over in that very cycle. -/
theorem C28_contact_clears (h : QuakeFH) (r : RadioIO) (cc : U32) (he : h.enabled = true) (hc : sinceContact r cc < day)
    (hrace : ∀ next t, Ladder h.state next t → (cc - h.entry).toNat < t) :
    (h.execute r cc).1 = .none ∧ (h.execute r cc).2.1.state = Qfh.unfaulted := by
  rcases execute_cases h r cc he with ⟨next, t, hl, ht, _⟩ | ⟨_, hn, _⟩ | ⟨_, _, h1, h2, _⟩ | ⟨_, h2, _, h4, h5, _⟩
  · have := hrace next t hl; omega
  · exact absurd hc hn
  · exact ⟨h1, by rw [h2]; rfl⟩
  · have hu : h.state = Qfh.unfaulted := Classical.byContradiction fun hx => h5 hx hc
    exact ⟨h4.2 hu, by rw [h2]; exact hu⟩

/-- C28: even if the deadline expires in the cycle in which contact is made, the fault is cleared in the next one. -/
theorem C28_contact_clears_next (h : QuakeFH) (r r' : RadioIO) (cc : U32) (he : h.enabled = true) (hc : sinceContact r cc < day)
    (hc' : sinceContact r' (cc + 1) < day) :
    ((h.execute r cc).2.1.execute r' (cc + 1)).1 = .none ∧ ((h.execute r cc).2.1.execute r' (cc + 1)).2.1.state = Qfh.unfaulted := by
  obtain ⟨_, s2, s3, _, s5, _⟩ := C27_step h r cc he
  refine C28_contact_clears _ r' (cc + 1) s5 hc' (fun next t hl => ?_)
  have hne : (h.execute r cc).2.1.state ≠ h.state := by
    intro e
    rcases execute_cases h r cc he with ⟨n', t', hl', _, _, h2, _⟩ | ⟨_, hn, _⟩ | ⟨hu, _, _, h2, _⟩ | ⟨_, h2, _, _, h5, _⟩
    · rw [h2] at e; exact (ladder_ne hl').1 e.symm
    · exact hn hc
    · rw [h2] at e; exact hu e.symm
    · rw [h2] at hl
      exact h5 (ladder_ne hl).2.2 hc
  rw [s2 hne]
  have : (cc + 1 - cc).toNat = 1 := by
    have h1 : cc + 1 - cc = 1 := by
      apply BitVec.eq_of_toNat_eq
      simp only [BitVec.toNat_sub, BitVec.toNat_add]
      have := cc.isLt
      have h1 : (1 : U32).toNat = 1 := rfl
      omega
    rw [h1]; rfl
  rw [this]
  generalize (h.execute r cc).2.1.state = x at hl
  cases hl <;> decide

example : let h : QuakeFH := ⟨Qfh.powercycle2, 100, true⟩
    sinceContact ⟨Radio.wait, 150, false⟩ 200 < day ∧ (h.execute ⟨Radio.wait, 150, false⟩ 200).2.1.state = Qfh.unfaulted := by decide

/-- C58 (partial: the handler must run in the cycle after the power cycle): a power-cycle entry turns the radio off and commands the
power cycle, and in the next cycle the radio is configured again, whatever else happens. -/
theorem C58_radio_back_on_partial (h : QuakeFH) (r r' : RadioIO) (cc : U32) (he : h.enabled = true)
    (hp : IsPowercycle (h.execute r cc).2.1.state) (hn : (h.execute r cc).2.1.state ≠ h.state) :
    (h.execute r cc).2.2.state = Radio.disabled ∧ (h.execute r cc).2.2.powerCycle = true ∧
    ((h.execute r cc).2.1.execute r' (cc + 1)).2.2.state = Radio.config := by
  obtain ⟨_, s2, _, s4, s5, _⟩ := C27_step h r cc he
  refine ⟨?_, s4.2 (Or.inr ⟨hp, hn⟩), ?_⟩
  · rcases execute_cases h r cc he with ⟨n', t', hl', _, _, h2, _, h4⟩ | ⟨_, _, _, hex⟩ | ⟨hu, _, _, h2, _⟩ | ⟨_, h2, _⟩
    · refine h4 (fun e => ?_)
      rw [h2, e] at hp
      exact absurd hp (show ¬ IsPowercycle Qfh.safehold by unfold IsPowercycle; decide)
    · rw [hex] at hp
      exact absurd hp (show ¬ IsPowercycle Qfh.forcedStandby by unfold IsPowercycle; decide)
    · rw [h2] at hp
      exact absurd hp (show ¬ IsPowercycle Qfh.unfaulted by unfold IsPowercycle; decide)
    · rw [h2] at hn; exact absurd rfl hn
  · generalize hq : (h.execute r cc).2.1 = q at *
    have hent : q.entry = cc := s2 hn
    have hl : ∃ next, Ladder q.state next eightHours := by
      rcases hp with e | e | e <;> rw [e]
      · exact ⟨_, .cycle2⟩
      · exact ⟨_, .cycle3⟩
      · exact ⟨_, .last⟩
    obtain ⟨next, hl⟩ := hl
    rw [execute_powercycle q r' (cc + 1) s5 next hl]
    have h1 : ¬ eightHours ≤ (cc + 1 - q.entry).toNat := by
      rw [hent]
      have : (cc + 1 - cc).toNat = 1 := by
        have h1 : cc + 1 - cc = 1 := by
          apply BitVec.eq_of_toNat_eq
          simp only [BitVec.toNat_sub, BitVec.toNat_add]
          have := cc.isLt
          have h1 : (1 : U32).toNat = 1 := rfl
          omega
        rw [h1]; rfl
      rw [this]; decide
    have hge : q.entry + 1 ≥ cc + 1 := by rw [hent]; exact BitVec.le_refl _
    rcases powercycle_cases q r' (cc + 1) next with ⟨x1, _⟩ | ⟨_, _, x2⟩ | ⟨_, _, x2⟩
    · exact absurd x1 h1
    · rw [x2]; dsimp only; rw [if_pos hge]
    · rw [x2]; dsimp only; rw [if_pos hge]

/-- C58 does not hold in full: if the handler is not called in the cycle after a power cycle (the main fault handler stops at the
first safehold response, see `C58_counterexample_low_battery`), the radio stays off until the step is over. -/
theorem C58_counterexample_skipped (h : QuakeFH) (he : h.enabled = true) (hp : IsPowercycle h.state) (r : RadioIO) (cc : U32)
    (h2 : 2 ≤ cc.toNat - h.entry.toNat) (hlt : cc.toNat - h.entry.toNat < eightHours) :
    (h.execute r cc).2.2.state = r.state := by
  have hl : ∃ next, Ladder h.state next eightHours := by
    rcases hp with e | e | e <;> rw [e]
    · exact ⟨_, .cycle2⟩
    · exact ⟨_, .cycle3⟩
    · exact ⟨_, .last⟩
  obtain ⟨next, hl⟩ := hl
  rw [execute_powercycle h r cc he next hl]
  have hE : eightHours = 169411 := rfl
  have := cc.isLt
  have := h.entry.isLt
  have hsub : (cc - h.entry).toNat = cc.toNat - h.entry.toNat := by rw [BitVec.toNat_sub]; omega
  have hge : ¬ (h.entry + 1 ≥ cc) := by
    rw [ge_iff_le, BitVec.le_def, BitVec.toNat_add]
    have h1 : (1 : U32).toNat = 1 := rfl
    omega
  rcases powercycle_cases h r cc next with ⟨x1, _⟩ | ⟨_, _, x2⟩ | ⟨_, _, x2⟩
  · omega
  · rw [x2]; dsimp only; rw [if_neg hge]
  · rw [x2]; dsimp only; rw [if_neg hge]

end PAN
