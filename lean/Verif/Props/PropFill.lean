import Verif.Props.Prop
/-!
Property C38: pressurising and venting are bounded.
-/
namespace PAN
open Driver
namespace Spec

/-- How many valves of tank `t` one call of `execute` opens (no tank has more than four). -/
def opened (c : Ctl) (e : PropEnv) (t : TankId) : Nat := ((List.range 4).filter fun j => decide (Opens c e t j)).length

/-- How many times valves of tank `t` are opened while the controller stays in state `s`: up to the first `execute` that does
not find it in `s` or moves it out of `s`. -/
def openings (s : U32) (t : TankId) : Ctl → List PropCycle → Nat
  | _, [] => 0
  | c, y :: ys =>
    if (c.beforeExecute y).state = s then
      opened (c.beforeExecute y) y.env t + if (c.cycle y).state = s then openings s t (c.cycle y) ys else 0
    else 0

/-- Other tasks and ground do nothing to the propulsion state in this cycle except disabling it. -/
def OnlyDisables (y : PropCycle) : Prop := ∀ x, PropWrite.state x ∈ y.writes → x = Prp.disabled

/-- The commanded durations are within the limit of the controller. -/
def ScheduleOk (c : Ctl) : Prop := c.v1.toNat ≤ 1000 ∧ c.v2.toNat ≤ 1000 ∧ c.v3.toNat ≤ 1000 ∧ c.v4.toNat ≤ 1000

instance (c : Ctl) : Decidable (ScheduleOk c) := inferInstanceAs (Decidable (_ ∧ _))

/-- One of the four propulsion faults is tripped. -/
def SomeFault (f : PropFaults) : Prop :=
  f.press.isFaulted = true ∨ f.over.isFaulted = true ∨ f.temp2.isFaulted = true ∨ f.temp1.isFaulted = true

instance (f : PropFaults) : Decidable (SomeFault f) := inferInstanceAs (Decidable (_ ∨ _))

end Spec
open Spec Ctl


namespace ActionCycle

/-- What an evaluation does to the valve it operates and to its counter. -/
theorem evaluate_valve (a : ActionCycle) (d : Driver) (t : TankId) (succ fail : Bool) (max fill close sel : Nat) (r : ActRes)
    (a' : ActionCycle) (d' : Driver) (he : a.evaluate d t succ fail max fill close sel = (r, a', d')) :
    -- opening a valve takes one of the remaining cycles
    (∀ j, d.isValveOpen t j = false → d'.isValveOpen t j = true →
      r = .started ∧ a'.cur = j ∧ a'.timer = fill) ∧
    (r = .started → a'.count = a.count + 1 ∧ a.count < max ∧ d.isValveOpen t a.cur = false) ∧
    (r ≠ .started → a'.count = a.count ∧ a'.cur = a.cur) ∧
    -- an open valve is closed when the timer runs out
    (r = .stay → d.isValveOpen t a.cur = true → d'.isValveOpen t a.cur = false ∨ (1 < a.timer ∧ a'.timer = a.timer - 1)) ∧
    (r = .succeeded ∨ r = .outOfCycles → d'.isValveOpen t a.cur = false) ∧
    (r = .succeeded → succ = true) ∧ (r = .failed → fail = true) ∧ (r = .outOfCycles → max ≤ a.count ∧ succ = false) := by
  have closing : (d.setValve t a.cur false).isValveOpen t a.cur = false := by
    rw [setValve_open]
    split
    · rfl
    · rename_i hn
      cases ho : d.isValveOpen t a.cur with
      | false => rfl
      | true =>
        refine absurd ⟨rfl, rfl, ?_⟩ hn
        apply Nat.lt_of_not_le
        intro hle
        cases t <;> simp only [isValveOpen, num] at ho hle
        · rw [List.getD_eq_getElem?_getD, List.getElem?_eq_none hle] at ho; cases ho
        · rw [List.getElem?_eq_none hle] at ho; cases ho
  have noOpen : ∀ i j, d.isValveOpen t j = false → (d.setValve t i false).isValveOpen t j = true → False := by
    intro i j h1 h2
    rw [setValve_open] at h2
    split at h2
    · cases h2
    · rw [h1] at h2; cases h2
  have same : ∀ j, d.isValveOpen t j = false → d.isValveOpen t j = true → False := by
    intro j h1 h2; rw [h1] at h2; cases h2
  unfold evaluate at he
  dsimp only at he
  by_cases hs : succ = true
  · rw [if_pos hs] at he; simp only [Prod.mk.injEq] at he
    obtain ⟨rfl, rfl, rfl⟩ := he
    exact ⟨fun j h1 h2 => absurd (noOpen _ _ h1 h2) id, nofun, fun _ => ⟨rfl, rfl⟩, nofun, fun _ => closing, fun _ => hs, nofun, nofun⟩
  rw [if_neg hs] at he
  by_cases hf : fail = true
  · rw [if_pos hf] at he; simp only [Prod.mk.injEq] at he
    obtain ⟨rfl, rfl, rfl⟩ := he
    exact ⟨fun j h1 h2 => absurd (same _ h1 h2) id, nofun, fun _ => ⟨rfl, rfl⟩, nofun, (fun h => by rcases h with h | h <;> cases h),
      nofun, fun _ => hf, nofun⟩
  rw [if_neg hf] at he
  by_cases ho : d.isValveOpen t a.cur = true
  · rw [if_pos ho] at he
    by_cases ht : a.timer - 1 = 0
    · rw [if_pos ht] at he; simp only [Prod.mk.injEq] at he
      obtain ⟨rfl, rfl, rfl⟩ := he
      exact ⟨fun j h1 h2 => absurd (noOpen _ _ h1 h2) id, nofun, fun _ => ⟨rfl, rfl⟩, fun _ _ => Or.inl closing,
        (fun h => by rcases h with h | h <;> cases h), nofun, nofun, nofun⟩
    · rw [if_neg ht] at he; simp only [Prod.mk.injEq] at he
      obtain ⟨rfl, rfl, rfl⟩ := he
      exact ⟨fun j h1 h2 => absurd (same _ h1 h2) id, nofun, fun _ => ⟨rfl, rfl⟩, fun _ _ => Or.inr ⟨by omega, rfl⟩,
        (fun h => by rcases h with h | h <;> cases h), nofun, nofun, nofun⟩
  rw [if_neg ho] at he
  have ho' : d.isValveOpen t a.cur = false := by
    cases h : d.isValveOpen t a.cur with
    | false => rfl
    | true => exact absurd h ho
  by_cases ht : a.timer - 1 = 0
  · rw [if_pos ht] at he
    by_cases hm : a.count ≥ max
    · rw [if_pos hm] at he; simp only [Prod.mk.injEq] at he
      obtain ⟨rfl, rfl, rfl⟩ := he
      exact ⟨fun j h1 h2 => absurd (same _ h1 h2) id, nofun, fun _ => ⟨rfl, rfl⟩, nofun, fun _ => ho', nofun, nofun,
        fun _ => ⟨hm, by cases succ; rfl; exact absurd rfl hs⟩⟩
    · rw [if_neg hm] at he; simp only [Prod.mk.injEq] at he
      obtain ⟨rfl, rfl, rfl⟩ := he
      refine ⟨fun j h1 h2 => ⟨rfl, ?_, rfl⟩, fun _ => ⟨rfl, by omega, ho'⟩, fun h => absurd rfl h, nofun, (fun h => by rcases h with h | h <;> cases h), nofun, nofun, nofun⟩
      rw [setValve_open] at h2
      split at h2
      · rename_i hn; exact hn.2.1
      · exact absurd (same _ h1 h2) id
  · rw [if_neg ht] at he; simp only [Prod.mk.injEq] at he
    obtain ⟨rfl, rfl, rfl⟩ := he
    exact ⟨fun j h1 h2 => absurd (same _ h1 h2) id, nofun, fun _ => ⟨rfl, rfl⟩, fun _ h => absurd h ho, (fun h => by rcases h with h | h <;> cases h), nofun, nofun, nofun⟩

/-- An evaluation does not touch the other tank. -/
theorem evaluate_other (a : ActionCycle) (d : Driver) (t : TankId) (succ fail : Bool) (max fill close sel : Nat) (r : ActRes)
    (a' : ActionCycle) (d' : Driver) (he : a.evaluate d t succ fail max fill close sel = (r, a', d')) (t' : TankId) (j : Nat)
    (ht : t' ≠ t) : d'.isValveOpen t' j = d.isValveOpen t' j := by
  have hset : ∀ i b, (d.setValve t i b).isValveOpen t' j = d.isValveOpen t' j := by
    intro i b
    rw [setValve_open, if_neg]
    exact fun h => ht h.1.symm
  unfold evaluate at he
  dsimp only at he
  repeat' split at he
  all_goals
    simp only [Prod.mk.injEq] at he
    rw [← he.2.2]
  all_goals first | rfl | exact hset _ _

end ActionCycle

namespace Ctl

/-- The closed tank-1 valves stay closed when a state is entered or refused. -/
theorem transition_open (c : Ctl) (e : PropEnv) (n : U32) (hn : n ≠ Prp.firing) (t : TankId) (j : Nat)
    (h : (c.transition e n).drv.isValveOpen t j = true) : c.drv.isValveOpen t j = true := by
  rcases transition_cases c e n with ⟨_, h2⟩ | ⟨_, f, _, h2⟩ | ⟨_, f, _, h2⟩ <;> rw [h2] at h
  · exact h
  · exact h
  · rcases enter_drv { c with faults := f, state := n } n hn with h3 | h3 <;> rw [h3] at h
    · exact h
    · exact absurd (h.symm.trans (reset_closed _ t j)) (by decide)

theorem transition_leaves (c : Ctl) (e : PropEnv) (n s : U32) (h1 : n ≠ s) (h2 : s ≠ Prp.disabled) : (c.transition e n).state ≠ s := by
  rcases transition_state c e n with h | h <;> rw [h]
  · exact h1
  · exact fun h' => h2 h'.symm

theorem transition_self (c : Ctl) (e : PropEnv) : c.transition e c.state = c := by
  unfold transition; rw [if_pos rfl]

/-- One `execute` in the pressurizing state. -/
theorem press_step (c : Ctl) (e : PropEnv) (hs : c.state = Prp.pressurizing) :
    ((c.execute e).state = Prp.pressurizing ∧ ∃ r b, (r = .stay ∨ r = .started) ∧
      c.press.evaluate c.drv .one (c.pressure ≥ c.threshold) b c.maxPress.toNat c.fill.toNat c.cool.toNat c.tank1Valve.toNat =
        (r, (c.execute e).press, (c.execute e).drv)) ∨
    ((c.execute e).state ≠ Prp.pressurizing ∧ (∀ t j, ValveOpen (c.execute e) t j → ValveOpen c t j) ∧
      ¬ ValveOpen (c.execute e) .one c.press.cur) := by
  obtain ⟨f0, k, _, hk, he⟩ := execute_eq c e
  have hev : ({ c with faults := f0, countdown := k } : Ctl).evaluate e = ({ c with faults := f0, countdown := k } : Ctl).evalPressurizing e := by
    unfold evaluate
    dsimp only
    rw [hs]
    rfl
  rw [hev] at he
  unfold ValveOpen
  rw [he]
  have resetCase : ∀ (c' : Ctl) (n : U32), c'.drv = c.drv.reset → n ≠ Prp.firing → n ≠ Prp.pressurizing →
      ((c'.transition e n).readSensors e).state ≠ Prp.pressurizing ∧
      (∀ t j, ((c'.transition e n).readSensors e).drv.isValveOpen t j = true → c.drv.isValveOpen t j = true) ∧
      ¬ ((c'.transition e n).readSensors e).drv.isValveOpen .one c.press.cur = true := by
    intro c' n hd hn hn2
    have hall : ∀ t j, ((c'.transition e n).readSensors e).drv.isValveOpen t j = true → False := by
      intro t j h
      have := transition_open c' e n hn t j h
      rw [hd, reset_closed] at this
      cases this
    exact ⟨transition_leaves _ _ _ _ hn2 (by decide), fun t j h => absurd (hall t j h) id, hall _ _⟩
  rcases evalPressurizing_cases { c with faults := f0, countdown := k } e with ⟨_, h1⟩ | ⟨_, f, _, h1⟩ | ⟨_, f, _, r, a, d, hr, hc⟩
  · rw [h1]; right
    exact resetCase _ _ rfl (by next_ne) (by show Prp.idle ≠ _; decide)
  · rw [h1]; right
    exact resetCase _ _ rfl (by next_ne) (by show Prp.handlingFault ≠ _; decide)
  · have hr' : c.press.evaluate c.drv .one (c.pressure ≥ c.threshold) (!({ c with faults := f0, countdown := k } : Ctl).validSchedule)
        c.maxPress.toNat c.fill.toNat c.cool.toNat c.tank1Valve.toNat = (r, a, d) := hr
    obtain ⟨v1, v2, v3, v4, v5, v6, v7, v8⟩ := ActionCycle.evaluate_valve _ _ _ _ _ _ _ _ _ r a d hr'
    have hother : ∀ j, d.isValveOpen .two j = true → c.drv.isValveOpen .two j = true := by
      have := calmer_action c.press c.drv (c.pressure ≥ c.threshold) (!({ c with faults := f0, countdown := k } : Ctl).validSchedule)
        c.maxPress.toNat c.fill.toNat c.cool.toNat c.tank1Valve.toNat
      rw [hr'] at this
      exact this.1
    have hmono : r ≠ .started → ∀ t j, d.isValveOpen t j = true → c.drv.isValveOpen t j = true := by
      intro hne t j hj
      cases t
      · cases hcj : c.drv.isValveOpen .one j with
        | true => rfl
        | false => exact absurd (v1 j hcj hj).1 hne
      · exact hother j hj
    have leave : ∀ (c' : Ctl) (n : U32), c'.drv = d → r ≠ .started → d.isValveOpen .one c.press.cur = false → n ≠ Prp.firing →
        n ≠ Prp.pressurizing →
        ((c'.transition e n).readSensors e).state ≠ Prp.pressurizing ∧
        (∀ t j, ((c'.transition e n).readSensors e).drv.isValveOpen t j = true → c.drv.isValveOpen t j = true) ∧
        ¬ ((c'.transition e n).readSensors e).drv.isValveOpen .one c.press.cur = true := by
      intro c' n hd hne hcl hn hn2
      refine ⟨transition_leaves _ _ _ _ hn2 (by decide), fun t j h => ?_, fun h => ?_⟩
      · have := transition_open c' e n hn t j h
        rw [hd] at this
        exact hmono hne t j this
      · have := transition_open c' e n hn .one _ h
        rw [hd, hcl] at this
        cases this
    rcases hc with ⟨hrr, h1⟩ | ⟨hrr, h1⟩ | ⟨hrr, h1⟩ | ⟨hrr, h1⟩
    · rw [h1]; right
      exact leave _ _ rfl (by rw [hrr]; nofun) (v5 (Or.inl hrr)) (by next_ne) (by show Prp.awaitFiring ≠ _; decide)
    · rw [h1]; right
      have hd : (Ctl.transition { c with faults := f, countdown := k, press := a, drv := d } e Prp.disabled).drv = d.reset := by
        rcases transition_cases ({ c with faults := f, countdown := k, press := a, drv := d } : Ctl) e Prp.disabled with
          ⟨h2, _⟩ | ⟨_, f', h2, _⟩ | ⟨_, f', _, h2⟩
        · exact absurd (h2.trans hs) (by decide)
        · exact absurd h2 (by unfold canEnter; simp)
        · rw [h2]; rfl
      refine ⟨transition_leaves _ _ _ _ (by show Prp.disabled ≠ _; decide) (by decide), fun t j h => ?_, fun h => ?_⟩
      · have h' : (Ctl.transition { c with faults := f, countdown := k, press := a, drv := d } e Prp.disabled).drv.isValveOpen t j = true := h
        rw [hd, reset_closed] at h'; cases h'
      · have h' : (Ctl.transition { c with faults := f, countdown := k, press := a, drv := d } e Prp.disabled).drv.isValveOpen .one c.press.cur = true := h
        rw [hd, reset_closed] at h'; cases h'
    · rw [h1]; left
      have ht : Ctl.transition { c with faults := f, countdown := k, press := a, drv := d } e Prp.pressurizing =
          { c with faults := f, countdown := k, press := a, drv := d } := by
        have := transition_self { c with faults := f, countdown := k, press := a, drv := d } e
        rw [← hs]; exact this
      show (Ctl.readSensors (Ctl.transition { c with faults := f, countdown := k, press := a, drv := d } e Prp.pressurizing) e).state = _ ∧ _
      refine ⟨by rw [ht]; exact hs, r, !({ c with faults := f0, countdown := k } : Ctl).validSchedule, hrr, ?_⟩
      rw [hr']
      show (r, a, d) = (r, (Ctl.transition { c with faults := f, countdown := k, press := a, drv := d } e Prp.pressurizing).press,
        (Ctl.transition { c with faults := f, countdown := k, press := a, drv := d } e Prp.pressurizing).drv)
      rw [ht]
    · rw [h1]; right
      obtain ⟨f', hp | hp⟩ := pressOutOfCycles_cases ({ c with faults := f, countdown := k, press := a, drv := d } : Ctl) e.cc
      · have hp2 := hp.2
        have hlv : ∀ (c' : Ctl) (n : U32), c'.drv = d.reset → n ≠ Prp.firing → n ≠ Prp.pressurizing →
            ((c'.transition e n).readSensors e).state ≠ Prp.pressurizing ∧
            (∀ t j, ((c'.transition e n).readSensors e).drv.isValveOpen t j = true → c.drv.isValveOpen t j = true) ∧
            ¬ ((c'.transition e n).readSensors e).drv.isValveOpen .one c.press.cur = true := by
          intro c' n hd hn hn2
          have hall : ∀ t j, ((c'.transition e n).readSensors e).drv.isValveOpen t j = true → False := by
            intro t j h
            have := transition_open c' e n hn t j h
            rw [hd, reset_closed] at this
            cases this
          exact ⟨transition_leaves _ _ _ _ hn2 (by decide), fun t j h => absurd (hall t j h) id, hall _ _⟩
        show (Ctl.readSensors (Ctl.transition (Ctl.pressOutOfCycles { c with faults := f, countdown := k, press := a, drv := d } e.cc).2 e
          (Ctl.pressOutOfCycles { c with faults := f, countdown := k, press := a, drv := d } e.cc).1) e).state ≠ _ ∧ _
        rw [hp2]
        exact hlv _ _ rfl (by next_ne) (by show Prp.handlingFault ≠ _; decide)
      · have hp2 := hp.2
        show (Ctl.readSensors (Ctl.transition (Ctl.pressOutOfCycles { c with faults := f, countdown := k, press := a, drv := d } e.cc).2 e
          (Ctl.pressOutOfCycles { c with faults := f, countdown := k, press := a, drv := d } e.cc).1) e).state ≠ _ ∧ _
        rw [hp2]
        exact leave _ _ rfl (by rw [hrr]; nofun) (v5 (Or.inr hrr)) (by next_ne) (by show Prp.awaitFiring ≠ _; decide)

/-- One `execute` in the venting state. -/
theorem vent_step (c : Ctl) (e : PropEnv) (hs : c.state = Prp.venting) :
    ((c.execute e).state = Prp.venting ∧ (c.execute e).choice = c.choice ∧ ∃ r b sel, (r = .stay ∨ r = .started) ∧
      c.vent.evaluate c.drv c.choice b false c.maxVent.toNat c.fill.toNat c.closePeriod.toNat sel =
        (r, (c.execute e).vent, (c.execute e).drv)) ∨
    ((c.execute e).state ≠ Prp.venting ∧ (∀ t j, ValveOpen (c.execute e) t j → ValveOpen c t j) ∧
      ¬ ValveOpen (c.execute e) c.choice c.vent.cur) := by
  obtain ⟨f0, k, _, hk, he⟩ := execute_eq c e
  have hev : ({ c with faults := f0, countdown := k } : Ctl).evaluate e = ({ c with faults := f0, countdown := k } : Ctl).evalVenting := by
    unfold evaluate
    dsimp only
    rw [hs]
    rfl
  rw [hev] at he
  unfold ValveOpen
  rw [he]
  obtain ⟨r, a, d, hr, hc⟩ := evalVenting_cases { c with faults := f0, countdown := k }
  generalize ({ c with faults := f0, countdown := k } : Ctl).ventSucceeded = vs at hr hc
  generalize hsel : (if ({ c with faults := f0, countdown := k } : Ctl).choice = TankId.one then _ else _) = sel at hr
  have hr' : c.vent.evaluate c.drv c.choice vs.1 false c.maxVent.toNat c.fill.toNat c.closePeriod.toNat sel = (r, a, d) := hr
  obtain ⟨v1, v2, v3, v4, v5, v6, v7, v8⟩ := ActionCycle.evaluate_valve _ _ _ _ _ _ _ _ _ r a d hr'
  have hother := ActionCycle.evaluate_other _ _ _ _ _ _ _ _ _ r a d hr'
  have hmono : r ≠ .started → ∀ t j, d.isValveOpen t j = true → c.drv.isValveOpen t j = true := by
    intro hne t j hj
    by_cases ht : t = c.choice
    · subst ht
      cases hcj : c.drv.isValveOpen c.choice j with
      | true => rfl
      | false => exact absurd (v1 j hcj hj).1 hne
    · rw [← hother t j ht]; exact hj
  have leave : ∀ (c' : Ctl) (n : U32), c'.drv = d → r ≠ .started → d.isValveOpen c.choice c.vent.cur = false → n ≠ Prp.firing →
      n ≠ Prp.venting →
      ((c'.transition e n).readSensors e).state ≠ Prp.venting ∧
      (∀ t j, ((c'.transition e n).readSensors e).drv.isValveOpen t j = true → c.drv.isValveOpen t j = true) ∧
      ¬ ((c'.transition e n).readSensors e).drv.isValveOpen c.choice c.vent.cur = true := by
    intro c' n hd hne hcl hn hn2
    refine ⟨transition_leaves _ _ _ _ hn2 (by decide), fun t j h => ?_, fun h => ?_⟩
    · have := transition_open c' e n hn t j h
      rw [hd] at this
      exact hmono hne t j this
    · have := transition_open c' e n hn c.choice _ h
      rw [hd, hcl] at this
      cases this
  have stay : ∀ c' : Ctl, c'.state = Prp.venting → c'.choice = c.choice → c'.vent = a → c'.drv = d → (r = .stay ∨ r = .started) →
      ((c'.transition e Prp.venting).readSensors e).state = Prp.venting ∧ ((c'.transition e Prp.venting).readSensors e).choice = c.choice ∧
      ∃ r b sel, (r = .stay ∨ r = .started) ∧
      c.vent.evaluate c.drv c.choice b false c.maxVent.toNat c.fill.toNat c.closePeriod.toNat sel =
        (r, ((c'.transition e Prp.venting).readSensors e).vent, ((c'.transition e Prp.venting).readSensors e).drv) := by
    intro c' h1 h2 h3 h4 h5
    have ht : c'.transition e Prp.venting = c' := by
      have := transition_self c' e
      rw [h1] at this; exact this
    rw [ht]
    refine ⟨h1, h2, r, vs.1, sel, h5, ?_⟩
    rw [hr', ← h3, ← h4]; rfl
  rcases hc with ⟨hrr, h1⟩ | ⟨hrr, h1⟩ | ⟨hrr, h1⟩ | ⟨hrr, h1⟩ <;> rw [h1]
  · right
    exact leave _ _ rfl (by rw [hrr]; nofun) (v5 (Or.inl hrr)) (by next_ne) (by show Prp.idle ≠ _; decide)
  · left
    exact stay { c with countdown := k, faults := vs.2, vent := a, drv := d } hs rfl rfl rfl (Or.inl hrr)
  · left
    exact stay { c with countdown := k, faults := vs.2, vent := a, drv := d, saved := (if c.choice = .two then c.saved + 1 else c.saved) } hs rfl rfl rfl (Or.inr hrr)
  · right
    obtain ⟨f', hp | hp⟩ := ventOutOfCycles_cases ({ c with countdown := k, faults := vs.2, vent := a, drv := d } : Ctl)
    · rw [show ({ c with faults := vs.2, countdown := k, vent := a, drv := d } : Ctl).ventOutOfCycles = _ from hp]
      exact leave _ _ rfl (by rw [hrr]; nofun) (v5 (Or.inr hrr)) (by next_ne) (by show Prp.handlingFault ≠ _; decide)
    · rw [show ({ c with faults := vs.2, countdown := k, vent := a, drv := d } : Ctl).ventOutOfCycles = _ from hp.2]
      exact leave _ _ rfl (by rw [hrr]; nofun) (v5 (Or.inr hrr)) (by next_ne) (by show Prp.disabled ≠ _; decide)

/-! ### Writes -/

theorem writes_ind (P : Ctl → Prop) (ws : List PropWrite) : ∀ (c : Ctl), P c → (∀ c w, w ∈ ws → P c → P (c.write w)) → P (c.writes ws) := by
  induction ws with
  | nil => intro c h _; exact h
  | cons w ws ih =>
    intro c h hw
    exact ih (c.write w) (hw c w List.mem_cons_self h) (fun c w' hm => hw c w' (List.mem_cons_of_mem _ hm))

theorem beforeExecute_ind (P : Ctl → Prop) (hi : ∀ c n, P c → P (c.interrupts n)) (c : Ctl) (y : PropCycle) (h : P c)
    (hw : ∀ c w, w ∈ y.writes → P c → P (c.write w)) : P (c.beforeExecute y) :=
  hi _ _ (writes_ind P y.writes _ (hi _ _ h) hw)

/-- Writes that set a field to something allowed keep it allowed. -/
theorem maxPress_before (M : Nat) (c : Ctl) (y : PropCycle) (h : c.maxPress.toNat ≤ M)
    (hw : ∀ x, PropWrite.maxPress x ∈ y.writes → x.toNat ≤ M) : (c.beforeExecute y).maxPress.toNat ≤ M := by
  refine beforeExecute_ind (fun c => c.maxPress.toNat ≤ M) (fun _ _ h => h) c y h (fun c w hm hc => ?_)
  cases w with
  | maxPress x => exact hw x hm
  | fault i op => cases i <;> exact hc
  | _ => exact hc

theorem maxVent_before (M : Nat) (c : Ctl) (y : PropCycle) (h : c.maxVent.toNat ≤ M)
    (hw : ∀ x, PropWrite.maxVent x ∈ y.writes → x.toNat ≤ M) : (c.beforeExecute y).maxVent.toNat ≤ M := by
  refine beforeExecute_ind (fun c => c.maxVent.toNat ≤ M) (fun _ _ h => h) c y h (fun c w hm hc => ?_)
  cases w with
  | maxVent x => exact hw x hm
  | fault i op => cases i <;> exact hc
  | _ => exact hc

theorem execute_params (c : Ctl) (e : PropEnv) : (c.execute e).maxPress = c.maxPress ∧ (c.execute e).maxVent = c.maxVent ∧
    (c.execute e).fill = c.fill ∧ (c.execute e).cool = c.cool ∧ (c.execute e).closePeriod = c.closePeriod ∧
    (c.execute e).threshold = c.threshold := by
  obtain ⟨st, k, f, p, v, t, s, d, n, _, h⟩ := execute_frame c e
  rw [h]; exact ⟨rfl, rfl, rfl, rfl, rfl, rfl⟩

/-- At most one valve can be opened if all opened valves have the same number. -/
theorem filter_range_le_one (p : Nat → Bool) (n : Nat) (h : ∀ i j, p i = true → p j = true → i = j) :
    ((List.range n).filter p).length ≤ 1 := by
  have hnd : ((List.range n).filter p).Nodup := List.nodup_range.filter p
  match hl : (List.range n).filter p with
  | [] => exact Nat.zero_le _
  | [_] => exact Nat.le_refl _
  | a :: b :: l =>
    rw [hl] at hnd
    have ha : a ∈ (List.range n).filter p := by rw [hl]; exact List.mem_cons_self
    have hb : b ∈ (List.range n).filter p := by rw [hl]; exact List.mem_cons_of_mem _ List.mem_cons_self
    have := h a b (List.mem_filter.1 ha).2 (List.mem_filter.1 hb).2
    subst this
    exact absurd List.mem_cons_self (List.nodup_cons.1 hnd).1

theorem opened_le_one (c : Ctl) (e : PropEnv) (t : TankId) (h : ∀ i j, Opens c e t i → Opens c e t j → i = j) : opened c e t ≤ 1 :=
  filter_range_le_one _ _ fun i j hi hj => h i j (of_decide_eq_true hi) (of_decide_eq_true hj)

theorem opened_zero (c : Ctl) (e : PropEnv) (t : TankId) (h : ∀ i, ¬ Opens c e t i) : opened c e t = 0 := by
  unfold opened
  rw [List.length_eq_zero_iff, List.filter_eq_nil_iff]
  intro i _ hi
  exact h i (of_decide_eq_true hi)

theorem not_open_false {c : Ctl} {t : TankId} {j : Nat} (h : ¬ ValveOpen c t j) : c.drv.isValveOpen t j = false := by
  unfold ValveOpen at h
  cases ho : c.drv.isValveOpen t j with
  | false => rfl
  | true => exact absurd ho h

/-- What a pressurising step spends. -/
theorem press_spend (c : Ctl) (e : PropEnv) (hs : c.state = Prp.pressurizing) :
    opened c e .one + c.press.count ≤ (c.execute e).press.count ∧
      ((c.execute e).press.count ≤ c.press.count ∨ (c.execute e).press.count ≤ c.maxPress.toNat) ∨
    ((c.execute e).state ≠ Prp.pressurizing ∧ opened c e .one = 0) := by
  rcases press_step c e hs with ⟨_, r, b, hr, he⟩ | ⟨h1, h2, _⟩
  · left
    obtain ⟨v1, v2, v3, _⟩ := ActionCycle.evaluate_valve _ _ _ _ _ _ _ _ _ _ _ _ he
    by_cases hst : r = .started
    · obtain ⟨g1, g2, _⟩ := v2 hst
      have : opened c e .one ≤ 1 := opened_le_one _ _ _ fun i j hi hj => by
        have a1 := (v1 i (not_open_false hi.1) hi.2).2.1
        have a2 := (v1 j (not_open_false hj.1) hj.2).2.1
        rw [← a1, ← a2]
      exact ⟨by omega, Or.inr (by omega)⟩
    · have : opened c e .one = 0 := opened_zero _ _ _ fun i hi => hst (v1 i (not_open_false hi.1) hi.2).1
      have := (v3 hst).1
      exact ⟨by omega, Or.inl (by omega)⟩
  · right
    exact ⟨h1, opened_zero _ _ _ fun i hi => hi.1 (h2 _ _ hi.2)⟩

theorem press_openings (M : Nat) (ys : List PropCycle) : ∀ (c : Ctl), c.maxPress.toNat ≤ M →
    (∀ y ∈ ys, ∀ x, PropWrite.maxPress x ∈ y.writes → x.toNat ≤ M) → c.press.count ≤ M →
    openings Prp.pressurizing .one c ys + c.press.count ≤ M := by
  induction ys with
  | nil => intro c _ _ h; simpa [openings] using h
  | cons y ys ih =>
    intro c hm hw hc
    unfold openings
    split
    · rename_i hs
      have hp := (beforeExecute_frame c y).2.1
      have hM := maxPress_before M c y hm (hw y List.mem_cons_self)
      have hm' : (c.cycle y).maxPress.toNat ≤ M := by
        show ((c.beforeExecute y).execute y.env).maxPress.toNat ≤ M
        rw [(execute_params _ _).1]; exact hM
      rcases press_spend (c.beforeExecute y) y.env hs with ⟨h1, h2⟩ | ⟨h1, h2⟩
      · rw [hp] at h1 h2
        have hcnt : (c.cycle y).press.count ≤ M := by
          rcases h2 with h2 | h2
          · exact Nat.le_trans h2 hc
          · exact Nat.le_trans h2 hM
        have := ih (c.cycle y) hm' (fun y' h' => hw y' (List.mem_cons_of_mem _ h')) hcnt
        have h1' : opened (c.beforeExecute y) y.env .one + c.press.count ≤ (c.cycle y).press.count := h1
        split <;> omega
      · rw [h2]
        have h1' : (c.cycle y).state ≠ Prp.pressurizing := h1
        rw [if_neg h1']
        omega
    · omega

/-- What a venting step spends. -/
theorem vent_spend (c : Ctl) (e : PropEnv) (hs : c.state = Prp.venting) :
    (∀ t, opened c e t + c.vent.count ≤ (c.execute e).vent.count) ∧
      ((c.execute e).vent.count ≤ c.vent.count ∨ (c.execute e).vent.count ≤ c.maxVent.toNat) ∨
    ((c.execute e).state ≠ Prp.venting ∧ ∀ t, opened c e t = 0) := by
  rcases vent_step c e hs with ⟨_, _, r, b, sel, hr, he⟩ | ⟨h1, h2, _⟩
  · left
    obtain ⟨v1, v2, v3, _⟩ := ActionCycle.evaluate_valve _ _ _ _ _ _ _ _ _ _ _ _ he
    have hot := ActionCycle.evaluate_other _ _ _ _ _ _ _ _ _ _ _ _ he
    have hother : ∀ t, t ≠ c.choice → opened c e t = 0 := fun t ht => opened_zero _ _ _ fun i hi => by
      have h2 := hi.2
      unfold ValveOpen at h2
      rw [hot t i ht] at h2
      exact hi.1 h2
    by_cases hst : r = .started
    · obtain ⟨g1, g2, _⟩ := v2 hst
      have h1 : opened c e c.choice ≤ 1 := opened_le_one _ _ _ fun i j hi hj => by
        have a1 := (v1 i (not_open_false hi.1) hi.2).2.1
        have a2 := (v1 j (not_open_false hj.1) hj.2).2.1
        rw [← a1, ← a2]
      refine ⟨fun t => ?_, Or.inr (by omega)⟩
      by_cases ht : t = c.choice
      · rw [ht]; omega
      · rw [hother t ht]; omega
    · have h1 : opened c e c.choice = 0 := opened_zero _ _ _ fun i hi => hst (v1 i (not_open_false hi.1) hi.2).1
      have := (v3 hst).1
      refine ⟨fun t => ?_, Or.inl (by omega)⟩
      by_cases ht : t = c.choice
      · rw [ht]; omega
      · rw [hother t ht]; omega
  · right
    exact ⟨h1, fun t => opened_zero _ _ _ fun i hi => hi.1 (h2 _ _ hi.2)⟩

theorem vent_openings (M : Nat) (t : TankId) (ys : List PropCycle) : ∀ (c : Ctl), c.maxVent.toNat ≤ M →
    (∀ y ∈ ys, ∀ x, PropWrite.maxVent x ∈ y.writes → x.toNat ≤ M) → c.vent.count ≤ M →
    openings Prp.venting t c ys + c.vent.count ≤ M := by
  induction ys with
  | nil => intro c _ _ h; simpa [openings] using h
  | cons y ys ih =>
    intro c hm hw hc
    unfold openings
    split
    · rename_i hs
      have hp := (beforeExecute_frame c y).2.2.1
      have hM := maxVent_before M c y hm (hw y List.mem_cons_self)
      have hm' : (c.cycle y).maxVent.toNat ≤ M := by
        show ((c.beforeExecute y).execute y.env).maxVent.toNat ≤ M
        rw [(execute_params _ _).2.1]; exact hM
      rcases vent_spend (c.beforeExecute y) y.env hs with ⟨h1, h2⟩ | ⟨h1, h2⟩
      · rw [hp] at h1 h2
        have hcnt : (c.cycle y).vent.count ≤ M := by
          rcases h2 with h2 | h2
          · exact Nat.le_trans h2 hc
          · exact Nat.le_trans h2 hM
        have := ih (c.cycle y) hm' (fun y' h' => hw y' (List.mem_cons_of_mem _ h')) hcnt
        have h1' : opened (c.beforeExecute y) y.env t + c.vent.count ≤ (c.cycle y).vent.count := h1 t
        split <;> omega
      · rw [h2]
        have h1' : (c.cycle y).state ≠ Prp.venting := h1
        rw [if_neg h1']
        omega
    · omega

/-- A state other than the current one is entered through its `enter`. -/
theorem execute_enters (c : Ctl) (e : PropEnv) (s : U32) (h0 : c.state ≠ s) (hd : s ≠ Prp.disabled) (h : (c.execute e).state = s) :
    ∃ c' : Ctl, c'.state = s ∧ c'.countdown.toNat = c.countdown.toNat - 1 ∧ c.execute e = (c'.enter s).readSensors e := by
  obtain ⟨f, k, _, hk, he⟩ := execute_eq c e
  rw [he] at h ⊢
  obtain ⟨f1, p1, v1, s1, d1, hev⟩ := evaluate_frame { c with faults := f, countdown := k } e
  have hst : (({ c with faults := f, countdown := k } : Ctl).evaluate e).2.state = c.state := by rw [hev]
  have hcd : (({ c with faults := f, countdown := k } : Ctl).evaluate e).2.countdown = k := by rw [hev]
  generalize (({ c with faults := f, countdown := k } : Ctl).evaluate e) = q at h hst hcd
  obtain ⟨n, c1⟩ := q
  simp only at h hst hcd
  have hn : n = s := by
    rcases transition_state c1 e n with g | g
    · rw [← g]; exact h
    · exact absurd (g.symm.trans h) (fun h => hd h.symm)
  subst hn
  rcases transition_cases c1 e n with ⟨g, _⟩ | ⟨_, f2, _, g⟩ | ⟨_, f2, _, g⟩
  · exact absurd (g.trans hst).symm h0
  · have h' : (c1.transition e n).state = n := h
    rw [g] at h'; exact absurd h'.symm hd
  · refine ⟨{ c1 with faults := f2, state := n }, rfl, ?_, ?_⟩
    · show c1.countdown.toNat = _; rw [hcd]; exact hk
    · show Ctl.readSensors (c1.transition e n) e = _
      rw [g]

end Ctl
open Ctl

/-- C38: a pressurising attempt, that is the cycles from the one in which the controller enters the pressurizing state until it
leaves it, opens the tank-1 valves at most `M` times, where `M` bounds the commanded maximum during the attempt. -/
theorem C38_pressurise_budget (c : Ctl) (y : PropCycle) (ys : List PropCycle) (M : Nat)
    (h0 : (c.beforeExecute y).state ≠ Prp.pressurizing) (h1 : (c.cycle y).state = Prp.pressurizing)
    (hM : (c.cycle y).maxPress.toNat ≤ M) (hw : ∀ y ∈ ys, ∀ x, PropWrite.maxPress x ∈ y.writes → x.toNat ≤ M) :
    openings Prp.pressurizing .one (c.cycle y) ys ≤ M := by
  have hc : (c.cycle y).press.count = 0 := by
    obtain ⟨c', hs, _, he⟩ := execute_enters _ _ _ h0 (by decide) h1
    show ((c.beforeExecute y).execute y.env).press.count = 0
    rw [he]
    show (c'.enter Prp.pressurizing).press.count = 0
    rfl
  have := press_openings M ys (c.cycle y) hM hw (by omega)
  omega

/-- C38: a venting attempt opens the valves of either tank at most `M` times, where `M` bounds the commanded maximum during the
attempt. -/
theorem C38_vent_budget (c : Ctl) (y : PropCycle) (ys : List PropCycle) (M : Nat) (t : TankId)
    (h0 : (c.beforeExecute y).state ≠ Prp.venting) (h1 : (c.cycle y).state = Prp.venting)
    (hM : (c.cycle y).maxVent.toNat ≤ M) (hw : ∀ y ∈ ys, ∀ x, PropWrite.maxVent x ∈ y.writes → x.toNat ≤ M) :
    openings Prp.venting t (c.cycle y) ys ≤ M := by
  have hc : (c.cycle y).vent.count = 0 := by
    obtain ⟨c', hs, _, he⟩ := execute_enters _ _ _ h0 (by decide) h1
    show ((c.beforeExecute y).execute y.env).vent.count = 0
    rw [he]
    show (c'.enter Prp.venting).vent.count = 0
    unfold enter
    rw [if_neg (by decide), if_neg (by decide), if_neg (by decide), if_neg (by decide), if_neg (by decide), if_pos rfl]
    dsimp only
    split <;> rfl
  have := vent_openings M t ys (c.cycle y) hM hw (by omega)
  omega

namespace Ctl

theorem any_iff (f : PropFaults) : f.any = true ↔ SomeFault f := by
  unfold PropFaults.any SomeFault
  simp only [Bool.or_eq_true, or_assoc]

theorem pollAll_any (f : PropFaults) : f.pollAll.any = f.any := by
  unfold PropFaults.any PropFaults.pollAll
  simp only [Fault.isFaulted_poll]

theorem canEnter_fault (c : Ctl) (e : PropEnv) (hs : c.state ≠ Prp.disabled) :
    c.canEnter e Prp.handlingFault = (e.functional && c.faults.any, { c with faults := c.faults.pollAll }) := by
  unfold canEnter
  rw [if_neg (by decide), if_neg (by decide), if_neg (by decide), if_neg (by decide), if_neg (by decide), if_neg (by decide),
    if_pos rfl, if_neg hs]

theorem transition_fault (c : Ctl) (e : PropEnv) (hs : c.state ≠ Prp.disabled) (hs2 : c.state ≠ Prp.handlingFault) (ha : c.faults.any = true) :
    (c.transition e Prp.handlingFault).state = (if e.functional then Prp.handlingFault else Prp.disabled) ∧
    SomeFault (c.transition e Prp.handlingFault).faults := by
  unfold transition
  rw [if_neg (fun h => hs2 h.symm), canEnter_fault c e hs]
  dsimp only
  rw [ha, Bool.and_true]
  have : SomeFault c.faults.pollAll := (any_iff _).1 (by rw [pollAll_any]; exact ha)
  cases e.functional
  · exact ⟨rfl, this⟩
  · exact ⟨rfl, this⟩

theorem valid_false {c : Ctl} (h : c.validSchedule = false) (hc : ¬ c.countdown ≤ 1) : ¬ ScheduleOk c := by
  intro ⟨h1, h2, h3, h4⟩
  have : c.validSchedule = true := by
    unfold validSchedule
    have hc' : c.countdown > 1 := by
      rw [BitVec.le_def] at hc
      show (1 : U32).toNat < c.countdown.toNat
      omega
    have e1 : c.v1 ≤ 1000 := h1
    have e2 : c.v2 ≤ 1000 := h2
    have e3 : c.v3 ≤ 1000 := h3
    have e4 : c.v4 ≤ 1000 := h4
    simp only [e1, e2, e3, e4, hc', decide_true, Bool.and_true]
  rw [h] at this; cases this

end Ctl

/-- C38: how a pressurising attempt can end. In every cycle the controller either goes on pressurising, or stops: because the
firing time is too close (back to idle), because threshold pressure is reached (to awaiting firing), because it has used its
filling cycles (to fault handling, or, if ground has masked the pressurise-failure fault, on to awaiting firing), because
another propulsion fault tripped (to fault handling), or because the commanded schedule became invalid or the hardware is
not functional (to disabled). -/
theorem C38_pressurise_outcome (c : Ctl) (e : PropEnv) (hs : c.state = Prp.pressurizing) :
    (c.execute e).state = Prp.pressurizing ∨
    ((c.execute e).state = Prp.idle ∧ c.countdown.toNat ≤ 2) ∨
    ((c.execute e).state = Prp.awaitFiring ∧ ScheduleOk c ∧ (c.threshold ≤ c.pressure ∨
      (c.maxPress.toNat ≤ c.press.count ∧ (c.execute e).faults.press.isFaulted = false))) ∨
    ((c.execute e).state = Prp.handlingFault ∧ SomeFault (c.execute e).faults) ∨
    ((c.execute e).state = Prp.disabled ∧ (e.functional = false ∨ ¬ ScheduleOk c)) := by
  obtain ⟨f0, k, _, hk, he⟩ := execute_eq c e
  have hev : ({ c with faults := f0, countdown := k } : Ctl).evaluate e = ({ c with faults := f0, countdown := k } : Ctl).evalPressurizing e := by
    unfold evaluate
    dsimp only
    rw [hs]
    rfl
  rw [hev] at he
  rw [he]
  have hne : c.state ≠ Prp.disabled := by rw [hs]; decide
  have hne2 : c.state ≠ Prp.handlingFault := by rw [hs]; decide
  have toFault : ∀ c' : Ctl, c'.state = c.state → c'.faults.any = true →
      (((c'.transition e Prp.handlingFault).readSensors e).state = Prp.handlingFault ∧
        SomeFault ((c'.transition e Prp.handlingFault).readSensors e).faults) ∨
      (((c'.transition e Prp.handlingFault).readSensors e).state = Prp.disabled ∧ (e.functional = false ∨ ¬ ScheduleOk c)) := by
    intro c' hs' ha
    obtain ⟨g1, g2⟩ := transition_fault c' e (by rw [hs']; exact hne) (by rw [hs']; exact hne2) ha
    cases hf : e.functional with
    | true => rw [hf, if_pos rfl] at g1; exact Or.inl ⟨g1, g2⟩
    | false => rw [hf, if_neg Bool.false_ne_true] at g1; exact Or.inr ⟨g1, Or.inl rfl⟩
  have toAwait : ∀ c' : Ctl, c'.state = c.state → c'.v1 = c.v1 → c'.v2 = c.v2 → c'.v3 = c.v3 → c'.v4 = c.v4 → ¬ c'.countdown ≤ 1 →
      (((c'.transition e Prp.awaitFiring).readSensors e).state = Prp.awaitFiring ∧ ScheduleOk c ∧
        ((c'.transition e Prp.awaitFiring).readSensors e).faults = c'.faults) ∨
      (((c'.transition e Prp.awaitFiring).readSensors e).state = Prp.disabled ∧ (e.functional = false ∨ ¬ ScheduleOk c)) := by
    intro c' hs' e1 e2 e3 e4 hcd
    have hok : ScheduleOk c' ↔ ScheduleOk c := by unfold ScheduleOk; rw [e1, e2, e3, e4]
    unfold transition
    rw [if_neg (by rw [hs', hs]; decide)]
    have hce : c'.canEnter e Prp.awaitFiring = (c'.validSchedule && decide (c'.state = Prp.pressurizing) && e.functional, c') := rfl
    rw [hce]
    dsimp only
    have hd : decide (c'.state = Prp.pressurizing) = true := by rw [hs', hs]; rfl
    rw [hd, Bool.and_true]
    cases hv : c'.validSchedule with
    | false =>
      right
      exact ⟨rfl, Or.inr (fun h => valid_false hv hcd (hok.2 h))⟩
    | true =>
      cases hf : e.functional with
      | false => right; exact ⟨rfl, Or.inl rfl⟩
      | true =>
        left
        refine ⟨rfl, hok.1 ?_, rfl⟩
        unfold validSchedule at hv
        simp only [Bool.and_eq_true, decide_eq_true_eq] at hv
        exact ⟨hv.1.1.1.1, hv.1.1.1.2, hv.1.1.2, hv.1.2⟩
  rcases evalPressurizing_cases { c with faults := f0, countdown := k } e with ⟨hc, h1⟩ | ⟨hc, f, hcan, h1⟩ | ⟨hc, f, hcan, r, a, d, hr, hcs⟩
  · rw [h1]
    have hk1 : k.toNat ≤ 1 := hc
    show (Ctl.readSensors (Ctl.transition { c with faults := f0, countdown := k, drv := c.drv.reset } e Prp.idle) e).state = _ ∨ _
    unfold transition
    rw [if_neg (by show Prp.idle ≠ c.state; rw [hs]; decide)]
    cases hf : e.functional with
    | true =>
      right; left
      refine ⟨?_, by omega⟩
      show (if e.functional = true then _ else _ : Ctl).state = _
      rw [hf]; rfl
    | false =>
      right; right; right; right
      refine ⟨?_, Or.inl rfl⟩
      show (if e.functional = true then _ else _ : Ctl).state = _
      rw [hf]; rfl
  · rw [h1]
    right; right; right
    have hf : f = f0.pollAll := by
      have h2 := congrArg (fun q : U32 × Ctl => q.2.faults) h1
      unfold evalPressurizing at h2
      rw [if_neg hc, canEnter_fault { c with faults := f0, countdown := k } e hne] at h2
      rw [canEnter_fault { c with faults := f0, countdown := k } e hne] at hcan
      have hcan' : (e.functional && f0.any) = true := hcan
      simp only [hcan', if_true] at h2
      exact h2.symm
    rw [canEnter_fault { c with faults := f0, countdown := k } e hne] at hcan
    have hany : f0.any = true := (Bool.and_eq_true _ _ ▸ hcan : e.functional = true ∧ f0.any = true).2
    exact toFault { c with faults := f, countdown := k, drv := c.drv.reset } rfl (by rw [hf, pollAll_any]; exact hany)
  · have hr' : c.press.evaluate c.drv .one (c.pressure ≥ c.threshold) (!({ c with faults := f0, countdown := k } : Ctl).validSchedule)
        c.maxPress.toNat c.fill.toNat c.cool.toNat c.tank1Valve.toNat = (r, a, d) := hr
    obtain ⟨v1, v2, v3, v4, v5, v6, v7, v8⟩ := ActionCycle.evaluate_valve _ _ _ _ _ _ _ _ _ r a d hr'
    rcases hcs with ⟨hrr, h1⟩ | ⟨hrr, h1⟩ | ⟨hrr, h1⟩ | ⟨hrr, h1⟩
    · rw [h1]
      right; right
      rcases toAwait { c with faults := f, countdown := k, press := a, drv := d } rfl rfl rfl rfl rfl hc with g | g
      · exact Or.inl ⟨g.1, g.2.1, Or.inl (of_decide_eq_true (v6 hrr))⟩
      · exact Or.inr (Or.inr g)
    · rw [h1]
      right; right; right; right
      have hv : ({ c with faults := f0, countdown := k } : Ctl).validSchedule = false := by
        have := v7 hrr
        revert this
        cases ({ c with faults := f0, countdown := k } : Ctl).validSchedule
        · intro _; rfl
        · intro h; cases h
      refine ⟨?_, Or.inr (fun h => valid_false hv hc h)⟩
      show (Ctl.transition { c with faults := f, countdown := k, press := a, drv := d } e Prp.disabled).state = _
      rcases transition_state { c with faults := f, countdown := k, press := a, drv := d } e Prp.disabled with h | h <;> rw [h]
    · rw [h1]
      left
      show (Ctl.transition { c with faults := f, countdown := k, press := a, drv := d } e Prp.pressurizing).state = _
      have ht : Ctl.transition { c with faults := f, countdown := k, press := a, drv := d } e Prp.pressurizing =
          { c with faults := f, countdown := k, press := a, drv := d } := by
        have := transition_self { c with faults := f, countdown := k, press := a, drv := d } e
        rw [← hs]; exact this
      rw [ht]; exact hs
    · rw [h1]
      right; right
      have hpo : ({ c with faults := f, countdown := k, press := a, drv := d } : Ctl).pressOutOfCycles e.cc =
          if (f.press.signal e.cc).isFaulted then (Prp.handlingFault, { c with faults := { f with press := (f.press.signal e.cc).poll }, countdown := k, press := a, drv := d.reset })
          else (Prp.awaitFiring, { c with faults := { f with press := (f.press.signal e.cc).poll }, countdown := k, press := a, drv := d }) := rfl
      show ((Ctl.readSensors (Ctl.transition (Ctl.pressOutOfCycles { c with faults := f, countdown := k, press := a, drv := d } e.cc).2 e
          (Ctl.pressOutOfCycles { c with faults := f, countdown := k, press := a, drv := d } e.cc).1) e).state = _ ∧ _) ∨ _
      rw [hpo]
      cases hfa : (f.press.signal e.cc).isFaulted with
      | true =>
        rw [if_pos rfl]
        right
        exact toFault { c with faults := { f with press := (f.press.signal e.cc).poll }, countdown := k, press := a, drv := d.reset } rfl
          ((any_iff _).2 (Or.inl (by show Fault.isFaulted (Fault.poll _) = true; rw [Fault.isFaulted_poll]; exact hfa)))
      | false =>
        rw [if_neg Bool.false_ne_true]
        rcases toAwait { c with faults := { f with press := (f.press.signal e.cc).poll }, countdown := k, press := a, drv := d } rfl rfl rfl rfl rfl hc with g | g
        · left
          refine ⟨g.1, g.2.1, Or.inr ⟨(v8 hrr).1, ?_⟩⟩
          rw [g.2.2]
          show Fault.isFaulted (Fault.poll _) = false; rw [Fault.isFaulted_poll]; exact hfa
        · exact Or.inr (Or.inr g)

namespace Ctl

theorem before_state (c : Ctl) (y : PropCycle) (hd : OnlyDisables y) :
    (c.beforeExecute y).state = c.state ∨ (c.beforeExecute y).state = Prp.disabled := by
  rcases (beforeExecute_frame c y).2.2.2.2 with h | ⟨x, hx, h⟩
  · exact Or.inl h
  · rw [h]; exact Or.inr (hd x hx)

theorem run_cons (c : Ctl) (y : PropCycle) (ys : List PropCycle) : c.run (y :: ys) = (c.cycle y).run ys := rfl

/-- An open valve of tank 1 is closed when its time is up. -/
theorem press_closes (j T : Nat) : ∀ (c : Ctl) (ys : List PropCycle), c.state = Prp.pressurizing → c.press.cur = j →
    ValveOpen c .one j → c.press.timer ≤ T → 1 ≤ T → (∀ y ∈ ys, OnlyDisables y) → T ≤ ys.length →
    ∃ k, k ≤ T ∧ ¬ ValveOpen (c.run (ys.take k)) .one j := by
  induction T with
  | zero => intro c ys _ _ _ _ h; omega
  | succ T ih =>
    intro c ys hs hcur hop hT _ hd hlen
    match ys, hlen, hd with
    | y :: ys, hlen, hd =>
      have hb := beforeExecute_frame c y
      have hop' : (c.beforeExecute y).drv.isValveOpen .one j = true := by rw [hb.1, ticks_open1]; exact hop
      rcases before_state c y (hd y List.mem_cons_self) with h | h
      · rw [hs] at h
        rcases press_step _ y.env h with ⟨h1, r, b, hr, he⟩ | ⟨_, _, h3⟩
        · obtain ⟨v1, v2, v3, v4, _⟩ := ActionCycle.evaluate_valve _ _ _ _ _ _ _ _ _ _ _ _ he
          rw [hb.2.1, hcur] at v4 v2
          rcases hr with rfl | rfl
          · rcases v4 rfl hop' with g | ⟨g1, g2⟩
            · refine ⟨1, by omega, ?_⟩
              show ¬ ((c.beforeExecute y).execute y.env).drv.isValveOpen .one j = true
              rw [g]; decide
            · by_cases hopen : ValveOpen (c.cycle y) .one j
              · obtain ⟨k, hk, h5⟩ := ih (c.cycle y) ys h1 (by
                    show ((c.beforeExecute y).execute y.env).press.cur = j
                    rw [(v3 (by nofun)).2, hb.2.1, hcur]) hopen (by
                    show ((c.beforeExecute y).execute y.env).press.timer ≤ T
                    rw [g2]; omega) (by omega) (fun y' h' => hd y' (List.mem_cons_of_mem _ h')) (by simpa using hlen)
                exact ⟨k + 1, by omega, by rw [List.take_succ_cons, run_cons]; exact h5⟩
              · exact ⟨1, by omega, hopen⟩
          · obtain ⟨_, _, g⟩ := v2 rfl
            rw [hop'] at g; cases g
        · rw [hb.2.1, hcur] at h3
          exact ⟨1, by omega, h3⟩
      · exact ⟨1, by omega, (C39_disabled _ y.env (Or.inl h)).2.1.1 .one j⟩

/-- An open valve is closed when its time is up, venting. -/
theorem vent_closes (t : TankId) (j T : Nat) : ∀ (c : Ctl) (ys : List PropCycle), c.state = Prp.venting → c.choice = t →
    c.drv.enabled = false → c.vent.cur = j →
    ValveOpen c t j → c.vent.timer ≤ T → 1 ≤ T → (∀ y ∈ ys, OnlyDisables y) → T ≤ ys.length →
    ∃ k, k ≤ T ∧ ¬ ValveOpen (c.run (ys.take k)) t j := by
  induction T with
  | zero => intro c ys _ _ _ _ _ _ h; omega
  | succ T ih =>
    intro c ys hs hch hen hcur hop hT _ hd hlen
    match ys, hlen, hd with
    | y :: ys, hlen, hd =>
      have hb := beforeExecute_frame c y
      have hdrv : (c.beforeExecute y).drv = c.drv := by rw [hb.1, ticks_off hen]
      have hop' : (c.beforeExecute y).drv.isValveOpen t j = true := by rw [hdrv]; exact hop
      rcases before_state c y (hd y List.mem_cons_self) with h | h
      · rw [hs] at h
        have hch' : (c.beforeExecute y).choice = t := hb.2.2.2.1.trans hch
        rcases vent_step _ y.env h with ⟨h1, h1', r, b, sel, hr, he⟩ | ⟨_, _, h3⟩
        · rw [hch'] at he h1'
          obtain ⟨v1, v2, v3, v4, _⟩ := ActionCycle.evaluate_valve _ _ _ _ _ _ _ _ _ _ _ _ he
          have hen' : (c.cycle y).drv.enabled = false := by
            have := action_enabled (c.beforeExecute y).vent (c.beforeExecute y).drv t b false (c.beforeExecute y).maxVent.toNat
              (c.beforeExecute y).fill.toNat (c.beforeExecute y).closePeriod.toNat sel
            rw [he] at this
            show ((c.beforeExecute y).execute y.env).drv.enabled = false
            rw [this, hdrv]; exact hen
          rw [hb.2.2.1, hcur] at v4 v2
          rcases hr with rfl | rfl
          · rcases v4 rfl hop' with g | ⟨g1, g2⟩
            · refine ⟨1, by omega, ?_⟩
              show ¬ ((c.beforeExecute y).execute y.env).drv.isValveOpen t j = true
              rw [g]; decide
            · by_cases hopen : ValveOpen (c.cycle y) t j
              · obtain ⟨k, hk, h5⟩ := ih (c.cycle y) ys h1 h1' hen' (by
                    show ((c.beforeExecute y).execute y.env).vent.cur = j
                    rw [(v3 (by nofun)).2, hb.2.2.1, hcur]) hopen (by
                    show ((c.beforeExecute y).execute y.env).vent.timer ≤ T
                    rw [g2]; omega) (by omega) (fun y' h' => hd y' (List.mem_cons_of_mem _ h')) (by simpa using hlen)
                exact ⟨k + 1, by omega, by rw [List.take_succ_cons, run_cons]; exact h5⟩
              · exact ⟨1, by omega, hopen⟩
          · obtain ⟨_, _, g⟩ := v2 rfl
            rw [hop'] at g; cases g
        · rw [hb.2.2.1, hcur, hch'] at h3
          exact ⟨1, by omega, h3⟩
      · exact ⟨1, by omega, (C39_disabled _ y.env (Or.inl h)).2.1.1 t j⟩

end Ctl

/-- C38: a tank-1 valve opened while pressurising is closed again at the latest the filling period later (counted in control
cycles; a period of 0 counts as 1), whatever the sensors, faults, timers, ground parameters and schedule do, as long as
nobody but the controller moves the propulsion state, other than to disabled. -/
theorem C38_fill_time (c : Ctl) (y : PropCycle) (ys : List PropCycle) (j : Nat) (hs : (c.beforeExecute y).state = Prp.pressurizing)
    (ho : Opens (c.beforeExecute y) y.env .one j) (hd : ∀ y ∈ ys, OnlyDisables y)
    (hl : max 1 (c.beforeExecute y).fill.toNat ≤ ys.length) :
    ∃ k, k ≤ max 1 (c.beforeExecute y).fill.toNat ∧ ¬ ValveOpen ((c.cycle y).run (ys.take k)) .one j := by
  rcases press_step _ y.env hs with ⟨h1, r, b, hr, he⟩ | ⟨_, h2, _⟩
  · obtain ⟨v1, _⟩ := ActionCycle.evaluate_valve _ _ _ _ _ _ _ _ _ _ _ _ he
    obtain ⟨_, g2, g3⟩ := v1 j (not_open_false ho.1) ho.2
    refine press_closes j _ (c.cycle y) ys h1 g2 ho.2 ?_ (by omega) hd hl
    show ((c.beforeExecute y).execute y.env).press.timer ≤ _
    rw [g3]; omega
  · exact absurd (h2 _ _ ho.2) ho.1

/-- C38: the same for a valve of the venting tank, after any disciplined history from construction. -/
theorem C38_vent_time (p t2 t1 : Rat) (ys0 : List PropCycle) (y : PropCycle) (ys : List PropCycle) (j : Nat)
    (h0 : DisciplinedRun (Ctl.init p t2 t1) ys0) (hy : OnlyDisables y) (hd : ∀ y ∈ ys, OnlyDisables y)
    (hs : (((Ctl.init p t2 t1).run ys0).beforeExecute y).state = Prp.venting)
    (ho : Opens (((Ctl.init p t2 t1).run ys0).beforeExecute y) y.env (((Ctl.init p t2 t1).run ys0).beforeExecute y).choice j)
    (hl : max 1 (((Ctl.init p t2 t1).run ys0).beforeExecute y).fill.toNat ≤ ys.length) :
    ∃ k, k ≤ max 1 (((Ctl.init p t2 t1).run ys0).beforeExecute y).fill.toNat ∧
      ¬ ValveOpen ((((Ctl.init p t2 t1).run ys0).cycle y).run (ys.take k)) (((Ctl.init p t2 t1).run ys0).beforeExecute y).choice j := by
  have hi := run_inv ys0 _ (init_inv p t2 t1) h0
  generalize (Ctl.init p t2 t1).run ys0 = c at *
  have hp := preInv_of_inv c y hi (fun x hx => Or.inl (hy x hx))
  have hi' : Inv (c.beforeExecute y) := hp.2.resolve_left (by rw [hs]; decide)
  have hen : (c.beforeExecute y).drv.enabled = false := off_of_inv hi' (by rw [hs]; decide)
  rcases vent_step _ y.env hs with ⟨h1, h1', r, b, sel, hr, he⟩ | ⟨_, h2, _⟩
  · obtain ⟨v1, _⟩ := ActionCycle.evaluate_valve _ _ _ _ _ _ _ _ _ _ _ _ he
    obtain ⟨_, g2, g3⟩ := v1 j (not_open_false ho.1) ho.2
    refine vent_closes _ j _ (c.cycle y) ys h1 h1' ?_ g2 ho.2 ?_ (by omega) hd hl
    · have := action_enabled (c.beforeExecute y).vent (c.beforeExecute y).drv (c.beforeExecute y).choice b false (c.beforeExecute y).maxVent.toNat
        (c.beforeExecute y).fill.toNat (c.beforeExecute y).closePeriod.toNat sel
      rw [he] at this
      show ((c.beforeExecute y).execute y.env).drv.enabled = false
      rw [this]; exact hen
    · show ((c.beforeExecute y).execute y.env).vent.timer ≤ _
      rw [g3]; omega
  · exact absurd (h2 _ _ ho.2) ho.1

namespace Ctl

theorem countdown_before (c : Ctl) (y : PropCycle) (hw : ∀ x, PropWrite.countdown x ∉ y.writes) :
    (c.beforeExecute y).countdown = c.countdown := by
  refine beforeExecute_ind (fun c' => c'.countdown = c.countdown) (fun _ _ h => h) c y rfl (fun c w hm hc => ?_)
  cases w with
  | countdown x => exact absurd hm (hw x)
  | fault i op => cases i <;> exact hc
  | _ => exact hc

theorem execute_countdown (c : Ctl) (e : PropEnv) : (c.execute e).countdown.toNat = c.countdown.toNat - 1 := by
  obtain ⟨st, k, f, p, v, t, s, d, n, hk, h⟩ := execute_frame c e
  rw [h]; exact hk

theorem press_deadline (c : Ctl) (e : PropEnv) (hs : c.state = Prp.pressurizing) (h : c.countdown.toNat ≤ 2) :
    (c.execute e).state ≠ Prp.pressurizing := by
  obtain ⟨f0, k, _, hk, he⟩ := execute_eq c e
  have hev1 : ({ c with faults := f0, countdown := k } : Ctl).evaluate e = ({ c with faults := f0, countdown := k } : Ctl).evalPressurizing e := by
    unfold evaluate
    dsimp only
    rw [hs]
    rfl
  have hev : ({ c with faults := f0, countdown := k } : Ctl).evaluate e =
      (Prp.idle, { c with faults := f0, countdown := k, drv := c.drv.reset }) := by
    rw [hev1]
    unfold evalPressurizing
    rw [if_pos]
    show k.toNat ≤ 1
    omega
  rw [he, hev]
  exact transition_leaves _ _ _ _ (by show Prp.idle ≠ Prp.pressurizing; decide) (by decide)

end Ctl

/-- C38: a pressurising attempt is over before the commanded firing time: while other tasks and ground leave the countdown
alone (and do not touch the propulsion state other than to disable it), the controller has left the pressurizing state
after at most as many cycles as the countdown shows. -/
theorem C38_pressurise_ends (ys : List PropCycle) : ∀ (c : Ctl), c.state = Prp.pressurizing → (∀ y ∈ ys, OnlyDisables y) →
    (∀ y ∈ ys, ∀ x, PropWrite.countdown x ∉ y.writes) → max 1 (c.countdown.toNat - 1) ≤ ys.length →
    ∃ k, k ≤ max 1 (c.countdown.toNat - 1) ∧ (c.run (ys.take k)).state ≠ Prp.pressurizing := by
  induction ys with
  | nil => intro c _ _ _ h; have : max 1 (c.countdown.toNat - 1) ≤ 0 := h; omega
  | cons y ys ih =>
    intro c hs hd hw hl
    by_cases h1 : (c.cycle y).state = Prp.pressurizing
    · have hbc := countdown_before c y (hw y List.mem_cons_self)
      have hcd : (c.cycle y).countdown.toNat = c.countdown.toNat - 1 := by
        show ((c.beforeExecute y).execute y.env).countdown.toNat = _
        rw [execute_countdown, hbc]
      have hgt : 2 < c.countdown.toNat := by
        apply Nat.lt_of_not_le
        intro hle
        rcases before_state c y (hd y List.mem_cons_self) with g | g
        · exact press_deadline _ y.env (g.trans hs) (by rw [hbc]; exact hle) h1
        · have := (C39_disabled _ y.env (Or.inl g)).1
          exact absurd (this.symm.trans h1) (by decide)
      have hl' : max 1 (c.countdown.toNat - 1) ≤ ys.length + 1 := by simpa using hl
      obtain ⟨k, hk, h2⟩ := ih (c.cycle y) h1 (fun y' h' => hd y' (List.mem_cons_of_mem _ h'))
        (fun y' h' => hw y' (List.mem_cons_of_mem _ h')) (by rw [hcd]; omega)
      refine ⟨k + 1, by rw [hcd] at hk; omega, ?_⟩
      rw [List.take_succ_cons, run_cons]; exact h2
    · exact ⟨1, by omega, h1⟩

namespace Ctl

/-- Upper bound on the remaining steps of an open/close cycle. -/
def left (a : ActionCycle) (d : Driver) (t : TankId) (mx F C : Nat) : Nat :=
  (if d.isValveOpen t a.cur = true then C else 0) + max 1 a.timer + (mx - a.count) * (F + C)

theorem left_decreases (a : ActionCycle) (d : Driver) (t : TankId) (succ : Bool) (mx fill close sel F C : Nat) (r : ActRes)
    (a' : ActionCycle) (d' : Driver) (hr : r = .stay ∨ r = .started) (hF : F = max 1 fill) (hC : C = max 1 close)
    (he : a.evaluate d t succ false mx fill close sel = (r, a', d')) : left a' d' t mx F C + 1 ≤ left a d t mx F C := by
  have closing : (d.setValve t a.cur false).isValveOpen t a.cur = false := by
    rw [setValve_open]
    split
    · rfl
    · rename_i hn
      cases ho : d.isValveOpen t a.cur with
      | false => rfl
      | true =>
        refine absurd ⟨rfl, rfl, ?_⟩ hn
        apply Nat.lt_of_not_le
        intro hle
        cases t <;> simp only [isValveOpen, num] at ho hle
        · rw [List.getD_eq_getElem?_getD, List.getElem?_eq_none hle] at ho; cases ho
        · rw [List.getElem?_eq_none hle] at ho; cases ho
  unfold ActionCycle.evaluate at he
  dsimp only at he
  split at he
  · simp only [Prod.mk.injEq] at he
    rw [← he.1] at hr; rcases hr with hr | hr <;> cases hr
  rw [if_neg Bool.false_ne_true] at he
  split at he
  · rename_i ho
    split at he
    · rename_i ht
      simp only [Prod.mk.injEq] at he
      obtain ⟨_, rfl, rfl⟩ := he
      unfold left
      rw [closing, ho]
      simp only [Bool.false_eq_true, if_false, if_true]
      omega
    · rename_i ht
      simp only [Prod.mk.injEq] at he
      obtain ⟨_, rfl, rfl⟩ := he
      unfold left
      rw [ho]
      simp only [if_true]
      omega
  · rename_i ho
    split at he
    · rename_i ht
      split at he
      · simp only [Prod.mk.injEq] at he
        rw [← he.1] at hr; rcases hr with hr | hr <;> cases hr
      · rename_i hm
        simp only [Prod.mk.injEq] at he
        obtain ⟨_, rfl, rfl⟩ := he
        unfold left
        rw [if_neg ho]
        obtain ⟨m, hm⟩ : ∃ m, mx = a.count + 1 + m := ⟨mx - (a.count + 1), by omega⟩
        have e1 : mx - a.count = m + 1 := by omega
        have e2 : mx - (a.count + 1) = m := by omega
        simp only [e1, e2, Nat.add_mul, Nat.one_mul]
        split <;> omega
    · rename_i ht
      simp only [Prod.mk.injEq] at he
      obtain ⟨_, rfl, rfl⟩ := he
      unfold left
      rw [if_neg ho]
      dsimp only
      omega

/-- The writes leave the venting parameters alone. -/
def KeepsVenting (y : PropCycle) : Prop := ∀ w ∈ y.writes, (∀ x, w ≠ .maxVent x) ∧ (∀ x, w ≠ .fill x) ∧ (∀ x, w ≠ .closePeriod x)

theorem keeps_before (c : Ctl) (y : PropCycle) (hw : KeepsVenting y) : (c.beforeExecute y).maxVent = c.maxVent ∧
    (c.beforeExecute y).fill = c.fill ∧ (c.beforeExecute y).closePeriod = c.closePeriod := by
  refine beforeExecute_ind (fun c' => c'.maxVent = c.maxVent ∧ c'.fill = c.fill ∧ c'.closePeriod = c.closePeriod) (fun _ _ h => h) c y
    ⟨rfl, rfl, rfl⟩ (fun c w hm hc => ?_)
  obtain ⟨g1, g2, g3⟩ := hw w hm
  cases w with
  | maxVent x => exact absurd rfl (g1 x)
  | fill x => exact absurd rfl (g2 x)
  | closePeriod x => exact absurd rfl (g3 x)
  | fault i op => cases i <;> exact hc
  | _ => exact hc

theorem vent_ends (F C L : Nat) : ∀ (c : Ctl) (ys : List PropCycle), c.state = Prp.venting → c.drv.enabled = false →
    F = max 1 c.fill.toNat → C = max 1 c.closePeriod.toNat → left c.vent c.drv c.choice c.maxVent.toNat F C ≤ L →
    (∀ y ∈ ys, OnlyDisables y) → (∀ y ∈ ys, KeepsVenting y) → L ≤ ys.length →
    ∃ k, k ≤ L ∧ (c.run (ys.take k)).state ≠ Prp.venting := by
  induction L with
  | zero => intro c ys _ _ _ _ h; unfold left at h; omega
  | succ L ih =>
    intro c ys hs hen hF hC hL hd hk hl
    match ys, hl, hd, hk with
    | y :: ys, hl, hd, hk =>
      by_cases h1 : (c.cycle y).state = Prp.venting
      · have hb := beforeExecute_frame c y
        obtain ⟨k1, k2, k3⟩ := keeps_before c y (hk y List.mem_cons_self)
        have hdrv : (c.beforeExecute y).drv = c.drv := by rw [hb.1, ticks_off hen]
        obtain ⟨x1, x2, x3, x4, x5, x6⟩ := execute_params (c.beforeExecute y) y.env
        rcases before_state c y (hd y List.mem_cons_self) with g | g
        · rcases vent_step _ y.env (g.trans hs) with ⟨_, h1', r, b, sel, hr, he⟩ | ⟨h2, _⟩
          · have hdec := left_decreases _ _ _ _ _ _ _ _ F C _ _ _ hr (by rw [k2]; exact hF) (by rw [k3]; exact hC) he
            rw [hb.2.2.1, hdrv, hb.2.2.2.1, k1] at hdec
            have hen' : (c.cycle y).drv.enabled = false := by
              have := action_enabled (c.beforeExecute y).vent (c.beforeExecute y).drv (c.beforeExecute y).choice b false (c.beforeExecute y).maxVent.toNat
                (c.beforeExecute y).fill.toNat (c.beforeExecute y).closePeriod.toNat sel
              rw [he] at this
              show ((c.beforeExecute y).execute y.env).drv.enabled = false
              rw [this, hdrv]; exact hen
            obtain ⟨k, hk', h5⟩ := ih (c.cycle y) ys h1 hen' (by
                show F = max 1 ((c.beforeExecute y).execute y.env).fill.toNat
                rw [x3, k2]; exact hF) (by
                show C = max 1 ((c.beforeExecute y).execute y.env).closePeriod.toNat
                rw [x5, k3]; exact hC) (by
                show left ((c.beforeExecute y).execute y.env).vent ((c.beforeExecute y).execute y.env).drv ((c.beforeExecute y).execute y.env).choice
                  ((c.beforeExecute y).execute y.env).maxVent.toNat F C ≤ L
                rw [h1', x2, k1, hb.2.2.2.1]
                omega) (fun y' h' => hd y' (List.mem_cons_of_mem _ h')) (fun y' h' => hk y' (List.mem_cons_of_mem _ h')) (by simpa using hl)
            exact ⟨k + 1, by omega, by rw [List.take_succ_cons, run_cons]; exact h5⟩
          · exact absurd h1 h2
        · have := (C39_disabled _ y.env (Or.inl g)).1
          exact absurd (this.symm.trans h1) (by decide)
      · exact ⟨1, by omega, h1⟩

end Ctl

/-- C38: a venting attempt ends: after any disciplined history from construction and a cycle that enters the venting state, the
controller has left it again after at most one opening and one closing period more than the commanded number of venting
cycles, as long as ground leaves these parameters and the propulsion state alone (other than disabling it). -/
theorem C38_vent_ends (p t2 t1 : Rat) (ys0 : List PropCycle) (y : PropCycle) (ys : List PropCycle)
    (h0 : DisciplinedRun (Ctl.init p t2 t1) (ys0 ++ [y]))
    (hs : (((Ctl.init p t2 t1).run ys0).beforeExecute y).state ≠ Prp.venting)
    (hv : (((Ctl.init p t2 t1).run ys0).cycle y).state = Prp.venting)
    (hd : ∀ y ∈ ys, OnlyDisables y) (hk : ∀ y ∈ ys, ∀ w ∈ y.writes, (∀ x, w ≠ .maxVent x) ∧ (∀ x, w ≠ .fill x) ∧ (∀ x, w ≠ .closePeriod x))
    (B : Nat) (hB : B = 1 + ((((Ctl.init p t2 t1).run ys0).cycle y).maxVent.toNat + 1) *
      (max 1 (((Ctl.init p t2 t1).run ys0).cycle y).fill.toNat + max 1 (((Ctl.init p t2 t1).run ys0).cycle y).closePeriod.toNat))
    (hl : B ≤ ys.length) :
    ∃ k, k ≤ B ∧ ((((Ctl.init p t2 t1).run ys0).cycle y).run (ys.take k)).state ≠ Prp.venting := by
  have hi : Inv (((Ctl.init p t2 t1).run ys0).cycle y) := by
    have := run_inv _ _ (init_inv p t2 t1) h0
    unfold Ctl.run at this
    rw [List.foldl_append] at this
    exact this
  generalize (Ctl.init p t2 t1).run ys0 = c at *
  have hen := off_of_inv hi (by rw [hv]; decide)
  have hc : (c.cycle y).vent.count = 0 ∧ (c.cycle y).vent.timer = 0 := by
    obtain ⟨c', hs', _, he⟩ := execute_enters _ _ _ hs (by decide) hv
    show ((c.beforeExecute y).execute y.env).vent.count = 0 ∧ ((c.beforeExecute y).execute y.env).vent.timer = 0
    rw [he]
    show (c'.enter Prp.venting).vent.count = 0 ∧ (c'.enter Prp.venting).vent.timer = 0
    unfold enter
    rw [if_neg (by decide), if_neg (by decide), if_neg (by decide), if_neg (by decide), if_neg (by decide), if_pos rfl]
    dsimp only
    split <;> exact ⟨rfl, rfl⟩
  refine vent_ends _ _ B (c.cycle y) ys hv hen rfl rfl ?_ hd hk hl
  rw [hB]
  unfold left
  rw [hc.1, hc.2, Nat.sub_zero, Nat.add_mul, Nat.one_mul]
  split <;> omega

/-! ### A run in which ground takes the controller out of the pressurizing state -/

set_option maxRecDepth 20000

namespace FillExample

/-- Nominal readings. -/
def env (cc : U32) : PropEnv := { cc, functional := true, pressure := 10, temp2 := 20, temp1 := 20 }

/-- A cycle with nominal readings. -/
def cyc (cc : U32) (ws : List PropWrite) : PropCycle := { ticks1 := 10, writes := ws, ticks2 := 20, env := env cc }

/-- Leaving startup, then a manoeuvre commanded 100 cycles ahead. -/
def start : List PropCycle := [cyc 1 [.state Prp.idle], cyc 2 [.sched 400 0 200 999, .countdown 100]]

/-- Pressurising has begun. -/
def c0 : Ctl := (Ctl.init 10 20 20).run start

example : c0.state = Prp.pressurizing ∧ DisciplinedRun (Ctl.init 10 20 20) start := by
  refine ⟨by decide, ?_, ?_, trivial⟩
  · intro x hx
    right
    exact ⟨by decide, (by decide : ∀ v ∈ (Ctl.init 10 20 20).drv.tank2, v.sched = 0)⟩
  · intro x hx
    right
    exact ⟨by decide, (by decide : ∀ v ∈ ((Ctl.init 10 20 20).cycle (cyc 1 [.state Prp.idle])).drv.tank2, v.sched = 0)⟩

-- The next cycle opens valve 0 of tank 1.
example : (c0.beforeExecute (cyc 3 [])).state = Prp.pressurizing ∧ Opens (c0.beforeExecute (cyc 3 [])) (env 3) .one 0 := by decide

-- Ground shortens the filling period during the attempt, which does not change the time the open valve has left.
example : ¬ ValveOpen (((c0.cycle (cyc 3 [])).run ([cyc 4 [.fill 1], cyc 5 [], cyc 6 [], cyc 7 [], cyc 8 []].take 5))) .one 0 ∧
    ValveOpen (((c0.cycle (cyc 3 [])).run ([cyc 4 [.fill 1], cyc 5 [], cyc 6 [], cyc 7 [], cyc 8 []].take 4))) .one 0 := by decide

-- The number of openings is attained: with a maximum of 1, one opening.
example : openings Prp.pressurizing .one (((Ctl.init 10 20 20).cycle (cyc 1 [.state Prp.idle, .maxPress 1, .fill 1])).cycle
    (cyc 2 [.sched 400 0 200 999, .countdown 50])) [cyc 3 [], cyc 4 [], cyc 5 [], cyc 6 []] = 1 := by decide

/-- Ground writes idle while a filling valve is open. -/
def stuck : Ctl := ((c0.cycle (cyc 3 [])).cycle (cyc 4 [.state Prp.idle, .countdown 0])).cycle (cyc 5 [])

/-- In idle with nominal readings, `execute` does not depend on the cycle count. -/
theorem execute_cc (c : Ctl) (cc : U32) (hs : c.state = Prp.idle) (h1 : c.pressure = 10) (h2 : c.temp2 = 20) (h3 : c.temp1 = 20) :
    c.execute (env cc) = c.execute (env 0) := by
  have h : ∀ cc, c.checkFaults cc = { c with faults := { c.faults with over := c.faults.over.unsignal, temp2 := c.faults.temp2.unsignal, temp1 := c.faults.temp1.unsignal } } := by
    intro cc
    unfold checkFaults Fault.evaluate
    rw [h1, h2, h3]
    rfl
  have hx : ∀ cc, c.execute (env cc) = ((((c.checkFaults cc).decrement.evaluate (env cc)).2.transition (env cc)
      ((c.checkFaults cc).decrement.evaluate (env cc)).1).readSensors (env cc)) := fun _ => rfl
  rw [hx, hx, h, h]
  generalize hc : ({ c with faults := { c.faults with over := c.faults.over.unsignal, temp2 := c.faults.temp2.unsignal, temp1 := c.faults.temp1.unsignal } } : Ctl).decrement = c'
  have hs' : c'.state = Prp.idle := by
    rw [← hc]
    unfold decrement
    split <;> exact hs
  have hev : ∀ cc, c'.evaluate (env cc) = c'.evalIdle (env cc) := by
    intro cc; unfold evaluate; rw [if_pos hs']
  rw [hev, hev]
  rfl

end FillExample
open FillExample

/-- C38, why other tasks and ground must not move the propulsion state out of pressurizing except to disabled: after ground
writes idle while a filling valve is open, the valve stays open for ever. -/
theorem C38_counterexample_ground_idle (ccs : List U32) :
    ValveOpen (stuck.run (ccs.map fun cc => cyc cc [])) .one 0 ∧ (stuck.run (ccs.map fun cc => cyc cc [])).state = Prp.idle := by
  have h0 : stuck.cycle (cyc 0 []) = stuck ∧ stuck.beforeExecute (cyc 0 []) = stuck ∧ stuck.state = Prp.idle ∧
      stuck.pressure = 10 ∧ stuck.temp2 = 20 ∧ stuck.temp1 = 20 ∧ ValveOpen stuck .one 0 := by decide +kernel
  have hstep : ∀ cc, stuck.cycle (cyc cc []) = stuck := by
    intro cc
    have h1 : stuck.cycle (cyc cc []) = (stuck.beforeExecute (cyc 0 [])).execute (env cc) := rfl
    rw [h1, h0.2.1, execute_cc stuck cc h0.2.2.1 h0.2.2.2.1 h0.2.2.2.2.1 h0.2.2.2.2.2.1]
    have h2 : stuck.cycle (cyc 0 []) = (stuck.beforeExecute (cyc 0 [])).execute (env 0) := rfl
    rw [← h0.2.1, ← h2, h0.1, h0.2.1]
  have hrun : stuck.run (ccs.map fun cc => cyc cc []) = stuck := by
    induction ccs with
    | nil => rfl
    | cons cc ccs ih => rw [List.map_cons, run_cons, hstep]; exact ih
  rw [hrun]
  exact ⟨h0.2.2.2.2.2.2, h0.2.2.1⟩

end PAN
