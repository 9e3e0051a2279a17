import Verif.Lemmas.PropCtl
import Verif.Props.PropDriver
import Verif.Props.Fault
/-!
Properties C37 (when thrust valves may open) and C39 (disabling closes everything) of the propulsion controller together with
its driver.
-/
namespace PAN
open Driver
namespace Spec

/-- A valve is open: tank and valve number. -/
def ValveOpen (c : Ctl) (t : TankId) (j : Nat) : Prop := c.drv.isValveOpen t j = true

instance (c : Ctl) (t : TankId) (j : Nat) : Decidable (ValveOpen c t j) := inferInstanceAs (Decidable (_ = true))

/-- A call of `execute` opens the valve. -/
def Opens (c : Ctl) (e : PropEnv) (t : TankId) (j : Nat) : Prop := ¬ ValveOpen c t j ∧ ValveOpen (c.execute e) t j

instance (c : Ctl) (e : PropEnv) (t : TankId) (j : Nat) : Decidable (Opens c e t j) := inferInstanceAs (Decidable (_ ∧ _))

/-- The duration commanded for thrust valve `j`. -/
def commanded (c : Ctl) : Nat → U32
  | 0 => c.v1
  | 1 => c.v2
  | 2 => c.v3
  | 3 => c.v4
  | _ => 0

/-- States in which the controller holds every valve closed. -/
def Quiet (s : U32) : Prop := s ≠ Prp.firing ∧ s ≠ Prp.pressurizing ∧ s ≠ Prp.venting ∧ s ≠ Prp.manual

instance (s : U32) : Decidable (Quiet s) := inferInstanceAs (Decidable (_ ∧ _))

/-- Every valve of both tanks is closed, the firing timer is off. -/
def Shut (c : Ctl) : Prop := (∀ t j, ¬ ValveOpen c t j) ∧ c.drv.enabled = false

/-- The firing schedule in the driver is cleared. -/
def Cleared (c : Ctl) : Prop := ∀ v ∈ c.drv.tank2, v.sched = 0

/-- Writes of `prop.state` by other tasks and ground in one cycle: `disabled` at any time (what the mission manager and the
propulsion fault handler do), anything else only in a quiet state with no schedule left in the driver. -/
def Disciplined (c : Ctl) (y : PropCycle) : Prop :=
  ∀ x, PropWrite.state x ∈ y.writes → x = Prp.disabled ∨ (Quiet c.state ∧ Cleared c)

/-- A history all of whose cycles are disciplined. -/
def DisciplinedRun : Ctl → List PropCycle → Prop
  | _, [] => True
  | c, y :: ys => Disciplined c y ∧ DisciplinedRun (c.cycle y) ys

/-- Nobody but the controller writes the propulsion state in this cycle. -/
def NoStateWrite (y : PropCycle) : Prop := ∀ x, PropWrite.state x ∉ y.writes

end Spec
open Spec

namespace Ctl

/-! ### Frame lemmas -/

theorem write_frame (c : Ctl) (w : PropWrite) :
    (c.write w).drv = c.drv ∧ (c.write w).press = c.press ∧ (c.write w).vent = c.vent ∧ (c.write w).choice = c.choice ∧
    ((c.write w).state = c.state ∨ ∃ x, w = .state x ∧ (c.write w).state = x) := by
  cases w with
  | state x => exact ⟨rfl, rfl, rfl, rfl, Or.inr ⟨x, rfl, rfl⟩⟩
  | fault i op => cases i <;> exact ⟨rfl, rfl, rfl, rfl, Or.inl rfl⟩
  | _ => exact ⟨rfl, rfl, rfl, rfl, Or.inl rfl⟩

theorem writes_frame (ws : List PropWrite) : ∀ (c : Ctl),
    (c.writes ws).drv = c.drv ∧ (c.writes ws).press = c.press ∧ (c.writes ws).vent = c.vent ∧ (c.writes ws).choice = c.choice ∧
    ((c.writes ws).state = c.state ∨ ∃ x, PropWrite.state x ∈ ws ∧ (c.writes ws).state = x) := by
  induction ws with
  | nil => intro c; exact ⟨rfl, rfl, rfl, rfl, Or.inl rfl⟩
  | cons w ws ih =>
    intro c
    obtain ⟨a1, a2, a3, a4, a5⟩ := write_frame c w
    obtain ⟨b1, b2, b3, b4, b5⟩ := ih (c.write w)
    refine ⟨b1.trans a1, b2.trans a2, b3.trans a3, b4.trans a4, ?_⟩
    rcases b5 with b5 | ⟨x, hx, b5⟩
    · rcases a5 with a5 | ⟨x, hx, a5⟩
      · exact Or.inl (b5.trans a5)
      · exact Or.inr ⟨x, hx ▸ List.mem_cons_self, b5.trans a5⟩
    · exact Or.inr ⟨x, List.mem_cons_of_mem _ hx, b5⟩

theorem ticks_ticks (d : Driver) (a b : Nat) : (d.ticks a).ticks b = d.ticks (a + b) := (ticks_add d a b).symm

theorem beforeExecute_frame (c : Ctl) (y : PropCycle) :
    (c.beforeExecute y).drv = c.drv.ticks (y.ticks1 + y.ticks2) ∧ (c.beforeExecute y).press = c.press ∧
    (c.beforeExecute y).vent = c.vent ∧ (c.beforeExecute y).choice = c.choice ∧
    ((c.beforeExecute y).state = c.state ∨ ∃ x, PropWrite.state x ∈ y.writes ∧ (c.beforeExecute y).state = x) := by
  obtain ⟨h1, h2, h3, h4, h5⟩ := writes_frame y.writes (c.interrupts y.ticks1)
  refine ⟨?_, h2, h3, h4, h5⟩
  show (((c.interrupts y.ticks1).writes y.writes).drv).ticks y.ticks2 = _
  rw [h1]
  exact ticks_ticks _ _ _

theorem base_ticks {d : Driver} (h : Base d) (n : Nat) : Base (d.ticks n) :=
  ⟨(ticks_num d n .one).trans h.1, (ticks_num d n .two).trans h.2.1, ticks_lt d 1000 n h.2.2⟩

theorem inv_ticks {s : U32} {d : Driver} {pc vc : Nat} {ch : TankId} (h : InvP s d pc vc ch) (n : Nat) :
    InvP s (d.ticks n) pc vc ch := by
  cases he : d.enabled with
  | false => rw [ticks_off he]; exact h
  | true =>
    have hs := h.2.1 he
    refine ⟨base_ticks h.1 n, fun _ => hs, fun hn => absurd hs hn, fun t j ho => ?_⟩
    cases t
    · rw [ticks_open1] at ho; exact h.2.2.2 .one j ho
    · exact Or.inr (Or.inr (Or.inr ⟨hs, rfl⟩))

/-- Between cycles, disciplined writes and interrupts keep what `execute` needs. -/
theorem preInv_of_inv (c : Ctl) (y : PropCycle) (h : Inv c) (hd : Disciplined c y) : PreInv (c.beforeExecute y) := by
  obtain ⟨h1, h2, h3, h4, h5⟩ := beforeExecute_frame c y
  refine ⟨by rw [h1]; exact base_ticks h.1 _, ?_⟩
  rcases h5 with h5 | ⟨x, hx, h5⟩
  · right
    unfold Inv
    rw [h1, h2, h3, h4, h5]
    exact inv_ticks h _
  · rcases hd x hx with rfl | ⟨hq, hcl⟩
    · exact Or.inl h5
    · right
      apply inv_of_safe
      rw [h1]
      have hoff := off_of_inv h hq.1
      rw [ticks_off hoff]
      refine ⟨h.1, ?_, hoff, hcl⟩
      intro t j
      cases hj : c.drv.isValveOpen t j with
      | false => rfl
      | true =>
        rcases h.2.2.2 t j hj with ⟨h, _⟩ | ⟨h, _⟩ | h | ⟨h, _⟩
        · exact absurd h hq.2.1
        · exact absurd h hq.2.2.1
        · exact absurd h hq.2.2.2
        · exact absurd h hq.1

theorem cycle_inv (c : Ctl) (y : PropCycle) (h : Inv c) (hd : Disciplined c y) : Inv (c.cycle y) :=
  execute_inv _ _ (preInv_of_inv c y h hd)

theorem run_inv (ys : List PropCycle) : ∀ (c : Ctl), Inv c → DisciplinedRun c ys → Inv (c.run ys) := by
  induction ys with
  | nil => intro c h _; exact h
  | cons y ys ih => intro c h hd; exact ih (c.cycle y) (cycle_inv c y h hd.1) hd.2

theorem init_safe (p t2 t1 : Rat) : Safe (Ctl.init p t2 t1).drv := by
  refine ⟨⟨rfl, rfl, (by decide : ∀ v ∈ Driver.init.tank2, v.sched.toNat < 1000)⟩, ?_, rfl,
    (by decide : ∀ v ∈ Driver.init.tank2, v.sched = 0)⟩
  intro t j
  cases t
  · show ([false, false] : List Bool).getD j false = false
    match j with
    | 0 => rfl
    | 1 => rfl
    | j + 2 => rfl
  · show ((List.replicate 4 (⟨0, false⟩ : Valve))[j]?.map (·.isOpen)).getD false = false
    rw [List.getElem?_replicate]
    split <;> rfl

theorem init_inv (p t2 t1 : Rat) : Inv (Ctl.init p t2 t1) := inv_of_safe (init_safe p t2 t1)

/-! ### What `execute` can do to the thrust valves, from any state -/

/-- `d'` has no tank-2 valve open that is not open in `d`, and its timer is not running unless `d`'s is. -/
def Calmer (d d' : Driver) : Prop :=
  (∀ j, d'.isValveOpen .two j = true → d.isValveOpen .two j = true) ∧ (d'.enabled = true → d.enabled = true)

theorem Calmer.refl (d : Driver) : Calmer d d := ⟨fun _ h => h, fun h => h⟩

theorem Calmer.trans {a b c : Driver} (h : Calmer a b) (h' : Calmer b c) : Calmer a c :=
  ⟨fun j hj => h.1 j (h'.1 j hj), fun he => h.2 (h'.2 he)⟩

theorem calmer_reset (d : Driver) : Calmer d d.reset :=
  ⟨fun j hj => absurd (hj.symm.trans (reset_closed d .two j)) (by decide), fun h => absurd h (by rw [reset_enabled]; decide)⟩

theorem calmer_disable (d : Driver) : Calmer d d.disable :=
  ⟨fun j hj => absurd (hj.symm.trans (disable_open2 d j)) (by decide), fun h => absurd h (by rw [disable_enabled]; decide)⟩

theorem calmer_setSchedule (d : Driver) (ms : List U32) : Calmer d (d.setSchedule ms).2 := by
  refine ⟨fun j hj => ?_, fun h => by rw [setSchedule_enabled] at h; exact h⟩
  unfold setSchedule at hj
  split at hj
  · exact hj
  · split at hj
    · exact hj
    · simp only [isValveOpen, List.getElem?_zipWith] at hj ⊢
      cases h1 : d.tank2[j]? with
      | none => rw [h1] at hj; cases hj
      | some v =>
        rw [h1] at hj
        cases h2 : ms[j]? with
        | none => rw [h2] at hj; cases hj
        | some x => rw [h2] at hj; exact hj

theorem calmer_setValve_one (d : Driver) (i : Nat) (b : Bool) : Calmer d (d.setValve .one i b) :=
  ⟨fun j hj => by rw [setValve_open] at hj; simpa using hj, fun h => by rw [setValve_enabled] at h; exact h⟩

theorem calmer_setValve_false (d : Driver) (t : TankId) (i : Nat) : Calmer d (d.setValve t i false) := by
  refine ⟨fun j hj => ?_, fun h => by rw [setValve_enabled] at h; exact h⟩
  rw [setValve_open] at hj
  split at hj
  · cases hj
  · exact hj

theorem calmer_action (a : ActionCycle) (d : Driver) (succ fail : Bool) (max fill close sel : Nat) :
    Calmer d (a.evaluate d .one succ fail max fill close sel).2.2 := by
  unfold ActionCycle.evaluate
  dsimp only
  split
  · exact calmer_setValve_one _ _ _
  split
  · exact Calmer.refl _
  split
  · split
    · exact calmer_setValve_one _ _ _
    · exact Calmer.refl _
  split
  · split
    · exact Calmer.refl _
    · exact calmer_setValve_one _ _ _
  · exact Calmer.refl _

theorem action_enabled (a : ActionCycle) (d : Driver) (t : TankId) (succ fail : Bool) (max fill close sel : Nat) :
    (a.evaluate d t succ fail max fill close sel).2.2.enabled = d.enabled := by
  unfold ActionCycle.evaluate
  dsimp only
  split
  · exact setValve_enabled _ _ _ _
  split
  · rfl
  split
  · split
    · exact setValve_enabled _ _ _ _
    · rfl
  split
  · split
    · rfl
    · exact setValve_enabled _ _ _ _
  · rfl

theorem enter_calmer (c : Ctl) (s : U32) (h : s ≠ Prp.firing) : Calmer c.drv (c.enter s).drv := by
  rcases enter_drv c s h with h1 | h1 <;> rw [h1]
  · exact Calmer.refl _
  · exact calmer_reset _

theorem transition_calmer (c : Ctl) (e : PropEnv) (n : U32) (h : n ≠ Prp.firing) : Calmer c.drv (c.transition e n).drv := by
  rcases transition_cases c e n with ⟨_, h2⟩ | ⟨_, f, _, h2⟩ | ⟨_, f, _, h2⟩ <;> rw [h2]
  · exact Calmer.refl _
  · exact Calmer.refl _
  · exact enter_calmer { c with faults := f, state := n } n h

theorem enter_state (c : Ctl) (s : U32) : (c.enter s).state = c.state := by
  unfold enter
  split
  · rfl
  split
  · rfl
  split
  · rfl
  split
  · rfl
  split
  · rfl
  split
  · rfl
  split
  · rfl
  · rfl

/-- The state after a transition is the old one, disabled, or the requested one. -/
theorem transition_state (c : Ctl) (e : PropEnv) (n : U32) :
    (c.transition e n).state = n ∨ (c.transition e n).state = Prp.disabled := by
  rcases transition_cases c e n with ⟨h1, h2⟩ | ⟨_, f, _, h2⟩ | ⟨_, f, _, h2⟩ <;> rw [h2]
  · exact Or.inl h1.symm
  · exact Or.inr rfl
  · left; rw [enter_state]

/-- Everything one step can do to the thrust valves and the timer. -/
theorem step_thrust (c : Ctl) (e : PropEnv) :
    Calmer c.drv ((c.evaluate e).2.transition e (c.evaluate e).1).drv ∨
    (c.state = Prp.awaitFiring ∧ c.countdown = 0 ∧ e.functional = true ∧ (c.evaluate e).1 = Prp.firing ∧
      ((c.evaluate e).2.transition e (c.evaluate e).1).state = Prp.firing ∧
      ∀ j, ((c.evaluate e).2.transition e (c.evaluate e).1).drv.isValveOpen .two j = true → c.drv.isValveOpen .two j = true) ∨
    (c.state = Prp.venting ∧ c.choice = .two ∧
      (((c.evaluate e).2.transition e (c.evaluate e).1).drv.enabled = true → c.drv.enabled = true)) ∨
    (c.state = Prp.manual ∧ ((c.evaluate e).2.transition e (c.evaluate e).1).drv = c.evalManual.2.drv) := by
  unfold evaluate
  split
  · obtain ⟨f, n, he, hn⟩ := evalIdle_frame c e
    rw [he]; exact Or.inl (transition_calmer { c with faults := f } e n hn)
  split
  · obtain ⟨f, n, he, hn⟩ := evalAwaitPressurizing_frame c e
    rw [he]; exact Or.inl (transition_calmer { c with faults := f } e n hn)
  split
  · left
    rcases evalPressurizing_cases c e with ⟨_, he⟩ | ⟨_, f, _, he⟩ | ⟨_, f, _, r, a, d, hr, hc⟩
    · rw [he]; exact (calmer_reset _).trans (transition_calmer { c with drv := c.drv.reset } _ _ (by next_ne))
    · rw [he]; exact (calmer_reset _).trans (transition_calmer { c with faults := f, drv := c.drv.reset } _ _ (by next_ne))
    · have hd : Calmer c.drv d := by
        have := calmer_action c.press c.drv (c.pressure ≥ c.threshold) (!c.validSchedule) c.maxPress.toNat
          c.fill.toNat c.cool.toNat c.tank1Valve.toNat
        rw [hr] at this; exact this
      rcases hc with ⟨_, he⟩ | ⟨_, he⟩ | ⟨_, he⟩ | ⟨_, he⟩ <;> rw [he]
      · exact hd.trans (transition_calmer { c with faults := f, press := a, drv := d } _ _ (by next_ne))
      · exact hd.trans (transition_calmer { c with faults := f, press := a, drv := d } _ _ (by next_ne))
      · exact hd.trans (transition_calmer { c with faults := f, press := a, drv := d } _ _
          (by show Prp.pressurizing ≠ Prp.firing; decide))
      · obtain ⟨f', hp | hp⟩ := pressOutOfCycles_cases ({ c with faults := f, press := a, drv := d } : Ctl) e.cc
        · rw [hp.2]
          exact (hd.trans (calmer_reset _)).trans
            (transition_calmer { c with faults := f', press := a, drv := d.reset } _ _ (by next_ne))
        · rw [hp.2]
          exact hd.trans (transition_calmer { c with faults := f', press := a, drv := d } _ _ (by next_ne))
  split
  · rename_i hs
    rcases evalAwaitFiring_cases c e with ⟨f, n, he, hn, _⟩ | ⟨f, hcd, _, he⟩
    · rw [he]; exact Or.inl (transition_calmer { c with faults := f } e n hn)
    · rw [he]
      have hss := calmer_setSchedule c.drv [c.v1, c.v2, c.v3, c.v4]
      rcases transition_cases ({ c with faults := f, drv := (c.drv.setSchedule [c.v1, c.v2, c.v3, c.v4]).2 } : Ctl) e Prp.firing with
          ⟨h2, _⟩ | ⟨_, f', _, h2⟩ | ⟨_, f', hce, h2⟩
      · exact absurd (h2.trans hs) (by decide)
      · left; show Calmer _ (Ctl.transition _ _ _).drv; rw [h2]; exact hss
      · right; left
        refine ⟨hs, hcd, ?_, rfl, ?_, ?_⟩
        · have : (decide (c.state = Prp.awaitFiring) && decide (c.countdown = 0) && e.functional) = true := hce
          rw [Bool.and_eq_true] at this
          exact this.2
        · show (Ctl.transition _ _ _).state = _; rw [h2]; rfl
        · intro j hj
          have hj' : (Ctl.transition _ e Prp.firing).drv.isValveOpen .two j = true := hj
          rw [h2] at hj'
          have : (c.drv.setSchedule [c.v1, c.v2, c.v3, c.v4]).2.startFiring.2.isValveOpen .two j = true := hj'
          apply hss.1
          unfold startFiring at this
          split at this
          · exact absurd (this.symm.trans (disable_open2 _ j)) (by decide)
          · exact this
  split
  · rename_i hs
    obtain ⟨f, he | ⟨_, he⟩ | ⟨_, he⟩⟩ := evalFiring_cases c e
    · rw [he]; exact Or.inl ((calmer_reset _).trans (transition_calmer { c with faults := f, drv := c.drv.reset } _ _ (by next_ne)))
    · rw [he]
      exact Or.inl ((calmer_disable _).trans (transition_calmer { c with faults := f, drv := c.drv.disable } _ _ (by next_ne)))
    · rw [he]
      left
      rcases transition_cases ({ c with faults := f } : Ctl) e Prp.firing with ⟨h2, h3⟩ | ⟨h2, _⟩ | ⟨h2, _⟩
      · show Calmer _ (Ctl.transition _ _ _).drv; rw [h3]; exact Calmer.refl _
      · exact absurd hs.symm h2
      · exact absurd hs.symm h2
  split
  · rename_i hs
    obtain ⟨r, a, d, hr, hc⟩ := evalVenting_cases c
    have key : (c.choice = .one → Calmer c.drv d) ∧ d.enabled = c.drv.enabled := by
      constructor
      · intro h1
        rw [h1] at hr
        have := calmer_action c.vent c.drv c.ventSucceeded.1 false c.maxVent.toNat c.fill.toNat c.closePeriod.toNat
          (if TankId.one = .one then c.tank1Valve.toNat else c.saved.toNat % 4)
        rw [hr] at this; exact this
      · have := action_enabled c.vent c.drv c.choice c.ventSucceeded.1 false c.maxVent.toNat c.fill.toNat c.closePeriod.toNat
          (if c.choice = .one then c.tank1Valve.toNat else c.saved.toNat % 4)
        rw [hr] at this; exact this
    have fin : ∀ c' : Ctl, c'.drv = d → ∀ n, n ≠ Prp.firing →
        Calmer c.drv (c'.transition e n).drv ∨ (c.choice = .two ∧ ((c'.transition e n).drv.enabled = true → c.drv.enabled = true)) := by
      intro c' hd n hn
      have ht := transition_calmer c' e n hn
      rw [hd] at ht
      cases h1 : c.choice with
      | one => exact Or.inl ((key.1 h1).trans ht)
      | two => exact Or.inr ⟨rfl, fun h => by rw [← key.2]; exact ht.2 h⟩
    have wrap : ∀ c' : Ctl, c'.drv = d → ∀ n, n ≠ Prp.firing →
        Calmer c.drv (c'.transition e n).drv ∨ (c.state = Prp.awaitFiring ∧ c.countdown = 0 ∧ e.functional = true ∧
          n = Prp.firing ∧ (c'.transition e n).state = Prp.firing ∧
          ∀ j, (c'.transition e n).drv.isValveOpen .two j = true → c.drv.isValveOpen .two j = true) ∨
        (c.state = Prp.venting ∧ c.choice = .two ∧ ((c'.transition e n).drv.enabled = true → c.drv.enabled = true)) ∨
        (c.state = Prp.manual ∧ (c'.transition e n).drv = c.evalManual.2.drv) := by
      intro c' hd n hn
      rcases fin c' hd n hn with h | h
      · exact Or.inl h
      · exact Or.inr (Or.inr (Or.inl ⟨hs, h⟩))
    rcases hc with ⟨_, he⟩ | ⟨_, he⟩ | ⟨_, he⟩ | ⟨_, he⟩ <;> rw [he]
    · exact wrap _ rfl _ (by next_ne)
    · exact wrap _ rfl _ (by show Prp.venting ≠ Prp.firing; decide)
    · exact wrap _ rfl _ (by show Prp.venting ≠ Prp.firing; decide)
    · obtain ⟨f', hp | hp⟩ := ventOutOfCycles_cases ({ c with faults := c.ventSucceeded.2, vent := a, drv := d } : Ctl)
      · rw [hp]; exact wrap _ rfl _ (by next_ne)
      · rw [hp.2]; exact wrap _ rfl _ (by next_ne)
  split
  · obtain ⟨f, n, he, hn⟩ := evalHandlingFault_frame c e
    rw [he]; exact Or.inl (transition_calmer { c with faults := f } e n hn)
  split
  · rename_i hs
    right; right; right
    refine ⟨hs, ?_⟩
    rcases transition_cases c.evalManual.2 e Prp.manual with ⟨h2, h3⟩ | ⟨h2, _⟩ | ⟨h2, _⟩
    · show (c.evalManual.2.transition e Prp.manual).drv = _
      rw [h3]
    · exact absurd hs.symm h2
    · exact absurd hs.symm h2
  · exact Or.inl ((calmer_reset _).trans (transition_calmer { c with drv := c.drv.reset } _ _ (by next_ne)))


/-! ### `execute` as one step -/

theorem pre_eq (c : Ctl) (cc : U32) : ∃ f k, (c.checkFaults cc).decrement = { c with faults := f, countdown := k } ∧
    f = (c.checkFaults cc).faults ∧ k.toNat = c.countdown.toNat - 1 := by
  unfold decrement
  by_cases h : (c.checkFaults cc).countdown > 0
  · rw [if_pos h]
    refine ⟨_, _, rfl, rfl, ?_⟩
    have h' : 0 < c.countdown.toNat := h
    show (c.countdown - 1).toNat = _
    rw [BitVec.toNat_sub_of_le (by rw [BitVec.le_def]; exact h')]
    rfl
  · rw [if_neg h]
    refine ⟨_, _, rfl, rfl, ?_⟩
    have h' : ¬ 0 < c.countdown.toNat := h
    show c.countdown.toNat = _
    omega

/-- `execute` as evaluation and transition of the controller after the prologue. -/
theorem execute_eq (c : Ctl) (e : PropEnv) : ∃ f k, f = (c.checkFaults e.cc).faults ∧ k.toNat = c.countdown.toNat - 1 ∧
    c.execute e = (((({ c with faults := f, countdown := k } : Ctl).evaluate e).2.transition e
      (({ c with faults := f, countdown := k } : Ctl).evaluate e).1).readSensors e) := by
  obtain ⟨f, k, h1, h2, h3⟩ := pre_eq c e.cc
  refine ⟨f, k, h2, h3, ?_⟩
  unfold execute
  rw [h1]

theorem evaluate_firing (c : Ctl) (e : PropEnv) (h : (c.evaluate e).1 = Prp.firing) :
    c.state = Prp.firing ∨ c.state = Prp.awaitFiring := by
  unfold evaluate at h
  split at h
  · obtain ⟨f, n, he, hn⟩ := evalIdle_frame c e
    rw [he] at h; exact absurd h hn
  split at h
  · obtain ⟨f, n, he, hn⟩ := evalAwaitPressurizing_frame c e
    rw [he] at h; exact absurd h hn
  split at h
  · rcases evalPressurizing_cases c e with ⟨_, he⟩ | ⟨_, f, _, he⟩ | ⟨_, f, _, r, a, d, hr, hc⟩
    · rw [he] at h; exact absurd h (by show Prp.idle ≠ Prp.firing; decide)
    · rw [he] at h; exact absurd h (by show Prp.handlingFault ≠ Prp.firing; decide)
    · rcases hc with ⟨_, he⟩ | ⟨_, he⟩ | ⟨_, he⟩ | ⟨_, he⟩ <;> rw [he] at h
      · exact absurd h (by show Prp.awaitFiring ≠ Prp.firing; decide)
      · exact absurd h (by show Prp.disabled ≠ Prp.firing; decide)
      · exact absurd h (by show Prp.pressurizing ≠ Prp.firing; decide)
      · obtain ⟨f', hp | hp⟩ := pressOutOfCycles_cases ({ c with faults := f, press := a, drv := d } : Ctl) e.cc <;> rw [hp.2] at h
        · exact absurd h (by show Prp.handlingFault ≠ Prp.firing; decide)
        · exact absurd h (by show Prp.awaitFiring ≠ Prp.firing; decide)
  split at h
  · rename_i hs; exact Or.inr hs
  split at h
  · rename_i hs; exact Or.inl hs
  split at h
  · obtain ⟨r, a, d, hr, hc⟩ := evalVenting_cases c
    rcases hc with ⟨_, he⟩ | ⟨_, he⟩ | ⟨_, he⟩ | ⟨_, he⟩ <;> rw [he] at h
    · exact absurd h (by show Prp.idle ≠ Prp.firing; decide)
    · exact absurd h (by show Prp.venting ≠ Prp.firing; decide)
    · exact absurd h (by show Prp.venting ≠ Prp.firing; decide)
    · obtain ⟨f', hp | hp⟩ := ventOutOfCycles_cases ({ c with faults := c.ventSucceeded.2, vent := a, drv := d } : Ctl)
      · rw [hp] at h; exact absurd h (by show Prp.handlingFault ≠ Prp.firing; decide)
      · rw [hp.2] at h; exact absurd h (by show Prp.disabled ≠ Prp.firing; decide)
  split at h
  · obtain ⟨f, n, he, hn⟩ := evalHandlingFault_frame c e
    rw [he] at h; exact absurd h hn
  split at h
  · exact absurd h (by show Prp.manual ≠ Prp.firing; decide)
  · exact absurd h (by show Prp.disabled ≠ Prp.firing; decide)

theorem transition_firing (c : Ctl) (e : PropEnv) (n : U32) (h : (c.transition e n).state = Prp.firing) : n = Prp.firing := by
  rcases transition_state c e n with h1 | h1
  · rw [← h1]; exact h
  · rw [h1] at h; exact absurd h (by decide)

/-- The transition to firing from awaiting firing needs functional hardware. -/
theorem transition_firing_functional (c : Ctl) (e : PropEnv) (hs : c.state ≠ Prp.firing)
    (h : (c.transition e Prp.firing).state = Prp.firing) : c.state = Prp.awaitFiring ∧ c.countdown = 0 ∧ e.functional = true := by
  rcases transition_cases c e Prp.firing with ⟨h1, _⟩ | ⟨_, f, _, h2⟩ | ⟨_, f, hce, _⟩
  · exact absurd h1.symm hs
  · rw [h2] at h; exact absurd h (by show Prp.disabled ≠ Prp.firing; decide)
  · have : (decide (c.state = Prp.awaitFiring) && decide (c.countdown = 0) && e.functional) = true := hce
    simp only [Bool.and_eq_true, decide_eq_true_eq] at this
    exact ⟨this.1.1, this.1.2, this.2⟩

/-- Evaluation leaves the state field and the countdown alone. -/
theorem evaluate_frame (c : Ctl) (e : PropEnv) : ∃ f p v s d,
    (c.evaluate e).2 = { c with faults := f, press := p, vent := v, saved := s, drv := d } := by
  unfold evaluate
  split
  · obtain ⟨f, n, he, hn⟩ := evalIdle_frame c e
    rw [he]; exact ⟨_, _, _, _, _, rfl⟩
  split
  · obtain ⟨f, n, he, hn⟩ := evalAwaitPressurizing_frame c e
    rw [he]; exact ⟨_, _, _, _, _, rfl⟩
  split
  · rcases evalPressurizing_cases c e with ⟨_, he⟩ | ⟨_, f, _, he⟩ | ⟨_, f, _, r, a, d, hr, hc⟩
    · rw [he]; exact ⟨_, _, _, _, _, rfl⟩
    · rw [he]; exact ⟨_, _, _, _, _, rfl⟩
    · rcases hc with ⟨_, he⟩ | ⟨_, he⟩ | ⟨_, he⟩ | ⟨_, he⟩ <;> rw [he]
      · exact ⟨_, _, _, _, _, rfl⟩
      · exact ⟨_, _, _, _, _, rfl⟩
      · exact ⟨_, _, _, _, _, rfl⟩
      · obtain ⟨f', hp | hp⟩ := pressOutOfCycles_cases ({ c with faults := f, press := a, drv := d } : Ctl) e.cc <;> rw [hp.2]
        · exact ⟨_, _, _, _, _, rfl⟩
        · exact ⟨_, _, _, _, _, rfl⟩
  split
  · rcases evalAwaitFiring_cases c e with ⟨f, n, he, hn, _⟩ | ⟨f, hcd, _, he⟩ <;> rw [he]
    · exact ⟨_, _, _, _, _, rfl⟩
    · exact ⟨_, _, _, _, _, rfl⟩
  split
  · obtain ⟨f, he | ⟨_, he⟩ | ⟨_, he⟩⟩ := evalFiring_cases c e <;> rw [he]
    · exact ⟨_, _, _, _, _, rfl⟩
    · exact ⟨_, _, _, _, _, rfl⟩
    · exact ⟨_, _, _, _, _, rfl⟩
  split
  · obtain ⟨r, a, d, hr, hc⟩ := evalVenting_cases c
    rcases hc with ⟨_, he⟩ | ⟨_, he⟩ | ⟨_, he⟩ | ⟨_, he⟩ <;> rw [he]
    · exact ⟨_, _, _, _, _, rfl⟩
    · exact ⟨_, _, _, _, _, rfl⟩
    · exact ⟨_, _, _, _, _, rfl⟩
    · obtain ⟨f', hp | hp⟩ := ventOutOfCycles_cases ({ c with faults := c.ventSucceeded.2, vent := a, drv := d } : Ctl)
      · rw [hp]; exact ⟨_, _, _, _, _, rfl⟩
      · rw [hp.2]; exact ⟨_, _, _, _, _, rfl⟩
  split
  · obtain ⟨f, n, he, hn⟩ := evalHandlingFault_frame c e
    rw [he]; exact ⟨_, _, _, _, _, rfl⟩
  split
  · exact ⟨_, _, _, _, _, rfl⟩
  · exact ⟨_, _, _, _, _, rfl⟩

theorem enter_frame (c : Ctl) (s : U32) : ∃ f p v t d n,
    c.enter s = { c with faults := f, press := p, vent := v, choice := t, drv := d, firings := n } := by
  unfold enter
  split
  · exact ⟨_, _, _, _, _, _, rfl⟩
  split
  · exact ⟨_, _, _, _, _, _, rfl⟩
  split
  · exact ⟨_, _, _, _, _, _, rfl⟩
  split
  · exact ⟨_, _, _, _, _, _, rfl⟩
  split
  · exact ⟨_, _, _, _, _, _, rfl⟩
  split
  · exact ⟨_, _, _, _, _, _, rfl⟩
  split
  · exact ⟨_, _, _, _, _, _, rfl⟩
  · exact ⟨_, _, _, _, _, _, rfl⟩

theorem transition_frame (c : Ctl) (e : PropEnv) (n : U32) : ∃ st f p v t d k,
    c.transition e n = { c with state := st, faults := f, press := p, vent := v, choice := t, drv := d, firings := k } := by
  rcases transition_cases c e n with ⟨_, h2⟩ | ⟨_, f, _, h2⟩ | ⟨_, f, _, h2⟩ <;> rw [h2]
  · exact ⟨_, _, _, _, _, _, _, rfl⟩
  · exact ⟨_, _, _, _, _, _, _, rfl⟩
  · obtain ⟨f', p, v, t, d, k, he⟩ := enter_frame { c with faults := f, state := n } n
    rw [he]
    exact ⟨_, _, _, _, _, _, _, rfl⟩

/-- Fields that only ground and other tasks write. -/
theorem execute_frame (c : Ctl) (e : PropEnv) : ∃ st k f p v t s d n, k.toNat = c.countdown.toNat - 1 ∧
    c.execute e = { c with state := st, countdown := k, faults := f, press := p, vent := v, choice := t, saved := s, drv := d, firings := n, pressure := e.pressure, temp2 := e.temp2, temp1 := e.temp1 } := by
  obtain ⟨f, k, _, hk, he⟩ := execute_eq c e
  rw [he]
  obtain ⟨f1, p1, v1, s1, d1, h1⟩ := evaluate_frame { c with faults := f, countdown := k } e
  rw [h1]
  obtain ⟨st, f2, p2, v2, t2, d2, n2, h2⟩ := transition_frame
    { c with faults := f1, countdown := k, press := p1, vent := v1, saved := s1, drv := d1 } e
    (({ c with faults := f, countdown := k } : Ctl).evaluate e).1
  refine ⟨st, k, f2, p2, v2, t2, s1, d2, n2, hk, ?_⟩
  show Ctl.readSensors (Ctl.transition _ _ _) _ = _
  rw [h2]
  rfl

end Ctl
open Ctl

/-! ### C37 -/

/-- C37: the controller enters firing only from awaiting firing, with the countdown expired and the hardware functional. -/
theorem C37_firing_entry (c : Ctl) (e : PropEnv) (h0 : c.state ≠ Prp.firing) (h : (c.execute e).state = Prp.firing) :
    c.state = Prp.awaitFiring ∧ (c.execute e).countdown = 0 ∧ e.functional = true := by
  obtain ⟨st, k', f', p', v', t', s', d', n', hk', hfr⟩ := execute_frame c e
  obtain ⟨f, k, _, hk, he⟩ := execute_eq c e
  rw [he] at h
  have h1 := transition_firing _ _ _ h
  rcases evaluate_firing { c with faults := f, countdown := k } e h1 with h2 | h2
  · exact absurd h2 h0
  · have h' : (Ctl.transition _ e (Ctl.evaluate { c with faults := f, countdown := k } e).1).state = Prp.firing := h
    rw [h1] at h'
    obtain ⟨f1, p1, v1, s1, d1, hev⟩ := evaluate_frame { c with faults := f, countdown := k } e
    rw [hev] at h'
    obtain ⟨g1, g2, g3⟩ := transition_firing_functional
      { c with faults := f1, countdown := k, press := p1, vent := v1, saved := s1, drv := d1 } e h0 h'
    refine ⟨g1, ?_, g3⟩
    have hk0 : k = 0 := g2
    rw [hfr]
    apply BitVec.eq_of_toNat_eq
    show k'.toNat = 0
    have : k.toNat = 0 := by rw [hk0]; rfl
    omega

/-- C37: the firing timer is started by nothing else. -/
theorem C37_timer_start (c : Ctl) (e : PropEnv) (h0 : c.drv.enabled = false) (h : (c.execute e).drv.enabled = true) :
    c.state = Prp.awaitFiring ∧ (c.execute e).state = Prp.firing ∧ c.countdown.toNat ≤ 1 ∧ e.functional = true := by
  obtain ⟨f, k, _, hk, he⟩ := execute_eq c e
  rw [he] at h ⊢
  rcases step_thrust { c with faults := f, countdown := k } e with g | ⟨g1, g2, g3, _, g5, _⟩ | ⟨_, _, g⟩ | ⟨g1, g⟩
  · exact absurd (g.2 h) (by show c.drv.enabled ≠ true; rw [h0]; decide)
  · refine ⟨g1, g5, ?_, g3⟩
    have hk0 : k = 0 := g2
    have : k.toNat = 0 := by rw [hk0]; rfl
    omega
  · exact absurd (g h) (by show c.drv.enabled ≠ true; rw [h0]; decide)
  · have h' : (Ctl.transition _ e (Ctl.evaluate { c with faults := f, countdown := k } e).1).drv.enabled = true := h
    rw [g] at h'
    simp only [evalManual, setValve_enabled] at h'
    exact absurd h' (by rw [h0]; decide)

/-- C37: a thrust valve is opened by the control task only while venting tank 2 or in manual mode with a duration commanded
for that valve. -/
theorem C37_thrust_valve_opens (c : Ctl) (e : PropEnv) (j : Nat) (h : Opens c e .two j) :
    (c.state = Prp.venting ∧ c.choice = .two) ∨ (c.state = Prp.manual ∧ commanded c j > 0) := by
  obtain ⟨h0, h⟩ := h
  obtain ⟨f, k, _, hk, he⟩ := execute_eq c e
  unfold ValveOpen at h0 h
  rw [he] at h
  rcases step_thrust { c with faults := f, countdown := k } e with g | ⟨_, _, _, _, _, g⟩ | ⟨g1, g2, _⟩ | ⟨g1, g⟩
  · exact absurd (g.1 j h) h0
  · exact absurd (g j h) h0
  · exact Or.inl ⟨g1, g2⟩
  · right
    refine ⟨g1, ?_⟩
    have h' : (Ctl.transition _ e (Ctl.evaluate { c with faults := f, countdown := k } e).1).drv.isValveOpen .two j = true := h
    rw [g] at h'
    simp only [evalManual, setValve_open, setValve_num, reduceCtorEq, false_and, if_false, true_and] at h'
    split at h'
    · rename_i hj; rw [← hj.1]; exact of_decide_eq_true h'
    split at h'
    · rename_i hj; rw [← hj.1]; exact of_decide_eq_true h'
    split at h'
    · rename_i hj; rw [← hj.1]; exact of_decide_eq_true h'
    split at h'
    · rename_i hj; rw [← hj.1]; exact of_decide_eq_true h'
    · exact absurd h' h0

/-- C37: a timer interrupt opens a thrust valve only while the firing timer runs. -/
theorem C37_interrupt_opens (d : Driver) (n j : Nat) (h0 : d.isValveOpen .two j = false)
    (h : (d.ticks n).isValveOpen .two j = true) : d.enabled = true := by
  cases he : d.enabled with
  | true => rfl
  | false => rw [ticks_off he, h0] at h; cases h

/-- C37, whole histories from construction, as long as nobody but the controller moves it out of a state in which it operates
valves (other than to disabled): whenever a thrust valve is open, after any number of interrupts in the following cycle, the
controller is firing, venting or in manual mode, and the firing timer runs only in the firing state. -/
theorem C37_history (p t2 t1 : Rat) (ys : List PropCycle) (hd : DisciplinedRun (Ctl.init p t2 t1) ys) (n : Nat) :
    (∀ j, ValveOpen (((Ctl.init p t2 t1).run ys).interrupts n) .two j →
      ((Ctl.init p t2 t1).run ys).state = Prp.firing ∨ ((Ctl.init p t2 t1).run ys).state = Prp.venting ∨
      ((Ctl.init p t2 t1).run ys).state = Prp.manual) ∧
    (((Ctl.init p t2 t1).run ys).drv.enabled = true → ((Ctl.init p t2 t1).run ys).state = Prp.firing) := by
  have hi := run_inv ys _ (init_inv p t2 t1) hd
  refine ⟨fun j hj => ?_, hi.2.1⟩
  have hi' := inv_ticks hi n
  rcases hi'.2.2.2 .two j hj with ⟨_, h, _⟩ | ⟨h, _⟩ | h | ⟨h, _⟩
  · cases h
  · exact Or.inr (Or.inl h)
  · exact Or.inr (Or.inr h)
  · exact Or.inl h

/-! ### C39 -/

/-- C39: from any controller and driver state, an `execute` that finds the propulsion state disabled (or undefined) leaves it
disabled with every valve closed, the timer off and the schedule cleared. -/
theorem C39_disabled (c : Ctl) (e : PropEnv) (h : c.state = Prp.disabled ∨ 8 < c.state.toNat) :
    (c.execute e).state = Prp.disabled ∧ Shut (c.execute e) ∧ Cleared (c.execute e) := by
  obtain ⟨f, k, _, hk, he⟩ := execute_eq c e
  have hev : ({ c with faults := f, countdown := k } : Ctl).evaluate e =
      (Prp.disabled, { c with faults := f, countdown := k, drv := c.drv.reset }) := by
    have ne : ∀ s : U32, s.toNat ≤ 8 → s ≠ Prp.disabled → c.state ≠ s := by
      intro s hs hne hc
      rcases h with h | h
      · exact hne (hc.symm.trans h)
      · rw [hc] at h; omega
    unfold evaluate
    dsimp only
    rw [if_neg (ne _ (by decide) (by decide)), if_neg (ne _ (by decide) (by decide)), if_neg (ne _ (by decide) (by decide)),
      if_neg (ne _ (by decide) (by decide)), if_neg (ne _ (by decide) (by decide)), if_neg (ne _ (by decide) (by decide)),
      if_neg (ne _ (by decide) (by decide)), if_neg (ne _ (by decide) (by decide))]
  rw [he, hev]
  have key : ∀ c' : Ctl, c'.drv = c.drv.reset → c'.state = c.state → ((c'.transition e Prp.disabled).readSensors e).state = Prp.disabled ∧
      Shut ((c'.transition e Prp.disabled).readSensors e) ∧ Cleared ((c'.transition e Prp.disabled).readSensors e) := by
    intro c' hd hs
    have hfin : ∀ c'' : Ctl, (c''.drv = c.drv.reset ∨ c''.drv = c.drv.reset.reset) → Shut c'' ∧ Cleared c'' := by
      intro c'' h''
      unfold Shut Cleared ValveOpen
      rcases h'' with h'' | h'' <;> rw [h'']
      · exact ⟨⟨fun t j => by rw [reset_closed]; decide, rfl⟩, reset_zero _⟩
      · exact ⟨⟨fun t j => by rw [reset_closed]; decide, rfl⟩, reset_zero _⟩
    rcases transition_cases c' e Prp.disabled with ⟨h1, h2⟩ | ⟨_, f, _, h2⟩ | ⟨_, f, _, h2⟩ <;> rw [h2]
    · exact ⟨h1.symm, hfin _ (Or.inl hd)⟩
    · exact ⟨rfl, hfin _ (Or.inl hd)⟩
    · exact ⟨rfl, hfin _ (Or.inr (by show c'.drv.reset = _; rw [hd]))⟩
  exact key _ rfl rfl

theorem Ctl.execute_disabled (c : Ctl) (e : PropEnv) (hp : PreInv c) (h : (c.execute e).state = Prp.disabled) :
    Shut (c.execute e) ∧ (Cleared (c.execute e) ∨ (c.state = Prp.awaitFiring ∧ c.countdown.toNat ≤ 1 ∧ e.functional = false)) := by
  have hi := execute_inv c e hp
  have hshut : Shut (c.execute e) := by
    refine ⟨fun t j ho => ?_, off_of_inv hi (by rw [h]; decide)⟩
    rcases hi.2.2.2 t j ho with ⟨g, _⟩ | ⟨g, _⟩ | g | ⟨g, _⟩ <;> rw [h] at g <;> exact absurd g (by decide)
  refine ⟨hshut, ?_⟩
  obtain ⟨f, k, _, hk, he⟩ := execute_eq c e
  rw [he] at h ⊢
  rcases step_strong { c with faults := f, countdown := k } e hp with g | ⟨_, g | ⟨g1, g2, g3⟩⟩
  · exact Or.inl g.2.2.2
  · exact absurd h g
  · right
    refine ⟨g1, ?_, g3⟩
    have hk0 : k = 0 := g2
    have : k.toNat = 0 := by rw [hk0]; rfl
    omega

/-- C39 (partial: the schedule is not cleared in the cycle in which firing is refused): after every disciplined history, a
cycle that ends with the propulsion state disabled ends with every valve closed and the timer off, and with the schedule
cleared unless that cycle refused to fire because the hardware was not functional. -/
theorem C39_disabled_partial (p t2 t1 : Rat) (ys : List PropCycle) (y : PropCycle)
    (hd : DisciplinedRun (Ctl.init p t2 t1) ys) (hy : Disciplined ((Ctl.init p t2 t1).run ys) y)
    (h : (((Ctl.init p t2 t1).run ys).cycle y).state = Prp.disabled) :
    Shut (((Ctl.init p t2 t1).run ys).cycle y) ∧
    (Cleared (((Ctl.init p t2 t1).run ys).cycle y) ∨
      ((((Ctl.init p t2 t1).run ys).beforeExecute y).state = Prp.awaitFiring ∧
        (((Ctl.init p t2 t1).run ys).beforeExecute y).countdown.toNat ≤ 1 ∧ y.env.functional = false)) := by
  have hi := run_inv ys _ (init_inv p t2 t1) hd
  exact execute_disabled _ _ (preInv_of_inv _ y hi hy) h

end PAN
