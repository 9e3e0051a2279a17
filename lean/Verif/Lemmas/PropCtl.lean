import Verif.Lemmas.Prop
/-!
Invariant of the propulsion controller and its driver.
-/
namespace PAN
open Driver

namespace ActionCycle

/-- What one evaluation does to the driver when at most the current valve is open. -/
theorem evaluate_spec (a : ActionCycle) (d : Driver) (tank : TankId) (succ fail : Bool) (max fill close sel : Nat)
    (h : ∀ t j, d.isValveOpen t j = true → t = tank ∧ j = a.cur) (r : ActRes) (a' : ActionCycle) (d' : Driver)
    (he : a.evaluate d tank succ fail max fill close sel = (r, a', d')) :
    d'.enabled = d.enabled ∧ (∀ t, d'.num t = d.num t) ∧
    (∀ P : U32 → Prop, (∀ v ∈ d.tank2, P v.sched) → ∀ v ∈ d'.tank2, P v.sched) ∧
    (r = .succeeded ∨ r = .outOfCycles → d'.AllClosed) ∧
    (∀ t j, d'.isValveOpen t j = true → t = tank ∧ j = a'.cur) := by
  have closing : (d.setValve tank a.cur false).AllClosed := by
    intro t j
    rw [setValve_open]
    split
    · rfl
    · rename_i hn
      cases ho : d.isValveOpen t j with
      | false => rfl
      | true =>
        obtain ⟨rfl, rfl⟩ := h t j ho
        refine absurd ⟨rfl, rfl, ?_⟩ hn
        apply Nat.lt_of_not_le
        intro hle
        cases t <;> simp only [isValveOpen, num] at ho hle
        · rw [List.getD_eq_getElem?_getD, List.getElem?_eq_none hle] at ho; cases ho
        · rw [List.getElem?_eq_none hle] at ho; cases ho
  have hcl : ∀ {d' : Driver}, d'.AllClosed → ∀ c, ∀ t j, d'.isValveOpen t j = true → t = tank ∧ j = c := by
    intro d' hd c t j ho
    rw [hd t j] at ho; cases ho
  unfold evaluate at he
  dsimp only at he
  by_cases hs : succ = true
  · rw [if_pos hs] at he; simp only [Prod.mk.injEq] at he
    obtain ⟨rfl, rfl, rfl⟩ := he
    exact ⟨setValve_enabled _ _ _ _, setValve_num _ _ _ _, setValve_sched _ _ _ _, fun _ => closing, hcl closing _⟩
  · rw [if_neg hs] at he
    by_cases hf : fail = true
    · rw [if_pos hf] at he; simp only [Prod.mk.injEq] at he
      obtain ⟨rfl, rfl, rfl⟩ := he
      exact ⟨rfl, fun _ => rfl, fun _ h => h, (fun h => by rcases h with h | h <;> cases h), h⟩
    · rw [if_neg hf] at he
      by_cases ho : d.isValveOpen tank a.cur = true
      · rw [if_pos ho] at he
        by_cases ht : a.timer - 1 = 0
        · rw [if_pos ht] at he; simp only [Prod.mk.injEq] at he
          obtain ⟨rfl, rfl, rfl⟩ := he
          exact ⟨setValve_enabled _ _ _ _, setValve_num _ _ _ _, setValve_sched _ _ _ _, fun _ => closing, hcl closing _⟩
        · rw [if_neg ht] at he; simp only [Prod.mk.injEq] at he
          obtain ⟨rfl, rfl, rfl⟩ := he
          exact ⟨rfl, fun _ => rfl, fun _ h => h, (fun h => by rcases h with h | h <;> cases h), h⟩
      · have hall : d.AllClosed := by
          intro t j
          cases hj : d.isValveOpen t j with
          | false => rfl
          | true => obtain ⟨rfl, rfl⟩ := h t j hj; exact absurd hj ho
        rw [if_neg ho] at he
        by_cases ht : a.timer - 1 = 0
        · rw [if_pos ht] at he
          by_cases hm : a.count ≥ max
          · rw [if_pos hm] at he; simp only [Prod.mk.injEq] at he
            obtain ⟨rfl, rfl, rfl⟩ := he
            exact ⟨rfl, fun _ => rfl, fun _ h => h, fun _ => hall, hcl hall _⟩
          · rw [if_neg hm] at he; simp only [Prod.mk.injEq] at he
            obtain ⟨rfl, rfl, rfl⟩ := he
            refine ⟨setValve_enabled _ _ _ _, setValve_num _ _ _ _, setValve_sched _ _ _ _, (fun h => by rcases h with h | h <;> cases h), ?_⟩
            intro t j hj
            rw [setValve_open] at hj
            split at hj
            · rename_i hn; exact ⟨hn.1.symm, hn.2.1.symm⟩
            · rw [hall t j] at hj; cases hj
        · rw [if_neg ht] at he; simp only [Prod.mk.injEq] at he
          obtain ⟨rfl, rfl, rfl⟩ := he
          exact ⟨rfl, fun _ => rfl, fun _ h => h, (fun h => by rcases h with h | h <;> cases h), h⟩

end ActionCycle

namespace Ctl

/-- `can_enter` only polls faults. -/
theorem canEnter_frame (c : Ctl) (e : PropEnv) (s : U32) : ∃ f, (c.canEnter e s).2 = { c with faults := f } := by
  unfold canEnter
  split
  · exact ⟨_, rfl⟩
  split
  · exact ⟨_, rfl⟩
  split
  · exact ⟨_, rfl⟩
  split
  · exact ⟨_, rfl⟩
  split
  · exact ⟨_, rfl⟩
  split
  · exact ⟨_, rfl⟩
  split
  · split
    · exact ⟨_, rfl⟩
    · exact ⟨_, rfl⟩
  · exact ⟨_, rfl⟩

theorem transition_cases (c : Ctl) (e : PropEnv) (next : U32) :
    (next = c.state ∧ c.transition e next = c) ∨
    (next ≠ c.state ∧ ∃ f, (c.canEnter e next).1 = false ∧ c.transition e next = { c with faults := f, state := Prp.disabled }) ∨
    (next ≠ c.state ∧ ∃ f, (c.canEnter e next).1 = true ∧
      c.transition e next = ({ c with faults := f, state := next } : Ctl).enter next) := by
  unfold transition
  by_cases h : next = c.state
  · left; exact ⟨h, by rw [if_pos h]⟩
  · right
    rw [if_neg h]
    obtain ⟨f, hf⟩ := canEnter_frame c e next
    generalize hce : c.canEnter e next = r at hf ⊢
    obtain ⟨b, c'⟩ := r
    simp only [] at hf
    subst hf
    cases b
    · exact Or.inl ⟨h, f, rfl, rfl⟩
    · exact Or.inr ⟨h, f, rfl, rfl⟩

/-- Driver shape: two and four valves, at most 999 ms scheduled. -/
def Base (d : Driver) : Prop := d.num .one = 2 ∧ d.num .two = 4 ∧ ∀ v ∈ d.tank2, v.sched.toNat < 1000

/-- The relation between the controller state and the driver that holds after every control cycle. -/
def InvP (s : U32) (d : Driver) (pc vc : Nat) (ch : TankId) : Prop :=
  Base d ∧ (d.enabled = true → s = Prp.firing) ∧ (s ≠ Prp.firing → s ≠ Prp.disabled → d.SchedZero) ∧
  ∀ t j, d.isValveOpen t j = true → (s = Prp.pressurizing ∧ t = .one ∧ j = pc) ∨ (s = Prp.venting ∧ t = ch ∧ j = vc) ∨
    s = Prp.manual ∨ (s = Prp.firing ∧ t = .two)

/-- Invariant after a control cycle. -/
def Inv (c : Ctl) : Prop := InvP c.state c.drv c.press.cur c.vent.cur c.choice

/-- What holds when `execute` is called. -/
def PreInv (c : Ctl) : Prop := Base c.drv ∧ (c.state = Prp.disabled ∨ Inv c)

/-- Everything closed, timer off, nothing scheduled. -/
def Safe (d : Driver) : Prop := Base d ∧ d.AllClosed ∧ d.enabled = false ∧ d.SchedZero

theorem safe_reset {d : Driver} (h : Base d) : Safe d.reset :=
  ⟨⟨(reset_num d .one).trans h.1, (reset_num d .two).trans h.2.1, fun v hv => by
    rw [reset_zero d v hv]; decide⟩, reset_closed d, rfl, reset_zero d⟩

theorem safe_inv {d : Driver} (h : Safe d) (s : U32) (pc vc : Nat) (ch : TankId) : InvP s d pc vc ch :=
  ⟨h.1, fun he => absurd (he.symm.trans h.2.2.1) (by decide), fun _ _ => h.2.2.2, fun t j ho =>
    absurd (ho.symm.trans (h.2.1 t j)) (by decide)⟩

/-- Entering any state but firing keeps a safe driver safe. -/
theorem enter_drv (c : Ctl) (s : U32) (h : s ≠ Prp.firing) : (c.enter s).drv = c.drv ∨ (c.enter s).drv = c.drv.reset := by
  unfold enter
  split
  · left; rfl
  split
  · left; rfl
  split
  · left; rfl
  split
  · left; rfl
  split
  · left; rfl
  split
  · left; rfl
  · right; rfl

theorem transition_safe (c : Ctl) (e : PropEnv) (next : U32) (h : next ≠ Prp.firing) (hs : Safe c.drv) :
    Safe (c.transition e next).drv := by
  rcases transition_cases c e next with ⟨_, h2⟩ | ⟨_, f, _, h2⟩ | ⟨_, f, _, h2⟩ <;> rw [h2]
  · exact hs
  · exact hs
  · rcases enter_drv { c with faults := f, state := next } next h with h3 | h3 <;> rw [h3]
    · exact hs
    · exact safe_reset hs.1

theorem inv_of_safe {c : Ctl} (h : Safe c.drv) : Inv c := safe_inv h _ _ _ _

/-- The quiet states: no valve is open and the timer is off. -/
theorem safe_of_inv {c : Ctl} (h : Inv c) (h1 : c.state ≠ Prp.firing) (h2 : c.state ≠ Prp.pressurizing)
    (h3 : c.state ≠ Prp.venting) (h4 : c.state ≠ Prp.manual) (h5 : c.state ≠ Prp.disabled) : Safe c.drv := by
  obtain ⟨hb, he, hz, ho⟩ := h
  refine ⟨hb, ?_, ?_, hz h1 h5⟩
  · intro t j
    cases hj : c.drv.isValveOpen t j with
    | false => rfl
    | true =>
      rcases ho t j hj with ⟨h, _⟩ | ⟨h, _⟩ | h | ⟨h, _⟩
      · exact absurd h h2
      · exact absurd h h3
      · exact absurd h h4
      · exact absurd h h1
  · cases hen : c.drv.enabled with
    | false => rfl
    | true => exact absurd (he hen) h1

/-! `execute` in pieces: the part before `evaluate` leaves all but faults and countdown alone. -/

theorem prologue_frame (c : Ctl) (cc : U32) : ∃ f k, (c.checkFaults cc).decrement = { c with faults := f, countdown := k } := by
  unfold decrement checkFaults
  split
  · exact ⟨_, _, rfl⟩
  · exact ⟨_, _, rfl⟩

/-- State, driver, cycles and tank choice are those of another controller. -/
def Same (c c' : Ctl) : Prop :=
  c'.state = c.state ∧ c'.drv = c.drv ∧ c'.press = c.press ∧ c'.vent = c.vent ∧ c'.choice = c.choice

theorem quiet_step {c c' : Ctl} (e : PropEnv) (next : U32) (h : Inv c) (hd : c'.drv = c.drv)
    (h1 : c.state ≠ Prp.firing) (h2 : c.state ≠ Prp.pressurizing) (h3 : c.state ≠ Prp.venting)
    (h4 : c.state ≠ Prp.manual) (h5 : c.state ≠ Prp.disabled) (hn : next ≠ Prp.firing) : Safe (c'.transition e next).drv := by
  apply transition_safe _ _ _ hn
  rw [hd]
  exact safe_of_inv h h1 h2 h3 h4 h5

theorem evalIdle_frame (c : Ctl) (e : PropEnv) : ∃ f n, c.evalIdle e = (n, { c with faults := f }) ∧ n ≠ Prp.firing := by
  unfold evalIdle
  obtain ⟨f, hf⟩ := canEnter_frame c e Prp.handlingFault
  generalize c.canEnter e Prp.handlingFault = r at hf ⊢
  obtain ⟨b, c'⟩ := r
  simp only [] at hf
  subst hf
  dsimp only
  split
  · exact ⟨f, _, rfl, by decide⟩
  split
  · exact ⟨f, _, rfl, by decide⟩
  split
  · exact ⟨f, _, rfl, by decide⟩
  · exact ⟨f, _, rfl, by decide⟩

theorem evalAwaitPressurizing_frame (c : Ctl) (e : PropEnv) :
    ∃ f n, c.evalAwaitPressurizing e = (n, { c with faults := f }) ∧ n ≠ Prp.firing := by
  unfold evalAwaitPressurizing
  obtain ⟨f, hf⟩ := canEnter_frame c e Prp.handlingFault
  generalize c.canEnter e Prp.handlingFault = r at hf ⊢
  obtain ⟨b, c'⟩ := r
  simp only [] at hf
  subst hf
  dsimp only
  split
  · exact ⟨f, _, rfl, by decide⟩
  split
  · exact ⟨f, _, rfl, by decide⟩
  · exact ⟨f, _, rfl, by decide⟩

theorem evalHandlingFault_frame (c : Ctl) (e : PropEnv) :
    ∃ f n, c.evalHandlingFault e = (n, { c with faults := f }) ∧ n ≠ Prp.firing := by
  unfold evalHandlingFault
  obtain ⟨f, hf⟩ := canEnter_frame c e Prp.venting
  generalize c.canEnter e Prp.venting = r at hf ⊢
  obtain ⟨b, c'⟩ := r
  simp only [] at hf
  subst hf
  dsimp only
  split
  · exact ⟨f, _, rfl, by decide⟩
  · obtain ⟨f', hf'⟩ := canEnter_frame { c with faults := f } e Prp.handlingFault
    generalize Ctl.canEnter { c with faults := f } e Prp.handlingFault = r at hf' ⊢
    obtain ⟨b, c'⟩ := r
    simp only [] at hf'
    subst hf'
    dsimp only
    split
    · exact ⟨f', _, rfl, by decide⟩
    · exact ⟨f', _, rfl, by decide⟩

/-- Outcomes of evaluating the awaiting-firing state. -/
theorem evalAwaitFiring_cases (c : Ctl) (e : PropEnv) :
    (∃ f n, c.evalAwaitFiring e = (n, { c with faults := f }) ∧ n ≠ Prp.firing ∧ (n = Prp.handlingFault ∨ n = Prp.awaitFiring)) ∨
    (∃ f, c.countdown = 0 ∧ (c.canEnter e Prp.handlingFault).1 = false ∧
      c.evalAwaitFiring e = (Prp.firing, { c with faults := f, drv := (c.drv.setSchedule [c.v1, c.v2, c.v3, c.v4]).2 })) := by
  unfold evalAwaitFiring
  obtain ⟨f, hf⟩ := canEnter_frame c e Prp.handlingFault
  generalize c.canEnter e Prp.handlingFault = r at hf ⊢
  obtain ⟨b, c'⟩ := r
  simp only [] at hf
  subst hf
  dsimp only
  cases b
  · by_cases h : c.countdown = 0
    · right
      exact ⟨f, h, rfl, by rw [if_neg Bool.false_ne_true, if_pos h]⟩
    · left
      exact ⟨f, Prp.awaitFiring, by rw [if_neg Bool.false_ne_true, if_neg h], by decide, Or.inr rfl⟩
  · left
    exact ⟨f, Prp.handlingFault, by rw [if_pos rfl], by decide, Or.inl rfl⟩

/-- Outcomes of evaluating the firing state. -/
theorem evalFiring_cases (c : Ctl) (e : PropEnv) : ∃ f,
    c.evalFiring e = (Prp.handlingFault, { c with faults := f, drv := c.drv.reset }) ∨
    (scheduleEmpty c.drv = true ∧ c.evalFiring e = (Prp.idle, { c with faults := f, drv := c.drv.disable })) ∨
    (scheduleEmpty c.drv = false ∧ c.evalFiring e = (Prp.firing, { c with faults := f })) := by
  unfold evalFiring
  obtain ⟨f, hf⟩ := canEnter_frame c e Prp.handlingFault
  generalize c.canEnter e Prp.handlingFault = r at hf ⊢
  obtain ⟨b, c'⟩ := r
  simp only [] at hf
  subst hf
  dsimp only
  refine ⟨f, ?_⟩
  cases b
  · rw [if_neg Bool.false_ne_true]
    cases h : scheduleEmpty c.drv
    · right; right; exact ⟨rfl, by rw [if_neg Bool.false_ne_true]⟩
    · right; left; exact ⟨rfl, by rw [if_pos rfl]⟩
  · left; rw [if_pos rfl]

/-- Outcomes of evaluating the pressurizing state. -/
theorem evalPressurizing_cases (c : Ctl) (e : PropEnv) :
    (c.countdown ≤ 1 ∧ c.evalPressurizing e = (Prp.idle, { c with drv := c.drv.reset })) ∨
    (¬ c.countdown ≤ 1 ∧ ∃ f, (c.canEnter e Prp.handlingFault).1 = true ∧
      c.evalPressurizing e = (Prp.handlingFault, { c with faults := f, drv := c.drv.reset })) ∨
    (¬ c.countdown ≤ 1 ∧ ∃ f, c.canEnter e Prp.handlingFault = (false, { c with faults := f }) ∧ ∃ r a d,
      c.press.evaluate c.drv .one (c.pressure ≥ c.threshold) (!c.validSchedule) c.maxPress.toNat
        c.fill.toNat c.cool.toNat c.tank1Valve.toNat = (r, a, d) ∧
      ((r = .succeeded ∧ c.evalPressurizing e = (Prp.awaitFiring, { c with faults := f, press := a, drv := d })) ∨
       (r = .failed ∧ c.evalPressurizing e = (Prp.disabled, { c with faults := f, press := a, drv := d })) ∨
       ((r = .stay ∨ r = .started) ∧ c.evalPressurizing e = (Prp.pressurizing, { c with faults := f, press := a, drv := d })) ∨
       (r = .outOfCycles ∧
        c.evalPressurizing e = ({ c with faults := f, press := a, drv := d } : Ctl).pressOutOfCycles e.cc))) := by
  unfold evalPressurizing
  by_cases h : c.countdown ≤ 1
  · left; exact ⟨h, by rw [if_pos h]⟩
  · right
    rw [if_neg h]
    obtain ⟨f, hf⟩ := canEnter_frame c e Prp.handlingFault
    generalize c.canEnter e Prp.handlingFault = r at hf ⊢
    obtain ⟨b, c'⟩ := r
    simp only [] at hf
    subst hf
    dsimp only
    cases b
    · right
      refine ⟨h, f, rfl, ?_⟩
      rw [if_neg Bool.false_ne_true]
      generalize hr : c.press.evaluate c.drv .one (decide (c.pressure ≥ c.threshold)) (!c.validSchedule) c.maxPress.toNat
        c.fill.toNat c.cool.toNat c.tank1Valve.toNat = r
      obtain ⟨r, a, d⟩ := r
      refine ⟨r, a, d, rfl, ?_⟩
      have hr' : ActionCycle.evaluate c.press c.drv .one (decide (c.pressure ≥ c.threshold))
        (!({ c with faults := f } : Ctl).validSchedule) c.maxPress.toNat
        c.fill.toNat c.cool.toNat c.tank1Valve.toNat = (r, a, d) := hr
      rw [hr']
      cases r
      · exact Or.inl ⟨rfl, rfl⟩
      · exact Or.inr (Or.inl ⟨rfl, rfl⟩)
      · exact Or.inr (Or.inr (Or.inl ⟨Or.inl rfl, rfl⟩))
      · exact Or.inr (Or.inr (Or.inl ⟨Or.inr rfl, rfl⟩))
      · exact Or.inr (Or.inr (Or.inr ⟨rfl, rfl⟩))
    · left
      exact ⟨h, f, rfl, by rw [if_pos rfl]⟩

theorem pressOutOfCycles_cases (c : Ctl) (cc : U32) : ∃ f,
    ((c.faults.press.signal cc).isFaulted = true ∧ c.pressOutOfCycles cc = (Prp.handlingFault, { c with faults := f, drv := c.drv.reset })) ∨
    ((c.faults.press.signal cc).isFaulted = false ∧ c.pressOutOfCycles cc = (Prp.awaitFiring, { c with faults := f })) := by
  unfold pressOutOfCycles
  refine ⟨{ c.faults with press := (c.faults.press.signal cc).poll }, ?_⟩
  dsimp only
  cases h : (c.faults.press.signal cc).isFaulted
  · right; exact ⟨rfl, by rw [if_neg Bool.false_ne_true]⟩
  · left; exact ⟨rfl, by rw [if_pos rfl]⟩

theorem ventOutOfCycles_cases (c : Ctl) : ∃ f,
    c.ventOutOfCycles = (Prp.handlingFault, { c with faults := f }) ∨ (c.maxVent ≠ 1 ∧ c.ventOutOfCycles = (Prp.disabled, { c with faults := f })) := by
  unfold ventOutOfCycles
  by_cases h : c.maxVent = 1
  · exact ⟨c.faults, Or.inl (by rw [if_pos h])⟩
  · rw [if_neg h]
    generalize (if c.choice = TankId.one then c.faults.wants2 else c.faults.wants1) = r
    obtain ⟨w, f⟩ := r
    refine ⟨f, ?_⟩
    dsimp only
    cases w
    · right; exact ⟨h, by rw [if_neg Bool.false_ne_true]⟩
    · left; rw [if_pos rfl]

/-- Outcomes of evaluating the venting state. -/
theorem evalVenting_cases (c : Ctl) : ∃ r a d,
    c.vent.evaluate c.drv c.choice c.ventSucceeded.1 false c.maxVent.toNat c.fill.toNat c.closePeriod.toNat
      (if c.choice = .one then c.tank1Valve.toNat else c.saved.toNat % 4) = (r, a, d) ∧
    ((r = .succeeded ∧ c.evalVenting = (Prp.idle, { c with faults := c.ventSucceeded.2, vent := a, drv := d })) ∨
     (r = .stay ∧ c.evalVenting = (Prp.venting, { c with faults := c.ventSucceeded.2, vent := a, drv := d })) ∨
     (r = .started ∧ c.evalVenting = (Prp.venting, { c with faults := c.ventSucceeded.2, vent := a, drv := d, saved := (if c.choice = .two then c.saved + 1 else c.saved) })) ∨
     (r = .outOfCycles ∧ c.evalVenting = ({ c with faults := c.ventSucceeded.2, vent := a, drv := d } : Ctl).ventOutOfCycles)) := by
  unfold evalVenting
  generalize c.ventSucceeded = q
  obtain ⟨succ, f⟩ := q
  dsimp only
  generalize hr : c.vent.evaluate c.drv c.choice succ false c.maxVent.toNat c.fill.toNat c.closePeriod.toNat
      (if c.choice = .one then c.tank1Valve.toNat else c.saved.toNat % 4) = r
  obtain ⟨r, a, d⟩ := r
  refine ⟨r, a, d, rfl, ?_⟩
  cases r
  · exact Or.inl ⟨rfl, rfl⟩
  · exfalso
    unfold ActionCycle.evaluate at hr
    dsimp only at hr
    rw [if_neg Bool.false_ne_true] at hr
    split at hr
    · cases hr
    split at hr
    · split at hr <;> cases hr
    split at hr
    · split at hr <;> cases hr
    · cases hr
  · exact Or.inr (Or.inl ⟨rfl, rfl⟩)
  · exact Or.inr (Or.inr (Or.inl ⟨rfl, rfl⟩))
  · exact Or.inr (Or.inr (Or.inr ⟨rfl, rfl⟩))

theorem Base.of_num_sched {d d' : Driver} (h : Base d) (hn : ∀ t, d'.num t = d.num t)
    (hs : ∀ P : U32 → Prop, (∀ v ∈ d.tank2, P v.sched) → ∀ v ∈ d'.tank2, P v.sched) : Base d' :=
  ⟨(hn .one).trans h.1, (hn .two).trans h.2.1, hs (fun x => x.toNat < 1000) h.2.2⟩

theorem off_of_inv {c : Ctl} (h : Inv c) (hf : c.state ≠ Prp.firing) : c.drv.enabled = false := by
  cases he : c.drv.enabled with
  | false => rfl
  | true => exact absurd (h.2.1 he) hf

/-- The next state is not firing. -/
macro "next_ne" : tactic => `(tactic| first
  | (show Prp.idle ≠ Prp.firing; decide) | (show Prp.handlingFault ≠ Prp.firing; decide)
  | (show Prp.awaitFiring ≠ Prp.firing; decide) | (show Prp.disabled ≠ Prp.firing; decide))

/-- One evaluation and transition: the driver ends up safe, or the state is not disabled and the invariant holds, or firing was
refused because the hardware is not functional. -/
theorem step_strong (c : Ctl) (e : PropEnv) (h : PreInv c) :
    Safe ((c.evaluate e).2.transition e (c.evaluate e).1).drv ∨
    (Inv ((c.evaluate e).2.transition e (c.evaluate e).1) ∧
      (((c.evaluate e).2.transition e (c.evaluate e).1).state ≠ Prp.disabled ∨
       (c.state = Prp.awaitFiring ∧ c.countdown = 0 ∧ e.functional = false))) := by
  obtain ⟨hb, h⟩ := h
  have inv : c.state ≠ Prp.disabled → Inv c := fun hd => h.resolve_left hd
  unfold evaluate
  split
  · rename_i hs
    obtain ⟨f, n, he, hn⟩ := evalIdle_frame c e
    rw [he]
    exact Or.inl <| quiet_step e n (inv (by rw [hs]; decide)) rfl (by rw [hs]; decide) (by rw [hs]; decide) (by rw [hs]; decide)
      (by rw [hs]; decide) (by rw [hs]; decide) hn
  split
  · rename_i hs
    obtain ⟨f, n, he, hn⟩ := evalAwaitPressurizing_frame c e
    rw [he]
    exact Or.inl <| quiet_step e n (inv (by rw [hs]; decide)) rfl (by rw [hs]; decide) (by rw [hs]; decide) (by rw [hs]; decide)
      (by rw [hs]; decide) (by rw [hs]; decide) hn
  split
  · rename_i hs
    have hi := inv (by rw [hs]; decide)
    have hoff := off_of_inv hi (by rw [hs]; decide)
    have hz : c.drv.SchedZero := hi.2.2.1 (by rw [hs]; decide) (by rw [hs]; decide)
    have hcur : ∀ t j, c.drv.isValveOpen t j = true → t = .one ∧ j = c.press.cur := by
      intro t j ho
      rcases hi.2.2.2 t j ho with ⟨_, h⟩ | ⟨h, _⟩ | h | ⟨h, _⟩
      · exact h
      · rw [hs] at h; exact absurd h (by decide)
      · rw [hs] at h; exact absurd h (by decide)
      · rw [hs] at h; exact absurd h (by decide)
    rcases evalPressurizing_cases c e with ⟨_, he⟩ | ⟨_, f, _, he⟩ | ⟨_, f, _, r, a, d, hr, hc⟩
    · rw [he]; exact Or.inl (transition_safe _ _ _ (by next_ne) (safe_reset hb))
    · rw [he]; exact Or.inl (transition_safe _ _ _ (by next_ne) (safe_reset hb))
    · obtain ⟨g1, g2, g3, g4, g5⟩ := ActionCycle.evaluate_spec _ _ _ _ _ _ _ _ _ hcur r a d hr
      have hb' : Base d := hb.of_num_sched g2 g3
      have hz' : d.SchedZero := g3 (fun x => x = 0) hz
      rcases hc with ⟨hr', he⟩ | ⟨hr', he⟩ | ⟨hr', he⟩ | ⟨hr', he⟩
      · rw [he]
        exact Or.inl (transition_safe _ _ _ (by next_ne) ⟨hb', g4 (Or.inl hr'), g1.trans hoff, hz'⟩)
      · rw [he]
        left
        rcases transition_cases ({ c with faults := f, press := a, drv := d } : Ctl) e Prp.disabled with
          ⟨h2, _⟩ | ⟨_, f', h2, _⟩ | ⟨_, f', _, h2⟩
        · exact absurd (h2.trans hs) (by decide)
        · exact absurd h2 (by unfold canEnter; simp)
        · rw [h2]; exact safe_reset hb'
      · rw [he]
        rcases transition_cases ({ c with faults := f, press := a, drv := d } : Ctl) e Prp.pressurizing with
          ⟨h2, h3⟩ | ⟨h2, _⟩ | ⟨h2, _⟩
        · rw [h3]
          refine Or.inr ⟨⟨hb', fun h => ?_, fun _ _ => hz', fun t j ho => Or.inl ⟨hs, g5 t j ho⟩⟩, Or.inl (by
            show c.state ≠ _; rw [hs]; decide)⟩
          exact absurd (h.symm.trans (g1.trans hoff)) (by decide)
        · exact absurd hs.symm h2
        · exact absurd hs.symm h2
      · rw [he]
        have hsafe : Safe d := ⟨hb', g4 (Or.inr hr'), g1.trans hoff, hz'⟩
        obtain ⟨f', hp | hp⟩ := pressOutOfCycles_cases ({ c with faults := f, press := a, drv := d } : Ctl) e.cc
        · rw [hp.2]; exact Or.inl (transition_safe _ _ _ (by next_ne) (safe_reset hb'))
        · rw [hp.2]; exact Or.inl (transition_safe _ _ _ (by next_ne) hsafe)
  split
  · rename_i hs
    have hi := inv (by rw [hs]; decide)
    rcases evalAwaitFiring_cases c e with ⟨f, n, he, hn, _⟩ | ⟨f, hcd, _, he⟩
    · rw [he]
      exact Or.inl <| quiet_step e n hi rfl (by rw [hs]; decide) (by rw [hs]; decide) (by rw [hs]; decide)
        (by rw [hs]; decide) (by rw [hs]; decide) hn
    · rw [he]
      have hsafe := safe_of_inv hi (by rw [hs]; decide) (by rw [hs]; decide) (by rw [hs]; decide) (by rw [hs]; decide)
        (by rw [hs]; decide)
      have hl : c.drv.tank2.length = [c.v1, c.v2, c.v3, c.v4].length := hsafe.1.2.1
      have hcl : ∀ t j, (c.drv.setSchedule [c.v1, c.v2, c.v3, c.v4]).2.isValveOpen t j = false := fun t j => by
        rw [setSchedule_open _ _ hl]; exact hsafe.2.1 t j
      have hb' : Base (c.drv.setSchedule [c.v1, c.v2, c.v3, c.v4]).2 :=
        ⟨(setSchedule_num _ _ hl _).trans hb.1, (setSchedule_num _ _ hl _).trans hb.2.1, setSchedule_lt _ _ hb.2.2⟩
      have hoff : (c.drv.setSchedule [c.v1, c.v2, c.v3, c.v4]).2.enabled = false :=
        (setSchedule_enabled _ _).trans hsafe.2.2.1
      generalize (c.drv.setSchedule [c.v1, c.v2, c.v3, c.v4]).2 = d at hcl hb' hoff
      rcases transition_cases ({ c with faults := f, drv := d } : Ctl) e Prp.firing with
          ⟨h2, _⟩ | ⟨_, f', hce, h2⟩ | ⟨_, f', _, h2⟩
      · exact absurd (h2.trans hs) (by decide)
      · rw [h2]
        have hfun : e.functional = false := by
          have : (decide (c.state = Prp.awaitFiring) && decide (c.countdown = 0) && e.functional) = false := hce
          rw [hs, hcd] at this
          simpa using this
        refine Or.inr ⟨⟨hb', fun h => absurd (h.symm.trans hoff) (by decide), fun _ h => absurd rfl h, fun t j ho => ?_⟩,
          Or.inr ⟨hs, hcd, hfun⟩⟩
        exact absurd (ho.symm.trans (hcl t j)) (by decide)
      · rw [h2]
        have hd : (({ c with faults := f', drv := d, state := Prp.firing } : Ctl).enter Prp.firing).drv = { d with enabled := true } := by
          show d.startFiring.2 = _
          unfold startFiring; rw [hoff]; rfl
        have hst : (({ c with faults := f', drv := d, state := Prp.firing } : Ctl).enter Prp.firing).state = Prp.firing := rfl
        refine Or.inr ⟨?_, Or.inl (by rw [hst]; decide)⟩
        unfold Inv
        rw [hd, hst]
        refine ⟨hb', fun _ => rfl, fun h => absurd rfl h, fun t j ho => ?_⟩
        have hcl' : ({ d with enabled := true } : Driver).isValveOpen t j = false := by
          have := hcl t j
          cases t <;> exact this
        exact absurd (ho.symm.trans hcl') (by decide)
  split
  · rename_i hs
    have hi := inv (by rw [hs]; decide)
    have ht1 : ∀ j, c.drv.isValveOpen .one j = false := by
      intro j
      cases hj : c.drv.isValveOpen .one j with
      | false => rfl
      | true =>
        rcases hi.2.2.2 .one j hj with ⟨h, _⟩ | ⟨h, _⟩ | h | ⟨_, h⟩
        · rw [hs] at h; exact absurd h (by decide)
        · rw [hs] at h; exact absurd h (by decide)
        · rw [hs] at h; exact absurd h (by decide)
        · cases h
    obtain ⟨f, he | ⟨hemp, he⟩ | ⟨_, he⟩⟩ := evalFiring_cases c e
    · rw [he]; exact Or.inl (transition_safe _ _ _ (by next_ne) (safe_reset hb))
    · rw [he]
      left
      apply transition_safe _ _ _ (by next_ne)
      have hz : c.drv.SchedZero := (sum_zero_of_bounded c.drv.tank2 0 (by
        have : c.drv.tank2.length = 4 := hb.2.1
        rw [this]; decide) hb.2.2 (of_decide_eq_true hemp)).2
      refine ⟨⟨hb.1, ?_, disable_sched _ (fun x => x.toNat < 1000) hb.2.2⟩, ?_, rfl, disable_sched _ (fun x => x = 0) hz⟩
      · have := hb.2.1; simpa [num, disable] using this
      · intro t j
        cases t
        · exact (disable_open1 _ _).trans (ht1 j)
        · exact disable_open2 _ _
    · rw [he]
      rcases transition_cases ({ c with faults := f } : Ctl) e Prp.firing with ⟨h2, h3⟩ | ⟨h2, _⟩ | ⟨h2, _⟩
      · rw [h3]; exact Or.inr ⟨hi, Or.inl (by show c.state ≠ _; rw [hs]; decide)⟩
      · exact absurd hs.symm h2
      · exact absurd hs.symm h2
  split
  · rename_i hs
    have hi := inv (by rw [hs]; decide)
    have hoff := off_of_inv hi (by rw [hs]; decide)
    have hz : c.drv.SchedZero := hi.2.2.1 (by rw [hs]; decide) (by rw [hs]; decide)
    have hcur : ∀ t j, c.drv.isValveOpen t j = true → t = c.choice ∧ j = c.vent.cur := by
      intro t j ho
      rcases hi.2.2.2 t j ho with ⟨h, _⟩ | ⟨_, h⟩ | h | ⟨h, _⟩
      · rw [hs] at h; exact absurd h (by decide)
      · exact h
      · rw [hs] at h; exact absurd h (by decide)
      · rw [hs] at h; exact absurd h (by decide)
    obtain ⟨r, a, d, hr, hc⟩ := evalVenting_cases c
    obtain ⟨g1, g2, g3, g4, g5⟩ := ActionCycle.evaluate_spec _ _ _ _ _ _ _ _ _ hcur r a d hr
    have hb' : Base d := hb.of_num_sched g2 g3
    have hz' : d.SchedZero := g3 (fun x => x = 0) hz
    rcases hc with ⟨hr', he⟩ | ⟨hr', he⟩ | ⟨hr', he⟩ | ⟨hr', he⟩ <;> rw [he]
    · exact Or.inl (transition_safe _ _ _ (by next_ne) ⟨hb', g4 (Or.inl hr'), g1.trans hoff, hz'⟩)
    · rcases transition_cases ({ c with faults := c.ventSucceeded.2, vent := a, drv := d } : Ctl) e Prp.venting with
          ⟨h2, h3⟩ | ⟨h2, _⟩ | ⟨h2, _⟩
      · rw [h3]
        exact Or.inr ⟨⟨hb', fun h => absurd (h.symm.trans (g1.trans hoff)) (by decide), fun _ _ => hz',
          fun t j ho => Or.inr (Or.inl ⟨hs, g5 t j ho⟩)⟩, Or.inl (by show c.state ≠ _; rw [hs]; decide)⟩
      · exact absurd hs.symm h2
      · exact absurd hs.symm h2
    · rcases transition_cases ({ c with faults := c.ventSucceeded.2, vent := a, drv := d, saved := (if c.choice = .two then c.saved + 1 else c.saved) } : Ctl) e Prp.venting with
          ⟨h2, h3⟩ | ⟨h2, _⟩ | ⟨h2, _⟩
      · rw [h3]
        exact Or.inr ⟨⟨hb', fun h => absurd (h.symm.trans (g1.trans hoff)) (by decide), fun _ _ => hz',
          fun t j ho => Or.inr (Or.inl ⟨hs, g5 t j ho⟩)⟩, Or.inl (by show c.state ≠ _; rw [hs]; decide)⟩
      · exact absurd hs.symm h2
      · exact absurd hs.symm h2
    · have hsafe : Safe d := ⟨hb', g4 (Or.inr hr'), g1.trans hoff, hz'⟩
      obtain ⟨f', hp | hp⟩ := ventOutOfCycles_cases ({ c with faults := c.ventSucceeded.2, vent := a, drv := d } : Ctl)
      · rw [hp]; exact Or.inl (transition_safe _ _ _ (by next_ne) hsafe)
      · rw [hp.2]; exact Or.inl (transition_safe _ _ _ (by next_ne) hsafe)
  split
  · rename_i hs
    obtain ⟨f, n, he, hn⟩ := evalHandlingFault_frame c e
    rw [he]
    exact Or.inl <| quiet_step e n (inv (by rw [hs]; decide)) rfl (by rw [hs]; decide) (by rw [hs]; decide) (by rw [hs]; decide)
      (by rw [hs]; decide) (by rw [hs]; decide) hn
  split
  · rename_i hs
    have hi := inv (by rw [hs]; decide)
    have hoff := off_of_inv hi (by rw [hs]; decide)
    have hz : c.drv.SchedZero := hi.2.2.1 (by rw [hs]; decide) (by rw [hs]; decide)
    rcases transition_cases c.evalManual.2 e Prp.manual with ⟨h2, h3⟩ | ⟨h2, _⟩ | ⟨h2, _⟩
    · refine Or.inr ⟨?_, Or.inl ?_⟩
      rotate_left
      · show (c.evalManual.2.transition e Prp.manual).state ≠ _
        rw [h3]; show c.state ≠ _; rw [hs]; decide
      show Inv (c.evalManual.2.transition e Prp.manual)
      rw [h3]
      refine ⟨⟨?_, ?_, ?_⟩, fun h => ?_, fun _ _ => ?_, fun _ _ _ => Or.inr (Or.inr (Or.inl hs))⟩
      · simp only [evalManual, setValve_num]; exact hb.1
      · simp only [evalManual, setValve_num]; exact hb.2.1
      · unfold evalManual
        repeat (apply setValve_sched _ _ _ _ fun x => x.toNat < 1000)
        exact hb.2.2
      · simp only [evalManual, setValve_enabled] at h
        exact absurd (h.symm.trans hoff) (by decide)
      · unfold evalManual
        repeat (apply setValve_sched _ _ _ _ fun x => x = 0)
        exact hz
    · exact absurd hs.symm h2
    · exact absurd hs.symm h2
  · exact Or.inl (transition_safe _ _ _ (by next_ne) (safe_reset hb))

/-- One evaluation and transition restores the invariant. -/
theorem step_inv (c : Ctl) (e : PropEnv) (h : PreInv c) : Inv ((c.evaluate e).2.transition e (c.evaluate e).1) := by
  rcases step_strong c e h with h | h
  · exact inv_of_safe h
  · exact h.1

theorem execute_inv (c : Ctl) (e : PropEnv) (h : PreInv c) : Inv (c.execute e) := by
  unfold execute
  obtain ⟨f, k, hp⟩ := prologue_frame c e.cc
  rw [hp]
  exact step_inv { c with faults := f, countdown := k } e h

theorem inv_readSensors {c : Ctl} {e : PropEnv} (h : Inv c) : Inv (c.readSensors e) := h

end Ctl
end PAN
