import Verif.Spec.Manoeuvre
import Verif.Props.OrbitCtl
/-!
Property C115: a manoeuvre that is commanded in time is flown at the commanded time.
-/
namespace PAN
open Driver Spec
namespace Ctl

/-! ### One undisturbed cycle -/

theorem harmless_before {c : Ctl} {y : PropCycle} (hw : ∀ w ∈ y.writes, Harmless w) (hok : ScheduleOk c) :
    let b := c.beforeExecute y
    b.state = c.state ∧ b.countdown = c.countdown ∧ ScheduleOk b ∧ b.maxPress = c.maxPress ∧ b.fill = c.fill ∧ b.cool = c.cool ∧
      b.threshold = c.threshold ∧ b.pressure = c.pressure ∧ b.press = c.press ∧ b.firings = c.firings ∧
      ∀ j, b.drv.isValveOpen .one j = c.drv.isValveOpen .one j := by
  refine beforeExecute_ind (fun b => b.state = c.state ∧ b.countdown = c.countdown ∧ ScheduleOk b ∧ b.maxPress = c.maxPress ∧
    b.fill = c.fill ∧ b.cool = c.cool ∧ b.threshold = c.threshold ∧ b.pressure = c.pressure ∧ b.press = c.press ∧
    b.firings = c.firings ∧ ∀ j, b.drv.isValveOpen .one j = c.drv.isValveOpen .one j) ?_ c y
    ⟨rfl, rfl, hok, rfl, rfl, rfl, rfl, rfl, rfl, rfl, fun _ => rfl⟩ ?_
  · rintro b n ⟨h1, h2, h3, h4, h5, h6, h7, h8, h9, h10, h11⟩
    exact ⟨h1, h2, h3, h4, h5, h6, h7, h8, h9, h10, fun j => (ticks_open1 b.drv n j).trans (h11 j)⟩
  · intro b w hm hb
    have hh := hw w hm
    cases w with
    | sched p q r s => exact ⟨hb.1, hb.2.1, hh, hb.2.2.2⟩
    | fault i op => cases i <;> exact hb
    | inter => exact hb
    | maxVent => exact hb
    | closePeriod => exact hb
    | tank1Valve => exact hb
    | state => exact hh.elim
    | countdown => exact hh.elim
    | maxPress => exact hh.elim
    | threshold => exact hh.elim
    | fill => exact hh.elim
    | cool => exact hh.elim

theorem valid_true {c : Ctl} (h : ScheduleOk c) (hc : 2 ≤ c.countdown.toNat) : c.validSchedule = true := by
  cases hv : c.validSchedule with
  | true => rfl
  | false =>
    refine absurd h (valid_false hv ?_)
    rw [BitVec.le_def]
    show ¬ c.countdown.toNat ≤ 1
    omega

theorem not_any {f : PropFaults} (h : ¬ SomeFault f) : f.any = false := by
  cases ha : f.any with
  | false => rfl
  | true => exact absurd ((any_iff f).1 ha) h

theorem transition_stay (c : Ctl) (e : PropEnv) (n : U32) (h : c.state = n) : c.transition e n = c := by
  subst h; exact transition_self c e

theorem waiting_step (c : Ctl) (e : PropEnv) (hs : c.state = Prp.idle ∨ c.state = Prp.awaitPressurizing) (hok : ScheduleOk c)
    (h3 : 3 ≤ c.countdown.toNat) (hf : e.functional = true) (hn : ¬ SomeFault (c.checkFaults e.cc).faults) :
    (c.execute e).drv = c.drv ∧
    (c.countdown.toNat - 1 ≤ (c.minCycles - 1).toNat → (c.execute e).state = Prp.pressurizing ∧ (c.execute e).press = c.press.enter) ∧
    (¬ c.countdown.toNat - 1 ≤ (c.minCycles - 1).toNat → (c.execute e).state = Prp.awaitPressurizing) := by
  obtain ⟨f, k, hff, hk, he⟩ := execute_eq c e
  have hany : f.any = false := not_any (by rw [hff]; exact hn)
  have hv : ∀ g, ({ c with faults := g, countdown := k } : Ctl).validSchedule = true := fun g =>
    valid_true (c := { c with faults := g, countdown := k }) hok (by show 2 ≤ k.toNat; omega)
  have hnd : c.state ≠ Prp.disabled := by rcases hs with h | h <;> rw [h] <;> decide
  have hp : ∀ g, (({ c with faults := g, countdown := k } : Ctl).canEnter e Prp.pressurizing) =
      (decide (c.countdown.toNat - 1 ≤ (c.minCycles - 1).toNat), { c with faults := g, countdown := k }) := by
    intro g
    have e1 : (({ c with faults := g, countdown := k } : Ctl).canEnter e Prp.pressurizing) =
        ((decide (c.state = Prp.awaitPressurizing) || decide (c.state = Prp.idle)) && decide (k ≤ c.minCycles - 1) &&
          ({ c with faults := g, countdown := k } : Ctl).validSchedule && e.functional, { c with faults := g, countdown := k }) := rfl
    have e2 : (decide (c.state = Prp.awaitPressurizing) || decide (c.state = Prp.idle)) = true := by
      rcases hs with h | h <;> rw [h] <;> rfl
    have e3 : decide (k ≤ c.minCycles - 1) = decide (c.countdown.toNat - 1 ≤ (c.minCycles - 1).toNat) := by
      rw [← hk]; rfl
    rw [e1, e2, hv g, hf, e3, Bool.true_and, Bool.and_true, Bool.and_true]
  have hq : c.state = Prp.idle → ∀ g, (({ c with faults := g, countdown := k } : Ctl).canEnter e Prp.awaitPressurizing) =
      (true, { c with faults := g, countdown := k }) := by
    intro hi g
    have e1 : (({ c with faults := g, countdown := k } : Ctl).canEnter e Prp.awaitPressurizing) =
        (decide (c.state = Prp.idle) && ({ c with faults := g, countdown := k } : Ctl).validSchedule && e.functional,
          { c with faults := g, countdown := k }) := rfl
    rw [e1, hv g, hf, hi]; rfl
  have hfault := canEnter_fault ({ c with faults := f, countdown := k } : Ctl) e hnd
  dsimp only at hfault
  rw [hany, Bool.and_false] at hfault
  by_cases hle : c.countdown.toNat - 1 ≤ (c.minCycles - 1).toNat
  · have hev : ({ c with faults := f, countdown := k } : Ctl).evaluate e = (Prp.pressurizing, { c with faults := f.pollAll, countdown := k }) := by
      unfold evaluate
      dsimp only
      rcases hs with h | h
      · rw [if_pos h]
        unfold evalIdle
        rw [hfault]
        dsimp only
        rw [if_neg Bool.false_ne_true, hp, decide_eq_true hle, if_pos rfl]
      · rw [if_neg (by rw [h]; decide), if_pos h]
        unfold evalAwaitPressurizing
        rw [hfault]
        dsimp only
        rw [if_neg Bool.false_ne_true, hp, decide_eq_true hle, if_pos rfl]
    rw [he, hev]
    dsimp only
    have ht : Ctl.transition { c with faults := f.pollAll, countdown := k } e Prp.pressurizing =
        { c with faults := f.pollAll, countdown := k, state := Prp.pressurizing, press := c.press.enter } := by
      unfold transition
      rw [if_neg (by show Prp.pressurizing ≠ c.state; rcases hs with h | h <;> rw [h] <;> decide), hp, decide_eq_true hle]
      rfl
    rw [ht]
    exact ⟨rfl, fun _ => ⟨rfl, rfl⟩, fun h => absurd hle h⟩
  · have hev : ({ c with faults := f, countdown := k } : Ctl).evaluate e = (Prp.awaitPressurizing, { c with faults := f.pollAll, countdown := k }) := by
      unfold evaluate
      dsimp only
      rcases hs with h | h
      · rw [if_pos h]
        unfold evalIdle
        rw [hfault]
        dsimp only
        rw [if_neg Bool.false_ne_true, hp, decide_eq_false hle, if_neg Bool.false_ne_true, hq h, if_pos rfl]
      · rw [if_neg (by rw [h]; decide), if_pos h]
        unfold evalAwaitPressurizing
        rw [hfault]
        dsimp only
        rw [if_neg Bool.false_ne_true, hp, decide_eq_false hle, if_neg Bool.false_ne_true]
    rw [he, hev]
    dsimp only
    have ht : (Ctl.transition { c with faults := f.pollAll, countdown := k } e Prp.awaitPressurizing).state = Prp.awaitPressurizing ∧
        (Ctl.transition { c with faults := f.pollAll, countdown := k } e Prp.awaitPressurizing).drv = c.drv := by
      rcases hs with h | h
      · unfold transition
        rw [if_neg (by show Prp.awaitPressurizing ≠ c.state; rw [h]; decide), hq h]
        exact ⟨rfl, rfl⟩
      · rw [transition_stay { c with faults := f.pollAll, countdown := k } e _ h]
        exact ⟨h, rfl⟩
    exact ⟨ht.2, fun h => absurd h hle, fun _ => ht.1⟩

theorem armed_step (c : Ctl) (e : PropEnv) (hs : c.state = Prp.awaitFiring) (h2 : 2 ≤ c.countdown.toNat)
    (hn : ¬ SomeFault (c.checkFaults e.cc).faults) : (c.execute e).state = Prp.awaitFiring := by
  obtain ⟨f, k, hff, hk, he⟩ := execute_eq c e
  have hany : f.any = false := not_any (by rw [hff]; exact hn)
  have hfault := canEnter_fault ({ c with faults := f, countdown := k } : Ctl) e (by show c.state ≠ _; rw [hs]; decide)
  dsimp only at hfault
  rw [hany, Bool.and_false] at hfault
  have hev : ({ c with faults := f, countdown := k } : Ctl).evaluate e = (Prp.awaitFiring, { c with faults := f.pollAll, countdown := k }) := by
    have h1 : ({ c with faults := f, countdown := k } : Ctl).evaluate e = ({ c with faults := f, countdown := k } : Ctl).evalAwaitFiring e := by
      unfold evaluate
      dsimp only
      rw [hs]
      rfl
    rw [h1]
    unfold evalAwaitFiring
    rw [hfault]
    dsimp only
    rw [if_neg Bool.false_ne_true, if_neg]
    intro h0
    rw [h0] at hk
    have : (0 : U32).toNat = 0 := rfl
    omega
  rw [he, hev]
  dsimp only
  rw [transition_stay { c with faults := f.pollAll, countdown := k } e _ hs]
  exact hs

/-- One undisturbed cycle of filling with at least two cycles to go afterwards. -/
theorem filling_step (c : Ctl) (e : PropEnv) (hs : c.state = Prp.pressurizing) (hok : ScheduleOk c) (h3 : 3 ≤ c.countdown.toNat)
    (hf : e.functional = true) (hn : ¬ SomeFault (c.checkFaults e.cc).faults) :
    (c.threshold ≤ c.pressure → (c.execute e).state = Prp.awaitFiring) ∧
    ((c.execute e).state = Prp.awaitFiring ∨
      ((c.execute e).state = Prp.pressurizing ∧ ∃ r, (r = .stay ∨ r = .started) ∧
        c.press.evaluate c.drv .one (c.pressure ≥ c.threshold) false c.maxPress.toNat c.fill.toNat c.cool.toNat c.tank1Valve.toNat =
          (r, (c.execute e).press, (c.execute e).drv)) ∨
      ((c.execute e).state = Prp.handlingFault ∧ (c.execute e).faults.press.isFaulted = true)) := by
  obtain ⟨f, k, hff, hk, he⟩ := execute_eq c e
  have hany : f.any = false := not_any (by rw [hff]; exact hn)
  have hnd : c.state ≠ Prp.disabled := by rw [hs]; decide
  have hfault := canEnter_fault ({ c with faults := f, countdown := k } : Ctl) e hnd
  dsimp only at hfault
  rw [hany, Bool.and_false] at hfault
  have hk2 : 2 ≤ k.toNat := by omega
  have hv : ∀ g a d, ({ c with faults := g, countdown := k, press := a, drv := d } : Ctl).validSchedule = true := fun g a d =>
    valid_true (c := { c with faults := g, countdown := k, press := a, drv := d }) hok hk2
  have toAwait : ∀ g a d, Ctl.transition { c with faults := g, countdown := k, press := a, drv := d } e Prp.awaitFiring =
      { c with faults := g, countdown := k, press := a, drv := d, state := Prp.awaitFiring } := by
    intro g a d
    unfold transition
    rw [if_neg (by show Prp.awaitFiring ≠ c.state; rw [hs]; decide)]
    have hce : Ctl.canEnter { c with faults := g, countdown := k, press := a, drv := d } e Prp.awaitFiring =
        (({ c with faults := g, countdown := k, press := a, drv := d } : Ctl).validSchedule && decide (c.state = Prp.pressurizing) && e.functional,
          { c with faults := g, countdown := k, press := a, drv := d }) := rfl
    rw [hce, hv, hs, hf]
    rfl
  obtain ⟨R, hR⟩ : ∃ R, c.press.evaluate c.drv .one (c.pressure ≥ c.threshold) false c.maxPress.toNat c.fill.toNat c.cool.toNat
    c.tank1Valve.toNat = R := ⟨_, rfl⟩
  obtain ⟨r, a, d⟩ := R
  have hev : ({ c with faults := f, countdown := k } : Ctl).evaluate e =
      (match r with
      | .succeeded => (Prp.awaitFiring, { c with faults := f.pollAll, countdown := k, press := a, drv := d })
      | .failed => (Prp.disabled, { c with faults := f.pollAll, countdown := k, press := a, drv := d })
      | .stay => (Prp.pressurizing, { c with faults := f.pollAll, countdown := k, press := a, drv := d })
      | .started => (Prp.pressurizing, { c with faults := f.pollAll, countdown := k, press := a, drv := d })
      | .outOfCycles => ({ c with faults := f.pollAll, countdown := k, press := a, drv := d } : Ctl).pressOutOfCycles e.cc) := by
    have h1 : ({ c with faults := f, countdown := k } : Ctl).evaluate e = ({ c with faults := f, countdown := k } : Ctl).evalPressurizing e := by
      unfold evaluate
      dsimp only
      rw [hs]
      rfl
    rw [h1]
    unfold evalPressurizing
    rw [if_neg (by rw [BitVec.le_def]; show ¬ k.toNat ≤ 1; omega), hfault]
    dsimp only
    rw [if_neg Bool.false_ne_true]
    have hv' := hv f.pollAll c.press c.drv
    have hv'' : ({ c with faults := f.pollAll, countdown := k } : Ctl).validSchedule = true := hv'
    simp only [hv'', Bool.not_true, hR]
    cases r <;> rfl
  rw [he, hev]
  have hsucc : c.threshold ≤ c.pressure → r = .succeeded := by
    intro hp
    have : (c.press.evaluate c.drv .one (c.pressure ≥ c.threshold) false c.maxPress.toNat c.fill.toNat c.cool.toNat c.tank1Valve.toNat).1 = .succeeded := by
      unfold ActionCycle.evaluate
      dsimp only
      rw [if_pos (decide_eq_true hp)]
    rw [hR] at this; exact this
  have hfail : r ≠ .failed := by
    intro h
    have h2 := (ActionCycle.evaluate_valve _ _ _ _ _ _ _ _ _ r a d hR).2.2.2.2.2.2.1 h
    cases h2
  have ht : Ctl.transition { c with faults := f.pollAll, countdown := k, press := a, drv := d } e Prp.pressurizing =
      { c with faults := f.pollAll, countdown := k, press := a, drv := d } := by
    have := transition_self { c with faults := f.pollAll, countdown := k, press := a, drv := d } e
    rw [← hs]; exact this
  cases r with
  | succeeded =>
    dsimp only
    rw [toAwait]
    exact ⟨fun _ => rfl, .inl rfl⟩
  | failed => exact absurd rfl hfail
  | stay =>
    dsimp only
    rw [ht]
    exact ⟨fun h => (by cases hsucc h), .inr (.inl ⟨hs, .stay, .inl rfl, hR⟩)⟩
  | started =>
    dsimp only
    rw [ht]
    exact ⟨fun h => (by cases hsucc h), .inr (.inl ⟨hs, .started, .inr rfl, hR⟩)⟩
  | outOfCycles =>
    refine ⟨fun h => (by cases hsucc h), ?_⟩
    dsimp only
    have hpo : ({ c with faults := f.pollAll, countdown := k, press := a, drv := d } : Ctl).pressOutOfCycles e.cc =
        if (f.pollAll.press.signal e.cc).isFaulted then (Prp.handlingFault, { c with faults := { f.pollAll with press := (f.pollAll.press.signal e.cc).poll }, countdown := k, press := a, drv := d.reset })
        else (Prp.awaitFiring, { c with faults := { f.pollAll with press := (f.pollAll.press.signal e.cc).poll }, countdown := k, press := a, drv := d }) := rfl
    rw [hpo]
    cases hfa : (f.pollAll.press.signal e.cc).isFaulted with
    | false =>
      rw [if_neg Bool.false_ne_true]
      dsimp only
      rw [toAwait]
      exact .inl rfl
    | true =>
      rw [if_pos rfl]
      dsimp only
      right; right
      unfold transition
      rw [if_neg (by show Prp.handlingFault ≠ c.state; rw [hs]; decide), canEnter_fault _ _ (by show c.state ≠ _; exact hnd)]
      have ha : PropFaults.any { f.pollAll with press := (f.pollAll.press.signal e.cc).poll } = true :=
        (any_iff _).2 (.inl (by show Fault.isFaulted (Fault.poll _) = true; rw [Fault.isFaulted_poll]; exact hfa))
      dsimp only
      rw [hf, ha]
      refine ⟨rfl, ?_⟩
      show Fault.isFaulted (Fault.poll (Fault.poll _)) = true
      rw [Fault.isFaulted_poll, Fault.isFaulted_poll]; exact hfa

theorem undisturbed_keeps {c : Ctl} {y : PropCycle} (h : Undisturbed c y) (hok : ScheduleOk c) :
    ScheduleOk (c.cycle y) ∧ (c.cycle y).countdown.toNat = c.countdown.toNat - 1 ∧ (c.cycle y).maxPress = c.maxPress ∧
      (c.cycle y).fill = c.fill ∧ (c.cycle y).cool = c.cool ∧ (c.cycle y).threshold = c.threshold := by
  obtain ⟨h1, h2, h3, h4, h5, h6, h7, h8, h9, h10, h11⟩ := harmless_before h.writes hok
  obtain ⟨st, k, f, p, v, t, s, d, n, hk, he⟩ := execute_frame (c.beforeExecute y) y.env
  have he' : c.cycle y = _ := he
  rw [he']
  rw [h2] at hk
  exact ⟨h3, hk, h4, h5, h6, h7⟩

theorem minCycles_sub {b c : Ctl} (h4 : b.maxPress = c.maxPress) (h5 : b.fill = c.fill) (h6 : b.cool = c.cool) (hN : cyclesNeeded c < 2 ^ 32) :
    (b.minCycles - 1).toNat = cyclesNeeded c - 1 := by
  unfold cyclesNeeded at hN ⊢
  unfold minCycles
  rw [h4, h5, h6]
  have hM : (c.maxPress * (c.fill + c.cool) + 4).toNat = c.maxPress.toNat * (c.fill.toNat + c.cool.toNat) + 4 := by
    rw [BitVec.toNat_add, BitVec.toNat_mul, BitVec.toNat_add]
    have h1 : (4 : U32).toNat = 4 := rfl
    rw [h1, Nat.mul_mod_mod]
    omega
  rw [BitVec.toNat_sub_of_le (by rw [BitVec.le_def, hM]; show 1 ≤ _; omega), hM]
  rfl

/-- Firing begins with the countdown at 0. -/
theorem firing_countdown (c : Ctl) (y : PropCycle) (h0 : c.state ≠ Prp.firing) (h : Undisturbed c y) (hok : ScheduleOk c)
    (hf : (c.cycle y).state = Prp.firing) : (c.cycle y).countdown.toNat = 0 := by
  obtain ⟨h1, -⟩ := harmless_before h.writes hok
  have h3 := C37_firing_entry (c.beforeExecute y) y.env (by rw [h1]; exact h0) hf
  show ((c.beforeExecute y).execute y.env).countdown.toNat = 0
  rw [h3.2.1]; rfl

theorem undisturbed_take (i : ℕ) : ∀ {c : Ctl} {ys : List PropCycle}, UndisturbedRun c ys → UndisturbedRun c (ys.take i) := by
  induction i with
  | zero => intro c ys _; exact trivial
  | succ i ih =>
    intro c ys h
    cases ys with
    | nil => exact trivial
    | cons y ys => exact ⟨h.1, ih h.2⟩

theorem undisturbed_drop (i : ℕ) : ∀ {c : Ctl} {ys : List PropCycle}, UndisturbedRun c ys → UndisturbedRun (c.run (ys.take i)) (ys.drop i) := by
  induction i with
  | zero => intro c ys h; exact h
  | succ i ih =>
    intro c ys h
    cases ys with
    | nil => exact trivial
    | cons y ys => exact ih h.2

theorem run_keeps : ∀ {ys : List PropCycle} {c : Ctl}, UndisturbedRun c ys → ScheduleOk c →
    ScheduleOk (c.run ys) ∧ (c.run ys).countdown.toNat = c.countdown.toNat - ys.length ∧ (c.run ys).threshold = c.threshold := by
  intro ys
  induction ys with
  | nil => intro c _ hok; exact ⟨hok, by simp [Ctl.run], rfl⟩
  | cons y ys ih =>
    intro c h hok
    obtain ⟨k1, k2, -, -, -, k3⟩ := undisturbed_keeps h.1 hok
    obtain ⟨i1, i2, i3⟩ := ih h.2 k1
    rw [run_cons]
    exact ⟨i1, by rw [i2, k2, List.length_cons]; omega, i3.trans k3⟩

/-- No firing before the time. -/
theorem not_early : ∀ {ys : List PropCycle} {c : Ctl}, UndisturbedRun c ys → ScheduleOk c → c.state ≠ Prp.firing →
    ys.length < c.countdown.toNat → (c.run ys).state ≠ Prp.firing := by
  intro ys
  induction ys with
  | nil => intro c _ _ h _; exact h
  | cons y ys ih =>
    intro c h hok hs hl
    obtain ⟨k1, k2, -⟩ := undisturbed_keeps h.1 hok
    rw [List.length_cons] at hl
    rw [run_cons]
    refine ih h.2 k1 (fun hf => ?_) (by omega)
    have := firing_countdown c y hs h.1 hok hf
    omega

/-- From being armed to firing. -/
theorem armed_run : ∀ {ys : List PropCycle} {c : Ctl}, UndisturbedRun c ys → ScheduleOk c → c.state = Prp.awaitFiring →
    ys.length = c.countdown.toNat → 1 ≤ c.countdown.toNat → (c.run ys).state = Prp.firing := by
  intro ys
  induction ys with
  | nil => intro c _ _ _ hl h1; rw [List.length_nil] at hl; omega
  | cons y ys ih =>
    intro c h hok hs hl h1
    obtain ⟨b1, b2, -⟩ := harmless_before h.1.writes hok
    obtain ⟨k1, k2, -⟩ := undisturbed_keeps h.1 hok
    rw [List.length_cons] at hl
    rw [run_cons]
    by_cases h2 : 2 ≤ c.countdown.toNat
    · have h3 := armed_step (c.beforeExecute y) y.env (b1.trans hs) (by rw [b2]; exact h2) h.1.healthy
      exact ih h.2 k1 h3 (by omega) (by omega)
    · have h3 := C41_fires_on_time (c.beforeExecute y) y.env (b1.trans hs) (by rw [b2]; omega) h.1.functional h.1.healthy
      have h4 : ys = [] := List.length_eq_zero_iff.mp (by omega)
      rw [h4]
      exact h3

end Ctl
open Ctl

/-- C115. A commanded manoeuvre is flown exactly when its countdown runs out, not earlier and not later, if nothing disturbs
it and at some time while the tank is being filled, with at least three cycles left, the pressure is sufficient. -/
theorem C115_flown (c : Ctl) (ys : List PropCycle) (h : UndisturbedRun c ys) (hok : ScheduleOk c) (hs : c.state ≠ Prp.firing)
    (hlen : ys.length = c.countdown.toNat) (j : ℕ) (hj : j + 3 ≤ ys.length)
    (hfill : (c.run (ys.take j)).state = Prp.pressurizing) (hp : (c.run (ys.take j)).threshold ≤ (c.run (ys.take j)).pressure) :
    (c.run ys).state = Prp.firing ∧ ∀ i < ys.length, (c.run (ys.take i)).state ≠ Prp.firing := by
  refine ⟨?_, fun i hi => not_early (undisturbed_take i h) hok hs (by rw [List.length_take]; omega)⟩
  obtain ⟨k1, k2, -⟩ := run_keeps (undisturbed_take j h) hok
  have hd := undisturbed_drop j h
  have hr : c.run ys = (c.run (ys.take j)).run (ys.drop j) := by
    conv_lhs => rw [← List.take_append_drop j ys]
    exact List.foldl_append
  rw [hr]
  rw [List.length_take, Nat.min_eq_left (by omega)] at k2
  generalize c.run (ys.take j) = d at *
  obtain ⟨y, zs, hz⟩ : ∃ y zs, ys.drop j = y :: zs := by
    cases hc : ys.drop j with
    | nil => have := congrArg List.length hc; rw [List.length_drop, List.length_nil] at this; omega
    | cons y zs => exact ⟨y, zs, rfl⟩
  have hzl : zs.length + 1 = ys.length - j := by rw [← List.length_drop, hz, List.length_cons]
  rw [hz] at hd ⊢
  obtain ⟨b1, b2, b3, -, -, -, b7, b8, -⟩ := harmless_before hd.1.writes k1
  obtain ⟨e1, e2, -⟩ := undisturbed_keeps hd.1 k1
  have h3 := (filling_step (d.beforeExecute y) y.env (b1.trans hfill) b3 (by rw [b2]; omega) hd.1.functional hd.1.healthy).1
    (by rw [b7, b8]; exact hp)
  rw [run_cons]
  exact armed_run hd.2 e1 h3 (by omega) (by omega)

/-- C115. Filling begins as late as the time needed for all fillings allows, and at once if the manoeuvre is nearer. -/
theorem C115_begins (c : Ctl) (y : PropCycle) (h : Undisturbed c y) (hok : ScheduleOk c) (hs : c.state = Prp.idle ∨ c.state = Prp.awaitPressurizing)
    (h3 : 3 ≤ c.countdown.toNat) (hN : cyclesNeeded c < 2 ^ 32) :
    (c.cycle y).state = if c.countdown.toNat ≤ cyclesNeeded c then Prp.pressurizing else Prp.awaitPressurizing := by
  obtain ⟨b1, b2, b3, b4, b5, b6, -⟩ := harmless_before h.writes hok
  have hw := waiting_step (c.beforeExecute y) y.env (by rw [b1]; exact hs) b3 (by rw [b2]; exact h3) h.functional h.healthy
  have hm : ((c.beforeExecute y).minCycles - 1).toNat = cyclesNeeded c - 1 := minCycles_sub b4 b5 b6 hN
  rw [hm, b2] at hw
  have h4 : 4 ≤ cyclesNeeded c := by unfold cyclesNeeded; omega
  split
  · exact (hw.2.1 (by omega)).1
  · exact hw.2.2 (by omega)

/-! ### Enough time -/

namespace Ctl

/-- Where an undisturbed manoeuvre commanded in time can be. -/
inductive OnTime (c : Ctl) : Prop where
  | waiting (hs : c.state = Prp.idle ∨ c.state = Prp.awaitPressurizing) (hc : ∀ j, c.drv.isValveOpen .one j = false)
      (hn : cyclesNeeded c ≤ c.countdown.toNat)
  | filling (hs : c.state = Prp.pressurizing)
      (hl : left c.press c.drv .one c.maxPress.toNat c.fill.toNat c.cool.toNat + 2 ≤ c.countdown.toNat)
  | armed (hs : c.state = Prp.awaitFiring) (h1 : 1 ≤ c.countdown.toNat)
  | firing (hs : c.state = Prp.firing) (h0 : c.countdown.toNat = 0)

theorem onTime_step {c : Ctl} {y : PropCycle} (h : Undisturbed c y) (hok : ScheduleOk c) (hN : cyclesNeeded c < 2 ^ 32)
    (hf : 1 ≤ c.fill.toNat) (hc : 1 ≤ c.cool.toNat) (h1 : 1 ≤ c.countdown.toNat) (ho : OnTime c) :
    OnTime (c.cycle y) ∨ ((c.cycle y).state = Prp.handlingFault ∧ (c.cycle y).faults.press.isFaulted = true) := by
  obtain ⟨b1, b2, b3, b4, b5, b6, b7, b8, b9, b10, b11⟩ := harmless_before h.writes hok
  obtain ⟨e1, e2, e3, e4, e5, e6⟩ := undisturbed_keeps h hok
  have hN' : cyclesNeeded (c.cycle y) = cyclesNeeded c := by unfold cyclesNeeded; rw [e3, e4, e5]
  cases ho with
  | waiting hs hcl hn =>
    have h4 : 4 ≤ cyclesNeeded c := by unfold cyclesNeeded; omega
    have hw := waiting_step (c.beforeExecute y) y.env (by rw [b1]; exact hs) b3 (by rw [b2]; omega) h.functional h.healthy
    have hm : ((c.beforeExecute y).minCycles - 1).toNat = cyclesNeeded c - 1 := minCycles_sub b4 b5 b6 hN
    rw [hm, b2] at hw
    have hdrv : (c.cycle y).drv = (c.beforeExecute y).drv := hw.1
    left
    by_cases hle : c.countdown.toNat - 1 ≤ cyclesNeeded c - 1
    · obtain ⟨g1, g2⟩ := hw.2.1 hle
      refine .filling g1 ?_
      have g2' : (c.cycle y).press = (c.beforeExecute y).press.enter := g2
      rw [hdrv, g2', e2, e3, e4, e5]
      unfold left
      have : (c.beforeExecute y).drv.isValveOpen .one (c.beforeExecute y).press.enter.cur = false := by rw [b11]; exact hcl _
      rw [this, if_neg Bool.false_ne_true]
      unfold cyclesNeeded at hn hle h4
      show 0 + max 1 0 + (c.maxPress.toNat - 0) * (c.fill.toNat + c.cool.toNat) + 2 ≤ _
      rw [Nat.sub_zero]
      omega
    · exact .waiting (.inr (hw.2.2 hle)) (fun j => by rw [hdrv, b11]; exact hcl j) (by rw [hN', e2]; omega)
  | filling hs hl =>
    have h3 : 3 ≤ c.countdown.toNat := by unfold left at hl; omega
    have hw := (filling_step (c.beforeExecute y) y.env (b1.trans hs) b3 (by rw [b2]; exact h3) h.functional h.healthy).2
    rcases hw with g | ⟨g, r, hr, hev⟩ | g
    · exact .inl (.armed g (by omega))
    · left
      refine .filling g ?_
      have := left_decreases _ _ .one _ _ _ _ _ c.fill.toNat c.cool.toNat r _ _ hr (by rw [b5]; omega) (by rw [b6]; omega) hev
      have hsame : left (c.beforeExecute y).press (c.beforeExecute y).drv .one (c.beforeExecute y).maxPress.toNat c.fill.toNat c.cool.toNat =
          left c.press c.drv .one c.maxPress.toNat c.fill.toNat c.cool.toNat := by
        unfold left; rw [b9, b11, b4]
      rw [hsame, b4] at this
      have this' : left (c.cycle y).press (c.cycle y).drv .one c.maxPress.toNat c.fill.toNat c.cool.toNat + 1 ≤ _ := this
      rw [e2, e3, e4, e5]
      omega
    · exact .inr g
  | armed hs h1 =>
    left
    by_cases h2 : 2 ≤ c.countdown.toNat
    · exact .armed (armed_step (c.beforeExecute y) y.env (b1.trans hs) (by rw [b2]; exact h2) h.healthy) (by omega)
    · exact .firing (C41_fires_on_time (c.beforeExecute y) y.env (b1.trans hs) (by rw [b2]; omega) h.functional h.healthy) (by omega)
  | firing hs h0 => omega

theorem onTime_run : ∀ {ys : List PropCycle} {c : Ctl}, UndisturbedRun c ys → ScheduleOk c → cyclesNeeded c < 2 ^ 32 →
    1 ≤ c.fill.toNat → 1 ≤ c.cool.toNat → ys.length ≤ c.countdown.toNat → OnTime c →
    OnTime (c.run ys) ∨ ∃ i, i ≤ ys.length ∧ (c.run (ys.take i)).state = Prp.handlingFault ∧ (c.run (ys.take i)).faults.press.isFaulted = true := by
  intro ys
  induction ys with
  | nil => intro c _ _ _ _ _ _ h; exact .inl h
  | cons y ys ih =>
    intro c h hok hN hf hc hl ho
    rw [List.length_cons] at hl
    obtain ⟨e1, e2, e3, e4, e5, e6⟩ := undisturbed_keeps h.1 hok
    have hN' : cyclesNeeded (c.cycle y) = cyclesNeeded c := by unfold cyclesNeeded; rw [e3, e4, e5]
    rcases onTime_step h.1 hok hN hf hc (by omega) ho with g | g
    · rcases ih h.2 e1 (by rw [hN']; exact hN) (by rw [e4]; exact hf) (by rw [e5]; exact hc) (by omega) g with g' | ⟨i, hi, g'⟩
      · exact .inl g'
      · exact .inr ⟨i + 1, by rw [List.length_cons]; omega, g'⟩
    · exact .inr ⟨1, by rw [List.length_cons]; omega, g⟩

end Ctl

/-- C115. A manoeuvre commanded, while the propulsion system is idle with its valves shut, at least as many cycles ahead as
all fillings of the tank take is never dropped silently: undisturbed, it is flown when the countdown runs out, or the failure
to fill the tank is reported before. -/
theorem C115_enough_time (c : Ctl) (ys : List PropCycle) (h : UndisturbedRun c ys) (hok : ScheduleOk c) (hs : c.state = Prp.idle)
    (hshut : Shut c) (hN : cyclesNeeded c ≤ c.countdown.toNat) (hf : 1 ≤ c.fill.toNat) (hc : 1 ≤ c.cool.toNat)
    (hlen : ys.length = c.countdown.toNat) :
    (c.run ys).state = Prp.firing ∨
      ∃ i, i ≤ ys.length ∧ (c.run (ys.take i)).state = Prp.handlingFault ∧ (c.run (ys.take i)).faults.press.isFaulted = true := by
  have hlt := c.countdown.isLt
  rcases onTime_run h hok (by omega) hf hc hlen.le (.waiting (.inl hs) (fun j => not_open_false (hshut.1 .one j)) hN) with g | g
  · left
    obtain ⟨k1, k2, -⟩ := run_keeps h hok
    have hz : (c.run ys).countdown.toNat = 0 := by omega
    cases g with
    | waiting _ _ hn => unfold cyclesNeeded at hn; omega
    | filling _ hl => omega
    | armed _ h1 => omega
    | firing hs _ => exact hs
  · exact .inr g

/-! ### Runs -/

namespace ManoeuvreExample
open ArmExample (cyc)

/-- Idle, with one filling of one cycle and one cycle of cooling, and a manoeuvre commanded `n` cycles ahead. -/
def start (n : U32) : Ctl :=
  ((Ctl.init 10 20 20).run [cyc 1 10 true [.state Prp.idle, .maxPress 1, .fill 1, .cool 1]]).writes [.sched 400 5 200 999, .countdown n]

/-- Cycles with the pressures read in them. -/
def cycles (cc : ℕ) : List Rat → List PropCycle
  | [] => []
  | p :: ps => cyc (BitVec.ofNat 32 cc) p true [] :: cycles (cc + 1) ps

/-- Whether no fault is reported in any cycle. -/
def healthy : Ctl → List PropCycle → Bool
  | _, [] => true
  | c, y :: ys => !((c.beforeExecute y).checkFaults y.env.cc).faults.any && healthy (c.cycle y) ys

theorem undisturbed (ps : List Rat) : ∀ (c : Ctl) (cc : ℕ), healthy c (cycles cc ps) = true → UndisturbedRun c (cycles cc ps) := by
  induction ps with
  | nil => intro c cc _; exact trivial
  | cons p ps ih =>
    intro c cc h
    unfold cycles at h ⊢
    unfold healthy at h
    rw [Bool.and_eq_true, Bool.not_eq_true'] at h
    refine ⟨⟨nofun, rfl, fun hs => ?_⟩, ih _ _ h.2⟩
    rw [(any_iff _).2 hs] at h
    cases h.1

theorem shut (n : U32) : Shut (start n) := by
  refine ⟨fun t j => ?_, rfl⟩
  have h : (start n).drv = Driver.init.reset := rfl
  unfold ValveOpen
  rw [h, reset_closed]
  exact Bool.false_ne_true

end ManoeuvreExample
open ManoeuvreExample

-- C115_flown: with three cycles of filling and cooling to come, the pressure is reached at the first reading while filling
example : (start 9).state = Prp.idle ∧ UndisturbedRun (start 9) (cycles 2 [10, 10, 10, 26, 26, 26, 26, 26, 26]) ∧ ScheduleOk (start 9) ∧
    ((start 9).run (cycles 2 [10, 10, 10, 26])).state = Prp.pressurizing ∧
    ((start 9).run (cycles 2 [10, 10, 10, 26])).threshold ≤ ((start 9).run (cycles 2 [10, 10, 10, 26])).pressure ∧
    ((start 9).run (cycles 2 [10, 10, 10, 26, 26, 26, 26, 26, 26])).state = Prp.firing :=
  ⟨rfl, undisturbed _ _ _ (by decide +kernel), by decide +kernel, by decide +kernel, by decide +kernel, by decide +kernel⟩

-- C115_enough_time: the six cycles needed; once the tank is filled in the last cycle possible, once it is not
example : cyclesNeeded (start 6) = 6 ∧ UndisturbedRun (start 6) (cycles 2 [10, 10, 26, 26, 26, 26]) ∧
    ((start 6).run (cycles 2 [10, 10, 26, 26, 26, 26])).state = Prp.firing ∧
    ((start 6).run (cycles 2 [10, 10, 10, 10])).state = Prp.handlingFault :=
  ⟨by decide +kernel, undisturbed _ _ _ (by decide +kernel), by decide +kernel, by decide +kernel⟩

/-- C115 does not hold for manoeuvres commanded later than that: this one, commanded five cycles ahead, one less than needed,
is dropped. The propulsion system is idle again before the time of the manoeuvre, nothing has been fired and no fault is
reported. -/
theorem C115_counterexample_dropped : ∃ (c : Ctl) (ys : List PropCycle), c.state = Prp.idle ∧ Shut c ∧ ScheduleOk c ∧
    UndisturbedRun c ys ∧ c.countdown.toNat + 1 = cyclesNeeded c ∧ ys.length = c.countdown.toNat ∧
    (c.run ys).state = Prp.idle ∧ (c.run ys).firings = c.firings ∧
    ∀ i, i ≤ ys.length → (c.run (ys.take i)).state ≠ Prp.firing ∧ ¬ SomeFault (c.run (ys.take i)).faults := by
  refine ⟨start 5, cycles 2 [10, 10, 10, 10, 10], rfl, shut 5, by decide +kernel, undisturbed _ _ _ (by decide +kernel), by decide +kernel, rfl,
    by decide +kernel, by decide +kernel, ?_⟩
  have h : ∀ i ≤ 5, ((start 5).run ((cycles 2 [10, 10, 10, 10, 10]).take i)).state ≠ Prp.firing ∧
      ((start 5).run ((cycles 2 [10, 10, 10, 10, 10]).take i)).faults.any = false := by decide +kernel
  intro i hi
  obtain ⟨h1, h2⟩ := h i hi
  refine ⟨h1, fun hs => ?_⟩
  rw [(any_iff _).2 hs] at h2
  cases h2

/-- And the orbit controller plans such manoeuvres: with the default parameters, on every orbit of a period below five and a
half hours (an angular velocity of at least one ten thousandth of a half turn per second), every countdown it sets near the
target is much shorter than the 1264 cycles that the fillings of the tank can take. -/
theorem C115_counterexample_near {L : Orb.Lib} (ρ : Orb.Rounding) (s s' : Orb.St L) (i : Orb.In L) (n : U32) (h : s.exec ρ i = some (s', n))
    (hn : n ≠ i.countdown) (hnear : i.relState = 2) (hnodes : s.numNodes = 180) (hp : i.maxPress = 20) (hf : i.fill = 5) (hc : i.cool = 58)
    (hθ : 0 ≤ L.angle i.t i.pos i.vel) (hθ1 : L.angle i.t i.pos i.vel < 1) (hw : 1 / 10000 ≤ L.rate i.pos (L.inertial i.t i.pos i.vel)) :
    n.toNat ≤ 653 ∧ i.minCycles.toNat = 1264 := by
  refine ⟨?_, by unfold Orb.In.minCycles; rw [hp, hf, hc]; rfl⟩
  have hcd := C90_countdown ρ s s' i n h hn
  dsimp only at hcd
  rw [if_pos hnear, hnodes] at hcd
  obtain ⟨-, -, x, hx, hx0, hmin, hfl, -⟩ := hcd
  generalize L.angle i.t i.pos i.vel = θ at *
  generalize L.rate i.pos (L.inertial i.t i.pos i.vel) = w at *
  have hw0 : 0 < w := lt_of_lt_of_le (by norm_num) hw
  have hk0 : 0 ≤ ⌊θ * 90⌋ := Int.floor_nonneg.mpr (by positivity)
  have hk1 := Int.floor_le (θ * 90)
  have hk2 := Int.lt_floor_add_one (θ * 90)
  have hk3 : ⌊θ * 90⌋ < 90 := by rw [Int.floor_lt]; push_cast; linarith
  generalize ⌊θ * 90⌋ = k at *
  have hmem : ((k + 1 : ℤ) : ℚ) / 90 ∈ Orb.nearNodes 180 := (C90_nodes _).mpr ⟨k + 1, by omega, by omega, rfl⟩
  have hpos : 0 < (((k + 1 : ℤ) : ℚ) / 90 - θ) / w := by
    apply div_pos _ hw0
    push_cast
    linarith
  have h1 := hmin _ hmem hpos
  have h2 : (((k + 1 : ℤ) : ℚ) / 90 - θ) / w ≤ 10000 / 90 := by
    rw [div_le_iff₀ hw0]
    push_cast
    linarith
  have h3 : ⌊(x - θ) / w * 1000 / 170⌋ ≤ ⌊(653 + 60 / 100 : ℚ)⌋ := by
    apply Int.floor_mono
    have := h1.trans h2
    linarith
  have h4 : ⌊(653 + 60 / 100 : ℚ)⌋ = 653 := by norm_num [Int.floor_eq_iff]
  omega

-- one of them: 54 cycles
example : ((Orb.St.init toyOrb ()).exec exact { toyOrbIn 2 Mission.follower (79 / 300) with fill := 5, cool := 58 }).map (fun x => x.2) = some 54 ∧
    (54 : U32) ≠ ({ toyOrbIn 2 Mission.follower (79 / 300) with fill := 5, cool := 58 } : Orb.In toyOrb).countdown ∧ (Orb.St.init toyOrb ()).numNodes = 180 ∧
    ({ toyOrbIn 2 Mission.follower (79 / 300) with fill := 5, cool := 58 } : Orb.In toyOrb).minCycles = 1264 ∧ (1 : ℚ) / 10000 ≤ toyOrb.rate none ({ toyOrbIn 2 Mission.follower (79 / 300) with fill := 5, cool := 58 } : Orb.In toyOrb).vel := by
  refine ⟨?_, ?_, ?_, ?_, ?_⟩ <;> decide +kernel

end PAN
