import Verif.Props.PropFill
/-!
Property C41 (an armed schedule is fired as commanded), counterexamples to the full statements of C39 and C41, and concrete
runs that meet the hypotheses of C37, C39 and C41.
-/
namespace PAN
open Driver Spec Ctl
namespace Ctl

theorem mem_closed (d : Driver) (h : d.AllClosed) : ∀ v ∈ d.tank2, v.isOpen = false := by
  intro v hv
  obtain ⟨i, hi, he⟩ := List.mem_iff_getElem.1 hv
  have := h .two i
  simp only [isValveOpen, List.getElem?_eq_getElem hi, Option.map_some, Option.getD_some] at this
  rw [← he]; exact this

/-- The driver in the cycle in which firing begins. -/
theorem firing_drv (c : Ctl) (e : PropEnv) (h0 : c.state = Prp.awaitFiring) (h : (c.execute e).state = Prp.firing) :
    (c.execute e).drv = (c.drv.setSchedule [c.v1, c.v2, c.v3, c.v4]).2.startFiring.2 ∧ (c.execute e).firings = c.firings + 1 := by
  obtain ⟨f, k, _, hk, he⟩ := execute_eq c e
  have hev : ({ c with faults := f, countdown := k } : Ctl).evaluate e = ({ c with faults := f, countdown := k } : Ctl).evalAwaitFiring e := by
    unfold evaluate
    dsimp only
    rw [h0]
    rfl
  rw [hev] at he
  rw [he] at h ⊢
  rcases evalAwaitFiring_cases { c with faults := f, countdown := k } e with ⟨f', n, h1, h2, _⟩ | ⟨f', _, _, h1⟩
  · rw [h1] at h
    exact absurd (transition_firing _ _ _ h) h2
  · rw [h1] at h ⊢
    show (Ctl.transition { c with faults := f', countdown := k, drv := (c.drv.setSchedule [c.v1, c.v2, c.v3, c.v4]).2 } e Prp.firing).drv = _ ∧ _
    have h' : (Ctl.transition { c with faults := f', countdown := k, drv := (c.drv.setSchedule [c.v1, c.v2, c.v3, c.v4]).2 } e Prp.firing).state = Prp.firing := h
    rcases transition_cases { c with faults := f', countdown := k, drv := (c.drv.setSchedule [c.v1, c.v2, c.v3, c.v4]).2 } e Prp.firing with
      ⟨g, _⟩ | ⟨_, f2, _, g⟩ | ⟨_, f2, _, g⟩
    · exact absurd (g.trans h0) (by decide)
    · rw [g] at h'; exact absurd h' (by show Prp.disabled ≠ Prp.firing; decide)
    · show _ ∧ (Ctl.transition { c with faults := f', countdown := k, drv := (c.drv.setSchedule [c.v1, c.v2, c.v3, c.v4]).2 } e Prp.firing).firings = _
      rw [g]; exact ⟨rfl, rfl⟩

end Ctl

/-- C41 (partial: commanded durations below 1000 ms; the controller also arms 1000 ms): after any disciplined history from
construction, a cycle that begins firing has started the valve timer with the commanded schedule: if the timer then runs
to the end, each thrust valve is open for its commanded duration rounded down to a multiple of 3 ms, durations below 10 ms
being dropped. -/
theorem C41_fires_as_commanded_partial (p t2 t1 : Rat) (ys : List PropCycle) (y : PropCycle)
    (hd : DisciplinedRun (Ctl.init p t2 t1) ys) (hy : Disciplined ((Ctl.init p t2 t1).run ys) y)
    (h0 : (((Ctl.init p t2 t1).run ys).beforeExecute y).state ≠ Prp.firing)
    (h : (((Ctl.init p t2 t1).run ys).cycle y).state = Prp.firing)
    (hlt : ∀ j, j < 4 → (commanded (((Ctl.init p t2 t1).run ys).beforeExecute y) j).toNat < 1000) :
    (((Ctl.init p t2 t1).run ys).cycle y).drv.enabled = true ∧
    ∀ j, j < 4 → ∀ n, 1336 ≤ n → openMs (((Ctl.init p t2 t1).run ys).cycle y).drv j n =
      if 10 ≤ (commanded (((Ctl.init p t2 t1).run ys).beforeExecute y) j).toNat
      then (commanded (((Ctl.init p t2 t1).run ys).beforeExecute y) j).toNat / 3 * 3 else 0 := by
  have hi := run_inv ys _ (init_inv p t2 t1) hd
  generalize (Ctl.init p t2 t1).run ys = c at *
  have hp := preInv_of_inv c y hi hy
  have hst := (C37_firing_entry _ y.env h0 h).1
  have hi' : Inv (c.beforeExecute y) := hp.2.resolve_left (by rw [hst]; decide)
  have hsafe := safe_of_inv hi' (by rw [hst]; decide) (by rw [hst]; decide) (by rw [hst]; decide) (by rw [hst]; decide)
    (by rw [hst]; decide)
  obtain ⟨hdrv, _⟩ := firing_drv _ y.env hst h
  have hdrv' : (c.cycle y).drv = _ := hdrv
  rw [hdrv']
  generalize c.beforeExecute y = b at *
  obtain ⟨d1, d2, g1, g2, g3⟩ := C41_driver_executes_partial b.drv hsafe.2.2.1 hsafe.1.2.1 (mem_closed _ hsafe.2.1)
    [b.v1, b.v2, b.v3, b.v4] rfl (by
      intro x hx
      simp only [List.mem_cons, List.not_mem_nil, or_false] at hx
      rcases hx with rfl | rfl | rfl | rfl
      · exact hlt 0 (by omega)
      · exact hlt 1 (by omega)
      · exact hlt 2 (by omega)
      · exact hlt 3 (by omega))
  rw [g1]
  dsimp only
  rw [g2]
  dsimp only
  refine ⟨?_, fun j hj n hn => ?_⟩
  · have : d1.enabled = false := by
      have := setSchedule_enabled b.drv [b.v1, b.v2, b.v3, b.v4]
      rw [g1] at this
      exact this.trans hsafe.2.2.1
    unfold startFiring at g2
    rw [this] at g2
    simp only [Bool.false_eq_true, if_false, Prod.mk.injEq, true_and] at g2
    rw [← g2]
  · match j, hj with
    | 0, _ => exact g3 0 _ rfl n hn
    | 1, _ => exact g3 1 _ rfl n hn
    | 2, _ => exact g3 2 _ rfl n hn
    | 3, _ => exact g3 3 _ rfl n hn

/-- C41: an armed controller does begin firing when the countdown expires, if the hardware is functional and no propulsion
fault is tripped. -/
theorem C41_fires_on_time (c : Ctl) (e : PropEnv) (hs : c.state = Prp.awaitFiring) (hc : c.countdown.toNat ≤ 1)
    (hf : e.functional = true) (hn : ¬ SomeFault (c.checkFaults e.cc).faults) : (c.execute e).state = Prp.firing := by
  obtain ⟨f, k, hff, hk, he⟩ := execute_eq c e
  have hev : ({ c with faults := f, countdown := k } : Ctl).evaluate e = ({ c with faults := f, countdown := k } : Ctl).evalAwaitFiring e := by
    unfold evaluate
    dsimp only
    rw [hs]
    rfl
  have hk0 : k = 0 := by
    apply BitVec.eq_of_toNat_eq
    show k.toNat = 0
    omega
  have hany : f.any = false := by
    cases ha : f.any with
    | false => rfl
    | true => rw [← hff] at hn; exact absurd ((any_iff f).1 ha) hn
  have hev2 : ({ c with faults := f, countdown := k } : Ctl).evalAwaitFiring e =
      (Prp.firing, { c with faults := f.pollAll, countdown := k, drv := (c.drv.setSchedule [c.v1, c.v2, c.v3, c.v4]).2 }) := by
    unfold evalAwaitFiring
    rw [canEnter_fault { c with faults := f, countdown := k } e (by show c.state ≠ _; rw [hs]; decide)]
    dsimp only
    rw [hany, Bool.and_false, if_neg Bool.false_ne_true, if_pos hk0]
  rw [he, hev, hev2]
  show (Ctl.transition { c with faults := f.pollAll, countdown := k, drv := (c.drv.setSchedule [c.v1, c.v2, c.v3, c.v4]).2 } e Prp.firing).state = _
  unfold transition
  rw [if_neg (by show Prp.firing ≠ c.state; rw [hs]; decide)]
  have hce : Ctl.canEnter { c with faults := f.pollAll, countdown := k, drv := (c.drv.setSchedule [c.v1, c.v2, c.v3, c.v4]).2 } e Prp.firing =
      (decide (c.state = Prp.awaitFiring) && decide (k = 0) && e.functional, { c with faults := f.pollAll, countdown := k, drv := (c.drv.setSchedule [c.v1, c.v2, c.v3, c.v4]).2 }) := rfl
  rw [hce, hs, hk0, hf]
  rfl

/-! ### A whole manoeuvre -/

set_option maxRecDepth 20000

namespace ArmExample

/-- A cycle with a pressure reading. -/
def cyc (cc : U32) (p : Rat) (fn : Bool) (ws : List PropWrite) : PropCycle :=
  { ticks1 := 10, writes := ws, ticks2 := 20, env := { cc, functional := fn, pressure := p, temp2 := 20, temp1 := 20 } }

/-- Leaving startup, a manoeuvre with fourth duration `v` commanded 8 cycles ahead, tank 2 filled to 26 psi. -/
def upToFiring (v : U32) : List PropCycle :=
  [cyc 1 10 true [.state Prp.idle], cyc 2 10 true [.sched 400 5 200 v, .countdown 8], cyc 3 26 true [], cyc 4 26 true [],
   cyc 5 26 true [], cyc 6 26 true [], cyc 7 26 true [], cyc 8 26 true []]

/-- Just before firing. -/
def armed (v : U32) : Ctl := (Ctl.init 10 20 20).run (upToFiring v)

theorem disciplined (v : U32) : DisciplinedRun (Ctl.init 10 20 20) (upToFiring v) := by
  refine ⟨?_, ?_, ?_, ?_, ?_, ?_, ?_, ?_, trivial⟩
  · intro x hx
    right
    exact ⟨by decide, (by decide : ∀ v ∈ (Ctl.init 10 20 20).drv.tank2, v.sched = 0)⟩
  · intro x hx; simp [cyc] at hx
  · intro x hx; simp [cyc] at hx
  · intro x hx; simp [cyc] at hx
  · intro x hx; simp [cyc] at hx
  · intro x hx; simp [cyc] at hx
  · intro x hx; simp [cyc] at hx
  · intro x hx; simp [cyc] at hx

-- Non-vacuity of C37 and C41: the manoeuvre reaches firing, from awaiting firing, and the interrupts then open thrust valves.
example : (armed 999).state = Prp.awaitFiring ∧ ((armed 999).cycle (cyc 9 26 true [])).state = Prp.firing ∧
    ((armed 999).cycle (cyc 9 26 true [])).drv.enabled = true ∧
    ValveOpen (((armed 999).cycle (cyc 9 26 true [])).interrupts 2) .two 2 ∧
    (((armed 999).cycle (cyc 9 26 true [])).drv.tank2.map (·.sched)) = [400, 0, 200, 999] := by decide +kernel

-- The firing lasts over several control cycles and ends in idle with everything closed.
example : ((armed 50).run [cyc 9 26 true [], cyc 10 26 true [], cyc 11 26 true [], cyc 12 26 true [], cyc 13 26 true []]).state = Prp.firing ∧
    ((armed 50).run [cyc 9 26 true [], cyc 10 26 true [], cyc 11 26 true [], cyc 12 26 true [], cyc 13 26 true [],
      { cyc 14 26 true [] with ticks1 := 200 }]).state = Prp.idle := by decide +kernel

-- Non-vacuity of the other cases of C37: venting tank 2 and manual mode open thrust valves.
example : Opens (((Ctl.init 10 20 20).cycle (cyc 1 10 true [.state Prp.manual, .sched 0 1 0 0])).beforeExecute (cyc 2 10 true [.sched 1 1 0 0]))
    (cyc 2 10 true []).env .two 0 := by decide +kernel

example : let c := (Ctl.init 10 20 20).run [cyc 1 10 true [.state Prp.idle, .fault .temp2 (.setOverride true)], cyc 2 10 true []]
    c.state = Prp.venting ∧ c.choice = .two ∧ Opens (c.beforeExecute (cyc 4 10 true [])) (cyc 4 10 true []).env .two 0 := by decide +kernel

-- Non-vacuity of C39: disabling in the middle of a firing.
example : let c := (armed 999).run [cyc 9 26 true [], cyc 10 26 true []]
    ValveOpen c .two 0 ∧ (c.beforeExecute (cyc 11 26 true [.state Prp.disabled])).state = Prp.disabled ∧
    ¬ ValveOpen (c.cycle (cyc 11 26 true [.state Prp.disabled])) .two 0 := by decide +kernel

end ArmExample
open ArmExample

/-- C39 does not hold in full: when firing is refused because the hardware is not functional, the controller ends the cycle
disabled with the schedule still in the driver. (It is cleared in the next cycle, by `C39_disabled`.) -/
theorem C39_counterexample_refused_firing : ∃ (ys : List PropCycle) (y : PropCycle),
    DisciplinedRun (Ctl.init 10 20 20) ys ∧ (∀ x, PropWrite.state x ∉ y.writes) ∧
    (((Ctl.init 10 20 20).run ys).cycle y).state = Prp.disabled ∧ ¬ Cleared (((Ctl.init 10 20 20).run ys).cycle y) := by
  refine ⟨upToFiring 999, cyc 9 26 false [], disciplined 999, nofun, by decide +kernel, ?_⟩
  show ¬ ∀ v ∈ ((armed 999).cycle (cyc 9 26 false [])).drv.tank2, v.sched = 0
  decide +kernel

/-- C41 does not hold in full: the controller validates and arms a schedule with a duration of 1000 ms, which the driver
refuses, so that the controller fires with an empty schedule. -/
theorem C41_counterexample_1000 : ∃ (ys : List PropCycle) (y : PropCycle),
    DisciplinedRun (Ctl.init 10 20 20) ys ∧ y.writes = [] ∧
    ((Ctl.init 10 20 20).run ys).state = Prp.awaitFiring ∧ ScheduleOk ((Ctl.init 10 20 20).run ys) ∧
    commanded ((Ctl.init 10 20 20).run ys) 0 = 400 ∧ commanded ((Ctl.init 10 20 20).run ys) 3 = 1000 ∧
    (((Ctl.init 10 20 20).run ys).cycle y).state = Prp.firing ∧ (((Ctl.init 10 20 20).run ys).cycle y).firings = 1 ∧
    ∀ n j, openMs (((Ctl.init 10 20 20).run ys).cycle y).drv j n = 0 := by
  refine ⟨upToFiring 1000, cyc 9 26 true [], disciplined 1000, rfl, by decide +kernel, by decide +kernel, by decide +kernel, by decide +kernel,
    by decide +kernel, by decide +kernel, ?_⟩
  have hd : (((Ctl.init 10 20 20).run (upToFiring 1000)).cycle (cyc 9 26 true [])).drv = { Driver.init with enabled := true } := by decide +kernel
  rw [hd]
  have ht : ∀ n, ({ Driver.init with enabled := true } : Driver).ticks n = { Driver.init with enabled := true } := by
    intro n
    induction n with
    | zero => rfl
    | succ n ih =>
      show Driver.tick (Driver.ticks _ n) = _
      rw [ih]; decide
  intro n j
  induction n with
  | zero => rfl
  | succ n ih =>
    unfold openMs
    rw [ih, if_neg]
    unfold openAfter
    rw [ht]
    rintro ⟨v, hv, ho⟩
    have hv' : (List.replicate 4 (⟨0, false⟩ : Valve))[j]? = some v := hv
    rw [List.getElem?_replicate] at hv'
    split at hv'
    · cases hv'; cases ho
    · cases hv'

end PAN
