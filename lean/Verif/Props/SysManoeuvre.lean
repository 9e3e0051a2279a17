import Verif.Props.SysProp
import Verif.Props.Manoeuvre

/-!
C132: a manoeuvre planned by the orbit controller, in the flight software. C115 says when a manoeuvre commanded to the propulsion
controller is flown; here the commands come from the orbit controller, which runs in every cycle, and the mission manager, the fault
handlers and the power controller run between them.
-/
namespace PAN
namespace Spec

variable {L : Orb.Lib}

/-- What the other tasks and the ground do between two cycles leaves the manoeuvre alone (`Harmless`), and does not command startup. -/
def LeavesManoeuvre (x : SysStep L) : Prop := ∀ s : Sys L,
  ((x.others s).mm.fh.mission = Mission.startup → s.mm.fh.mission = Mission.startup) ∧
  ∃ ws, (x.others s).mm.fh.ctl = s.mm.fh.ctl.writes ws ∧ ∀ w ∈ ws, Harmless w

/-- A cycle of the flight software from `s` to `s'` in which nothing happens to a manoeuvre: nobody interferes, no fault sends the
satellite to safehold, the thrusters have power, the durations planned are at most a second, and no propulsion fault is being handled
after it. -/
structure CalmCycle (ρ : Orb.Rounding) (s : Sys L) (x : SysStep L) (s' : Sys L) : Prop where
  runs : ∃ msgs, (x.others s).cycle ρ x.inp = some (s', msgs)
  leaves : LeavesManoeuvre x
  noSafehold : ¬ SafeholdFault (x.others s).mm x.inp.mm.cc
  power : s'.dcdc.sph = true
  durations : ScheduleOk s'.mm.fh.ctl
  noFault : s'.mm.fh.ctl.state ≠ Prp.handlingFault

/-- A history of such cycles, each with the state it ends in. -/
def CalmHistory (ρ : Orb.Rounding) : Sys L → List (SysStep L × Sys L) → Prop
  | _, [] => True
  | s, (x, t) :: r => CalmCycle ρ s x t ∧ CalmHistory ρ t r

/-- The state at the end of a history. -/
def ends : Sys L → List (SysStep L × Sys L) → Sys L
  | s, [] => s
  | _, (_, t) :: r => ends t r

end Spec
open Spec Ctl

theorem harmless_writes (ws : List PropWrite) : ∀ (c : Ctl), (∀ w ∈ ws, Harmless w) →
    (c.writes ws).state = c.state ∧ (c.writes ws).countdown = c.countdown := by
  induction ws with
  | nil => intro c _; exact ⟨rfl, rfl⟩
  | cons w ws ih =>
    intro c h
    obtain ⟨a, b⟩ := ih (c.write w) (fun v hv => h v (by simp [hv]))
    have hw := h w (by simp)
    have e : (c.write w).state = c.state ∧ (c.write w).countdown = c.countdown := by
      cases w with
      | fault i op => cases i <;> exact ⟨rfl, rfl⟩
      | inter => exact ⟨rfl, rfl⟩
      | maxVent => exact ⟨rfl, rfl⟩
      | closePeriod => exact ⟨rfl, rfl⟩
      | tank1Valve => exact ⟨rfl, rfl⟩
      | sched => exact ⟨rfl, rfl⟩
      | _ => exact hw.elim
    exact ⟨a.trans e.1, b.trans e.2⟩

variable {L : Orb.Lib}

/-- What a quiet cycle does to the propulsion controller. -/
theorem quiet_base {ρ : Orb.Rounding} {s s' : Sys L} {x : SysStep L} (h : CalmCycle ρ s x s') (hm : s.mm.fh.mission ≠ Mission.startup)
    (hs : s.mm.fh.ctl.state ≠ Prp.handlingFault) : ∃ ws n a b d e,
    s'.mm.fh.ctl = s.mm.fh.ctl.cycle ⟨x.inp.ticks1, ws ++ [.countdown n, .sched a b d e], x.inp.ticks2,
      ⟨x.inp.mm.cc, true, x.inp.pressure, x.inp.temp2, x.inp.temp1⟩⟩ ∧
    (∀ w ∈ ws, Harmless w) ∧ Harmless (.sched a b d e) ∧ (n ≠ s.mm.fh.ctl.countdown → s.mm.fh.ctl.state = Prp.idle) ∧
    s'.mm.fh.mission ≠ Mission.startup := by
  obtain ⟨msgs, hc⟩ := h.runs
  obtain ⟨g1, ws0, k1, k2⟩ := h.leaves s
  obtain ⟨ws, n, a, b, d, e, h1, h2, h3, -, h4, h5⟩ := cycle_writes ρ _ _ _ _ hc
  obtain ⟨q1, q2⟩ := harmless_writes ws0 s.mm.fh.ctl k2
  have hns : ∀ v, PropWrite.state v ∉ ws := by
    intro v hv
    rcases h4 ⟨v, hv⟩ with r | r | r
    · exact h.noSafehold r
    · exact hm (g1 r)
    · have := r.2.2
      rw [k1, q1] at this
      exact hs this
  have hws : ∀ w ∈ ws, Harmless w := by
    intro w hw
    rcases h2 w hw with ⟨i, rfl⟩ | ⟨v, rfl⟩ | ⟨v, rfl⟩
    · exact trivial
    · exact trivial
    · exact absurd hw (hns v)
  have hall : ∀ w ∈ ws0 ++ ws, Harmless w := fun w hw => (List.mem_append.mp hw).elim (k2 w) (hws w)
  have heq : s'.mm.fh.ctl = s.mm.fh.ctl.cycle ⟨x.inp.ticks1, (ws0 ++ ws) ++ [.countdown n, .sched a b d e], x.inp.ticks2,
      ⟨x.inp.mm.cc, true, x.inp.pressure, x.inp.temp2, x.inp.temp1⟩⟩ := by
    rw [h1, k1, h.power]
    show ((((s.mm.fh.ctl.writes ws0).interrupts x.inp.ticks1).writes (ws ++ _)).interrupts x.inp.ticks2).execute _ =
      (((s.mm.fh.ctl.interrupts x.inp.ticks1).writes ((ws0 ++ ws) ++ _)).interrupts x.inp.ticks2).execute _
    rw [writes_interrupts ws0 s.mm.fh.ctl, ← writes_append, List.append_assoc]
  refine ⟨ws0 ++ ws, n, a, b, d, e, heq, hall, ?_, ?_, fun r => hm (g1 (h5 r))⟩
  · obtain ⟨st, k, f, p, v, t, sv, dd, nn, hk, he⟩ := execute_frame (s.mm.fh.ctl.beforeExecute
      ⟨x.inp.ticks1, (ws0 ++ ws) ++ [.countdown n, .sched a b d e], x.inp.ticks2, ⟨x.inp.mm.cc, true, x.inp.pressure, x.inp.temp2, x.inp.temp1⟩⟩)
      ⟨x.inp.mm.cc, true, x.inp.pressure, x.inp.temp2, x.inp.temp1⟩
    have he' : s'.mm.fh.ctl = _ := heq.trans he
    have hd := h.durations
    rw [he'] at hd
    have hb : s.mm.fh.ctl.beforeExecute ⟨x.inp.ticks1, (ws0 ++ ws) ++ [.countdown n, .sched a b d e], x.inp.ticks2,
        ⟨x.inp.mm.cc, true, x.inp.pressure, x.inp.temp2, x.inp.temp1⟩⟩ =
        (((s.mm.fh.ctl.interrupts x.inp.ticks1).writes (ws0 ++ ws)).writes [.countdown n, .sched a b d e]).interrupts x.inp.ticks2 := by
      show ((s.mm.fh.ctl.interrupts x.inp.ticks1).writes ((ws0 ++ ws) ++ _)).interrupts x.inp.ticks2 = _
      rw [writes_append]
    rw [hb] at hd
    exact hd
  · intro hn
    have e1 : (((x.others s).mm.fh.ctl.interrupts x.inp.ticks1).writes ws) = (s.mm.fh.ctl.interrupts x.inp.ticks1).writes (ws0 ++ ws) := by
      rw [k1, writes_interrupts ws0 s.mm.fh.ctl, ← writes_append]
    rw [e1] at h3
    obtain ⟨r1, r2⟩ := harmless_writes (ws0 ++ ws) (s.mm.fh.ctl.interrupts x.inp.ticks1) hall
    rw [r1, r2] at h3
    exact (h3 hn).1

theorem same_countdown (c : Ctl) (ws : List PropWrite) (n a b d e : U32) (h : n = (c.writes ws).countdown) :
    c.writes (ws ++ [.countdown n, .sched a b d e]) = c.writes (ws ++ [.sched a b d e]) := by
  rw [writes_append, writes_append, h]
  rfl

/-- In a quiet cycle of a manoeuvre under way nothing disturbs the propulsion controller. -/
theorem quiet_step {ρ : Orb.Rounding} {s s' : Sys L} {x : SysStep L} (h : CalmCycle ρ s x s') (hm : s.mm.fh.mission ≠ Mission.startup)
    (hok : ScheduleOk s.mm.fh.ctl) (hs : s.mm.fh.ctl.state = Prp.awaitPressurizing ∨ s.mm.fh.ctl.state = Prp.awaitFiring ∨
      (s.mm.fh.ctl.state = Prp.pressurizing ∧ 2 < s.mm.fh.ctl.countdown.toNat)) :
    ∃ y, s'.mm.fh.ctl = s.mm.fh.ctl.cycle y ∧ Undisturbed s.mm.fh.ctl y ∧ s'.mm.fh.mission ≠ Mission.startup := by
  have hne : s.mm.fh.ctl.state ≠ Prp.handlingFault ∧ s.mm.fh.ctl.state ≠ Prp.idle := by
    rcases hs with g | g | ⟨g, -⟩ <;> rw [g] <;> decide
  obtain ⟨ws, n, a, b, d, e, h1, h2, h3, h4, h5⟩ := quiet_base h hm hne.1
  have hn : n = s.mm.fh.ctl.countdown := by
    by_contra hn
    exact hne.2 (h4 hn)
  have hall : ∀ w ∈ ws ++ [.sched a b d e], Harmless w := fun w hw =>
    (List.mem_append.mp hw).elim (h2 w) (fun hw => by rw [List.mem_singleton] at hw; rw [hw]; exact h3)
  have heq : s'.mm.fh.ctl = s.mm.fh.ctl.cycle ⟨x.inp.ticks1, ws ++ [.sched a b d e], x.inp.ticks2,
      ⟨x.inp.mm.cc, true, x.inp.pressure, x.inp.temp2, x.inp.temp1⟩⟩ := by
    rw [h1]
    unfold Ctl.cycle Ctl.beforeExecute
    dsimp only
    rw [same_countdown _ ws n a b d e (hn.trans (harmless_writes ws (s.mm.fh.ctl.interrupts x.inp.ticks1) h2).2.symm)]
  obtain ⟨b1, b2, -⟩ := harmless_before (c := s.mm.fh.ctl) (y := ⟨x.inp.ticks1, ws ++ [.sched a b d e], x.inp.ticks2,
      ⟨x.inp.mm.cc, true, x.inp.pressure, x.inp.temp2, x.inp.temp1⟩⟩) hall hok
  refine ⟨_, heq, ⟨hall, rfl, fun hf => h.noFault ?_⟩, h5⟩
  rw [heq]
  refine C30_fault_detected _ _ rfl hf ?_
  rw [b1, b2]
  rcases hs with g | g | g
  · exact Or.inr (Or.inl g)
  · exact Or.inr (Or.inr (Or.inl g))
  · exact Or.inr (Or.inr (Or.inr (Or.inr g)))

/-- A quiet history is an undisturbed one for the propulsion controller. -/
def Follows (s : Sys L) (tr : List (SysStep L × Sys L)) : Prop := ∃ ys : List PropCycle, ys.length = tr.length ∧ UndisturbedRun s.mm.fh.ctl ys ∧
  ∀ i ≤ tr.length, (ends s (tr.take i)).mm.fh.ctl = s.mm.fh.ctl.run (ys.take i)

theorem Follows.cons {s t : Sys L} {x : SysStep L} {r : List (SysStep L × Sys L)} {y : PropCycle} (h1 : t.mm.fh.ctl = s.mm.fh.ctl.cycle y)
    (h2 : Undisturbed s.mm.fh.ctl y) (h3 : Follows t r) : Follows s ((x, t) :: r) := by
  obtain ⟨ys, a, b, d⟩ := h3
  refine ⟨y :: ys, by simp [a], ⟨h2, by rw [← h1]; exact b⟩, ?_⟩
  intro i hi
  cases i with
  | zero => rfl
  | succ i =>
    rw [List.length_cons] at hi
    show (ends t (r.take i)).mm.fh.ctl = (s.mm.fh.ctl.cycle y).run (ys.take i)
    rw [← h1]
    exact d i (by omega)

theorem armed_follows {ρ : Orb.Rounding} : ∀ {tr : List (SysStep L × Sys L)} {s : Sys L}, CalmHistory ρ s tr →
    s.mm.fh.mission ≠ Mission.startup → ScheduleOk s.mm.fh.ctl → s.mm.fh.ctl.state = Prp.awaitFiring →
    tr.length ≤ s.mm.fh.ctl.countdown.toNat → Follows s tr := by
  intro tr
  induction tr with
  | nil => intro s _ _ _ _ _; exact ⟨[], rfl, trivial, fun i _ => by simp [ends, Ctl.run]⟩
  | cons p r ih =>
    intro s h hm hok hs hl
    obtain ⟨x, t⟩ := p
    obtain ⟨y, a, b, d⟩ := quiet_step h.1 hm hok (Or.inr (Or.inl hs))
    obtain ⟨e1, e2, -⟩ := undisturbed_keeps b hok
    rw [List.length_cons] at hl
    refine Follows.cons a b ?_
    cases r with
    | nil => exact ⟨[], rfl, trivial, fun i _ => by simp [ends, Ctl.run]⟩
    | cons q r =>
      rw [List.length_cons] at hl
      obtain ⟨b1, b2, -⟩ := harmless_before b.writes hok
      refine ih h.2 d (by rw [a]; exact e1) ?_ (by rw [a, e2, List.length_cons]; omega)
      rw [a]
      exact armed_step (s.mm.fh.ctl.beforeExecute y) y.env (b1.trans hs) (by rw [b2]; omega) b.healthy

/-- One quiet cycle of a manoeuvre that is waiting for its tank, with time to spare. -/
theorem pending_step {ρ : Orb.Rounding} {s t : Sys L} {x : SysStep L} (h : CalmCycle ρ s x t) (hm : s.mm.fh.mission ≠ Mission.startup)
    (hok : ScheduleOk s.mm.fh.ctl) (hs : s.mm.fh.ctl.state = Prp.awaitPressurizing ∨ s.mm.fh.ctl.state = Prp.pressurizing)
    (h3 : 3 ≤ s.mm.fh.ctl.countdown.toNat) :
    ∃ y, t.mm.fh.ctl = s.mm.fh.ctl.cycle y ∧ Undisturbed s.mm.fh.ctl y ∧ t.mm.fh.mission ≠ Mission.startup ∧
      (t.mm.fh.ctl.state = Prp.awaitPressurizing ∨ t.mm.fh.ctl.state = Prp.pressurizing ∨ t.mm.fh.ctl.state = Prp.awaitFiring) ∧
      (s.mm.fh.ctl.state = Prp.pressurizing → s.mm.fh.ctl.threshold ≤ s.mm.fh.ctl.pressure → t.mm.fh.ctl.state = Prp.awaitFiring) := by
  obtain ⟨y, a, b, d⟩ := quiet_step h hm hok (hs.elim Or.inl fun g => Or.inr (Or.inr ⟨g, h3⟩))
  obtain ⟨b1, b2, b3, -, -, -, b7, b8, -⟩ := harmless_before b.writes hok
  have a' : t.mm.fh.ctl = (s.mm.fh.ctl.beforeExecute y).execute y.env := a
  refine ⟨y, a, b, d, ?_, ?_⟩
  · rcases hs with g | g
    · obtain ⟨-, w1, w2⟩ := waiting_step (s.mm.fh.ctl.beforeExecute y) y.env (Or.inr (b1.trans g)) b3 (by rw [b2]; exact h3) b.functional b.healthy
      rw [← a'] at w1 w2
      by_cases hle : (s.mm.fh.ctl.beforeExecute y).countdown.toNat - 1 ≤ ((s.mm.fh.ctl.beforeExecute y).minCycles - 1).toNat
      · exact Or.inr (Or.inl (w1 hle).1)
      · exact Or.inl (w2 hle)
    · obtain ⟨-, w⟩ := filling_step (s.mm.fh.ctl.beforeExecute y) y.env (b1.trans g) b3 (by rw [b2]; exact h3) b.functional b.healthy
      rw [← a'] at w
      rcases w with w | w | w
      · exact Or.inr (Or.inr w)
      · exact Or.inr (Or.inl w.1)
      · exact absurd w.1 h.noFault
  · intro g hp
    rw [a']
    exact (filling_step (s.mm.fh.ctl.beforeExecute y) y.env (b1.trans g) b3 (by rw [b2]; exact h3) b.functional b.healthy).1 (by rw [b7, b8]; exact hp)

theorem pending_follows {ρ : Orb.Rounding} : ∀ {tr : List (SysStep L × Sys L)} {s : Sys L} (j : ℕ), CalmHistory ρ s tr →
    s.mm.fh.mission ≠ Mission.startup → ScheduleOk s.mm.fh.ctl →
    s.mm.fh.ctl.state = Prp.awaitPressurizing ∨ s.mm.fh.ctl.state = Prp.pressurizing → tr.length ≤ s.mm.fh.ctl.countdown.toNat →
    j + 3 ≤ tr.length → (ends s (tr.take j)).mm.fh.ctl.state = Prp.pressurizing →
    (ends s (tr.take j)).mm.fh.ctl.threshold ≤ (ends s (tr.take j)).mm.fh.ctl.pressure → Follows s tr := by
  intro tr
  induction tr with
  | nil => intro s j _ _ _ _ _ hj; rw [List.length_nil] at hj; omega
  | cons p r ih =>
    intro s j h hm hok hs hl hj hf hp
    obtain ⟨x, t⟩ := p
    rw [List.length_cons] at hl hj
    obtain ⟨y, a, b, d, e, f⟩ := pending_step h.1 hm hok hs (by omega)
    obtain ⟨e1, e2, -⟩ := undisturbed_keeps b hok
    refine Follows.cons a b ?_
    have hl' : r.length ≤ t.mm.fh.ctl.countdown.toNat := by rw [a, e2]; omega
    have hok' : ScheduleOk t.mm.fh.ctl := by rw [a]; exact e1
    cases j with
    | zero => exact armed_follows h.2 d hok' (f hf hp) hl'
    | succ j =>
      rcases e with e | e | e
      · exact ih j h.2 d hok' (Or.inl e) hl' (by omega) hf hp
      · exact ih j h.2 d hok' (Or.inr e) hl' (by omega) hf hp
      · exact armed_follows h.2 d hok' e hl'

/-! ### C132 -/

/-- C132. A manoeuvre planned while the propulsion system is idle is accepted in the same cycle, if it is at least three cycles ahead
when the orbit controller is through. -/
theorem C132_accepted (ρ : Orb.Rounding) (s s' : Sys L) (x : SysStep L) (h : CalmCycle ρ s x s') (hm : s.mm.fh.mission ≠ Mission.startup)
    (hs : s.mm.fh.ctl.state = Prp.idle) (hn : 2 ≤ s'.mm.fh.ctl.countdown.toNat) :
    (s'.mm.fh.ctl.state = Prp.awaitPressurizing ∨ s'.mm.fh.ctl.state = Prp.pressurizing) ∧ s'.mm.fh.mission ≠ Mission.startup := by
  obtain ⟨ws, n, a, b, d, e, h1, h2, h3, h4, h5⟩ := quiet_base h hm (by rw [hs]; decide)
  refine ⟨?_, h5⟩
  obtain ⟨Y, hY⟩ : ∃ Y : PropCycle, Y = ⟨x.inp.ticks1, ws ++ [.countdown n, .sched a b d e], x.inp.ticks2,
      ⟨x.inp.mm.cc, true, x.inp.pressure, x.inp.temp2, x.inp.temp1⟩⟩ := ⟨_, rfl⟩
  rw [← hY] at h1
  have hf : Y.env.functional = true := by rw [hY]
  have hst : (s.mm.fh.ctl.beforeExecute Y).state = Prp.idle := by
    rw [← hs]
    refine beforeExecute_state _ _ ?_
    intro v hv
    rw [hY] at hv
    rcases List.mem_append.mp hv with hv | hv
    · exact h2 _ hv
    · simp at hv
  have h1' : s'.mm.fh.ctl = (s.mm.fh.ctl.beforeExecute Y).execute Y.env := h1
  obtain ⟨st, k, f, p, v, t, sv, dd, nn, hk, he⟩ := execute_frame (s.mm.fh.ctl.beforeExecute Y) Y.env
  have hcd : s'.mm.fh.ctl.countdown.toNat = (s.mm.fh.ctl.beforeExecute Y).countdown.toNat - 1 := by rw [h1', he]; exact hk
  have hok : ScheduleOk (s.mm.fh.ctl.beforeExecute Y) := by
    have := h.durations
    rw [h1', he] at this
    exact this
  have hheal : ¬ SomeFault ((s.mm.fh.ctl.beforeExecute Y).checkFaults Y.env.cc).faults := by
    intro hsf
    refine h.noFault ?_
    rw [h1']
    exact C30_fault_detected _ _ hf hsf (Or.inl hst)
  obtain ⟨-, w1, w2⟩ := waiting_step (s.mm.fh.ctl.beforeExecute Y) Y.env (Or.inl hst) hok (by omega) hf hheal
  rw [← h1'] at w1 w2
  by_cases hle : (s.mm.fh.ctl.beforeExecute Y).countdown.toNat - 1 ≤ ((s.mm.fh.ctl.beforeExecute Y).minCycles - 1).toNat
  · exact Or.inr (w1 hle).1
  · exact Or.inl (w2 hle)

/-- C132. In the flight software, a manoeuvre under way is flown exactly when its countdown runs out, not earlier and not later, if the
cycles are quiet and at some time while the tank is being filled, with at least three cycles left, the pressure is sufficient: the orbit
controller, which goes on planning in every cycle, does not move it. -/
theorem C132_flown (ρ : Orb.Rounding) (s : Sys L) (tr : List (SysStep L × Sys L)) (h : CalmHistory ρ s tr)
    (hm : s.mm.fh.mission ≠ Mission.startup) (hok : ScheduleOk s.mm.fh.ctl)
    (hs : s.mm.fh.ctl.state = Prp.awaitPressurizing ∨ s.mm.fh.ctl.state = Prp.pressurizing) (hlen : tr.length = s.mm.fh.ctl.countdown.toNat)
    (j : ℕ) (hj : j + 3 ≤ tr.length) (hfill : (ends s (tr.take j)).mm.fh.ctl.state = Prp.pressurizing)
    (hp : (ends s (tr.take j)).mm.fh.ctl.threshold ≤ (ends s (tr.take j)).mm.fh.ctl.pressure) :
    (ends s tr).mm.fh.ctl.state = Prp.firing ∧ (∀ i < tr.length, (ends s (tr.take i)).mm.fh.ctl.state ≠ Prp.firing) ∧
      ∀ i ≤ tr.length, (ends s (tr.take i)).mm.fh.ctl.countdown.toNat = tr.length - i := by
  obtain ⟨ys, a, b, d⟩ := pending_follows j h hm hok hs hlen.le hj hfill hp
  have hd := d j (by omega)
  rw [hd] at hfill hp
  obtain ⟨f1, f2⟩ := C115_flown s.mm.fh.ctl ys b hok (by rcases hs with g | g <;> rw [g] <;> decide) (a.trans hlen) j (by omega) hfill hp
  refine ⟨?_, fun i hi => ?_, fun i hi => ?_⟩
  · have := d tr.length le_rfl
    rw [List.take_length, ← a, List.take_length] at this
    rw [this]; exact f1
  · rw [d i hi.le]; exact f2 i (by omega)
  · obtain ⟨k1, k2, -⟩ := run_keeps (undisturbed_take i b) hok
    rw [d i hi]
    rw [List.length_take, Nat.min_eq_left (by omega)] at k2
    omega

theorem ends_take {ρ : Orb.Rounding} : ∀ {tr : List (SysStep L × Sys L)} {s : Sys L} (i : ℕ), CalmHistory ρ s tr → 1 ≤ i → i ≤ tr.length →
    (ends s (tr.take i)).mm.fh.ctl.state ≠ Prp.handlingFault := by
  intro tr
  induction tr with
  | nil => intro s i _ h1 h2; rw [List.length_nil] at h2; omega
  | cons p r ih =>
    intro s i h h1 h2
    obtain ⟨x, t⟩ := p
    rw [List.length_cons] at h2
    cases i with
    | zero => omega
    | succ i =>
      show (ends t (r.take i)).mm.fh.ctl.state ≠ _
      cases i with
      | zero => exact h.1.noFault
      | succ i => exact ih (i + 1) h.2 (by omega) (by omega)

theorem onTime_follows {ρ : Orb.Rounding} : ∀ {tr : List (SysStep L × Sys L)} {s : Sys L}, CalmHistory ρ s tr →
    s.mm.fh.mission ≠ Mission.startup → ScheduleOk s.mm.fh.ctl → s.mm.fh.ctl.state ≠ Prp.idle → cyclesNeeded s.mm.fh.ctl < 2 ^ 32 →
    1 ≤ s.mm.fh.ctl.fill.toNat → 1 ≤ s.mm.fh.ctl.cool.toNat → tr.length ≤ s.mm.fh.ctl.countdown.toNat → OnTime s.mm.fh.ctl → Follows s tr := by
  intro tr
  induction tr with
  | nil => intro s _ _ _ _ _ _ _ _ _; exact ⟨[], rfl, trivial, fun i _ => by simp [ends, Ctl.run]⟩
  | cons p r ih =>
    intro s h hm hok hs hN hf hc hl ho
    obtain ⟨x, t⟩ := p
    have go : (s.mm.fh.ctl.state = Prp.awaitPressurizing ∨ s.mm.fh.ctl.state = Prp.pressurizing) → 3 ≤ s.mm.fh.ctl.countdown.toNat →
        Follows s ((x, t) :: r) := by
      intro hst h3
      obtain ⟨y, a, b, d, e, -⟩ := pending_step h.1 hm hok hst h3
      obtain ⟨e1, e2, e3, e4, e5, -⟩ := undisturbed_keeps b hok
      have hN' : cyclesNeeded (s.mm.fh.ctl.cycle y) = cyclesNeeded s.mm.fh.ctl := by unfold cyclesNeeded; rw [e3, e4, e5]
      rw [List.length_cons] at hl
      refine Follows.cons a b ?_
      rcases onTime_step b hok hN hf hc (by omega) ho with g | g
      · refine ih h.2 d (by rw [a]; exact e1) (by rcases e with e | e | e <;> rw [e] <;> decide) (by rw [a, hN']; exact hN) (by rw [a, e4]; exact hf)
          (by rw [a, e5]; exact hc) (by rw [a, e2]; omega) (by rw [a]; exact g)
      · rw [← a] at g
        exact absurd g.1 h.1.noFault
    cases ho with
    | waiting hw hcl hn =>
      rcases hw with hw | hw
      · exact absurd hw hs
      · exact go (Or.inl hw) (by unfold cyclesNeeded at hn; omega)
    | filling hw hlt => exact go (Or.inr hw) (by unfold left at hlt; omega)
    | armed hw h1 => exact armed_follows h hm hok hw hl
    | firing hw h0 => rw [List.length_cons] at hl; omega

/-- C132. In the flight software, a manoeuvre accepted at least as many cycles ahead as all fillings of the tank take, with the valves of
the inner tank shut, is never dropped silently: in quiet cycles it is flown when the countdown runs out, and not before. -/
theorem C132_enough_time (ρ : Orb.Rounding) (s : Sys L) (tr : List (SysStep L × Sys L)) (h : CalmHistory ρ s tr)
    (hm : s.mm.fh.mission ≠ Mission.startup) (hok : ScheduleOk s.mm.fh.ctl) (hs : s.mm.fh.ctl.state = Prp.awaitPressurizing)
    (hshut : ∀ j, ¬ ValveOpen s.mm.fh.ctl .one j) (hN : cyclesNeeded s.mm.fh.ctl ≤ s.mm.fh.ctl.countdown.toNat)
    (hf : 1 ≤ s.mm.fh.ctl.fill.toNat) (hc : 1 ≤ s.mm.fh.ctl.cool.toNat) (hlen : tr.length = s.mm.fh.ctl.countdown.toNat) :
    (ends s tr).mm.fh.ctl.state = Prp.firing ∧ ∀ i < tr.length, (ends s (tr.take i)).mm.fh.ctl.state ≠ Prp.firing := by
  have hlt := s.mm.fh.ctl.countdown.isLt
  have ho : OnTime s.mm.fh.ctl := .waiting (.inr hs) (fun j => not_open_false (hshut j)) hN
  obtain ⟨ys, a, b, d⟩ := onTime_follows h hm hok (by rw [hs]; decide) (by omega) hf hc hlen.le ho
  refine ⟨?_, fun i hi => ?_⟩
  · have he := d tr.length le_rfl
    rw [List.take_length, ← a, List.take_length] at he
    rcases onTime_run b hok (by omega) hf hc (by omega) ho with g | ⟨i, hi, g, -⟩
    · obtain ⟨k1, k2, -⟩ := run_keeps b hok
      rw [he]
      cases g with
      | waiting _ _ hn => unfold cyclesNeeded at hn; omega
      | filling _ hl => omega
      | armed _ h1 => omega
      | firing hs _ => exact hs
    · rw [← d i (by omega)] at g
      cases i with
      | zero =>
        have g' : s.mm.fh.ctl.state = Prp.handlingFault := g
        rw [hs] at g'
        exact absurd g' (by decide)
      | succ i => exact absurd g (ends_take (i + 1) h (by omega) (by omega))
  · rw [d i hi.le]
    exact not_early (undisturbed_take i b) hok (by rw [hs]; decide) (by rw [List.length_take]; omega)

theorem disciplined_of_undisturbed : ∀ {ys : List PropCycle} {c : Ctl}, UndisturbedRun c ys → DisciplinedRun c ys := by
  intro ys
  induction ys with
  | nil => intro c _; trivial
  | cons y ys ih => intro c h; exact ⟨fun x hx => (h.1.writes _ hx).elim, ih h.2⟩

theorem disciplined_append (zs : List PropCycle) : ∀ {ys : List PropCycle} {c : Ctl}, DisciplinedRun c ys → DisciplinedRun (c.run ys) zs →
    DisciplinedRun c (ys ++ zs) := by
  intro ys
  induction ys with
  | nil => intro c _ h; exact h
  | cons y ys ih => intro c h h'; exact ⟨h.1, ih h.2 h'⟩

/-- C132 (partial: planned durations below 1000 ms; the controller also accepts 1000 ms, with which nothing is fired, see
`C41_counterexample_1000`). When the manoeuvre of `C132_flown` is flown, after any history since the computer started, the valve timer is
started with the durations the orbit controller has planned last: if it runs to the end, each thrust valve is open for its duration
rounded down to a multiple of 3 ms, durations below 10 ms being dropped. -/
theorem C132_as_planned_partial (ρ : Orb.Rounding) (m : L.Mem) (p t2 t1 : Rat) (a d : Bool) (xs : List (SysStep L))
    (hx : ∀ x ∈ xs, LeavesPropulsion x) (s : Sys L) (ms : List (List (List U8))) (h0 : srun ρ (Sys.init L m p t2 t1 a d) xs = some (s, ms))
    (tr : List (SysStep L × Sys L)) (h : CalmHistory ρ s tr) (hok : ScheduleOk s.mm.fh.ctl)
    (hs : s.mm.fh.ctl.state = Prp.awaitPressurizing ∨ s.mm.fh.ctl.state = Prp.pressurizing) (hlen : tr.length = s.mm.fh.ctl.countdown.toNat)
    (j : ℕ) (hj : j + 3 ≤ tr.length) (hfill : (ends s (tr.take j)).mm.fh.ctl.state = Prp.pressurizing)
    (hp : (ends s (tr.take j)).mm.fh.ctl.threshold ≤ (ends s (tr.take j)).mm.fh.ctl.pressure)
    (hlt : ∀ v, v < 4 → (commanded (ends s tr).mm.fh.ctl v).toNat < 1000) :
    (ends s tr).mm.fh.ctl.drv.enabled = true ∧
    ∀ v, v < 4 → ∀ n, 1336 ≤ n → openMs (ends s tr).mm.fh.ctl.drv v n =
      if 10 ≤ (commanded (ends s tr).mm.fh.ctl v).toNat then (commanded (ends s tr).mm.fh.ctl v).toNat / 3 * 3 else 0 := by
  obtain ⟨zs, r1, -, r3, -, r5⟩ := run_refines ρ xs _ _ _ hx (init_off m p t2 t1 a d) h0
  have r1 : s.mm.fh.ctl = (Ctl.init p t2 t1).run zs := r1
  have r3 : DisciplinedRun (Ctl.init p t2 t1) zs := r3
  have hm : s.mm.fh.mission ≠ Mission.startup := by
    intro hm
    have := (r5 hm).1
    rcases hs with g | g <;> (rw [g] at this; exact absurd this (by decide))
  obtain ⟨f1, f2, -⟩ := C132_flown ρ s tr h hm hok hs hlen j hj hfill hp
  obtain ⟨ys, e1, e2, e3⟩ := pending_follows j h hm hok hs hlen.le hj hfill hp
  have hne : ys ≠ [] := by intro hn; rw [hn, List.length_nil] at e1; omega
  obtain ⟨y, hy⟩ : ∃ y, ys = ys.take (tr.length - 1) ++ [y] := by
    refine ⟨ys.getLast hne, ?_⟩
    have := List.dropLast_append_getLast hne
    rw [List.dropLast_eq_take, e1] at this
    exact this.symm
  obtain ⟨us, hus⟩ : ∃ us, us = ys.take (tr.length - 1) := ⟨_, rfl⟩
  have hb := e3 (tr.length - 1) (by omega)
  have he := e3 tr.length le_rfl
  rw [List.take_length, ← e1, List.take_length, hy, ← hus, run_snoc] at he
  have hbf := f2 (tr.length - 1) (by omega)
  rw [hb, ← hus] at hbf
  have hd := disciplined_of_undisturbed e2
  have hu := e2
  rw [hy, ← hus] at hu hd
  have split : ∀ (us : List PropCycle) (c : Ctl), UndisturbedRun c (us ++ [y]) → ScheduleOk c →
      Undisturbed (c.run us) y ∧ UndisturbedRun c us ∧ ScheduleOk (c.run us) := by
    intro us
    induction us with
    | nil => intro c h hok; exact ⟨h.1, trivial, hok⟩
    | cons z us ih =>
      intro c h hok
      obtain ⟨i1, i2, i3⟩ := ih (c.cycle z) h.2 (undisturbed_keeps h.1 hok).1
      exact ⟨i1, ⟨h.1, i2⟩, i3⟩
  obtain ⟨u1, u2, u3⟩ := split us _ hu hok
  obtain ⟨b1, -⟩ := harmless_before u1.writes u3
  obtain ⟨st, k, f, p', v', t', sv, dd, nn, -, hfr⟩ := execute_frame ((s.mm.fh.ctl.run us).beforeExecute y) y.env
  have hfr' : (s.mm.fh.ctl.run us).cycle y = _ := hfr
  have hcom : ∀ v, commanded ((s.mm.fh.ctl.run us).beforeExecute y) v = commanded (ends s tr).mm.fh.ctl v := by
    intro v
    rw [he, hfr']
    match v with
    | 0 => rfl
    | 1 => rfl
    | 2 => rfl
    | 3 => rfl
    | _ + 4 => rfl
  rw [he] at f1
  have hrun : (Ctl.init p t2 t1).run (zs ++ us) = s.mm.fh.ctl.run us := by
    rw [r1]; exact List.foldl_append
  have key := C41_fires_as_commanded_partial p t2 t1 (zs ++ us) y
    (disciplined_append us r3 (by rw [← r1]; exact disciplined_of_undisturbed u2)) (fun x hx => (u1.writes _ hx).elim)
    (by rw [hrun, b1]; exact hbf) (by rw [hrun]; exact f1) (fun v hv => by rw [hrun, hcom]; exact hlt v hv)
  rw [hrun] at key
  simp only [hcom] at key
  rw [← he] at key
  exact key

/-! ### A case -/

namespace SysFly

/-- A cycle with the given number and pressure, the next node of the orbit nine and a half cycles away; the ground says
nothing. -/
def st (n : Nat) (p : Rat) : SysStep toyOrb :=
  ⟨id, { troubleIn with mm := { troubleIn.mm with cc := BitVec.ofNat 32 n }, ticks1 := 0, ticks2 := 0, pressure := p,
                        orb := toyOrbIn 1 Mission.follower (1 / 3 - 95 / 10 * 17 / 100 / 2800) }⟩

/-- The first cycle ends startup; after it the ground has the satellite follow, with one filling of one cycle allowed. -/
def first : SysStep toyOrb := { st 1 20 with others := fun s => { s with mm := { s.mm with elapsed := 106 } } }
def second : SysStep toyOrb := { st 2 20 with others := fun s =>
  { s with mm := { s.mm with fh := { s.mm.fh with mission := Mission.follower, ctl := s.mm.fh.ctl.writes [.maxPress 1, .fill 1, .cool 1] } } } }

def hist (ws : List (SysStep toyOrb)) : Option (Sys toyOrb) := (srun PAN.exact (Sys.init toyOrb () 14 20 20 true true) ws).map (·.1)

/-- The state after cycle `n`: the tank fills up in cycle 5. -/
def after (n : Nat) : Option (Sys toyOrb) :=
  hist ((first :: second :: (List.range 20).map fun i => st (3 + i) (if i < 2 then 20 else 26)).take n)

def view (s : Sys toyOrb) : U32 × Nat × Bool × Bool := (s.mm.fh.ctl.state, s.mm.fh.ctl.countdown.toNat, s.dcdc.sph, decide (ScheduleOk s.mm.fh.ctl))

theorem leaves (n : Nat) (p : Rat) : LeavesManoeuvre (st n p) ∧ LeavesPropulsion (st n p) :=
  ⟨fun _ => ⟨id, [], rfl, nofun⟩, fun _ => ⟨id, [], rfl, nofun, nofun⟩⟩

/-- The cycles from `s` on with the states they end in, and whether they are quiet. -/
def trace (s : Sys toyOrb) : List (SysStep toyOrb) → List (SysStep toyOrb × Sys toyOrb)
  | [] => []
  | x :: xs =>
    match (x.others s).cycle PAN.exact x.inp with
    | none => []
    | some (t, _) => (x, t) :: trace t xs

def calm (s : Sys toyOrb) : List (SysStep toyOrb) → Bool
  | [] => true
  | x :: xs =>
    match (x.others s).cycle PAN.exact x.inp with
    | none => false
    | some (t, _) => decide (((x.others s).mm.fh.execute x.inp.mm.cc).1 ≠ .safehold) && t.dcdc.sph && decide (ScheduleOk t.mm.fh.ctl) &&
      decide (t.mm.fh.ctl.state ≠ Prp.handlingFault) && calm t xs

theorem calm_history : ∀ {xs : List (SysStep toyOrb)} {s : Sys toyOrb}, (∀ x ∈ xs, LeavesManoeuvre x) → calm s xs = true →
    CalmHistory PAN.exact s (trace s xs) := by
  intro xs
  induction xs with
  | nil => intro s _ _; trivial
  | cons x xs ih =>
    intro s hx h
    unfold calm at h
    unfold trace
    split at h
    · cases h
    · rename_i t m hc
      simp only [Bool.and_eq_true, decide_eq_true_eq] at h
      obtain ⟨⟨⟨⟨h1, h2⟩, h3⟩, h4⟩, h5⟩ := h
      exact ⟨⟨⟨m, hc⟩, hx x (by simp), fun hs => h1 ((safeholdFault_iff _ _).1 hs), h2, h3, h4⟩, ih (fun z hz => hx z (by simp [hz])) h5⟩

/-- The cycles from the second on; the manoeuvre is accepted in the second. -/
def rest : List (SysStep toyOrb) := (List.range 8).map fun i => st (3 + i) (if i < 2 then 20 else 26)
def s0 : Sys toyOrb := (after 2).getD (Sys.init toyOrb () 14 20 20 true true)

theorem rest_leaves : ∀ x ∈ rest, LeavesManoeuvre x := by
  intro x hx
  simp only [rest, List.mem_map] at hx
  obtain ⟨i, -, rfl⟩ := hx
  exact (leaves _ _).1

-- `C132_flown`: its hypotheses, with `j = 3`
example : CalmHistory PAN.exact s0 (trace s0 rest) := calm_history rest_leaves (by decide +kernel)
example : s0.mm.fh.mission ≠ Mission.startup ∧ ScheduleOk s0.mm.fh.ctl ∧ s0.mm.fh.ctl.state = Prp.awaitPressurizing ∧
    (trace s0 rest).length = s0.mm.fh.ctl.countdown.toNat ∧ (trace s0 rest).length = 8 ∧
    (ends s0 ((trace s0 rest).take 3)).mm.fh.ctl.state = Prp.pressurizing ∧
    (ends s0 ((trace s0 rest).take 3)).mm.fh.ctl.threshold ≤ (ends s0 ((trace s0 rest).take 3)).mm.fh.ctl.pressure := by
  refine ⟨?_, ?_, ?_, ?_, ?_, ?_, ?_⟩ <;> decide +kernel
-- `C132_enough_time`, besides
example : cyclesNeeded s0.mm.fh.ctl = 6 ∧ s0.mm.fh.ctl.drv.isValveOpen .one 0 = false ∧ s0.mm.fh.ctl.drv.isValveOpen .one 1 = false := by
  decide +kernel
-- `C132_as_planned_partial`, besides
example : (after 2).isSome = true ∧ (List.range 4).map (fun v => (commanded (ends s0 (trace s0 rest)).mm.fh.ctl v).toNat) = [54, 73, 23, 34] := by
  decide +kernel
-- `C132_accepted`: the second cycle
example : (after 1).map (fun s => (s.mm.fh.ctl.state, s.mm.fh.mission)) = some (Prp.idle, Mission.detumble) ∧
    (after 2).map view = some (Prp.awaitPressurizing, 8, true, true) := by decide +kernel

end SysFly

end PAN
