import Verif.Model.DockSys
import Verif.Props.System
import Verif.Props.Docking

/-!
C114: the docking motor among the other tasks: its power, and what the mission manager makes of it.
-/
namespace PAN
open Spec ADCS
variable {L : Orb.Lib}

namespace Spec

/-- A control cycle preceded by what the other tasks and the ground do to the fields. -/
structure DStep (L : Orb.Lib) where
  others : DockSys L → DockSys L
  inp : DockSysIn L

/-- Any number of control cycles, with what happens between them, and how many steps the motor really moved. -/
def drun (ρ : Orb.Rounding) (s : DockSys L) : List (DStep L) → Option (DockSys L × Nat)
  | [] => some (s, 0)
  | x :: xs =>
    match (x.others s).cycle ρ x.inp with
    | none => none
    | some (s', m) =>
      match drun ρ s' xs with
      | none => none
      | some (s'', m') => some (s'', m + m')

/-- The motor's converter is `on` (or off) at the beginning of every cycle and, after the converter task, to its end. -/
def Supplied (ρ : Orb.Rounding) (on : Bool) (s : DockSys L) : List (DStep L) → Prop
  | [] => True
  | x :: xs => (x.others s).sys.dcdc.sph = on ∧
    ∀ s' m, (x.others s).cycle ρ x.inp = some (s', m) → s'.sys.dcdc.sph = on ∧ Supplied ρ on s' xs

/-- Nobody but the docking task touches its fields and motor, and the ground keeps commanding configuration `c`. -/
def DStep.Keeps (c : Bool) (x : DStep L) : Prop := ∀ s : DockSys L,
  (x.others s).dock = s.dock ∧ (x.others s).sys.mm.dockingConfig = c

/-- How often the step timer's interrupt fires in a cycle. -/
def DStep.pulses (x : DStep L) : Nat := x.inp.before + x.inp.between + x.inp.mid

end Spec

/-! ### What the other tasks leave alone -/

namespace MM

theorem dc_startup {s s' : MM} {i : MMIn} (h : s.dispatchStartup i = some s') : s'.dockingConfig = s.dockingConfig := by
  unfold dispatchStartup at h
  split at h
  · cases h
  split at h
  · split at h <;> (cases h; rfl)
  dsimp only at h
  have hp : ∀ m : MM, m.hwPolled.dockingConfig = m.dockingConfig := by
    intro m; unfold hwPolled; dsimp only; repeat' (split; rfl)
    rfl
  generalize hq : (if s.fh.radio.state = Radio.disabled then _ else _ : MM) = k at h
  have hk : k.dockingConfig = s.dockingConfig := by rw [← hq]; split <;> rfl
  split at h
  · cases h; exact (hp k).trans hk
  · cases h; exact (hp k).trans hk

theorem dc_dispatch {s s' : MM} {i : MMIn} {m : U8} (h : s.dispatch i m = some s') :
    s'.dockingConfig = s.dockingConfig := by
  unfold dispatch at h
  split at h
  · exact dc_startup h
  split at h
  · cases h; unfold dispatchDetumble; split
    · split <;> rfl
    · rfl
  split at h
  · cases h; rfl
  split at h
  · cases h; unfold dispatchStandby; split
    · rfl
    · split <;> rfl
  split at h
  · cases h; unfold dispatchFar; split <;> rfl
  split at h
  · cases h; unfold dispatchFar; split <;> rfl
  split at h
  · cases h; unfold dispatchClose; split <;> rfl
  split at h
  · cases h; unfold dispatchDocking; dsimp only
    generalize hq : (if s.haveSetDocking = false then _ else _ : MM) = k
    have hk : k.dockingConfig = s.dockingConfig := by rw [← hq]; split <;> rfl
    split
    · exact hk
    · split <;> exact hk
  split at h
  · cases h; rfl
  split at h
  · cases h; unfold dispatchSafehold; split <;> rfl
  split at h
  · cases h; rfl
  · cases h; rfl

theorem dc_execute {s s' : MM} {i : MMIn} (h : s.execute i = some s') : s'.dockingConfig = s.dockingConfig := by
  rcases MM.execute_cases s i with ⟨_, _, _, e⟩ | ⟨_, _, _, _, _, _, _, e⟩ | ⟨_, _, e⟩
  · rw [e] at h; cases h; rfl
  · rw [e] at h; cases h; rfl
  · rw [e] at h; exact (dc_dispatch h).trans rfl

end MM

/-- What the mission manager decides stands at the end of the tasks after it. -/
theorem Sys.cycle_mm {ρ : Orb.Rounding} {s s' : Sys L} {i : SysIn L} {msgs : List (List U8)}
    (h : s.cycle ρ i = some (s', msgs)) :
    ∃ mm, ({ s with mm := { s.mm with fh := { s.mm.fh with ctl := s.mm.fh.ctl.interrupts i.ticks1 } } } : Sys L).mm.execute
        i.mm = some mm ∧ s'.mm.fh.mission = mm.fh.mission ∧ s'.mm.dockingConfig = mm.dockingConfig ∧
      s'.mm.sphDcdc = s'.dcdc.sphCmd ∧
      s'.dcdc = ({ s.dcdc with adcsCmd := mm.adcsDcdc, sphCmd := mm.sphDcdc } : DCDC).execute := by
  unfold Sys.cycle at h
  dsimp only at h
  split at h
  · cases h
  · rename_i mm hmm
    split at h
    · cases h
    · rename_i s2 m hatt
      split at h
      · cases h
      · rename_i s3 ho
        cases h
        obtain ⟨a1, a2, -, -⟩ := Sys.runAttitude_spec hatt
        unfold Sys.runOrbit at ho
        dsimp only at ho
        split at ho
        · cases ho
        · cases ho
          refine ⟨mm, hmm, ?_, ?_, ?_, ?_⟩
          · exact congrArg (·.fh.mission) a1
          · exact congrArg (·.dockingConfig) a1
          · exact (congrArg (·.sphDcdc) a1).trans (congrArg (·.sphCmd) a2).symm
          · exact a2

namespace DockSys

/-- The parts of one cycle. -/
theorem cycle_parts {ρ : Orb.Rounding} {s s' : DockSys L} {i : DockSysIn L} {m : Nat} (h : s.cycle ρ i = some (s', m)) :
    ∃ msgs k, s.sys.cycle ρ (s.others i) = some (s'.sys, msgs) ∧
      ((s.dock.ticks i.before).1.ticks i.between).1.execute (dockIn s'.sys i) = some (s'.dock, k) ∧
      m = moves s.sys.dcdc.sph (s.dock.ticks i.before).2
        + moves s'.sys.dcdc.sph ((s.dock.ticks i.before).1.ticks i.between).2 + moves s'.sys.dcdc.sph k := by
  unfold cycle at h
  split at h
  · cases h
  · rename_i sys msgs hsys
    dsimp only at h
    split at h
    · cases h
    · rename_i d3 k3 hd
      cases h
      exact ⟨msgs, k3, hsys, hd, rfl⟩

theorem cycle_cmd {ρ : Orb.Rounding} {s s' : DockSys L} {i : DockSysIn L} {m : Nat} (h : s.cycle ρ i = some (s', m)) :
    s'.sys.mm.dockingConfig = s.sys.mm.dockingConfig := by
  obtain ⟨msgs, k, h1, -, -⟩ := cycle_parts h
  obtain ⟨mm, e, -, e2, -, -⟩ := Sys.cycle_mm h1
  have := MM.dc_execute e
  exact e2.trans this

theorem during_ticks {c : Bool} {n e : Nat} {d : Dock} (h : Dock.During c n e d) (t : Nat) :
    Dock.During c n (e + (d.ticks t).2) (d.ticks t).1 := by
  induction t generalizing d e with
  | zero => exact h
  | succ t ih =>
    have := ih (Dock.during_tick h)
    simp only [Dock.ticks]
    rwa [show e + ((d.tick.1.ticks t).2 + if d.tick.2 then 1 else 0)
      = e + (if d.tick.2 then 1 else 0) + (d.tick.1.ticks t).2 by omega]

/-- One cycle during a half turn that is not withdrawn: `k` pulses. -/
theorem during_step {ρ : Orb.Rounding} {s s' : DockSys L} {i : DockSysIn L} {m : Nat} {c : Bool} {n e : Nat}
    (h : s.cycle ρ i = some (s', m)) (hc : s.sys.mm.dockingConfig = !c) (hd : Dock.During c n e s.dock) :
    ∃ k, Dock.During c n (e + k) s'.dock ∧ (s.sys.dcdc.sph = true → s'.sys.dcdc.sph = true → m = k) ∧
      (s.sys.dcdc.sph = false → s'.sys.dcdc.sph = false → m = 0) := by
  have hcmd := (cycle_cmd h).trans hc
  obtain ⟨msgs, k, -, h2, hm⟩ := cycle_parts h
  have := Dock.during_cycle (during_ticks (during_ticks hd i.before) i.between) (i := dockIn s'.sys i) hcmd h2
  refine ⟨_, by rwa [Nat.add_assoc, Nat.add_assoc] at this, fun a b => ?_, fun a b => ?_⟩
  · rw [hm, a, b]; simp only [moves, if_true]; omega
  · rw [hm, a, b]; rfl

/-- The first cycle of a half turn. -/
theorem during_first {ρ : Orb.Rounding} {s s' : DockSys L} {i : DockSysIn L} {m : Nat} {n : U32}
    (h : s.cycle ρ i = some (s', m)) (ht : s.dock.turning = false) (hoff : s.dock.timer = false)
    (hc : s.sys.mm.dockingConfig = !s.dock.config) (hn : Dock.halfTurn i.angle = some n) :
    ∃ k, Dock.During s.dock.config n.toNat k s'.dock ∧ (s'.sys.dcdc.sph = true → m = k) ∧
      (s'.sys.dcdc.sph = false → m = 0) ∧
      (i.armed = true → Dock.Prog s.dock.config (2 * n.toNat - i.mid) s'.dock) := by
  have hcmd := (cycle_cmd h).trans hc
  obtain ⟨msgs, k, -, h2, hm⟩ := cycle_parts h
  rw [Dock.ticks_off s.dock hoff] at h2 hm
  dsimp only at h2 hm
  rw [Dock.ticks_off s.dock hoff] at h2 hm
  dsimp only at h2 hm
  have hne : (dockIn s'.sys i).cmd ≠ s.dock.config := by
    show s'.sys.mm.dockingConfig ≠ _
    rw [hcmd]; cases s.dock.config <;> decide
  have h0 : ∀ p, moves p 0 = 0 := by intro p; cases p <;> rfl
  rw [h0, h0] at hm
  refine ⟨k, Dock.during_begin (i := dockIn s'.sys i) hn ht hne h2, fun a => ?_, fun a => ?_, fun ha => ?_⟩
  · rw [hm, a]; simp [moves]
  · rw [hm, a]; simp [moves]
  · exact Dock.prog_begin (i := dockIn s'.sys i) hn ht hne ha h2

theorem prog_step {ρ : Orb.Rounding} {s s' : DockSys L} {i : DockSysIn L} {m : Nat} {c : Bool} {t : Nat}
    (h : s.cycle ρ i = some (s', m)) (hc : s.sys.mm.dockingConfig = !c) (hd : Dock.Prog c t s.dock) :
    Dock.Prog c (t - (i.before + i.between + i.mid)) s'.dock ∧
      (t - (i.before + i.between + i.mid) = 0 → s'.dock.config = !c ∧ s'.dock.turning = false) := by
  have hcmd := (cycle_cmd h).trans hc
  obtain ⟨msgs, k, -, h2, -⟩ := cycle_parts h
  have := Dock.prog_cycle (Dock.prog_ticks (Dock.prog_ticks hd i.before) i.between) (i := dockIn s'.sys i) hcmd h2
  rw [show t - (i.before + i.between + i.mid) = t - i.before - i.between - i.mid by omega]
  exact this

theorem during_drun {ρ : Orb.Rounding} {c on : Bool} {n : Nat} (xs : List (DStep L)) (hx : ∀ x ∈ xs, x.Keeps (!c)) :
    ∀ {s s' : DockSys L} {e m : Nat}, Supplied ρ on s xs → Dock.During c n e s.dock → drun ρ s xs = some (s', m) →
      ∃ k, Dock.During c n (e + k) s'.dock ∧ (on = true → m = k) ∧ (on = false → m = 0) := by
  induction xs with
  | nil => intro s s' e m _ hd h; cases h; exact ⟨0, hd, fun _ => rfl, fun _ => rfl⟩
  | cons x xs ih =>
    intro s s' e m hs hd h
    unfold drun at h
    split at h
    · cases h
    · rename_i s1 m1 h1
      split at h
      · cases h
      · rename_i s2 m2 h2
        cases h
        obtain ⟨k1, k2⟩ := hx x (by simp) s
        obtain ⟨p1, p2⟩ := hs
        obtain ⟨p3, p4⟩ := p2 s1 m1 h1
        obtain ⟨k, d1, d2, d3⟩ := during_step h1 k2 (by rw [k1]; exact hd)
        obtain ⟨k', e1, e2, e3⟩ := ih (fun y hy => hx y (by simp [hy])) p4 d1 h2
        refine ⟨k + k', by rwa [← Nat.add_assoc], fun a => ?_, fun a => ?_⟩
        · subst a; rw [d2 p1 p3, e2 rfl]
        · subst a; rw [d3 p1 p3, e3 rfl]

theorem prog_drun {ρ : Orb.Rounding} {c : Bool} (xs : List (DStep L)) (hx : ∀ x ∈ xs, x.Keeps (!c)) :
    ∀ {s s' : DockSys L} {t m : Nat}, Dock.Prog c t s.dock → drun ρ s xs = some (s', m) → xs ≠ [] →
      t ≤ (xs.map DStep.pulses).sum → s'.dock.config = !c ∧ s'.dock.turning = false := by
  induction xs with
  | nil => intro s s' t m _ _ h; exact absurd rfl h
  | cons x xs ih =>
    intro s s' t m hd h _ hsum
    unfold drun at h
    split at h
    · cases h
    · rename_i s1 m1 h1
      split at h
      · cases h
      · rename_i s2 m2 h2
        cases h
        obtain ⟨k1, k2⟩ := hx x (by simp) s
        obtain ⟨p1, p2⟩ := prog_step h1 k2 (by rw [k1]; exact hd)
        simp only [List.map_cons, List.sum_cons] at hsum
        by_cases hxs : xs = []
        · subst hxs
          cases h2
          refine p2 ?_
          simp only [List.map_nil, List.sum_nil, DStep.pulses] at hsum
          omega
        · refine ih (fun y hy => hx y (by simp [hy])) p1 h2 hxs ?_
          unfold DStep.pulses at hsum ⊢
          omega

end DockSys

/-! ### C114 -/

/-- **C114 (part).** With its converter on throughout, the motor really moves as far as it is commanded: take any state in
which no half turn is under way, command the other configuration and keep the command. Over any number of control cycles, with
the step timer's interrupts anywhere between the tasks, the motor moves at most the half turn's `n` steps while the reported
configuration is unchanged, and exactly `n` once it has changed. -/
theorem C114_powered_partial (ρ : Orb.Rounding) (s s' : DockSys L) (x : DStep L) (xs : List (DStep L)) (m : Nat) (n : U32)
    (ht : s.dock.turning = false) (hoff : s.dock.timer = false) (hn : Dock.halfTurn x.inp.angle = some n)
    (hx : ∀ y ∈ x :: xs, y.Keeps (!s.dock.config)) (hp : Supplied ρ true s (x :: xs))
    (h : drun ρ s (x :: xs) = some (s', m)) :
    (s'.dock.config = s.dock.config → m ≤ n.toNat) ∧ (s'.dock.config ≠ s.dock.config → m = n.toNat) := by
  unfold drun at h
  split at h
  · cases h
  · rename_i s1 m1 h1
    split at h
    · cases h
    · rename_i s2 m2 h2
      cases h
      obtain ⟨k1, k2⟩ := hx x (by simp) s
      obtain ⟨-, p2⟩ := hp
      obtain ⟨p3, p4⟩ := p2 s1 m1 h1
      obtain ⟨k, d1, d2, -, -⟩ := DockSys.during_first h1 (by rw [k1]; exact ht) (by rw [k1]; exact hoff)
        (by rw [k1]; exact k2) hn
      rw [k1] at d1
      obtain ⟨k', e1, e2, -⟩ := DockSys.during_drun xs (fun y hy => hx y (by simp [hy])) p4 d1 h2
      have hm : m1 + m2 = k + k' := by rw [d2 p3, e2 rfl]
      rw [hm]
      rcases e1 with ⟨a, -, b⟩ | ⟨a, -, -, b⟩
      · exact ⟨fun _ => by omega, fun h => absurd a h⟩
      · exact ⟨fun h => absurd (a.symm.trans h) (by cases s.dock.config <;> decide), fun _ => b⟩

/-- **C114 is false without power**: the docking task does not look at the motor's converter. From any state in which no
half turn is under way, with the converter off throughout (as it is in safehold and before deployment), a command for the
other configuration is reported as carried out once the step timer has fired twice per step, although the motor has not moved
at all. -/
theorem C114_counterexample_unpowered (ρ : Orb.Rounding) (s s' : DockSys L) (x : DStep L) (xs : List (DStep L)) (m : Nat)
    (n : U32) (ht : s.dock.turning = false) (hoff : s.dock.timer = false) (hn : Dock.halfTurn x.inp.angle = some n)
    (harm : x.inp.armed = true) (hx : ∀ y ∈ x :: xs, y.Keeps (!s.dock.config)) (hp : Supplied ρ false s (x :: xs))
    (hxs : xs ≠ []) (hi : 2 * n.toNat ≤ x.inp.mid + (xs.map DStep.pulses).sum)
    (h : drun ρ s (x :: xs) = some (s', m)) :
    s'.dock.config = (!s.dock.config) ∧ s'.dock.turning = false ∧ m = 0 := by
  unfold drun at h
  split at h
  · cases h
  · rename_i s1 m1 h1
    split at h
    · cases h
    · rename_i s2 m2 h2
      cases h
      obtain ⟨k1, k2⟩ := hx x (by simp) s
      obtain ⟨-, p2⟩ := hp
      obtain ⟨p3, p4⟩ := p2 s1 m1 h1
      obtain ⟨k, d1, -, d3, d4⟩ := DockSys.during_first h1 (by rw [k1]; exact ht) (by rw [k1]; exact hoff)
        (by rw [k1]; exact k2) hn
      rw [k1] at d1 d4
      obtain ⟨k', -, -, e3⟩ := DockSys.during_drun xs (fun y hy => hx y (by simp [hy])) p4 d1 h2
      obtain ⟨q1, q2⟩ := DockSys.prog_drun xs (fun y hy => hx y (by simp [hy])) (d4 harm) h2 hxs (by omega)
      exact ⟨q1, q2, by rw [d3 p3, e3 rfl]⟩

/-! ### Safehold -/

namespace Spec

/-- Nobody commands the mission state, the attitude and propulsion states or the converters from outside. -/
def DStep.HandsOff (x : DStep L) : Prop := ∀ s : DockSys L,
  (x.others s).sys.mm.fh.mission = s.sys.mm.fh.mission ∧ (x.others s).sys.dcdc.sph = s.sys.dcdc.sph ∧
    (x.others s).sys.mm.sphDcdc = s.sys.mm.sphDcdc ∧ (x.others s).sys.dcdc.resetCmd = s.sys.dcdc.resetCmd

end Spec

theorem safehold_sph {s s' : MM} {i : MMIn} (hm : s.fh.mission = Mission.safehold) (hs : s.sphDcdc = false)
    (h : s.execute i = some s') : s'.fh.mission = Mission.safehold ∧ s'.sphDcdc = false := by
  rcases MM.execute_cases s i with ⟨_, _, _, e⟩ | ⟨_, _, h', _⟩ | ⟨_, _, e⟩
  · rw [e] at h; cases h; exact ⟨rfl, rfl⟩
  · exact absurd hm h'
  · rw [e, hm, MM.dispatch_safehold] at h
    cases h
    unfold MM.dispatchSafehold
    split <;> exact ⟨(MM.afterFaults_mission s i.cc).trans hm, hs⟩

theorem dcdc_off (d : DCDC) (a : Bool) (h1 : d.sph = false) (h2 : d.resetCmd = false) :
    let d' := ({ d with adcsCmd := a, sphCmd := false } : DCDC).execute
    d'.sph = false ∧ d'.sphCmd = false ∧ d'.resetCmd = false := by
  obtain ⟨p1, p2, p3, p4, p5, p6, p7, p8⟩ := d
  dsimp only at h1 h2
  subst h1 h2
  revert a p1 p3 p4 p5 p7 p8
  decide

/-- **C114 (part).** In safehold with the converter off, the motor does not move, over any number of control cycles, with any
inputs and interrupts, whatever configuration is commanded, as long as nobody commands the mission state or the converters. -/
theorem C114_safehold_still (ρ : Orb.Rounding) (xs : List (DStep L)) (hx : ∀ x ∈ xs, x.HandsOff) (s s' : DockSys L) (m : Nat)
    (hm : s.sys.mm.fh.mission = Mission.safehold) (hc : s.sys.mm.sphDcdc = false) (ho : s.sys.dcdc.sph = false)
    (hr : s.sys.dcdc.resetCmd = false) (h : drun ρ s xs = some (s', m)) :
    m = 0 ∧ s'.sys.mm.fh.mission = Mission.safehold ∧ s'.sys.dcdc.sph = false := by
  induction xs generalizing s m with
  | nil => cases h; exact ⟨rfl, hm, ho⟩
  | cons x xs ih =>
    unfold drun at h
    split at h
    · cases h
    · rename_i s1 m1 h1
      split at h
      · cases h
      · rename_i s2 m2 h2
        cases h
        obtain ⟨o1, o2, o3, o4⟩ := hx x (by simp) s
        obtain ⟨msgs, k, c1, -, c3⟩ := DockSys.cycle_parts h1
        obtain ⟨mm, e1, e2, -, e4, e5⟩ := Sys.cycle_mm c1
        obtain ⟨g1, g2⟩ := safehold_sph (by exact o1.trans hm) (by exact o3.trans hc) e1
        rw [g2] at e5
        obtain ⟨f1, f2, f3⟩ := dcdc_off (x.others s).sys.dcdc mm.adcsDcdc (o2.trans ho) (o4.trans hr)
        rw [← e5] at f1 f2 f3
        obtain ⟨r1, r2, r3⟩ := ih (fun y hy => hx y (by simp [hy])) s1 m2 (e2.trans g1) (e4.trans f2) f1 f3 h2
        refine ⟨?_, r2, r3⟩
        rw [r1, c3, o2.trans ho, f1]
        rfl

/-! ### Docking and docked -/

/-- **C114 (part).** In docking, in a cycle without a fault that interferes, the spacecraft becomes docked exactly if the docking
task has found the switch pressed in the previous cycle. -/
theorem C114_docked (ρ : Orb.Rounding) (s s1 s2 : DockSys L) (i j : DockSysIn L) (m1 m2 : Nat)
    (h1 : s.cycle ρ i = some (s1, m1)) (hm : s1.sys.mm.fh.mission = Mission.docking)
    (hs : ¬ SafeholdFault s1.sys.mm j.inp.mm.cc) (hb : ¬ StandbyFault s1.sys.mm j.inp.mm.cc)
    (h2 : s1.cycle ρ j = some (s2, m2)) : s2.sys.mm.fh.mission = Mission.docked ↔ i.switch = true := by
  have hd : s1.dock.docked = i.switch := by
    obtain ⟨-, k, -, h, -⟩ := DockSys.cycle_parts h1
    unfold Dock.execute at h
    split at h
    · cases hb : Dock.begin ((s.dock.ticks i.before).1.ticks i.between).1 (DockSys.dockIn s1.sys i).angle
        (DockSys.dockIn s1.sys i).armed with
      | none => rw [hb] at h; cases h
      | some d =>
        rw [hb] at h
        simp only [Option.map_some, Option.some.injEq, Prod.mk.injEq] at h
        rw [← h.1]; rfl
    · simp only [Option.some.injEq, Prod.mk.injEq] at h
      rw [← h.1]; rfl
  obtain ⟨msgs, -, c1, -, -⟩ := DockSys.cycle_parts h2
  obtain ⟨mm, e1, e2, -⟩ := Sys.cycle_mm c1
  rw [e2, ← hd]
  obtain ⟨q, hq⟩ : ∃ q : MM,
      { s1.sys.mm with fh := { s1.sys.mm.fh with ctl := s1.sys.mm.fh.ctl.interrupts (s1.others j).ticks1 } } = q := ⟨_, rfl⟩
  replace e1 : q.execute (s1.others j).mm = some mm := by rw [← hq]; exact e1
  have hqm : q.fh.mission = Mission.docking := by rw [← hq]; exact hm
  have hqs : ¬ SafeholdFault q (s1.others j).mm.cc := by rw [← hq]; exact hs
  have hqb : ¬ StandbyFault q (s1.others j).mm.cc := by rw [← hq]; exact hb
  constructor
  · intro hmm
    have he := C60_edges q mm _ e1 (by rw [hmm, hqm]; decide)
    rw [hmm, hqm] at he
    cases he with
    | docked a => exact a
  · intro hsw
    obtain ⟨mm', f1, f2⟩ := C60_taken q _ Mission.docked hqs hqb (by rw [hqm]; intro h; exact absurd h (by decide))
      (by rw [hqm]; exact .docked hsw)
    rw [e1] at f1
    cases f1
    exact f2

/-- **C114 is false**: docking begins in the wrong configuration. In close approach the mission manager looks at the
commanded configuration only: whenever the other satellite is within the trigger distance and the docking configuration is
commanded, docking begins, although the mechanism is in the other configuration and has not even begun to turn. -/
theorem C114_counterexample_configuration (ρ : Orb.Rounding) (s s' : DockSys L) (i : DockSysIn L) (m : Nat) (n : U32)
    (hm : s.sys.mm.fh.mission = Mission.followerCloseApproach ∨ s.sys.mm.fh.mission = Mission.leaderCloseApproach)
    (hs : ¬ SafeholdFault s.sys.mm i.inp.mm.cc) (hb : ¬ StandbyFault s.sys.mm i.inp.mm.cc)
    (hw : Within i.inp.mm s.sys.mm.dockTrig) (hc : s.sys.mm.dockingConfig = true)
    (hcfg : s.dock.config = false) (ht : s.dock.turning = false) (hoff : s.dock.timer = false)
    (hn : Dock.halfTurn i.angle = some n) (hpos : n ≠ 0) (hmid : i.mid = 0) (h : s.cycle ρ i = some (s', m)) :
    s'.sys.mm.fh.mission = Mission.docking ∧ s'.dock.config = false ∧ m = 0 := by
  obtain ⟨msgs, k, c1, c2, c3⟩ := DockSys.cycle_parts h
  obtain ⟨mm, e1, e2, -⟩ := Sys.cycle_mm c1
  refine ⟨?_, ?_⟩
  · rw [e2]
    obtain ⟨q, hq⟩ : ∃ q : MM,
        { s.sys.mm with fh := { s.sys.mm.fh with ctl := s.sys.mm.fh.ctl.interrupts (s.others i).ticks1 } } = q := ⟨_, rfl⟩
    replace e1 : q.execute (s.others i).mm = some mm := by rw [← hq]; exact e1
    have hqs : ¬ SafeholdFault q (s.others i).mm.cc := by rw [← hq]; exact hs
    have hqb : ¬ StandbyFault q (s.others i).mm.cc := by rw [← hq]; exact hb
    have hqw : Within (s.others i).mm q.dockTrig := by rw [← hq]; exact hw
    have hqc : q.dockingConfig = true := by rw [← hq]; exact hc
    have hqm : q.fh.mission = Mission.followerCloseApproach ∨ q.fh.mission = Mission.leaderCloseApproach := by
      rw [← hq]; exact hm
    have hedge : Edge q (q.afterFaults (s.others i).mm.cc) (s.others i).mm q.fh.mission Mission.docking := by
      rcases hqm with hqm | hqm
      · rw [hqm]; exact .followDock hqw hqc
      · rw [hqm]; exact .leadDock hqw hqc
    obtain ⟨mm', f1, f2⟩ := C60_taken q _ Mission.docking hqs hqb
      (by intro h; rcases hqm with hqm | hqm <;> (rw [hqm] at h; exact absurd h (by decide))) hedge
    rw [e1] at f1
    cases f1
    exact f2
  · obtain ⟨k', d1, -⟩ := DockSys.during_first h ht hoff (by rw [hc, hcfg]; rfl) hn
    rw [Dock.ticks_off s.dock hoff] at c2 c3
    dsimp only at c2 c3
    rw [Dock.ticks_off s.dock hoff] at c2 c3
    dsimp only at c2 c3
    have hcmd := (DockSys.cycle_cmd h).trans hc
    unfold Dock.execute at c2
    rw [if_pos (by show s'.sys.mm.dockingConfig ≠ s.dock.config; rw [hcmd, hcfg]; decide)] at c2
    unfold Dock.begin Dock.startHalfTurn at c2
    rw [if_neg (by simp [ht]), show (DockSys.dockIn s'.sys i).angle = i.angle from rfl, hn,
      show (DockSys.dockIn s'.sys i).mid = 0 from hmid] at c2
    simp only [Option.map_some, Dock.ticks, Option.some.injEq, Prod.mk.injEq] at c2
    obtain ⟨c2, rfl⟩ := c2
    refine ⟨?_, ?_⟩
    · rw [← c2]
      unfold Dock.finish
      rw [if_neg hpos]
      exact hcfg
    · rw [c3]
      cases s.sys.dcdc.sph <;> cases s'.sys.dcdc.sph <;> rfl

/-! ### The hypotheses are met -/

/-- A satellite in mission state `m` with both converters off, its mechanism in configuration `c`. -/
def Spec.dockToy (m : U8) (c : Bool) : DockSys toyOrb :=
  { sys := { Sys.init toyOrb () 14 20 20 false false with mm := inState m }, dock := { Dock.init with config := c } }

/-- A cycle with the other satellite 10 cm away, a step angle of 180 degrees, and `n` interrupts in the docking task. -/
def Spec.dockToyIn (sw : Bool) (n : Nat) : DockSysIn toyOrb :=
  { inp := { troubleIn with mm := apart 5 (1 / 10) }, before := 0, between := 0, angle := 180, armed := true, mid := n,
    switch := sw }

example : Dock.halfTurn 180 = some 1 := by decide +kernel

/-- The mission state and reported configuration after a cycle, and the steps moved. -/
def Spec.outcome (r : Option (DockSys toyOrb × Nat)) : Option (U8 × Bool × Nat) :=
  r.map fun x => (x.1.sys.mm.fh.mission, x.1.dock.config, x.2)

/-- Docking begins in the wrong configuration. -/
example : outcome ((dockToy Mission.followerCloseApproach false).cycle PAN.exact (dockToyIn false 0)) =
    some (Mission.docking, false, 0) := by decide +kernel

/-- The switch is pressed in docking: docked in the next cycle. -/
example : outcome (((dockToy Mission.docking true).cycle PAN.exact (dockToyIn true 0)).bind fun x =>
    x.1.cycle PAN.exact (dockToyIn false 0)) = some (Mission.docked, true, 0) := by decide +kernel

/-- Two cycles in safehold without power: the new configuration is reported, the motor has not moved. -/
example : outcome (drun PAN.exact (dockToy Mission.safehold false)
    [⟨id, dockToyIn false 1⟩, ⟨id, dockToyIn false 1⟩]) = some (Mission.safehold, true, 0) := by decide +kernel

/-- The converter on and commanded on (in the states in which nothing changes it): the motor moves the one step. -/
example : outcome (drun PAN.exact
    { sys := { (dockToy Mission.standby false).sys with
        dcdc := { (dockToy Mission.standby false).sys.dcdc with sph := true }
        mm := { (dockToy Mission.standby false).sys.mm with sphDcdc := true } }, dock := (dockToy Mission.standby false).dock }
    [⟨id, dockToyIn false 1⟩, ⟨id, dockToyIn false 1⟩]) = some (Mission.standby, true, 1) := by decide +kernel

example : (⟨id, dockToyIn false 1⟩ : DStep toyOrb).HandsOff := fun _ => ⟨rfl, rfl, rfl, rfl⟩

/-- The command is kept by steps that set it. -/
example : (⟨fun s => { s with sys := { s.sys with mm := { s.sys.mm with dockingConfig := true } } }, dockToyIn false 1⟩ :
    DStep toyOrb).Keeps true := fun _ => ⟨rfl, rfl⟩

/-- The converter is off throughout two cycles in safehold. -/
example : Supplied PAN.exact false (dockToy Mission.safehold false) [⟨id, dockToyIn false 1⟩, ⟨id, dockToyIn false 1⟩] := by
  have h1 : ((dockToy Mission.safehold false).cycle PAN.exact (dockToyIn false 1)).all (fun x => !x.1.sys.dcdc.sph &&
      ((x.1.cycle PAN.exact (dockToyIn false 1)).all fun y => !y.1.sys.dcdc.sph)) = true := by decide +kernel
  refine ⟨rfl, fun s m h => ?_⟩
  replace h : (dockToy Mission.safehold false).cycle PAN.exact (dockToyIn false 1) = some (s, m) := h
  rw [h] at h1
  simp only [Option.all_some, Bool.and_eq_true, Bool.not_eq_true'] at h1
  refine ⟨h1.1, h1.1, fun s' m' h' => ⟨?_, trivial⟩⟩
  replace h' : s.cycle PAN.exact (dockToyIn false 1) = some (s', m') := h'
  have h2 := h1.2
  rw [h'] at h2
  simpa using h2

end PAN
