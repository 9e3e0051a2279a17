import Verif.Model.System
import Verif.Props.MissionManager
import Verif.Props.Prop
import Verif.Props.ADCSStates
import Verif.Props.OrbitCtl

/-!
C56: a safehold-level fault shuts the actuators down within the same control cycle, through five control tasks, and they
stay shut down for as long as the ground does not intervene.
-/
namespace PAN

namespace Spec
open ADCS

/-- The satellite has given up actuation: it is in safehold with attitude control in its startup state, and propulsion is
disabled with every valve closed, the valve timer off and no schedule left. -/
def ShutDown {L : Orb.Lib} (s : Sys L) : Prop :=
  s.mm.fh.mission = Mission.safehold ∧ s.mm.adcs = Adcs.startup ∧ s.mm.fh.ctl.state = Prp.disabled ∧
    Shut s.mm.fh.ctl ∧ Cleared s.mm.fh.ctl

/-- The messages tell the box to be passive, and leave it with a moment command of zero, whatever it had received before. -/
def CommandsPassive (msgs : List (List U8)) : Prop :=
  msgs.filterMap modeIn = [0] ∧ ∀ pre, lastMoment (pre ++ asEvents msgs) = zeroCode maxMoment

/-- The settings of the box are in their ranges, so that sending them is defined. -/
structure SettingsOk (c : Cmds) : Prop where
  speed : c.speed.all (|·| ≤ maxSpeedCmd)
  speedFlt : 0 ≤ c.speedFlt ∧ c.speedFlt ≤ 1
  rampFlt : 0 ≤ c.rampFlt ∧ c.rampFlt ≤ 1
  limit : |c.limit| ≤ maxMoment
  voltFlt : 0 ≤ c.voltFlt ∧ c.voltFlt ≤ 1
  magFlt : 0 ≤ c.magFlt ∧ c.magFlt ≤ 1
  gyrFlt : 0 ≤ c.gyrFlt ∧ c.gyrFlt ≤ 1
  gyrTempFlt : 0 ≤ c.gyrTempFlt ∧ c.gyrTempFlt ≤ 1
  gyrDesired : -40 ≤ c.gyrDesired ∧ c.gyrDesired ≤ 85

/-- A control cycle preceded by what the other tasks and the ground do to the fields. -/
structure SysStep (L : Orb.Lib) where
  others : Sys L → Sys L
  inp : SysIn L

/-- Nobody commands the three states from outside. -/
def SysStep.HandsOff {L : Orb.Lib} (x : SysStep L) : Prop := ∀ s : Sys L,
  (x.others s).mm.fh.mission = s.mm.fh.mission ∧ (x.others s).mm.adcs = s.mm.adcs ∧
    (x.others s).mm.fh.ctl.state = s.mm.fh.ctl.state

end Spec
open Spec ADCS

variable {L : Orb.Lib}

namespace Sys

theorem runDcdc_mm (s : Sys L) : s.runDcdc.mm.fh = s.mm.fh ∧ s.runDcdc.mm.adcs = s.mm.adcs := ⟨rfl, rfl⟩

theorem runAttitude_spec {s s' : Sys L} {i : SysIn L} {msgs : List (List U8)} (h : s.runAttitude i = some (s', msgs)) :
    s'.mm = s.mm ∧ s'.dcdc = s.dcdc ∧ s'.orb = s.orb ∧
      attitudeCycle i.att s.mm.adcs i.ssa s.att s.cmds = some (msgs, s'.att, s'.cmds) := by
  unfold runAttitude at h
  dsimp only at h
  split at h
  · cases h
  · rename_i m c hc
    have h' := Option.some.inj h
    have e1 := congrArg (·.1) h'
    have e2 := congrArg (·.2) h'
    dsimp only at e1 e2
    subst e1 e2
    refine ⟨rfl, rfl, rfl, ?_⟩
    unfold attitudeCycle
    rw [hc]
    rfl

theorem orbit_inactive (ρ : Orb.Rounding) (o : Orb.St L) (i : Orb.In L) (h1 : i.mission ≠ Mission.follower)
    (h2 : i.mission ≠ Mission.followerCloseApproach) :
    ∃ o', o.exec ρ i = some (o', i.countdown) ∧ o'.valves = o.valves := by
  have hna : ¬ (i.active = true) := by
    rw [mayAct_iff]
    exact fun h => h.mission.elim h1 h2
  refine ⟨o.smooth i, ?_, (smooth_keeps o i).1⟩
  unfold Orb.St.exec
  exact if_neg hna

theorem runOrbit_idle (ρ : Orb.Rounding) (s : Sys L) (i : SysIn L) (h1 : s.mm.fh.mission ≠ Mission.follower)
    (h2 : s.mm.fh.mission ≠ Mission.followerCloseApproach) :
    ∃ o, s.runOrbit ρ i = some { s with orb := o } := by
  obtain ⟨o', e1, e2⟩ := orbit_inactive ρ
    { s.orb with valves := (s.mm.fh.ctl.v1, s.mm.fh.ctl.v2, s.mm.fh.ctl.v3, s.mm.fh.ctl.v4) }
    { i.orb with mission := s.mm.fh.mission, propState := s.mm.fh.ctl.state, countdown := s.mm.fh.ctl.countdown,
                 maxPress := s.mm.fh.ctl.maxPress, fill := s.mm.fh.ctl.fill, cool := s.mm.fh.ctl.cool } h1 h2
  refine ⟨o', ?_⟩
  unfold runOrbit
  dsimp only
  dsimp only at e1 e2
  rw [e1]
  obtain ⟨dr, dv, v, im, al, nn, me, ga⟩ := o'
  dsimp only at e2
  subst e2
  rfl

/-- What the rest of the cycle does after a mission manager that has given up actuation. -/
theorem after_mission (ρ : Orb.Rounding) (s s' : Sys L) (i : SysIn L) (msgs : List (List U8)) (mm : MM)
    (hmm : ({ s with mm := { s.mm with fh := { s.mm.fh with ctl := s.mm.fh.ctl.interrupts i.ticks1 } } } : Sys L).mm.execute
      i.mm = some mm)
    (hm : mm.fh.mission = Mission.safehold) (ha : mm.adcs = Adcs.startup) (hp : mm.fh.ctl.state = Prp.disabled)
    (h : s.cycle ρ i = some (s', msgs)) :
    ShutDown s' ∧ CommandsPassive msgs ∧ s'.dcdc = ({ s.dcdc with adcsCmd := mm.adcsDcdc, sphCmd := mm.sphDcdc } : DCDC).execute ∧
      s'.att.torque = V3.zero ∧ s'.att.moment = V3.zero ∧ s'.cmds.torque = V3.zero ∧ s'.cmds.moment = V3.zero := by
  unfold cycle at h
  dsimp only at h hmm
  rw [hmm] at h
  dsimp only at h
  split at h
  · cases h
  · rename_i s2 m hatt
    obtain ⟨a1, a2, a3, a4⟩ := runAttitude_spec hatt
    have b1 : s2.mm.fh = mm.fh := by rw [a1]; exact (runDcdc_mm _).1
    have b2 : s2.mm.adcs = mm.adcs := by rw [a1]; exact (runDcdc_mm _).2
    obtain ⟨o, ho⟩ := runOrbit_idle ρ s2 i (by rw [b1, hm]; decide) (by rw [b1, hm]; decide)
    rw [ho] at h
    have h' := Option.some.inj h
    have e1 := congrArg (·.1) h'
    have e2 := congrArg (·.2) h'
    dsimp only at e1 e2
    subst e1 e2
    have hst : ({ s with mm := mm } : Sys L).runDcdc.mm.adcs = sStartup := ha
    rw [hst] at a4
    obtain ⟨c1, c2, c3, c4, c5⟩ := C52_startup a4
    have hmode := C52_mode a4
    refine ⟨⟨?_, ?_, ?_⟩, ⟨?_, fun pre => (c5 pre).1⟩, ?_, c1, c2, c3, c4⟩
    · exact (congrArg (·.mission) b1).trans hm
    · exact b2.trans ha
    · have hst2 : (s2.mm.fh.ctl.interrupts i.ticks2).state = Prp.disabled := (congrArg (·.ctl.state) b1).trans hp
      exact C39_disabled _ _ (Or.inl hst2)
    · simpa using hmode
    · show s2.dcdc = _
      rw [a2]
      rfl

end Sys

/-! ### C56 -/

/-- A safehold-level fault, in any mission state but startup and manual, from every state of the satellite and with every
input: at the end of the same control cycle the propulsion is disabled with every valve closed, the valve timer off and no
schedule left, and the attitude control box has been told to be passive and left with commands of zero. -/
theorem C56_shutdown (ρ : Orb.Rounding) (s s' : Sys L) (i : SysIn L) (msgs : List (List U8))
    (h1 : s.mm.fh.mission ≠ Mission.startup) (h2 : s.mm.fh.mission ≠ Mission.manual) (hf : SafeholdFault s.mm i.mm.cc)
    (h : s.cycle ρ i = some (s', msgs)) : ShutDown s' ∧ CommandsPassive msgs := by
  obtain ⟨mm, e, g1, g2, g3, _⟩ := C31_safehold
    ({ s with mm := { s.mm with fh := { s.mm.fh with ctl := s.mm.fh.ctl.interrupts i.ticks1 } } } : Sys L).mm i.mm h1 h2 hf
  obtain ⟨a, b, _⟩ := Sys.after_mission ρ s s' i msgs mm e g1 g2 g3 h
  exact ⟨a, b⟩

/-- Both converters, those of the thrusters and of the wheels, are off at the end of the cycle too, unless a reset of the
converters is under way. -/
theorem C56_converters_partial (ρ : Orb.Rounding) (s s' : Sys L) (i : SysIn L) (msgs : List (List U8))
    (h1 : s.mm.fh.mission ≠ Mission.startup) (h2 : s.mm.fh.mission ≠ Mission.manual) (hf : SafeholdFault s.mm i.mm.cc)
    (hr : s.dcdc.resetCmd = false) (h : s.cycle ρ i = some (s', msgs)) : s'.dcdc.sph = false ∧ s'.dcdc.adcs = false := by
  obtain ⟨mm, e, g1, g2, g3, _, g5, g6⟩ := C31_safehold
    ({ s with mm := { s.mm with fh := { s.mm.fh with ctl := s.mm.fh.ctl.interrupts i.ticks1 } } } : Sys L).mm i.mm h1 h2 hf
  obtain ⟨_, _, c, _⟩ := Sys.after_mission ρ s s' i msgs mm e g1 g2 g3 h
  rw [c, g5, g6]
  generalize s.dcdc = d at hr ⊢
  obtain ⟨a, b, c, e, f, g, h, i⟩ := d
  dsimp only at hr
  subst hr
  clear * -
  revert a b c e f h i
  decide

/-- When the ground has commanded a reset of the converters, the fault handling is undone in the same cycle: the safehold
transition commands both converters off, and the reset, finding them off, switches both on. -/
theorem C56_counterexample_reset (ρ : Orb.Rounding) (s s' : Sys L) (i : SysIn L) (msgs : List (List U8))
    (h1 : s.mm.fh.mission ≠ Mission.startup) (h2 : s.mm.fh.mission ≠ Mission.manual) (hf : SafeholdFault s.mm i.mm.cc)
    (hr : s.dcdc.resetCmd = true) (h : s.cycle ρ i = some (s', msgs)) : s'.dcdc.sph = true ∧ s'.dcdc.adcs = true := by
  obtain ⟨mm, e, g1, g2, g3, _, g5, g6⟩ := C31_safehold
    ({ s with mm := { s.mm with fh := { s.mm.fh with ctl := s.mm.fh.ctl.interrupts i.ticks1 } } } : Sys L).mm i.mm h1 h2 hf
  obtain ⟨_, _, c, _⟩ := Sys.after_mission ρ s s' i msgs mm e g1 g2 g3 h
  rw [c, g5, g6]
  generalize s.dcdc = d at hr ⊢
  obtain ⟨a, b, c, e, f, g, h, i⟩ := d
  dsimp only at hr
  subst hr
  clear * -
  revert a b c e f h i
  decide

theorem mainLoop_inv {σ : Type} (P : σ → Prop) (ms : List (σ → Resp × σ)) (h : ∀ m ∈ ms, ∀ s, P s → P (m s).2) :
    ∀ (ret : Resp) (s : σ), P s → P (MainFH.loop ms ret s).2 := by
  induction ms with
  | nil => intro ret s hs; exact hs
  | cons m ms ih =>
    intro ret s hs
    have hm := h m (by simp) s hs
    have ih := ih (fun m hm => h m (by simp [hm]))
    unfold MainFH.loop
    split
    · rename_i s1 e; rw [e] at hm; exact ih _ _ hm
    · rename_i s1 e; rw [e] at hm; exact hm
    · rename_i s1 e; rw [e] at hm; exact ih _ _ hm

theorem faults_disabled (s : FHState) (cc : U32) (h : s.ctl.state = Prp.disabled) :
    (s.execute cc).2.ctl.state = Prp.disabled := by
  unfold FHState.execute MainFH.execute
  split
  · exact h
  · refine mainLoop_inv (fun s : FHState => s.ctl.state = Prp.disabled) _ ?_ _ _ h
    intro m hm s hs
    simp only [FHState.handlers, List.mem_cons, List.not_mem_nil, or_false] at hm
    rcases hm with rfl | rfl | rfl | rfl | rfl | rfl | rfl | rfl | rfl | rfl
    all_goals first
      | exact hs
      | (show (PropFH.execute s.prop s.ctl).2.2.state = Prp.disabled
         unfold PropFH.execute
         dsimp only
         rw [if_pos ⟨by rw [hs]; decide, by rw [hs]; decide⟩]
         exact hs)

theorem safehold_keeps (s : MM) (i : MMIn) (hm : s.fh.mission = Mission.safehold) (ha : s.adcs = Adcs.startup)
    (hp : s.fh.ctl.state = Prp.disabled) :
    ∃ s', s.execute i = some s' ∧ s'.fh.mission = Mission.safehold ∧ s'.adcs = Adcs.startup ∧
      s'.fh.ctl.state = Prp.disabled := by
  rcases MM.execute_cases s i with ⟨_, _, _, e⟩ | ⟨_, _, h, _⟩ | ⟨_, _, e⟩
  · exact ⟨_, e, rfl, rfl, rfl⟩
  · exact absurd hm h
  · rw [e, hm, MM.dispatch_safehold]
    have hf := faults_disabled s.fh i.cc hp
    refine ⟨_, rfl, ?_⟩
    unfold MM.dispatchSafehold
    split <;> exact ⟨(MM.afterFaults_mission s i.cc).trans hm, ha, hf⟩

/-- Any number of control cycles, with what happens between them; also the messages of each. -/
def Spec.srun (ρ : Orb.Rounding) (s : Sys L) : List (SysStep L) → Option (Sys L × List (List (List U8)))
  | [] => some (s, [])
  | x :: xs =>
    match (x.others s).cycle ρ x.inp with
    | none => none
    | some (s', m) =>
      match Spec.srun ρ s' xs with
      | none => none
      | some (s'', ms) => some (s'', m :: ms)

/-- The satellite stays shut down: after the fault, over any number of control cycles with any inputs and whatever the
other tasks and the ground do, as long as nobody commands one of the three states, every cycle ends with the valves closed
and every cycle tells the box to be passive. -/
theorem C56_stays (ρ : Orb.Rounding) (xs : List (SysStep L)) (hx : ∀ x ∈ xs, x.HandsOff) (s s' : Sys L)
    (ms : List (List (List U8))) (hs : ShutDown s) (h : srun ρ s xs = some (s', ms)) :
    ShutDown s' ∧ ms.length = xs.length ∧ ∀ m ∈ ms, CommandsPassive m := by
  induction xs generalizing s ms with
  | nil =>
    have h' := Option.some.inj h
    have e1 := congrArg (·.1) h'
    have e2 := congrArg (·.2) h'
    dsimp only at e1 e2
    subst e1 e2
    exact ⟨hs, rfl, fun m hm => by cases hm⟩
  | cons x xs ih =>
    unfold srun at h
    split at h
    · cases h
    · rename_i s1 m1 h1
      split at h
      · cases h
      · rename_i s2 ms2 h2
        have h' := Option.some.inj h
        have e1 := congrArg (·.1) h'
        have e2 := congrArg (·.2) h'
        dsimp only at e1 e2
        subst e1 e2
        obtain ⟨o1, o2, o3⟩ := hx x (by simp) s
        obtain ⟨mm, e, g1, g2, g3⟩ := safehold_keeps ({ (x.others s) with mm := { (x.others s).mm with fh :=
          { (x.others s).mm.fh with ctl := (x.others s).mm.fh.ctl.interrupts x.inp.ticks1 } } } : Sys L).mm x.inp.mm
          (o1.trans hs.1) (o2.trans hs.2.1) (o3.trans hs.2.2.1)
        obtain ⟨a, b, _⟩ := Sys.after_mission ρ (x.others s) s1 x.inp m1 mm e g1 g2 g3 h1
        obtain ⟨c1, c2, c3⟩ := ih (fun y hy => hx y (by simp [hy])) s1 ms2 a h2
        refine ⟨c1, by simp [c2], fun m hm => ?_⟩
        rcases List.mem_cons.mp hm with rfl | hm
        · exact b
        · exact c3 m hm

theorem send_some {state ssa : U8} {c : Cmds} (ht : c.torque = V3.zero) (hm : c.moment = V3.zero) (hs : SettingsOk c) :
    ∃ r, c.send state ssa = some r := by
  have hz : ∀ {k : BitVec 16} {f : ℚ → Option (BitVec 16)}, f 0 = some k → (V3.zero : V3 ℚ).mapM f = some ⟨k, k, k⟩ := by
    intro k f hk
    unfold V3.mapM V3.zero
    simp only [hk]
  have hsp : ∃ w, c.speed.mapM (us · (-maxSpeedCmd) maxSpeedCmd) = some w :=
    mapM_range (by decide +kernel) (by decide +kernel) (by decide +kernel) hs.speed
  obtain ⟨w, hw⟩ := hsp
  have hb : ∀ (reg : U8) (f : ℚ), 0 ≤ f → f ≤ 1 → ∃ b, Cmds.sendByte reg f 0 1 = some b := by
    intro reg f h0 h1
    obtain ⟨u, hu, _⟩ := uc_ok (f := f) (min := 0) (max := 1) h0 h1 (le_refl _) zero_le_one (by decide +kernel)
      (by decide +kernel)
    exact ⟨_, by unfold Cmds.sendByte; rw [hu]; rfl⟩
  obtain ⟨b1, h1⟩ := hb 6 c.speedFlt hs.speedFlt.1 hs.speedFlt.2
  obtain ⟨b2, h2⟩ := hb 7 c.rampFlt hs.rampFlt.1 hs.rampFlt.2
  obtain ⟨b3, h3⟩ := hb 16 c.voltFlt hs.voltFlt.1 hs.voltFlt.2
  obtain ⟨b4, h4⟩ := hb 22 c.magFlt hs.magFlt.1 hs.magFlt.2
  obtain ⟨b5, h5⟩ := hb 23 c.gyrFlt hs.gyrFlt.1 hs.gyrFlt.2
  obtain ⟨b6, h6⟩ := hb 24 c.gyrTempFlt hs.gyrTempFlt.1 hs.gyrTempFlt.2
  obtain ⟨b7, h7⟩ : ∃ b, Cmds.sendByte 26 c.gyrDesired (-40) 85 = some b := by
    obtain ⟨u, hu, _⟩ := uc_ok (f := c.gyrDesired) (min := -40) (max := 85) hs.gyrDesired.1 hs.gyrDesired.2
      (by norm_num) (by norm_num) (by decide +kernel) (by decide +kernel)
    exact ⟨_, by unfold Cmds.sendByte; rw [hu]; rfl⟩
  obtain ⟨l, hl, _⟩ := us_ok (f := c.limit) (min := -maxMoment) (max := maxMoment) (abs_le.mp hs.limit).1
    (abs_le.mp hs.limit).2 (by decide +kernel) (by decide +kernel) (by decide +kernel) (by decide +kernel)
  have hrwa : ∃ r, (if c.rwaMode = 1 then Cmds.sendRwa c.rwaMode c.speed
    else if c.rwaMode = 2 then Cmds.sendRwa c.rwaMode c.torque
    else if c.rwaMode = 0 then Cmds.sendRwa c.rwaMode V3.zero
    else some []) = some r := by
    split
    · rename_i e
      refine ⟨[[3, c.rwaMode], 4 :: Cmds.vec6 w], ?_⟩
      unfold Cmds.sendRwa
      rw [if_pos e, hw]
      rfl
    · rename_i e1
      split
      · rename_i e2
        refine ⟨[[3, c.rwaMode], 4 :: Cmds.vec6 ⟨32767, 32767, 32767⟩], ?_⟩
        unfold Cmds.sendRwa
        rw [if_neg e1, if_pos e2, ht, hz us_zero_torque]
        rfl
      · rename_i e2
        split
        · refine ⟨[[3, c.rwaMode], 4 :: Cmds.vec6 ⟨0, 0, 0⟩], ?_⟩
          unfold Cmds.sendRwa
          rw [if_neg e1, if_neg e2]
          rfl
        · exact ⟨_, rfl⟩
  obtain ⟨r, hr⟩ := hrwa
  unfold Cmds.send
  dsimp only
  rw [hr, h1, h2, h3, h4, h5, h6, h7, hl, hm, hz us_zero_moment]
  exact ⟨_, rfl⟩

/-- The cycle does run to its end: with the box settings in their ranges nothing in it is undefined. -/
theorem C56_completes (ρ : Orb.Rounding) (s : Sys L) (i : SysIn L) (h1 : s.mm.fh.mission ≠ Mission.startup)
    (h2 : s.mm.fh.mission ≠ Mission.manual) (hf : SafeholdFault s.mm i.mm.cc) (hs : SettingsOk s.cmds) :
    ∃ s' msgs, s.cycle ρ i = some (s', msgs) := by
  obtain ⟨mm, e, g1, g2, g3, _, g5, g6⟩ := C31_safehold
    ({ s with mm := { s.mm with fh := { s.mm.fh with ctl := s.mm.fh.ctl.interrupts i.ticks1 } } } : Sys L).mm i.mm h1 h2 hf
  unfold Sys.cycle
  dsimp only
  dsimp only at e
  rw [e]
  dsimp only
  generalize hq : ({ s with mm := mm } : Sys L).runDcdc = q
  have q1 : q.mm.adcs = sStartup := by rw [← hq]; exact g2
  have q2 : q.mm.fh = mm.fh := by rw [← hq]; rfl
  have q3 : q.cmds = s.cmds := by rw [← hq]; rfl
  have hsend : ∃ r, (q.cmds.command q.mm.adcs (q.att.execute i.att q.mm.adcs).torque
      (q.att.execute i.att q.mm.adcs).moment).send q.mm.adcs i.ssa = some r := by
    rw [q1, q3]
    have hs' : SettingsOk { s.cmds with torque := V3.zero, moment := V3.zero } :=
      ⟨hs.1, hs.2, hs.3, hs.4, hs.5, hs.6, hs.7, hs.8, hs.9⟩
    exact send_some rfl rfl hs'
  obtain ⟨⟨m, c⟩, hr⟩ := hsend
  have hatt : q.runAttitude i = some ({ q with att := q.att.execute i.att q.mm.adcs, cmds := c }, m) := by
    unfold Sys.runAttitude
    dsimp only
    rw [hr]
  rw [hatt]
  dsimp only
  obtain ⟨o, ho⟩ := Sys.runOrbit_idle ρ { q with att := q.att.execute i.att q.mm.adcs, cmds := c } i
    (by show q.mm.fh.mission ≠ _; rw [q2, g1]; decide) (by show q.mm.fh.mission ≠ _; rw [q2, g1]; decide)
  rw [ho]
  exact ⟨_, _, rfl⟩

/-- A satellite that is the follower, firing, with a low battery. -/
def Spec.inTrouble : Sys toyOrb :=
  let s := Sys.init toyOrb () 14 20 20 true true
  { s with mm := { lowBattery (inState Mission.follower) with
      fh := { (lowBattery (inState Mission.follower)).fh with ctl := { (Ctl.init 14 20 20) with state := Prp.firing } } } }

def Spec.troubleIn : SysIn toyOrb :=
  { mm := apart 5 1999
    att := { bValid := false, attValid := false, timeValid := false, orbitValid := false, detumble := none, frame := none,
             toOther := none, pointing := fun _ _ _ _ => none }
    ssa := 1, orb := toyOrbIn 1 Mission.follower (1 / 4), ticks1 := 30, ticks2 := 20, pressure := 14, temp2 := 20,
    temp1 := 20 }

theorem initSettings : SettingsOk Cmds.init := by
  refine ⟨?_, ?_, ?_, ?_, ?_, ?_, ?_, ?_, ?_⟩
  · exact ⟨by decide +kernel, by decide +kernel, by decide +kernel⟩
  all_goals decide +kernel

/-- The hypotheses of `C56_shutdown`, `C56_completes` and `C56_converters_partial` are met. -/
example : inTrouble.mm.fh.mission ≠ Mission.startup ∧ inTrouble.mm.fh.mission ≠ Mission.manual ∧
    SafeholdFault inTrouble.mm troubleIn.mm.cc ∧ SettingsOk inTrouble.cmds ∧ inTrouble.dcdc.resetCmd = false := by
  refine ⟨by decide, by decide, ?_, initSettings, rfl⟩
  rw [safeholdFault_iff]
  decide +kernel

/-- And a step that satisfies `HandsOff` although the ground commands other things. -/
example : SysStep.HandsOff (L := toyOrb)
    ⟨fun s => { s with cmds := { s.cmds with rwaMode := 1 }, dcdc := { s.dcdc with resetCmd := true } }, troubleIn⟩ :=
  fun _ => ⟨rfl, rfl, rfl⟩

end PAN
