import Verif.Props.System
import Verif.Props.MissionTimers
import Verif.Props.PropArm
import Verif.Props.DCDC

/-!
C128: safehold commanded by the ground should stop the actuators as safehold entered on a fault does (C56). It does not: the
command writes the mission state field (src/fsw/FCCode/MissionManager.cpp:51) and nothing else, the configuration of safehold is made only where
the mission manager itself enters it (src/fsw/FCCode/MissionManager.cpp:116-123), and in safehold the simple fault handlers are
off.
-/
namespace PAN
namespace Spec

/-- The ground has commanded safehold: the mission state field is overwritten, the other fields are as they were. -/
def groundSafehold {L : Orb.Lib} (s : Sys L) : Sys L :=
  { s with mm := { s.mm with fh := { s.mm.fh with mission := Mission.safehold } } }

/-- The ground has commanded safehold and, in the same packet, propulsion disabled and attitude control off. -/
def groundShutdown {L : Orb.Lib} (s : Sys L) : Sys L :=
  { s with mm := { s.mm with
      adcs := Adcs.startup
      fh := { s.mm.fh with mission := Mission.safehold, ctl := { s.mm.fh.ctl with state := Prp.disabled } } } }

/-- The radio has been silent for so long that its fault handler asks for safehold. -/
def RadioGivesUp (s : MM) (cc : U32) : Prop := s.fh.enabled = true ∧ (s.fh.quake.execute s.fh.radio cc).1 = .safehold

instance (s : MM) (cc : U32) : Decidable (RadioGivesUp s cc) := inferInstanceAs (Decidable (_ ∧ _))

end Spec
open Spec ADCS

variable {L : Orb.Lib}

theorem safeholdFault_in_safehold (s : MM) (cc : U32) (hm : s.fh.mission = Mission.safehold) :
    SafeholdFault s cc ↔ RadioGivesUp s cc := by
  have na : ∀ k, ¬ Active k s.fh.mission := fun k h => h.2.2.2.1 hm
  unfold SafeholdFault RadioGivesUp
  constructor
  · rintro ⟨a, h | h | h | h⟩
    · exact absurd h.1 (na 0)
    · exact absurd h.1 (na 1)
    · exact absurd h.1 (na 3)
    · exact ⟨a, h⟩
  · rintro ⟨a, h⟩
    exact ⟨a, Or.inr (Or.inr (Or.inr h))⟩

theorem faults_keep_ctl (s : FHState) (cc : U32) (hm : s.mission = Mission.safehold) (h1 : s.ctl.state ≠ Prp.handlingFault)
    (h2 : s.ctl.state ≠ Prp.venting) : (s.execute cc).2.ctl = s.ctl := by
  unfold FHState.execute MainFH.execute
  split
  · rfl
  · refine (mainLoop_inv (fun t : FHState => t.mission = Mission.safehold ∧ t.ctl = s.ctl) _ ?_ _ _ ⟨hm, rfl⟩).2
    intro m hmem t ht
    simp only [FHState.handlers, List.mem_cons, List.not_mem_nil, or_false] at hmem
    rcases hmem with rfl | rfl | rfl | rfl | rfl | rfl | rfl | rfl | rfl | rfl
    all_goals first
      | exact ht
      | (refine ⟨ht.1, ?_⟩
         have e : (SimpleFH.execute 2 .standby t.mission t.ctl.faults.press).2 = t.ctl.faults.press := by
           rw [ht.1]; rfl
         show ({ t.ctl with faults := { t.ctl.faults with press := (SimpleFH.execute 2 .standby t.mission t.ctl.faults.press).2 } } : Ctl) = s.ctl
         rw [e]
         exact ht.2)
      | (refine ⟨ht.1, ?_⟩
         show (PropFH.execute t.prop t.ctl).2.2 = s.ctl
         unfold PropFH.execute
         dsimp only
         rw [if_pos ⟨by rw [ht.2]; exact h1, by rw [ht.2]; exact h2⟩]
         exact ht.2)

/-! ### C128 -/

/-- What a control cycle does when the ground has commanded safehold, from every state of the satellite and with every input, as
long as the radio works and propulsion is not already dealing with a fault: nothing that belongs to safehold. The attitude
state is the one from before and decides what the box is told; the converter task gets the commands from before; the
propulsion controller runs on as if nothing had happened. Low battery and failed wheels do not matter. -/
theorem C128_counterexample_nothing_stops (ρ : Orb.Rounding) (s s' : Sys L) (i : SysIn L) (msgs : List (List U8))
    (hr : ¬ RadioGivesUp s.mm i.mm.cc) (h1 : s.mm.fh.ctl.state ≠ Prp.handlingFault)
    (h2 : s.mm.fh.ctl.state ≠ Prp.venting) (h : (groundSafehold s).cycle ρ i = some (s', msgs)) :
    s'.mm.fh.mission = Mission.safehold ∧ s'.mm.adcs = s.mm.adcs ∧
      attitudeCycle i.att s.mm.adcs i.ssa s.att s.cmds = some (msgs, s'.att, s'.cmds) ∧
      s'.dcdc = ({ s.dcdc with adcsCmd := s.mm.adcsDcdc, sphCmd := s.mm.sphDcdc } : DCDC).execute ∧
      s'.mm.fh.ctl = ((s.mm.fh.ctl.interrupts i.ticks1).interrupts i.ticks2).execute
        { cc := i.mm.cc, functional := s'.dcdc.sph, pressure := i.pressure, temp2 := i.temp2, temp1 := i.temp1 } := by
  obtain ⟨q, hq⟩ : ∃ q, q = ({ (groundSafehold s) with mm := { (groundSafehold s).mm with fh :=
      { (groundSafehold s).mm.fh with ctl := s.mm.fh.ctl.interrupts i.ticks1 } } } : Sys L) := ⟨_, rfl⟩
  have hqm : q.mm.fh.mission = Mission.safehold := by rw [hq]; rfl
  have hqs : ¬ SafeholdFault q.mm i.mm.cc := by
    rw [safeholdFault_in_safehold _ _ hqm, hq]
    exact hr
  have hex := execute_in_safehold q.mm i.mm hqm hqs
  have hctl : (q.mm.fh.execute i.mm.cc).2.ctl = s.mm.fh.ctl.interrupts i.ticks1 := by
    rw [faults_keep_ctl q.mm.fh i.mm.cc hqm (by rw [hq]; exact h1) (by rw [hq]; exact h2), hq]
  obtain ⟨mm, hmm⟩ : ∃ mm, mm = (q.mm.afterFaults i.mm.cc).dispatchSafehold i.mm := ⟨_, rfl⟩
  have f1 : mm.fh = (q.mm.fh.execute i.mm.cc).2 := by
    rw [hmm]; unfold MM.dispatchSafehold; split <;> rfl
  have f2 : mm.adcs = s.mm.adcs := by
    rw [hmm]; unfold MM.dispatchSafehold; split <;> (show q.mm.adcs = _; rw [hq]; rfl)
  have f3 : mm.adcsDcdc = s.mm.adcsDcdc := by
    rw [hmm]; unfold MM.dispatchSafehold; split <;> (show q.mm.adcsDcdc = _; rw [hq]; rfl)
  have f4 : mm.sphDcdc = s.mm.sphDcdc := by
    rw [hmm]; unfold MM.dispatchSafehold; split <;> (show q.mm.sphDcdc = _; rw [hq]; rfl)
  have f5 : mm.fh.mission = Mission.safehold := by
    rw [f1]; exact (FHState.execute_mission _ _).trans hqm
  rw [← hmm] at hex
  unfold Sys.cycle at h
  dsimp only at h
  have hq' : (q.mm : MM) = { (groundSafehold s).mm with fh := { (groundSafehold s).mm.fh with ctl := (groundSafehold s).mm.fh.ctl.interrupts i.ticks1 } } := by
    rw [hq]; rfl
  rw [← hq', hex] at h
  dsimp only at h
  split at h
  · cases h
  · rename_i s2 m hatt
    obtain ⟨a1, a2, a3, a4⟩ := Sys.runAttitude_spec hatt
    have b1 : s2.mm.fh = mm.fh := by rw [a1]; exact (Sys.runDcdc_mm _).1
    have b2 : s2.mm.adcs = mm.adcs := by rw [a1]; exact (Sys.runDcdc_mm _).2
    obtain ⟨o, ho⟩ := Sys.runOrbit_idle ρ s2 i (by rw [b1, f5]; decide) (by rw [b1, f5]; decide)
    rw [ho] at h
    have h' := Option.some.inj h
    have e1 := congrArg (·.1) h'
    have e2 := congrArg (·.2) h'
    dsimp only at e1 e2
    subst e1 e2
    have hd : s2.dcdc = ({ s.dcdc with adcsCmd := s.mm.adcsDcdc, sphCmd := s.mm.sphDcdc } : DCDC).execute := by
      rw [a2, ← f3, ← f4]; rfl
    refine ⟨(congrArg (·.mission) b1).trans f5, b2.trans f2, ?_, hd, ?_⟩
    · have : ({ (groundSafehold s) with mm := mm } : Sys L).runDcdc.mm.adcs = s.mm.adcs := f2
      rw [← this]; exact a4
    · show (s2.mm.fh.ctl.interrupts i.ticks2).execute _ = _
      rw [show s2.mm.fh.ctl = s.mm.fh.ctl.interrupts i.ticks1 from by rw [b1, f1, hctl]]
      rfl

/-- So the box is told to be active, unless attitude control was in its startup state before. -/
theorem C128_counterexample_box_active (ρ : Orb.Rounding) (s s' : Sys L) (i : SysIn L) (msgs : List (List U8))
    (hr : ¬ RadioGivesUp s.mm i.mm.cc) (h1 : s.mm.fh.ctl.state ≠ Prp.handlingFault)
    (h2 : s.mm.fh.ctl.state ≠ Prp.venting) (ha : s.mm.adcs ≠ Adcs.startup)
    (h : (groundSafehold s).cycle ρ i = some (s', msgs)) :
    s'.mm.fh.mission = Mission.safehold ∧ msgs.filterMap modeIn = [1] := by
  obtain ⟨a, b, c, _⟩ := C128_counterexample_nothing_stops ρ s s' i msgs hr h1 h2 h
  refine ⟨a, ?_⟩
  rw [C52_mode c, if_neg ha]

/-- And a thruster firing that was scheduled still begins in safehold: if the countdown is over, the thrusters have power and no
propulsion fault is tripped, the cycle after the command ends with the thrusters firing. -/
theorem C128_counterexample_fires (ρ : Orb.Rounding) (s s' : Sys L) (i : SysIn L) (msgs : List (List U8))
    (hr : ¬ RadioGivesUp s.mm i.mm.cc) (hp : s.mm.fh.ctl.state = Prp.awaitFiring) (hc : s.mm.fh.ctl.countdown.toNat ≤ 1)
    (hon : s.mm.sphDcdc = true) (hd1 : s.dcdc.disableCmd = false) (hd2 : s.dcdc.resetCmd = false)
    (hf : ¬ SomeFault (s.mm.fh.ctl.checkFaults i.mm.cc).faults)
    (h : (groundSafehold s).cycle ρ i = some (s', msgs)) :
    s'.mm.fh.mission = Mission.safehold ∧ s'.mm.fh.ctl.state = Prp.firing ∧ s'.dcdc.sph = true := by
  obtain ⟨a, _, _, d, e⟩ := C128_counterexample_nothing_stops ρ s s' i msgs hr (by rw [hp]; decide) (by rw [hp]; decide) h
  have hs : s'.dcdc.sph = true := by
    rw [d]
    exact (DCDC.C48_follows ({ s.dcdc with adcsCmd := s.mm.adcsDcdc, sphCmd := s.mm.sphDcdc } : DCDC) hd1 hd2).2.1.trans hon
  refine ⟨a, ?_, hs⟩
  rw [e]
  exact C41_fires_on_time _ _ hp hc hs hf

/-- What does hold: a packet that also commands propulsion disabled and attitude control into its startup state shuts the
actuators down in that very cycle, as a fault does, whatever the state and the inputs; they stay shut down by `C56_stays`. The
full claim asks this of the safehold command alone. -/
theorem C128_with_both_commands_partial (ρ : Orb.Rounding) (s s' : Sys L) (i : SysIn L) (msgs : List (List U8))
    (h : (groundShutdown s).cycle ρ i = some (s', msgs)) : ShutDown s' ∧ CommandsPassive msgs := by
  obtain ⟨mm, e, g1, g2, g3⟩ := safehold_keeps ({ (groundShutdown s) with mm := { (groundShutdown s).mm with fh :=
    { (groundShutdown s).mm.fh with ctl := (groundShutdown s).mm.fh.ctl.interrupts i.ticks1 } } } : Sys L).mm i.mm rfl rfl rfl
  obtain ⟨a, b, _⟩ := Sys.after_mission ρ (groundShutdown s) s' i msgs mm e g1 g2 g3 h
  exact ⟨a, b⟩

/-- And what the radio fault handler still does: if the radio gives up, commanded safehold is entered properly after all. -/
theorem C128_radio_partial (ρ : Orb.Rounding) (s s' : Sys L) (i : SysIn L) (msgs : List (List U8))
    (hr : RadioGivesUp s.mm i.mm.cc) (h : (groundSafehold s).cycle ρ i = some (s', msgs)) : ShutDown s' ∧ CommandsPassive msgs :=
  C56_shutdown ρ (groundSafehold s) s' i msgs (show Mission.safehold ≠ _ by decide) (show Mission.safehold ≠ _ by decide)
    ((safeholdFault_in_safehold (groundSafehold s).mm i.mm.cc rfl).2 hr) h

/-- A satellite that is pointing, has a low battery and has a firing scheduled for this cycle. -/
def Spec.aboutToFire : Sys toyOrb :=
  { inTrouble with mm := { inTrouble.mm with
      adcs := Adcs.pointStandby, sphDcdc := true, adcsDcdc := true
      fh := { inTrouble.mm.fh with ctl := { (Ctl.init 14 20 20) with state := Prp.awaitFiring, countdown := 1 } } } }

/-- The hypotheses of the theorems above are met, with a low battery, which would have been answered had the ground not commanded
safehold. -/
example : ¬ RadioGivesUp aboutToFire.mm troubleIn.mm.cc ∧ aboutToFire.mm.adcs ≠ Adcs.startup ∧
    aboutToFire.mm.fh.ctl.state = Prp.awaitFiring ∧ aboutToFire.mm.fh.ctl.countdown.toNat ≤ 1 ∧
    ¬ SomeFault (aboutToFire.mm.fh.ctl.checkFaults troubleIn.mm.cc).faults ∧
    SafeholdFault aboutToFire.mm troubleIn.mm.cc := by
  refine ⟨by decide +kernel, by decide, by decide, by decide, by decide +kernel, ?_⟩
  rw [safeholdFault_iff]
  decide +kernel

/-- And the cycle does run to its end. -/
example : ((groundSafehold aboutToFire).cycle PAN.exact troubleIn).isSome = true := by decide +kernel

end PAN
