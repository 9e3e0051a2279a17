import Verif.Lemmas.MissionManager
/-!
Properties C31, C32, C33 and C60: the mission manager's responses to faults and its transitions.
-/
namespace PAN

namespace Spec

/-- One control cycle as the mission manager sees it: what the rest of the flight software (and the ground) does to the shared fields
since the mission manager last ran, and what the mission manager reads when it runs. -/
structure MStep where
  others : MM → MM
  inp : MMIn

/-- The mission manager over a history of control cycles; `none` if the kill switch stopped the flight computer. -/
def mrun : MM → List MStep → Option MM
  | s, [] => some s
  | s, x :: xs => match (x.others s).execute x.inp with
    | none => none
    | some s' => mrun s' xs

/-- Nothing but the mission manager changes the mission state in this history (no ground command to it). -/
def NoGroundMission (xs : List MStep) : Prop := ∀ x ∈ xs, ∀ s : MM, (x.others s).fh.mission = s.fh.mission

/-- A safehold-level problem: fault handling is enabled and, in a mission state in which it is acted upon, the battery is low, a wheel
has failed or the attitude estimate is lost; or the radio has been silent through the whole ladder. -/
def SafeholdFault (s : MM) (cc : U32) : Prop := s.fh.enabled = true ∧
  ((Active 0 s.fh.mission ∧ s.fh.lowBatt.isFaulted = true) ∨
   (Active 1 s.fh.mission ∧ (s.fh.wheel1.isFaulted = true ∨ s.fh.wheel2.isFaulted = true ∨ s.fh.wheel3.isFaulted = true ∨
     s.fh.wheelPot.isFaulted = true)) ∨
   (Active 3 s.fh.mission ∧ s.fh.attEst.isFaulted = true) ∨ (s.fh.quake.execute s.fh.radio cc).1 = .safehold)

/-- A standby-level problem. -/
def StandbyFault (s : MM) (cc : U32) : Prop := s.fh.enabled = true ∧
  ((Active 2 s.fh.mission ∧ s.fh.ctl.faults.press.isFaulted = true) ∨ (s.fh.quake.execute s.fh.radio cc).1 = .standby ∨
   (s.fh.piksi.execute s.fh.mission s.fh.piksiState s.fh.enterClose cc).1 = .standby ∨
   s.fh.ctl.state = Prp.handlingFault ∨ s.fh.ctl.state = Prp.venting)

/-- The satellites are known to be closer than `d`. -/
def Within (i : MMIn) (d : Rat) : Prop := i.relState ≠ 0 ∧ ∃ x, i.relDist = some x ∧ x < d

/-- The satellite is known to rotate slowly: the squared angular momentum is at most the square of the configured fraction of what the
wheels can hold (1047.2 rad/s times 1.35e-5 kg m^2). -/
def SlowEnough (s : MM) (i : MMIn) : Prop :=
  i.attValid = true ∧ ∃ x, i.momentum = some x ∧ x ≤ ((10472 : Rat) / 10 * (27 / 2000000) * s.factor) * ((10472 : Rat) / 10 * (27 / 2000000) * s.factor)

/-- Some attitude control hardware is reported broken. -/
def HardwareFault (s : MM) : Prop := s.functional.isFaulted = true ∨ s.fh.wheel1.isFaulted = true ∨ s.fh.wheel2.isFaulted = true ∨
  s.fh.wheel3.isFaulted = true ∨ s.fh.wheelPot.isFaulted = true

/-- The transitions of the mission state the spacecraft may make by itself, and their conditions: `s` is the state at the beginning of
the cycle and `h` the same after fault handling. -/
inductive Edge (s h : MM) (i : MMIn) : U8 → U8 → Prop
  | toSafehold (m : U8) : m ≠ Mission.startup → m ≠ Mission.manual → SafeholdFault s i.cc → Edge s h i m Mission.safehold
  | toStandby (m : U8) : m ≠ Mission.startup → m ≠ Mission.manual → m ≠ Mission.safehold → m ≠ Mission.initializationHold →
      m ≠ Mission.detumble → StandbyFault s i.cc → ¬ SafeholdFault s i.cc → Edge s h i m Mission.standby
  | undefined (m : U8) : 12 ≤ m.toNat → Edge s h i m Mission.safehold
  | deployed : 106 ≤ s.elapsed.toNat → ¬ HardwareFault h → Edge s h i Mission.startup Mission.detumble
  | hold : 106 ≤ s.elapsed.toNat → HardwareFault h → Edge s h i Mission.startup Mission.initializationHold
  | detumbled : SlowEnough s i → s.adcsDcdc = true → Edge s h i Mission.detumble Mission.standby
  | follow : s.desig = Desig.follower → Edge s h i Mission.standby Mission.follower
  | lead : s.desig = Desig.leader → Edge s h i Mission.standby Mission.leader
  | followClose : Within i s.closeTrig → Edge s h i Mission.follower Mission.followerCloseApproach
  | leadClose : Within i s.closeTrig → Edge s h i Mission.leader Mission.leaderCloseApproach
  | followDock : Within i s.dockTrig → s.dockingConfig = true → Edge s h i Mission.followerCloseApproach Mission.docking
  | leadDock : Within i s.dockTrig → s.dockingConfig = true → Edge s h i Mission.leaderCloseApproach Mission.docking
  | docked : i.docked = true → Edge s h i Mission.docking Mission.docked
  | dockTimeout : i.docked = false → s.haveSetDocking = true → s.dockTimeout < i.cc - s.enterDocking → Edge s h i Mission.docking Mission.standby

end Spec
open Spec

theorem safeholdFault_iff (s : MM) (cc : U32) : SafeholdFault s cc ↔ (s.fh.execute cc).1 = .safehold := (C25_flight_safehold s.fh cc).symm

theorem standbyFault_iff (s : MM) (cc : U32) (h : ¬ SafeholdFault s cc) : StandbyFault s cc ↔ (s.fh.execute cc).1 = .standby := by
  rw [C25_flight_standby]
  exact ⟨fun a => ⟨fun e => h ((safeholdFault_iff s cc).2 e), a⟩, And.right⟩

/-- C31. In every mission state but startup and manual, for every state and input: a safehold-level fault puts the spacecraft into
safehold in the same cycle, with attitude control in its startup state, propulsion disabled, both DC-DC converters commanded off and the
designation cleared. -/
theorem C31_safehold (s : MM) (i : MMIn) (h1 : s.fh.mission ≠ Mission.startup) (h2 : s.fh.mission ≠ Mission.manual)
    (hf : SafeholdFault s i.cc) : ∃ s', s.execute i = some s' ∧ s'.fh.mission = Mission.safehold ∧ s'.adcs = Adcs.startup ∧
      s'.fh.ctl.state = Prp.disabled ∧ s'.desig = Desig.undecided ∧ s'.adcsDcdc = false ∧ s'.sphDcdc = false := by
  rw [MM.execute_safehold s i h1 h2 ((safeholdFault_iff s i.cc).1 hf)]
  exact ⟨_, rfl, rfl, rfl, rfl, rfl, rfl, rfl⟩

/-- C31. In manual the mission state, the attitude state, the designation and the converters are left alone whatever the faults. -/
theorem C31_manual (s : MM) (i : MMIn) (hm : s.fh.mission = Mission.manual) :
    ∃ s', s.execute i = some s' ∧ s'.fh.mission = Mission.manual ∧ s'.adcs = s.adcs ∧ s'.desig = s.desig ∧ s'.adcsDcdc = s.adcsDcdc ∧
      s'.sphDcdc = s.sphDcdc := by
  rw [MM.execute_dispatch s i (Or.inr (Or.inl hm)) (Or.inr (Or.inl hm))]
  refine ⟨s.afterFaults i.cc, ?_, ?_, rfl, rfl, rfl, rfl⟩
  · rw [hm]; rfl
  · rw [MM.afterFaults_mission, hm]

/-- C33. A standby-level fault without a safehold-level one: in the mission states follower, leader, both close approaches, docking,
docked (and undefined ones) the spacecraft is in standby at the end of the cycle with standby pointing and its designation cleared. -/
theorem C33_standby (s : MM) (i : MMIn) (h1 : s.fh.mission ≠ Mission.startup) (h2 : s.fh.mission ≠ Mission.manual)
    (h3 : s.fh.mission ≠ Mission.safehold) (h4 : s.fh.mission ≠ Mission.initializationHold) (h5 : s.fh.mission ≠ Mission.detumble)
    (h6 : s.fh.mission ≠ Mission.standby) (hs : ¬ SafeholdFault s i.cc) (hf : StandbyFault s i.cc) :
    ∃ s', s.execute i = some s' ∧ s'.fh.mission = Mission.standby ∧ s'.adcs = Adcs.pointStandby ∧ s'.desig = Desig.undecided ∧
      s'.fh.ctl = (s.fh.execute i.cc).2.ctl ∧ s'.adcsDcdc = s.adcsDcdc ∧ s'.sphDcdc = s.sphDcdc := by
  rw [MM.execute_standby s i h1 h2 h3 h4 h5 h6 ((standbyFault_iff s i.cc hs).1 hf)]
  exact ⟨_, rfl, rfl, rfl, rfl, rfl, rfl, rfl⟩

/-- C33. In startup, manual, safehold, initialization hold, detumble and standby a standby response has no effect of its own: the cycle
does what it does without a response on the state the fault handlers leave. -/
theorem C33_no_effect (s : MM) (i : MMIn) (hs : ¬ SafeholdFault s i.cc)
    (hm : s.fh.mission = Mission.startup ∨ s.fh.mission = Mission.manual ∨ s.fh.mission = Mission.safehold ∨
      s.fh.mission = Mission.initializationHold ∨ s.fh.mission = Mission.detumble ∨ s.fh.mission = Mission.standby) :
    s.execute i = (s.afterFaults i.cc).dispatch i s.fh.mission := by
  refine MM.execute_dispatch s i (Or.inr (Or.inr fun h => hs ((safeholdFault_iff s i.cc).2 h))) ?_
  rcases hm with h | h | h | h | h | h <;> simp only [h, true_or, or_true]

theorem within_iff (i : MMIn) (d : Rat) : ltNan (MM.distance i) d = true ↔ Within i d := by
  unfold MM.distance Within
  split
  · rename_i h; simp [ltNan, h]
  · rename_i h
    cases i.relDist with
    | none => simp [ltNan]
    | some x => simp only [ltNan, decide_eq_true_eq, Option.some.injEq, exists_eq_left']; exact ⟨fun a => ⟨h, a⟩, And.right⟩

theorem slowEnough_iff (s : MM) (i : MMIn) :
    (i.attValid && leNan i.momentum (s.detumbleThreshold * s.detumbleThreshold)) = true ↔ SlowEnough s i := by
  have ht : s.detumbleThreshold = ((10472 : Rat) / 10 * (27 / 2000000) * s.factor) := by
    unfold MM.detumbleThreshold
    have : ((104720 : Rat) / 100) * (135 / 10000000) = (10472 : Rat) / 10 * (27 / 2000000) := by decide +kernel
    rw [this]
  rw [ht]
  unfold SlowEnough
  cases i.momentum with
  | none => simp [leNan]
  | some x => simp [leNan]

theorem hwFaulted_iff (s : MM) : s.hwFaulted = true ↔ HardwareFault s := by
  unfold MM.hwFaulted HardwareFault
  simp only [Bool.or_eq_true, or_assoc]

/-- The docking timeout only applies once the entry cycle has been recorded. -/
theorem dispatchDocking_mission (h : MM) (i : MMIn) :
    (i.docked = true → (h.dispatchDocking i).fh.mission = Mission.docked) ∧
    (i.docked = false → h.haveSetDocking = true → h.dockTimeout < i.cc - h.enterDocking → (h.dispatchDocking i).fh.mission = Mission.standby) ∧
    (i.docked = false → (h.haveSetDocking = false ∨ ¬ h.dockTimeout < i.cc - h.enterDocking) →
      (h.dispatchDocking i).fh.mission = h.fh.mission) := by
  refine ⟨fun hd => ?_, fun hd hf ht => ?_, fun hd hf => ?_⟩
  · unfold MM.dispatchDocking; dsimp only; rw [if_pos hd]; rfl
  · unfold MM.dispatchDocking
    dsimp only
    rw [if_neg (show ¬ i.docked = true by rw [hd]; decide), if_neg (show ¬ h.haveSetDocking = false by rw [hf]; decide), if_pos ht]
    rfl
  · unfold MM.dispatchDocking
    dsimp only
    rw [if_neg (show ¬ i.docked = true by rw [hd]; decide)]
    by_cases hs : h.haveSetDocking = false
    · rw [if_pos hs]
      rw [if_neg]
      show ¬ i.cc - i.cc > h.dockTimeout
      rw [gt_iff_lt, BitVec.lt_def, BitVec.sub_self]
      exact Nat.not_lt_zero _
    · rw [if_neg hs, if_neg (hf.resolve_left hs)]

/-- C60. The mission manager changes the mission state only along the listed transitions and only under their conditions. -/
theorem C60_edges (s s' : MM) (i : MMIn) (he : s.execute i = some s') (hne : s'.fh.mission ≠ s.fh.mission) :
    Edge s (s.afterFaults i.cc) i s.fh.mission s'.fh.mission := by
  have hmis := MM.afterFaults_mission s i.cc
  rcases MM.execute_cases s i with ⟨h1, h2, hr, e⟩ | ⟨h1, h2, h3, h4, h5, h6, hr, e⟩ | ⟨_, _, e⟩
  · rw [e] at he; cases he
    exact .toSafehold _ h1 h2 ((safeholdFault_iff s i.cc).2 hr)
  · rw [e] at he; cases he
    have hs : ¬ SafeholdFault s i.cc := fun h => by rw [safeholdFault_iff, hr] at h; exact absurd h (by decide)
    exact .toStandby _ h1 h2 h3 h4 h5 ((standbyFault_iff s i.cc hs).2 hr) hs
  · rw [e] at he
    generalize hh : s.afterFaults i.cc = h at *
    have f1 : h.elapsed = s.elapsed := by rw [← hh]; rfl
    have f2 : h.adcsDcdc = s.adcsDcdc := by rw [← hh]; rfl
    have f3 : h.desig = s.desig := by rw [← hh]; rfl
    have f4 : h.closeTrig = s.closeTrig := by rw [← hh]; rfl
    have f5 : h.dockTrig = s.dockTrig := by rw [← hh]; rfl
    have f6 : h.dockingConfig = s.dockingConfig := by rw [← hh]; rfl
    have f7 : h.haveSetDocking = s.haveSetDocking := by rw [← hh]; rfl
    have f8 : h.enterDocking = s.enterDocking := by rw [← hh]; rfl
    have f9 : h.dockTimeout = s.dockTimeout := by rw [← hh]; rfl
    have f10 : h.factor = s.factor := by rw [← hh]; rfl
    generalize hm : s.fh.mission = m at *
    rcases MM.mission_cases m with c | c | c | c | c | c | c | c | c | c | c | c | c
    · subst c
      rw [MM.dispatch_startup] at he
      unfold MM.dispatchStartup at he
      split at he
      · cases he
      split at he
      · split at he <;> cases he <;> exact absurd hmis hne
      rename_i hel
      have hel' : 106 ≤ s.elapsed.toNat := by rw [← f1]; exact Nat.le_of_not_lt hel
      dsimp only at he
      generalize hk : (if h.fh.radio.state = Radio.disabled then _ else _ : MM) = k at he
      have hw : k.hwFaulted = h.hwFaulted := by rw [← hk]; split <;> rfl
      split at he
      · rename_i hf
        cases he
        exact .hold hel' ((hwFaulted_iff h).1 (hw ▸ hf))
      · rename_i hf
        cases he
        exact .deployed hel' (fun hh => hf (hw ▸ (hwFaulted_iff h).2 hh))
    · subst c
      rw [MM.dispatch_detumble] at he
      cases he
      unfold MM.dispatchDetumble at hne ⊢
      split at hne
      · rename_i hs
        rw [if_pos hs]
        split at hne
        · exact absurd hmis hne
        · rename_i hd
          rw [if_neg hd]
          refine .detumbled ?_ ?_
          · have := (slowEnough_iff h i).1 hs
            unfold SlowEnough at this ⊢
            rw [f10] at this
            exact this
          · rw [← f2]; simpa using hd
      · exact absurd hmis hne
    · subst c
      rw [MM.dispatch_hold] at he
      cases he; exact absurd hmis hne
    · subst c
      rw [MM.dispatch_standby] at he
      cases he
      unfold MM.dispatchStandby at hne ⊢
      split at hne
      · rename_i hd
        rw [if_pos hd]
        exact .follow (f3 ▸ hd)
      · rename_i hd
        rw [if_neg hd]
        split at hne
        · rename_i hd'
          rw [if_pos hd']
          exact .lead (f3 ▸ hd')
        · exact absurd hmis hne
    · subst c
      rw [MM.dispatch_follower] at he
      cases he
      unfold MM.dispatchFar at hne ⊢
      split at hne
      · rename_i hd
        rw [if_pos hd]
        exact .followClose (f4 ▸ (within_iff i _).1 hd)
      · exact absurd hmis hne
    · subst c
      rw [MM.dispatch_leader] at he
      cases he
      unfold MM.dispatchFar at hne ⊢
      split at hne
      · rename_i hd
        rw [if_pos hd]
        exact .leadClose (f4 ▸ (within_iff i _).1 hd)
      · exact absurd hmis hne
    · subst c
      rw [MM.dispatch_followerClose] at he
      cases he
      unfold MM.dispatchClose at hne ⊢
      split at hne
      · rename_i hd
        rw [if_pos hd]
        rw [Bool.and_eq_true, within_iff, f5, f6] at hd
        exact .followDock hd.1 hd.2
      · exact absurd hmis hne
    · subst c
      rw [MM.dispatch_leaderClose] at he
      cases he
      unfold MM.dispatchClose at hne ⊢
      split at hne
      · rename_i hd
        rw [if_pos hd]
        rw [Bool.and_eq_true, within_iff, f5, f6] at hd
        exact .leadDock hd.1 hd.2
      · exact absurd hmis hne
    · subst c
      rw [MM.dispatch_docking] at he
      cases he
      obtain ⟨d1, d2, d3⟩ := dispatchDocking_mission h i
      cases hd : i.docked with
      | true => rw [d1 hd]; exact .docked hd
      | false =>
        by_cases ht : h.haveSetDocking = true ∧ h.dockTimeout < i.cc - h.enterDocking
        · rw [d2 hd ht.1 ht.2]
          rw [f7, f8, f9] at ht
          exact .dockTimeout hd ht.1 ht.2
        · exfalso
          refine hne ?_
          rw [d3 hd (by by_cases hq : h.haveSetDocking = true
                        · exact Or.inr fun x => ht ⟨hq, x⟩
                        · exact Or.inl (by simpa using hq))]
          exact hmis
    · subst c
      rw [MM.dispatch_docked] at he
      cases he; exact absurd hmis hne
    · subst c
      rw [MM.dispatch_safehold] at he
      cases he
      unfold MM.dispatchSafehold at hne
      split at hne <;> exact absurd hmis hne
    · subst c
      rw [MM.dispatch_manual] at he
      cases he; exact absurd hmis hne
    · rw [MM.dispatch_undefined _ _ _ c] at he
      cases he
      exact .undefined _ c

/-- C60. In a cycle without a safehold- or standby-level fault, every listed transition whose condition holds is made (in startup,
unless the kill switch is set). -/
theorem C60_taken (s : MM) (i : MMIn) (m' : U8) (hs : ¬ SafeholdFault s i.cc) (hb : ¬ StandbyFault s i.cc)
    (hk : s.fh.mission = Mission.startup → s.killSwitch ≠ 127) (he : Edge s (s.afterFaults i.cc) i s.fh.mission m') :
    ∃ s', s.execute i = some s' ∧ s'.fh.mission = m' := by
  have e := MM.execute_dispatch s i (Or.inr (Or.inr fun h => hs ((safeholdFault_iff s i.cc).2 h)))
    (Or.inr (Or.inr (Or.inl fun h => hb ((standbyFault_iff s i.cc hs).2 h))))
  rw [e]
  generalize hh : s.afterFaults i.cc = h at *
  have f0 : h.killSwitch = s.killSwitch := by rw [← hh]; rfl
  have f1 : h.elapsed = s.elapsed := by rw [← hh]; rfl
  have f2 : h.adcsDcdc = s.adcsDcdc := by rw [← hh]; rfl
  have f3 : h.desig = s.desig := by rw [← hh]; rfl
  have f4 : h.closeTrig = s.closeTrig := by rw [← hh]; rfl
  have f5 : h.dockTrig = s.dockTrig := by rw [← hh]; rfl
  have f6 : h.dockingConfig = s.dockingConfig := by rw [← hh]; rfl
  have f7 : h.haveSetDocking = s.haveSetDocking := by rw [← hh]; rfl
  have f8 : h.enterDocking = s.enterDocking := by rw [← hh]; rfl
  have f9 : h.dockTimeout = s.dockTimeout := by rw [← hh]; rfl
  have f10 : h.factor = s.factor := by rw [← hh]; rfl
  generalize hm : s.fh.mission = m at *
  cases he with
  | toSafehold _ _ _ a => exact absurd a hs
  | toStandby _ _ _ _ _ _ a => exact absurd a hb
  | undefined _ a => rw [MM.dispatch_undefined _ _ _ a]; exact ⟨_, rfl, rfl⟩
  | deployed a b =>
    rw [MM.dispatch_startup]
    unfold MM.dispatchStartup
    rw [if_neg (f0 ▸ hk rfl), if_neg (by rw [f1]; exact Nat.not_lt.2 a)]
    dsimp only
    generalize hq : (if h.fh.radio.state = Radio.disabled then _ else _ : MM) = k
    have hw : k.hwFaulted = h.hwFaulted := by rw [← hq]; split <;> rfl
    rw [if_neg (by rw [hw, hwFaulted_iff]; exact b)]
    exact ⟨_, rfl, rfl⟩
  | hold a b =>
    rw [MM.dispatch_startup]
    unfold MM.dispatchStartup
    rw [if_neg (f0 ▸ hk rfl), if_neg (by rw [f1]; exact Nat.not_lt.2 a)]
    dsimp only
    generalize hq : (if h.fh.radio.state = Radio.disabled then _ else _ : MM) = k
    have hw : k.hwFaulted = h.hwFaulted := by rw [← hq]; split <;> rfl
    rw [if_pos (by rw [hw, hwFaulted_iff]; exact b)]
    exact ⟨_, rfl, rfl⟩
  | detumbled a b =>
    have a' : SlowEnough h i := by unfold SlowEnough at a ⊢; rw [f10]; exact a
    refine ⟨_, MM.dispatch_detumble h i, ?_⟩
    unfold MM.dispatchDetumble
    rw [if_pos ((slowEnough_iff h i).2 a'), if_neg (by rw [f2, b]; decide)]; rfl
  | follow a =>
    refine ⟨_, MM.dispatch_standby h i, ?_⟩
    unfold MM.dispatchStandby
    rw [if_pos (f3.trans a)]; rfl
  | lead a =>
    refine ⟨_, MM.dispatch_standby h i, ?_⟩
    unfold MM.dispatchStandby
    rw [if_neg (by rw [f3, a]; decide), if_pos (f3.trans a)]; rfl
  | followClose a =>
    refine ⟨_, MM.dispatch_follower h i, ?_⟩
    unfold MM.dispatchFar
    rw [if_pos ((within_iff i _).2 (f4 ▸ a))]; rfl
  | leadClose a =>
    refine ⟨_, MM.dispatch_leader h i, ?_⟩
    unfold MM.dispatchFar
    rw [if_pos ((within_iff i _).2 (f4 ▸ a))]; rfl
  | followDock a b =>
    refine ⟨_, MM.dispatch_followerClose h i, ?_⟩
    unfold MM.dispatchClose
    rw [if_pos (by rw [Bool.and_eq_true, within_iff, f5, f6]; exact ⟨a, b⟩)]; rfl
  | leadDock a b =>
    refine ⟨_, MM.dispatch_leaderClose h i, ?_⟩
    unfold MM.dispatchClose
    rw [if_pos (by rw [Bool.and_eq_true, within_iff, f5, f6]; exact ⟨a, b⟩)]; rfl
  | docked a => exact ⟨_, MM.dispatch_docking h i, (dispatchDocking_mission h i).1 a⟩
  | dockTimeout a b c => exact ⟨_, MM.dispatch_docking h i, (dispatchDocking_mission h i).2.1 a (f7.trans b) (by rw [f8, f9]; exact c)⟩

/-- C32, one cycle: in safehold the mission manager stays in safehold (and runs to completion). -/
theorem safehold_step (s : MM) (i : MMIn) (hm : s.fh.mission = Mission.safehold) :
    ∃ s', s.execute i = some s' ∧ s'.fh.mission = Mission.safehold := by
  rcases MM.execute_cases s i with ⟨_, _, _, e⟩ | ⟨_, _, h, _⟩ | ⟨_, _, e⟩
  · exact ⟨_, e, rfl⟩
  · exact absurd hm h
  · rw [e, hm, MM.dispatch_safehold]
    refine ⟨_, rfl, ?_⟩
    unfold MM.dispatchSafehold
    split <;> exact (MM.afterFaults_mission s i.cc).trans hm

/-- C32. From safehold, over any number of control cycles with any inputs, whatever the other tasks do (as long as nobody commands the
mission state from outside), the spacecraft stays in safehold. -/
theorem C32_stays (xs : List MStep) (hx : NoGroundMission xs) (s : MM) (hm : s.fh.mission = Mission.safehold) :
    ∃ s', mrun s xs = some s' ∧ s'.fh.mission = Mission.safehold := by
  induction xs generalizing s with
  | nil => exact ⟨s, rfl, hm⟩
  | cons x xs ih =>
    obtain ⟨s', e, hm'⟩ := safehold_step (x.others s) x.inp ((hx x (List.mem_cons_self ..) s).trans hm)
    obtain ⟨s'', e', h⟩ := ih (fun y hy => hx y (List.mem_cons_of_mem _ hy)) s' hm'
    refine ⟨s'', ?_, h⟩
    unfold mrun
    rw [e]
    exact e'

/-- C32. The same for the whole stretch: from the cycle of a safehold-level fault on, in any mission state but startup and manual, every
later cycle ends in safehold. -/
theorem C32_after_fault (s : MM) (i : MMIn) (xs : List MStep) (hx : NoGroundMission xs) (h1 : s.fh.mission ≠ Mission.startup)
    (h2 : s.fh.mission ≠ Mission.manual) (hf : SafeholdFault s i.cc) :
    ∃ s', mrun s (⟨id, i⟩ :: xs) = some s' ∧ s'.fh.mission = Mission.safehold := by
  obtain ⟨s', e, hm, _⟩ := C31_safehold s i h1 h2 hf
  obtain ⟨s'', e', h⟩ := C32_stays xs hx s' hm
  refine ⟨s'', ?_, h⟩
  simp only [mrun, id, e]
  exact e'

/-! Non-vacuity: the constructed spacecraft after ground has commanded it to `leader`, with and without a low battery. -/

/-- A spacecraft in mission state `m`, otherwise as constructed. -/
def Spec.inState (m : U8) : MM := { MM.init 14 20 20 with fh := { (MM.init 14 20 20).fh with mission := m } }

/-- An input in cycle `cc` with the other satellite `d` metres away. -/
def Spec.apart (cc : U32) (d : Rat) : MMIn := { cc, attValid := true, momentum := some (1 / 100000), relState := 1, relDist := some d, docked := false }

/-- The low battery fault as it stands after two bad readings. -/
def Spec.lowBattery (s : MM) : MM := { s with fh := { s.fh with lowBatt := ((s.fh.lowBatt.evaluate 4 true).evaluate 5 true) } }

example : SafeholdFault (lowBattery (inState Mission.leader)) 5 ∧ ¬ SafeholdFault (inState Mission.leader) 5 ∧
    ¬ StandbyFault (inState Mission.leader) 5 := by
  rw [safeholdFault_iff, safeholdFault_iff]
  refine ⟨by decide +kernel, by decide +kernel, fun h => ?_⟩
  rw [standbyFault_iff _ _ (by rw [safeholdFault_iff]; decide +kernel)] at h
  revert h; decide +kernel
example : Edge (inState Mission.leader) ((inState Mission.leader).afterFaults 5) (apart 5 1999) Mission.leader Mission.leaderCloseApproach :=
  .leadClose ⟨by decide, 1999, rfl, by decide +kernel⟩
example : ((inState Mission.leader).execute (apart 5 2000)).map (·.fh.mission) = some Mission.leader ∧
    ((inState Mission.leader).execute (apart 5 1999)).map (·.fh.mission) = some Mission.leaderCloseApproach ∧
    ((lowBattery (inState Mission.leader)).execute (apart 5 1999)).map (·.fh.mission) = some Mission.safehold := by decide +kernel
example : StandbyFault { inState Mission.docking with fh := { (inState Mission.docking).fh with ctl := { Ctl.init 14 20 20 with state := Prp.venting } } } 5 :=
  ⟨rfl, Or.inr (Or.inr (Or.inr (Or.inr rfl)))⟩
example : NoGroundMission [⟨fun s => { s with adcs := Adcs.zeroL, reset := true }, apart 5 1999⟩] := by
  intro x hx s; rw [List.mem_singleton] at hx; subst hx; rfl

end PAN
