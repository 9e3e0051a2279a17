import Verif.Props.MissionTimers
/-!
Property C63: what a transition of the mission state does besides, and that nothing of it happens otherwise.
-/
namespace PAN

namespace Spec

/-- The attitude control mode documented for each mission state at its beginning. -/
def modeFor (m : U8) : U8 :=
  if m = Mission.safehold then Adcs.startup
  else if m = Mission.detumble ∨ m = Mission.initializationHold then Adcs.detumble
  else if m = Mission.leaderCloseApproach ∨ m = Mission.followerCloseApproach then Adcs.pointDocking
  else if m = Mission.docking ∨ m = Mission.docked then Adcs.zeroTorque
  else Adcs.pointStandby

/-- What comes with a transition from `s` to `s'` in cycle `cc`; `prop0` is the propulsion state after fault handling. -/
structure Configured (s s' : MM) (cc : U32) (prop0 : U32) : Prop where
  /-- Attitude control is in the mode of the new mission state. -/
  mode : s'.adcs = modeFor s'.fh.mission
  /-- The wait for the GPS receiver starts again with a close approach. -/
  close : s'.fh.enterClose =
    if s'.fh.mission = Mission.leaderCloseApproach ∨ s'.fh.mission = Mission.followerCloseApproach then cc else s.fh.enterClose
  /-- The safehold timer starts again with safehold. -/
  safe : s'.safeholdBegin = if s'.fh.mission = Mission.safehold then cc else s.safeholdBegin
  /-- Deployment is recorded when startup ends in detumbling, and never withdrawn. -/
  deployed : s'.deployed = if s'.fh.mission = Mission.detumble then true else s.deployed
  /-- The designation is cleared when docked. -/
  docked : s'.fh.mission = Mission.docked → s'.desig = Desig.undecided
  /-- The designation is cleared by a fault. -/
  fault : (s'.fh.mission = Mission.safehold ∧ SafeholdFault s cc) ∨
    (s'.fh.mission = Mission.standby ∧ s.fh.mission ≠ Mission.detumble ∧ ¬ SafeholdFault s cc ∧ StandbyFault s cc) → s'.desig = Desig.undecided
  /-- It is kept otherwise. -/
  kept : s'.fh.mission ≠ Mission.docked → ¬ SafeholdFault s cc → ¬ StandbyFault s cc → s'.desig = s.desig
  /-- Propulsion is idle, its converter on and the GPS receiver powered when startup ends. -/
  begun : s'.fh.mission = Mission.detumble ∨ s'.fh.mission = Mission.initializationHold →
    s'.fh.ctl.state = Prp.idle ∧ s'.sphDcdc = true ∧ s'.piksiOff = false
  /-- The attitude control converter is off in safehold. -/
  dcdc : s'.adcsDcdc = if s'.fh.mission = Mission.safehold then false else s.adcsDcdc
  /-- Otherwise, and without a safehold fault, the propulsion state is left as fault handling left it. -/
  prop : s'.fh.mission ≠ Mission.detumble → s'.fh.mission ≠ Mission.initializationHold → ¬ SafeholdFault s cc → s'.fh.ctl.state = prop0

end Spec
open Spec

/-- The fields of the theorem that fault handling does not touch. -/
def cfgFields (s : MM) : U8 × U8 × Bool × U32 × U32 × Bool × Bool × Bool :=
  (s.adcs, s.desig, s.deployed, s.fh.enterClose, s.safeholdBegin, s.sphDcdc, s.adcsDcdc, s.piksiOff)

theorem afterFaults_cfg (s : MM) (cc : U32) : cfgFields (s.afterFaults cc) = cfgFields s := by
  unfold cfgFields
  rw [show (s.afterFaults cc).fh.enterClose = s.fh.enterClose from FHState.execute_enterClose _ _]
  rfl

theorem hwPolled_cfg (s : MM) : cfgFields s.hwPolled = cfgFields s := by
  unfold MM.hwPolled
  dsimp only
  split_ifs <;> rfl

theorem hwPolled_ctl (s : MM) : s.hwPolled.fh.ctl = s.fh.ctl := by
  unfold MM.hwPolled
  dsimp only
  split_ifs <;> rfl

/-- A two-argument transition from a state `k` whose fields are those of `s`. -/
theorem goto2_configured (s k : MM) (cc : U32) (m a : U8) (hk : cfgFields k = cfgFields s) (ha : a = modeFor m)
    (hd : m ≠ Mission.detumble) (hh : m ≠ Mission.initializationHold) (hdk : m ≠ Mission.docked)
    (hsf : m = Mission.safehold → ¬ SafeholdFault s cc) (hst : m = Mission.standby → s.fh.mission = Mission.detumble ∨ ¬ StandbyFault s cc) :
    Configured s (k.goto2 cc m a) cc k.fh.ctl.state := by
  unfold cfgFields at hk
  simp only [Prod.mk.injEq] at hk
  obtain ⟨h1, h2, h3, h4, h5, h6, h7, h8⟩ := hk
  refine ⟨ha, ?_, ?_, ?_, fun h => absurd h hdk, ?_, fun _ _ _ => h2, ?_, ?_, fun _ _ _ => rfl⟩
  · rw [← h4]; rfl
  · rw [← h5]; rfl
  · show k.deployed = if m = Mission.detumble then true else s.deployed
    rw [if_neg hd]; exact h3
  · intro h
    rcases h with ⟨h, h'⟩ | ⟨h, h', _, h''⟩
    · exact absurd h' (hsf h)
    · exact absurd h'' ((hst h).resolve_left h')
  · intro h; exact absurd h (fun h => h.elim hd hh)
  · rw [← h7]; rfl

theorem goto3_begun (s k : MM) (cc : U32) (m : U8) (hk : cfgFields k = (s.adcs, s.desig, if m = Mission.detumble then true else s.deployed,
    s.fh.enterClose, s.safeholdBegin, s.sphDcdc, s.adcsDcdc, false)) (hm : m = Mission.detumble ∨ m = Mission.initializationHold) (p : U32) :
    Configured s (k.goto3 cc m Adcs.detumble Prp.idle) cc p := by
  unfold cfgFields at hk
  simp only [Prod.mk.injEq] at hk
  obtain ⟨h1, h2, h3, h4, h5, h6, h7, h8⟩ := hk
  have e1 : m ≠ Mission.safehold := by rcases hm with h | h <;> rw [h] <;> decide
  have e2 : ¬ (m = Mission.leaderCloseApproach ∨ m = Mission.followerCloseApproach) := by rcases hm with h | h <;> rw [h] <;> decide
  have e3 : m ≠ Mission.docked := by rcases hm with h | h <;> rw [h] <;> decide
  have e4 : m ≠ Mission.standby := by rcases hm with h | h <;> rw [h] <;> decide
  refine ⟨?_, ?_, ?_, h3, fun h => absurd h e3, ?_, fun _ _ _ => h2, fun _ => ⟨rfl, rfl, h8⟩, ?_, ?_⟩
  · show Adcs.detumble = modeFor m
    unfold modeFor
    rw [if_neg e1, if_pos hm]
  · rw [← h4]; rfl
  · rw [← h5]; rfl
  · intro h; exact absurd h (fun h => h.elim (fun h => e1 h.1) (fun h => e4 h.1))
  · rw [← h7]; rfl
  · intro a b; exact absurd hm (fun h => h.elim a b)

theorem goto2_ne (k : MM) (cc : U32) (m a : U8) : (k.goto2 cc m a).fh.mission = m := rfl

/-- C63. Whenever the mission manager changes the mission state, attitude control, propulsion, timers, designation and the deployment
record are set as documented for the new state, in the same cycle. -/
theorem C63_configured (s s' : MM) (i : MMIn) (he : s.execute i = some s') (hne : s'.fh.mission ≠ s.fh.mission) :
    Configured s s' i.cc (s.fh.execute i.cc).2.ctl.state := by
  have hmis := MM.afterFaults_mission s i.cc
  have hcfg := afterFaults_cfg s i.cc
  have hctl : (s.afterFaults i.cc).fh.ctl.state = (s.fh.execute i.cc).2.ctl.state := rfl
  rcases MM.execute_cases s i with ⟨h1, h2, hr, e⟩ | ⟨h1, h2, h3, h4, h5, h6, hr, e⟩ | ⟨c1, c2, e⟩
  · rw [e] at he; cases he
    have hs := (safeholdFault_iff s i.cc).2 hr
    unfold cfgFields at hcfg
    simp only [Prod.mk.injEq] at hcfg
    obtain ⟨g1, g2, g3, g4, g5, g6, g7, g8⟩ := hcfg
    refine ⟨rfl, g4, rfl, g3, fun _ => rfl, fun _ => rfl, fun _ h => absurd hs h, ?_, rfl, fun _ _ h => absurd hs h⟩
    intro h
    exact absurd h (by show ¬ (Mission.safehold = Mission.detumble ∨ Mission.safehold = Mission.initializationHold); decide)
  · rw [e] at he; cases he
    have hs : ¬ SafeholdFault s i.cc := fun h => by rw [safeholdFault_iff, hr] at h; exact absurd h (by decide)
    have hb := (standbyFault_iff s i.cc hs).2 hr
    unfold cfgFields at hcfg
    simp only [Prod.mk.injEq] at hcfg
    obtain ⟨g1, g2, g3, g4, g5, g6, g7, g8⟩ := hcfg
    refine ⟨rfl, g4, g5, g3, fun _ => rfl, fun _ => rfl, fun _ _ h => absurd hb h, ?_, g7, fun _ _ _ => rfl⟩
    intro h
    exact absurd h (by show ¬ (Mission.standby = Mission.detumble ∨ Mission.standby = Mission.initializationHold); decide)
  · have hnb : ∀ m : U8, s.fh.mission = m → m ≠ Mission.startup → m ≠ Mission.manual → m ≠ Mission.safehold → m ≠ Mission.initializationHold →
        m ≠ Mission.detumble → m ≠ Mission.standby → ¬ StandbyFault s i.cc := by
      intro m hm a1 a2 a3 a4 a5 a6 hb
      have hs : ¬ SafeholdFault s i.cc := by
        intro hs
        rcases c1 with c | c | c
        · exact a1 (hm.symm.trans c)
        · exact a2 (hm.symm.trans c)
        · exact c ((safeholdFault_iff s i.cc).1 hs)
      rcases c2 with c | c | c | c | c | c | c
      · exact a1 (hm.symm.trans c)
      · exact a2 (hm.symm.trans c)
      · exact c ((standbyFault_iff s i.cc hs).1 hb)
      · exact a3 (hm.symm.trans c)
      · exact a4 (hm.symm.trans c)
      · exact a5 (hm.symm.trans c)
      · exact a6 (hm.symm.trans c)
    rw [e] at he
    rw [← hctl]
    rw [← hmis] at hne
    generalize s.afterFaults i.cc = h at *
    rcases MM.mission_cases s.fh.mission with c | c | c | c | c | c | c | c | c | c | c | c | c
    · rw [c, MM.dispatch_startup] at he
      unfold MM.dispatchStartup at he
      split at he
      · cases he
      split at he
      · split at he <;> cases he <;> exact absurd rfl hne
      dsimp only at he
      generalize hk : (if h.fh.radio.state = Radio.disabled then _ else _ : MM) = k at he
      have hke : cfgFields k = (h.adcs, h.desig, h.deployed, h.fh.enterClose, h.safeholdBegin, h.sphDcdc, h.adcsDcdc, false) := by
        rw [← hk]; split <;> rfl
      unfold cfgFields at hcfg
      simp only [Prod.mk.injEq] at hcfg
      obtain ⟨g1, g2, g3, g4, g5, g6, g7, g8⟩ := hcfg
      rw [g1, g2, g3, g4, g5, g6, g7] at hke
      have hp := hwPolled_cfg k
      rw [hke] at hp
      split at he
      · cases he
        exact goto3_begun s k.hwPolled i.cc Mission.initializationHold hp (Or.inr rfl) _
      · cases he
        refine goto3_begun s { k.hwPolled with deployed := true } i.cc Mission.detumble ?_ (Or.inl rfl) _
        unfold cfgFields at hp ⊢
        simp only [Prod.mk.injEq] at hp ⊢
        exact ⟨hp.1, hp.2.1, rfl, hp.2.2.2⟩
    · rw [c, MM.dispatch_detumble] at he
      cases he
      unfold MM.dispatchDetumble at hne ⊢
      split at hne
      · rename_i hs
        rw [if_pos hs]
        split at hne
        · exact absurd rfl hne
        · rename_i hd
          rw [if_neg hd]
          exact goto2_configured s h i.cc _ _ hcfg rfl (by decide) (by decide) (by decide) (fun h => absurd h (by decide)) (fun _ => Or.inl c)
      · exact absurd rfl hne
    · rw [c, MM.dispatch_hold] at he
      cases he
      exact absurd rfl hne
    · rw [c, MM.dispatch_standby] at he
      cases he
      unfold MM.dispatchStandby at hne ⊢
      split
      · exact goto2_configured s h i.cc _ _ hcfg rfl (by decide) (by decide) (by decide) (fun h => absurd h (by decide)) (fun h => absurd h (by decide))
      · rename_i hd
        rw [if_neg hd] at hne
        split
        · exact goto2_configured s h i.cc _ _ hcfg rfl (by decide) (by decide) (by decide) (fun h => absurd h (by decide)) (fun h => absurd h (by decide))
        · rename_i hd'
          rw [if_neg hd'] at hne
          exact absurd rfl hne
    · rw [c, MM.dispatch_follower] at he
      cases he
      unfold MM.dispatchFar at hne ⊢
      split
      · exact goto2_configured s h i.cc _ _ hcfg rfl (by decide) (by decide) (by decide) (fun h => absurd h (by decide)) (fun h => absurd h (by decide))
      · rename_i hd; rw [if_neg hd] at hne; exact absurd rfl hne
    · rw [c, MM.dispatch_leader] at he
      cases he
      unfold MM.dispatchFar at hne ⊢
      split
      · exact goto2_configured s h i.cc _ _ hcfg rfl (by decide) (by decide) (by decide) (fun h => absurd h (by decide)) (fun h => absurd h (by decide))
      · rename_i hd; rw [if_neg hd] at hne; exact absurd rfl hne
    · rw [c, MM.dispatch_followerClose] at he
      cases he
      unfold MM.dispatchClose at hne ⊢
      split
      · exact goto2_configured s h i.cc _ _ hcfg rfl (by decide) (by decide) (by decide) (fun h => absurd h (by decide)) (fun h => absurd h (by decide))
      · rename_i hd; rw [if_neg hd] at hne; exact absurd rfl hne
    · rw [c, MM.dispatch_leaderClose] at he
      cases he
      unfold MM.dispatchClose at hne ⊢
      split
      · exact goto2_configured s h i.cc _ _ hcfg rfl (by decide) (by decide) (by decide) (fun h => absurd h (by decide)) (fun h => absurd h (by decide))
      · rename_i hd; rw [if_neg hd] at hne; exact absurd rfl hne
    · have hnb' := hnb _ c (by decide) (by decide) (by decide) (by decide) (by decide) (by decide)
      rw [c, MM.dispatch_docking] at he
      cases he
      unfold MM.dispatchDocking at hne ⊢
      dsimp only at hne ⊢
      generalize hk : (if h.haveSetDocking = false then _ else _ : MM) = k at hne ⊢
      have hke : cfgFields k = cfgFields s := by rw [← hk, ← hcfg]; split <;> rfl
      have hkm : k.fh = h.fh := by rw [← hk]; split <;> rfl
      rw [← hkm]
      split
      · have hk2 := hke
        unfold cfgFields at hk2
        simp only [Prod.mk.injEq] at hk2
        obtain ⟨g1, g2, g3, g4, g5, g6, g7, g8⟩ := hk2
        refine ⟨rfl, g4, g5, g3, fun _ => rfl, fun _ => rfl, fun h => absurd rfl h, ?_, g7, fun _ _ _ => rfl⟩
        intro h
        exact absurd h (by show ¬ (Mission.docked = Mission.detumble ∨ Mission.docked = Mission.initializationHold); decide)
      · rename_i hd
        rw [if_neg hd] at hne
        split
        · exact goto2_configured s { k with haveSetDocking := false } i.cc _ _ hke rfl (by decide) (by decide) (by decide)
            (fun h => absurd h (by decide)) (fun _ => Or.inr hnb')
        · rename_i hd'
          rw [if_neg hd', hkm] at hne
          exact absurd rfl hne
    · rw [c, MM.dispatch_docked] at he
      cases he
      exact absurd rfl hne
    · rw [c, MM.dispatch_safehold] at he
      cases he
      unfold MM.dispatchSafehold at hne
      split at hne <;> exact absurd rfl hne
    · rw [c, MM.dispatch_manual] at he
      cases he
      exact absurd rfl hne
    · rw [MM.dispatch_undefined _ _ _ c] at he
      cases he
      refine goto2_configured s h i.cc _ _ hcfg rfl (by decide) (by decide) (by decide) (fun _ hs => ?_) (fun h => absurd h (by decide))
      rcases c1 with g | g | g
      · rw [g] at c; exact absurd c (by decide)
      · rw [g] at c; exact absurd c (by decide)
      · exact g ((safeholdFault_iff s i.cc).1 hs)

/-- C63, the other half: in a cycle in which the mission manager leaves the mission state as it is (and that is not a renewed safehold), it
leaves all of this alone, except that in detumbling it may switch the attitude control converter on. -/
theorem C63_otherwise (s s' : MM) (i : MMIn) (he : s.execute i = some s') (heq : s'.fh.mission = s.fh.mission)
    (hs : s.fh.mission = Mission.startup ∨ s.fh.mission = Mission.manual ∨ ¬ SafeholdFault s i.cc) :
    s'.adcs = s.adcs ∧ s'.desig = s.desig ∧ s'.deployed = s.deployed ∧ s'.fh.enterClose = s.fh.enterClose ∧
      s'.safeholdBegin = s.safeholdBegin ∧ s'.sphDcdc = s.sphDcdc ∧ s'.fh.ctl.state = (s.fh.execute i.cc).2.ctl.state ∧
      (s'.adcsDcdc = s.adcsDcdc ∨ (s.fh.mission = Mission.detumble ∧ s'.adcsDcdc = true)) := by
  suffices h : (cfgFields s' = cfgFields s ∨ (s.fh.mission = Mission.detumble ∧ cfgFields s' = cfgFields { s with adcsDcdc := true })) ∧
      s'.fh.ctl.state = (s.fh.execute i.cc).2.ctl.state by
    unfold cfgFields at h
    simp only [Prod.mk.injEq] at h
    obtain ⟨h | ⟨hm, h⟩, hc⟩ := h
    · exact ⟨h.1, h.2.1, h.2.2.1, h.2.2.2.1, h.2.2.2.2.1, h.2.2.2.2.2.1, hc, Or.inl h.2.2.2.2.2.2.1⟩
    · exact ⟨h.1, h.2.1, h.2.2.1, h.2.2.2.1, h.2.2.2.2.1, h.2.2.2.2.2.1, hc, Or.inr ⟨hm, h.2.2.2.2.2.2.1⟩⟩
  have hcfg := afterFaults_cfg s i.cc
  have hctl : (s.afterFaults i.cc).fh.ctl.state = (s.fh.execute i.cc).2.ctl.state := rfl
  rcases MM.execute_cases s i with ⟨h1, h2, hr, e⟩ | ⟨h1, h2, h3, h4, h5, h6, hr, e⟩ | ⟨c1, c2, e⟩
  · exact absurd ((safeholdFault_iff s i.cc).2 hr) ((hs.resolve_left h1).resolve_left h2)
  · rw [e] at he; cases he
    exact absurd heq.symm h6
  · rw [e] at he
    rw [← hctl]
    generalize hh : s.afterFaults i.cc = h at *
    have same : s' = h → (cfgFields s' = cfgFields s ∨ (s.fh.mission = Mission.detumble ∧ cfgFields s' = cfgFields { s with adcsDcdc := true })) ∧
        s'.fh.ctl.state = h.fh.ctl.state := fun g => by rw [g]; exact ⟨Or.inl hcfg, rfl⟩
    rcases MM.mission_cases s.fh.mission with c | c | c | c | c | c | c | c | c | c | c | c | c
    · rw [c, MM.dispatch_startup] at he
      unfold MM.dispatchStartup at he
      split at he
      · cases he
      split at he
      · split at he <;> cases he
        · exact ⟨Or.inl hcfg, rfl⟩
        · exact ⟨Or.inl hcfg, rfl⟩
      dsimp only at he
      generalize (if h.fh.radio.state = Radio.disabled then _ else _ : MM) = k at he
      split at he <;> cases he <;> rw [c] at heq
      · exact absurd heq (by show ¬ Mission.initializationHold = Mission.startup; decide)
      · exact absurd heq (by show ¬ Mission.detumble = Mission.startup; decide)
    · rw [c, MM.dispatch_detumble] at he
      cases he
      unfold MM.dispatchDetumble at heq ⊢
      split
      · rename_i hs
        rw [if_pos hs] at heq
        split
        · refine ⟨Or.inr ⟨c, ?_⟩, rfl⟩
          unfold cfgFields at hcfg ⊢
          simp only [Prod.mk.injEq] at hcfg ⊢
          exact ⟨hcfg.1, hcfg.2.1, hcfg.2.2.1, hcfg.2.2.2.1, hcfg.2.2.2.2.1, hcfg.2.2.2.2.2.1, trivial, hcfg.2.2.2.2.2.2.2⟩
        · rename_i hd
          rw [if_neg hd, c] at heq
          exact absurd heq (by show ¬ Mission.standby = Mission.detumble; decide)
      · exact ⟨Or.inl hcfg, rfl⟩
    · rw [c, MM.dispatch_hold] at he
      cases he
      exact same rfl
    · rw [c, MM.dispatch_standby] at he
      cases he
      unfold MM.dispatchStandby at heq ⊢
      split at heq
      · rw [c] at heq; exact absurd heq (by show ¬ Mission.follower = Mission.standby; decide)
      · rename_i hd
        split at heq
        · rw [c] at heq; exact absurd heq (by show ¬ Mission.leader = Mission.standby; decide)
        · rename_i hd'
          rw [if_neg hd, if_neg hd']
          exact ⟨Or.inl hcfg, rfl⟩
    · rw [c, MM.dispatch_follower] at he
      cases he
      unfold MM.dispatchFar at heq ⊢
      split
      · rename_i hd
        rw [if_pos hd, c] at heq
        exact absurd heq (by show ¬ Mission.followerCloseApproach = Mission.follower; decide)
      · exact ⟨Or.inl hcfg, rfl⟩
    · rw [c, MM.dispatch_leader] at he
      cases he
      unfold MM.dispatchFar at heq ⊢
      split
      · rename_i hd
        rw [if_pos hd, c] at heq
        exact absurd heq (by show ¬ Mission.leaderCloseApproach = Mission.leader; decide)
      · exact ⟨Or.inl hcfg, rfl⟩
    · rw [c, MM.dispatch_followerClose] at he
      cases he
      unfold MM.dispatchClose at heq ⊢
      split
      · rename_i hd
        rw [if_pos hd, c] at heq
        exact absurd heq (by show ¬ Mission.docking = Mission.followerCloseApproach; decide)
      · exact ⟨Or.inl hcfg, rfl⟩
    · rw [c, MM.dispatch_leaderClose] at he
      cases he
      unfold MM.dispatchClose at heq ⊢
      split
      · rename_i hd
        rw [if_pos hd, c] at heq
        exact absurd heq (by show ¬ Mission.docking = Mission.leaderCloseApproach; decide)
      · exact ⟨Or.inl hcfg, rfl⟩
    · rw [c, MM.dispatch_docking] at he
      cases he
      unfold MM.dispatchDocking at heq ⊢
      dsimp only at heq ⊢
      generalize hk : (if h.haveSetDocking = false then _ else _ : MM) = k at heq ⊢
      have hke : cfgFields k = cfgFields s := by rw [← hk, ← hcfg]; split <;> rfl
      have hkm : k.fh = h.fh := by rw [← hk]; split <;> rfl
      split
      · rename_i hd
        rw [if_pos hd, c] at heq
        exact absurd heq (by show ¬ Mission.docked = Mission.docking; decide)
      · rename_i hd
        rw [if_neg hd] at heq
        split
        · rename_i hd'
          rw [if_pos hd', c] at heq
          exact absurd heq (by show ¬ Mission.standby = Mission.docking; decide)
        · exact ⟨Or.inl hke, by rw [hkm]⟩
    · rw [c, MM.dispatch_docked] at he
      cases he
      exact same rfl
    · rw [c, MM.dispatch_safehold] at he
      cases he
      unfold MM.dispatchSafehold
      split <;> exact ⟨Or.inl hcfg, rfl⟩
    · rw [c, MM.dispatch_manual] at he
      cases he
      exact same rfl
    · rw [MM.dispatch_undefined _ _ _ c] at he
      cases he
      rw [← heq] at c
      exact absurd c (by show ¬ 12 ≤ Mission.safehold.toNat; decide)

/- A close approach and a docking. -/
example : ((inState Mission.follower).execute (apart 77 1500)).map (fun s => (s.fh.mission, s.adcs, s.fh.enterClose)) =
    some (Mission.followerCloseApproach, Adcs.pointDocking, 77) := by decide +kernel
example : (MM.execute { inState Mission.docking with desig := Desig.leader } { apart 77 1 with docked := true }).map (fun s => (s.fh.mission, s.adcs, s.desig)) =
    some (Mission.docked, Adcs.zeroTorque, Desig.undecided) := by decide +kernel

/-- C63: an undefined mission state (possible by ground command or memory upset) leads to safehold, but unlike a fault it leaves the propulsion
system and its converter running. -/
theorem C63_undefined_keeps_propulsion (s : MM) (i : MMIn) (hm : 12 ≤ s.fh.mission.toNat) (hs : ¬ SafeholdFault s i.cc)
    (hb : ¬ StandbyFault s i.cc) :
    ∃ s', s.execute i = some s' ∧ s'.fh.mission = Mission.safehold ∧ s'.fh.ctl.state = (s.fh.execute i.cc).2.ctl.state ∧
      s'.sphDcdc = s.sphDcdc ∧ s'.desig = s.desig := by
  obtain ⟨s', he, hm'⟩ := C60_taken s i Mission.safehold hs hb (fun h => by rw [h] at hm; exact absurd hm (by decide)) (Edge.undefined _ hm)
  have hne : s'.fh.mission ≠ s.fh.mission := by
    intro h
    rw [← h, hm'] at hm
    exact absurd hm (by decide)
  have hc := C63_configured s s' i he hne
  refine ⟨s', he, hm', hc.prop (by rw [hm']; decide) (by rw [hm']; decide) hs, ?_, hc.kept (by rw [hm']; decide) hs hb⟩
  have e := MM.execute_dispatch s i (Or.inr (Or.inr fun h => hs ((safeholdFault_iff s i.cc).2 h)))
    (Or.inr (Or.inr (Or.inl fun h => hb ((standbyFault_iff s i.cc hs).2 h))))
  rw [e, MM.dispatch_undefined _ _ _ hm] at he
  cases he
  rfl

example : ¬ SafeholdFault { inState 77 with desig := Desig.leader } 5 ∧ ¬ StandbyFault { inState 77 with desig := Desig.leader } 5 := by
  refine ⟨?_, ?_⟩
  · rw [safeholdFault_iff]; decide +kernel
  · intro h
    have := (standbyFault_iff _ 5 (by rw [safeholdFault_iff]; decide +kernel)).1 h
    revert this; decide +kernel

end PAN
