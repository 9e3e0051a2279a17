import Verif.Props.SysWait
import Verif.Props.MissionEffects

/-!
C135: what the attitude box is told follows the mission state, in every history of the composed flight software in which nobody commands
the mission and the attitude state from outside. `C63_configured` is about one transition in the mission manager, `C52` and `C78` about one
cycle of attitude control in a given attitude state; here they are joined over histories, from the mission state to the messages.
-/
namespace PAN
namespace Spec
open ADCS

/-- The attitude state documented for each mission state. -/
def attitudeFor (m : U8) : U8 := if m = Mission.startup then Adcs.startup else modeFor m

/-- Nobody commands the mission state or the attitude state from outside. Everything else may be commanded. -/
def LeavesAttitude {L : Orb.Lib} (x : SysStep L) : Prop := ∀ s : Sys L,
  (x.others s).mm.fh.mission = s.mm.fh.mission ∧ (x.others s).mm.adcs = s.mm.adcs

/-- The estimates that pointing rests on are valid. -/
def Oriented (i : AttIn) : Prop := i.attValid = true ∧ i.bValid = true ∧ i.timeValid = true ∧ i.orbitValid = true

/-- What the box is told in a cycle that ends in mission state `m`, whatever it was told before. -/
structure ToldFor (m : U8) (i : AttIn) (msgs : List (List U8)) : Prop where
  /-- In startup and safehold it is to be passive, with a moment of zero. -/
  off : m = Mission.startup ∨ m = Mission.safehold → CommandsPassive msgs
  /-- In every other state it is to be active. -/
  on : m ≠ Mission.startup → m ≠ Mission.safehold → msgs.filterMap modeIn = [1]
  /-- While detumbling, the wheels are disabled and the rods on. -/
  detumble : m = Mission.detumble ∨ m = Mission.initializationHold →
    lastRodMode msgs = some 1 ∧ ∀ pre, (lastWheel (pre ++ asEvents msgs)).1 = 0
  /-- Docking and docked, the wheels get a torque of zero, and the rods are off. -/
  docking : m = Mission.docking ∨ m = Mission.docked →
    lastRodMode msgs = some 0 ∧ ∀ pre, lastWheel (pre ++ asEvents msgs) = (2, zeroCode maxTorque)
  /-- In the states in between, the satellite points: wheels in torque control, rods on, and without valid estimates torque and moment are zero. -/
  pointing : m ∈ [Mission.standby, Mission.leader, Mission.follower, Mission.leaderCloseApproach, Mission.followerCloseApproach] →
    lastRodMode msgs = some 1 ∧ (∀ pre, (lastWheel (pre ++ asEvents msgs)).1 = 2) ∧
    (¬ Oriented i → ∀ pre, lastWheel (pre ++ asEvents msgs) = (2, zeroCode maxTorque) ∧ lastMoment (pre ++ asEvents msgs) = zeroCode maxMoment)

/-- The mission states there are without ground command: all but `manual`. -/
def Flown (m : U8) : Prop := m ∈ [Mission.startup, Mission.detumble, Mission.initializationHold, Mission.standby, Mission.leader, Mission.follower,
  Mission.leaderCloseApproach, Mission.followerCloseApproach, Mission.docking, Mission.docked, Mission.safehold]

end Spec
open Spec ADCS

variable {L : Orb.Lib}
namespace Sys

theorem edge_flown (s h : MM) (i : MMIn) (a b : U8) (e : Edge s h i a b) : Flown b := by
  unfold Flown
  cases e <;> decide

/-- The mission manager keeps the attitude state that belongs to the mission state. -/
theorem manager_follows (s s' : MM) (i : MMIn) (ha : s.adcs = attitudeFor s.fh.mission) (hf : Flown s.fh.mission) (he : s.execute i = some s') :
    s'.adcs = attitudeFor s'.fh.mission ∧ Flown s'.fh.mission := by
  by_cases hne : s'.fh.mission = s.fh.mission
  · refine ⟨?_, hne ▸ hf⟩
    by_cases hs : s.fh.mission = Mission.startup ∨ s.fh.mission = Mission.manual ∨ ¬ SafeholdFault s i.cc
    · rw [hne, (C63_otherwise s s' i he hne hs).1, ha]
    · rw [not_or, not_or, not_not] at hs
      obtain ⟨h1, h2, h3⟩ := hs
      rcases MM.execute_cases s i with ⟨_, _, _, e⟩ | ⟨_, _, _, _, _, _, hr, e⟩ | ⟨c1, _, e⟩
      · rw [e] at he; cases he; rfl
      · rw [(safeholdFault_iff s i.cc).1 h3] at hr; cases hr
      · rcases c1 with c | c | c
        · exact absurd c h1
        · exact absurd c h2
        · exact absurd ((safeholdFault_iff s i.cc).1 h3) c
  · have e := C60_edges s s' i he hne
    have hc := (C63_configured s s' i he hne).mode
    exact ⟨by rw [hc, attitudeFor, if_neg (edge_startup _ _ _ _ _ e)], edge_flown _ _ _ _ _ e⟩

theorem runOrbit_adcs (ρ : Orb.Rounding) (s s' : Sys L) (i : SysIn L) (h : s.runOrbit ρ i = some s') :
    s'.mm.adcs = s.mm.adcs ∧ s'.mm.fh.mission = s.mm.fh.mission := by
  unfold runOrbit at h
  dsimp only at h
  split at h
  · cases h
  · cases h; exact ⟨rfl, rfl⟩

/-- A cycle from the mission manager's point of view and from that of attitude control. -/
theorem cycle_attitude (ρ : Orb.Rounding) (s s' : Sys L) (i : SysIn L) (msgs : List (List U8)) (h : s.cycle ρ i = some (s', msgs)) :
    ∃ mm, ({ s.mm with fh := { s.mm.fh with ctl := s.mm.fh.ctl.interrupts i.ticks1 } } : MM).execute i.mm = some mm ∧
      s'.mm.adcs = mm.adcs ∧ s'.mm.fh.mission = mm.fh.mission ∧
      ∃ att cmds, attitudeCycle i.att mm.adcs i.ssa s.att s.cmds = some (msgs, att, cmds) := by
  unfold cycle at h
  dsimp only at h
  split at h
  · cases h
  rename_i mm hmm
  split at h
  · cases h
  rename_i s2 m hatt
  split at h
  · cases h
  rename_i s3 horb
  have h' := Option.some.inj h
  have e1 := congrArg (·.1) h'
  have e2 := congrArg (·.2) h'
  dsimp only at e1 e2
  subst e1 e2
  obtain ⟨a1, -, -, a4⟩ := runAttitude_spec hatt
  obtain ⟨o1, o2⟩ := runOrbit_adcs ρ s2 s3 i horb
  refine ⟨mm, hmm, ?_, ?_, s2.att, s2.cmds, a4⟩
  · show s3.mm.adcs = _
    rw [o1, a1]; rfl
  · show s3.mm.fh.mission = _
    rw [o2, a1]; rfl

/-- What attitude control tells the box in the attitude state of mission state `m`. -/
theorem told (m ssa : U8) (i : AttIn) (s s' : AttCtl) (c c' : Cmds) (msgs : List (List U8))
    (h : attitudeCycle i (attitudeFor m) ssa s c = some (msgs, s', c')) : ToldFor m i msgs := by
  have hmode := C52_mode h
  refine ⟨fun hm => ?_, fun h1 h2 => ?_, fun hm => ?_, fun hm => ?_, fun hm => ?_⟩
  · have e : attitudeFor m = sStartup := by rcases hm with rfl | rfl <;> decide
    rw [e] at h hmode
    exact ⟨by simpa using hmode, fun pre => ((C52_startup h).2.2.2.2 pre).1⟩
  · rw [hmode, if_neg]
    unfold attitudeFor modeFor
    rw [if_neg h1, if_neg h2]
    split
    · decide
    split
    · decide
    split <;> decide
  · have e : attitudeFor m = sDetumble := by rcases hm with rfl | rfl <;> decide
    rw [e] at h
    exact ⟨(C52_detumble (Or.inr rfl) h []).1, fun pre => C52_wheels_disabled (Or.inr (Or.inl rfl)) h pre⟩
  · have e : attitudeFor m = sZeroTorque := by rcases hm with rfl | rfl <;> decide
    rw [e] at h
    exact ⟨(C52_zero_torque h []).2.1, fun pre => (C52_zero_torque h pre).1⟩
  · have e : attitudeFor m = sPointStandby ∨ attitudeFor m = sPointDocking := by
      simp only [List.mem_cons, List.not_mem_nil, or_false] at hm
      rcases hm with rfl | rfl | rfl | rfl | rfl <;> decide
    generalize attitudeFor m = st at *
    refine ⟨(C52_pointing (Or.inr e) h []).2.1, fun pre => (C52_pointing (Or.inr e) h pre).1, fun hn => ?_⟩
    obtain ⟨hs, hc⟩ := cycle_split h
    have hz : s'.torque = V3.zero ∧ s'.moment = V3.zero := by
      by_contra hne
      rw [not_and_or, hs] at hne
      obtain ⟨v1, v2, v3, v4, -⟩ := C78_valid_partial e hne
      exact hn ⟨v1, v2, v3, v4⟩
    obtain ⟨_, _, ⟨u, hu, hm'⟩, _, _, h2⟩ := send_means hc
    obtain ⟨v, hv, hv'⟩ := h2 (by rcases e with rfl | rfl <;> rfl)
    rw [show (c.command st s'.torque s'.moment).moment = s'.moment by rcases e with rfl | rfl <;> rfl, hz.2] at hu
    rw [show (c.command st s'.torque s'.moment).torque = s'.torque by rcases e with rfl | rfl <;> rfl, hz.1] at hv
    intro pre
    refine ⟨?_, ?_⟩
    · rw [hv', mapM_zero us_zero_torque hv]; rfl
    · rw [hm', mapM_zero us_zero_moment hu]; rfl

theorem step_follows (ρ : Orb.Rounding) (s s' : Sys L) (x : SysStep L) (msgs : List (List U8)) (hx : LeavesAttitude x)
    (ha : s.mm.adcs = attitudeFor s.mm.fh.mission) (hf : Flown s.mm.fh.mission) (h : (x.others s).cycle ρ x.inp = some (s', msgs)) :
    s'.mm.adcs = attitudeFor s'.mm.fh.mission ∧ Flown s'.mm.fh.mission ∧ ToldFor s'.mm.fh.mission x.inp.att msgs := by
  obtain ⟨mm, h1, h2, h3, att, cmds, h4⟩ := cycle_attitude ρ _ _ _ _ h
  obtain ⟨o1, o2⟩ := hx s
  obtain ⟨k1, k2⟩ := manager_follows ({ (x.others s).mm with fh := { (x.others s).mm.fh with ctl := (x.others s).mm.fh.ctl.interrupts x.inp.ticks1 } } : MM)
    mm x.inp.mm
    (show (x.others s).mm.adcs = attitudeFor (x.others s).mm.fh.mission by rw [o1, o2]; exact ha)
    (show Flown (x.others s).mm.fh.mission by rw [o1]; exact hf) h1
  rw [k1] at h4
  rw [h2, h3]
  exact ⟨k1, k2, told _ _ _ _ _ _ _ _ h4⟩

theorem run_follows (ρ : Orb.Rounding) (xs : List (SysStep L)) : ∀ (s s' : Sys L) (ms : List (List (List U8))), (∀ x ∈ xs, LeavesAttitude x) →
    s.mm.adcs = attitudeFor s.mm.fh.mission → Flown s.mm.fh.mission → srun ρ s xs = some (s', ms) →
    s'.mm.adcs = attitudeFor s'.mm.fh.mission ∧ Flown s'.mm.fh.mission := by
  induction xs with
  | nil =>
    intro s s' ms _ ha hf h
    have h' := Option.some.inj h
    have e1 := congrArg (·.1) h'
    dsimp only at e1
    subst e1
    exact ⟨ha, hf⟩
  | cons x xs ih =>
    intro s s' ms hx ha hf h
    unfold srun at h
    split at h
    · cases h
    · rename_i s1 m1 h1
      split at h
      · cases h
      · rename_i s2 ms2 h2
        have h' := Option.some.inj h
        have e1 := congrArg (·.1) h'
        dsimp only at e1
        subst e1
        obtain ⟨a, b, -⟩ := step_follows ρ s s1 x m1 (hx x (by simp)) ha hf h1
        exact ih s1 s2 ms2 (fun z hz => hx z (by simp [hz])) a b h2

end Sys

/-! ### C135 -/

/-- C135. After every number of control cycles since power-up, with whatever inputs and faults, and whatever the ground and the other tasks
do except to these two states: attitude control is in the state that belongs to the mission state. -/
theorem C135_follows (ρ : Orb.Rounding) (m : L.Mem) (p t2 t1 : Rat) (a d : Bool) (xs : List (SysStep L)) (hx : ∀ x ∈ xs, LeavesAttitude x)
    (s : Sys L) (ms : List (List (List U8))) (h : srun ρ (Sys.init L m p t2 t1 a d) xs = some (s, ms)) :
    s.mm.adcs = attitudeFor s.mm.fh.mission ∧ Flown s.mm.fh.mission :=
  Sys.run_follows ρ xs _ s ms hx rfl (by unfold Flown; exact List.mem_cons_self ..) h

/-- C135, the messages. After any such history, one more control cycle tells the box what belongs to the mission state that this cycle
ends in: a change of the mission state takes effect at the box in the same cycle. -/
theorem C135_told (ρ : Orb.Rounding) (m : L.Mem) (p t2 t1 : Rat) (a d : Bool) (xs : List (SysStep L)) (hx : ∀ x ∈ xs, LeavesAttitude x)
    (s : Sys L) (ms : List (List (List U8))) (h : srun ρ (Sys.init L m p t2 t1 a d) xs = some (s, ms))
    (x : SysStep L) (hx' : LeavesAttitude x) (s' : Sys L) (msgs : List (List U8)) (h' : (x.others s).cycle ρ x.inp = some (s', msgs)) :
    ToldFor s'.mm.fh.mission x.inp.att msgs := by
  obtain ⟨k1, k2⟩ := C135_follows ρ m p t2 t1 a d xs hx s ms h
  exact (Sys.step_follows ρ s s' x msgs hx' k1 k2 h').2.2

/-! ### What fails: a mission state commanded by the ground -/

namespace SysCommanded
open SysFly

/-- During the deployment wait the ground commands standby; then eight cycles, all estimates valid. -/
def all : List (SysStep toyOrb) :=
  { st 1 20 with others := fun s => { s with mm := { s.mm with fh := { s.mm.fh with mission := Mission.standby } } } } ::
    (List.range 8).map fun i => st (2 + i) 20

end SysCommanded

/-- C135, what fails without the condition on the mission state: commanded by the ground, it does not bring its attitude state along. Here the
satellite is in standby for nine cycles, where it should point, and tells the box to be passive in every one of them. -/
theorem C135_counterexample_commanded : ∃ (xs : List (SysStep toyOrb)) (s : Sys toyOrb) (ms : List (List (List U8))),
    srun PAN.exact (Sys.init toyOrb () 14 20 20 true true) xs = some (s, ms) ∧ ms.length = 9 ∧
    s.mm.fh.mission = Mission.standby ∧ s.mm.adcs = Adcs.startup ∧ ∀ m ∈ ms, m.filterMap modeIn = [0] := by
  have key : (srun PAN.exact (Sys.init toyOrb () 14 20 20 true true) SysCommanded.all).map (fun r =>
      (r.2.length, r.1.mm.fh.mission, r.1.mm.adcs, r.2.all fun m => decide (m.filterMap modeIn = [0]))) =
      some (9, Mission.standby, Adcs.startup, true) := by decide +kernel
  rw [Option.map_eq_some_iff] at key
  obtain ⟨⟨s, ms⟩, h1, h2⟩ := key
  simp only [Prod.mk.injEq, List.all_eq_true, decide_eq_true_eq] at h2
  exact ⟨SysCommanded.all, s, ms, h1, h2.1, h2.2.1, h2.2.2.1, h2.2.2.2⟩

/-! ### A case -/

-- the satellite leaves startup, detumbles and goes to standby; the ground writes to the counter of the wait only
def SysCommanded.flight : List (SysStep toyOrb) := SysFly.first :: (List.range 3).map fun i =>
  { SysFly.st (2 + i) 20 with inp := { (SysFly.st (2 + i) 20).inp with mm := { (SysFly.st (2 + i) 20).inp.mm with attValid := true, momentum := some 0 } } }
example : ∀ x ∈ SysCommanded.flight, LeavesAttitude x := by
  intro x hx
  simp only [SysCommanded.flight, List.mem_cons, List.mem_map] at hx
  rcases hx with rfl | ⟨i, -, rfl⟩ <;> exact fun s => ⟨rfl, rfl⟩
example : (List.range 5).map (fun n => (SysFly.hist (SysCommanded.flight.take n)).map fun t => (t.mm.fh.mission, t.mm.adcs)) =
    [some (Mission.startup, Adcs.startup), some (Mission.detumble, Adcs.detumble), some (Mission.detumble, Adcs.detumble),
      some (Mission.standby, Adcs.pointStandby), some (Mission.standby, Adcs.pointStandby)] := by decide +kernel

end PAN
