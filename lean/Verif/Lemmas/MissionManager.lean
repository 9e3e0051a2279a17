import Verif.Model.MissionManager
import Verif.Props.FaultHandlers
/-!
Lemmas about the mission manager: what the fault handlers and the transitions leave unchanged, and the cases of `execute`.
-/
namespace PAN

/-- A field no handler changes is not changed by the main fault handler. -/
theorem MainFH.loop_frame {σ α : Type} (f : σ → α) (ms : List (σ → Resp × σ)) (h : ∀ m ∈ ms, ∀ s, f (m s).2 = f s) :
    ∀ (ret : Resp) (s : σ), f (MainFH.loop ms ret s).2 = f s := by
  induction ms with
  | nil => intro ret s; rfl
  | cons m ms ih =>
    intro ret s
    have h1 := h m (List.mem_cons_self ..) s
    have h2 := ih (fun m' hm' => h m' (List.mem_cons_of_mem _ hm'))
    unfold MainFH.loop
    rcases hm : m s with ⟨r, s'⟩
    rw [hm] at h1
    cases r
    · exact (h2 _ _).trans h1
    · exact h1
    · exact (h2 _ _).trans h1

namespace FHState

theorem execute_frame {α : Type} (f : FHState → α) (cc : U32) (h : ∀ m ∈ handlers cc, ∀ s, f (m s).2 = f s) (s : FHState) :
    f (s.execute cc).2 = f s := by
  unfold execute MainFH.execute
  split
  · rfl
  · exact MainFH.loop_frame f _ h _ _

theorem execute_mission (s : FHState) (cc : U32) : (s.execute cc).2.mission = s.mission :=
  execute_frame (·.mission) cc (by
    intro m hm s
    simp only [handlers, List.mem_cons, List.not_mem_nil, or_false] at hm
    rcases hm with rfl | rfl | rfl | rfl | rfl | rfl | rfl | rfl | rfl | rfl <;> rfl) s

theorem execute_enterClose (s : FHState) (cc : U32) : (s.execute cc).2.enterClose = s.enterClose :=
  execute_frame (·.enterClose) cc (by
    intro m hm s
    simp only [handlers, List.mem_cons, List.not_mem_nil, or_false] at hm
    rcases hm with rfl | rfl | rfl | rfl | rfl | rfl | rfl | rfl | rfl | rfl <;> rfl) s

theorem execute_enabled (s : FHState) (cc : U32) : (s.execute cc).2.enabled = s.enabled :=
  execute_frame (·.enabled) cc (by
    intro m hm s
    simp only [handlers, List.mem_cons, List.not_mem_nil, or_false] at hm
    rcases hm with rfl | rfl | rfl | rfl | rfl | rfl | rfl | rfl | rfl | rfl <;> rfl) s

theorem execute_lastComms (s : FHState) (cc : U32) : (s.execute cc).2.radio.lastComms = s.radio.lastComms :=
  execute_frame (·.radio.lastComms) cc (by
    intro m hm s
    simp only [handlers, List.mem_cons, List.not_mem_nil, or_false] at hm
    rcases hm with rfl | rfl | rfl | rfl | rfl | rfl | rfl | rfl | rfl | rfl
    all_goals first | rfl | exact QuakeFH.execute_lastComms s.quake s.radio cc) s

end FHState

namespace MM

theorem setMission_mission (s : MM) (cc : U32) (m : U8) : (s.setMission cc m).fh.mission = m := rfl
theorem goto2_mission (s : MM) (cc : U32) (m a : U8) : (s.goto2 cc m a).fh.mission = m := rfl
theorem goto2_adcs (s : MM) (cc : U32) (m a : U8) : (s.goto2 cc m a).adcs = a := rfl
theorem goto3_mission (s : MM) (cc : U32) (m a : U8) (p : U32) : (s.goto3 cc m a p).fh.mission = m := rfl
theorem goto3_adcs (s : MM) (cc : U32) (m a : U8) (p : U32) : (s.goto3 cc m a p).adcs = a := rfl
theorem goto3_prop (s : MM) (cc : U32) (m a : U8) (p : U32) : (s.goto3 cc m a p).fh.ctl.state = p := rfl

theorem afterFaults_mission (s : MM) (cc : U32) : (s.afterFaults cc).fh.mission = s.fh.mission := FHState.execute_mission _ _

/-- `execute` when the response is safehold. -/
theorem execute_safehold (s : MM) (i : MMIn) (h1 : s.fh.mission ≠ Mission.startup) (h2 : s.fh.mission ≠ Mission.manual)
    (hr : (s.fh.execute i.cc).1 = .safehold) :
    s.execute i = some { ((s.afterFaults i.cc).goto3 i.cc Mission.safehold Adcs.startup Prp.disabled) with desig := Desig.undecided } := by
  unfold execute
  dsimp only
  rw [if_pos ⟨fun h => h.elim h1 h2, hr⟩]

/-- The mission states in which a standby response is obeyed. -/
theorem execute_standby (s : MM) (i : MMIn) (h1 : s.fh.mission ≠ Mission.startup) (h2 : s.fh.mission ≠ Mission.manual)
    (h3 : s.fh.mission ≠ Mission.safehold) (h4 : s.fh.mission ≠ Mission.initializationHold) (h5 : s.fh.mission ≠ Mission.detumble)
    (h6 : s.fh.mission ≠ Mission.standby) (hr : (s.fh.execute i.cc).1 = .standby) :
    s.execute i = some { ((s.afterFaults i.cc).goto2 i.cc Mission.standby Adcs.pointStandby) with desig := Desig.undecided } := by
  unfold execute
  dsimp only
  rw [if_neg (fun h => by rw [hr] at h; exact absurd h.2 (by decide)), if_pos ⟨fun h => h.elim h1 h2, hr, h3, h4, h5, h6⟩]

/-- `execute` when the response is not obeyed. -/
theorem execute_dispatch (s : MM) (i : MMIn)
    (hs : s.fh.mission = Mission.startup ∨ s.fh.mission = Mission.manual ∨ (s.fh.execute i.cc).1 ≠ .safehold)
    (hb : s.fh.mission = Mission.startup ∨ s.fh.mission = Mission.manual ∨ (s.fh.execute i.cc).1 ≠ .standby ∨ s.fh.mission = Mission.safehold ∨
      s.fh.mission = Mission.initializationHold ∨ s.fh.mission = Mission.detumble ∨ s.fh.mission = Mission.standby) :
    s.execute i = (s.afterFaults i.cc).dispatch i s.fh.mission := by
  unfold execute
  dsimp only
  rw [if_neg, if_neg]
  · rintro ⟨a, b, c, d, e, f⟩
    rcases hb with h | h | h | h | h | h | h
    · exact a (Or.inl h)
    · exact a (Or.inr h)
    · exact h b
    · exact c h
    · exact d h
    · exact e h
    · exact f h
  · rintro ⟨a, b⟩
    rcases hs with h | h | h
    · exact a (Or.inl h)
    · exact a (Or.inr h)
    · exact h b

/-- The three cases of `execute`. -/
theorem execute_cases (s : MM) (i : MMIn) :
    (s.fh.mission ≠ Mission.startup ∧ s.fh.mission ≠ Mission.manual ∧ (s.fh.execute i.cc).1 = .safehold ∧
      s.execute i = some { ((s.afterFaults i.cc).goto3 i.cc Mission.safehold Adcs.startup Prp.disabled) with desig := Desig.undecided }) ∨
    (s.fh.mission ≠ Mission.startup ∧ s.fh.mission ≠ Mission.manual ∧ s.fh.mission ≠ Mission.safehold ∧
      s.fh.mission ≠ Mission.initializationHold ∧ s.fh.mission ≠ Mission.detumble ∧ s.fh.mission ≠ Mission.standby ∧
      (s.fh.execute i.cc).1 = .standby ∧
      s.execute i = some { ((s.afterFaults i.cc).goto2 i.cc Mission.standby Adcs.pointStandby) with desig := Desig.undecided }) ∨
    (s.fh.mission = Mission.startup ∨ s.fh.mission = Mission.manual ∨ (s.fh.execute i.cc).1 ≠ .safehold) ∧
    (s.fh.mission = Mission.startup ∨ s.fh.mission = Mission.manual ∨ (s.fh.execute i.cc).1 ≠ .standby ∨ s.fh.mission = Mission.safehold ∨
      s.fh.mission = Mission.initializationHold ∨ s.fh.mission = Mission.detumble ∨ s.fh.mission = Mission.standby) ∧
    s.execute i = (s.afterFaults i.cc).dispatch i s.fh.mission := by
  by_cases a : s.fh.mission = Mission.startup
  · exact Or.inr (Or.inr ⟨Or.inl a, Or.inl a, execute_dispatch s i (Or.inl a) (Or.inl a)⟩)
  by_cases b : s.fh.mission = Mission.manual
  · exact Or.inr (Or.inr ⟨Or.inr (Or.inl b), Or.inr (Or.inl b), execute_dispatch s i (Or.inr (Or.inl b)) (Or.inr (Or.inl b))⟩)
  by_cases c : (s.fh.execute i.cc).1 = .safehold
  · exact Or.inl ⟨a, b, c, execute_safehold s i a b c⟩
  have hs : s.fh.mission = Mission.startup ∨ s.fh.mission = Mission.manual ∨ (s.fh.execute i.cc).1 ≠ .safehold := Or.inr (Or.inr c)
  by_cases d : (s.fh.execute i.cc).1 ≠ .standby ∨ s.fh.mission = Mission.safehold ∨
      s.fh.mission = Mission.initializationHold ∨ s.fh.mission = Mission.detumble ∨ s.fh.mission = Mission.standby
  · exact Or.inr (Or.inr ⟨hs, Or.inr (Or.inr d), execute_dispatch s i hs (Or.inr (Or.inr d))⟩)
  · simp only [not_or, not_not] at d
    exact Or.inr (Or.inl ⟨a, b, d.2.1, d.2.2.1, d.2.2.2.1, d.2.2.2.2, d.1, execute_standby s i a b d.2.1 d.2.2.1 d.2.2.2.1 d.2.2.2.2 d.1⟩)

theorem dispatch_startup (s : MM) (i : MMIn) : s.dispatch i Mission.startup = s.dispatchStartup i := rfl
theorem dispatch_detumble (s : MM) (i : MMIn) : s.dispatch i Mission.detumble = some (s.dispatchDetumble i) := rfl
theorem dispatch_hold (s : MM) (i : MMIn) : s.dispatch i Mission.initializationHold = some s := rfl
theorem dispatch_standby (s : MM) (i : MMIn) : s.dispatch i Mission.standby = some (s.dispatchStandby i) := rfl
theorem dispatch_follower (s : MM) (i : MMIn) :
    s.dispatch i Mission.follower = some (s.dispatchFar i Mission.followerCloseApproach) := rfl
theorem dispatch_leader (s : MM) (i : MMIn) : s.dispatch i Mission.leader = some (s.dispatchFar i Mission.leaderCloseApproach) := rfl
theorem dispatch_followerClose (s : MM) (i : MMIn) : s.dispatch i Mission.followerCloseApproach = some (s.dispatchClose i) := rfl
theorem dispatch_leaderClose (s : MM) (i : MMIn) : s.dispatch i Mission.leaderCloseApproach = some (s.dispatchClose i) := rfl
theorem dispatch_docking (s : MM) (i : MMIn) : s.dispatch i Mission.docking = some (s.dispatchDocking i) := rfl
theorem dispatch_docked (s : MM) (i : MMIn) : s.dispatch i Mission.docked = some s := rfl
theorem dispatch_safehold (s : MM) (i : MMIn) : s.dispatch i Mission.safehold = some (s.dispatchSafehold i) := rfl
theorem dispatch_manual (s : MM) (i : MMIn) : s.dispatch i Mission.manual = some s := rfl
theorem dispatch_undefined (s : MM) (i : MMIn) (m : U8) (hm : 12 ≤ m.toNat) :
    s.dispatch i m = some (s.goto2 i.cc Mission.safehold Adcs.startup) := by
  have ne : ∀ k : Nat, k < 12 → m ≠ BitVec.ofNat 8 k := by
    intro k hk e
    rw [e, BitVec.toNat_ofNat] at hm
    omega
  unfold dispatch
  rw [if_neg (show ¬ m = Mission.startup from ne 0 (by decide)),
    if_neg (show ¬ m = Mission.detumble from ne 1 (by decide)),
    if_neg (show ¬ m = Mission.initializationHold from ne 2 (by decide)),
    if_neg (show ¬ m = Mission.standby from ne 3 (by decide)),
    if_neg (show ¬ m = Mission.follower from ne 4 (by decide)),
    if_neg (show ¬ m = Mission.leader from ne 5 (by decide)),
    if_neg (show ¬ (m = Mission.followerCloseApproach ∨ m = Mission.leaderCloseApproach) from
      fun h => h.elim (ne 6 (by decide)) (ne 7 (by decide))),
    if_neg (show ¬ m = Mission.docking from ne 8 (by decide)),
    if_neg (show ¬ m = Mission.docked from ne 9 (by decide)),
    if_neg (show ¬ m = Mission.safehold from ne 10 (by decide)),
    if_neg (show ¬ m = Mission.manual from ne 11 (by decide))]

/-- The twelve mission states. -/
theorem mission_cases (m : U8) : m = Mission.startup ∨ m = Mission.detumble ∨ m = Mission.initializationHold ∨ m = Mission.standby ∨
    m = Mission.follower ∨ m = Mission.leader ∨ m = Mission.followerCloseApproach ∨ m = Mission.leaderCloseApproach ∨ m = Mission.docking ∨
    m = Mission.docked ∨ m = Mission.safehold ∨ m = Mission.manual ∨ 12 ≤ m.toNat := by
  have key : ∀ m : Fin 256, m.val < 12 → (BitVec.ofFin (w := 8) m) = Mission.startup ∨ (BitVec.ofFin (w := 8) m) = Mission.detumble ∨
      (BitVec.ofFin (w := 8) m) = Mission.initializationHold ∨ (BitVec.ofFin (w := 8) m) = Mission.standby ∨
      (BitVec.ofFin (w := 8) m) = Mission.follower ∨ (BitVec.ofFin (w := 8) m) = Mission.leader ∨
      (BitVec.ofFin (w := 8) m) = Mission.followerCloseApproach ∨ (BitVec.ofFin (w := 8) m) = Mission.leaderCloseApproach ∨
      (BitVec.ofFin (w := 8) m) = Mission.docking ∨ (BitVec.ofFin (w := 8) m) = Mission.docked ∨
      (BitVec.ofFin (w := 8) m) = Mission.safehold ∨ (BitVec.ofFin (w := 8) m) = Mission.manual := by decide +kernel
  by_cases h : m.toNat < 12
  · have := key m.toFin h
    have e : BitVec.ofFin (w := 8) m.toFin = m := rfl
    rw [e] at this
    rcases this with h | h | h | h | h | h | h | h | h | h | h | h <;> simp only [h, true_or, or_true]
  · have : 12 ≤ m.toNat := Nat.le_of_not_lt h
    simp only [this, or_true]

theorem hwPolled_frame (s : MM) : s.hwPolled.fh.mission = s.fh.mission ∧ s.hwPolled.elapsed = s.elapsed ∧ s.hwPolled.fh.radio = s.fh.radio ∧
    s.hwPolled.piksiOff = s.piksiOff ∧ s.hwPolled.piksiPowercycle = s.piksiPowercycle := by
  unfold hwPolled
  dsimp only
  split_ifs <;> exact ⟨rfl, rfl, rfl, rfl, rfl⟩

end MM
end PAN
