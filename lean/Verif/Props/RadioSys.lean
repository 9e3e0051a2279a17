import Verif.Model.RadioSys
import Verif.Lemmas.MissionManager
import Verif.Props.Quake
/-!
C43 for the whole: what the mission manager and the radio fault handler do to the radio state.
-/
namespace PAN

namespace Spec

/-- The control cycle count of a history that starts after cycle `cc`, all tasks seeing the same count, without overflow of the counter. -/
def SysTicks : Nat → List RadioCycle → Prop
  | _, [] => True
  | n, y :: ys => y.inp.cc.toNat = n + 1 ∧ y.radio.cc = y.inp.cc ∧ SysTicks (n + 1) ys

/-- Ground does not write the radio fault handler's state in this cycle, and does not command the startup mission state while the radio
fault handler is at work. -/
def LadderUntouched (s : RadioSys) (y : RadioCycle) : Prop :=
  y.env.fh.quake.state = s.qfh.state ∧ (y.env.fh.mission = Mission.startup → s.qfh.state = Qfh.unfaulted)

/-- The same for a history. -/
def LadderUntouchedIn : RadioSys → List RadioCycle → Prop
  | _, [] => True
  | s, y :: ys => LadderUntouched s y ∧ ∀ s', s.cycle y = some s' → LadderUntouchedIn s' ys

/-- Ground is silent (a radio that is off receives nothing): it does not write the radio fault handler's state and does not command the
startup mission state. -/
def SilentCycle (s : RadioSys) (y : RadioCycle) : Prop := y.env.fh.quake.state = s.qfh.state ∧ y.env.fh.mission ≠ Mission.startup

/-- The same for a history. -/
def SilentCycles : RadioSys → List RadioCycle → Prop
  | _, [] => True
  | s, y :: ys => SilentCycle s y ∧ ∀ s', s.cycle y = some s' → SilentCycles s' ys

/-- Low battery is reported to fault handling in this cycle. -/
def LowBattery (y : RadioCycle) : Prop :=
  y.env.fh.enabled = true ∧ y.env.fh.mission ∈ SimpleFH.activeStates 0 ∧ y.env.fh.lowBatt.isFaulted = true

end Spec
open Spec

/-- In a list of handlers of which only one changes `f`, it is run at most once; it is run if the response is not safehold. -/
theorem MainFH.loop_once {σ α : Type} (f : σ → α) (g : α → α) (pre post : List (σ → Resp × σ)) (q : σ → Resp × σ)
    (hpre : ∀ m ∈ pre, ∀ s, f (m s).2 = f s) (hpost : ∀ m ∈ post, ∀ s, f (m s).2 = f s) (hq : ∀ s, f (q s).2 = g (f s)) :
    ∀ (ret : Resp) (s : σ), (f (MainFH.loop (pre ++ q :: post) ret s).2 = f s ∧ (MainFH.loop (pre ++ q :: post) ret s).1 = .safehold) ∨
      f (MainFH.loop (pre ++ q :: post) ret s).2 = g (f s) := by
  induction pre with
  | nil =>
    intro ret s
    right
    show f (MainFH.loop (q :: post) ret s).2 = _
    unfold MainFH.loop
    have h1 := hq s
    rcases hm : q s with ⟨r, s'⟩
    rw [hm] at h1
    cases r
    · exact (MainFH.loop_frame f post hpost _ _).trans h1
    · exact h1
    · exact (MainFH.loop_frame f post hpost _ _).trans h1
  | cons m ms ih =>
    intro ret s
    have h1 := hpre m (List.mem_cons_self ..) s
    have h2 := ih (fun m' hm' => hpre m' (List.mem_cons_of_mem _ hm'))
    show (f (MainFH.loop (m :: (ms ++ q :: post)) ret s).2 = f s ∧ (MainFH.loop (m :: (ms ++ q :: post)) ret s).1 = .safehold) ∨
      f (MainFH.loop (m :: (ms ++ q :: post)) ret s).2 = g (f s)
    unfold MainFH.loop
    rcases hm : m s with ⟨r, s'⟩
    rw [hm] at h1
    have h1 : f s' = f s := h1
    cases r
    · have := h2 ret s'; rw [h1] at this; exact this
    · exact Or.inl ⟨h1, rfl⟩
    · have := h2 .standby s'; rw [h1] at this; exact this

namespace FHState

theorem execute_quake_radio (s : FHState) (cc : U32) :
    (((s.execute cc).2.quake, (s.execute cc).2.radio) = (s.quake, s.radio) ∧ (s.enabled = false ∨ (s.execute cc).1 = .safehold)) ∨
    ((s.execute cc).2.quake, (s.execute cc).2.radio) = (s.quake.execute s.radio cc).2 := by
  unfold execute MainFH.execute
  split
  · rename_i h; exact Or.inl ⟨rfl, Or.inl h⟩
  · have := MainFH.loop_once (fun s : FHState => (s.quake, s.radio)) (fun p => (p.1.execute p.2 cc).2)
      [lowBattH, wheel1H, wheel2H, wheel3H, wheelPotH, pressFailH, attEstH] [piksiH cc, propH] (quakeH cc)
      (by
        intro m hm s
        simp only [List.mem_cons, List.not_mem_nil, or_false] at hm
        rcases hm with rfl | rfl | rfl | rfl | rfl | rfl | rfl <;> rfl)
      (by
        intro m hm s
        simp only [List.mem_cons, List.not_mem_nil, or_false] at hm
        rcases hm with rfl | rfl <;> rfl)
      (fun s => rfl) .none s
    rcases this with h | h
    · exact Or.inl ⟨h.1, Or.inr h.2⟩
    · exact Or.inr h

end FHState

namespace MM

/-- What the mission manager does after the fault handlers does not change the radio fault handler, and changes the radio state only
from off to configuring at the end of startup. -/
theorem execute_radio (s t : MM) (i : MMIn) (h : s.execute i = some t) :
    t.fh.quake = (s.fh.execute i.cc).2.quake ∧
    (t.fh.radio = (s.fh.execute i.cc).2.radio ∨
      (s.fh.mission = Mission.startup ∧ (s.fh.execute i.cc).2.radio.state = Radio.disabled ∧ t.fh.radio.state = Radio.config)) := by
  rcases execute_cases s i with ⟨_, _, _, g⟩ | ⟨_, _, _, _, _, _, _, g⟩ | ⟨_, _, g⟩
  · rw [g] at h; cases h; exact ⟨rfl, Or.inl rfl⟩
  · rw [g] at h; cases h; exact ⟨rfl, Or.inl rfl⟩
  · rw [g] at h
    have hq : (s.afterFaults i.cc).fh = (s.fh.execute i.cc).2 := rfl
    rw [← hq]
    generalize s.afterFaults i.cc = k at h
    by_cases hm : s.fh.mission = Mission.startup
    · rw [hm, dispatch_startup] at h
      unfold dispatchStartup at h
      split at h
      · cases h
      · split at h
        · split at h <;> cases h <;> exact ⟨rfl, Or.inl rfl⟩
        · dsimp only at h
          by_cases hd : k.fh.radio.state = Radio.disabled
          · rw [if_pos hd] at h
            have e : ∀ z : MM, z.hwPolled.fh.quake = z.fh.quake ∧ z.hwPolled.fh.radio = z.fh.radio := by
              intro z
              unfold hwPolled
              dsimp only
              split_ifs <;> exact ⟨rfl, rfl⟩
            generalize hz : ({ k with piksiOff := false, piksiPowercycle := true, fh := { k.fh with radio := { k.fh.radio with state := Radio.config } } } : MM) = z at h
            have e1 := e z
            generalize z.hwPolled = w at h e1
            have hzq : z.fh.quake = k.fh.quake ∧ z.fh.radio.state = Radio.config := by rw [← hz]; exact ⟨rfl, rfl⟩
            split at h <;> cases h
            · exact ⟨e1.1.trans hzq.1, Or.inr ⟨hm, hd, (congrArg RadioIO.state e1.2).trans hzq.2⟩⟩
            · exact ⟨e1.1.trans hzq.1, Or.inr ⟨hm, hd, (congrArg RadioIO.state e1.2).trans hzq.2⟩⟩
          · rw [if_neg hd] at h
            have e : ∀ z : MM, z.hwPolled.fh.quake = z.fh.quake ∧ z.hwPolled.fh.radio = z.fh.radio := by
              intro z
              unfold hwPolled
              dsimp only
              split_ifs <;> exact ⟨rfl, rfl⟩
            generalize hz : ({ k with piksiOff := false, piksiPowercycle := true } : MM) = z at h
            have e1 := e z
            generalize z.hwPolled = w at h e1
            have hzq : z.fh.quake = k.fh.quake ∧ z.fh.radio = k.fh.radio := by rw [← hz]; exact ⟨rfl, rfl⟩
            split at h <;> cases h
            · exact ⟨e1.1.trans hzq.1, Or.inl (e1.2.trans hzq.2)⟩
            · exact ⟨e1.1.trans hzq.1, Or.inl (e1.2.trans hzq.2)⟩
    · have fin : ∀ z : MM, z.fh.quake = k.fh.quake ∧ z.fh.radio = k.fh.radio → some z = some t → t.fh.quake = k.fh.quake ∧
          (t.fh.radio = k.fh.radio ∨ (s.fh.mission = Mission.startup ∧ k.fh.radio.state = Radio.disabled ∧ t.fh.radio.state = Radio.config)) := by
        intro z hz e
        cases e
        exact ⟨hz.1, Or.inl hz.2⟩
      have docking : (k.dispatchDocking i).fh.quake = k.fh.quake ∧ (k.dispatchDocking i).fh.radio = k.fh.radio := by
        unfold dispatchDocking
        dsimp only
        generalize hz : (if k.haveSetDocking = false then ({ k with enterDocking := i.cc, haveSetDocking := true } : MM) else k) = z
        have : z.fh = k.fh := by rw [← hz]; split <;> rfl
        rw [← this]
        split
        · exact ⟨rfl, rfl⟩
        · split <;> exact ⟨rfl, rfl⟩
      rcases mission_cases s.fh.mission with e | e | e | e | e | e | e | e | e | e | e | e | e
      · exact absurd e hm
      · rw [e, dispatch_detumble] at h; exact fin _ (by unfold dispatchDetumble; split_ifs <;> exact ⟨rfl, rfl⟩) h
      · rw [e, dispatch_hold] at h; exact fin _ ⟨rfl, rfl⟩ h
      · rw [e, dispatch_standby] at h; exact fin _ (by unfold dispatchStandby; split_ifs <;> exact ⟨rfl, rfl⟩) h
      · rw [e, dispatch_follower] at h; exact fin _ (by unfold dispatchFar; split_ifs <;> exact ⟨rfl, rfl⟩) h
      · rw [e, dispatch_leader] at h; exact fin _ (by unfold dispatchFar; split_ifs <;> exact ⟨rfl, rfl⟩) h
      · rw [e, dispatch_followerClose] at h; exact fin _ (by unfold dispatchClose; split_ifs <;> exact ⟨rfl, rfl⟩) h
      · rw [e, dispatch_leaderClose] at h; exact fin _ (by unfold dispatchClose; split_ifs <;> exact ⟨rfl, rfl⟩) h
      · rw [e, dispatch_docking] at h; exact fin _ docking h
      · rw [e, dispatch_docked] at h; exact fin _ ⟨rfl, rfl⟩ h
      · rw [e, dispatch_safehold] at h; exact fin _ (by unfold dispatchSafehold; split_ifs <;> exact ⟨rfl, rfl⟩) h
      · rw [e, dispatch_manual] at h; exact fin _ ⟨rfl, rfl⟩ h
      · rw [dispatch_undefined _ _ _ e] at h; exact fin (k.goto2 i.cc Mission.safehold Adcs.startup) ⟨rfl, rfl⟩ h

end MM

namespace QuakeFH

/-- The three power-cycling states. -/
def Cycling (x : U8) : Prop := x = Qfh.powercycle1 ∨ x = Qfh.powercycle2 ∨ x = Qfh.powercycle3

/-- The radio is off in the cycle in which a power-cycling state was entered (`n` is the cycle just finished). -/
def LadderInv (h : QuakeFH) (rs : U8) (n : Nat) : Prop := h.entry.toNat ≤ n ∧ (Cycling h.state → h.entry.toNat = n → rs = Radio.disabled)

theorem execute_ladder (h : QuakeFH) (r : RadioIO) (cc : U32) (n : Nat) (hc : cc.toNat = n + 1) (hi : LadderInv h r.state n) :
    LadderInv (h.execute r cc).2.1 (h.execute r cc).2.2.state (n + 1) ∧
    ((h.execute r cc).2.2.state = r.state ∨ (h.execute r cc).2.2.state = Radio.disabled ∨
      ((h.execute r cc).2.2.state = Radio.config ∧ r.state = Radio.disabled)) ∧
    (h.state = Qfh.unfaulted → (h.execute r cc).2.2 = r ∧ ¬ Cycling (h.execute r cc).2.1.state) := by
  have old : LadderInv h r.state (n + 1) := ⟨by have := hi.1; omega, fun _ g => by have := hi.1; omega⟩
  have hne : ∀ st, ¬ Cycling st → LadderInv (h.goto cc st) r.state (n + 1) := fun st g => ⟨by show cc.toNat ≤ _; omega, fun g' => absurd g' g⟩
  have power : ∀ next, Cycling h.state → 
      LadderInv (h.dispatchPowercycle r cc next).2.1 (h.dispatchPowercycle r cc next).2.2.state (n + 1) ∧
      ((h.dispatchPowercycle r cc next).2.2.state = r.state ∨ (h.dispatchPowercycle r cc next).2.2.state = Radio.disabled ∨
        ((h.dispatchPowercycle r cc next).2.2.state = Radio.config ∧ r.state = Radio.disabled)) := by
    intro next hcy
    unfold dispatchPowercycle
    by_cases he : h.entry.toNat = n
    · have hd := hi.2 hcy he
      have h1 : h.entry + 1 = cc := by
        apply BitVec.eq_of_toNat_eq
        rw [BitVec.toNat_add, he, hc, show (1 : U32).toNat = 1 from rfl]
        have := cc.isLt
        omega
      have h2 : h.inStateFor cc (oneDayCcno / 3) = false := by
        unfold inStateFor
        rw [← h1, BitVec.add_comm, BitVec.add_sub_cancel]
        decide
      rw [if_pos (show h.entry + 1 ≥ cc by rw [h1]; exact BitVec.le_refl _)]
      dsimp only
      rw [if_neg (show ¬ h.inStateFor cc (oneDayCcno / 3) = true by rw [h2]; decide)]
      split
      · exact ⟨⟨by show cc.toNat ≤ _; omega, fun g => absurd (show Cycling Qfh.unfaulted from g) (by unfold Cycling; decide)⟩, Or.inr (Or.inr ⟨rfl, hd⟩)⟩
      · exact ⟨⟨old.1, fun _ g => by have := hi.1; have : h.entry.toNat = n + 1 := g; omega⟩, Or.inr (Or.inr ⟨rfl, hd⟩)⟩
    · have hlt : h.entry.toNat < n := by have := hi.1; omega
      have h1 : ¬ h.entry + 1 ≥ cc := by
        rw [ge_iff_le, BitVec.le_def, BitVec.toNat_add, hc, show (1 : U32).toNat = 1 from rfl]
        have := cc.isLt
        omega
      rw [if_neg h1]
      dsimp only
      split
      · split
        · exact ⟨⟨by show cc.toNat ≤ _; omega, fun _ _ => rfl⟩, Or.inr (Or.inl rfl)⟩
        · rename_i hs
          have hs : next = Qfh.safehold := Classical.not_not.1 hs
          exact ⟨hne _ (by rw [hs]; unfold Cycling; decide), Or.inl rfl⟩
      · split
        · exact ⟨hne _ (by unfold Cycling; decide), Or.inl rfl⟩
        · exact ⟨old, Or.inl rfl⟩
  unfold execute
  split
  · rename_i hen
    exact ⟨old, Or.inl rfl, fun g => ⟨rfl, by rw [g]; unfold Cycling; decide⟩⟩
  split
  · rename_i hs
    unfold dispatchUnfaulted
    split
    · exact ⟨old, Or.inl rfl, fun g => ⟨rfl, by rw [g]; unfold Cycling; decide⟩⟩
    · exact ⟨hne _ (by unfold Cycling; decide), Or.inl rfl, fun _ => ⟨rfl, by show ¬ Cycling Qfh.forcedStandby; unfold Cycling; decide⟩⟩
  split
  · rename_i hu hs
    refine ⟨?_, ?_, fun g => absurd g hu⟩
    · unfold dispatchForcedStandby
      split
      · exact ⟨by show cc.toNat ≤ _; omega, fun _ _ => rfl⟩
      · split
        · exact hne _ (by unfold Cycling; decide)
        · exact old
    · unfold dispatchForcedStandby
      split
      · exact Or.inr (Or.inl rfl)
      · split <;> exact Or.inl rfl
  split
  · rename_i hu _ hs
    have := power Qfh.powercycle2 (Or.inl hs)
    exact ⟨this.1, this.2, fun g => absurd g hu⟩
  split
  · rename_i hu _ _ hs
    have := power Qfh.powercycle3 (Or.inr (Or.inl hs))
    exact ⟨this.1, this.2, fun g => absurd g hu⟩
  split
  · rename_i hu _ _ _ hs
    have := power Qfh.safehold (Or.inr (Or.inr hs))
    exact ⟨this.1, this.2, fun g => absurd g hu⟩
  split
  · rename_i hu _ _ _ _ hs
    refine ⟨?_, ?_, fun g => absurd g hu⟩
    · unfold dispatchSafehold
      split
      · exact hne _ (by unfold Cycling; decide)
      · exact old
    · unfold dispatchSafehold
      split <;> exact Or.inl rfl
  · rename_i hu _ _ _ _ _
    exact ⟨hne _ (by unfold Cycling; decide), Or.inl rfl, fun g => absurd g hu⟩

end QuakeFH

namespace RadioSys
open QuakeFH QM

theorem radio_before (s : RadioSys) (mm : MM) (y : RadioCycle) : (s.qm.before (radioCycle mm y)).state = mm.fh.radio.state := rfl

theorem cycle_ladder (s s' : RadioSys) (mm : MM) (y : RadioCycle) (n : Nat) (hi : LadderInv s.qfh s.qm.state n) (hc : y.inp.cc.toNat = n + 1)
    (hu : LadderUntouched s y) (he : (s.seen y).execute y.inp = some mm) (hs : s' = { qfh := mm.fh.quake, qm := s.qm.cycle (radioCycle mm y) }) :
    LadderInv s'.qfh s'.qm.state (n + 1) ∧ DisciplinedStep s.qm (radioCycle mm y) := by
  obtain ⟨hq, hr⟩ := MM.execute_radio _ _ _ he
  -- the handler before it runs
  have hqe : (s.seen y).fh.quake.entry = s.qfh.entry := rfl
  have hqs : (s.seen y).fh.quake.state = s.qfh.state := hu.1
  have hrs : (s.seen y).fh.radio.state = s.qm.state := rfl
  have hi' : LadderInv (s.seen y).fh.quake (s.seen y).fh.radio.state n := by
    unfold LadderInv; rw [hqe, hqs, hrs]; exact hi
  have key : LadderInv ((s.seen y).fh.execute y.inp.cc).2.quake ((s.seen y).fh.execute y.inp.cc).2.radio.state (n + 1) ∧
      (((s.seen y).fh.execute y.inp.cc).2.radio.state = s.qm.state ∨ ((s.seen y).fh.execute y.inp.cc).2.radio.state = Radio.disabled ∨
        (((s.seen y).fh.execute y.inp.cc).2.radio.state = Radio.config ∧ s.qm.state = Radio.disabled)) ∧
      (s.qfh.state = Qfh.unfaulted → ((s.seen y).fh.execute y.inp.cc).2.radio = (s.seen y).fh.radio ∧
        ¬ Cycling ((s.seen y).fh.execute y.inp.cc).2.quake.state) := by
    rcases FHState.execute_quake_radio (s.seen y).fh y.inp.cc with ⟨g, _⟩ | g
    · obtain ⟨g1, g2⟩ := Prod.mk.inj g
      rw [g1, g2]
      refine ⟨⟨?_, fun _ g => ?_⟩, Or.inl rfl, fun g => ⟨rfl, by rw [hqs, g]; unfold Cycling; decide⟩⟩
      · have := hi'.1; omega
      · have := hi'.1; omega
    · have g1 : ((s.seen y).fh.execute y.inp.cc).2.quake = ((s.seen y).fh.quake.execute (s.seen y).fh.radio y.inp.cc).2.1 := congrArg Prod.fst g
      have g2 : ((s.seen y).fh.execute y.inp.cc).2.radio = ((s.seen y).fh.quake.execute (s.seen y).fh.radio y.inp.cc).2.2 := congrArg Prod.snd g
      rw [g1, g2]
      obtain ⟨a, b, c⟩ := execute_ladder (s.seen y).fh.quake (s.seen y).fh.radio y.inp.cc n hc hi'
      exact ⟨a, b, fun g => c (hqs.trans g)⟩
  obtain ⟨k1, k2, k3⟩ := key
  have hd : DisciplinedStep s.qm (radioCycle mm y) := by
    unfold DisciplinedStep
    rw [radio_before]
    rcases hr with g | ⟨g1, g2, g3⟩
    · rw [g]; exact k2
    · have hun := hu.2 g1
      obtain ⟨e, _⟩ := k3 hun
      rw [e] at g2
      exact Or.inr (Or.inr ⟨g3, g2⟩)
  refine ⟨?_, hd⟩
  rw [hs]
  dsimp only
  rw [hq]
  refine ⟨k1.1, fun g1 g2 => ?_⟩
  have hdis := k1.2 g1 g2
  have hrm : mm.fh.radio.state = Radio.disabled := by
    rcases hr with g | ⟨g, _, _⟩
    · rw [g]; exact hdis
    · exact absurd g1 (k3 (hu.2 g)).2
  show ((s.qm.before (radioCycle mm y)).execute (radioCycle mm y).inp).1.state = Radio.disabled
  rw [execute_disabled _ _ ((radio_before s mm y).trans hrm)]
  rfl

theorem run_disciplined (ys : List RadioCycle) : ∀ (s : RadioSys) (n : Nat), LadderInv s.qfh s.qm.state n → SysTicks n ys →
    LadderUntouchedIn s ys → DisciplinedRadio s.qm (s.radioCycles ys) := by
  induction ys with
  | nil => intro s n _ _ _; trivial
  | cons y ys ih =>
    intro s n hi ht hu
    unfold radioCycles
    cases he : (s.seen y).execute y.inp with
    | none => trivial
    | some mm =>
      obtain ⟨a, b⟩ := cycle_ladder s _ mm y n hi ht.1 hu.1 he rfl
      refine ⟨b, ih _ _ a ht.2.2 (hu.2 _ ?_)⟩
      unfold cycle
      rw [he]

end RadioSys
open RadioSys

/-- C43: the mission manager and the radio fault handler only ever switch the radio off, or on from off, provided ground leaves the radio
fault handler's state alone: the histories of modem commands they produce satisfy the hypothesis of the theorems about command order. -/
theorem C43_other_tasks (n : Nat) (ys : List RadioCycle) (ht : SysTicks 0 ys) (hu : LadderUntouchedIn (RadioSys.init n) ys) :
    DisciplinedRadio (QM.init n) ((RadioSys.init n).radioCycles ys) :=
  run_disciplined ys (RadioSys.init n) 0 ⟨Nat.le_refl 0, fun g => absurd (show QuakeFH.Cycling Qfh.unfaulted from g) (by unfold QuakeFH.Cycling; decide)⟩ ht hu

/-! ### C64 -/

namespace QuakeFH

/-- Entering a power-cycling state switches the radio off. -/
theorem enters_cycling (h : QuakeFH) (r : RadioIO) (cc : U32) (he : Cycling (h.execute r cc).2.1.state)
    (hn : (h.execute r cc).2.1.state ≠ h.state) : (h.execute r cc).2.1.entry = cc ∧ (h.execute r cc).2.2.state = Radio.disabled := by
  revert he hn
  have nc : ∀ x, (x = Qfh.unfaulted ∨ x = Qfh.forcedStandby ∨ x = Qfh.safehold) → ¬ Cycling x := by
    rintro x (rfl | rfl | rfl) <;> unfold Cycling <;> decide
  have power : ∀ next, Cycling (h.dispatchPowercycle r cc next).2.1.state → (h.dispatchPowercycle r cc next).2.1.state ≠ h.state →
      (h.dispatchPowercycle r cc next).2.1.entry = cc ∧ (h.dispatchPowercycle r cc next).2.2.state = Radio.disabled := by
    intro next
    unfold dispatchPowercycle
    generalize (if h.entry + 1 ≥ cc then ({ r with state := Radio.config } : RadioIO) else r) = r'
    dsimp only
    split
    · split
      · exact fun _ _ => ⟨rfl, rfl⟩
      · rename_i hs
        intro g
        exact absurd g (nc _ (Or.inr (Or.inr (Classical.not_not.1 hs))))
    · split
      · intro g; exact absurd g (nc _ (Or.inl rfl))
      · intro _ g; exact absurd rfl g
  unfold execute
  split
  · intro _ g; exact absurd rfl g
  split
  · unfold dispatchUnfaulted
    split
    · intro _ g; exact absurd rfl g
    · intro g; exact absurd g (nc _ (Or.inr (Or.inl rfl)))
  split
  · unfold dispatchForcedStandby
    split
    · exact fun _ _ => ⟨rfl, rfl⟩
    · split
      · intro g; exact absurd g (nc _ (Or.inl rfl))
      · intro _ g; exact absurd rfl g
  split
  · exact power _
  split
  · exact power _
  split
  · exact power _
  split
  · unfold dispatchSafehold
    split
    · intro g; exact absurd g (nc _ (Or.inl rfl))
    · intro _ g; exact absurd rfl g
  · intro g; exact absurd g (nc _ (Or.inl rfl))

/-- In the cycle after a power-cycling state was entered the handler switches the radio on. -/
theorem cycling_next (h : QuakeFH) (r : RadioIO) (cc : U32) (he : h.enabled = true) (hc : Cycling h.state) (hcc : cc = h.entry + 1) :
    (h.execute r cc).2.2.state = Radio.config := by
  have hle : h.entry + 1 ≥ cc := by rw [hcc]; exact BitVec.le_refl _
  have h2 : ¬ h.inStateFor cc (oneDayCcno / 3) = true := by
    unfold inStateFor
    rw [hcc, BitVec.add_comm, BitVec.add_sub_cancel]
    decide
  have power : ∀ next, (h.dispatchPowercycle r cc next).2.2.state = Radio.config := by
    intro next
    unfold dispatchPowercycle
    rw [if_pos hle]
    dsimp only
    rw [if_neg h2]
    split <;> rfl
  unfold execute
  rw [if_neg (by rw [he]; decide)]
  rcases hc with g | g | g
  · rw [if_neg (by rw [g]; decide), if_neg (by rw [g]; decide), if_pos g]; exact power _
  · rw [if_neg (by rw [g]; decide), if_neg (by rw [g]; decide), if_neg (by rw [g]; decide), if_pos g]; exact power _
  · rw [if_neg (by rw [g]; decide), if_neg (by rw [g]; decide), if_neg (by rw [g]; decide), if_neg (by rw [g]; decide), if_pos g]
    exact power _

end QuakeFH

/-- C64: when radio fault handling enters one of its power-cycling steps, the radio is off in that cycle, and in the next cycle it is
configuring and is sent the first configuration command, whatever else happens in the two cycles, provided the handlers are enabled
and no safehold-level fault is reported in the second cycle.
Missing from the full property: a safehold-level fault in that one cycle (`C64_counterexample_fault`). -/
theorem C64_back_on_partial (s s1 : RadioSys) (y1 y2 : RadioCycle) (mm1 mm2 : MM)
    (h1 : (s.seen y1).execute y1.inp = some mm1) (hs1 : s.cycle y1 = some s1) (hm : y1.env.fh.mission ≠ Mission.startup)
    (hnew : QuakeFH.Cycling s1.qfh.state) (hold : s1.qfh.state ≠ y1.env.fh.quake.state)
    (h2 : (s1.seen y2).execute y2.inp = some mm2) (hu : y2.env.fh.quake.state = s1.qfh.state) (hq : y2.env.fh.quake.enabled = true)
    (hf : y2.env.fh.enabled = true) (hcc : y2.inp.cc = y1.inp.cc + 1) (hr1 : y1.radio.cc = y1.inp.cc) (hr2 : y2.radio.cc = y2.inp.cc)
    (hresp : ((s1.seen y2).fh.execute y2.inp.cc).1 ≠ .safehold) :
    s1.qm.state = Radio.disabled ∧ (s1.qm.before (radioCycle mm2 y2)).state = Radio.config ∧
    ∃ r, s1.qm.call (radioCycle mm2 y2) = some (.config1, r) := by
  have hs : s1 = { qfh := mm1.fh.quake, qm := s.qm.cycle (radioCycle mm1 y1) } := by
    unfold RadioSys.cycle at hs1
    rw [h1] at hs1
    exact (Option.some.inj hs1).symm
  have hqs : s1.qfh = mm1.fh.quake := by rw [hs]
  obtain ⟨hq1, hrad⟩ := MM.execute_radio _ _ _ h1
  rw [hqs] at hnew hold hu
  rw [hq1] at hnew hold hu
  -- first cycle
  have first : ((s.seen y1).fh.execute y1.inp.cc).2.quake.entry = y1.inp.cc ∧ ((s.seen y1).fh.execute y1.inp.cc).2.radio.state = Radio.disabled := by
    rcases FHState.execute_quake_radio (s.seen y1).fh y1.inp.cc with ⟨g, _⟩ | g
    · obtain ⟨g1, _⟩ := Prod.mk.inj g
      rw [g1] at hold
      exact absurd rfl hold
    · have g1 : ((s.seen y1).fh.execute y1.inp.cc).2.quake = ((s.seen y1).fh.quake.execute (s.seen y1).fh.radio y1.inp.cc).2.1 := congrArg Prod.fst g
      have g2 : ((s.seen y1).fh.execute y1.inp.cc).2.radio = ((s.seen y1).fh.quake.execute (s.seen y1).fh.radio y1.inp.cc).2.2 := congrArg Prod.snd g
      rw [g1] at hnew hold ⊢
      rw [g2]
      exact QuakeFH.enters_cycling _ _ _ hnew hold
  have hm1 : mm1.fh.radio.state = Radio.disabled := by
    rcases hrad with g | ⟨g, _, _⟩
    · rw [g]; exact first.2
    · exact absurd g hm
  have hqm : s1.qm = (s.qm.before (radioCycle mm1 y1)).goto y1.inp.cc Radio.disabled := by
    rw [hs]
    show ((s.qm.before (radioCycle mm1 y1)).execute (radioCycle mm1 y1).inp).1 = _
    rw [QM.execute_disabled _ _ ((radio_before s mm1 y1).trans hm1)]
    show QM.goto _ y1.radio.cc _ = _
    rw [hr1]
  -- second cycle
  have hent : (s1.seen y2).fh.quake.entry = y1.inp.cc := by
    show s1.qfh.entry = _
    rw [hqs, hq1]; exact first.1
  have second : ((s1.seen y2).fh.execute y2.inp.cc).2.radio.state = Radio.config := by
    rcases FHState.execute_quake_radio (s1.seen y2).fh y2.inp.cc with ⟨_, g | g⟩ | g
    · rw [show (s1.seen y2).fh.enabled = y2.env.fh.enabled from rfl, hf] at g; exact absurd g (by decide)
    · exact absurd g hresp
    · have g2 : ((s1.seen y2).fh.execute y2.inp.cc).2.radio = ((s1.seen y2).fh.quake.execute (s1.seen y2).fh.radio y2.inp.cc).2.2 := congrArg Prod.snd g
      rw [g2]
      exact QuakeFH.cycling_next _ _ _ hq (by show QuakeFH.Cycling y2.env.fh.quake.state; rw [hu]; exact hnew) (by rw [hent]; exact hcc)
  have hm2 : mm2.fh.radio.state = Radio.config := by
    obtain ⟨_, hrad2⟩ := MM.execute_radio _ _ _ h2
    rcases hrad2 with g | ⟨_, g, _⟩
    · rw [g]; exact second
    · rw [second] at g; exact absurd g (by decide)
  refine ⟨by rw [hqm]; rfl, (radio_before s1 mm2 y2).trans hm2, ?_⟩
  have hst : (s1.qm.before (radioCycle mm2 y2)).state = Radio.config := (radio_before s1 mm2 y2).trans hm2
  have hfn : (s1.qm.before (radioCycle mm2 y2)).fn = 0 ∧ (s1.qm.before (radioCycle mm2 y2)).entry = y1.inp.cc := by
    obtain ⟨a, b, c, hb⟩ := QM.before_frame s1.qm (radioCycle mm2 y2)
    rw [hb, hqm]
    exact ⟨rfl, rfl⟩
  show ∃ r, ((s1.qm.before (radioCycle mm2 y2)).execute (radioCycle mm2 y2).inp).2 = some (.config1, r)
  generalize s1.qm.before (radioCycle mm2 y2) = q at hst hfn
  rw [QM.execute_config _ _ hst]
  unfold QM.dispatchConfig
  have hsub : (radioCycle mm2 y2).inp.cc - q.entry = 1 := by
    show y2.radio.cc - q.entry = 1
    rw [hr2, hfn.2, hcc, BitVec.add_comm, BitVec.add_sub_cancel]
  rw [if_neg (by unfold QM.noMoreCycles; rw [hsub]; decide)]
  rcases QM.qctConfig_spec q (radioCycle mm2 y2).inp.port with ⟨r, c, f, he, hfe, hc⟩ | ⟨he, h4⟩
  · rw [hfn.1] at hc
    have hc : Cmd.config1 = c := Option.some.inj hc
    subst hc
    refine ⟨r, ?_⟩
    rw [he]
    dsimp only
    split
    · rfl
    · split <;> rfl
  · rw [hfn.1] at h4; exact absurd h4 (by decide)

/-! What happens when the one cycle is missed -/

namespace QuakeFH

/-- States of the handler in which a radio that is off stays off, up to (not including) cycle `last`. -/
def StaysOff (last : Nat) (h : QuakeFH) (cc : Nat) : Prop :=
  h.state = Qfh.unfaulted ∨ h.state = Qfh.safehold ∨
    (Cycling h.state ∧ h.entry.toNat + 1 ≤ cc ∧ last ≤ h.entry.toNat + oneDayCcno / 3)

theorem execute_staysOff (h : QuakeFH) (r : RadioIO) (cc : U32) (last n : Nat) (hcc : cc.toNat = n + 1) (hs : h.StaysOff last n) (hl : n + 1 < last)
    (hr : r.state = Radio.disabled) :
    (h.execute r cc).2.1.StaysOff last (n + 1) ∧ (h.execute r cc).2.2.state = Radio.disabled := by
  have hrd : radioDisabled r = true := by unfold radioDisabled; rw [hr]; decide
  have stay : h.StaysOff last (n + 1) := hs.imp id (Or.imp id fun g => ⟨g.1, by omega, g.2.2⟩)
  have power : ∀ next, Cycling h.state → h.entry.toNat + 1 ≤ n → last ≤ h.entry.toNat + oneDayCcno / 3 →
      (h.dispatchPowercycle r cc next).2.1.StaysOff last (n + 1) ∧ (h.dispatchPowercycle r cc next).2.2.state = Radio.disabled := by
    intro next _ h1 h2
    have hlt := cc.isLt
    have hday : oneDayCcno = 508235 := rfl
    have n1 : ¬ h.entry + 1 ≥ cc := by
      show ¬ cc ≤ h.entry + 1
      rw [BitVec.le_def, BitVec.toNat_add, Nat.mod_eq_of_lt (by show h.entry.toNat + 1 < 2 ^ 32; omega)]
      show ¬ cc.toNat ≤ h.entry.toNat + 1
      omega
    have n2 : ¬ h.inStateFor cc (oneDayCcno / 3) = true := by
      unfold inStateFor
      rw [decide_eq_true_eq]
      show ¬ BitVec.ofNat 32 (oneDayCcno / 3) ≤ cc - h.entry
      rw [BitVec.le_def, BitVec.toNat_sub]
      show ¬ 169411 ≤ (2 ^ 32 - h.entry.toNat + cc.toNat) % 2 ^ 32
      rw [hday] at h2
      omega
    unfold dispatchPowercycle
    rw [if_neg n1]
    dsimp only
    rw [if_neg n2]
    split
    · exact ⟨Or.inl rfl, hr⟩
    · exact ⟨stay, hr⟩
  unfold execute
  split
  · exact ⟨stay, hr⟩
  rcases hs with g | g | ⟨g, h1, h2⟩
  · rw [if_pos g]
    unfold dispatchUnfaulted
    rw [if_pos (by rw [hrd]; rfl)]
    exact ⟨stay, hr⟩
  · rw [if_neg (by rw [g]; decide), if_neg (by rw [g]; decide), if_neg (by rw [g]; decide), if_neg (by rw [g]; decide),
      if_neg (by rw [g]; decide), if_pos g]
    unfold dispatchSafehold
    rw [if_pos (by rw [hrd]; rfl)]
    exact ⟨Or.inl rfl, hr⟩
  · have := fun next => power next g h1 h2
    rcases g with g | g | g
    · rw [if_neg (by rw [g]; decide), if_neg (by rw [g]; decide), if_pos g]; exact this _
    · rw [if_neg (by rw [g]; decide), if_neg (by rw [g]; decide), if_neg (by rw [g]; decide), if_pos g]; exact this _
    · rw [if_neg (by rw [g]; decide), if_neg (by rw [g]; decide), if_neg (by rw [g]; decide), if_neg (by rw [g]; decide), if_pos g]
      exact this _

end QuakeFH

namespace RadioSys

theorem cycle_staysOff (s s' : RadioSys) (y : RadioCycle) (last n : Nat) (hcc : y.inp.cc.toNat = n + 1) (hl : n + 1 < last)
    (hs : s.qfh.StaysOff last n) (hr : s.qm.state = Radio.disabled) (hy : SilentCycle s y) (hc : s.cycle y = some s') :
    s'.qfh.StaysOff last (n + 1) ∧ s'.qm.state = Radio.disabled := by
  unfold cycle at hc
  cases he : (s.seen y).execute y.inp with
  | none => rw [he] at hc; cases hc
  | some mm =>
    rw [he] at hc
    cases hc
    obtain ⟨h1, h2⟩ := MM.execute_radio _ _ _ he
    have h2 := h2.resolve_right fun g => hy.2 g.1
    have hs' : (s.seen y).fh.quake.StaysOff last n := by
      have e1 : (s.seen y).fh.quake.state = s.qfh.state := hy.1
      have e2 : (s.seen y).fh.quake.entry = s.qfh.entry := rfl
      unfold QuakeFH.StaysOff
      rw [e1, e2]
      exact hs
    have stay : (s.seen y).fh.quake.StaysOff last (n + 1) := hs'.imp id (Or.imp id fun g => ⟨g.1, by omega, g.2.2⟩)
    have key : mm.fh.quake.StaysOff last (n + 1) ∧ mm.fh.radio.state = Radio.disabled := by
      rw [h1, h2]
      rcases FHState.execute_quake_radio (s.seen y).fh y.inp.cc with ⟨g, _⟩ | g
      · obtain ⟨g1, g2⟩ := Prod.mk.inj g
        rw [g1, g2]; exact ⟨stay, hr⟩
      · have g1 : ((s.seen y).fh.execute y.inp.cc).2.quake = _ := congrArg Prod.fst g
        have g2 : ((s.seen y).fh.execute y.inp.cc).2.radio = _ := congrArg Prod.snd g
        rw [g1, g2]
        exact QuakeFH.execute_staysOff _ _ _ last n hcc hs' hl hr
    refine ⟨key.1, ?_⟩
    show ((s.qm.before (radioCycle mm y)).execute (radioCycle mm y).inp).1.state = _
    rw [QM.execute_disabled _ _ ((radio_before s mm y).trans key.2)]
    rfl

theorem run_staysOff (last : Nat) (ys : List RadioCycle) : ∀ (s s' : RadioSys) (n : Nat), SysTicks n ys → n + ys.length < last → s.qfh.StaysOff last n →
    s.qm.state = Radio.disabled → SilentCycles s ys → s.run ys = some s' → s'.qm.state = Radio.disabled := by
  induction ys with
  | nil => intro s s' n _ _ _ hr _ he; cases he; exact hr
  | cons y ys ih =>
    intro s s' n ht hl hs hr hu he
    unfold run at he
    rw [List.length_cons] at hl
    cases hc : s.cycle y with
    | none => rw [hc] at he; cases he
    | some s1 =>
      rw [hc] at he
      obtain ⟨a, b⟩ := cycle_staysOff s s1 y last n ht.1 (by omega) hs hr hu.1 hc
      exact ih s1 s' (n + 1) ht.2.2 (by omega) a b (hu.2 _ hc) he

end RadioSys

/-- C64: a radio that is off while its handler is in its normal state or in safehold is never switched on again, over any number of control
cycles and whatever the faults and mission states, until a reboot or a startup command. -/
theorem C64_stays_off (s s' : RadioSys) (n : Nat) (ys : List RadioCycle) (ht : SysTicks n ys) (hr : s.qm.state = Radio.disabled)
    (hq : s.qfh.state = Qfh.unfaulted ∨ s.qfh.state = Qfh.safehold) (hu : SilentCycles s ys) (he : s.run ys = some s') :
    s'.qm.state = Radio.disabled :=
  run_staysOff (n + ys.length + 1) ys s s' n ht (by omega) (hq.imp id Or.inl) hr hu he

/-- C64 does not hold if low battery is reported in exactly the cycle after the radio has been switched off (`s` is the state after that
cycle, `y` the next cycle): the radio then stays off for every following cycle of the third of a day until the next step of radio fault
handling, whatever the faults. -/
theorem C64_counterexample_fault (s s' : RadioSys) (y : RadioCycle) (ys : List RadioCycle) (hr : s.qm.state = Radio.disabled)
    (hc : QuakeFH.Cycling s.qfh.state) (ht : SysTicks s.qfh.entry.toNat (y :: ys)) (hb : LowBattery y) (hu : SilentCycles s (y :: ys))
    (hl : (y :: ys).length < oneDayCcno / 3) (he : s.run (y :: ys) = some s') : s'.qm.state = Radio.disabled := by
  unfold run at he
  cases h1 : s.cycle y with
  | none => rw [h1] at he; cases he
  | some s1 =>
    rw [h1] at he
    have hx := h1
    unfold cycle at hx
    cases hm : (s.seen y).execute y.inp with
    | none => rw [hm] at hx; cases hx
    | some mm =>
      rw [hm] at hx
      cases hx
      obtain ⟨q1, q2⟩ := MM.execute_radio _ _ _ hm
      have q2 := q2.resolve_right fun g => hu.1.2 g.1
      have hex : ((s.seen y).fh.execute y.inp.cc).2.quake = (s.seen y).fh.quake ∧ ((s.seen y).fh.execute y.inp.cc).2.radio = (s.seen y).fh.radio := by
        unfold FHState.execute MainFH.execute
        rw [if_neg (by show ¬ y.env.fh.enabled = false; rw [hb.1]; decide)]
        show (MainFH.loop (FHState.lowBattH :: _) _ _).2.quake = _ ∧ (MainFH.loop (FHState.lowBattH :: _) _ _).2.radio = _
        unfold MainFH.loop
        have : ((s.seen y).fh.lowBattH).1 = .safehold := by
          show (SimpleFH.execute 0 .safehold y.env.fh.mission y.env.fh.lowBatt).1 = _
          unfold SimpleFH.execute
          rw [if_pos hb.2.1, if_pos hb.2.2]
        rcases hlb : (s.seen y).fh.lowBattH with ⟨r, t⟩
        have h2 : ((s.seen y).fh.lowBattH).2 = t := by rw [hlb]
        rw [hlb] at this
        have : r = .safehold := this
        subst this
        rw [← h2]
        exact ⟨rfl, rfl⟩
      have hst : mm.fh.quake.state = s.qfh.state := by rw [q1, hex.1]; exact hu.1.1
      have hent : mm.fh.quake.entry = s.qfh.entry := by rw [q1, hex.1]; rfl
      have hrad : mm.fh.radio.state = Radio.disabled := by rw [q2, hex.2]; exact hr
      rw [List.length_cons] at hl
      refine run_staysOff (s.qfh.entry.toNat + oneDayCcno / 3) ys _ s' (s.qfh.entry.toNat + 1) ht.2.2 (by omega)
        (Or.inr (Or.inr ⟨?_, ?_, ?_⟩)) ?_ (hu.2 _ h1) he
      · rw [hst]; exact hc
      · rw [hent]; exact Nat.le_refl _
      · rw [hent]; exact Nat.le_refl _
      · show ((s.qm.before (radioCycle mm y)).execute (radioCycle mm y).inp).1.state = _
        rw [QM.execute_disabled _ _ ((radio_before s mm y).trans hrad)]
        rfl

/-! ### Concrete runs -/

namespace QDemo

/-- A control cycle of the whole: cycle count, mission state, state of the radio fault handler written by ground, modem. -/
def sys (cc : Nat) (mission qfh : U8) (p : ModemIn) : RadioCycle :=
  let s := MM.init 14 20 20
  { env := { s with elapsed := 106, fh := { s.fh with mission := mission, quake := { s.fh.quake with state := qfh } } }
    inp := ⟨BitVec.ofNat 32 cc, false, none, 0, none, false⟩
    maxWait := 1
    maxTrans := 500
    radio := (cyc cc p []).inp }

/-- End of startup, then standby; the radio is configured. -/
def sysBoot : List RadioCycle :=
  [sys 1 Mission.startup Qfh.unfaulted quiet, sys 2 Mission.standby Qfh.unfaulted ans2, sys 3 Mission.standby Qfh.unfaulted quiet,
   sys 4 Mission.standby Qfh.unfaulted ans3, sys 5 Mission.standby Qfh.unfaulted ans4]

/-- The state after a history. -/
def sysRun (ys : List RadioCycle) : RadioSys := ((RadioSys.init 100).run ys).getD (RadioSys.init 100)

/-- `LadderUntouchedIn` as a computable test. -/
def untouchedB (s : RadioSys) : List RadioCycle → Bool
  | [] => true
  | y :: ys => (y.env.fh.quake.state == s.qfh.state) && (!(y.env.fh.mission == Mission.startup) || s.qfh.state == Qfh.unfaulted) &&
      match s.cycle y with
      | none => true
      | some s' => untouchedB s' ys

theorem untouchedB_spec (ys : List RadioCycle) : ∀ s, untouchedB s ys = true → LadderUntouchedIn s ys := by
  induction ys with
  | nil => intro s _; trivial
  | cons y ys ih =>
    intro s h
    simp only [untouchedB, Bool.and_eq_true, beq_iff_eq, Bool.or_eq_true, Bool.not_eq_true'] at h
    obtain ⟨⟨h1, h2⟩, h3⟩ := h
    refine ⟨⟨h1, fun hm => h2.resolve_left (by rw [hm]; decide)⟩, fun s' hs' => ?_⟩
    rw [hs'] at h3
    exact ih s' h3

/-- The radio has just been switched off for the first power cycle, in cycle 1016471. -/
def off : RadioSys :=
  { qfh := { state := Qfh.powercycle1, entry := 1016471, enabled := true }, qm := { QM.init 100 with entry := 1016471 } }

/-- The state before that. -/
def silent : RadioSys :=
  { qfh := { state := Qfh.forcedStandby, entry := 508236, enabled := true }, qm := { QM.init 100 with state := Radio.transceive } }

end QDemo
open QDemo

/- Non-vacuity of `C43_other_tasks`. -/
example : SysTicks 0 sysBoot ∧ LadderUntouchedIn (RadioSys.init 100) sysBoot ∧ (sysRun sysBoot).qm.state = Radio.write := by
  refine ⟨⟨?_, ?_, ?_, ?_, ?_, ?_, ?_, ?_, ?_, ?_, trivial⟩, untouchedB_spec _ _ ?_, ?_⟩ <;> decide +kernel

/-- C43 does not hold if ground writes the radio fault handler's state: here it commands the safehold step in cycle 6, while the first write
command is sent, and the first power-cycling step in cycle 7. The handler sets the radio to configuration in the middle of the write
sequence, and the configuration begins with its second command. -/
theorem C43_counterexample_ground_ladder :
    let y6 := sys 6 Mission.standby Qfh.safehold quiet
    let y7 := sys 7 Mission.standby Qfh.powercycle1 ans2
    let cs := (RadioSys.init 100).radioCycles (sysBoot ++ [y6, y7])
    (cs.map (·.inp.cc) = [1, 2, 3, 4, 5, 6, 7]) ∧
    (List.range 7).map (fun k => ((QM.init 100).run (cs.take k)).call (cs.getD k (cyc 0 quiet []))) =
      [some (.config1, 0), some (.config2, 0), some (.config3, 7), some (.config3, 0), some (.getConfig, 0), some (.sbdwb1, 0), some (.config2, 0)] := by
  decide +kernel

/- Non-vacuity of `C64_back_on_partial`: two days of silence, first power cycle. -/
example :
    let y1 := sys 1016471 Mission.standby Qfh.forcedStandby quiet
    let y2 := sys 1016472 Mission.standby Qfh.powercycle1 quiet
    ((silent.cycle y1).map fun s => (s.qfh, s.qm.state)) = some (off.qfh, Radio.disabled) ∧
    ((off.cycle y2).map fun s => (s.qfh.state, s.qm.state)) = some (Qfh.powercycle1, Radio.config) ∧
    ((off.seen y2).fh.execute y2.inp.cc).1 = .standby := by decide +kernel

/- Non-vacuity of `C64_counterexample_fault`: the same with low battery in the second cycle. -/
example :
    let y : RadioCycle := sys 1016472 Mission.standby Qfh.powercycle1 quiet
    let y : RadioCycle := { y with env := { y.env with fh := { y.env.fh with lowBatt := { Fault.init 1 with override := true } } } }
    LowBattery y ∧ ((off.cycle y).map fun s => (s.qfh.state, s.qm.state)) = some (Qfh.powercycle1, Radio.disabled) := by
  refine ⟨⟨?_, ?_, ?_⟩, ?_⟩ <;> decide +kernel

end PAN
