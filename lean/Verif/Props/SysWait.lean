import Verif.Props.SysPlan
import Verif.Props.ADCSActuation
import Verif.Props.Deployment

/-!
C134: nothing on the satellite acts during the deployment wait, in the composed flight software and down to the drivers of the
attitude box. `Deployment.lean` (C34) counts the cycles of the wait in the mission manager alone; here the control tasks that run
after it, the propulsion controller and the attitude box are added.
-/
namespace PAN
namespace Spec
open ADCS

/-- The satellite waits for deployment: it is in startup with attitude control in its startup state, and propulsion is disabled with
every valve closed, the valve timer off and no schedule left. -/
def WaitsForDeployment {L : Orb.Lib} (s : Sys L) : Prop :=
  s.mm.fh.mission = Mission.startup ∧ s.mm.adcs = Adcs.startup ∧ s.mm.fh.ctl.state = Prp.disabled ∧
    Shut s.mm.fh.ctl ∧ Cleared s.mm.fh.ctl

/-- Nobody commands the three states, or the counter of the wait, from outside. Everything else may be commanded. -/
def LeavesWait {L : Orb.Lib} (x : SysStep L) : Prop :=
  x.HandsOff ∧ ∀ s : Sys L, (x.others s).mm.elapsed = s.mm.elapsed

/-- The control cycles left of the wait at a boot at which the saved counter, in hundreds of cycles, is `e`: 10600 after the first. -/
def cyclesLeft (e : Nat) : Nat := 100 * (106 - e)

end Spec
open Spec ADCS

variable {L : Orb.Lib}
namespace Sys

/-- The mission manager in startup, before the wait is over. -/
theorem startup_keeps (s s' : MM) (i : MMIn) (hm : s.fh.mission = Mission.startup) (hp : s.fh.ctl.state = Prp.disabled)
    (hel : s.elapsed.toNat < 106) (he : s.execute i = some s') :
    s'.fh.mission = Mission.startup ∧ s'.adcs = s.adcs ∧ s'.fh.ctl.state = Prp.disabled ∧
      s'.elapsed.toNat = s.elapsed.toNat + (if i.cc.toNat % 100 = 0 then 1 else 0) := by
  rcases MM.execute_cases s i with ⟨h, _⟩ | ⟨h, _⟩ | ⟨_, _, e⟩
  · exact absurd hm h
  · exact absurd hm h
  · rw [e, hm] at he
    have hf := faults_disabled s.fh i.cc hp
    have hmis := (MM.afterFaults_mission s i.cc).trans hm
    change (s.afterFaults i.cc).dispatchStartup i = some s' at he
    unfold MM.dispatchStartup at he
    split at he
    · cases he
    rw [if_pos (show (s.afterFaults i.cc).elapsed.toNat < MM.batchThresh from hel)] at he
    have hcc : (i.cc % 100 = 0) ↔ i.cc.toNat % 100 = 0 := by
      rw [← BitVec.toNat_inj, BitVec.toNat_umod]; rfl
    split at he
    · rename_i hc
      cases he
      refine ⟨hmis, rfl, hf, ?_⟩
      rw [if_pos (hcc.1 hc)]
      show (s.elapsed + 1).toNat = _
      rw [BitVec.toNat_add]
      show (s.elapsed.toNat + 1) % 256 = _
      omega
    · rename_i hc
      cases he
      refine ⟨hmis, rfl, hf, ?_⟩
      rw [if_neg (fun h => hc (hcc.2 h))]
      rfl

/-- What the rest of the cycle does after a mission manager that is in startup. -/
theorem after_startup (ρ : Orb.Rounding) (s s' : Sys L) (i : SysIn L) (msgs : List (List U8)) (mm : MM)
    (hmm : ({ s with mm := { s.mm with fh := { s.mm.fh with ctl := s.mm.fh.ctl.interrupts i.ticks1 } } } : Sys L).mm.execute
      i.mm = some mm)
    (hm : mm.fh.mission = Mission.startup) (ha : mm.adcs = Adcs.startup) (hp : mm.fh.ctl.state = Prp.disabled)
    (h : s.cycle ρ i = some (s', msgs)) :
    WaitsForDeployment s' ∧ CommandsPassive msgs ∧ s'.mm.elapsed = mm.elapsed := by
  unfold cycle at h
  dsimp only at h hmm
  rw [hmm] at h
  dsimp only at h
  split at h
  · cases h
  · rename_i s2 m hatt
    obtain ⟨a1, a2, a3, a4⟩ := runAttitude_spec hatt
    have b1 : s2.mm.fh = mm.fh := by rw [a1]; exact (runDcdc_mm _).1
    have b2 : s2.mm.adcs = mm.adcs := by rw [a1]; exact (runDcdc_mm _).2
    have b3 : s2.mm.elapsed = mm.elapsed := by rw [a1]; rfl
    obtain ⟨o, ho⟩ := runOrbit_idle ρ s2 i (by rw [b1, hm]; decide) (by rw [b1, hm]; decide)
    rw [ho] at h
    have h' := Option.some.inj h
    have e1 := congrArg (·.1) h'
    have e2 := congrArg (·.2) h'
    dsimp only at e1 e2
    subst e1 e2
    have hst : ({ s with mm := mm } : Sys L).runDcdc.mm.adcs = sStartup := ha
    rw [hst] at a4
    obtain ⟨c1, c2, c3, c4, c5⟩ := C52_startup a4
    have hmode := C52_mode a4
    refine ⟨⟨?_, ?_, ?_⟩, ⟨?_, fun pre => (c5 pre).1⟩, b3⟩
    · exact (congrArg (·.mission) b1).trans hm
    · exact b2.trans ha
    · have hst2 : (s2.mm.fh.ctl.interrupts i.ticks2).state = Prp.disabled := (congrArg (·.ctl.state) b1).trans hp
      exact C39_disabled _ _ (Or.inl hst2)
    · simpa using hmode

theorem wait_run (ρ : Orb.Rounding) (e : Nat) (xs : List (SysStep L)) : ∀ (s s' : Sys L) (ms : List (List (List U8))) (n : Nat),
    (∀ x ∈ xs, LeavesWait x) → CountedFrom (n + 1) xs → WaitsForDeployment s → s.mm.elapsed.toNat = e + n / 100 →
    n + xs.length ≤ cyclesLeft e → srun ρ s xs = some (s', ms) →
    WaitsForDeployment s' ∧ (∀ m ∈ ms, CommandsPassive m) ∧ s'.mm.elapsed.toNat = e + (n + xs.length) / 100 := by
  induction xs with
  | nil =>
    intro s s' ms n _ _ hs he _ h
    have h' := Option.some.inj h
    have e1 := congrArg (·.1) h'
    have e2 := congrArg (·.2) h'
    dsimp only at e1 e2
    subst e1 e2
    exact ⟨hs, nofun, by simpa using he⟩
  | cons x xs ih =>
    intro s s' ms n hx hc hs he hn h
    unfold srun at h
    split at h
    · cases h
    · rename_i s1 m1 h1
      split at h
      · cases h
      · rename_i s2 ms2 h2
        have h' := Option.some.inj h
        have e1 := congrArg (·.1) h'
        have e2 := congrArg (·.2) h'
        dsimp only at e1 e2
        subst e1 e2
        obtain ⟨hH, hE⟩ := hx x (by simp)
        obtain ⟨o1, o2, o3⟩ := hH s
        obtain ⟨c1, c2⟩ := hc
        unfold cyclesLeft at hn
        simp only [List.length_cons] at hn
        obtain ⟨mm, hmm⟩ : ∃ mm, ({ (x.others s) with mm := { (x.others s).mm with fh :=
          { (x.others s).mm.fh with ctl := (x.others s).mm.fh.ctl.interrupts x.inp.ticks1 } } } : Sys L).mm.execute x.inp.mm = some mm := by
          unfold cycle at h1
          dsimp only at h1
          split at h1
          · cases h1
          · rename_i mm hmm; exact ⟨mm, hmm⟩
        obtain ⟨k1, k2, k3, k4⟩ := startup_keeps ({ (x.others s) with mm := { (x.others s).mm with fh :=
          { (x.others s).mm.fh with ctl := (x.others s).mm.fh.ctl.interrupts x.inp.ticks1 } } } : Sys L).mm mm x.inp.mm (o1.trans hs.1) (o3.trans hs.2.2.1)
          (by show (x.others s).mm.elapsed.toNat < 106; rw [hE s, he]; omega) hmm
        obtain ⟨a, b, d⟩ := after_startup ρ (x.others s) s1 x.inp m1 mm hmm k1 (k2.trans (o2.trans hs.2.1)) k3 h1
        have hcc : x.inp.mm.cc.toNat = n + 1 := by
          rw [c1, BitVec.toNat_ofNat]; omega
        have hel : s1.mm.elapsed.toNat = e + (n + 1) / 100 := by
          rw [d, k4, hcc]
          show (x.others s).mm.elapsed.toNat + _ = _
          rw [hE s, he]
          split <;> omega
        obtain ⟨f1, f2, f3⟩ := ih s1 s2 ms2 (n + 1) (fun y hy => hx y (by simp [hy])) c2 a hel
          (by unfold cyclesLeft; omega) h2
        refine ⟨f1, fun m hm => ?_, ?_⟩
        · rcases List.mem_cons.mp hm with rfl | hm
          · exact b
          · exact f2 m hm
        · rw [f3]; simp only [List.length_cons]; congr 2; omega

theorem init_waits (m : L.Mem) (p t2 t1 : Rat) (a d : Bool) : WaitsForDeployment (Sys.init L m p t2 t1 a d) := by
  refine ⟨rfl, rfl, rfl, ⟨?_, rfl⟩, show ∀ v ∈ Driver.init.tank2, v.sched = 0 by decide⟩
  intro t j
  show ¬ (Driver.init.isValveOpen t j = true)
  rcases j with _ | _ | _ | _ | j <;> cases t <;> first | decide | exact Bool.false_ne_true

/-- The mission manager in startup, with the wait over. -/
theorem startup_over (s s' : MM) (i : MMIn) (hm : s.fh.mission = Mission.startup) (hel : 106 ≤ s.elapsed.toNat) (he : s.execute i = some s') :
    (s'.fh.mission = Mission.detumble ∨ s'.fh.mission = Mission.initializationHold) ∧ s'.adcs = Adcs.detumble := by
  rcases MM.execute_cases s i with ⟨h, _⟩ | ⟨h, _⟩ | ⟨_, _, e⟩
  · exact absurd hm h
  · exact absurd hm h
  · rw [e, hm] at he
    change (s.afterFaults i.cc).dispatchStartup i = some s' at he
    unfold MM.dispatchStartup at he
    dsimp only at he
    split at he
    · cases he
    rw [if_neg (show ¬ (s.afterFaults i.cc).elapsed.toNat < MM.batchThresh from fun h => absurd hel (Nat.not_le.2 h))] at he
    generalize hq : (if (s.afterFaults i.cc).fh.radio.state = Radio.disabled then _ else _ : MM) = k at he
    split at he
    · cases he; exact ⟨Or.inr rfl, rfl⟩
    · cases he; exact ⟨Or.inl rfl, rfl⟩

theorem leaves_startup (ρ : Orb.Rounding) (s s' : Sys L) (i : SysIn L) (msgs : List (List U8)) (hm : s.mm.fh.mission = Mission.startup)
    (hel : 106 ≤ s.mm.elapsed.toNat) (h : s.cycle ρ i = some (s', msgs)) :
    (s'.mm.fh.mission = Mission.detumble ∨ s'.mm.fh.mission = Mission.initializationHold) ∧ s'.mm.adcs = Adcs.detumble ∧
      msgs.filterMap modeIn = [1] := by
  unfold cycle at h
  dsimp only at h
  split at h
  · cases h
  rename_i mm hmm
  obtain ⟨k1, k2⟩ := startup_over ({ s with mm := { s.mm with fh := { s.mm.fh with ctl := s.mm.fh.ctl.interrupts i.ticks1 } } } : Sys L).mm mm i.mm hm hel hmm
  split at h
  · cases h
  · rename_i s2 m hatt
    obtain ⟨a1, a2, a3, a4⟩ := runAttitude_spec hatt
    have b1 : s2.mm.fh = mm.fh := by rw [a1]; exact (runDcdc_mm _).1
    have b2 : s2.mm.adcs = mm.adcs := by rw [a1]; exact (runDcdc_mm _).2
    obtain ⟨o, ho⟩ := runOrbit_idle ρ s2 i (by rw [b1]; rcases k1 with k | k <;> rw [k] <;> decide)
      (by rw [b1]; rcases k1 with k | k <;> rw [k] <;> decide)
    rw [ho] at h
    have h' := Option.some.inj h
    have e1 := congrArg (·.1) h'
    have e2 := congrArg (·.2) h'
    dsimp only at e1 e2
    subst e1 e2
    have hmode := C52_mode a4
    refine ⟨?_, b2.trans k2, ?_⟩
    · have : (s2.mm.fh.mission) = mm.fh.mission := congrArg (·.mission) b1
      show s2.mm.fh.mission = _ ∨ s2.mm.fh.mission = _
      rw [this]; exact k1
    · rw [hmode, show ({ s with mm := mm } : Sys L).runDcdc.mm.adcs = Adcs.detumble from k2]
      decide

theorem passive_modes {ms : List (List (List U8))} (h : ∀ m ∈ ms, CommandsPassive m) (m : List U8) (hm : m ∈ ms.flatten) :
    modeIn m ≠ some 1 := by
  obtain ⟨l, hl, hml⟩ := List.mem_flatten.mp hm
  intro e
  have : (1 : U8) ∈ l.filterMap modeIn := List.mem_filterMap.2 ⟨m, hml, e⟩
  rw [(h l hl).1] at this
  exact absurd this (by decide)

end Sys

/-! ### C134 -/

/-- C134. From a boot with the counter of the wait at `e` (in hundreds of control cycles; 0 at the first boot), over as many control
cycles as are left of the wait, with whatever inputs, faults and readings, and whatever the ground and the other tasks do except to the
states and the counter: after every number of cycles the satellite waits, with propulsion disabled, every valve closed, the timer off and
nothing scheduled, and every cycle has told the attitude box to be passive, with a moment of zero. The cycles are numbered from 1. -/
theorem C134_waits (ρ : Orb.Rounding) (s0 : Sys L) (e : Nat) (xs : List (SysStep L)) (hs : WaitsForDeployment s0)
    (he : s0.mm.elapsed.toNat = e) (hx : ∀ x ∈ xs, LeavesWait x) (hc : CountedFrom 1 xs) (hn : xs.length ≤ cyclesLeft e)
    (s : Sys L) (ms : List (List (List U8))) (h : srun ρ s0 xs = some (s, ms)) :
    WaitsForDeployment s ∧ (∀ m ∈ ms, CommandsPassive m) := by
  obtain ⟨a, b, -⟩ := Sys.wait_run ρ e xs s0 s ms 0 hx hc hs (by simpa using he) (by simpa using hn) h
  exact ⟨a, b⟩

/-- C134, the attitude box. During the wait the box, from its own boot, gets these messages, in whatever order, however often and
however interleaved with its main loop, whatever its devices answer: it never drives a magnetorquer or a wheel. -/
theorem C134_box (ρ : Orb.Rounding) (s0 : Sys L) (e : Nat) (xs : List (SysStep L)) (hs : WaitsForDeployment s0)
    (he : s0.mm.elapsed.toNat = e) (hx : ∀ x ∈ xs, LeavesWait x) (hc : CountedFrom 1 xs) (hn : xs.length ≤ cyclesLeft e)
    (s : Sys L) (ms : List (List (List U8))) (h : srun ρ s0 xs = some (s, ms))
    (leader pot : Bool) (sensors : ℕ → Bool) (evs : List Box.Ev) (hev : ∀ m, Box.Ev.recv m ∈ evs → m ∈ ms.flatten)
    (b : Box) (acts : List Act) (hb : Box.run leader (Box.boot pot sensors) evs = some (b, acts)) :
    Spec.count Spec.isMtr acts = 0 ∧ Spec.count Spec.isRwa acts = 0 :=
  C76_no_new_actuation_partial leader _ evs (show Regs.init.mode ≠ 1 by decide) (show Pc.imu ∈ betweenCommands by decide)
    (fun m hm => Sys.passive_modes (C134_waits ρ s0 e xs hs he hx hc hn s ms h).2 m (hev m hm)) hb

/-- C134, the first boot: the wait lasts for the first 10600 control cycles. -/
theorem C134_first_boot (ρ : Orb.Rounding) (m : L.Mem) (p t2 t1 : Rat) (a d : Bool) (xs : List (SysStep L))
    (hx : ∀ x ∈ xs, LeavesWait x) (hc : CountedFrom 1 xs) (hn : xs.length ≤ 10600) (s : Sys L) (ms : List (List (List U8)))
    (h : srun ρ (Sys.init L m p t2 t1 a d) xs = some (s, ms)) :
    WaitsForDeployment s ∧ ∀ m ∈ ms, CommandsPassive m :=
  C134_waits ρ (Sys.init L m p t2 t1 a d) 0 xs (Sys.init_waits m p t2 t1 a d) rfl hx hc hn s ms h

/-- C134, the wait ends: the cycle after it takes the satellite out of startup, whatever its inputs, and tells the box to be active. So
the number of cycles in `C134_waits` is the largest for which it holds. -/
theorem C134_ends (ρ : Orb.Rounding) (s0 : Sys L) (e : Nat) (xs : List (SysStep L)) (hs : WaitsForDeployment s0)
    (he : s0.mm.elapsed.toNat = e) (hle : e ≤ 106) (hx : ∀ x ∈ xs, LeavesWait x) (hc : CountedFrom 1 xs) (hn : xs.length = cyclesLeft e)
    (s : Sys L) (ms : List (List (List U8))) (h : srun ρ s0 xs = some (s, ms)) (x : SysStep L) (hw : LeavesWait x) (s' : Sys L)
    (m : List (List U8)) (h' : (x.others s).cycle ρ x.inp = some (s', m)) :
    (s'.mm.fh.mission = Mission.detumble ∨ s'.mm.fh.mission = Mission.initializationHold) ∧ s'.mm.adcs = Adcs.detumble ∧
      m.filterMap modeIn = [1] := by
  obtain ⟨a, -, b⟩ := Sys.wait_run ρ e xs s0 s ms 0 hx hc hs (by simpa using he) (by omega) h
  have hel : s.mm.elapsed.toNat = 106 := by rw [b, hn]; unfold cyclesLeft; omega
  obtain ⟨hH, hE⟩ := hw
  exact Sys.leaves_startup ρ (x.others s) s' x.inp m ((hH s).1.trans a.1) (by rw [hE s, hel]) h'

/-! ### A case -/

namespace SysWaiting
open SysFly

/-- A boot with one hundred cycles of the wait left: the saved counter is 105. -/
def booted : Sys toyOrb := { Sys.init toyOrb () 14 20 20 true true with mm := { (Sys.init toyOrb () 14 20 20 true true).mm with elapsed := 105 } }
/-- Ninety-nine quiet cycles; in the tenth the ground asks for a firing, in vain. -/
def cycles : List (SysStep toyOrb) := (List.range 99).map fun i => if i = 9 then
  { st (i + 1) 20 with others := fun s => { s with mm := { s.mm with fh := { s.mm.fh with ctl := s.mm.fh.ctl.writes [.countdown 5, .sched 100 100 100 100] } } } }
  else st (i + 1) 20

theorem booted_waits : WaitsForDeployment booted := Sys.init_waits (L := toyOrb) () 14 20 20 true true

theorem cycles_leave : ∀ x ∈ cycles, LeavesWait x := by
  intro x hx
  simp only [cycles, List.mem_map] at hx
  obtain ⟨i, -, rfl⟩ := hx
  split <;> exact ⟨fun s => ⟨rfl, rfl, rfl⟩, fun s => rfl⟩

end SysWaiting
open SysWaiting

-- `C134_waits` and `C134_ends`: a boot with one hundred cycles of the wait left; they run, and the next one leaves startup
example : booted.mm.elapsed.toNat = 105 ∧ (cycles ++ [SysFly.st 100 20]).length = cyclesLeft 105 := by decide
example : ((srun PAN.exact booted (cycles ++ [SysFly.st 100 20])).map fun r => (r.1.mm.fh.mission, r.1.mm.elapsed, r.2.length)) =
    some (Mission.startup, 106, 100) := by decide +kernel
example : ((srun PAN.exact booted (cycles ++ [SysFly.st 100 20, SysFly.st 101 20])).map fun r => r.1.mm.fh.mission) =
    some Mission.detumble := by decide +kernel
example : CountedFrom 1 (cycles ++ [SysFly.st 100 20]) := by
  repeat first | exact True.intro | refine ⟨rfl, ?_⟩
-- `C134_box`: the messages of three such cycles, delivered to a box that has just booted, between passes of its main loop
example : ((srun PAN.exact booted (cycles.take 3)).bind fun r =>
    (Box.run true (Box.boot true fun _ => true) (r.2.flatMap fun l => l.map Box.Ev.recv ++ ticksOf 30)).map fun q => (r.2.flatten.length, q.2.length)) =
    some (48, 0) := by decide +kernel

end PAN
