import Verif.Props.SysManoeuvre

/-!
C133: the thrusters fire only if somebody has planned it. In the flight software the countdown to a firing is set by the ground or, while
it may act, by the orbit controller, and by nothing else; without it the propulsion system does not even begin to fill its tank.
-/
namespace PAN
namespace Spec

variable {L : Orb.Lib}

/-- What the other tasks and the ground do between two cycles does not command a firing: they write neither the state of the propulsion
system nor the countdown. Everything else of it they may write, and commands to all faults are allowed. -/
def PlansNothing (x : SysStep L) : Prop := ∀ s : Sys L, ∃ ws, (x.others s).mm.fh.ctl = s.mm.fh.ctl.writes ws ∧
  (∀ v, PropWrite.state v ∉ ws) ∧ ∀ v, PropWrite.countdown v ∉ ws

/-- In a history of cycles, the orbit controller may plan a manoeuvre in at least one of them. -/
def PlannedIn (ρ : Orb.Rounding) (s : Sys L) (xs : List (SysStep L)) : Prop :=
  ∃ pre x post s1 ms1 s2 m, xs = pre ++ x :: post ∧ srun ρ s pre = some (s1, ms1) ∧ (x.others s1).cycle ρ x.inp = some (s2, m) ∧
    MayPlan x.inp s2

/-- No manoeuvre has been begun: the propulsion system is disabled, idle, or dealing with a fault; it has not fired and its timer is off. -/
structure NothingBegun (c : Ctl) : Prop where
  state : c.state = Prp.disabled ∨ c.state = Prp.idle ∨ c.state = Prp.handlingFault ∨ c.state = Prp.venting
  firings : c.firings = 0
  timer : c.drv.enabled = false

end Spec
open Spec Ctl

namespace Ctl

theorem invalid_schedule (c : Ctl) (h : c.countdown = 0) : c.validSchedule = false := by
  unfold validSchedule
  rw [h]
  simp

/-- The states in which nothing is begun. -/
def AtRest (x : U32) : Prop := x = Prp.disabled ∨ x = Prp.idle ∨ x = Prp.handlingFault ∨ x = Prp.venting

theorem evaluate_atRest (c : Ctl) (e : PropEnv) (hs : AtRest c.state) (hc : c.countdown = 0) : AtRest (c.evaluate e).1 := by
  have q0 : AtRest Prp.disabled := .inl rfl
  have q1 : AtRest Prp.idle := .inr (.inl rfl)
  have q2 : AtRest Prp.handlingFault := .inr (.inr (.inl rfl))
  have q3 : AtRest Prp.venting := .inr (.inr (.inr rfl))
  unfold evaluate
  rcases hs with h | h | h | h <;> rw [h]
  · exact q0
  · show AtRest (c.evalIdle e).1
    have key : ∀ c' : Ctl, c'.countdown = 0 → (c'.canEnter e Prp.pressurizing).1 = false ∧ (c'.canEnter e Prp.awaitPressurizing).1 = false := by
      intro c' h'
      have hv := invalid_schedule c' h'
      unfold canEnter
      constructor
      · rw [if_neg (by decide), if_neg (by decide), if_pos rfl, hv]; simp
      · rw [if_neg (by decide), if_pos rfl, hv]; simp
    have hcf : ((c.canEnter e Prp.handlingFault).2).countdown = 0 := by
      unfold canEnter
      rw [if_neg (by decide), if_neg (by decide), if_neg (by decide), if_neg (by decide), if_neg (by decide), if_neg (by decide), if_pos rfl]
      split <;> exact hc
    obtain ⟨k1, k2⟩ := key _ hcf
    unfold evalIdle
    dsimp only
    split
    · exact q2
    · rw [k1, k2]; exact q1
  · show AtRest (c.evalHandlingFault e).1
    unfold evalHandlingFault; dsimp only; repeat' split
    all_goals first | exact q0 | exact q1 | exact q2 | exact q3
  · show AtRest c.evalVenting.1
    unfold evalVenting; dsimp only; repeat' split
    all_goals first
      | exact q0 | exact q1 | exact q2 | exact q3
      | (unfold ventOutOfCycles; dsimp only; repeat' split
         all_goals first | exact q0 | exact q1 | exact q2 | exact q3)

theorem enter_firings (c : Ctl) (s : U32) (h : s ≠ Prp.firing) : (c.enter s).firings = c.firings := by
  unfold enter
  rw [if_neg h]
  repeat' split
  all_goals rfl

theorem execute_atRest (c : Ctl) (e : PropEnv) (h : NothingBegun c) (hc : c.countdown = 0) :
    NothingBegun (c.execute e) ∧ (c.execute e).countdown = 0 := by
  obtain ⟨h1, h2, h3⟩ := h
  have hnf : c.state ≠ Prp.awaitFiring := by rcases h1 with g | g | g | g <;> rw [g] <;> decide
  have ht : (c.execute e).drv.enabled = false := by
    cases hd : (c.execute e).drv.enabled with
    | false => rfl
    | true => exact absurd (C37_timer_start c e h3 hd).1 hnf
  obtain ⟨f, k, _, hk, he⟩ := execute_eq c e
  have hk0 : k = 0 := by
    apply BitVec.eq_of_toNat_eq
    rw [hk, hc]; rfl
  have hn := evaluate_atRest { c with faults := f, countdown := k } e h1 hk0
  obtain ⟨f1, p1, v1, s1, d1, hev⟩ := evaluate_frame { c with faults := f, countdown := k } e
  suffices hh : AtRest (c.execute e).state ∧ (c.execute e).firings = 0 ∧ (c.execute e).countdown = 0 from ⟨⟨hh.1, hh.2.1, ht⟩, hh.2.2⟩
  clear ht
  rw [he]
  generalize ({ c with faults := f, countdown := k } : Ctl).evaluate e = r at hev hn ⊢
  obtain ⟨n, c'⟩ := r
  dsimp only at hev hn ⊢
  have hnf' : n ≠ Prp.firing := by rcases hn with g | g | g | g <;> rw [g] <;> decide
  have a1 : c'.state = c.state := by rw [hev]
  have a2 : c'.firings = 0 := by rw [hev]; exact h2
  have a3 : c'.countdown = 0 := by rw [hev]; exact hk0
  clear hev he
  show AtRest (c'.transition e n).state ∧ (c'.transition e n).firings = 0 ∧ (c'.transition e n).countdown = 0
  rcases transition_cases c' e n with ⟨_, g⟩ | ⟨_, f', _, g⟩ | ⟨_, f', _, g⟩ <;> rw [g]
  · exact ⟨by rw [a1]; exact h1, a2, a3⟩
  · exact ⟨.inl rfl, a2, a3⟩
  · refine ⟨?_, ?_, ?_⟩
    · rw [enter_state]; exact hn
    · rw [enter_firings _ _ hnf']; exact a2
    · obtain ⟨_, _, _, _, _, _, ef⟩ := enter_frame { c' with faults := f', state := n } n
      rw [ef]; exact a3

/-- Writes other than of the state and the countdown begin nothing; nor does writing the state to disabled or idle. -/
theorem writes_atRest (ws : List PropWrite) : ∀ (c : Ctl), NothingBegun c → (∀ v, PropWrite.state v ∈ ws → v = Prp.disabled ∨ v = Prp.idle) →
    (∀ v, PropWrite.countdown v ∈ ws → v = c.countdown) → NothingBegun (c.writes ws) ∧ (c.writes ws).countdown = c.countdown := by
  induction ws with
  | nil => intro c h _ _; exact ⟨h, rfl⟩
  | cons w ws ih =>
    intro c h hs hn
    have hw : NothingBegun (c.write w) ∧ (c.write w).countdown = c.countdown := by
      cases w with
      | state v =>
        refine ⟨⟨?_, h.firings, h.timer⟩, rfl⟩
        rcases hs v (by simp) with g | g
        · exact .inl g
        · exact .inr (.inl g)
      | countdown v => exact ⟨⟨h.state, h.firings, h.timer⟩, hn v (by simp)⟩
      | fault i op => cases i <;> exact ⟨⟨h.state, h.firings, h.timer⟩, rfl⟩
      | _ => exact ⟨⟨h.state, h.firings, h.timer⟩, rfl⟩
    obtain ⟨a, b⟩ := ih (c.write w) hw.1 (fun v hv => hs v (by simp [hv])) (fun v hv => (hn v (by simp [hv])).trans hw.2.symm)
    exact ⟨a, b.trans hw.2⟩

theorem interrupts_atRest (c : Ctl) (n : Nat) (h : NothingBegun c) : NothingBegun (c.interrupts n) := by
  refine ⟨h.state, h.firings, ?_⟩
  show (c.drv.ticks n).enabled = false
  rw [Driver.ticks_off h.timer]; exact h.timer

end Ctl

variable {L : Orb.Lib}

theorem step_atRest (ρ : Orb.Rounding) (s s' : Sys L) (x : SysStep L) (m : List (List U8)) (hx : PlansNothing x)
    (h : (x.others s).cycle ρ x.inp = some (s', m)) (hno : ¬ MayPlan x.inp s') (hb : NothingBegun s.mm.fh.ctl)
    (hc : s.mm.fh.ctl.countdown = 0) : NothingBegun s'.mm.fh.ctl ∧ s'.mm.fh.ctl.countdown = 0 := by
  obtain ⟨ws0, k1, k2, k3⟩ := hx s
  obtain ⟨ws, n, a, b, d, e, h1, h2, h3, h4, -, -⟩ := cycle_writes ρ _ _ _ _ h
  obtain ⟨b0, c0⟩ := writes_atRest ws0 s.mm.fh.ctl hb (fun v hv => absurd hv (k2 v)) (fun v hv => absurd hv (k3 v))
  rw [← k1] at b0 c0
  rw [hc] at c0
  have b1 := interrupts_atRest _ x.inp.ticks1 b0
  have hws : ∀ v, PropWrite.countdown v ∉ ws := by
    intro v hv
    rcases h2 _ hv with ⟨i, g⟩ | ⟨u, g⟩ | ⟨u, g⟩ <;> cases g
  have hst : ∀ v, PropWrite.state v ∈ ws → v = Prp.disabled ∨ v = Prp.idle := fun v hv => (h4 v hv).imp id (·.1)
  obtain ⟨b2, c2⟩ := writes_atRest ws _ b1 hst (fun v hv => absurd hv (hws v))
  have hn : n = ((x.others s).mm.fh.ctl.interrupts x.inp.ticks1 |>.writes ws).countdown := by
    by_contra hne
    exact hno (h3 hne).2
  obtain ⟨b3, c3⟩ := writes_atRest [.countdown n, .sched a b d e] _ b2 (by simp) (fun v hv => by simp at hv; rw [hv]; exact hn)
  have b4 := interrupts_atRest _ x.inp.ticks2 b3
  have c4 : ((((x.others s).mm.fh.ctl.interrupts x.inp.ticks1).writes ws).writes [.countdown n, .sched a b d e]).countdown = 0 :=
    c3.trans (c2.trans c0)
  rw [h1]
  show NothingBegun (((((x.others s).mm.fh.ctl.interrupts x.inp.ticks1).writes (ws ++ _)).interrupts x.inp.ticks2).execute _) ∧ _
  have := execute_atRest _ ⟨x.inp.mm.cc, s'.dcdc.sph, x.inp.pressure, x.inp.temp2, x.inp.temp1⟩ b4 c4
  rw [← writes_append] at this
  exact this

theorem run_atRest (ρ : Orb.Rounding) (xs : List (SysStep L)) : ∀ (s s' : Sys L) (ms : List (List (List U8))), (∀ x ∈ xs, PlansNothing x) →
    srun ρ s xs = some (s', ms) → ¬ PlannedIn ρ s xs → NothingBegun s.mm.fh.ctl → s.mm.fh.ctl.countdown = 0 →
    NothingBegun s'.mm.fh.ctl ∧ s'.mm.fh.ctl.countdown = 0 := by
  induction xs with
  | nil =>
    intro s s' ms _ h _ hb hc
    have h' := congrArg (·.1) (Option.some.inj h)
    dsimp only at h'
    subst h'
    exact ⟨hb, hc⟩
  | cons x xs ih =>
    intro s s' ms hx h hno hb hc
    unfold srun at h
    split at h
    · cases h
    · rename_i s1 m1 h1
      split at h
      · cases h
      · rename_i s2 ms2 h2
        have h' := congrArg (·.1) (Option.some.inj h)
        dsimp only at h'
        subst h'
        obtain ⟨b1, c1⟩ := step_atRest ρ s s1 x m1 (hx x (by simp)) h1
          (fun g => hno ⟨[], x, xs, s, [], s1, m1, rfl, rfl, h1, g⟩) hb hc
        refine ih s1 s2 ms2 (fun z hz => hx z (by simp [hz])) h2 ?_ b1 c1
        rintro ⟨pre, y, post, t1, n1, t2, m, e1, e2, e3, e4⟩
        refine hno ⟨x :: pre, y, post, t1, m1 :: n1, t2, m, by rw [e1]; rfl, ?_, e3, e4⟩
        unfold srun
        rw [h1]
        dsimp only
        rw [e2]

/-! ### C133 -/

/-- C133. Whatever happens after the computer has started, if the ground never commands a firing, and there has been no cycle in which the
orbit controller may plan a manoeuvre, then the propulsion system has begun none: it has neither fired nor filled its tank for it, and the
valve timer is off. -/
theorem C133_no_plan (ρ : Orb.Rounding) (m : L.Mem) (p t2 t1 : Rat) (a d : Bool) (xs : List (SysStep L)) (hx : ∀ x ∈ xs, PlansNothing x)
    (s : Sys L) (ms : List (List (List U8))) (h : srun ρ (Sys.init L m p t2 t1 a d) xs = some (s, ms))
    (hno : ¬ PlannedIn ρ (Sys.init L m p t2 t1 a d) xs) : NothingBegun s.mm.fh.ctl :=
  (run_atRest ρ xs _ _ _ hx h hno ⟨.inl rfl, rfl, rfl⟩ rfl).1

/-- C133. So if the satellite is about to fire, is firing or has fired, or is filling its tank for a firing that the ground has not
commanded, then in an earlier cycle it was following the other satellite with valid estimates of time, orbit, relative orbit and
attitude. -/
theorem C133_planned (ρ : Orb.Rounding) (m : L.Mem) (p t2 t1 : Rat) (a d : Bool) (xs : List (SysStep L)) (hx : ∀ x ∈ xs, PlansNothing x)
    (s : Sys L) (ms : List (List (List U8))) (h : srun ρ (Sys.init L m p t2 t1 a d) xs = some (s, ms))
    (hf : s.mm.fh.ctl.state = Prp.awaitPressurizing ∨ s.mm.fh.ctl.state = Prp.pressurizing ∨ s.mm.fh.ctl.state = Prp.awaitFiring ∨
      s.mm.fh.ctl.state = Prp.firing ∨ s.mm.fh.ctl.firings ≠ 0 ∨ s.mm.fh.ctl.drv.enabled = true) :
    ∃ pre x post s1 ms1 s2 m', xs = pre ++ x :: post ∧ srun ρ (Sys.init L m p t2 t1 a d) pre = some (s1, ms1) ∧
      (x.others s1).cycle ρ x.inp = some (s2, m') ∧
      (s2.mm.fh.mission = Mission.follower ∨ s2.mm.fh.mission = Mission.followerCloseApproach) ∧ x.inp.orb.timeValid = true ∧
      x.inp.orb.orbitValid = true ∧ x.inp.orb.relState ≠ 0 ∧ x.inp.orb.attValid = true := by
  by_contra hno
  have hb := C133_no_plan ρ m p t2 t1 a d xs hx s ms h fun ⟨pre, x, post, s1, ms1, s2, m', e1, e2, e3, e4⟩ =>
    hno ⟨pre, x, post, s1, ms1, s2, m', e1, e2, e3, e4.mission, e4.time, e4.orbit, e4.relative, e4.attitude⟩
  rcases hf with g | g | g | g | g | g
  · rcases hb.state with q | q | q | q <;> rw [g] at q <;> exact absurd q (by decide)
  · rcases hb.state with q | q | q | q <;> rw [g] at q <;> exact absurd q (by decide)
  · rcases hb.state with q | q | q | q <;> rw [g] at q <;> exact absurd q (by decide)
  · rcases hb.state with q | q | q | q <;> rw [g] at q <;> exact absurd q (by decide)
  · exact g hb.firings
  · rw [hb.timer] at g; cases g

/-! ### What the claim does not give: a manoeuvre is not called off -/

namespace SysCalledOff
open SysFly

/-- The third cycle: the ground takes the satellite out of following, to standby. -/
def third : SysStep toyOrb := { st 3 20 with others := fun s => { s with mm := { s.mm with fh := { s.mm.fh with mission := Mission.standby } } } }
def all : List (SysStep toyOrb) := first :: second :: third :: (List.range 7).map fun i => st (4 + i) (if i < 1 then 20 else 26)

theorem all_plansNothing : ∀ x ∈ all, PlansNothing x := by
  intro x hx
  simp only [all, List.mem_cons, List.mem_map] at hx
  rcases hx with rfl | rfl | rfl | ⟨i, -, rfl⟩
  · exact fun s => ⟨[], rfl, nofun, nofun⟩
  · exact fun s => ⟨[.maxPress 1, .fill 1, .cool 1], rfl, by simp, by simp⟩
  · exact fun s => ⟨[], rfl, nofun, nofun⟩
  · exact fun s => ⟨[], rfl, nofun, nofun⟩

end SysCalledOff

/-- C133, what fails: the conditions for planning need not hold any more when the thrusters fire. Here the ground sends the satellite
to standby while it waits to fill its tank; it remains in standby for eight cycles, fills the tank, and fires at the end of them. -/
theorem C133_counterexample_standby : ∃ (xs : List (SysStep toyOrb)) (s : Sys toyOrb) (ms : List (List (List U8))),
    (∀ x ∈ xs, PlansNothing x) ∧ srun PAN.exact (Sys.init toyOrb () 14 20 20 true true) xs = some (s, ms) ∧ xs.length = 10 ∧
    s.mm.fh.ctl.state = Prp.firing ∧ s.mm.fh.ctl.firings = 1 ∧ s.mm.fh.ctl.drv.enabled = true ∧
    ∀ n, 3 ≤ n → n ≤ 10 → ∃ t ts, srun PAN.exact (Sys.init toyOrb () 14 20 20 true true) (xs.take n) = some (t, ts) ∧
      t.mm.fh.mission = Mission.standby ∧ (n < 10 → t.mm.fh.ctl.firings = 0) := by
  have key : ∀ n, 3 ≤ n → n ≤ 10 → (SysFly.hist (SysCalledOff.all.take n)).map (fun t => (t.mm.fh.mission, t.mm.fh.ctl.firings)) =
      some (Mission.standby, if n < 10 then 0 else 1) := by
    intro n h1 h2
    interval_cases n <;> decide +kernel
  have last : (SysFly.hist SysCalledOff.all).map (fun t => (t.mm.fh.ctl.state, t.mm.fh.ctl.firings, t.mm.fh.ctl.drv.enabled)) =
      some (Prp.firing, 1, true) := by decide +kernel
  unfold SysFly.hist at last key
  rw [Option.map_map, Option.map_eq_some_iff] at last
  obtain ⟨⟨s, ms⟩, h1, h2⟩ := last
  simp only [Function.comp_apply, Prod.mk.injEq] at h2
  refine ⟨SysCalledOff.all, s, ms, SysCalledOff.all_plansNothing, h1, by decide, h2.1, h2.2.1, h2.2.2, fun n a b => ?_⟩
  have k := key n a b
  rw [Option.map_map, Option.map_eq_some_iff] at k
  obtain ⟨⟨t, ts⟩, k1, k2⟩ := k
  simp only [Function.comp_apply, Prod.mk.injEq] at k2
  refine ⟨t, ts, k1, k2.1, fun hlt => ?_⟩
  rw [k2.2, if_pos hlt]

-- `C133_no_plan`: the same satellite follows the other one, but does not know the time
def SysCalledOff.lost (x : SysStep toyOrb) : SysStep toyOrb := { x with inp := { x.inp with orb := { x.inp.orb with timeValid := false } } }
def SysCalledOff.blind : List (SysStep toyOrb) := (SysFly.first :: SysFly.second :: (List.range 8).map fun i => SysFly.st (3 + i) 26).map SysCalledOff.lost
example : (SysFly.hist SysCalledOff.blind).map (fun t => (t.mm.fh.mission, t.mm.fh.ctl.state)) = some (Mission.followerCloseApproach, Prp.idle) ∧
    ¬ PlannedIn PAN.exact (Sys.init toyOrb () 14 20 20 true true) SysCalledOff.blind := by
  refine ⟨by decide +kernel, ?_⟩
  rintro ⟨pre, x, post, s1, ms1, s2, m, e1, -, -, e4⟩
  have hx : x ∈ SysCalledOff.blind := by rw [e1]; simp
  obtain ⟨y, -, rfl⟩ := List.mem_map.mp hx
  exact Bool.noConfusion e4.time
-- `C133_planned`: the history of the counterexample
example : ∃ s, SysFly.hist SysCalledOff.all = some s ∧ s.mm.fh.ctl.firings ≠ 0 := by
  obtain ⟨s, h⟩ : ∃ s, SysFly.hist SysCalledOff.all = some s := Option.isSome_iff_exists.mp (by decide +kernel)
  refine ⟨s, h, ?_⟩
  have k : (SysFly.hist SysCalledOff.all).map (·.mm.fh.ctl.firings) = some 1 := by decide +kernel
  rw [h] at k
  have := Option.some.inj k
  dsimp only at this
  rw [this]; decide

end PAN
