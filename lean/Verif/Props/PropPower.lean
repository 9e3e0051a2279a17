import Verif.Props.System
import Verif.Props.PropFill
import Verif.Props.MissionEffects
/-!
C119: propulsion without power.
-/
namespace PAN
open Spec
variable {L : Orb.Lib}

namespace Ctl

/-- The states that propulsion enters only with power. -/
def powered : List U32 :=
  [Prp.idle, Prp.awaitPressurizing, Prp.pressurizing, Prp.awaitFiring, Prp.firing, Prp.venting, Prp.handlingFault]

theorem canEnter_off (c : Ctl) (e : PropEnv) (x : U32) (h : e.functional = false) (hx : x ∈ powered) : (c.canEnter e x).1 = false := by
  simp only [powered, List.mem_cons, List.not_mem_nil, or_false] at hx
  unfold canEnter
  rw [h]
  rcases hx with rfl | rfl | rfl | rfl | rfl | rfl | rfl
  · rfl
  · rw [if_neg (by decide), if_pos rfl]; simp
  · rw [if_neg (by decide), if_neg (by decide), if_pos rfl]; simp
  · rw [if_neg (by decide), if_neg (by decide), if_neg (by decide), if_pos rfl]; simp
  · rw [if_neg (by decide), if_neg (by decide), if_neg (by decide), if_neg (by decide), if_pos rfl]; simp
  · rfl
  · rw [if_neg (by decide), if_neg (by decide), if_neg (by decide), if_neg (by decide), if_neg (by decide), if_neg (by decide), if_pos rfl]
    split <;> rfl

theorem transition_off (c : Ctl) (e : PropEnv) (next : U32) (h : e.functional = false)
    (hn : next ∈ powered ∨ next = Prp.disabled ∨ next = c.state) :
    (c.transition e next).firings = c.firings ∧ (c.transition e next).state = if next = c.state then c.state else Prp.disabled := by
  rcases transition_cases c e next with ⟨h1, h2⟩ | ⟨h1, f, _, h2⟩ | ⟨h1, f, hce, h2⟩
  · rw [h2, if_pos h1]; exact ⟨rfl, rfl⟩
  · rw [h2, if_neg h1]; exact ⟨rfl, rfl⟩
  · rcases hn with hn | rfl | hn
    · rw [canEnter_off c e next h hn] at hce; cases hce
    · rw [h2, if_neg h1]; exact ⟨rfl, rfl⟩
    · exact absurd hn h1

theorem powered_of {x : U32} (h : x = Prp.idle ∨ x = Prp.awaitPressurizing ∨ x = Prp.pressurizing ∨ x = Prp.awaitFiring ∨
    x = Prp.firing ∨ x = Prp.venting ∨ x = Prp.handlingFault) : x ∈ powered := by
  simp only [powered, List.mem_cons, List.not_mem_nil, or_false]; exact h

theorem evaluate_next (c : Ctl) (e : PropEnv) : (c.evaluate e).1 ∈ powered ∨ (c.evaluate e).1 = Prp.disabled ∨
    (c.evaluate e).1 = c.state := by
  have hp : ∀ x ∈ powered, x ∈ powered ∨ x = Prp.disabled ∨ x = c.state := fun x hx => .inl hx
  have q0 := hp Prp.idle (by decide)
  have q1 := hp Prp.awaitPressurizing (by decide)
  have q2 := hp Prp.pressurizing (by decide)
  have q3 := hp Prp.awaitFiring (by decide)
  have q4 := hp Prp.firing (by decide)
  have q5 := hp Prp.venting (by decide)
  have q6 := hp Prp.handlingFault (by decide)
  unfold evaluate
  split
  · unfold evalIdle; dsimp only; repeat' split
    all_goals first | exact q0 | exact q1 | exact q2 | exact q3 | exact q4 | exact q5 | exact q6
  split
  · unfold evalAwaitPressurizing; dsimp only; repeat' split
    all_goals first | exact q0 | exact q1 | exact q2 | exact q3 | exact q4 | exact q5 | exact q6
  split
  · unfold evalPressurizing; dsimp only; repeat' split
    all_goals first
      | first | exact q0 | exact q1 | exact q2 | exact q3 | exact q4 | exact q5 | exact q6
      | exact .inr (.inl rfl)
      | (unfold pressOutOfCycles; dsimp only; split <;> first | exact q3 | exact q6)
  split
  · unfold evalAwaitFiring; dsimp only; repeat' split
    all_goals first | exact q0 | exact q1 | exact q2 | exact q3 | exact q4 | exact q5 | exact q6
  split
  · unfold evalFiring; dsimp only; repeat' split
    all_goals first | exact q0 | exact q1 | exact q2 | exact q3 | exact q4 | exact q5 | exact q6
  split
  · unfold evalVenting; dsimp only; repeat' split
    all_goals first
      | first | exact q0 | exact q1 | exact q2 | exact q3 | exact q4 | exact q5 | exact q6
      | exact .inr (.inl rfl)
      | (unfold ventOutOfCycles; dsimp only; repeat' split
         all_goals first
          | first | exact q0 | exact q1 | exact q2 | exact q3 | exact q4 | exact q5 | exact q6
          | exact .inr (.inl rfl))
  split
  · unfold evalHandlingFault; dsimp only; repeat' split
    all_goals first | exact q0 | exact q1 | exact q2 | exact q3 | exact q4 | exact q5 | exact q6
  split
  · rename_i h; exact .inr (.inr h.symm)
  · exact .inr (.inl rfl)

theorem execute_off (c : Ctl) (e : PropEnv) (h : e.functional = false) :
    (c.execute e).firings = c.firings ∧ ((c.execute e).state = c.state ∨ (c.execute e).state = Prp.disabled) := by
  obtain ⟨f, k, _, hk, he⟩ := execute_eq c e
  obtain ⟨f1, p1, v1, s1, d1, h1⟩ := evaluate_frame { c with faults := f, countdown := k } e
  have hn := evaluate_next { c with faults := f, countdown := k } e
  rw [he]
  generalize ({ c with faults := f, countdown := k } : Ctl).evaluate e = r at h1 hn ⊢
  obtain ⟨n, c'⟩ := r
  dsimp only at h1 hn ⊢
  subst h1
  obtain ⟨t1, t2⟩ := transition_off { c with faults := f1, countdown := k, press := p1, vent := v1, saved := s1, drv := d1 } e n h hn
  refine ⟨t1, ?_⟩
  have t3 : (({ c with faults := f1, countdown := k, press := p1, vent := v1, saved := s1, drv := d1 } : Ctl).transition e n).state = c.state ∨
      (({ c with faults := f1, countdown := k, press := p1, vent := v1, saved := s1, drv := d1 } : Ctl).transition e n).state = Prp.disabled := by
    rw [t2]
    split
    · exact .inl rfl
    · exact .inr rfl
  exact t3

/-- The state as it is, or disabled or idle; and no firing begun. -/
def NoneBegun (c0 c : Ctl) : Prop := c.firings = c0.firings ∧ (c.state = c0.state ∨ c.state = Prp.disabled ∨ c.state = Prp.idle)

theorem NoneBegun.refl (c : Ctl) : NoneBegun c c := ⟨rfl, .inl rfl⟩

theorem NoneBegun.trans {a b c : Ctl} (h1 : NoneBegun a b) (h2 : NoneBegun b c) : NoneBegun a c := by
  refine ⟨h2.1.trans h1.1, ?_⟩
  rcases h2.2 with h | h | h
  · rcases h1.2 with g | g | g
    · exact .inl (h.trans g)
    · exact .inr (.inl (h.trans g))
    · exact .inr (.inr (h.trans g))
  · exact .inr (.inl h)
  · exact .inr (.inr h)

end Ctl

open Ctl

theorem PropFH.noneBegun (h : PropFH) (c : Ctl) : NoneBegun c (h.execute c).2.2 := by
  unfold PropFH.execute
  dsimp only
  split
  · exact NoneBegun.refl c
  · split
    · unfold PropFH.handleBoth PropFH.restore
      dsimp only
      repeat' split
      all_goals first
        | exact ⟨rfl, .inl rfl⟩
        | exact ⟨rfl, .inr (.inl rfl)⟩
    · exact ⟨rfl, .inl rfl⟩

theorem FHState.noneBegun (s : FHState) (cc : U32) : NoneBegun s.ctl (s.execute cc).2.ctl := by
  unfold FHState.execute MainFH.execute
  split
  · exact NoneBegun.refl _
  · refine mainLoop_inv (fun x : FHState => NoneBegun s.ctl x.ctl) _ ?_ _ _ (NoneBegun.refl _)
    intro m hm x hx
    simp only [FHState.handlers, List.mem_cons, List.not_mem_nil, or_false] at hm
    rcases hm with rfl | rfl | rfl | rfl | rfl | rfl | rfl | rfl | rfl | rfl
    all_goals first
      | exact hx
      | exact hx.trans (PropFH.noneBegun x.prop x.ctl)

theorem MM.startup_noneBegun (k s' : MM) (i : MMIn) (h : k.dispatchStartup i = some s') : NoneBegun k.fh.ctl s'.fh.ctl := by
  unfold MM.dispatchStartup at h
  split at h
  · cases h
  split at h
  · split at h <;> (cases h; exact NoneBegun.refl _)
  dsimp only at h
  generalize hz : (if k.fh.radio.state = Radio.disabled then
    ({ k with piksiOff := false, piksiPowercycle := true, fh := { k.fh with radio := { k.fh.radio with state := Radio.config } } } : MM)
    else { k with piksiOff := false, piksiPowercycle := true }) = z at h
  have hzc : z.fh.ctl = k.fh.ctl := by rw [← hz]; split_ifs <;> rfl
  have e1 := hwPolled_ctl z
  generalize z.hwPolled = w at h e1
  have e2 : w.fh.ctl.firings = k.fh.ctl.firings := by rw [e1, hzc]
  split at h <;> cases h
  · exact ⟨e2, .inr (.inr rfl)⟩
  · exact ⟨e2, .inr (.inr rfl)⟩

theorem MM.noneBegun (s s' : MM) (i : MMIn) (h : s.execute i = some s') : NoneBegun s.fh.ctl s'.fh.ctl := by
  have h0 : NoneBegun s.fh.ctl (s.afterFaults i.cc).fh.ctl := FHState.noneBegun s.fh i.cc
  refine h0.trans ?_
  rcases MM.execute_cases s i with ⟨_, _, _, g⟩ | ⟨_, _, _, _, _, _, _, g⟩ | ⟨_, _, g⟩
  · rw [g] at h; cases h; exact ⟨rfl, .inr (.inl rfl)⟩
  · rw [g] at h; cases h; exact ⟨rfl, .inl rfl⟩
  rw [g] at h
  generalize s.afterFaults i.cc = k at h
  unfold MM.dispatch at h
  split at h
  · exact MM.startup_noneBegun k s' i h
  have g : ∀ k' : MM, some k' = some s' → k'.fh.ctl = k.fh.ctl → NoneBegun k.fh.ctl s'.fh.ctl := by
    intro k' e1 e2
    cases e1
    rw [e2]
    exact NoneBegun.refl _
  split at h
  · exact g _ h (by unfold MM.dispatchDetumble; split_ifs <;> rfl)
  split at h
  · exact g _ h rfl
  split at h
  · exact g _ h (by unfold MM.dispatchStandby; split_ifs <;> rfl)
  split at h
  · exact g _ h (by unfold MM.dispatchFar; split_ifs <;> rfl)
  split at h
  · exact g _ h (by unfold MM.dispatchFar; split_ifs <;> rfl)
  split at h
  · exact g _ h (by unfold MM.dispatchClose; split_ifs <;> rfl)
  split at h
  · exact g _ h (by unfold MM.dispatchDocking; dsimp only; split_ifs <;> rfl)
  split at h
  · exact g _ h rfl
  split at h
  · exact g _ h (by unfold MM.dispatchSafehold; split_ifs <;> rfl)
  split at h
  · exact g _ h rfl
  · exact g _ h rfl

/-- C119. In a control cycle that ends with the converter of the thrusters off, no firing begins, and propulsion does not begin
anything: its state is the one from before the cycle, or idle, or disabled. Whatever the state of the satellite, the inputs and the
faults. -/
theorem C119_off (ρ : Orb.Rounding) (s s' : Sys L) (i : SysIn L) (msgs : List (List U8)) (h : s.cycle ρ i = some (s', msgs))
    (hoff : s'.dcdc.sph = false) :
    s'.mm.fh.ctl.firings = s.mm.fh.ctl.firings ∧
    (s'.mm.fh.ctl.state = s.mm.fh.ctl.state ∨ s'.mm.fh.ctl.state = Prp.disabled ∨ s'.mm.fh.ctl.state = Prp.idle) := by
  unfold Sys.cycle at h
  dsimp only at h
  have h0 : ∀ (c : Ctl) n, NoneBegun c (c.interrupts n) := fun c n => ⟨rfl, .inl rfl⟩
  split at h
  · cases h
  rename_i mm hmm
  have h1 : NoneBegun s.mm.fh.ctl mm.fh.ctl := by
    have := MM.noneBegun _ _ _ hmm
    exact (h0 s.mm.fh.ctl i.ticks1).trans this
  split at h
  · cases h
  rename_i s2 m2 ha
  split at h
  · cases h
  rename_i s3 ho
  cases h
  have h2 : s2.mm.fh.ctl = mm.fh.ctl := by
    unfold Sys.runAttitude at ha
    dsimp only at ha
    split at ha
    · cases ha
    · cases ha; rfl
  have h3 : NoneBegun s2.mm.fh.ctl s3.mm.fh.ctl := by
    unfold Sys.runOrbit at ho
    dsimp only at ho
    split at ho
    · cases ho
    · cases ho; exact ⟨rfl, .inl rfl⟩
  have h4 : NoneBegun s3.mm.fh.ctl (s3.runProp i).mm.fh.ctl := by
    refine (h0 s3.mm.fh.ctl i.ticks2).trans ?_
    obtain ⟨a, b⟩ := execute_off (s3.mm.fh.ctl.interrupts i.ticks2)
      { cc := i.mm.cc, functional := s3.dcdc.sph, pressure := i.pressure, temp2 := i.temp2, temp1 := i.temp1 } hoff
    refine ⟨a, ?_⟩
    rcases b with b | b
    · exact .inl b
    · exact .inr (.inl b)
  exact (h1.trans (h2 ▸ h3)).trans h4

/-- C119. What propulsion does without power, state by state: idle and waiting to fill stay as they are, and so does firing as
long as there is something left of the schedule; waiting to fire ends as disabled when the time comes; handling a fault ends as
disabled. -/
theorem C119_exact (c : Ctl) (e : PropEnv) (h : e.functional = false) :
    (c.state = Prp.idle ∨ c.state = Prp.awaitPressurizing ∨ c.state = Prp.manual ∨ c.state = Prp.disabled →
      (c.execute e).state = c.state) ∧
    (c.state = Prp.handlingFault → (c.execute e).state = Prp.disabled) ∧
    (c.state = Prp.awaitFiring → (c.execute e).state = if c.countdown.toNat ≤ 1 then Prp.disabled else Prp.awaitFiring) ∧
    (c.state = Prp.firing →
      (c.execute e).state = if (c.drv.tank2.map (·.sched)).sum = 0 then Prp.disabled else Prp.firing) := by
  obtain ⟨f, k, hf, hk, he⟩ := execute_eq c e
  have key : ∀ n c', ({ c with faults := f, countdown := k } : Ctl).evaluate e = (n, c') → c'.state = c.state →
      (n ∈ powered ∨ n = Prp.disabled ∨ n = c.state) → (c.execute e).state = if n = c.state then c.state else Prp.disabled := by
    intro n c' h1 h2 h3
    rw [he, h1]
    have := (transition_off c' e n h (by rw [h2]; exact h3)).2
    rw [h2] at this
    exact this
  have hfault : c.state ≠ Prp.disabled → ∃ f', ({ c with faults := f, countdown := k } : Ctl).canEnter e Prp.handlingFault =
      (false, { c with faults := f', countdown := k }) := by
    intro hne
    have := canEnter_fault { c with faults := f, countdown := k } e hne
    rw [h] at this
    exact ⟨_, this⟩
  refine ⟨?_, ?_, ?_, ?_⟩
  · rintro (hs | hs | hs | hs)
    · obtain ⟨f', hf'⟩ := hfault (by rw [hs]; decide)
      have e1 : ({ c with faults := f, countdown := k } : Ctl).evaluate e = (Prp.idle, { c with faults := f', countdown := k }) := by
        unfold evaluate
        rw [if_pos hs]
        unfold evalIdle
        rw [hf']
        dsimp only
        rw [if_neg (by decide), if_neg (by rw [canEnter_off _ _ _ h (by decide)]; decide),
          if_neg (by rw [canEnter_off _ _ _ h (by decide)]; decide)]
      rw [key _ _ e1 rfl (.inr (.inr hs.symm)), if_pos hs.symm]
    · obtain ⟨f', hf'⟩ := hfault (by rw [hs]; decide)
      have e1 : ({ c with faults := f, countdown := k } : Ctl).evaluate e = (Prp.awaitPressurizing, { c with faults := f', countdown := k }) := by
        unfold evaluate
        rw [if_neg (by rw [hs]; decide), if_pos hs]
        unfold evalAwaitPressurizing
        rw [hf']
        dsimp only
        rw [if_neg (by decide), if_neg (by rw [canEnter_off _ _ _ h (by decide)]; decide)]
      rw [key _ _ e1 rfl (.inr (.inr hs.symm)), if_pos hs.symm]
    · have e1 : ∃ c', ({ c with faults := f, countdown := k } : Ctl).evaluate e = (Prp.manual, c') ∧ c'.state = c.state := by
        unfold evaluate
        rw [if_neg (by rw [hs]; decide), if_neg (by rw [hs]; decide), if_neg (by rw [hs]; decide), if_neg (by rw [hs]; decide),
          if_neg (by rw [hs]; decide), if_neg (by rw [hs]; decide), if_neg (by rw [hs]; decide), if_pos hs]
        exact ⟨_, rfl, rfl⟩
      obtain ⟨c', h2, h1⟩ := e1
      rw [key _ _ h2 h1 (.inr (.inr hs.symm)), if_pos hs.symm]
    · have e1 : ∃ c', ({ c with faults := f, countdown := k } : Ctl).evaluate e = (Prp.disabled, c') ∧ c'.state = c.state := by
        unfold evaluate
        rw [if_neg (by rw [hs]; decide), if_neg (by rw [hs]; decide), if_neg (by rw [hs]; decide), if_neg (by rw [hs]; decide),
          if_neg (by rw [hs]; decide), if_neg (by rw [hs]; decide), if_neg (by rw [hs]; decide), if_neg (by rw [hs]; decide)]
        exact ⟨_, rfl, rfl⟩
      obtain ⟨c', h2, h1⟩ := e1
      rw [key _ _ h2 h1 (.inr (.inr hs.symm)), if_pos hs.symm]
  · intro hs
    have e1 : ∃ c', ({ c with faults := f, countdown := k } : Ctl).evaluate e = (Prp.idle, c') ∧ c'.state = c.state := by
      unfold evaluate
      rw [if_neg (by rw [hs]; decide), if_neg (by rw [hs]; decide), if_neg (by rw [hs]; decide), if_neg (by rw [hs]; decide),
        if_neg (by rw [hs]; decide), if_neg (by rw [hs]; decide), if_pos hs]
      unfold evalHandlingFault
      dsimp only
      rw [canEnter_off _ _ _ h (by decide), canEnter_off _ _ _ h (by decide), if_neg (by decide), if_neg (by decide)]
      obtain ⟨g, hg⟩ := canEnter_frame { c with faults := f, countdown := k } e Prp.venting
      rw [hg]
      obtain ⟨g', hg'⟩ := canEnter_frame { c with faults := g, countdown := k } e Prp.handlingFault
      rw [hg']
      exact ⟨_, rfl, rfl⟩
    obtain ⟨c', h2, h1⟩ := e1
    rw [key _ _ h2 h1 (.inl (by decide)), if_neg (by rw [hs]; decide)]
  · intro hs
    obtain ⟨f', hf'⟩ := hfault (by rw [hs]; decide)
    have e1 : ∃ c', ({ c with faults := f, countdown := k } : Ctl).evaluate e =
        (if k = 0 then Prp.firing else Prp.awaitFiring, c') ∧ c'.state = c.state := by
      unfold evaluate
      rw [if_neg (by rw [hs]; decide), if_neg (by rw [hs]; decide), if_neg (by rw [hs]; decide), if_pos hs]
      unfold evalAwaitFiring
      rw [hf']
      dsimp only
      rw [if_neg (by decide)]
      split_ifs
      · exact ⟨_, rfl, rfl⟩
      · exact ⟨_, rfl, rfl⟩
    obtain ⟨c', h2, h1⟩ := e1
    rw [key _ _ h2 h1 (by split_ifs; exact .inl (by decide); exact .inl (by decide))]
    have hk0 : k = 0 ↔ c.countdown.toNat ≤ 1 := by
      rw [← BitVec.toNat_inj, hk]
      simp
      omega
    by_cases hc : c.countdown.toNat ≤ 1
    · rw [if_pos hc, if_pos (hk0.2 hc), if_neg (by rw [hs]; decide)]
    · rw [if_neg hc, if_neg (fun x => hc (hk0.1 x)), if_pos hs.symm, hs]
  · intro hs
    obtain ⟨f', hf'⟩ := hfault (by rw [hs]; decide)
    have e1 : ∃ c', ({ c with faults := f, countdown := k } : Ctl).evaluate e =
        (if scheduleEmpty c.drv then Prp.idle else Prp.firing, c') ∧ c'.state = c.state := by
      unfold evaluate
      rw [if_neg (by rw [hs]; decide), if_neg (by rw [hs]; decide), if_neg (by rw [hs]; decide), if_neg (by rw [hs]; decide), if_pos hs]
      unfold evalFiring
      rw [hf']
      dsimp only
      rw [if_neg (by decide)]
      split_ifs
      · exact ⟨_, rfl, rfl⟩
      · exact ⟨_, rfl, rfl⟩
    obtain ⟨c', h2, h1⟩ := e1
    rw [key _ _ h2 h1 (by split_ifs; exact .inl (by decide); exact .inl (by decide))]
    have hk0 : scheduleEmpty c.drv = true ↔ (c.drv.tank2.map (·.sched)).sum = 0 := by
      unfold scheduleEmpty
      rw [decide_eq_true_iff, List.sum_eq_foldl]
    by_cases hc : scheduleEmpty c.drv = true
    · rw [if_pos hc, if_pos (hk0.1 hc), if_neg (by rw [hs]; decide)]
    · rw [if_neg hc, if_neg (fun x => hc (hk0.2 x)), if_pos hs.symm, hs]

/-- Non-vacuity: a cycle that ends with the converter off (the safehold of `C56_converters_partial`). -/
example : ((inTrouble.cycle PAN.exact troubleIn).map fun r => r.1.dcdc.sph) = some false := by decide +kernel
/-- Non-vacuity, and what is lost: a manoeuvre waiting to fire, its time come, without power. -/
example : (({ Ctl.init 14 20 20 with state := Prp.awaitFiring, countdown := 1 } : Ctl).execute ⟨9, false, 14, 20, 20⟩).state = Prp.disabled := by
  decide +kernel

/-! ### C26: the faults asked about at the end of startup -/

/-- Polling one fault after another up to and including the first that is faulted; the others are left as they are. -/
def Spec.pollThrough : List Fault → List Fault
  | [] => []
  | f :: fs => f.poll :: (if f.isFaulted then fs else Spec.pollThrough fs)

/-- The faults asked about at the end of startup, in order. -/
def Spec.startupFaults (s : MM) : List Fault := [s.functional, s.fh.wheel1, s.fh.wheel2, s.fh.wheel3, s.fh.wheelPot]

theorem MM.hwPolled_through (s : MM) : startupFaults s.hwPolled = pollThrough (startupFaults s) := by
  unfold MM.hwPolled startupFaults
  simp only [pollThrough]
  split
  · rfl
  split
  · rfl
  split
  · rfl
  split
  · rfl
  · split <;> rfl

theorem FHState.startup_wheels (s : FHState) (cc : U32) (hm : s.mission = Mission.startup) :
    (s.execute cc).2.wheel1 = s.wheel1 ∧ (s.execute cc).2.wheel2 = s.wheel2 ∧ (s.execute cc).2.wheel3 = s.wheel3 ∧
      (s.execute cc).2.wheelPot = s.wheelPot := by
  have key : (fun x : FHState => x.mission = Mission.startup ∧ x.wheel1 = s.wheel1 ∧ x.wheel2 = s.wheel2 ∧ x.wheel3 = s.wheel3 ∧
      x.wheelPot = s.wheelPot) (s.execute cc).2 := by
    unfold FHState.execute MainFH.execute
    split
    · exact ⟨hm, rfl, rfl, rfl, rfl⟩
    · refine mainLoop_inv (fun x : FHState => x.mission = Mission.startup ∧ x.wheel1 = s.wheel1 ∧ x.wheel2 = s.wheel2 ∧
        x.wheel3 = s.wheel3 ∧ x.wheelPot = s.wheelPot) _ ?_ _ _ ⟨hm, rfl, rfl, rfl, rfl⟩
      intro m hmem x hx
      obtain ⟨h0, h1, h2, h3, h4⟩ := hx
      have hna : ∀ f, (SimpleFH.execute 1 .safehold x.mission f).2 = f := fun f =>
        (SimpleFH.execute_fault 1 (by decide) .safehold x.mission f).2 (by rw [h0, ← active_iff 1 (by decide)]; decide)
      simp only [FHState.handlers, List.mem_cons, List.not_mem_nil, or_false] at hmem
      rcases hmem with rfl | rfl | rfl | rfl | rfl | rfl | rfl | rfl | rfl | rfl
      all_goals first
        | exact ⟨h0, h1, h2, h3, h4⟩
        | exact ⟨h0, (hna _).trans h1, h2, h3, h4⟩
        | exact ⟨h0, h1, (hna _).trans h2, h3, h4⟩
        | exact ⟨h0, h1, h2, (hna _).trans h3, h4⟩
        | exact ⟨h0, h1, h2, h3, (hna _).trans h4⟩
  exact ⟨key.2.1, key.2.2.1, key.2.2.2.1, key.2.2.2.2⟩

/-- C26. In startup, the faults of the attitude control hardware are asked about (and so take the commands of the ground, C21, C22)
in one cycle only, the last, and only up to the first that is found faulted; in every earlier cycle none is. -/
theorem C26_startup (s s' : MM) (i : MMIn) (hm : s.fh.mission = Mission.startup) (h : s.execute i = some s') :
    (106 ≤ s.elapsed.toNat → startupFaults s' = pollThrough (startupFaults s)) ∧
    (s.elapsed.toNat < 106 → startupFaults s' = startupFaults s) := by
  have hk : startupFaults (s.afterFaults i.cc) = startupFaults s := by
    obtain ⟨a, b, c, d⟩ := FHState.startup_wheels s.fh i.cc hm
    unfold startupFaults MM.afterFaults
    dsimp only
    rw [a, b, c, d]
  have hel : (s.afterFaults i.cc).elapsed = s.elapsed := rfl
  rcases MM.execute_cases s i with ⟨h1, _⟩ | ⟨h1, _⟩ | ⟨_, _, g⟩
  · exact absurd hm h1
  · exact absurd hm h1
  rw [g, hm, MM.dispatch_startup] at h
  rw [← hel, ← hk]
  generalize s.afterFaults i.cc = k at h
  unfold MM.dispatchStartup at h
  split at h
  · cases h
  split at h
  · rename_i hlt
    refine ⟨fun hh => absurd (show k.elapsed.toNat < 106 from hlt) (by omega), fun _ => ?_⟩
    split at h <;> (cases h; rfl)
  · rename_i hlt
    refine ⟨fun _ => ?_, fun hh => absurd hh hlt⟩
    dsimp only at h
    generalize hz : (if k.fh.radio.state = Radio.disabled then
      ({ k with piksiOff := false, piksiPowercycle := true, fh := { k.fh with radio := { k.fh.radio with state := Radio.config } } } : MM)
      else { k with piksiOff := false, piksiPowercycle := true }) = z at h
    have hzc : startupFaults z = startupFaults k := by rw [← hz]; split_ifs <;> rfl
    have e1 := MM.hwPolled_through z
    rw [hzc] at e1
    generalize z.hwPolled = w at h e1
    split at h <;> (cases h; exact e1)

/-- Non-vacuity: the end of startup. -/
example : ((({ MM.init 14 20 20 with elapsed := 106 } : MM).execute
      { cc := 5, attValid := false, momentum := none, relState := 0, relDist := none, docked := false }).map fun s => s.fh.mission) =
    some Mission.detumble := by decide +kernel

end PAN
