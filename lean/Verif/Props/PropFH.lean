import Verif.Model.PropFH
import Verif.Props.PropArm
/-!
Property C30: propulsion fault handling.
-/
namespace PAN
open Driver
namespace Spec

/-- The propulsion controller is dealing with a fault. -/
def DealingWithFault (c : Ctl) : Prop := c.state = Prp.handlingFault ∨ c.state = Prp.venting

instance (c : Ctl) : Decidable (DealingWithFault c) := inferInstanceAs (Decidable (_ ∨ _))

/-- Tank 1 is too hot. -/
def Tank1Faulted (f : PropFaults) : Prop := f.temp1.isFaulted = true

/-- Tank 2 is too hot or over pressure. -/
def Tank2Faulted (f : PropFaults) : Prop := f.temp2.isFaulted = true ∨ f.over.isFaulted = true

instance (f : PropFaults) : Decidable (Tank1Faulted f) := inferInstanceAs (Decidable (_ = true))
instance (f : PropFaults) : Decidable (Tank2Faulted f) := inferInstanceAs (Decidable (_ ∨ _))

end Spec
open Spec Ctl

namespace PropFH

theorem wants1_eq (f : PropFaults) : f.wants1.1 = true ↔ Tank1Faulted f := Iff.rfl

theorem wants2_eq (f : PropFaults) : f.wants2.1 = true ↔ Tank2Faulted f := by
  unfold PropFaults.wants2 Tank2Faulted
  split
  · rename_i h; exact ⟨fun _ => Or.inl h, fun _ => rfl⟩
  · rename_i h; exact ⟨fun g => Or.inr g, fun g => g.resolve_left h⟩

/-- Polling does not change what a fault says. -/
theorem wants1_frame (f : PropFaults) : (Tank1Faulted f.wants1.2 ↔ Tank1Faulted f) ∧ (Tank2Faulted f.wants1.2 ↔ Tank2Faulted f) := by
  unfold Tank1Faulted Tank2Faulted PropFaults.wants1
  simp only [Fault.isFaulted_poll, and_self]

theorem wants2_frame (f : PropFaults) : (Tank1Faulted f.wants2.2 ↔ Tank1Faulted f) ∧ (Tank2Faulted f.wants2.2 ↔ Tank2Faulted f) := by
  unfold Tank1Faulted Tank2Faulted PropFaults.wants2
  split <;> simp only [Fault.isFaulted_poll, and_self]

theorem both_spec (f : PropFaults) : ((both f).1 = true ↔ Tank1Faulted f ∧ Tank2Faulted f) ∧
    (Tank1Faulted (both f).2 ↔ Tank1Faulted f) ∧ (Tank2Faulted (both f).2 ↔ Tank2Faulted f) := by
  have h1 := wants1_frame f
  have h2 := wants2_frame f.wants1.2
  refine ⟨?_, h2.1.trans h1.1, h2.2.trans h1.2⟩
  show (f.wants1.1 && f.wants1.2.wants2.1) = true ↔ _
  rw [Bool.and_eq_true, wants1_eq, wants2_eq, h1.2]

theorem chooseTank_spec (f : PropFaults) (t : TankId) :
    ((f.chooseTank t).1 = if Tank1Faulted f ∧ Tank2Faulted f then (if t = .one then .two else .one)
      else if Tank1Faulted f then .one else .two) ∧
    (Tank1Faulted (f.chooseTank t).2 ↔ Tank1Faulted f) ∧ (Tank2Faulted (f.chooseTank t).2 ↔ Tank2Faulted f) := by
  have h1 := wants1_frame f
  have e1 := wants1_eq f
  unfold PropFaults.chooseTank
  rcases hw : f.wants1 with ⟨w1, f1⟩
  have hw1 : f.wants1.1 = w1 := by rw [hw]
  have hf1 : f.wants1.2 = f1 := by rw [hw]
  rw [hw1] at e1
  rw [hf1] at h1
  dsimp only
  cases w1
  · have hn : ¬ Tank1Faulted f := fun h => absurd (e1.2 h) (by decide)
    simp only [Bool.false_eq_true, if_false, Bool.false_and]
    have h1' := wants1_frame f1
    have e1' := wants1_eq f1
    rw [h1.1] at e1'
    rcases hw' : f1.wants1 with ⟨w1', f1'⟩
    have g1 : f1.wants1.1 = w1' := by rw [hw']
    have g2 : f1.wants1.2 = f1' := by rw [hw']
    rw [g1] at e1'
    rw [g2] at h1'
    dsimp only
    refine ⟨?_, h1'.1.trans h1.1, h1'.2.trans h1.2⟩
    rw [if_neg (fun h => hn (e1'.1 h)), if_neg (fun h => hn h.1), if_neg hn]
  · have hp : Tank1Faulted f := e1.1 rfl
    have h2 := wants2_frame f1
    have e2 := wants2_eq f1
    rw [h1.2] at e2
    simp only [if_true]
    rcases hw2 : f1.wants2 with ⟨w2, f2⟩
    have g1 : f1.wants2.1 = w2 := by rw [hw2]
    have g2 : f1.wants2.2 = f2 := by rw [hw2]
    rw [g1] at e2
    rw [g2] at h2
    dsimp only
    cases w2
    · have hn2 : ¬ Tank2Faulted f := fun h => absurd (e2.2 h) (by decide)
      simp only [Bool.and_false, Bool.false_eq_true, if_false]
      have h1' := wants1_frame f2
      have e1' := wants1_eq f2
      rw [h2.1, h1.1] at e1'
      rcases hw' : f2.wants1 with ⟨w1', f1'⟩
      have g3 : f2.wants1.1 = w1' := by rw [hw']
      have g4 : f2.wants1.2 = f1' := by rw [hw']
      rw [g3] at e1'
      rw [g4] at h1'
      dsimp only
      refine ⟨?_, h1'.1.trans (h2.1.trans h1.1), h1'.2.trans (h2.2.trans h1.2)⟩
      rw [if_pos (e1'.2 hp), if_neg (fun h => hn2 h.2), if_pos hp]
    · simp only [Bool.and_true, if_true]
      refine ⟨?_, h2.1.trans h1.1, h2.2.trans h1.2⟩
      simp only [hp, e2.1 rfl, and_self, if_true]

end PropFH

/-- C30: the propulsion fault handler asks for standby exactly while the propulsion controller is handling a fault or
venting. -/
theorem C30_standby (h : PropFH) (c : Ctl) :
    ((h.execute c).1 = .standby ↔ DealingWithFault c) ∧ ((h.execute c).1 = .none ↔ ¬ DealingWithFault c) := by
  unfold PropFH.execute DealingWithFault
  dsimp only
  split
  · rename_i hn
    simp only [reduceCtorEq, false_iff, true_iff]
    exact ⟨fun h => h.elim hn.1 hn.2, fun h => h.elim hn.1 hn.2⟩
  · rename_i hn
    have : c.state = Prp.handlingFault ∨ c.state = Prp.venting := by
      by_cases h1 : c.state = Prp.handlingFault
      · exact Or.inl h1
      · by_cases h2 : c.state = Prp.venting
        · exact Or.inr h2
        · exact absurd ⟨h1, h2⟩ hn
    exact ⟨⟨fun _ => this, fun _ => rfl⟩, ⟨nofun, fun h => absurd this h⟩⟩

/-- C30: when the controller starts venting, it vents a tank that needs it: tank 1 if only tank 1 is faulted, tank 2 if only
tank 2 is, and if both are, the tank it did not choose last time. -/
theorem C30_vents_right_tank (c : Ctl) (e : PropEnv) (h0 : c.state ≠ Prp.venting) (h : (c.execute e).state = Prp.venting) :
    (Tank1Faulted (c.execute e).faults ∨ Tank2Faulted (c.execute e).faults) ∧
    (Tank1Faulted (c.execute e).faults → ¬ Tank2Faulted (c.execute e).faults → (c.execute e).choice = .one) ∧
    (Tank2Faulted (c.execute e).faults → ¬ Tank1Faulted (c.execute e).faults → (c.execute e).choice = .two) ∧
    (Tank1Faulted (c.execute e).faults → Tank2Faulted (c.execute e).faults → (c.execute e).choice ≠ c.choice) := by
  obtain ⟨f, k, _, hk, he⟩ := execute_eq c e
  rw [he] at h ⊢
  obtain ⟨f1, p1, v1, s1, d1, hev⟩ := evaluate_frame { c with faults := f, countdown := k } e
  have hst : (({ c with faults := f, countdown := k } : Ctl).evaluate e).2.state = c.state := by rw [hev]
  have hch : (({ c with faults := f, countdown := k } : Ctl).evaluate e).2.choice = c.choice := by rw [hev]
  generalize (({ c with faults := f, countdown := k } : Ctl).evaluate e) = q at h hst hch
  obtain ⟨n, c1⟩ := q
  simp only at h hst hch
  have hn : n = Prp.venting := by
    rcases transition_state c1 e n with g | g
    · rw [← g]; exact h
    · exact absurd (g.symm.trans h) (by decide)
  subst hn
  show (Tank1Faulted (c1.transition e Prp.venting).faults ∨ Tank2Faulted (c1.transition e Prp.venting).faults) ∧
    (Tank1Faulted (c1.transition e Prp.venting).faults → ¬ Tank2Faulted (c1.transition e Prp.venting).faults → (c1.transition e Prp.venting).choice = .one) ∧
    (Tank2Faulted (c1.transition e Prp.venting).faults → ¬ Tank1Faulted (c1.transition e Prp.venting).faults → (c1.transition e Prp.venting).choice = .two) ∧
    (Tank1Faulted (c1.transition e Prp.venting).faults → Tank2Faulted (c1.transition e Prp.venting).faults → (c1.transition e Prp.venting).choice ≠ c.choice)
  have h' : (c1.transition e Prp.venting).state = Prp.venting := h
  unfold transition at h' ⊢
  rw [if_neg (by rw [hst]; exact fun h => h0 h.symm)] at h' ⊢
  have hce : c1.canEnter e Prp.venting = (e.functional && c1.faults.anyVent, { c1 with faults := c1.faults.pollVent }) := rfl
  rw [hce] at h' ⊢
  dsimp only at h' ⊢
  cases hb : (e.functional && c1.faults.anyVent) with
  | false => rw [hb] at h'; exact absurd h' (by show Prp.disabled ≠ Prp.venting; decide)
  | true =>
    rw [if_pos rfl]
    have hany : Tank1Faulted c1.faults.pollVent ∨ Tank2Faulted c1.faults.pollVent := by
      rw [Bool.and_eq_true] at hb
      have := hb.2
      unfold PropFaults.anyVent at this
      simp only [Bool.or_eq_true] at this
      unfold Tank1Faulted Tank2Faulted PropFaults.pollVent
      simp only [Fault.isFaulted_poll]
      rcases this with (g | g) | g
      · exact Or.inr (Or.inr g)
      · exact Or.inr (Or.inl g)
      · exact Or.inl g
    obtain ⟨g1, g2, g3⟩ := PropFH.chooseTank_spec c1.faults.pollVent c1.choice
    have hen : Ctl.enter { c1 with faults := c1.faults.pollVent, state := Prp.venting } Prp.venting =
        { c1 with state := Prp.venting, faults := (c1.faults.pollVent.chooseTank c1.choice).2, choice := (c1.faults.pollVent.chooseTank c1.choice).1, vent := if (c1.faults.pollVent.chooseTank c1.choice).1 = .two then { c1.vent with cur := c1.saved.toNat }.enter else c1.vent.enter } := rfl
    rw [hen]
    dsimp only
    rw [g1, g2, g3]
    refine ⟨hany, fun a b => ?_, fun a b => ?_, fun a b => ?_⟩
    · rw [if_neg (fun h => b h.2), if_pos a]
    · rw [if_neg (fun h => b h.1), if_neg b]
    · rw [if_pos ⟨a, b⟩, hch]
      cases c.choice <;> decide

/-- C30: a tripped propulsion fault takes the controller to fault handling in the same cycle, from every state in which it
works towards a firing (in the last cycles before the firing time a pressurising attempt is first abandoned), as long as
the hardware is functional. -/
theorem C30_fault_detected (c : Ctl) (e : PropEnv) (hf : e.functional = true) (hn : SomeFault (c.checkFaults e.cc).faults)
    (hs : c.state = Prp.idle ∨ c.state = Prp.awaitPressurizing ∨ c.state = Prp.awaitFiring ∨ c.state = Prp.firing ∨
      (c.state = Prp.pressurizing ∧ 2 < c.countdown.toNat)) : (c.execute e).state = Prp.handlingFault := by
  obtain ⟨f, k, hff, hk, he⟩ := execute_eq c e
  rw [← hff] at hn
  have hany : f.any = true := (any_iff f).2 hn
  have hne : c.state ≠ Prp.disabled := by rcases hs with h | h | h | h | ⟨h, _⟩ <;> rw [h] <;> decide
  have hne2 : c.state ≠ Prp.handlingFault := by rcases hs with h | h | h | h | ⟨h, _⟩ <;> rw [h] <;> decide
  have hcan : Ctl.canEnter { c with faults := f, countdown := k } e Prp.handlingFault = (true, { c with faults := f.pollAll, countdown := k }) := by
    rw [canEnter_fault { c with faults := f, countdown := k } e hne, hany, hf]
    rfl
  have key : ∀ c' : Ctl, c'.state = c.state → c'.faults = f.pollAll → ((c'.transition e Prp.handlingFault).readSensors e).state = Prp.handlingFault := by
    intro c' h1 h2
    have := (transition_fault c' e (by rw [h1]; exact hne) (by rw [h1]; exact hne2) (by rw [h2, pollAll_any]; exact hany)).1
    rw [hf, if_pos rfl] at this
    exact this
  have hev : ∃ d, (({ c with faults := f, countdown := k } : Ctl).evaluate e) = (Prp.handlingFault, { c with faults := f.pollAll, countdown := k, drv := d }) := by
    unfold evaluate
    dsimp only
    rcases hs with h | h | h | h | ⟨h, h2⟩
    · rw [if_pos h]
      refine ⟨c.drv, ?_⟩
      unfold evalIdle; rw [hcan]; rfl
    · rw [if_neg (by rw [h]; decide), if_pos h]
      refine ⟨c.drv, ?_⟩
      unfold evalAwaitPressurizing; rw [hcan]; rfl
    · rw [if_neg (by rw [h]; decide), if_neg (by rw [h]; decide), if_neg (by rw [h]; decide), if_pos h]
      refine ⟨c.drv, ?_⟩
      unfold evalAwaitFiring; rw [hcan]; rfl
    · rw [if_neg (by rw [h]; decide), if_neg (by rw [h]; decide), if_neg (by rw [h]; decide), if_neg (by rw [h]; decide), if_pos h]
      refine ⟨c.drv.reset, ?_⟩
      unfold evalFiring; rw [hcan]; rfl
    · rw [if_neg (by rw [h]; decide), if_neg (by rw [h]; decide), if_pos h]
      refine ⟨c.drv.reset, ?_⟩
      unfold evalPressurizing
      rw [if_neg (by show ¬ k.toNat ≤ 1; omega), hcan]; rfl
  obtain ⟨d, hev⟩ := hev
  rw [he, hev]
  exact key _ rfl rfl

/-- C30: what fault handling leads to. With functional hardware a tank that is too hot or over its pressure is vented in the next cycle, a
pressurisation fault alone is waited out, and without a fault propulsion is idle again; without functional hardware it is disabled. -/
theorem C30_handling_fault (c : Ctl) (e : PropEnv) (hs : c.state = Prp.handlingFault) :
    (e.functional = true → Tank1Faulted (c.checkFaults e.cc).faults ∨ Tank2Faulted (c.checkFaults e.cc).faults →
      (c.execute e).state = Prp.venting) ∧
    (e.functional = true → ¬ (Tank1Faulted (c.checkFaults e.cc).faults ∨ Tank2Faulted (c.checkFaults e.cc).faults) →
      SomeFault (c.checkFaults e.cc).faults → (c.execute e).state = Prp.handlingFault) ∧
    (e.functional = true → ¬ SomeFault (c.checkFaults e.cc).faults → (c.execute e).state = Prp.idle) ∧
    (e.functional = false → (c.execute e).state = Prp.disabled) := by
  obtain ⟨f, k, hff, hk, he⟩ := execute_eq c e
  rw [← hff]
  have hav : f.anyVent = true ↔ Tank1Faulted f ∨ Tank2Faulted f := by
    unfold PropFaults.anyVent Tank1Faulted Tank2Faulted
    simp only [Bool.or_eq_true]
    constructor
    · rintro ((h | h) | h)
      · exact Or.inr (Or.inr h)
      · exact Or.inr (Or.inl h)
      · exact Or.inl h
    · rintro (h | h | h)
      · exact Or.inr h
      · exact Or.inl (Or.inr h)
      · exact Or.inl (Or.inl h)
  have hpv : ∀ g : PropFaults, g.pollVent.anyVent = g.anyVent := by
    intro g; unfold PropFaults.anyVent PropFaults.pollVent; simp only [Fault.isFaulted_poll]
  have hpa : ∀ g : PropFaults, g.pollVent.any = g.any := by
    intro g; unfold PropFaults.any PropFaults.pollVent; simp only [Fault.isFaulted_poll]
  have hne : c.state ≠ Prp.disabled := by rw [hs]; decide
  have hcv : ∀ (g : PropFaults) (k : U32), Ctl.canEnter { c with faults := g, countdown := k } e Prp.venting =
      (e.functional && g.anyVent, { c with faults := g.pollVent, countdown := k }) := fun _ _ => rfl
  have hcf : ∀ (g : PropFaults) (k : U32), Ctl.canEnter { c with faults := g, countdown := k } e Prp.handlingFault =
      (e.functional && g.any, { c with faults := g.pollAll, countdown := k }) := fun g k => canEnter_fault _ e hne
  have hev : (({ c with faults := f, countdown := k } : Ctl).evaluate e) =
      (if e.functional && f.anyVent then (Prp.venting, { c with faults := f.pollVent, countdown := k })
       else if e.functional && f.any then (Prp.handlingFault, { c with faults := f.pollVent.pollAll, countdown := k })
       else (Prp.idle, { c with faults := f.pollVent.pollAll, countdown := k })) := by
    have : (({ c with faults := f, countdown := k } : Ctl).evaluate e) = ({ c with faults := f, countdown := k } : Ctl).evalHandlingFault e := by
      unfold evaluate
      dsimp only
      rw [hs]
      rfl
    rw [this]
    unfold evalHandlingFault
    rw [hcv]
    dsimp only
    rw [hcf]
    dsimp only
    rw [hpa]
  rw [he, hev]
  refine ⟨fun hf ht => ?_, fun hf ht hn => ?_, fun hf hn => ?_, fun hf => ?_⟩
  · rw [if_pos (by rw [hf, hav.2 ht]; rfl)]
    show (Ctl.transition { c with faults := f.pollVent, countdown := k } e Prp.venting).state = Prp.venting
    unfold transition
    rw [if_neg (by show ¬ Prp.venting = c.state; rw [hs]; decide), hcv]
    dsimp only
    rw [if_pos (by rw [hpv, hf, hav.2 ht]; rfl)]
    rfl
  · have hav' : f.anyVent = false := Bool.eq_false_iff.2 fun h => ht (hav.1 h)
    rw [if_neg (by rw [hav', Bool.and_false]; decide), if_pos (by rw [hf, (any_iff f).2 hn]; rfl)]
    show (Ctl.transition { c with faults := f.pollVent.pollAll, countdown := k } e Prp.handlingFault).state = Prp.handlingFault
    unfold transition
    rw [if_pos (show Prp.handlingFault = c.state from hs.symm)]
    exact hs
  · have hany : f.any = false := Bool.eq_false_iff.2 fun h => hn ((any_iff f).1 h)
    have hav' : f.anyVent = false := by
      apply Bool.eq_false_iff.2
      intro h
      apply hn
      unfold SomeFault
      unfold PropFaults.anyVent at h
      simp only [Bool.or_eq_true] at h
      rcases h with (h | h) | h <;> simp only [h, true_or, or_true]
    rw [if_neg (by rw [hav', Bool.and_false]; decide), if_neg (by rw [hany, Bool.and_false]; decide)]
    show (Ctl.transition { c with faults := f.pollVent.pollAll, countdown := k } e Prp.idle).state = Prp.idle
    unfold transition
    rw [if_neg (by show ¬ Prp.idle = c.state; rw [hs]; decide)]
    show (if e.functional = true then Ctl.enter { c with faults := f.pollVent.pollAll, countdown := k, state := Prp.idle } Prp.idle else _ : Ctl).state = Prp.idle
    rw [if_pos hf]
    rfl
  · rw [hf, Bool.false_and, Bool.false_and]
    show (Ctl.transition { c with faults := f.pollVent.pollAll, countdown := k } e Prp.idle).state = Prp.disabled
    unfold transition
    rw [if_neg (by show ¬ Prp.idle = c.state; rw [hs]; decide)]
    show (if e.functional = true then _ else { c with faults := f.pollVent.pollAll, countdown := k, state := Prp.disabled } : Ctl).state = Prp.disabled
    rw [if_neg (by rw [hf]; decide)]

/-! ### The venting budget -/

namespace PropFH

/-- What one call of the handler does to the budget. -/
theorem execute_cases (h : PropFH) (c : Ctl) :
    ∃ s, s = (if h.notInit then c.maxVent else h.saved) ∧ (h.execute c).2.1.notInit = false ∧
    ((¬ DealingWithFault c ∧ (h.execute c).2 = ({ h with saved := s, notInit := false }, c)) ∨
     (DealingWithFault c ∧ ∃ f, 
       ((¬ (Tank1Faulted c.faults ∧ Tank2Faulted c.faults) ∧ (h.execute c).2 = ({ saved := s, num := 0, notInit := false }, { c with faults := f, maxVent := s })) ∨
        ((Tank1Faulted c.faults ∧ Tank2Faulted c.faults) ∧ h.num = 0 ∧
          (h.execute c).2 = ({ saved := c.maxVent, num := 1, notInit := false }, { c with faults := f, maxVent := 1 })) ∨
        ((Tank1Faulted c.faults ∧ Tank2Faulted c.faults) ∧ h.num ≠ 0 ∧ c.state = Prp.handlingFault ∧ h.num + 1 > s ∧
          (h.execute c).2 = ({ saved := s, num := 0, notInit := false }, { c with faults := f, maxVent := s, state := Prp.disabled })) ∨
        ((Tank1Faulted c.faults ∧ Tank2Faulted c.faults) ∧ h.num ≠ 0 ∧ c.state = Prp.handlingFault ∧ ¬ h.num + 1 > s ∧
          (h.execute c).2 = ({ saved := s, num := h.num + 1, notInit := false }, { c with faults := f })) ∨
        ((Tank1Faulted c.faults ∧ Tank2Faulted c.faults) ∧ h.num ≠ 0 ∧ c.state = Prp.venting ∧
          (h.execute c).2 = ({ saved := s, num := h.num, notInit := false }, { c with faults := f }))))) := by
  refine ⟨_, rfl, ?_⟩
  have hi : ∀ h : PropFH, (if h.notInit = true then { h with saved := c.maxVent, notInit := false } else h) =
      { saved := (if h.notInit = true then c.maxVent else h.saved), num := h.num, notInit := false } := by
    intro h
    obtain ⟨a, b, d⟩ := h
    cases d <;> rfl
  unfold execute
  rw [hi h]
  generalize (if h.notInit = true then c.maxVent else h.saved) = s
  dsimp only
  by_cases hd : DealingWithFault c
  · rw [if_neg (by unfold DealingWithFault at hd; rintro ⟨a, b⟩; exact hd.elim a b)]
    obtain ⟨b1, _, _⟩ := both_spec c.faults
    rcases hb : both c.faults with ⟨b, f⟩
    rw [hb] at b1
    dsimp only at b1 ⊢
    cases b
    · have hn : ¬ (Tank1Faulted c.faults ∧ Tank2Faulted c.faults) := fun h => absurd (b1.2 h) (by decide)
      exact ⟨rfl, Or.inr ⟨hd, f, Or.inl ⟨hn, rfl⟩⟩⟩
    · have hp := b1.1 rfl
      rw [if_pos rfl]
      unfold handleBoth
      dsimp only
      by_cases h0 : h.num = 0
      · rw [if_pos h0]
        exact ⟨rfl, Or.inr ⟨hd, f, Or.inr (Or.inl ⟨hp, h0, rfl⟩)⟩⟩
      · rw [if_neg h0]
        by_cases hs : c.state = Prp.handlingFault
        · rw [if_pos hs]
          by_cases hg : h.num + 1 > s
          · rw [if_pos hg]
            exact ⟨rfl, Or.inr ⟨hd, f, Or.inr (Or.inr (Or.inl ⟨hp, h0, hs, hg, rfl⟩))⟩⟩
          · rw [if_neg hg]
            exact ⟨rfl, Or.inr ⟨hd, f, Or.inr (Or.inr (Or.inr (Or.inl ⟨hp, h0, hs, hg, rfl⟩)))⟩⟩
        · rw [if_neg hs]
          exact ⟨rfl, Or.inr ⟨hd, f, Or.inr (Or.inr (Or.inr (Or.inr ⟨hp, h0, hd.resolve_left hs, rfl⟩)))⟩⟩
  · rw [if_pos (by unfold DealingWithFault at hd; exact ⟨fun h => hd (Or.inl h), fun h => hd (Or.inr h)⟩)]
    exact ⟨rfl, Or.inl ⟨hd, rfl⟩⟩

/-- No write of the maximum number of venting cycles in this cycle. -/
def KeepsBudget (y : PropFHCycle) : Prop := (∀ x, PropWrite.maxVent x ∉ y.before) ∧ (∀ x, PropWrite.maxVent x ∉ y.after.writes)

/-- Invariant of the budget, for an unchanged ground setting `M`. -/
def BInv (M : U32) (q : PropFH × Ctl) : Prop :=
  (q.1.notInit = true → q.1.num = 0) ∧ (q.1.notInit = false → q.1.saved = M) ∧ (q.1.num = 0 → q.2.maxVent = M) ∧
  (q.1.num ≠ 0 → q.2.maxVent = 1) ∧ q.1.num.toNat ≤ max 1 M.toNat

theorem writes_maxVent (c : Ctl) (ws : List PropWrite) (h : ∀ x, PropWrite.maxVent x ∉ ws) : (c.writes ws).maxVent = c.maxVent := by
  refine writes_ind (fun c' => c'.maxVent = c.maxVent) ws c rfl (fun c w hm hc => ?_)
  cases w with
  | maxVent x => exact absurd hm (h x)
  | fault i op => cases i <;> exact hc
  | _ => exact hc

theorem cycle_maxVent (c : Ctl) (y : PropCycle) (h : ∀ x, PropWrite.maxVent x ∉ y.writes) : (c.cycle y).maxVent = c.maxVent := by
  show ((c.beforeExecute y).execute y.env).maxVent = _
  rw [(execute_params _ _).2.1]
  show ((c.interrupts y.ticks1).writes y.writes).maxVent = _
  rw [writes_maxVent _ _ h]; rfl

/-- What the handler sees in a cycle. -/
def seen (q : PropFH × Ctl) (y : PropFHCycle) : Ctl := (q.2.writes y.before).interrupts y.ticks

theorem execute_binv (M : U32) (hM : M.toNat + 1 < 2 ^ 32) (h : PropFH) (c : Ctl) (hi : BInv M (h, c)) :
    BInv M (h.execute c).2 ∧ (h.execute c).2.1.notInit = false := by
  obtain ⟨i1, i2, i3, i4, i5⟩ := hi
  dsimp only at i1 i2 i3 i4 i5
  obtain ⟨s, hs, hn, hc⟩ := execute_cases h c
  have hsM : s = M := by
    rw [hs]
    cases hb : h.notInit with
    | true => rw [if_pos rfl]; exact i3 (i1 hb)
    | false => rw [if_neg Bool.false_ne_true]; exact i2 hb
  subst hsM
  refine ⟨?_, hn⟩
  rcases hc with ⟨_, he⟩ | ⟨_, f, ⟨_, he⟩ | ⟨_, h0, he⟩ | ⟨_, h0, _, _, he⟩ | ⟨_, h0, _, hg, he⟩ | ⟨_, h0, _, he⟩⟩ <;> rw [he]
  · exact ⟨nofun, fun _ => rfl, i3, i4, i5⟩
  · exact ⟨nofun, fun _ => rfl, fun _ => rfl, fun h => absurd rfl h, Nat.zero_le _⟩
  · exact ⟨nofun, fun _ => i3 h0, fun h => absurd h (show (1 : U32) ≠ 0 by decide), fun _ => rfl, by show 1 ≤ _; omega⟩
  · exact ⟨nofun, fun _ => rfl, fun _ => rfl, fun h => absurd rfl h, Nat.zero_le _⟩
  · have hadd : (h.num + 1).toNat = h.num.toNat + 1 := by
      rw [BitVec.toNat_add]
      exact Nat.mod_eq_of_lt (by show h.num.toNat + 1 < 2 ^ 32; omega)
    have hle : (h.num + 1).toNat ≤ s.toNat := Nat.le_of_not_lt hg
    refine ⟨nofun, fun _ => rfl, fun hz => ?_, fun _ => i4 h0, by show (h.num + 1).toNat ≤ _; omega⟩
    have h' : (h.num + 1).toNat = 0 := by
      have : h.num + 1 = 0 := hz
      rw [this]; rfl
    omega
  · exact ⟨nofun, fun _ => rfl, fun h => absurd h h0, fun _ => i4 h0, i5⟩

theorem cycle_binv (M : U32) (hM : M.toNat + 1 < 2 ^ 32) (q : PropFH × Ctl) (y : PropFHCycle) (hk : KeepsBudget y) (hi : BInv M q) :
    BInv M (q.1, seen q y) ∧ BInv M (q.1.execute (seen q y)).2 ∧ BInv M (cycle q y) := by
  have h1 : BInv M (q.1, seen q y) := by
    obtain ⟨i1, i2, i3, i4, i5⟩ := hi
    have : (seen q y).maxVent = q.2.maxVent := writes_maxVent q.2 y.before hk.1
    exact ⟨i1, i2, fun h => this.trans (i3 h), fun h => this.trans (i4 h), i5⟩
  have h2 := (execute_binv M hM _ _ h1).1
  refine ⟨h1, h2, ?_⟩
  have hc : cycle q y = ((q.1.execute (seen q y)).2.1, (q.1.execute (seen q y)).2.2.cycle y.after) := rfl
  rw [hc]
  obtain ⟨i1, i2, i3, i4, i5⟩ := h2
  have := cycle_maxVent (q.1.execute (seen q y)).2.2 y.after hk.2
  exact ⟨i1, i2, fun h => this.trans (i3 h), fun h => this.trans (i4 h), i5⟩

theorem run_binv (M : U32) (hM : M.toNat + 1 < 2 ^ 32) (ys : List PropFHCycle) : ∀ q, (∀ y ∈ ys, KeepsBudget y) → BInv M q → BInv M (run q ys) := by
  induction ys with
  | nil => intro q _ h; exact h
  | cons y ys ih =>
    intro q hk hi
    exact ih (cycle q y) (fun y' h' => hk y' (List.mem_cons_of_mem _ h')) (cycle_binv M hM q y (hk y List.mem_cons_self) hi).2.2

end PropFH

namespace Spec

/-- The controller as the propulsion fault handler finds it in a cycle. -/
def atHandler (q : PropFH × Ctl) (y : PropFHCycle) : Ctl := (q.2.writes y.before).interrupts y.ticks

/-- The controller as the handler leaves it. -/
def afterHandler (q : PropFH × Ctl) (y : PropFHCycle) : Ctl := (q.1.execute (atHandler q y)).2.2

/-- In every cycle the handler finds both tanks faulted, with the controller handling that, and does not give up. -/
def BothThroughout : PropFH × Ctl → List PropFHCycle → Prop
  | _, [] => True
  | q, y :: ys => DealingWithFault (atHandler q y) ∧ Tank1Faulted (atHandler q y).faults ∧ Tank2Faulted (atHandler q y).faults ∧
      (afterHandler q y).state ≠ Prp.disabled ∧ BothThroughout (PropFH.cycle q y) ys

/-- In how many of the cycles the handler finds the controller between two venting attempts. -/
def attempts : PropFH × Ctl → List PropFHCycle → Nat
  | _, [] => 0
  | q, y :: ys => (if (atHandler q y).state = Prp.handlingFault then 1 else 0) + attempts (PropFH.cycle q y) ys

end Spec
open Spec PropFH

theorem init_binv (p t2 t1 : Rat) : BInv 20 (PropFH.init, Ctl.init p t2 t1) :=
  ⟨fun _ => rfl, nofun, fun _ => rfl, fun h => absurd rfl h, Nat.zero_le _⟩

/-- C30 (partial: the budget is given back by the handler itself, not when the controller ends the venting of both tanks in one
cycle, and only as long as ground does not change it): for every history from construction in which ground leaves
`max_venting_cycles` at its initial 20, the budget is 20 or, while both tanks are being vented, 1; it is 20 again after every
cycle in which the handler finds the controller dealing with a fault of at most one tank, and whenever the handler gives
up and disables propulsion. -/
theorem C30_budget_restored_partial (p t2 t1 : Rat) (ys : List PropFHCycle) (y : PropFHCycle)
    (hk : ∀ z ∈ ys ++ [y], (∀ x, PropWrite.maxVent x ∉ z.before) ∧ (∀ x, PropWrite.maxVent x ∉ z.after.writes)) :
    let q := PropFH.run (PropFH.init, Ctl.init p t2 t1) ys
    ((PropFH.cycle q y).2.maxVent = 20 ∨ (PropFH.cycle q y).2.maxVent = 1) ∧
    (DealingWithFault (atHandler q y) → ¬ (Tank1Faulted (atHandler q y).faults ∧ Tank2Faulted (atHandler q y).faults) →
      (PropFH.cycle q y).2.maxVent = 20) ∧
    ((atHandler q y).state ≠ Prp.disabled → (afterHandler q y).state = Prp.disabled → (PropFH.cycle q y).2.maxVent = 20) ∧
    (q.2.maxVent = 20 → (PropFH.cycle q y).2.maxVent = 1 →
      DealingWithFault (atHandler q y) ∧ Tank1Faulted (atHandler q y).faults ∧ Tank2Faulted (atHandler q y).faults) := by
  intro q
  have hq : BInv 20 q := run_binv 20 (by decide) ys _ (fun z hz => hk z (List.mem_append_left _ hz)) (init_binv p t2 t1)
  have hy := hk y (List.mem_append_right _ List.mem_cons_self)
  obtain ⟨h1, h2, h3⟩ := cycle_binv 20 (by decide) q y hy hq
  have hmv : (PropFH.cycle q y).2.maxVent = (q.1.execute (atHandler q y)).2.2.maxVent := cycle_maxVent _ y.after hy.2
  obtain ⟨s, hs, hn, hc⟩ := execute_cases q.1 (atHandler q y)
  have hsM : s = 20 := by
    rw [hs]
    obtain ⟨i1, i2, i3, i4, i5⟩ := h1
    cases hb : q.1.notInit with
    | true => rw [if_pos rfl]; exact i3 (i1 hb)
    | false => rw [if_neg Bool.false_ne_true]; exact i2 hb
  subst hsM
  refine ⟨?_, ?_, ?_, ?_⟩
  · obtain ⟨i1, i2, i3, i4, i5⟩ := h3
    by_cases hz : (PropFH.cycle q y).1.num = 0
    · exact Or.inl (i3 hz)
    · exact Or.inr (i4 hz)
  · intro hd hb
    rw [hmv]
    rcases hc with ⟨hnd, _⟩ | ⟨_, f, ⟨_, he⟩ | ⟨hb', _⟩ | ⟨hb', _⟩ | ⟨hb', _⟩ | ⟨hb', _⟩⟩
    · exact absurd hd hnd
    · rw [he]
    · exact absurd hb' hb
    · exact absurd hb' hb
    · exact absurd hb' hb
    · exact absurd hb' hb
  · intro hne hdis
    rw [hmv]
    unfold afterHandler at hdis
    rcases hc with ⟨_, he⟩ | ⟨_, f, ⟨_, he⟩ | ⟨_, _, he⟩ | ⟨_, _, _, _, he⟩ | ⟨_, _, _, _, he⟩ | ⟨_, _, _, he⟩⟩ <;> rw [he] at hdis ⊢
    · exact absurd hdis hne
    · exact absurd hdis hne
    · exact absurd hdis hne
    · exact absurd hdis hne
  · intro h20 h1'
    rw [hmv] at h1'
    have hat : (atHandler q y).maxVent = 20 := by
      have : (atHandler q y).maxVent = q.2.maxVent := writes_maxVent q.2 y.before hy.1
      rw [this]; exact h20
    rcases hc with ⟨_, he⟩ | ⟨hd, f, ⟨_, he⟩ | ⟨hb, _⟩ | ⟨hb, _⟩ | ⟨hb, _⟩ | ⟨hb, _⟩⟩
    · rw [he] at h1'
      dsimp only at h1'
      rw [hat] at h1'; exact absurd h1' (by decide)
    · rw [he] at h1'; exact absurd h1' (show (20 : U32) ≠ 1 by decide)
    · exact ⟨hd, hb⟩
    · exact ⟨hd, hb⟩
    · exact ⟨hd, hb⟩
    · exact ⟨hd, hb⟩

/-- C30: with both tanks faulted the handler gives up: as long as it finds both faulted and has not disabled propulsion, it has
seen the controller between venting attempts at most 20 times. -/
theorem C30_gives_up (p t2 t1 : Rat) (ys zs : List PropFHCycle)
    (hk : ∀ z ∈ ys ++ zs, (∀ x, PropWrite.maxVent x ∉ z.before) ∧ (∀ x, PropWrite.maxVent x ∉ z.after.writes))
    (hb : BothThroughout (PropFH.run (PropFH.init, Ctl.init p t2 t1) ys) zs) :
    attempts (PropFH.run (PropFH.init, Ctl.init p t2 t1) ys) zs ≤ 20 := by
  have hq : BInv 20 (PropFH.run (PropFH.init, Ctl.init p t2 t1) ys) :=
    run_binv 20 (by decide) ys _ (fun z hz => hk z (List.mem_append_left _ hz)) (init_binv p t2 t1)
  have hk' : ∀ z ∈ zs, KeepsBudget z := fun z hz => hk z (List.mem_append_right _ hz)
  clear hk
  generalize PropFH.run (PropFH.init, Ctl.init p t2 t1) ys = q at *
  have key : ∀ (zs : List PropFHCycle) (q : PropFH × Ctl), BInv 20 q → (∀ z ∈ zs, KeepsBudget z) → BothThroughout q zs →
      attempts q zs + q.1.num.toNat ≤ 20 := by
    intro zs
    induction zs with
    | nil => intro q hq _ _; have := hq.2.2.2.2; simpa [attempts] using this
    | cons z zs ih =>
      intro q hq hk hb
      obtain ⟨hd, hb1, hb2, hnd, hrest⟩ := hb
      obtain ⟨h1, h2, h3⟩ := cycle_binv 20 (by decide) q z (hk z List.mem_cons_self) hq
      have hrec := ih _ h3 (fun z' h' => hk z' (List.mem_cons_of_mem _ h')) hrest
      have hnum : (PropFH.cycle q z).1.num = (q.1.execute (atHandler q z)).2.1.num := rfl
      unfold attempts
      obtain ⟨s, hs, hn, hc⟩ := execute_cases q.1 (atHandler q z)
      unfold afterHandler at hnd
      rcases hc with ⟨hd', _⟩ | ⟨_, f, ⟨hb', _⟩ | ⟨_, h0, he⟩ | ⟨_, _, _, _, he⟩ | ⟨_, h0, _, hg, he⟩ | ⟨_, h0, hst, he⟩⟩
      · exact absurd hd hd'
      · exact absurd ⟨hb1, hb2⟩ hb'
      · rw [he] at hnum
        have e0 : q.1.num.toNat = 0 := by rw [h0]; rfl
        have e1 : (PropFH.cycle q z).1.num.toNat = 1 := by rw [hnum]; rfl
        split <;> omega
      · rw [he] at hnd; exact absurd rfl hnd
      · rw [he] at hnum
        have hle := hq.2.2.2.2
        have hadd : (q.1.num + 1).toNat = q.1.num.toNat + 1 := by
          rw [BitVec.toNat_add]
          have : max 1 (20 : U32).toNat = 20 := rfl
          exact Nat.mod_eq_of_lt (by show q.1.num.toNat + 1 < 2 ^ 32; omega)
        have e1 : (PropFH.cycle q z).1.num.toNat = q.1.num.toNat + 1 := by rw [hnum]; exact hadd
        split <;> omega
      · rw [he] at hnum
        rw [if_neg (by rw [hst]; decide)]
        have e1 : (PropFH.cycle q z).1.num.toNat = q.1.num.toNat := by rw [hnum]
        omega
  have := key zs q hq hk' hb
  omega

/-! ### Concrete histories -/

set_option maxRecDepth 20000

namespace VentExample

/-- A cycle with temperature readings of tanks 2 and 1. -/
def cyc (cc : U32) (a b : Rat) (ws : List PropWrite) : PropFHCycle :=
  { before := ws, ticks := 5, after := { ticks1 := 5, writes := [], ticks2 := 5, env := { cc, functional := true, pressure := 10, temp2 := a, temp1 := b } } }

/-- Leaving startup, then `n` cycles with both tanks hot. -/
def hot (n : Nat) : List PropFHCycle := cyc 1 20 20 [.state Prp.idle] :: (List.range n).map fun i => cyc (BitVec.ofNat 32 (i + 2)) 60 60 []

/-- Start of every history. -/
def start : PropFH × Ctl := (PropFH.init, Ctl.init 10 20 20)

-- Twelve hot cycles trip both faults; the next cycles handle them with a budget of 1 and alternate between the tanks.
example : (run start (hot 12)).2.state = Prp.handlingFault ∧ (run start (hot 13)).2.state = Prp.venting ∧
    (run start (hot 13)).2.maxVent = 1 ∧ (run start (hot 13)).2.choice = .two ∧
    BothThroughout (run start (hot 12)) [cyc 14 60 60 [], cyc 15 60 60 []] ∧
    attempts (run start (hot 12)) [cyc 14 60 60 [], cyc 15 60 60 []] = 1 := by
  refine ⟨by decide +kernel, by decide +kernel, by decide +kernel, by decide +kernel, ⟨by decide +kernel, by decide +kernel, by decide +kernel,
    by decide +kernel, by decide +kernel, by decide +kernel, by decide +kernel, by decide +kernel, trivial⟩, by decide +kernel⟩

-- One tank cools: the budget is back.
example : let q := run start (hot 14 ++ [cyc 16 60 20 []])
    DealingWithFault (atHandler (cycle q (cyc 17 60 20 [])) (cyc 18 60 20 [])) ∧
    (cycle (cycle q (cyc 17 60 20 [])) (cyc 18 60 20 [])).2.maxVent = 20 := by decide +kernel

end VentExample
open VentExample

/-- C30 does not hold in full: if both tanks cool in the same cycle, the controller goes back to idle with the venting budget
left at 1. -/
theorem C30_counterexample_budget_lost : ∃ ys : List PropFHCycle,
    (∀ z ∈ ys, (∀ x, PropWrite.maxVent x ∉ z.before) ∧ (∀ x, PropWrite.maxVent x ∉ z.after.writes)) ∧
    (run start ys).2.state = Prp.idle ∧ ¬ SomeFault (run start ys).2.faults ∧ (run start ys).2.maxVent = 1 := by
  refine ⟨hot 14 ++ [cyc 16 20 20 [], cyc 17 20 20 []], ?_, by decide +kernel, by decide +kernel, by decide +kernel⟩
  intro z hz
  simp only [List.mem_append, hot, List.mem_cons, List.mem_map, List.not_mem_nil, or_false] at hz
  rcases hz with (rfl | ⟨i, _, rfl⟩) | rfl | rfl <;> constructor <;> intro x <;> simp [cyc]

/-- C30 does not hold in full: a ground command that lowers the venting budget to 5 is undone by the handler as soon as one tank
is faulted, so that venting runs with the old budget of 20. -/
theorem C30_counterexample_ground_budget_undone : ∃ ys : List PropFHCycle,
    (run start ys).2.maxVent = 5 ∧
    (cycle (cycle (run start ys) (cyc 14 60 20 [])) (cyc 15 60 20 [])).2.state = Prp.venting ∧
    (cycle (cycle (run start ys) (cyc 14 60 20 [])) (cyc 15 60 20 [])).2.maxVent = 20 :=
  ⟨cyc 1 20 20 [.state Prp.idle, ] :: cyc 2 20 20 [.maxVent 5] :: ((List.range 11).map fun i => cyc (BitVec.ofNat 32 (i + 3)) 60 20 []),
    by decide +kernel, by decide +kernel, by decide +kernel⟩

end PAN
