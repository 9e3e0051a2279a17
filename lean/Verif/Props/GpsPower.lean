import Verif.Props.WatchSys
import Verif.Props.MissionTimers

/-!
C139: the power of the GPS receiver over startup, followed from the mission manager to the commands the power supply gets.
-/

namespace PAN
open Spec

namespace Spec

/-- No other task or ground command touches the off command of the GPS receiver or the mission state. -/
def LeavesReceiver {L : Orb.Lib} (x : WatchIn L) : Prop := ∀ w : WatchSys L,
  (x.others w).gs.piksiOff = w.gs.piksiOff ∧ (x.others w).sys.mm.fh.mission = w.sys.mm.fh.mission

end Spec

/-- A cycle of the mission manager that starts in startup: it stays there and leaves the receiver's fields alone, or it leaves startup,
withdraws the off command and asks for a power cycle. -/
theorem startup_receiver (s s' : MM) (i : MMIn) (hm : s.fh.mission = Mission.startup) (he : s.execute i = some s') :
    (s'.fh.mission = Mission.startup ∧ s'.piksiOff = s.piksiOff) ∨
    (s'.fh.mission ≠ Mission.startup ∧ s'.piksiOff = false ∧ s'.piksiPowercycle = true) := by
  rw [MM.execute_dispatch s i (Or.inl hm) (Or.inl hm), hm, MM.dispatch_startup] at he
  have hmis := (MM.afterFaults_mission s i.cc).trans hm
  have hoff : (s.afterFaults i.cc).piksiOff = s.piksiOff := rfl
  generalize s.afterFaults i.cc = h at *
  unfold MM.dispatchStartup at he
  split at he
  · cases he
  split at he
  · split at he <;> cases he <;> exact Or.inl ⟨hmis, hoff⟩
  dsimp only at he
  generalize hk : (if h.fh.radio.state = Radio.disabled then _ else _ : MM) = k at he
  have hkr : k.piksiOff = false ∧ k.piksiPowercycle = true := by
    rw [← hk]
    split <;> exact ⟨rfl, rfl⟩
  obtain ⟨_, _, _, d, e⟩ := MM.hwPolled_frame k
  split at he <;> cases he
  · refine Or.inr ⟨show Mission.initializationHold ≠ Mission.startup by decide, ?_, ?_⟩
    · show k.hwPolled.piksiOff = false
      rw [d]; exact hkr.1
    · show k.hwPolled.piksiPowercycle = true
      rw [e]; exact hkr.2
  · refine Or.inr ⟨show Mission.detumble ≠ Mission.startup by decide, ?_, ?_⟩
    · show k.hwPolled.piksiOff = false
      rw [d]; exact hkr.1
    · show k.hwPolled.piksiPowercycle = true
      rw [e]; exact hkr.2

variable {L : Orb.Lib}

theorem cycle_receiver (ρ : Orb.Rounding) (s s' : Sys L) (i : SysIn L) (msgs : List (List U8)) (h : s.cycle ρ i = some (s', msgs))
    (hm : s.mm.fh.mission = Mission.startup) :
    (s'.mm.fh.mission = Mission.startup ∧ s'.mm.piksiOff = s.mm.piksiOff) ∨
    (s'.mm.fh.mission ≠ Mission.startup ∧ s'.mm.piksiOff = false ∧ s'.mm.piksiPowercycle = true) := by
  unfold Sys.cycle at h
  dsimp only at h
  split at h
  · cases h
  rename_i mm hmm
  have q := (fun a => startup_receiver _ _ _ a hmm) hm
  split at h
  · cases h
  rename_i s2 m hatt
  obtain ⟨a1, -⟩ := Sys.runAttitude_spec hatt
  have b1 : s2.mm.fh.mission = mm.fh.mission ∧ s2.mm.piksiOff = mm.piksiOff ∧ s2.mm.piksiPowercycle = mm.piksiPowercycle := by
    rw [a1]; exact ⟨rfl, rfl, rfl⟩
  split at h
  · cases h
  rename_i s3 horb
  have b3 : s3.mm.fh.mission = s2.mm.fh.mission ∧ s3.mm.piksiOff = s2.mm.piksiOff ∧ s3.mm.piksiPowercycle = s2.mm.piksiPowercycle := by
    unfold Sys.runOrbit at horb
    dsimp only at horb
    split at horb
    · cases horb
    · cases horb; exact ⟨rfl, rfl, rfl⟩
  cases h
  show (s3.mm.fh.mission = _ ∧ s3.mm.piksiOff = _) ∨ (s3.mm.fh.mission ≠ _ ∧ s3.mm.piksiOff = _ ∧ s3.mm.piksiPowercycle = _)
  rw [b3.1, b3.2.1, b3.2.2, b1.1, b1.2.1, b1.2.2]
  exact q

theorem held_off_step (ρ : Orb.Rounding) (w w' : WatchSys L) (cc : U32) (x : WatchIn L) (r : List (List U8) × List (List U8))
    (e : w.cycle ρ cc x = some (w', r)) (hx : LeavesReceiver x) (hp : w.gs.piksiOff = true)
    (hm : w.sys.mm.fh.mission = Mission.startup) (hm' : w'.sys.mm.fh.mission = Mission.startup) : w'.gs.piksiOff = true := by
  obtain ⟨v, g, h1, h2, h3, h4⟩ := cycle_before e
  have hg := (C69_receiver_held_off h1 hp fun _ => false).2.2
  obtain ⟨l1, l2⟩ := hx { w with gs := g, mon := w.mon.execute cc x.box }
  rw [← h2] at l1 l2
  rcases cycle_receiver _ _ _ _ _ h3 (l2.trans hm) with ⟨-, b⟩ | ⟨a, -⟩
  · rw [h4]
    exact b.trans (l1.trans hg)
  · exact absurd hm' a

theorem held_off (ρ : Orb.Rounding) : ∀ (xs : List (WatchIn L)) (w w' : WatchSys L) (c : Nat), w.gs.piksiOff = true →
    (∀ x ∈ xs, LeavesReceiver x) →
    (∀ k u, wrun ρ w c (xs.take k) = some u → u.sys.mm.fh.mission = Mission.startup) → wrun ρ w c xs = some w' → w'.gs.piksiOff = true := by
  intro xs
  induction xs with
  | nil => intro w w' c h _ _ e; unfold wrun at e; cases e; exact h
  | cons x xs ih =>
    intro w w' c h hx hm e
    unfold wrun at e
    split at e
    · cases e
    rename_i w1 r e1
    have h0 : w.sys.mm.fh.mission = Mission.startup := hm 0 w rfl
    have hk : ∀ k u, wrun ρ w1 (c + 1) (xs.take k) = some u → u.sys.mm.fh.mission = Mission.startup := by
      intro k u a
      refine hm (k + 1) u ?_
      rw [List.take_succ_cons]
      unfold wrun
      rw [e1]
      exact a
    exact ih w1 w' (c + 1) (held_off_step ρ w w1 _ x r e1 (hx x (List.mem_cons_self ..)) h h0 (hk 0 w1 rfl))
      (fun y hy => hx y (List.mem_cons_of_mem _ hy)) hk e

/-- From a power supply task as constructed, through any number of cycles in startup, every cycle switches the GPS receiver off, and no
cycle switches it on: also the one in which startup ends, in which the supply's task has already run. -/
theorem C139_off_in_startup (ρ : Orb.Rounding) (w w' w2 : WatchSys L) (c : Nat) (xs : List (WatchIn L)) (x : WatchIn L) (hk : Bytes)
    (r : List (List U8) × List (List U8)) (h : w.gs = Gs.init hk) (hx : ∀ x ∈ xs, LeavesReceiver x)
    (hm : ∀ k u, wrun ρ w c (xs.take k) = some u → u.sys.mm.fh.mission = Mission.startup) (e : wrun ρ w c xs = some w')
    (e2 : w'.cycle ρ (BitVec.ofNat 32 (c + xs.length)) x = some (w2, r)) (o : Nat → Bool) :
    (sent 0x0A r.1).filter (fun c => c.getD 1 0 == 0) = [[0x0A, 0, 0, 0, 0]] ∧ switchAll o r.1 0 = false := by
  obtain ⟨v, g, h1, -⟩ := cycle_before e2
  have := C69_receiver_held_off h1 (held_off ρ xs w w' c (by rw [h]; rfl) hx hm e) o
  exact ⟨this.1, this.2.1⟩

/-- When startup ends, the power supply task of the next cycle no longer holds the receiver off and has a request to cycle its power. If
that cycle is one in which it switches outputs, it switches the receiver's: on if it was last shown off, else off. Otherwise nothing is
sent to the receiver's output and the request stays; it stays too if the output was shown on. -/
theorem C139_switched_on (ρ : Orb.Rounding) (w v w1 w2 : WatchSys L) (cc cc' : U32) (x x' : WatchIn L)
    (r r' : List (List U8) × List (List U8)) (e1 : w.cycle ρ cc x = some (w1, r)) (e2 : w1.cycle ρ cc' x' = some (w2, r'))
    (hv : BeforeManager w cc x v) (hm : v.sys.mm.fh.mission = Mission.startup) (hn : w1.sys.mm.fh.mission ≠ Mission.startup)
    (hcc : cc' ≠ 1) (o : Nat → Bool) :
    ∃ g, w1.gs.execute cc' x'.gs = some (g, r'.1) ∧ g.piksiOff = false ∧
      (cc' % w1.gs.period = 0 → switchAll o r'.1 0 = !w1.gs.output 0) ∧
      (cc' % w1.gs.period ≠ 0 → switchAll o r'.1 0 = o 0) ∧
      (¬ (cc' % w1.gs.period = 0 ∧ w1.gs.output 0 = false) → g.pc 0 = true) := by
  obtain ⟨v', g, h1, h2, h3, h4⟩ := cycle_before e1
  obtain ⟨g0, out0, k1, k2⟩ := hv
  rw [h1] at k1
  obtain ⟨rfl, -⟩ := Prod.mk.inj (Option.some.inj k1)
  rw [← k2] at h2
  subst h2
  rcases cycle_receiver _ _ _ _ _ h3 hm with ⟨a, -⟩ | ⟨-, hoff, hpc⟩
  · exact absurd a hn
  have hoff : w1.gs.piksiOff = false := by rw [h4]; exact hoff
  have hpc : w1.gs.pc 0 = true := by rw [h4]; exact hpc
  obtain ⟨v2, g2, l1, -⟩ := cycle_before e2
  have hdue : 0 ∈ (w1.gs.prepare cc' x'.gs).dueChannels cc' ↔ cc' % w1.gs.period = 0 := by
    rw [Gs.mem_dueChannels _ _ 0 (by decide), Gs.prepare_period, Gs.prepare_piksiOff]
    exact ⟨fun a => a.1, fun a => ⟨a, fun _ => hoff⟩⟩
  have hno : ¬ ((0 : Nat) = 0 ∧ w1.gs.piksiOff = true) := by rw [hoff]; rintro ⟨-, a⟩; cases a
  refine ⟨g2, l1, ?_, ?_, ?_, ?_⟩
  · obtain ⟨-, a, -⟩ := Gs.execute_some l1
    rw [a]
    exact (Gs.prepare_piksiOff _ _ _).trans hoff
  · intro d
    rw [Gs.switchAll_execute l1, if_neg hno, if_pos ⟨hdue.2 d, by rw [Gs.prepare_pc _ _ _ hcc]; exact hpc⟩]
  · intro d
    rw [Gs.switchAll_execute l1, if_neg hno, if_neg fun a => d (hdue.1 a.1)]
  · intro d
    rw [Gs.execute_pc l1 hcc, if_neg (by rw [hdue]; exact d)]
    exact hpc

/-- The receiver is not held off and its power is to be cycled. -/
def MM.Wanted (t : MM) : Prop := t.piksiOff = false ∧ t.piksiPowercycle = true

theorem manager_wanted (s s' : MM) (i : MMIn) (h : s.Wanted) (he : s.execute i = some s') : s'.Wanted := by
  have ha : (s.afterFaults i.cc).Wanted := h
  rcases MM.execute_cases s i with ⟨_, _, _, e⟩ | ⟨_, _, _, _, _, _, _, e⟩ | ⟨_, _, e⟩
  · rw [e] at he; cases he; exact ha
  · rw [e] at he; cases he; exact ha
  rw [e] at he
  clear e h
  generalize s.afterFaults i.cc = t at ha he
  by_cases hm : s.fh.mission = Mission.startup
  · rw [hm, MM.dispatch_startup] at he
    unfold MM.dispatchStartup at he
    split at he
    · cases he
    split at he
    · split at he <;> cases he <;> exact ha
    dsimp only at he
    generalize hk : (if t.fh.radio.state = Radio.disabled then _ else _ : MM) = k at he
    have hkr : k.piksiOff = false ∧ k.piksiPowercycle = true := by
      rw [← hk]
      split <;> exact ⟨rfl, rfl⟩
    obtain ⟨_, _, _, d, e⟩ := MM.hwPolled_frame k
    split at he <;> cases he <;> exact ⟨d.trans hkr.1, e.trans hkr.2⟩
  unfold MM.dispatch at he
  rw [if_neg hm] at he
  split at he
  · cases he; unfold MM.dispatchDetumble; split_ifs <;> exact ha
  split at he
  · cases he; exact ha
  split at he
  · cases he; unfold MM.dispatchStandby; split_ifs <;> exact ha
  split at he
  · cases he; unfold MM.dispatchFar; split_ifs <;> exact ha
  split at he
  · cases he; unfold MM.dispatchFar; split_ifs <;> exact ha
  split at he
  · cases he; unfold MM.dispatchClose; split_ifs <;> exact ha
  split at he
  · cases he; unfold MM.dispatchDocking; dsimp only; split_ifs <;> exact ha
  split at he
  · cases he; exact ha
  split at he
  · cases he; unfold MM.dispatchSafehold; split_ifs <;> exact ha
  split at he
  · cases he; exact ha
  · cases he; exact ha

theorem cycle_wanted (ρ : Orb.Rounding) (s s' : Sys L) (i : SysIn L) (msgs : List (List U8)) (h : s.cycle ρ i = some (s', msgs))
    (hw : s.mm.Wanted) : s'.mm.Wanted := by
  unfold Sys.cycle at h
  dsimp only at h
  split at h
  · cases h
  rename_i mm hmm
  have q := (fun a => manager_wanted _ _ _ a hmm) hw
  split at h
  · cases h
  rename_i s2 m hatt
  obtain ⟨a1, -⟩ := Sys.runAttitude_spec hatt
  have b1 : s2.mm.Wanted := by rw [a1]; exact q
  split at h
  · cases h
  rename_i s3 horb
  have b3 : s3.mm.Wanted := by
    unfold Sys.runOrbit at horb
    dsimp only at horb
    split at horb
    · cases horb
    · cases horb; exact b1
  cases h
  exact b3

namespace Spec

/-- No other task or ground command touches the receiver's off command, the request for its output or the period of the switching. -/
def LeavesReceiverPower {L : Orb.Lib} (x : WatchIn L) : Prop := ∀ w : WatchSys L,
  (x.others w).gs.piksiOff = w.gs.piksiOff ∧ (x.others w).gs.pc 0 = w.gs.pc 0 ∧ (x.others w).gs.period = w.gs.period

end Spec

theorem small_toNat (c : Nat) (h : c < 2 ^ 32) : (BitVec.ofNat 32 c).toNat = c := by
  rw [BitVec.toNat_ofNat]
  exact Nat.mod_eq_of_lt h

theorem small_ne_one (c : Nat) (h : c < 2 ^ 32) (hc : 1 < c) : BitVec.ofNat 32 c ≠ 1 := by
  intro a
  have := congrArg BitVec.toNat a
  rw [small_toNat c h] at this
  have t : (1 : U32).toNat = 1 := rfl
  omega

theorem receiver_request_stays (ρ : Orb.Rounding) (P : U32) : ∀ (xs : List (WatchIn L)) (w w' : WatchSys L) (c : Nat),
    w.gs.piksiOff = false → w.gs.pc 0 = true → w.gs.period = P → 1 < c → c + xs.length < 2 ^ 32 → (∀ x ∈ xs, LeavesReceiverPower x) →
    (∀ k < xs.length, (c + k) % P.toNat ≠ 0) → wrun ρ w c xs = some w' →
    w'.gs.piksiOff = false ∧ w'.gs.pc 0 = true ∧ w'.gs.period = P := by
  intro xs
  induction xs with
  | nil => intro w w' c h0 h p _ _ _ _ e; unfold wrun at e; cases e; exact ⟨h0, h, p⟩
  | cons x xs ih =>
    intro w w' c h0 h p hc hl hx hk e
    unfold wrun at e
    split at e
    · cases e
    rename_i w1 r e1
    rw [List.length_cons] at hl
    obtain ⟨v, g, h1, h2, h3, h4⟩ := cycle_before e1
    have hcs : c < 2 ^ 32 := by omega
    have hnd : ¬ BitVec.ofNat 32 c % P = 0 := by
      intro a
      have := congrArg BitVec.toNat a
      rw [BitVec.toNat_umod, small_toNat c hcs] at this
      exact hk 0 (by simp) this
    have hg : g.pc 0 = true := by
      rw [Gs.execute_pc h1 (small_ne_one c hcs hc), if_neg]
      · exact h
      · rintro ⟨a, -⟩
        rw [Gs.mem_dueChannels _ _ 0 (by decide), Gs.prepare_period, p] at a
        exact hnd a.1
    have hgp : g.period = P ∧ g.piksiOff = false := by
      obtain ⟨-, a, -⟩ := Gs.execute_some h1
      rw [a]
      exact ⟨(Gs.prepare_period _ _ _).trans p, (Gs.prepare_piksiOff _ _ _).trans h0⟩
    obtain ⟨l0, l1, l2⟩ := hx x (List.mem_cons_self ..) { w with gs := g, mon := w.mon.execute (BitVec.ofNat 32 c) x.box }
    rw [← h2] at l0 l1 l2
    have hq := cycle_wanted _ _ _ _ _ h3 ⟨l0.trans hgp.2, l1.trans hg⟩
    refine ih w1 w' (c + 1) (by rw [h4]; exact hq.1) (by rw [h4]; exact hq.2) (by rw [h4]; exact l2.trans hgp.1) (by omega) (by omega)
      (fun y hy => hx y (List.mem_cons_of_mem _ hy)) ?_ e
    intro k hk'
    have := hk (k + 1) (by rw [List.length_cons]; omega)
    rwa [show c + 1 + k = c + (k + 1) by omega]

/-- The request of `C139_switched_on` is not lost: in the next cycle in which the supply's task switches outputs, however many cycles later
and whatever the faults and the mission states in between, the receiver's output is switched on (if it is shown off; else off). -/
theorem C139_not_lost (ρ : Orb.Rounding) (w w' w2 : WatchSys L) (c : Nat) (xs : List (WatchIn L)) (x : WatchIn L)
    (r : List (List U8) × List (List U8)) (h0 : w.gs.piksiOff = false) (h : w.gs.pc 0 = true) (hc : 1 < c) (hl : c + xs.length < 2 ^ 32)
    (hx : ∀ x ∈ xs, LeavesReceiverPower x) (hk : ∀ k < xs.length, (c + k) % w.gs.period.toNat ≠ 0) (e : wrun ρ w c xs = some w')
    (hd : (c + xs.length) % w.gs.period.toNat = 0) (e2 : w'.cycle ρ (BitVec.ofNat 32 (c + xs.length)) x = some (w2, r)) (o : Nat → Bool) :
    switchAll o r.1 0 = !w'.gs.output 0 := by
  obtain ⟨s0, s1, s2⟩ := receiver_request_stays ρ _ xs w w' c h0 h rfl hc hl hx hk e
  obtain ⟨v, g, h1, -⟩ := cycle_before e2
  have hdue : BitVec.ofNat 32 (c + xs.length) % w.gs.period = 0 := by
    apply BitVec.eq_of_toNat_eq
    rw [BitVec.toNat_umod, small_toNat _ hl, hd]
    rfl
  rw [Gs.switchAll_execute h1, if_neg (by rw [s0]; rintro ⟨-, a⟩; cases a), if_pos]
  refine ⟨?_, by rw [Gs.prepare_pc _ _ _ (small_ne_one _ hl (by omega))]; exact s1⟩
  rw [Gs.mem_dueChannels _ _ 0 (by decide), Gs.prepare_period, Gs.prepare_piksiOff, s2]
  exact ⟨hdue, fun _ => s0⟩

/-! ### The hypotheses are met -/

/-- A satellite at the end of its wait after deployment. -/
def Spec.waiting0 : WatchSys toyOrb :=
  { watched0 with
    sys := { watched0.sys with mm := { watched0.sys.mm with
      elapsed := BitVec.ofNat 8 (MM.batchThresh - 1), fh := { watched0.sys.mm.fh with mission := Mission.startup } } } }

/-- In cycles 10698 and 10699 it is in startup, in cycle 10700 the wait ends and in cycle 10701 startup. -/
example : waiting0.gs = (Gs.init fun _ => 0) ∧ LeavesReceiver fullIn := ⟨rfl, fun _ => ⟨rfl, rfl⟩⟩
example : ∀ k ≤ 3, ((wrun PAN.exact waiting0 10698 (List.replicate k fullIn)).map fun u => u.sys.mm.fh.mission) = some Mission.startup := by
  decide +kernel
example : ((wrun PAN.exact waiting0 10698 (List.replicate 4 fullIn)).map fun u =>
    (decide (u.sys.mm.fh.mission = Mission.startup), u.gs.piksiOff, u.gs.pc 0, u.gs.output 0, u.gs.period)) =
    some (false, false, true, false, 176) := by decide +kernel

/-- The hypotheses of `C139_not_lost` are met: the request raised in cycle 10701 is still there after cycle 10735, and 10736 is a multiple
of the period. -/
example : LeavesReceiverPower fullIn := fun _ => ⟨rfl, rfl, rfl⟩
example : ((wrun PAN.exact waiting0 10698 (List.replicate 38 fullIn)).map fun u => (u.gs.piksiOff, u.gs.pc 0, u.gs.output 0)) =
    some (false, true, false) ∧ (∀ k < 34, (10702 + k) % 176 ≠ 0) ∧ (10702 + 34) % 176 = 0 := by decide +kernel

end PAN
