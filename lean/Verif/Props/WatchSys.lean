import Verif.Model.WatchSys
import Verif.Props.CommandedSafehold
import Verif.Props.Power

/-!
C129: a battery that is low, or a wheel device that is lost, for two control cycles shuts the actuators down in the next cycle:
power supply and box, the tasks that watch them, the faults, the fault handlers, the mission manager and the actuator tasks together.
-/
namespace PAN
namespace Spec

/-- Any number of control cycles, the first of them number `c`. -/
def wrun {L : Orb.Lib} (ρ : Orb.Rounding) (w : WatchSys L) (c : Nat) : List (WatchIn L) → Option (WatchSys L)
  | [] => some w
  | x :: xs =>
    match w.cycle ρ (BitVec.ofNat 32 c) x with
    | none => none
    | some (w', _) => wrun ρ w' (c + 1) xs

/-- The faults the mission manager answers with safehold, as constructed: two reports in a row are needed
(src/fsw/FCCode/GomspaceController.cpp:10, src/fsw/FCCode/ADCSBoxMonitor.cpp:60-64). -/
def FreshFaults {L : Orb.Lib} (w : WatchSys L) : Prop :=
  w.gs.lowBatt = Fault.init 1 ∧ w.mon.wheel1Fault = Fault.init 1 ∧ w.mon.wheel2Fault = Fault.init 1 ∧
    w.mon.wheel3Fault = Fault.init 1 ∧ w.mon.potFault = Fault.init 1

/-- Nobody commands these faults (overrides, suppresses, changes their persistence). -/
def LeavesFaults {L : Orb.Lib} (x : WatchIn L) : Prop := ∀ w : WatchSys L,
  (x.others w).gs.lowBatt = w.gs.lowBatt ∧ (x.others w).mon.wheel1Fault = w.mon.wheel1Fault ∧
    (x.others w).mon.wheel2Fault = w.mon.wheel2Fault ∧ (x.others w).mon.wheel3Fault = w.mon.wheel3Fault ∧
    (x.others w).mon.potFault = w.mon.potFault

/-- Nobody commands the mission state or switches fault handling on or off in this cycle. -/
def LeavesMission {L : Orb.Lib} (x : WatchIn L) : Prop := ∀ w : WatchSys L,
  (x.others w).sys.mm.fh.mission = w.sys.mm.fh.mission ∧ (x.others w).sys.mm.fh.enabled = w.sys.mm.fh.enabled

/-- No other task writes the housekeeping data the power supply task has published. -/
def LeavesHousekeeping {L : Orb.Lib} (x : WatchIn L) : Prop := ∀ w : WatchSys L, (x.others w).gs.pub = w.gs.pub

/-- The state in which the mission manager starts in a cycle: the supply and the box have been read and the other tasks have run. -/
def BeforeManager {L : Orb.Lib} (w : WatchSys L) (cc : U32) (x : WatchIn L) (v : WatchSys L) : Prop :=
  ∃ g out, w.gs.execute cc x.gs = some (g, out) ∧ v = x.others { w with gs := g, mon := w.mon.execute cc x.box }

end Spec
open Spec ADCS

/-- `f'` is `f` after it has been asked for any number of times. -/
def Fault.Asked (f f' : Fault) : Prop := ∃ k, f' = Fault.poll^[k] f

namespace Fault.Asked

theorem rfl' (f : Fault) : f.Asked f := ⟨0, rfl⟩

theorem poll {f g : Fault} (h : f.Asked g) : f.Asked g.poll := by
  obtain ⟨k, rfl⟩ := h
  exact ⟨k + 1, by rw [Function.iterate_succ_apply']⟩

theorem simple {f g : Fault} (h : f.Asked g) (l : Nat) (r : Resp) (m : U8) : f.Asked (SimpleFH.execute l r m g).2 := by
  unfold SimpleFH.execute
  split
  · exact h.poll
  · exact h

end Fault.Asked

/-- The five faults of one state are those of another, asked for any number of times. -/
def FHState.AskedFrom (s t : FHState) : Prop :=
  s.lowBatt.Asked t.lowBatt ∧ s.wheel1.Asked t.wheel1 ∧ s.wheel2.Asked t.wheel2 ∧ s.wheel3.Asked t.wheel3 ∧
    s.wheelPot.Asked t.wheelPot

theorem FHState.AskedFrom.refl (s : FHState) : s.AskedFrom s :=
  ⟨.rfl' _, .rfl' _, .rfl' _, .rfl' _, .rfl' _⟩

theorem handlers_asked (s : FHState) (cc : U32) : s.AskedFrom (s.execute cc).2 := by
  unfold FHState.execute MainFH.execute
  split
  · exact .refl s
  · refine mainLoop_inv (fun t : FHState => s.AskedFrom t) _ ?_ _ _ (.refl s)
    intro m hm t ht
    obtain ⟨a, b, c, d, e⟩ := ht
    simp only [FHState.handlers, List.mem_cons, List.not_mem_nil, or_false] at hm
    rcases hm with rfl | rfl | rfl | rfl | rfl | rfl | rfl | rfl | rfl | rfl
    · exact ⟨a.simple 0 .safehold t.mission, b, c, d, e⟩
    · exact ⟨a, b.simple 1 .safehold t.mission, c, d, e⟩
    · exact ⟨a, b, c.simple 1 .safehold t.mission, d, e⟩
    · exact ⟨a, b, c, d.simple 1 .safehold t.mission, e⟩
    · exact ⟨a, b, c, d, e.simple 1 .safehold t.mission⟩
    all_goals exact ⟨a, b, c, d, e⟩

theorem hwPolled_asked (s : FHState) (t : MM) (h : s.AskedFrom t.fh) : s.AskedFrom t.hwPolled.fh := by
  obtain ⟨a, b, c, d, e⟩ := h
  unfold MM.hwPolled
  dsimp only
  split
  · exact ⟨a, b, c, d, e⟩
  split
  · exact ⟨a, b.poll, c, d, e⟩
  split
  · exact ⟨a, b.poll, c.poll, d, e⟩
  split
  · exact ⟨a, b.poll, c.poll, d.poll, e⟩
  · exact ⟨a, b.poll, c.poll, d.poll, e.poll⟩

theorem startup_asked (s : FHState) (t t' : MM) (i : MMIn) (h : s.AskedFrom t.fh) (he : t.dispatchStartup i = some t') :
    s.AskedFrom t'.fh := by
  unfold MM.dispatchStartup at he
  dsimp only at he
  split at he
  · cases he
  split at he
  · split at he <;> (cases he; exact h)
  have hk : ∀ k : MM, s.AskedFrom k.fh → s.AskedFrom k.hwPolled.fh := fun k => hwPolled_asked s k
  generalize hq : (if t.fh.radio.state = Radio.disabled then _ else _ : MM) = k at he
  have hkf : s.AskedFrom k.fh := by rw [← hq]; split <;> exact h
  split at he <;> (cases he; exact hk k hkf)

theorem dispatch_asked (s : FHState) (t t' : MM) (i : MMIn) (m : U8) (h : s.AskedFrom t.fh) (he : t.dispatch i m = some t') :
    s.AskedFrom t'.fh := by
  unfold MM.dispatch at he
  split at he
  · exact startup_asked s t t' i h he
  split at he
  · cases he; unfold MM.dispatchDetumble; split_ifs <;> exact h
  split at he
  · cases he; exact h
  split at he
  · cases he; unfold MM.dispatchStandby; split_ifs <;> exact h
  split at he
  · cases he; unfold MM.dispatchFar; split_ifs <;> exact h
  split at he
  · cases he; unfold MM.dispatchFar; split_ifs <;> exact h
  split at he
  · cases he; unfold MM.dispatchClose; split_ifs <;> exact h
  split at he
  · cases he; unfold MM.dispatchDocking; dsimp only; split_ifs <;> exact h
  split at he
  · cases he; exact h
  split at he
  · cases he; unfold MM.dispatchSafehold; split_ifs <;> exact h
  split at he
  · cases he; exact h
  · cases he; exact h

theorem manager_asked (s s' : MM) (i : MMIn) (he : s.execute i = some s') : s.fh.AskedFrom s'.fh := by
  have ha : s.fh.AskedFrom (s.afterFaults i.cc).fh := handlers_asked s.fh i.cc
  rcases MM.execute_cases s i with ⟨_, _, _, e⟩ | ⟨_, _, _, _, _, _, _, e⟩ | ⟨_, _, e⟩
  · rw [e] at he; cases he; exact ha
  · rw [e] at he; cases he; exact ha
  · rw [e] at he; exact dispatch_asked _ _ _ _ _ ha he

variable {L : Orb.Lib}

theorem cycle_asked (ρ : Orb.Rounding) (s s' : Sys L) (i : SysIn L) (msgs : List (List U8))
    (h : s.cycle ρ i = some (s', msgs)) : s.mm.fh.AskedFrom s'.mm.fh := by
  unfold Sys.cycle at h
  dsimp only at h
  split at h
  · cases h
  rename_i mm hmm
  have ha : s.mm.fh.AskedFrom mm.fh := by
    have hq := manager_asked _ _ _ hmm
    exact hq
  split at h
  · cases h
  rename_i s2 m hatt
  obtain ⟨a1, -⟩ := Sys.runAttitude_spec hatt
  have b1 : s2.mm.fh = mm.fh := by rw [a1]; exact (Sys.runDcdc_mm _).1
  split at h
  · cases h
  rename_i s3 horb
  have b3 : s2.mm.fh.AskedFrom s3.mm.fh := by
    unfold Sys.runOrbit at horb
    dsimp only at horb
    split at horb
    · cases horb
    · cases horb; exact .refl s2.mm.fh
  cases h
  rw [b1] at b3
  obtain ⟨⟨k1, e1⟩, ⟨k2, e2⟩, ⟨k3, e3⟩, ⟨k4, e4⟩, ⟨k5, e5⟩⟩ := ha
  obtain ⟨⟨l1, f1⟩, ⟨l2, f2⟩, ⟨l3, f3⟩, ⟨l4, f4⟩, ⟨l5, f5⟩⟩ := b3
  refine ⟨⟨l1 + k1, ?_⟩, ⟨l2 + k2, ?_⟩, ⟨l3 + k3, ?_⟩, ⟨l4 + k4, ?_⟩, ⟨l5 + k5, ?_⟩⟩
  · rw [Function.iterate_add_apply, ← e1]; exact f1
  · rw [Function.iterate_add_apply, ← e2]; exact f2
  · rw [Function.iterate_add_apply, ← e3]; exact f3
  · rw [Function.iterate_add_apply, ← e4]; exact f4
  · rw [Function.iterate_add_apply, ← e5]; exact f5

open Spec.BatteryHistory in
theorem asked_inv {f g : Fault} {c m : Nat} (h : f.Asked g) (hi : Inv f c m) : Inv g c m ∧ g.num = f.num := by
  obtain ⟨k, rfl⟩ := h
  induction k with
  | zero => exact ⟨hi, rfl⟩
  | succ k ih =>
    obtain ⟨⟨q, p, l, n⟩, e⟩ := ih
    rw [Function.iterate_succ_apply']
    obtain ⟨h1, h2⟩ := Fault.quiet_poll_num q
    obtain ⟨h3, h4⟩ := Fault.quiet_step q (op := .poll) rfl
    exact ⟨⟨h3, h4.trans p, by rw [h2]; exact l, by rw [h1]; exact n⟩, h1.trans e⟩

/-- One of the watched faults: where it is, and what it is evaluated on. -/
structure Watched (L : Orb.Lib) where
  fault : WatchSys L → Fault
  bad : WatchSys L → Bool
  seen : FHState → Fault
  evaluated : ∀ (w : WatchSys L) (cc : U32) (i : GsIn) (d : BoxData) (g : Gs) (out : List (List U8)), w.gs.execute cc i = some (g, out) →
    fault { w with gs := g, mon := w.mon.execute cc d } = (fault w).evaluate cc (bad w)
  shared : ∀ w : WatchSys L, seen w.forManager.mm.fh = fault w
  back : ∀ (w : WatchSys L) (s : Sys L), fault (w.fromManager s) = seen s.mm.fh
  asked : ∀ s t : FHState, s.AskedFrom t → (seen s).Asked (seen t)
  left : ∀ x : WatchIn L, LeavesFaults x → ∀ w, fault (x.others w) = fault w
  fresh : ∀ w : WatchSys L, FreshFaults w → fault w = Fault.init 1

namespace Watched

/-- The low battery fault. -/
def battery (L : Orb.Lib) : Watched L where
  fault w := w.gs.lowBatt
  bad w := decide (w.gs.vbatt < w.gs.threshold)
  seen s := s.lowBatt
  evaluated w cc i d g out h := Gs.execute_lowBatt h
  shared _ := rfl
  back _ _ := rfl
  asked _ _ h := h.1
  left _ h w := (h w).1
  fresh _ h := h.1

/-- The fault of the first wheel's converter. -/
def wheel1 (L : Orb.Lib) : Watched L where
  fault w := w.mon.wheel1Fault
  bad w := w.mon.havt 10 == false
  seen s := s.wheel1
  evaluated _ _ _ _ _ _ _ := rfl
  shared _ := rfl
  back _ _ := rfl
  asked _ _ h := h.2.1
  left _ h w := (h w).2.1
  fresh _ h := h.2.1

/-- The fault of the second wheel's converter. -/
def wheel2 (L : Orb.Lib) : Watched L where
  fault w := w.mon.wheel2Fault
  bad w := w.mon.havt 11 == false
  seen s := s.wheel2
  evaluated _ _ _ _ _ _ _ := rfl
  shared _ := rfl
  back _ _ := rfl
  asked _ _ h := h.2.2.1
  left _ h w := (h w).2.2.1
  fresh _ h := h.2.2.1

/-- The fault of the third wheel's converter. -/
def wheel3 (L : Orb.Lib) : Watched L where
  fault w := w.mon.wheel3Fault
  bad w := w.mon.havt 12 == false
  seen s := s.wheel3
  evaluated _ _ _ _ _ _ _ := rfl
  shared _ := rfl
  back _ _ := rfl
  asked _ _ h := h.2.2.2.1
  left _ h w := (h w).2.2.2.1
  fresh _ h := h.2.2.2.1

/-- The fault of the wheels' potentiometer. -/
def pot (L : Orb.Lib) : Watched L where
  fault w := w.mon.potFault
  bad w := w.mon.havt 6 == false
  seen s := s.wheelPot
  evaluated _ _ _ _ _ _ _ := rfl
  shared _ := rfl
  back _ _ := rfl
  asked _ _ h := h.2.2.2.2
  left _ h w := (h w).2.2.2.2
  fresh _ h := h.2.2.2.2

open Spec.BatteryHistory

/-- What the mission manager finds in a cycle, and what is left of it. -/
theorem step (W : Watched L) {ρ : Orb.Rounding} {w w' : WatchSys L} {c m : Nat} {x : WatchIn L} {r : List (List U8) × List (List U8)}
    (hc : c < 2 ^ 32) (hm : m < 2 ^ 32 - 1) (hx : LeavesFaults x) (hi : Inv (W.fault w) c m)
    (h : w.cycle ρ (BitVec.ofNat 32 c) x = some (w', r)) :
    Inv (W.fault w') (c + 1) (m + 1) ∧ (W.fault w').num.toNat = (if W.bad w then (W.fault w).num.toNat + 1 else 0) ∧
    ∃ v g out, w.gs.execute (BitVec.ofNat 32 c) x.gs = some (g, out) ∧
      v = x.others { w with gs := g, mon := w.mon.execute (BitVec.ofNat 32 c) x.box } ∧
      v.forManager.cycle ρ { x.sys with mm := { x.sys.mm with cc := BitVec.ofNat 32 c } } = some (w'.sys, r.2) ∧
      Inv (W.seen v.forManager.mm.fh) (c + 1) (m + 1) ∧
      (W.seen v.forManager.mm.fh).num.toNat = (if W.bad w then (W.fault w).num.toNat + 1 else 0) := by
  unfold WatchSys.cycle at h
  split at h
  · cases h
  rename_i g out hg
  dsimp only at h
  obtain ⟨v, hv⟩ : ∃ v, v = x.others { w with gs := g, mon := w.mon.execute (BitVec.ofNat 32 c) x.box } := ⟨_, rfl⟩
  rw [← hv] at h
  split at h
  · cases h
  rename_i s msgs hs
  have h' := Option.some.inj h
  have e1 := congrArg (·.1) h'
  have e2 := congrArg (·.2) h'
  dsimp only at e1 e2
  subst e1 e2
  have hf : W.fault v = (W.fault w).evaluate (BitVec.ofNat 32 c) (W.bad w) := by
    rw [hv, W.left x hx, W.evaluated w _ _ x.box g out hg]
  obtain ⟨i1, n1⟩ := inv_step hi (W.bad w) hc hm (Or.inl hf)
  have i2 := i1
  have n2 := n1
  rw [← W.shared v] at i2 n2
  obtain ⟨i3, n3⟩ := asked_inv (W.asked _ _ (cycle_asked ρ _ _ _ _ hs)) i2
  refine ⟨?_, ?_, v, g, out, hg, hv, hs, i2, n2⟩
  · rw [W.back]; exact i3
  · rw [W.back, n3]; exact n2

theorem run_inv (W : Watched L) {ρ : Orb.Rounding} (xs : List (WatchIn L)) : ∀ {w w' : WatchSys L} {c m : Nat}, c + xs.length ≤ 2 ^ 32 →
    m + xs.length < 2 ^ 32 → (∀ x ∈ xs, LeavesFaults x) → Inv (W.fault w) c m → wrun ρ w c xs = some w' →
    Inv (W.fault w') (c + xs.length) (m + xs.length) := by
  induction xs with
  | nil => intro w w' c m _ _ _ hi h; cases h; exact hi
  | cons x xs ih =>
    intro w w' c m hc hm hx hi h
    rw [List.length_cons] at hc hm ⊢
    unfold wrun at h
    split at h
    · cases h
    rename_i w1 r h1
    obtain ⟨i1, -⟩ := W.step (by omega) (by omega) (hx x (by simp)) hi h1
    have := ih (c := c + 1) (m := m + 1) (by omega) (by omega) (fun y hy => hx y (by simp [hy])) i1 h
    rw [show c + (xs.length + 1) = c + 1 + xs.length by omega, show m + (xs.length + 1) = m + 1 + xs.length by omega]
    exact this

/-- Two bad cycles after any history: the mission manager of the next cycle finds the fault raised. -/
theorem raised (W : Watched L) {ρ : Orb.Rounding} {w0 w1 w2 w3 : WatchSys L} {c0 : Nat} {xs : List (WatchIn L)} {x2 x3 : WatchIn L}
    {r2 r3 : List (List U8) × List (List U8)}
    (hc : 1 ≤ c0) (hn : c0 + xs.length + 2 < 2 ^ 32) (hw : FreshFaults w0) (hx : ∀ x ∈ xs, LeavesFaults x)
    (h2 : LeavesFaults x2) (h3 : LeavesFaults x3) (e1 : wrun ρ w0 c0 xs = some w1)
    (e2 : w1.cycle ρ (BitVec.ofNat 32 (c0 + xs.length)) x2 = some (w2, r2))
    (e3 : w2.cycle ρ (BitVec.ofNat 32 (c0 + xs.length + 1)) x3 = some (w3, r3)) (b1 : W.bad w1 = true) (b2 : W.bad w2 = true) :
    ∃ v g out, w2.gs.execute (BitVec.ofNat 32 (c0 + xs.length + 1)) x3.gs = some (g, out) ∧
      v = x3.others { w2 with gs := g, mon := w2.mon.execute (BitVec.ofNat 32 (c0 + xs.length + 1)) x3.box } ∧
      v.forManager.cycle ρ { x3.sys with mm := { x3.sys.mm with cc := BitVec.ofNat 32 (c0 + xs.length + 1) } } = some (w3.sys, r3.2) ∧
      (W.seen v.forManager.mm.fh).isFaulted = true := by
  have i0 : Inv (W.fault w0) c0 0 := by
    rw [W.fresh w0 hw]
    exact ⟨⟨rfl, rfl, rfl⟩, rfl, by show 0 < c0; omega, Nat.le_refl _⟩
  have i1 := W.run_inv xs (by omega) (by omega) hx i0 e1
  obtain ⟨i2, n2, -⟩ := W.step (by omega) (by omega) h2 i1 e2
  rw [if_pos b1] at n2
  obtain ⟨-, -, v, g, out, k1, k2, k3, ⟨q, p, -, -⟩, n3⟩ := W.step (by omega) (by omega) h3 i2 e3
  rw [if_pos b2] at n3
  refine ⟨v, g, out, k1, k2, k3, ?_⟩
  rw [Fault.quiet_isFaulted q, p, decide_eq_true_iff]
  show (1 : U32) < _
  rw [BitVec.lt_def, n3]
  show 1 < _
  omega

end Watched

/-! ### C129 -/

/-- After any history of control cycles since the computer started: if the published battery voltage is below the threshold at the end
of two cycles in a row, the next cycle shuts the actuators down, whatever they were doing, if the mission state is one in which the
battery is acted upon and the ground leaves the fault, the mission state and fault handling alone. -/
theorem C129_low_battery_partial (ρ : Orb.Rounding) (w0 w1 w2 w3 : WatchSys L) (c0 : Nat) (xs : List (WatchIn L)) (x2 x3 : WatchIn L)
    (r2 r3 : List (List U8) × List (List U8)) (hc : 1 ≤ c0) (hn : c0 + xs.length + 2 < 2 ^ 32) (hw : FreshFaults w0)
    (hx : ∀ x ∈ xs, LeavesFaults x) (h2 : LeavesFaults x2) (h3 : LeavesFaults x3) (h3' : LeavesMission x3)
    (e1 : wrun ρ w0 c0 xs = some w1) (e2 : w1.cycle ρ (BitVec.ofNat 32 (c0 + xs.length)) x2 = some (w2, r2))
    (e3 : w2.cycle ρ (BitVec.ofNat 32 (c0 + xs.length + 1)) x3 = some (w3, r3))
    (low1 : w1.gs.vbatt < w1.gs.threshold) (low2 : w2.gs.vbatt < w2.gs.threshold)
    (hm : Active 0 w2.sys.mm.fh.mission) (he : w2.sys.mm.fh.enabled = true) :
    ShutDown w3.sys ∧ CommandsPassive r3.2 := by
  obtain ⟨v, g, out, k1, k2, k3, k4⟩ := (Watched.battery L).raised hc hn hw hx h2 h3 e1 e2 e3 (decide_eq_true low1) (decide_eq_true low2)
  have m1 : v.forManager.mm.fh.mission = w2.sys.mm.fh.mission := by rw [k2]; exact (h3' _).1
  have m2 : v.forManager.mm.fh.enabled = w2.sys.mm.fh.enabled := by rw [k2]; exact (h3' _).2
  refine C56_shutdown ρ v.forManager w3.sys _ r3.2 ?_ ?_ ⟨m2.trans he, Or.inl ⟨by rw [m1]; exact hm, k4⟩⟩ k3
  · rw [m1]; exact hm.2.1
  · rw [m1]; exact hm.2.2.2.2.1

/-- The same for the devices of the wheels: the converters of the three wheels (10, 11, 12) and the potentiometer (6), if the box has
listed one of them as out of service in two cycles in a row. -/
theorem C129_lost_wheel_partial (ρ : Orb.Rounding) (w0 w1 w2 w3 : WatchSys L) (c0 : Nat) (xs : List (WatchIn L)) (x2 x3 : WatchIn L)
    (r2 r3 : List (List U8) × List (List U8)) (hc : 1 ≤ c0) (hn : c0 + xs.length + 2 < 2 ^ 32) (hw : FreshFaults w0)
    (hx : ∀ x ∈ xs, LeavesFaults x) (h2 : LeavesFaults x2) (h3 : LeavesFaults x3) (h3' : LeavesMission x3)
    (e1 : wrun ρ w0 c0 xs = some w1) (e2 : w1.cycle ρ (BitVec.ofNat 32 (c0 + xs.length)) x2 = some (w2, r2))
    (e3 : w2.cycle ρ (BitVec.ofNat 32 (c0 + xs.length + 1)) x3 = some (w3, r3)) (d : Nat) (hd : d ∈ [6, 10, 11, 12])
    (lost1 : w1.mon.havt d = false) (lost2 : w2.mon.havt d = false)
    (hm : Active 1 w2.sys.mm.fh.mission) (he : w2.sys.mm.fh.enabled = true) :
    ShutDown w3.sys ∧ CommandsPassive r3.2 := by
  have key : ∀ (W : Watched L), W.bad w1 = true → W.bad w2 = true →
      (∀ s : FHState, (W.seen s).isFaulted = true → s.wheel1.isFaulted = true ∨ s.wheel2.isFaulted = true ∨ s.wheel3.isFaulted = true ∨
        s.wheelPot.isFaulted = true) → ShutDown w3.sys ∧ CommandsPassive r3.2 := by
    intro W b1 b2 hs
    obtain ⟨v, g, out, k1, k2, k3, k4⟩ := W.raised hc hn hw hx h2 h3 e1 e2 e3 b1 b2
    have m1 : v.forManager.mm.fh.mission = w2.sys.mm.fh.mission := by rw [k2]; exact (h3' _).1
    have m2 : v.forManager.mm.fh.enabled = w2.sys.mm.fh.enabled := by rw [k2]; exact (h3' _).2
    refine C56_shutdown ρ v.forManager w3.sys _ r3.2 ?_ ?_
      ⟨m2.trans he, Or.inr (Or.inl ⟨by rw [m1]; exact hm, hs _ k4⟩)⟩ k3
    · rw [m1]; exact hm.2.1
    · rw [m1]; exact hm.2.2.2.2.1
  simp only [List.mem_cons, List.not_mem_nil, or_false] at hd
  rcases hd with rfl | rfl | rfl | rfl
  · exact key (Watched.pot L) (by show (_ == false) = true; rw [lost1]; rfl) (by show (_ == false) = true; rw [lost2]; rfl)
      fun s h => Or.inr (Or.inr (Or.inr h))
  · exact key (Watched.wheel1 L) (by show (_ == false) = true; rw [lost1]; rfl) (by show (_ == false) = true; rw [lost2]; rfl)
      fun s h => Or.inl h
  · exact key (Watched.wheel2 L) (by show (_ == false) = true; rw [lost1]; rfl) (by show (_ == false) = true; rw [lost2]; rfl)
      fun s h => Or.inr (Or.inl h)
  · exact key (Watched.wheel3 L) (by show (_ == false) = true; rw [lost1]; rfl) (by show (_ == false) = true; rw [lost2]; rfl)
      fun s h => Or.inr (Or.inr (Or.inl h))

theorem cycle_before {ρ : Orb.Rounding} {w w' : WatchSys L} {cc : U32} {x : WatchIn L} {r : List (List U8) × List (List U8)}
    (h : w.cycle ρ cc x = some (w', r)) : ∃ v g, w.gs.execute cc x.gs = some (g, r.1) ∧
      v = x.others { w with gs := g, mon := w.mon.execute cc x.box } ∧
      v.forManager.cycle ρ { x.sys with mm := { x.sys.mm with cc := cc } } = some (w'.sys, r.2) ∧ w' = v.fromManager w'.sys := by
  unfold WatchSys.cycle at h
  split at h
  · cases h
  rename_i g out hg
  dsimp only at h
  obtain ⟨v, hv⟩ : ∃ v, v = x.others { w with gs := g, mon := w.mon.execute cc x.box } := ⟨_, rfl⟩
  rw [← hv] at h
  split at h
  · cases h
  rename_i s msgs hs
  cases h
  exact ⟨v, g, hg, hv, hs, rfl⟩

/-- What the supply has answered is what is published at the end of the cycle. -/
theorem cycle_vbatt {ρ : Orb.Rounding} {w w' : WatchSys L} {cc : U32} {x : WatchIn L} {r : List (List U8) × List (List U8)}
    (h : w.cycle ρ cc x = some (w', r)) (hx : LeavesHousekeeping x) (ok : GoodAnswer x.gs.hk) :
    w'.gs.vbatt = (be16 (data x.gs.hk) 6).setWidth 32 := by
  obtain ⟨v, g, h1, h2, -, h4⟩ := cycle_before h
  rw [← (C65_housekeeping_partial h1 ok).2.1, h4]
  have hp : v.gs.pub = g.pub := by rw [h2, hx]
  show Gs.vbatt _ = Gs.vbatt g
  unfold Gs.vbatt
  rw [← hp]
  rfl

/-- The same in terms of the answers of the supply: two answers in a row with a battery voltage (the fourth 16-bit word) below the
threshold, and one cycle later the actuators are shut down. -/
theorem C129_low_answers_partial (ρ : Orb.Rounding) (w0 w w1 w2 w3 : WatchSys L) (c0 : Nat) (xs : List (WatchIn L)) (x1 x2 x3 : WatchIn L)
    (r1 r2 r3 : List (List U8) × List (List U8)) (hc : 1 ≤ c0) (hn : c0 + xs.length + 3 < 2 ^ 32) (hw : FreshFaults w0)
    (hx : ∀ x ∈ xs, LeavesFaults x) (h1 : LeavesFaults x1) (h2 : LeavesFaults x2) (h3 : LeavesFaults x3) (h3' : LeavesMission x3)
    (k1 : LeavesHousekeeping x1) (k2 : LeavesHousekeeping x2)
    (e0 : wrun ρ w0 c0 xs = some w) (e1 : w.cycle ρ (BitVec.ofNat 32 (c0 + xs.length)) x1 = some (w1, r1))
    (e2 : w1.cycle ρ (BitVec.ofNat 32 (c0 + xs.length + 1)) x2 = some (w2, r2))
    (e3 : w2.cycle ρ (BitVec.ofNat 32 (c0 + xs.length + 2)) x3 = some (w3, r3))
    (ok1 : GoodAnswer x1.gs.hk) (ok2 : GoodAnswer x2.gs.hk)
    (low1 : (be16 (data x1.gs.hk) 6).setWidth 32 < w1.gs.threshold) (low2 : (be16 (data x2.gs.hk) 6).setWidth 32 < w2.gs.threshold)
    (hm : Active 0 w2.sys.mm.fh.mission) (he : w2.sys.mm.fh.enabled = true) :
    ShutDown w3.sys ∧ CommandsPassive r3.2 := by
  have hl : (xs ++ [x1]).length = xs.length + 1 := by simp
  have er : wrun ρ w0 c0 (xs ++ [x1]) = some w1 := by
    have key : ∀ (ys : List (WatchIn L)) (u : WatchSys L) (c : Nat), wrun ρ u c ys = some w →
        w.cycle ρ (BitVec.ofNat 32 (c + ys.length)) x1 = some (w1, r1) → wrun ρ u c (ys ++ [x1]) = some w1 := by
      intro ys
      induction ys with
      | nil =>
        intro u c a b
        cases a
        show wrun ρ w c [x1] = _
        unfold wrun
        rw [show c = c + ([] : List (WatchIn L)).length from rfl, b]
        rfl
      | cons y ys ih =>
        intro u c a b
        rw [List.cons_append]
        unfold wrun at a ⊢
        split at a
        · cases a
        · rename_i u' r' hu
          refine ih u' (c + 1) a ?_
          rw [List.length_cons, show c + (ys.length + 1) = c + 1 + ys.length by omega] at b
          exact b
    exact key xs w0 c0 e0 e1
  refine C129_low_battery_partial ρ w0 w1 w2 w3 c0 (xs ++ [x1]) x2 x3 r2 r3 hc (by rw [hl]; omega) hw ?_ h2 h3 h3' er
    (by rw [hl]; exact e2) (by rw [hl]; exact e3) ?_ ?_ hm he
  · intro y hy
    rcases List.mem_append.1 hy with h | h
    · exact hx y h
    · rw [List.mem_singleton.1 h]; exact h1
  · rw [cycle_vbatt e1 k1 ok1]; exact low1
  · rw [cycle_vbatt e2 k2 ok2]; exact low2

theorem radio_answer (h : QuakeFH) (r : RadioIO) (cc : U32) (b : Bool) :
    (h.execute { r with powerCycle := b } cc).1 = (h.execute r cc).1 := by
  have e1 : ∀ next, (h.dispatchPowercycle { r with powerCycle := b } cc next).1 = (h.dispatchPowercycle r cc next).1 := by
    intro next
    have k : ∀ r : RadioIO, (h.dispatchPowercycle r cc next).1 =
        if h.inStateFor cc (oneDayCcno / 3) then .standby else if QuakeFH.recentComms r cc then .none else .standby := by
      intro r
      unfold QuakeFH.dispatchPowercycle
      dsimp only
      split
      · rfl
      · have : QuakeFH.recentComms (if h.entry + 1 ≥ cc then { r with state := Radio.config } else r) cc = QuakeFH.recentComms r cc := by
          split <;> rfl
        rw [this]
        split <;> rfl
    rw [k, k]
    rfl
  have e2 : (h.dispatchUnfaulted { r with powerCycle := b } cc).1 = (h.dispatchUnfaulted r cc).1 := by
    unfold QuakeFH.dispatchUnfaulted
    rw [show (QuakeFH.radioDisabled { r with powerCycle := b } || QuakeFH.recentComms { r with powerCycle := b } cc) =
      (QuakeFH.radioDisabled r || QuakeFH.recentComms r cc) from rfl]
    split <;> rfl
  have e3 : (h.dispatchSafehold { r with powerCycle := b } cc).1 = (h.dispatchSafehold r cc).1 := by
    unfold QuakeFH.dispatchSafehold
    rw [show (QuakeFH.radioDisabled { r with powerCycle := b } || QuakeFH.recentComms { r with powerCycle := b } cc) =
      (QuakeFH.radioDisabled r || QuakeFH.recentComms r cc) from rfl]
    split <;> rfl
  have e4 : (h.dispatchForcedStandby { r with powerCycle := b } cc).1 = (h.dispatchForcedStandby r cc).1 := by
    unfold QuakeFH.dispatchForcedStandby
    rw [show (QuakeFH.radioDisabled { r with powerCycle := b } || QuakeFH.recentComms { r with powerCycle := b } cc) =
      (QuakeFH.radioDisabled r || QuakeFH.recentComms r cc) from rfl]
    split
    · rfl
    · split <;> rfl
  unfold QuakeFH.execute
  split
  · rfl
  split
  · exact e2
  split
  · exact e4
  split
  · exact e1 _
  split
  · exact e1 _
  split
  · exact e1 _
  split
  · exact e3
  · rfl

/-- After a day in safehold the supply is told to reset the satellite, exactly once, in the next cycle: the mission manager raises the
field, the power supply task of the next cycle sends the command and lowers it. -/
theorem C129_reset_delivered (ρ : Orb.Rounding) (w v w1 w2 : WatchSys L) (cc cc' : U32) (x x' : WatchIn L) (r r' : List (List U8) × List (List U8))
    (e1 : w.cycle ρ cc x = some (w1, r)) (e2 : w1.cycle ρ cc' x' = some (w2, r')) (hcc : cc' ≠ 1) (hv : BeforeManager w cc x v)
    (hm : v.sys.mm.fh.mission = Mission.safehold) (hr : ¬ RadioGivesUp v.sys.mm cc)
    (hd : BitVec.ofNat 32 oneDayCcno ≤ cc - v.sys.mm.safeholdBegin) : sent 0x14 r'.1 = [[0x14]] := by
  obtain ⟨v', g, h1, h2, h3, h4⟩ := cycle_before e1
  obtain ⟨g0, out0, k1, k2⟩ := hv
  rw [h1] at k1
  obtain ⟨rfl, -⟩ := Prod.mk.inj (Option.some.inj k1)
  rw [← k2] at h2
  subst h2
  have hreset : w1.sys.mm.reset = true := by
    unfold Sys.cycle at h3
    dsimp only at h3
    obtain ⟨q, hq⟩ : ∃ q : MM, q = { v'.forManager.mm with fh := { v'.forManager.mm.fh with ctl := v'.forManager.mm.fh.ctl.interrupts x.sys.ticks1 } } := ⟨_, rfl⟩
    rw [← hq] at h3
    have hqm : q.fh.mission = Mission.safehold := by rw [hq]; exact hm
    have hqs : ¬ SafeholdFault q cc := by
      rw [safeholdFault_in_safehold _ _ hqm, hq]
      intro ⟨a, b⟩
      refine hr ⟨a, ?_⟩
      exact (radio_answer _ _ _ _).symm.trans b
    have hex := execute_in_safehold q { x.sys.mm with cc := cc } hqm hqs
    rw [hex] at h3
    dsimp only at h3
    have hb : (q.afterFaults cc).safeholdBegin = v'.sys.mm.safeholdBegin := by rw [hq]; rfl
    have hd' : ((q.afterFaults cc).dispatchSafehold { x.sys.mm with cc := cc }).reset = true := by
      unfold MM.dispatchSafehold
      rw [if_pos (by rw [hb]; exact hd)]
    split at h3
    · cases h3
    rename_i s2 m hatt
    obtain ⟨a1, -⟩ := Sys.runAttitude_spec hatt
    split at h3
    · cases h3
    rename_i s3 horb
    have h3' := congrArg (fun r => r.1.mm.reset) (Option.some.inj h3)
    dsimp only at h3'
    rw [← h3']
    show s3.mm.reset = true
    unfold Sys.runOrbit at horb
    dsimp only at horb
    split at horb
    · cases horb
    · cases horb
      show s2.mm.reset = true
      rw [a1]
      exact hd'
  obtain ⟨v2, g2, l1, -⟩ := cycle_before e2
  have hg : w1.gs.gsReset = true := by rw [h4]; exact hreset
  rw [(C68_one_shot l1).2.1, if_pos ⟨hcc, hg⟩]

/-- Where it fails: while docking, whatever the battery and the wheels report, nothing happens. The manager goes on docking with the
attitude state and the converters as they were, until the satellites have docked or the attempt times out. -/
theorem C129_counterexample_docking (s : MM) (i : MMIn) (battery w1 w2 w3 pot : Fault) (hm : s.fh.mission = Mission.docking)
    (hr : ¬ RadioGivesUp s i.cc) (hs : ¬ StandbyFault s i.cc) (hd : i.docked = false)
    (ht : s.haveSetDocking = true → ¬ s.dockTimeout < i.cc - s.enterDocking) :
    ∃ s', ({ s with fh := { s.fh with lowBatt := battery, wheel1 := w1, wheel2 := w2, wheel3 := w3, wheelPot := pot } } : MM).execute i =
      some s' ∧ s'.fh.mission = Mission.docking ∧ s'.adcs = s.adcs ∧ s'.adcsDcdc = s.adcsDcdc ∧ s'.sphDcdc = s.sphDcdc := by
  obtain ⟨q, hq⟩ : ∃ q, q = ({ s with fh := { s.fh with lowBatt := battery, wheel1 := w1, wheel2 := w2, wheel3 := w3, wheelPot := pot } } : MM) :=
    ⟨_, rfl⟩
  rw [← hq]
  have hqm : q.fh.mission = Mission.docking := by rw [hq]; exact hm
  have na : ∀ k, ¬ Active k q.fh.mission := fun k h => h.2.2.1 hqm
  have h1 : ¬ SafeholdFault q i.cc := by
    rintro ⟨a, h | h | h | h⟩
    · exact na 0 h.1
    · exact na 1 h.1
    · exact na 3 h.1
    · rw [hq] at a h; exact hr ⟨a, h⟩
  have h2 : ¬ StandbyFault q i.cc := by
    rw [hq]; exact hs
  rw [MM.execute_dispatch q i (Or.inr (Or.inr fun h => h1 ((safeholdFault_iff q i.cc).2 h)))
    (Or.inr (Or.inr (Or.inl fun h => h2 ((standbyFault_iff q i.cc h1).2 h)))), hqm]
  refine ⟨(q.afterFaults i.cc).dispatchDocking i, rfl, ?_⟩
  have f1 : (q.afterFaults i.cc).fh.mission = Mission.docking := by rw [MM.afterFaults_mission]; exact hqm
  have f2 : (q.afterFaults i.cc).haveSetDocking = s.haveSetDocking := by rw [hq]; rfl
  have f3 : (q.afterFaults i.cc).enterDocking = s.enterDocking := by rw [hq]; rfl
  have f4 : (q.afterFaults i.cc).dockTimeout = s.dockTimeout := by rw [hq]; rfl
  unfold MM.dispatchDocking
  dsimp only
  rw [hd]
  by_cases hh : s.haveSetDocking = false
  · rw [f2, if_pos hh, if_neg (by decide), if_neg (by show ¬ _ < i.cc - i.cc; simp)]
    exact ⟨f1, by rw [hq]; rfl, by rw [hq]; rfl, by rw [hq]; rfl⟩
  · rw [f2, if_neg hh, if_neg (by decide), if_neg (by rw [f3, f4]; exact ht (by simpa using hh))]
    exact ⟨f1, by rw [hq]; rfl, by rw [hq]; rfl, by rw [hq]; rfl⟩

/-! ### The hypotheses are met -/

/-- A follower that is firing, with the tasks as constructed. -/
def Spec.watched0 : WatchSys toyOrb :=
  { gs := Gs.init fun _ => 0
    mon := Monitor.init
    sys := { inTrouble with mm := { inTrouble.mm with fh := { inTrouble.mm.fh with lowBatt := Fault.init 1 } } } }

/-- A cycle with a battery at 256 mV and every wheel device reported as working. -/
def Spec.lowIn : WatchIn toyOrb :=
  { gs := { hk := fun k => if k = 0 then 0x08 else if k = 8 then 1 else 0, h0 := fun _ => 1, h1 := fun k => if k = 0 then 0x0D else 0, h2 := fun _ => 0 }
    box := { whoAmI := [15], rwa := List.replicate 13 0, volt := List.replicate 20 0, imu := List.replicate 20 0, ssaMode := [2],
             ssaVec := List.replicate 6 0, havt := [255, 255, 255, 255] }
    others := id
    sys := troubleIn }

/-- The same with the battery at 8192 mV. -/
def Spec.fullIn : WatchIn toyOrb :=
  { lowIn with gs := { lowIn.gs with hk := fun k => if k = 0 then 0x08 else if k = 8 then 0x20 else 0 } }

/-- The hypotheses of `C129_low_answers_partial` and `C129_low_battery_partial` are met: a cycle with a full battery and two with an
empty one leave the follower in its approach, and the next one shuts down. -/
example : FreshFaults watched0 ∧ LeavesFaults lowIn ∧ LeavesFaults fullIn ∧ LeavesMission lowIn ∧ LeavesHousekeeping lowIn ∧
    GoodAnswer lowIn.gs.hk := by
  refine ⟨⟨rfl, rfl, rfl, rfl, rfl⟩, fun _ => ⟨rfl, rfl, rfl, rfl, rfl⟩, fun _ => ⟨rfl, rfl, rfl, rfl, rfl⟩, fun _ => ⟨rfl, rfl⟩, fun _ => rfl, rfl, rfl⟩

example : ((wrun PAN.exact watched0 5 [fullIn, lowIn]).map fun w => decide (w.gs.vbatt < w.gs.threshold)) = some true := by decide +kernel
example : ((wrun PAN.exact watched0 5 [fullIn, lowIn, lowIn]).map fun w => decide (w.gs.vbatt < w.gs.threshold)) = some true := by
  decide +kernel
example : ((wrun PAN.exact watched0 5 [fullIn, lowIn, lowIn]).map fun w => w.sys.mm.fh.mission) = some Mission.followerCloseApproach := by
  decide +kernel
example : ((wrun PAN.exact watched0 5 [fullIn, lowIn, lowIn]).map fun w => w.sys.mm.fh.enabled) = some true := by decide +kernel
example : ((wrun PAN.exact watched0 5 [fullIn, lowIn, lowIn, fullIn]).map fun w => w.sys.mm.fh.mission) = some Mission.safehold := by
  decide +kernel

/-- The second wheel's converter (device 11) out of service, all others working. -/
def Spec.lostIn : WatchIn toyOrb := { fullIn with box := { fullIn.box with havt := [255, 247, 255, 255] } }

/-- Likewise for `C129_lost_wheel_partial`. -/
example : ((wrun PAN.exact watched0 5 [fullIn, lostIn]).map fun w => w.mon.havt 11) = some false := by decide +kernel
example : ((wrun PAN.exact watched0 5 [fullIn, lostIn, lostIn]).map fun w => (w.mon.havt 11, w.mon.havt 10)) = some (false, true) := by
  decide +kernel
example : ((wrun PAN.exact watched0 5 [fullIn, lostIn, lostIn]).map fun w => w.sys.mm.fh.mission) = some Mission.followerCloseApproach := by
  decide +kernel
example : ((wrun PAN.exact watched0 5 [fullIn, lostIn, lostIn, fullIn]).map fun w => w.sys.mm.fh.mission) = some Mission.safehold := by
  decide +kernel

/-- The hypotheses of `C129_counterexample_docking` are met. -/
example : let s := { inState Mission.docking with dockTimeout := 100 }
    ¬ RadioGivesUp s 16 ∧ s.haveSetDocking = false ∧ (s.fh.execute 16).1 = .none := by decide +kernel

end PAN
