import Verif.Model.Docking
import Mathlib.Tactic.NormNum
import Mathlib.Tactic.Positivity
import Mathlib.Tactic.Linarith
import Mathlib.Tactic.SplitIfs
/-!
C49: the docking motor.
-/
namespace PAN
namespace Dock

/-- How many interrupts the rest of the half turn takes. -/
def left (d : Dock) : Nat := 2 * d.steps.toNat - if d.motorOn then 0 else 1

theorem tick_on (d : Dock) (h : d.timer = true) :
    d.tick.1.steps.toNat + (if d.tick.2 then 1 else 0) = d.steps.toNat ∧ d.tick.1.left = d.left - 1
      ∧ d.tick.1.timer = true ∧ d.tick.1.config = d.config ∧ d.tick.1.turning = d.turning
      ∧ d.tick.1.awake = d.awake := by
  unfold tick left
  rw [if_neg (by simp [h])]
  by_cases h1 : d.steps ≥ 1
  · have h1' : 1 ≤ d.steps.toNat := h1
    have e : (d.steps - 1).toNat = d.steps.toNat - 1 := by
      rw [BitVec.toNat_sub_of_le h1]; rfl
    rw [if_pos h1]
    cases hm : d.motorOn
    · simp only [Bool.false_eq_true, if_false, if_true, e, h, and_true]
      omega
    · simp only [Bool.false_eq_true, if_false, if_true, h, and_true]
      omega
  · have h1' : d.steps.toNat = 0 := by
      have : ¬ (1 ≤ d.steps.toNat) := h1
      omega
    rw [if_neg h1]
    simp [h, h1']

theorem tick_off (d : Dock) (h : d.timer = false) : d.tick = (d, false) := by
  unfold tick; rw [if_pos h]

theorem ticks_on (d : Dock) (h : d.timer = true) (n : Nat) :
    (d.ticks n).1.steps.toNat + (d.ticks n).2 = d.steps.toNat ∧ (d.ticks n).1.left = d.left - n
      ∧ (d.ticks n).1.timer = true ∧ (d.ticks n).1.config = d.config ∧ (d.ticks n).1.turning = d.turning
      ∧ (d.ticks n).1.awake = d.awake := by
  induction n generalizing d with
  | zero => simp [ticks, h]
  | succ n ih =>
    obtain ⟨t1, t2, t3, t4, t5, t6⟩ := tick_on d h
    obtain ⟨i1, i2, i3, i4, i5, i6⟩ := ih d.tick.1 t3
    simp only [ticks]
    refine ⟨by omega, by rw [i2, t2]; omega, i3, i4.trans t4, i5.trans t5, i6.trans t6⟩

theorem ticks_off (d : Dock) (h : d.timer = false) (n : Nat) : d.ticks n = (d, 0) := by
  induction n with
  | zero => rfl
  | succ n ih => simp only [ticks, tick_off d h, ih]; rfl

/-- The states reached from construction: a half turn is under way exactly while the motor is awake. -/
def Ok (d : Dock) : Prop := d.awake = d.turning ∧ (d.timer = true → d.turning = true)

theorem ok_init : init.Ok := ⟨rfl, nofun⟩

theorem ok_tick {d : Dock} (h : d.Ok) : d.tick.1.Ok := by
  cases ht : d.timer
  · rw [tick_off d ht]; exact h
  · obtain ⟨-, -, t3, -, t5, t6⟩ := tick_on d ht
    exact ⟨by rw [t5, t6]; exact h.1, fun _ => by rw [t5]; exact h.2 ht⟩

theorem ok_ticks {d : Dock} (h : d.Ok) (n : Nat) : (d.ticks n).1.Ok := by
  induction n generalizing d with
  | zero => exact h
  | succ n ih => exact ih (ok_tick h)

theorem ok_execute {d d' : Dock} {i : DockIn} {k : Nat} (h : d.Ok) (he : d.execute i = some (d', k)) : d'.Ok := by
  unfold execute at he
  split_ifs at he with hc
  · cases hb : d.begin i.angle i.armed with
    | none => rw [hb] at he; cases he
    | some d1 =>
      rw [hb] at he
      simp only [Option.map_some, Option.some.injEq, Prod.mk.injEq] at he
      obtain ⟨rfl, -⟩ := he
      have h1 : d1.Ok := by
        unfold begin at hb
        split_ifs at hb with ht
        · cases hb; exact h
        · unfold startHalfTurn at hb
          cases hn : halfTurn i.angle with
          | none => rw [hn] at hb; cases hb
          | some n =>
            rw [hn] at hb
            simp only [Option.map_some, Option.some.injEq] at hb
            subst hb
            exact ⟨rfl, fun _ => rfl⟩
      have h2 := ok_ticks h1 i.mid
      unfold finish cancel
      split_ifs
      · exact ⟨rfl, nofun⟩
      · exact h2
  · cases he
    exact ⟨rfl, nofun⟩

theorem ok_run {d d' : Dock} {l : List DockEv} {k : Nat} (h : d.Ok) (he : d.run l = some (d', k)) : d'.Ok := by
  induction l generalizing d k with
  | nil => cases he; exact h
  | cons e l ih =>
    cases e with
    | tick =>
      simp only [run] at he
      cases hr : d.tick.1.run l with
      | none => rw [hr] at he; cases he
      | some r =>
        rw [hr] at he
        simp only [Option.map_some, Option.some.injEq, Prod.mk.injEq] at he
        exact ih (ok_tick h) (k := r.2) (by rw [hr, ← he.1])
    | cycle i =>
      simp only [run] at he
      cases hx : d.execute i with
      | none => rw [hx] at he; cases he
      | some r =>
        obtain ⟨d1, k1⟩ := r
        rw [hx] at he
        simp only at he
        cases hr : d1.run l with
        | none => rw [hr] at he; cases he
        | some r =>
          rw [hr] at he
          simp only [Option.map_some, Option.some.injEq, Prod.mk.injEq] at he
          exact ih (ok_execute h hx) (k := r.2) (by rw [hr, ← he.1])

/-- State during and after one half turn of `n` steps away from configuration `c`, `e` steps made so far. -/
def During (c : Bool) (n e : Nat) (d : Dock) : Prop :=
  (d.config = c ∧ d.turning = true ∧ e + d.steps.toNat = n)
  ∨ (d.config = !c ∧ d.timer = false ∧ d.turning = false ∧ e = n)

theorem during_tick {c : Bool} {n e : Nat} {d : Dock} (h : During c n e d) :
    During c n (e + if d.tick.2 then 1 else 0) d.tick.1 := by
  cases ht : d.timer
  · rw [tick_off d ht]; exact h
  · obtain ⟨t1, -, t3, t4, t5, -⟩ := tick_on d ht
    rcases h with ⟨h1, h2, h3⟩ | ⟨-, h2, -⟩
    · left; exact ⟨t4.trans h1, t5.trans h2, by omega⟩
    · rw [ht] at h2; cases h2

theorem ticks_steps (d : Dock) (m : Nat) : (d.ticks m).1.config = d.config ∧ (d.ticks m).1.turning = d.turning
    ∧ (d.ticks m).2 + (d.ticks m).1.steps.toNat = d.steps.toNat := by
  cases ht : d.timer
  · rw [ticks_off d ht]; simp
  · obtain ⟨t1, -, -, t4, t5, -⟩ := ticks_on d ht m
    exact ⟨t4, t5, by omega⟩

theorem during_cycle {c : Bool} {n e : Nat} {d d' : Dock} {i : DockIn} {k : Nat} (h : During c n e d)
    (hc : i.cmd = !c) (he : d.execute i = some (d', k)) : During c n (e + k) d' := by
  unfold execute at he
  rcases h with ⟨h1, h2, h3⟩ | ⟨h1, h2, h3, h4⟩
  · rw [if_pos (by rw [hc, h1]; cases c <;> decide)] at he
    unfold begin at he
    rw [if_pos h2] at he
    simp only [Option.map_some, Option.some.injEq, Prod.mk.injEq] at he
    obtain ⟨rfl, rfl⟩ := he
    obtain ⟨t1, t2, t3⟩ := ticks_steps d i.mid
    unfold finish
    split_ifs with hz
    · right
      refine ⟨?_, rfl, rfl, ?_⟩
      · show (!(d.ticks i.mid).1.config) = !c
        rw [t1, h1]
      · have : (d.ticks i.mid).1.steps.toNat = 0 := by rw [hz]; rfl
        omega
    · left; exact ⟨t1.trans h1, t2.trans h2, by show e + (d.ticks i.mid).2 + (d.ticks i.mid).1.steps.toNat = n; omega⟩
  · rw [if_neg (by rw [hc, h1]; simp)] at he
    cases he
    right; exact ⟨h1, rfl, rfl, h4⟩

theorem during_run {c : Bool} {n : Nat} {l : List DockEv} (hl : ∀ i, .cycle i ∈ l → i.cmd = !c) :
    ∀ {d d' : Dock} {e k : Nat}, During c n e d → d.run l = some (d', k) → During c n (e + k) d' := by
  induction l with
  | nil => intro d d' e k h hr; cases hr; exact h
  | cons ev l ih =>
    intro d d' e k h he
    have hl' := @ih (fun i hi => hl i (List.mem_cons_of_mem _ hi))
    cases ev with
    | tick =>
      simp only [run] at he
      cases hr : d.tick.1.run l with
      | none => rw [hr] at he; cases he
      | some r =>
        rw [hr] at he
        simp only [Option.map_some, Option.some.injEq, Prod.mk.injEq] at he
        have := hl' (d' := d') (k := r.2) (during_tick h) (by rw [hr, ← he.1])
        rw [← he.2]
        rwa [show e + (r.2 + if d.tick.2 then 1 else 0) = e + (if d.tick.2 then 1 else 0) + r.2 by omega]
    | cycle i =>
      simp only [run] at he
      cases hx : d.execute i with
      | none => rw [hx] at he; cases he
      | some r =>
        obtain ⟨d1, k1⟩ := r
        rw [hx] at he
        simp only at he
        cases hr : d1.run l with
        | none => rw [hr] at he; cases he
        | some r =>
          rw [hr] at he
          simp only [Option.map_some, Option.some.injEq, Prod.mk.injEq] at he
          have := hl' (d' := d') (k := r.2) (during_cycle h (hl i List.mem_cons_self) hx) (by rw [hr, ← he.1])
          rw [← he.2]
          rwa [show e + (r.2 + k1) = e + k1 + r.2 by omega]

theorem during_begin {d d' : Dock} {i : DockIn} {k : Nat} {n : U32} (hn : halfTurn i.angle = some n)
    (ht : d.turning = false) (hc : i.cmd ≠ d.config) (he : d.execute i = some (d', k)) :
    During d.config n.toNat k d' := by
  unfold execute at he
  rw [if_pos hc] at he
  unfold begin startHalfTurn at he
  rw [if_neg (by simp [ht]), hn] at he
  simp only [Option.map_some, Option.some.injEq, Prod.mk.injEq] at he
  obtain ⟨rfl, rfl⟩ := he
  obtain ⟨t1, t2, t3⟩ := ticks_steps { d with steps := n, awake := true, timer := i.armed, turning := true } i.mid
  unfold finish
  split_ifs with hz
  · right
    refine ⟨congrArg (!·) t1, rfl, rfl, ?_⟩
    rw [hz] at t3
    simpa using t3
  · left; exact ⟨t1, t2, t3⟩

/-- **C49 (part).** Take any state in which no half turn is under way, give a command that
differs from the reported configuration, and keep it. In every later history of runs of the task and timer
interrupts, in any order and number: as long as the reported configuration has not changed, the motor has made at
most `n` steps, `n` being the half turn in steps for the step angle set when the command was first seen; when it
has changed, the motor has made exactly `n` steps, and makes no more. -/
theorem C49_steps_partial {d d' : Dock} {k : Nat} (ht : d.turning = false) (i : DockIn) (hc : i.cmd ≠ d.config) (n : U32) (hn : halfTurn i.angle = some n)
    (l : List DockEv) (keep : ∀ j, .cycle j ∈ l → j.cmd = i.cmd) (hr : d.run (.cycle i :: l) = some (d', k)) :
    (d'.config = d.config → k ≤ n.toNat) ∧ (d'.config ≠ d.config → k = n.toNat) := by
  have hcmd : i.cmd = !d.config := by revert hc; cases i.cmd <;> cases d.config <;> decide
  simp only [run] at hr
  cases hx : d.execute i with
  | none => rw [hx] at hr; cases hr
  | some r =>
    obtain ⟨d1, k1⟩ := r
    rw [hx] at hr
    simp only at hr
    cases hr1 : d1.run l with
    | none => rw [hr1] at hr; cases hr
    | some r =>
      rw [hr1] at hr
      simp only [Option.map_some, Option.some.injEq, Prod.mk.injEq] at hr
      have := during_run (fun j hj => (keep j hj).trans hcmd) (d' := d') (k := r.2) (during_begin hn ht hc hx)
        (by rw [hr1, ← hr.1])
      rw [show k1 + r.2 = k by omega] at this
      rcases this with ⟨h1, -, h3⟩ | ⟨h1, -, -, h3⟩
      · exact ⟨fun _ => by omega, fun h => absurd h1 h⟩
      · exact ⟨fun h => absurd (h1.symm.trans h) (by cases d.config <;> decide), fun _ => h3⟩

/-- **C49 (part).** In every state reached from construction the motor driver is awake exactly while a half turn is
reported to be under way. -/
theorem C49_awake {l : List DockEv} {d : Dock} {k : Nat} (hr : init.run l = some (d, k)) : d.awake = d.turning :=
  (ok_run ok_init hr).1

/-- Progress of a half turn away from configuration `c`: under way with at most `t` interrupts to go, or over. -/
def Prog (c : Bool) (t : Nat) (d : Dock) : Prop :=
  (d.config = c ∧ d.turning = true ∧ d.timer = true ∧ d.left ≤ t)
  ∨ (d.config = !c ∧ d.turning = false ∧ d.timer = false)

theorem prog_ticks {c : Bool} {t : Nat} {d : Dock} (h : Prog c t d) (m : Nat) : Prog c (t - m) (d.ticks m).1 := by
  rcases h with ⟨h1, h2, h3, h4⟩ | ⟨h1, h2, h3⟩
  · obtain ⟨-, u2, u3, u4, u5, -⟩ := ticks_on d h3 m
    left; exact ⟨u4.trans h1, u5.trans h2, u3, by omega⟩
  · rw [ticks_off d h3]; right; exact ⟨h1, h2, h3⟩

theorem prog_finish {c : Bool} {t : Nat} {d : Dock} (h : Prog c t d) (x : Bool) (ht : d.turning = true) :
    Prog c t { d.finish with docked := x } ∧ (t = 0 → d.finish.config = !c ∧ d.finish.turning = false) := by
  rcases h with ⟨h1, h2, h3, h4⟩ | ⟨h1, h2, h3⟩
  · unfold finish
    split_ifs with hz
    · exact ⟨Or.inr ⟨congrArg (!·) h1, rfl, rfl⟩, fun _ => ⟨congrArg (!·) h1, rfl⟩⟩
    · refine ⟨Or.inl ⟨h1, h2, h3, h4⟩, fun h0 => absurd ?_ hz⟩
      apply BitVec.eq_of_toNat_eq
      show d.steps.toNat = 0
      unfold left at h4
      split_ifs at h4 <;> omega
  · rw [h2] at ht; cases ht

theorem prog_cycle {c : Bool} {t : Nat} {d d' : Dock} {i : DockIn} {k : Nat} (h : Prog c t d) (hc : i.cmd = !c)
    (he : d.execute i = some (d', k)) :
    Prog c (t - i.mid) d' ∧ (t - i.mid = 0 → d'.config = !c ∧ d'.turning = false) := by
  unfold execute at he
  rcases h with ⟨h1, h2, h3, h4⟩ | ⟨h1, h2, h3⟩
  · rw [if_pos (by rw [hc, h1]; cases c <;> decide)] at he
    unfold begin at he
    rw [if_pos h2] at he
    simp only [Option.map_some, Option.some.injEq, Prod.mk.injEq] at he
    obtain ⟨rfl, -⟩ := he
    have hp := prog_ticks (Or.inl ⟨h1, h2, h3, h4⟩ : Prog c t d) i.mid
    exact prog_finish hp i.docked ((ticks_on d h3 i.mid).2.2.2.2.1.trans h2)
  · rw [if_neg (by rw [hc, h1]; simp)] at he
    cases he
    exact ⟨Or.inr ⟨h1, rfl, rfl⟩, fun _ => ⟨h1, rfl⟩⟩

theorem prog_begin {d d' : Dock} {i : DockIn} {k : Nat} {n : U32} (hn : halfTurn i.angle = some n)
    (ht : d.turning = false) (hc : i.cmd ≠ d.config) (armed : i.armed = true) (he : d.execute i = some (d', k)) :
    Prog d.config (2 * n.toNat - i.mid) d' := by
  unfold execute at he
  rw [if_pos hc] at he
  unfold begin startHalfTurn at he
  rw [if_neg (by simp [ht]), hn] at he
  simp only [Option.map_some, Option.some.injEq, Prod.mk.injEq] at he
  obtain ⟨rfl, -⟩ := he
  have h0 : Prog d.config (2 * n.toNat) { d with steps := n, awake := true, timer := i.armed, turning := true } :=
    Or.inl ⟨rfl, rfl, armed, by unfold left; dsimp only; omega⟩
  exact (prog_finish (prog_ticks h0 i.mid) i.docked
    ((ticks_on { d with steps := n, awake := true, timer := i.armed, turning := true } armed i.mid).2.2.2.2.1)).1

/-- How often the step timer's interrupt fires in a history. -/
def _root_.PAN.Spec.interrupts : List DockEv → Nat
  | [] => 0
  | .tick :: l => Spec.interrupts l + 1
  | .cycle i :: l => Spec.interrupts l + i.mid

theorem prog_run {c : Bool} {l : List DockEv} (hl : ∀ i, .cycle i ∈ l → i.cmd = !c) :
    ∀ {d d' : Dock} {t k : Nat}, Prog c t d → d.run l = some (d', k) → Prog c (t - Spec.interrupts l) d' := by
  induction l with
  | nil => intro d d' t k h hr; cases hr; exact h
  | cons ev l ih =>
    intro d d' t k h he
    have hl' := @ih (fun i hi => hl i (List.mem_cons_of_mem _ hi))
    cases ev with
    | tick =>
      simp only [run] at he
      cases hr : d.tick.1.run l with
      | none => rw [hr] at he; cases he
      | some r =>
        rw [hr] at he
        simp only [Option.map_some, Option.some.injEq, Prod.mk.injEq] at he
        have h1 : Prog c (t - 1) d.tick.1 := prog_ticks h 1
        have := hl' (d' := d') (k := r.2) h1 (by rw [hr, ← he.1])
        simp only [Spec.interrupts]
        rwa [show t - (Spec.interrupts l + 1) = t - 1 - Spec.interrupts l by omega]
    | cycle i =>
      simp only [run] at he
      cases hx : d.execute i with
      | none => rw [hx] at he; cases he
      | some r =>
        obtain ⟨d1, k1⟩ := r
        rw [hx] at he
        simp only at he
        cases hr : d1.run l with
        | none => rw [hr] at he; cases he
        | some r =>
          rw [hr] at he
          simp only [Option.map_some, Option.some.injEq, Prod.mk.injEq] at he
          have := hl' (d' := d') (k := r.2) (prog_cycle h (hl i List.mem_cons_self) hx).1 (by rw [hr, ← he.1])
          simp only [Spec.interrupts]
          rwa [show t - (Spec.interrupts l + i.mid) = t - i.mid - Spec.interrupts l by omega]

/-- **C49 (part).** The half turn does end: keep the command, and once the timer interrupt has fired twice per step, in
whatever order interrupts and runs of the task come, the next run of the task reports the new configuration and that no turn
is under way. -/
theorem C49_completes_partial {d d1 d' : Dock} {k k' : Nat} (ht : d.turning = false) (i j : DockIn)
    (hc : i.cmd ≠ d.config) (n : U32) (hn : halfTurn i.angle = some n) (armed : i.armed = true)
    (l : List DockEv) (keep : ∀ j, .cycle j ∈ l → j.cmd = i.cmd) (hm : 2 * n.toNat ≤ Spec.interrupts (.cycle i :: l))
    (hr : d.run (.cycle i :: l) = some (d1, k)) (hj : j.cmd = i.cmd) (h3 : d1.execute j = some (d', k')) :
    d'.config = i.cmd ∧ d'.turning = false := by
  have hcmd : i.cmd = !d.config := by revert hc; cases i.cmd <;> cases d.config <;> decide
  simp only [run] at hr
  cases hx : d.execute i with
  | none => rw [hx] at hr; cases hr
  | some r =>
    obtain ⟨d0, k0⟩ := r
    rw [hx] at hr
    simp only at hr
    cases hr1 : d0.run l with
    | none => rw [hr1] at hr; cases hr
    | some r =>
      rw [hr1] at hr
      simp only [Option.map_some, Option.some.injEq, Prod.mk.injEq] at hr
      have := prog_run (fun j hj => (keep j hj).trans hcmd) (d' := d1) (k := r.2) (prog_begin hn ht hc armed hx)
        (by rw [hr1, ← hr.1])
      simp only [Spec.interrupts] at hm
      rw [show 2 * n.toNat - i.mid - Spec.interrupts l = 0 by omega] at this
      rw [hcmd]
      exact (prog_cycle this (hj.trans hcmd) h3).2 (by omega)

/-! ### How long a half turn is -/

theorem f32_default : f32 (180 / defaultAngle) = 11519999 / 2048 := by
  have e : (180 : ℚ) / defaultAngle = 9663676416 / 1717987 := by unfold defaultAngle; norm_num
  have hlog : Int.log 2 |(180 : ℚ) / defaultAngle| = 12 := by
    rw [e, abs_of_pos (by norm_num)]
    apply le_antisymm
    · have := (Int.lt_zpow_iff_log_lt (b := 2) (by norm_num) (x := 13) (r := (9663676416 / 1717987 : ℚ)) (by norm_num)).1
        (by norm_num)
      omega
    · exact (Int.zpow_le_iff_le_log (by norm_num) (by norm_num)).1 (by norm_num)
  have hu : ulp32 (180 / defaultAngle) = 1 / 2048 := by
    unfold ulp32; rw [hlog]; norm_num
  have hf : ⌊(9663676416 / 1717987 : ℚ) / (1 / 2048)⌋ = 11519999 := by
    rw [Int.floor_eq_iff]; norm_num
  unfold f32
  rw [hu, e]
  unfold rne
  rw [hf, if_pos (by norm_num)]
  norm_num

/-- With the default step angle a half turn is 5624 steps. -/
theorem halfTurn_default : halfTurn defaultAngle = some 5624 := by
  unfold halfTurn
  rw [f32_default, if_neg (by unfold defaultAngle; norm_num), if_pos (by norm_num)]
  have : ⌊(11519999 / 2048 : ℚ)⌋ = 5624 := by rw [Int.floor_eq_iff]; norm_num
  rw [this]
  rfl

/-- **C49 is false** for the default step angle: the computed number of steps turns the motor by less than 179.969
degrees, one step short of the half turn. -/
theorem C49_counterexample_default : ∃ n, halfTurn defaultAngle = some n
    ∧ (n.toNat : ℚ) * defaultAngle < 179969 / 1000 ∧ 180 - 1 / 1000 < ((n.toNat + 1 : ℕ) : ℚ) * defaultAngle := by
  refine ⟨5624, halfTurn_default, ?_, ?_⟩
  · show ((5624 : ℕ) : ℚ) * defaultAngle < _
    unfold defaultAngle; norm_num
  · show _ < ((5625 : ℕ) : ℚ) * defaultAngle
    unfold defaultAngle; norm_num

/-- **C49 is false** if the command is withdrawn during a half turn and given again: for every number `j` of steps made
before the withdrawal, the motor makes the full `n` steps again, hence `j + n`, before the new configuration is
reported. -/
theorem C49_counterexample_withdrawn {d d1 d2 d3 d' : Dock} {k1 k2 k : Nat} (i w : DockIn)
    (hc : i.cmd ≠ d.config) (n : U32) (hn : halfTurn i.angle = some n) (j : Nat)
    (_h1 : d.execute i = some (d1, k1)) (hconf : d1.config = d.config) (h2 : d1.ticks j = (d2, k2))
    (hw : w.cmd = d.config) (h3 : d2.execute w = some (d3, 0))
    (l : List DockEv) (keep : ∀ j, .cycle j ∈ l → j.cmd = i.cmd) (h4 : d3.run (.cycle i :: l) = some (d', k))
    (flip : d'.config ≠ d.config) : k = n.toNat ∧ (0 < k1 + k2 → n.toNat < k1 + k2 + k) := by
  have hcmd : i.cmd = !d.config := by revert hc; cases i.cmd <;> cases d.config <;> decide
  obtain ⟨t1, -, -⟩ := ticks_steps d1 j
  rw [h2] at t1
  have hc2 : d2.config = d.config := t1.trans hconf
  unfold execute at h3
  rw [if_neg (by rw [hw, hc2]; simp)] at h3
  simp only [Option.some.injEq, Prod.mk.injEq] at h3
  obtain ⟨rfl, -⟩ := h3
  simp only [run] at h4
  generalize hd3 : ({ d2.cancel with turning := false, docked := w.docked } : Dock) = d3 at *
  have hcf : d3.config = d.config := by rw [← hd3]; exact hc2
  have htf : d3.turning = false := by rw [← hd3]
  cases hx : d3.execute i with
  | none => rw [hx] at h4; cases h4
  | some r =>
    obtain ⟨e1, k3⟩ := r
    rw [hx] at h4
    simp only at h4
    cases hr1 : e1.run l with
    | none => rw [hr1] at h4; cases h4
    | some r =>
      rw [hr1] at h4
      simp only [Option.map_some, Option.some.injEq, Prod.mk.injEq] at h4
      have := during_run (fun j hj => (keep j hj).trans (hcmd.trans (by rw [hcf]))) (d' := d') (k := r.2)
        (during_begin hn htf (by rw [hcf]; exact hc) hx) (by rw [hr1, ← h4.1])
      rw [show k3 + r.2 = k by omega] at this
      rcases this with ⟨h1, -, h3⟩ | ⟨h1, -, -, h3⟩
      · exact absurd (h1.trans hcf) flip
      · exact ⟨h3, fun _ => by omega⟩

/-- **C49 is false** for a step angle of zero, which the ground can set: the conversion of the number of steps is
undefined, in every state in which a half turn would start. -/
theorem C49_counterexample_zero (d : Dock) (i : DockIn) (ht : d.turning = false) (hc : i.cmd ≠ d.config)
    (hz : i.angle = 0) : d.execute i = none := by
  unfold execute
  rw [if_pos hc]
  unfold begin startHalfTurn halfTurn
  rw [if_neg (by simp [ht]), if_pos (by rw [hz])]
  rfl

/-- **C49 is false** for a step delay of zero, which the ground can set: the timer does not start, so the motor never
moves and the half turn never ends, however often the task runs. -/
theorem C49_counterexample_delay (d : Dock) (i : DockIn) (ht : d.turning = false) (hc : i.cmd ≠ d.config)
    (n : U32) (hn : halfTurn i.angle = some n) (h0 : n ≠ 0) (hz : i.armed = false) (l : List DockIn)
    (keep : ∀ j ∈ l, j.cmd = i.cmd) : ∃ d', d.run (.cycle i :: l.map .cycle) = some (d', 0) ∧ d'.config = d.config := by
  have start : ∃ d1, d.execute i = some (d1, 0) ∧ d1.config = d.config ∧ d1.turning = true ∧ d1.timer = false
      ∧ d1.steps = n := by
    unfold execute begin startHalfTurn
    rw [if_pos hc, if_neg (by simp [ht]), hn]
    simp only [Option.map_some, ticks_off { d with steps := n, awake := true, timer := i.armed, turning := true } hz]
    refine ⟨_, rfl, ?_⟩
    unfold finish
    rw [if_neg h0]
    exact ⟨rfl, rfl, hz, rfl⟩
  obtain ⟨d1, e1, c1, t1, m1, s1⟩ := start
  have rest : ∀ (l : List DockIn) (d1 : Dock), (∀ j ∈ l, j.cmd = i.cmd) → d1.config = d.config → d1.turning = true →
      d1.timer = false → d1.steps = n → ∃ d', d1.run (l.map .cycle) = some (d', 0) ∧ d'.config = d.config := by
    intro l
    induction l with
    | nil => intro d1 _ c _ _ _; exact ⟨d1, rfl, c⟩
    | cons j l ih =>
      intro d1 hk c t m s
      have ex : ∃ d2, d1.execute j = some (d2, 0) ∧ d2.config = d.config ∧ d2.turning = true ∧ d2.timer = false
          ∧ d2.steps = n := by
        unfold execute begin
        rw [if_pos (by rw [hk j List.mem_cons_self, c]; exact hc), if_pos t]
        simp only [Option.map_some, ticks_off d1 m]
        refine ⟨_, rfl, ?_⟩
        unfold finish
        rw [if_neg (by rw [s]; exact h0)]
        exact ⟨c, t, m, s⟩
      obtain ⟨d2, e2, c2, t2, m2, s2⟩ := ex
      obtain ⟨d', r, c'⟩ := ih d2 (fun j hj => hk j (List.mem_cons_of_mem _ hj)) c2 t2 m2 s2
      refine ⟨d', ?_, c'⟩
      simp only [List.map_cons, run, e2, r, Option.map_some]
  obtain ⟨d', r, c'⟩ := rest l d1 keep c1 t1 m1 s1
  refine ⟨d', ?_, c'⟩
  simp only [run, e1, r, Option.map_some]

/-- The hypotheses of `C49_steps_partial` are met from construction, with the default step angle. -/
example : ∃ d', init.run [.cycle ⟨false, defaultAngle, true, 0, false⟩] = some (d', 0) ∧ d'.turning = true
    ∧ d'.steps = 5624 := by
  refine ⟨⟨5624, false, true, true, true, true, false⟩, ?_, rfl, rfl⟩
  simp only [run, execute, begin, startHalfTurn, halfTurn_default]
  decide

/-- A complete half turn, and a withdrawn one: with a step angle of 90 degrees the motor makes two steps, or three if
the command is withdrawn after the first. -/
example : (init.run [.cycle ⟨false, 90, true, 0, false⟩, .tick, .tick, .tick, .tick, .cycle ⟨false, 90, true, 0, false⟩]).map
    (fun r => (r.1.config, r.2)) = some (false, 2) := by decide +kernel
example : (init.run [.cycle ⟨false, 90, true, 0, false⟩, .tick, .tick, .cycle ⟨true, 90, true, 0, false⟩,
    .cycle ⟨false, 90, true, 0, false⟩, .tick, .tick, .tick, .tick, .cycle ⟨false, 90, true, 0, false⟩]).map
    (fun r => (r.1.config, r.2)) = some (false, 3) := by decide +kernel

end Dock
end PAN
