import Verif.Model.ADCSBox
import Verif.Lemmas.ADCSConv
import Mathlib.Tactic.FinCases
/-!
Theorems about the magnetic torque rods of the attitude control box (src/adcs/mtr.cpp): C50.

Every statement about a rod is made in terms of the duty cycles on its two pins, converted back to a magnetic moment
with the rod's full scale (`Spec.rodMoment`).
-/
namespace PAN

namespace Spec
open ADCS

/-- Component `i` of a triple. -/
def comp {α : Type} (v : V3 α) (i : Fin 3) : α := if i = 0 then v.x else if i = 1 then v.y else v.z

/-- The moment a rod produces: the forward minus the reverse duty cycle, full scale (32768) being the largest moment
of the rod. -/
def rodMoment (r : Rod) : ℚ := (r.fwd - r.rev) * (maxMoment / 32768)

/-- The direction each rod points in, in body coordinates (leader and follower are wired differently). -/
def rodAxis (leader : Bool) (i : Fin 3) : V3 ℚ :=
  if leader then (if i = 0 then ⟨0, 0, -1⟩ else if i = 1 then ⟨-1, 0, 0⟩ else ⟨0, -1, 0⟩)
  else (if i = 0 then ⟨0, 0, 1⟩ else if i = 1 then ⟨-1, 0, 0⟩ else ⟨0, 1, 0⟩)

/-- Scalar product. -/
def dot (a b : V3 ℚ) : ℚ := a.x * b.x + a.y * b.y + a.z * b.z

end Spec

namespace ADCS

theorem rep_scale {c : ℚ} (h : Rep32 c) : Rep32 (32768 * c) := by
  obtain ⟨m, k, hm, hk, rfl⟩ := h
  refine ⟨m, k + 15, hm, by omega, ?_⟩
  rw [zpow_split]
  norm_num
  ring

theorem pwmOf_eq {c : ℚ} (h : Rep32 c) : Hw.pwmOf c = truncZ (f32 (32768 * c / maxMoment)) := by
  unfold Hw.pwmOf
  rw [f32_rep (rep_scale h)]

theorem pwmOf_mono {a b : ℚ} (ha : Rep32 a) (hb : Rep32 b) (h : a ≤ b) : Hw.pwmOf a ≤ Hw.pwmOf b := by
  rw [pwmOf_eq ha, pwmOf_eq hb]
  exact truncZ_mono (f32_mono (div_le_div_of_nonneg_right (by linarith) maxMoment_pos.le))

theorem pwmOf_neg {a : ℚ} (ha : Rep32 a) : Hw.pwmOf (-a) = -Hw.pwmOf a := by
  rw [pwmOf_eq ha, pwmOf_eq (rep_neg ha), ← truncZ_neg, ← f32_neg]
  congr 2
  ring

/-- The moment produced for a duty cycle computed from `c` is `c` rounded towards zero to a step, up to the rounding
of one division. -/
theorem pwmOf_bound {c : ℚ} (h : Rep32 c) :
    |(Hw.pwmOf c : ℚ) * (maxMoment / 32768)| ≤ |c| * (1 + 1 / 2 ^ 23) + 1 / 2 ^ 130 ∧
    |(Hw.pwmOf c : ℚ) * (maxMoment / 32768) - c| ≤ maxMoment / 32768 + |c| / 2 ^ 23 + 1 / 2 ^ 130 := by
  have hp := maxMoment_pos
  have hs : (0 : ℚ) < maxMoment / 32768 := by positivity
  have hs1 : maxMoment / 32768 ≤ 1 := by decide +kernel
  rw [pwmOf_eq h]
  obtain ⟨t1, t2⟩ := truncZ_abs (f32 (32768 * c / maxMoment))
  have e := f32_err_abs (32768 * c / maxMoment)
  set w := 32768 * c / maxMoment with hw
  have hcw : c = w * (maxMoment / 32768) := by rw [hw]; field_simp
  have hcw' : |c| = |w| * (maxMoment / 32768) := by
    conv_lhs => rw [hcw]
    rw [abs_mul, abs_of_pos hs]
  set s := maxMoment / 32768
  set v := f32 w
  set q : ℚ := (truncZ v : ℚ)
  have hv : |v| ≤ |w| + (|w| / 2 ^ 24 + 1 / 2 ^ 150) := by
    have : v = w + (v - w) := by ring
    calc |v| = |w + (v - w)| := by rw [← this]
      _ ≤ |w| + |v - w| := abs_add_le _ _
      _ ≤ _ := by linarith
  have hw0 := abs_nonneg w
  have k3 : (1 : ℚ) / 2 ^ 150 * s ≤ 1 / 2 ^ 130 := by
    calc (1 : ℚ) / 2 ^ 150 * s ≤ 1 / 2 ^ 150 * 1 := by apply mul_le_mul_of_nonneg_left hs1; norm_num
      _ ≤ _ := by norm_num
  have hws : 0 ≤ |w| * s := mul_nonneg hw0 hs.le
  constructor
  · rw [abs_mul, abs_of_pos hs, hcw']
    have k : |q| * s ≤ (|w| + (|w| / 2 ^ 24 + 1 / 2 ^ 150)) * s := mul_le_mul_of_nonneg_right (t1.trans hv) hs.le
    norm_num at k k3 ⊢
    linarith
  · have hq : |q - w| ≤ 1 + (|w| / 2 ^ 24 + 1 / 2 ^ 150) := by
      have : q - w = (v - w) - (v - q) := by ring
      rw [this]
      refine (abs_sub _ _).trans ?_
      linarith
    have hx : q * s - c = (q - w) * s := by rw [hcw]; ring
    rw [hx, abs_mul, abs_of_pos hs, hcw']
    have k := mul_le_mul_of_nonneg_right hq hs.le
    norm_num at k k3 ⊢
    linarith

theorem clampMoment_eq (m lim : ℚ) : Hw.clampMoment m lim = if m < -lim then -lim else m := rfl

theorem rod_moment_actuate (r : Rod) (p : ℤ) : Spec.rodMoment (r.actuate p) = (p : ℚ) * (maxMoment / 32768) := by
  unfold Rod.actuate Spec.rodMoment
  split <;> simp

/-- What `mtr::actuate` does to rod `i`, in terms of the rod's axis. -/
theorem mtrActuate_rod (leader : Bool) (h : Hw) (cmd : V3 ℚ) (lim : ℚ) (i : Fin 3) :
    Spec.comp (h.mtrActuate leader 1 cmd lim).rods i =
      Hw.driveRod (Spec.dot (Spec.rodAxis leader i) cmd) lim (Spec.comp h.rods i) := by
  unfold Hw.mtrActuate
  rw [if_neg (by decide)]
  cases leader <;> fin_cases i <;>
    simp [Spec.comp, Spec.rodAxis, Spec.dot, Hw.bodyToMtr, Hw.bodyToMtrLeader, Hw.bodyToMtrFollower]

theorem rep_dot (leader : Bool) (i : Fin 3) {cmd : V3 ℚ} (h : cmd.all Rep32) : Rep32 (Spec.dot (Spec.rodAxis leader i) cmd) := by
  obtain ⟨hx, hy, hz⟩ := h
  cases leader <;> fin_cases i <;>
    simp [Spec.rodAxis, Spec.dot] <;> first | exact rep_neg hx | exact rep_neg hy | exact rep_neg hz | assumption

end ADCS

open ADCS

/-- C50 (part): for a limit that is not negative, no rod is driven beyond the limit in the negative direction, and none
is driven beyond it in the positive direction unless the commanded moment along it exceeds the limit. The slack is the
rounding of one division. Missing: the positive side when the command does exceed the limit, which is false
(`C50_above_limit`), and negative limits (`C50_counterexample_negative_limit`). -/
theorem C50_limit_partial (leader : Bool) (h : Hw) (cmd : V3 ℚ) (lim : ℚ) (i : Fin 3)
    (hc : cmd.all Rep32) (hl : Rep32 lim) (h0 : 0 ≤ lim) (hf : (Spec.comp h.rods i).functional = true) :
    let m := Spec.rodMoment (Spec.comp (h.mtrActuate leader 1 cmd lim).rods i);
    -(lim * (1 + 1 / 2 ^ 23) + 1 / 2 ^ 130) ≤ m ∧
    (Spec.dot (Spec.rodAxis leader i) cmd ≤ lim → m ≤ lim * (1 + 1 / 2 ^ 23) + 1 / 2 ^ 130) := by
  intro m
  have hm : m = (Hw.pwmOf (Hw.clampMoment (Spec.dot (Spec.rodAxis leader i) cmd) lim) : ℚ) * (maxMoment / 32768) := by
    show Spec.rodMoment _ = _
    rw [mtrActuate_rod, Hw.driveRod, if_pos hf, rod_moment_actuate]
  have hr := rep_dot leader i hc
  rw [hm]
  set x := Spec.dot (Spec.rodAxis leader i) cmd
  rw [clampMoment_eq]
  have bl := (pwmOf_bound hl).1
  have hs : (0 : ℚ) ≤ maxMoment / 32768 := by have := maxMoment_pos; positivity
  rw [abs_of_nonneg h0, abs_le] at bl
  have bln : -(lim * (1 + 1 / 2 ^ 23) + 1 / 2 ^ 130) ≤ (Hw.pwmOf (-lim) : ℚ) * (maxMoment / 32768) := by
    rw [pwmOf_neg hl]; push_cast; linarith [bl.2]
  have mono : ∀ a b : ℚ, Rep32 a → Rep32 b → a ≤ b →
      (Hw.pwmOf a : ℚ) * (maxMoment / 32768) ≤ (Hw.pwmOf b : ℚ) * (maxMoment / 32768) := fun a b ha hb hab =>
    mul_le_mul_of_nonneg_right (by exact_mod_cast pwmOf_mono ha hb hab) hs
  split
  · exact ⟨bln, fun _ => le_trans (mono _ _ (rep_neg hl) hl (by linarith)) bl.2⟩
  · rename_i hn
    exact ⟨le_trans bln (mono _ _ (rep_neg hl) hr (by linarith)), fun hx => le_trans (mono _ _ hr hl hx) bl.2⟩

/-- C50: a command within the limit reaches the rod: the moment produced is the moment commanded along the rod's axis,
to within one step of the 16-bit duty cycle. -/
theorem C50_faithful (leader : Bool) (h : Hw) (cmd : V3 ℚ) (lim : ℚ) (i : Fin 3)
    (hc : cmd.all Rep32) (hlow : -lim ≤ Spec.dot (Spec.rodAxis leader i) cmd)
    (hf : (Spec.comp h.rods i).functional = true) :
    let x := Spec.dot (Spec.rodAxis leader i) cmd
    |Spec.rodMoment (Spec.comp (h.mtrActuate leader 1 cmd lim).rods i) - x| ≤
      maxMoment / 32768 + |x| / 2 ^ 23 + 1 / 2 ^ 130 := by
  intro x
  have hr := rep_dot leader i hc
  rw [mtrActuate_rod, Hw.driveRod, if_pos hf, rod_moment_actuate, clampMoment_eq, if_neg (by linarith)]
  exact (pwmOf_bound hr).2

/-- C50, refuted: whenever the moment commanded along a rod exceeds the limit, by however much, the rod is driven with
the command and not with the limit. -/
theorem C50_above_limit (leader : Bool) (h : Hw) (cmd : V3 ℚ) (lim : ℚ) (i : Fin 3)
    (hc : cmd.all Rep32) (h0 : 0 ≤ lim) (hx : lim < Spec.dot (Spec.rodAxis leader i) cmd)
    (hf : (Spec.comp h.rods i).functional = true) :
    let x := Spec.dot (Spec.rodAxis leader i) cmd
    x - (maxMoment / 32768 + x / 2 ^ 23 + 1 / 2 ^ 130) ≤
      Spec.rodMoment (Spec.comp (h.mtrActuate leader 1 cmd lim).rods i) := by
  intro x
  have := C50_faithful leader h cmd lim i hc (by linarith) hf
  simp only [] at this
  rw [abs_le, abs_of_pos (lt_of_le_of_lt h0 hx)] at this
  linarith [this.1]

namespace Spec
/-- Surroundings in which everything works. -/
def goodEnv : Env := ⟨true, true, fun _ => true, fun _ => true, none, 2, V3.zero⟩

/-- A box that has been switched on, has received the given messages and has then completed `n` steps. -/
def boxAfter (msgs : List (List U8)) (n : ℕ) : Option (Box × List Act) :=
  Box.run true (Box.boot true fun _ => true) (msgs.map .recv ++ List.replicate n (.tick goodEnv))
end Spec

/-- C50, counterexample: limit 0.01, moment 0.05 commanded: messages "active", "rods on with moment (-0.05, 0, 0)",
"limit 0.01"; after one pass the second rod is driven with more than four times the limit. -/
theorem C50_counterexample_above : ∃ b acts, Spec.boxAfter [[1, 1], [10, 1, 0x14, 0x0F, 0xFF, 0x7F, 0xFF, 0x7F], [12, 0x95, 0x96]] 10 = some (b, acts) ∧
    b.regs.mtrLimit < 101 / 10000 ∧ b.regs.mtrCmd.x < -(499 / 10000) ∧ 499 / 10000 < Spec.rodMoment b.hw.rods.y := by
  have h : ((Spec.boxAfter [[1, 1], [10, 1, 0x14, 0x0F, 0xFF, 0x7F, 0xFF, 0x7F], [12, 0x95, 0x96]] 10).map
      fun r => decide (r.1.regs.mtrLimit < 101 / 10000 ∧ r.1.regs.mtrCmd.x < -(499 / 10000) ∧
        499 / 10000 < Spec.rodMoment r.1.hw.rods.y)) = some true := by decide +kernel
  cases hr : Spec.boxAfter [[1, 1], [10, 1, 0x14, 0x0F, 0xFF, 0x7F, 0xFF, 0x7F], [12, 0x95, 0x96]] 10 with
  | none => rw [hr] at h; simp at h
  | some r =>
    rw [hr] at h
    simp only [Option.map_some, Option.some.injEq, decide_eq_true_eq] at h
    exact ⟨r.1, r.2, rfl, h⟩

/-- C50, counterexample: a negative limit, which the bus protocol and the ground commands allow, drives all rods with
its absolute value although the commanded moment is zero. -/
theorem C50_counterexample_negative_limit (leader : Bool) (h : Hw) (lim : ℚ) (i : Fin 3)
    (hl : Rep32 lim) (h0 : lim < 0) (hf : (Spec.comp h.rods i).functional = true) :
    |Spec.rodMoment (Spec.comp (h.mtrActuate leader 1 V3.zero lim).rods i) - -lim| ≤
      maxMoment / 32768 + |lim| / 2 ^ 23 + 1 / 2 ^ 130 := by
  have hz : Spec.dot (Spec.rodAxis leader i) V3.zero = 0 := by simp [Spec.dot, V3.zero]
  rw [mtrActuate_rod, Hw.driveRod, if_pos hf, rod_moment_actuate, clampMoment_eq, hz, if_pos (by linarith)]
  have := (pwmOf_bound (rep_neg hl)).2
  rwa [abs_neg] at this

/-- C50: with the rods switched off every rod in service gets duty cycle zero; a rod out of service is left alone in
either mode. -/
theorem C50_off (leader : Bool) (h : Hw) (mode : U8) (cmd : V3 ℚ) (lim : ℚ) (i : Fin 3) :
    ((Spec.comp h.rods i).functional = true → mode ≠ 1 →
      Spec.rodMoment (Spec.comp (h.mtrActuate leader mode cmd lim).rods i) = 0) ∧
    ((Spec.comp h.rods i).functional = false →
      Spec.comp (h.mtrActuate leader mode cmd lim).rods i = Spec.comp h.rods i) := by
  constructor
  · intro hf hm
    unfold Hw.mtrActuate
    rw [if_pos hm]
    have : Spec.comp (h.rods.map Hw.idleRod) i = (Spec.comp h.rods i).actuate 0 := by
      fin_cases i <;> simp_all [Spec.comp, V3.map, Hw.idleRod]
    show Spec.rodMoment (Spec.comp (h.rods.map Hw.idleRod) i) = 0
    rw [this, rod_moment_actuate]; simp
  · intro hf
    by_cases hm : mode = 1
    · subst hm
      rw [mtrActuate_rod, Hw.driveRod, if_neg (by simp [hf])]
    · unfold Hw.mtrActuate
      rw [if_pos hm]
      fin_cases i <;> simp_all [Spec.comp, V3.map, Hw.idleRod]

/-- Non-vacuity: a box just switched on, a limit of 0.03 and moments on both sides of it. -/
example : (Spec.comp (Box.boot true fun _ => true).hw.rods 1).functional = true ∧ (0 : ℚ) ≤ f32 (3 / 100) ∧
    f32 (3 / 100) < Spec.dot (Spec.rodAxis true 1) ⟨f32 (-5 / 100), 0, 0⟩ ∧
    Spec.dot (Spec.rodAxis true 0) ⟨f32 (-5 / 100), 0, 0⟩ ≤ f32 (3 / 100) := by decide +kernel
example : (⟨f32 (-5 / 100), 0, 0⟩ : V3 ℚ).all Rep32 ∧ Rep32 (f32 (3 / 100)) :=
  ⟨⟨rep_f32 _, rep_int (n := 0) (by norm_num), rep_int (n := 0) (by norm_num)⟩, rep_f32 _⟩

end PAN
