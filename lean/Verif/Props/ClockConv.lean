import Verif.Model.ClockConv

/-!
C137: the clock manager's conversions between the clock and control cycle numbers. Time is a natural number of microseconds since
power-up, as in C16; the program sees `Tim.micros` of it.
-/

namespace PAN

namespace Spec

/-- The number of whole control cycles of 170 ms in a time given in microseconds. -/
def wholeCycles (us : Nat) : Nat := us / 170000

end Spec
open Spec Tim

theorem micros_diff (t0 d : Nat) : (micros (t0 + d) - micros t0).toNat = d % 4294967296 := by
  unfold micros
  rw [BitVec.toNat_sub, BitVec.toNat_ofNat, BitVec.toNat_ofNat]
  rw [show (2 : Nat) ^ 32 = 4294967296 from rfl]
  omega

theorem cycle_toNat (t0 d : Nat) :
    (systimeToCycle (micros t0) (micros (t0 + d))).toNat = d % 4294967296 / 170000 := by
  unfold systimeToCycle
  rw [BitVec.toNat_udiv, micros_diff]
  rfl

/-- The cycle number given for a time is the number of whole cycles since cycling started exactly as long as that is less than 2³² µs
(about 71 minutes) ago; for every later time it is too small. Missing from the full property: those later times. -/
theorem C137_cycle_of_time_partial (t0 d : Nat) :
    (d < 2 ^ 32 → (systimeToCycle (micros t0) (micros (t0 + d))).toNat = wholeCycles d) ∧
    (2 ^ 32 ≤ d → (systimeToCycle (micros t0) (micros (t0 + d))).toNat < wholeCycles d) := by
  rw [cycle_toNat, show (2 : Nat) ^ 32 = 4294967296 from rfl]
  unfold wholeCycles
  constructor
  · intro h
    rw [Nat.mod_eq_of_lt h]
  · intro h
    omega

/-- Where it fails: no time is ever taken to be in a cycle after 25264, however long the satellite has been running. -/
theorem C137_counterexample_wraps (t0 d : Nat) : (systimeToCycle (micros t0) (micros (t0 + d))).toNat ≤ 25264 := by
  rw [cycle_toNat]
  omega

/-- The time given for a cycle is what the clock shows when that many whole cycles have passed since cycling started, for every cycle
number, also after the clock has wrapped around. -/
theorem C137_time_of_cycle (t0 n : Nat) :
    cycleToSystime (micros t0) (BitVec.ofNat 32 n) = micros (t0 + n * 170000) := by
  apply BitVec.eq_of_toNat_eq
  unfold cycleToSystime micros cycleSize
  rw [BitVec.toNat_add, BitVec.toNat_mul, BitVec.toNat_ofNat, BitVec.toNat_ofNat, BitVec.toNat_ofNat]
  show (t0 % 4294967296 + n % 4294967296 * 170000 % 4294967296) % 4294967296 = (t0 + n * 170000) % 4294967296
  omega

/-- Converting a cycle number to a time and back gives the cycle number again exactly up to cycle 25264. Missing from the full
property: later cycles. -/
theorem C137_round_trip_partial (t0 : Nat) (n : U32) :
    systimeToCycle (micros t0) (cycleToSystime (micros t0) n) = n ↔ n.toNat ≤ 25264 := by
  have hn : cycleToSystime (micros t0) n = micros (t0 + n.toNat * 170000) := by
    rw [← C137_time_of_cycle, BitVec.ofNat_toNat, BitVec.setWidth_eq]
  rw [hn]
  constructor
  · intro h
    have := C137_counterexample_wraps t0 (n.toNat * 170000)
    rw [h] at this
    exact this
  · intro h
    apply BitVec.eq_of_toNat_eq
    rw [cycle_toNat]
    omega

/-- Within 2³² µs of the start of cycling a later time never converts to an earlier cycle. Missing from the full property: later times. -/
theorem C137_monotone_partial (t0 d d' : Nat) (h : d ≤ d') (hd : d' < 2 ^ 32) :
    (systimeToCycle (micros t0) (micros (t0 + d))).toNat ≤ (systimeToCycle (micros t0) (micros (t0 + d'))).toNat := by
  rw [(C137_cycle_of_time_partial t0 d).1 (by omega), (C137_cycle_of_time_partial t0 d').1 hd]
  exact Nat.div_le_div_right h

/-! ### The hypotheses are met -/

/-- Cycling started 1.5 s before the clock wrapped around, and 10 s have passed: cycle 58. -/
example : (systimeToCycle (micros 4293467296) (micros (4293467296 + 10000000))).toNat = 58 ∧ 10000000 < 2 ^ 32 ∧ wholeCycles 10000000 = 58 := by
  decide +kernel
/-- After 72 minutes the conversion has started again. -/
example : (systimeToCycle (micros 1500000) (micros (1500000 + 4320000000))).toNat = 147 ∧ wholeCycles 4320000000 = 25411 := by
  decide +kernel
example : cycleToSystime (micros 1500000) 25264 = micros (1500000 + 25264 * 170000) ∧
    systimeToCycle (micros 1500000) (cycleToSystime (micros 1500000) 25264) = 25264 ∧
    systimeToCycle (micros 1500000) (cycleToSystime (micros 1500000) 25265) ≠ 25265 := by decide +kernel

end PAN
