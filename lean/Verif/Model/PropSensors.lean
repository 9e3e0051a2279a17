import Verif.Model.Float64
import Mathlib.Analysis.SpecialFunctions.Pow.Real
/-!
Model of the propulsion system's sensors (`src/fsw/FCCode/Drivers/PropulsionSystem.{hpp,cpp}`, flight branches): the pressure of the
thrust tank and the temperatures of both tanks, from the numbers the analogue converter returns. The converter is set to ten bits
(src/fsw/FCCode/Drivers/PropulsionSystem.cpp:82), so that these are below 1024.

The pressure is computed exactly as in the code, in rounded double and single precision (`f64`, `f32`). The temperature uses the
library's logarithm and power: the model has the exact value, and the reading is the integer part of any number within a
hundredth of a degree of it.
-/
namespace PAN

/-- src/fsw/FCCode/Drivers/PropulsionSystem.hpp:330-342: slope and offset of the fine sensor, of the leader and of the follower. -/
def highGain (leader : Bool) : ℚ × ℚ :=
  if leader then (f64 (48515346351665 / 10 ^ 15), f64 (-184718912018209 / 10 ^ 15))
  else (f64 (48704545372229 / 10 ^ 15), f64 (-117344667889011 / 10 ^ 15))

/-- src/fsw/FCCode/Drivers/PropulsionSystem.hpp:330-342: slope and offset of the coarse sensor. -/
def lowGain (leader : Bool) : ℚ × ℚ :=
  if leader then (f64 (99084652547468 / 10 ^ 15), f64 (8416069224410 / 10 ^ 15))
  else (f64 (99017990785657 / 10 ^ 15), f64 (154615074342871 / 10 ^ 15))

/-- src/fsw/FCCode/Drivers/PropulsionSystem.cpp:157-179 `get_pressure()` with `amp_threshold` (src/fsw/FCCode/Drivers/PropulsionSystem.hpp:345). -/
def tankPressure (leader : Bool) (low high : ℕ) : ℚ :=
  if high < 950 then f32 (f64 (f64 ((highGain leader).1 * high) + (highGain leader).2))
  else f32 (f64 (f64 ((lowGain leader).1 * low) + (lowGain leader).2))

/-- src/fsw/FCCode/Drivers/PropulsionSystem.cpp:119-130, the exact value; the constants are
src/fsw/FCCode/Drivers/PropulsionSystem.hpp:237-244. -/
noncomputable def tankTemp (raw : ℕ) : ℝ :=
  let voltage : ℝ := raw * 3.3 / 1024
  if |3.3 - voltage| < 1 / 10 ^ 4 then -55
  else
    let resist : ℝ := voltage * 6200 / (3.3 - voltage)
    if |resist| ≤ 1 then 150
    else -35126.92396 * Real.log resist ^ (0.005 : ℝ) + 35493.23411

/-- src/fsw/FCCode/Drivers/PropulsionSystem.cpp:108-131 `get_temp()`: `t` may be returned for the converter's number `raw`. The
conversion to `int` drops the fraction. -/
def TempReads (raw : ℕ) (t : ℤ) : Prop :=
  ∃ x : ℝ, |x - tankTemp raw| ≤ 1 / 100 ∧ t = if 0 ≤ x then ⌊x⌋ else ⌈x⌉

end PAN
