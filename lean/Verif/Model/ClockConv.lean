import Verif.Model.Timing

/-!
The conversion between the clock and the number of the control cycle (src/fsw/FCCode/ClockManager.cpp), in the flight build, where
system times and durations are 32-bit numbers of microseconds (src/fsw/FCCode/TimedControlTask.hpp:31-32).
-/
namespace PAN

namespace Tim

/-- src/fsw/FCCode/constants.hpp:13-16 `control_cycle_time` in the flight build, in microseconds; the clock manager is constructed with it
(src/fsw/FCCode/MainControlLoop.cpp:28). -/
def cycleSize : U32 := 170000

/-- src/fsw/FCCode/ClockManager.cpp:22-25 `systime_to_cycle`; `start` is `initial_start_cycling_time`, read from the clock by the
constructor (src/fsw/FCCode/ClockManager.cpp:13). -/
def systimeToCycle (start time : U32) : U32 := (time - start) / cycleSize

/-- src/fsw/FCCode/ClockManager.cpp:27-30 `cycle_to_systime`. -/
def cycleToSystime (start ccno : U32) : U32 := start + ccno * cycleSize

end Tim
end PAN
