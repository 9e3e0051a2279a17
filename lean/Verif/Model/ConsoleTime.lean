import Verif.Model.Basic
/-!
The time stamp of what the console prints (src/common/debug_console.cpp), in the flight build.
-/
namespace PAN
namespace ConsoleTime

/-- A call: the milliseconds since power-up, of which `millis()` gives the low 32 bits, and whether a computer is connected. -/
structure Call where
  now : Nat
  connected : Bool

/-- src/common/debug_console.cpp:87-101 `_get_elapsed_time`: the new `start_time` and the stamp. -/
def elapsed (start : U32) (c : Call) : U32 × U32 :=
  let current : U32 := BitVec.ofNat 32 c.now
  let start := if !c.connected then current else start
  (start, current - start)

/-- `start_time` after a history of calls; it is 0 at power-up (src/common/debug_console.cpp:60). -/
def startAfter (h : List Call) : U32 := h.foldl (fun s c => (elapsed s c).1) 0

/-- The stamp a call gives after a history. -/
def stamp (h : List Call) (c : Call) : U32 := (elapsed (startAfter h) c).2

end ConsoleTime
end PAN
