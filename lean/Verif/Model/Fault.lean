import Verif.Model.Basic
/-!
Model of `src/common/Fault.{hpp,cpp}`.
-/
namespace PAN

/-- src/common/Fault.hpp:6-107: the base boolean field, the four ground-writable sub-fields and the
private bookkeeping. `persistence` is an `unsigned int` field, `num` is `num_consecutive_signals`. -/
structure Fault where
  value : Bool
  suppress : Bool
  override : Bool
  unsig : Bool
  persistence : U32
  lastFaultTime : U32
  num : U32
  prevSuppress : Bool
  prevOverride : Bool
  deriving DecidableEq, Repr

namespace Fault

/-- src/common/Fault.cpp:5-21 constructor, with the default member values of src/common/Fault.hpp:92-100. -/
def init (persistence : U32) : Fault :=
  { value := false, suppress := false, override := false, unsig := false, persistence,
    lastFaultTime := 0, num := 0, prevSuppress := false, prevOverride := false }

/-- src/common/Fault.cpp:33-37 and 62-66: `set(num_consecutive_signals > persistence_f.get())`. -/
def refresh (f : Fault) : Fault := { f with value := decide (f.num > f.persistence) }

/-- src/common/Fault.cpp:28-38 `signal()`; `cc` is `*cc`, the current control cycle count. -/
def signal (f : Fault) (cc : U32) : Fault :=
  let f := if cc > f.lastFaultTime ∨ cc = 0 then
      { f with num := f.num + 1, lastFaultTime := cc }
    else f
  f.refresh

/-- src/common/Fault.cpp:40-42 `unsignal()`. -/
def unsignal (f : Fault) : Fault := { f with num := 0 }

/-- src/common/Fault.cpp:23-26 `evaluate(flag)`. -/
def evaluate (f : Fault) (cc : U32) (flag : Bool) : Fault :=
  if flag then f.signal cc else f.unsignal

/-- src/common/Fault.cpp:77-91 `process_commands()`. -/
def processCommands (f : Fault) : Fault :=
  let f := if f.prevOverride = false ∧ f.override then { f with num := 0 } else f
  let f := if f.prevSuppress = false ∧ f.suppress then { f with num := 0 } else f
  let f := { f with prevOverride := f.override, prevSuppress := f.suppress }
  if f.unsig then { f with unsig := false, num := 0 } else f

/-- src/common/Fault.cpp:59-66: the state left behind by `is_faulted()`. -/
def poll (f : Fault) : Fault := f.processCommands.refresh

/-- src/common/Fault.cpp:68-74: the value returned by `is_faulted()`. -/
def isFaulted (f : Fault) : Bool :=
  let f := f.poll
  if f.override then true else if f.suppress then false else f.value

end Fault

/-- Calls and ground writes a fault can receive. Ground writes come from the uplink consumer, which can
set every writable sub-field (src/common/StateFieldRegistry.cpp:90-100 registers them writable). -/
inductive FaultOp where
  | signal (cc : U32)
  | unsignal
  | poll
  | setSuppress (b : Bool)
  | setOverride (b : Bool)
  | setUnsignal (b : Bool)
  | setPersistence (p : U32)
  | setBase (b : Bool)
  deriving DecidableEq, Repr

namespace Fault

/-- Effect of one call or ground write. -/
def step (f : Fault) : FaultOp → Fault
  | .signal cc => f.signal cc
  | .unsignal => f.unsignal
  | .poll => f.poll
  | .setSuppress b => { f with suppress := b }
  | .setOverride b => { f with override := b }
  | .setUnsignal b => { f with unsig := b }
  | .setPersistence p => { f with persistence := p }
  | .setBase b => { f with value := b }

/-- A history of calls, oldest first. -/
def run (f : Fault) (ops : List FaultOp) : Fault := ops.foldl step f

end Fault
end PAN
