import Verif.Model.Basic
/-!
Model of `src/common/StateFieldRegistry.{hpp,cpp}`. A field is its address (its identity), its name and its EEPROM
save period; the lists hold pointers in the code.
-/
namespace PAN
namespace Registry

/-- What the registry sees of a state field or event: src/common/StateFieldBase.hpp `name()` and
src/common/StateFieldTypes.inl:95 `eeprom_save_period()`. -/
structure Field where
  addr : Nat
  name : String
  period : Nat
  deriving DecidableEq, Repr

/-- src/common/Fault.hpp:6-90 `Fault`: the five fields it consists of. -/
structure FaultObj where
  base : Field
  suppress : Field
  override : Field
  unsignal : Field
  persistence : Field
  deriving DecidableEq, Repr

/-- src/common/Fault.cpp:5-14: the names given by the constructor. The sub-fields lie inside the fault object;
`addr + 1..4` stands for their addresses. -/
def FaultObj.make (addr : Nat) (name : String) : FaultObj :=
  { base := ⟨addr, name ++ ".base", 0⟩
    suppress := ⟨addr + 1, name ++ ".suppress", 0⟩
    override := ⟨addr + 2, name ++ ".override", 0⟩
    unsignal := ⟨addr + 3, name ++ ".unsignal", 0⟩
    persistence := ⟨addr + 4, name ++ ".persistence", 0⟩ }

/-- src/common/StateFieldRegistry.hpp:18-24. -/
structure Reg where
  internal : List Field
  readable : List Field
  writable : List Field
  eeprom : List Field
  events : List Field
  faults : List FaultObj
  deriving DecidableEq, Repr

/-- src/common/StateFieldRegistry.cpp:3. -/
def empty : Reg := ⟨[], [], [], [], [], []⟩

/-- src/common/StateFieldRegistry.cpp:5-50: the five search loops over fields and events. -/
def find : List Field → String → Option Field
  | [], _ => none
  | f :: fs, n => if n = f.name then some f else find fs n

/-- src/common/StateFieldRegistry.cpp:52-59 `find_fault`; `fault->name()` is the name of the base field. -/
def findFault : List FaultObj → String → Option FaultObj
  | [], _ => none
  | f :: fs, n => if n = f.base.name then some f else findFault fs n

/-- src/common/StateFieldRegistry.cpp:61-65 `add_internal_field`. -/
def addInternal (r : Reg) (f : Field) : Bool × Reg :=
  if (find r.internal f.name).isSome then (false, r) else (true, { r with internal := r.internal ++ [f] })

/-- src/common/StateFieldRegistry.cpp:67-75 `add_readable_field`. -/
def addReadable (r : Reg) (f : Field) : Bool × Reg :=
  if (find r.readable f.name).isSome then (false, r)
  else if f.period > 0 then
    if (find r.eeprom f.name).isSome then (false, r)
    else (true, { r with eeprom := r.eeprom ++ [f], readable := r.readable ++ [f] })
  else (true, { r with readable := r.readable ++ [f] })

/-- src/common/StateFieldRegistry.cpp:77-82 `add_writable_field`. -/
def addWritable (r : Reg) (f : Field) : Bool × Reg :=
  match addReadable r f with
  | (false, r) => (false, r)
  | (true, r) =>
    if (find r.writable f.name).isSome then (false, r) else (true, { r with writable := r.writable ++ [f] })

/-- src/common/StateFieldRegistry.cpp:84-88 `add_event`. -/
def addEvent (r : Reg) (f : Field) : Bool × Reg :=
  if (find r.events f.name).isSome then (false, r) else (true, { r with events := r.events ++ [f] })

/-- src/common/StateFieldRegistry.cpp:92-96: add writable fields one after the other, stopping at the first
refusal. -/
def addAllWritable (r : Reg) : List Field → Bool × Reg
  | [] => (true, r)
  | f :: fs =>
    match addWritable r f with
    | (false, r) => (false, r)
    | (true, r) => addAllWritable r fs

/-- src/common/StateFieldRegistry.cpp:90-100 `add_fault`. -/
def addFault (r : Reg) (f : FaultObj) : Bool × Reg :=
  if (findFault r.faults f.base.name).isSome then (false, r)
  else
    match addAllWritable r [f.base, f.suppress, f.override, f.unsignal, f.persistence] with
    | (false, r) => (false, r)
    | (true, r) => (true, { r with faults := r.faults ++ [f] })

/-- The registration calls. -/
inductive Op
  | internal (f : Field)
  | readable (f : Field)
  | writable (f : Field)
  | event (f : Field)
  | fault (addr : Nat) (name : String)
  deriving DecidableEq, Repr

/-- One registration call: whether it was accepted, and the new registry. -/
def step (r : Reg) : Op → Bool × Reg
  | .internal f => addInternal r f
  | .readable f => addReadable r f
  | .writable f => addWritable r f
  | .event f => addEvent r f
  | .fault a n => addFault r (FaultObj.make a n)

/-- A sequence of registration calls. -/
def run (r : Reg) : List Op → Reg
  | [] => r
  | o :: os => run (step r o).2 os

end Registry
end PAN
