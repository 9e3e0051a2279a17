import Verif.Model.Registry
import Verif.Model.Serializer
import Verif.Model.VectorSer
import Verif.Model.Downlink
/-!
Model of how the flight software is put together when it starts: the calls by which control tasks register their state
fields and look up those of other tasks (src/fsw/FCCode/ControlTask.hpp:44-192), on top of the registry of
`Verif/Model/Registry.lean`. Every such call asserts that it succeeded, so one that fails stops the program: `none`.
-/
namespace PAN
namespace Startup

/-- The C++ types the state fields are templates over. -/
inductive Ty
  | bool | uchar | schar | uint | sint | float | double | vec3d | vec3f | vec4f | vec4d | arr3f | gps | ptr | size | ullong
  deriving DecidableEq, Repr

/-- The state field classes: src/common/StateFieldTypes.inl:7-22, 206-262 (`InternalStateField`,
`ReadableStateField`, `WritableStateField`). None of the three is derived from another of them. -/
inductive Kind
  | internal | readable | writable
  deriving DecidableEq, Repr

/-- A serializer as constructed: src/common/SerializerTypes.inl:20 `bool`, 68-78 integers (with and without an explicit
size), 217-218 floating point, 395-432 vectors, 524-545 quaternions, 769-777 GPS times. Limits that are
not integers are kept as written, before they are rounded to a `float` or `double`. -/
inductive Ser
  | bool
  | int (kind : IntKind) (min max : Int)
  | sized (kind : IntKind) (min max : Int) (size : Nat)
  | real (min max : ℚ) (size : Nat)
  | vec (min max : ℚ) (precision : Nat)
  | quat
  | gps
  deriving DecidableEq, Repr

/-- src/common/Serializer.hpp:57-68, 180 `bitsize()`, for each serializer as in `Ser`. -/
noncomputable def Ser.width : Ser → Nat
  | .bool => 1
  | .int k min max => (IntSer.mkRange k min max).bits.length
  | .sized k min max size => (IntSer.mkSized k min max size).bits.length
  | .real _ _ size => size
  | .vec min max p => VecSer.totalSize min max p
  | .quat => QuatSer.componentSize * 3 + 2
  | .gps => GpsSer.new.bits.length

/-- A state field object: its class, name, value type, serializer (none for an internal field) and EEPROM save period
(src/common/StateFieldTypes.inl:59-90, the constructors). -/
structure Decl where
  kind : Kind
  name : String
  ty : Ty
  ser : Option Ser
  period : Nat
  deriving DecidableEq, Repr

/-- The calls of ControlTask, and `EEPROMController::init`. -/
inductive Call
  | add (d : Decl)
  | fault (name : String)
  | find (kind : Kind) (name : String) (ty : Ty)
  | findFault (name : String)
  | eepromInit
  deriving DecidableEq, Repr

/-- src/common/Fault.cpp:5-14 with src/common/Fault.hpp:6-90: the five fields of a fault. -/
def faultDecls (n : String) : List Decl :=
  [⟨.writable, n ++ ".base", .bool, some .bool, 0⟩, ⟨.writable, n ++ ".suppress", .bool, some .bool, 0⟩,
   ⟨.writable, n ++ ".override", .bool, some .bool, 0⟩, ⟨.writable, n ++ ".unsignal", .bool, some .bool, 0⟩,
   ⟨.writable, n ++ ".persistence", .uint, some (.int .uint 0 1048575), 0⟩]

/-- The registry, and the state field objects that have been registered; an object's address is its place among
them. -/
structure St where
  reg : Registry.Reg
  objs : List Decl

/-- Before the first constructor runs. -/
def St.empty : St := ⟨Registry.empty, []⟩

/-- src/fsw/FCCode/ControlTask.hpp:78-97: which registry call is made for a field. -/
def addDecl (r : Registry.Reg) (addr : Nat) (d : Decl) : Bool × Registry.Reg :=
  match d.kind with
  | .internal => Registry.addInternal r ⟨addr, d.name, d.period⟩
  | .readable => Registry.addReadable r ⟨addr, d.name, d.period⟩
  | .writable => Registry.addWritable r ⟨addr, d.name, d.period⟩

/-- src/fsw/FCCode/ControlTask.hpp:161-180: the list that is searched. -/
def listOf (r : Registry.Reg) : Kind → List Registry.Field
  | .internal => r.internal
  | .readable => r.readable
  | .writable => r.writable

/-- src/fsw/FCCode/ControlTask.hpp:44-192: the calls and their assertions. A lookup asserts that the name is found
(lines 111-130) and that the object is of the class looked for (132-153, a dynamic cast). -/
def step (s : St) : Call → Option St
  | .add d =>
    match addDecl s.reg s.objs.length d with
    | (false, _) => none
    | (true, r) => some { reg := r, objs := s.objs ++ [d] }
  | .fault n =>
    match Registry.addFault s.reg (Registry.FaultObj.make s.objs.length n) with
    | (false, _) => none
    | (true, r) => some { reg := r, objs := s.objs ++ faultDecls n }
  | .find k n t =>
    match Registry.find (listOf s.reg k) n with
    | none => none
    | some f =>
      match s.objs[f.addr]? with
      | none => none
      | some d => if d.kind = k ∧ d.ty = t then some s else none
  | .findFault n =>
    match Registry.findFault s.reg.faults n with
    | none => none
    | some _ => some s
  | .eepromInit => if s.reg.eeprom.length ≤ 4096 / 5 then some s else none

/-- The calls, one after the other. `eepromInit` is the assertion of src/fsw/FCCode/EEPROMControllerCommon.cpp:3-20. -/
def run (s : St) : List Call → Option St
  | [] => some s
  | c :: cs =>
    match step s c with
    | none => none
    | some s => run s cs

/-- src/fsw/FCCode/MainControlLoop.cpp:14-99: the constructors run in the order of the members. -/
def start (cs : List Call) : Option St := run .empty cs

/-- src/fsw/FCCode/DownlinkProducer.cpp:204-219: the object a name in the list of flows stands for. -/
def resolveField (r : Registry.Reg) (n : String) : Option Nat :=
  match Registry.find r.readable n, Registry.find r.events n with
  | none, some e => some e.addr
  | some f, none => some f.addr
  | _, _ => none

/-- The names of one flow. -/
def resolveFields (r : Registry.Reg) : List String → Option (List Nat)
  | [] => some []
  | n :: ns =>
    match resolveField r n, resolveFields r ns with
    | some a, some as => some (a :: as)
    | _, _ => none

/-- src/fsw/FCCode/DownlinkProducer.hpp:23-27 `FlowData`, with the names. -/
structure NamedFlow where
  id : Nat
  active : Bool
  fields : List String
  deriving DecidableEq, Repr

/-- The flows with their names resolved. (The code resolves and checks flow by flow; a failure anywhere is an assertion
either way.) -/
def resolveFlows (r : Registry.Reg) : List NamedFlow → Option (List Downlink.FlowData)
  | [] => some []
  | f :: fs =>
    match resolveFields r f.fields, resolveFlows r fs with
    | some as, some rest => some ({ id := f.id, active := f.active, fields := as } :: rest)
    | _, _ => none

/-- The number of bits of the object at an address: `get_bit_array().size()` (src/common/StateFieldTypes.inl:167). -/
noncomputable def widthAt (objs : List Decl) (a : Nat) : Nat :=
  match objs[a]? with
  | some d => (d.ser.map Ser.width).getD 0
  | none => 0

end Startup
end PAN
