import Verif.Model.Basic
/-!
Model of `src/fsw/FCCode/EEPROMController*.{hpp,cpp}` and of the EEPROM part of `src/common/StateFieldTypes.inl`.
Two variants: the desktop build keeps a JSON object from field names to values, the Teensy build single bytes at
address `5 * i`.
-/
namespace PAN
namespace EEPROM

/-- src/common/StateFieldTypes.inl:68-74: the types that can be saved. -/
inductive Ty | uint | sint | uchar | schar | bool
  deriving DecidableEq, Repr

/-- src/common/StateFieldTypes.inl:103-118 `get_eeprom_repr()`. Values are integers (`false` is 0, `true` is 1). -/
def Ty.repr : Ty → Int → Nat
  | .uint, v => (v % 2 ^ 32).toNat
  | .sint, v => (v % 2 ^ 32).toNat
  | .bool, v => (v % 2 ^ 32).toNat
  | .uchar, v => (v % 2 ^ 8).toNat
  | .schar, v => (v % 2 ^ 8).toNat

/-- src/common/StateFieldTypes.inl:135-152 `set_from_eeprom(val)`: the new value of a field whose value was `old`. -/
def Ty.restore : Ty → Int → Nat → Int
  | .uint, _, x => x
  | .sint, _, x => ((x : Int) + 2 ^ 31) % 2 ^ 32 - 2 ^ 31
  | .uchar, old, x => if x > 255 then old else x
  | .schar, old, x => if x > 255 then old else ((x : Int) + 2 ^ 7) % 2 ^ 8 - 2 ^ 7
  | .bool, old, x => if x > 1 then old else x

/-- A saved state field (an element of `eeprom_saved_fields`) and the value it is constructed with. -/
structure SField where
  name : String
  ty : Ty
  period : Nat
  default : Int
  deriving DecidableEq, Repr

/-- src/fsw/FCCode/EEPROMControllerDesktop.cpp:29-33 and src/fsw/FCCode/EEPROMControllerTeensy.cpp:17-22: set one field from the
value `x` read from memory, unless it is the mission state and `x` is neither `docking` (8) nor `docked` (9). -/
def setField (f : SField) (old : Int) (x : Nat) : Int :=
  if f.name = "pan.state" ∧ x ≠ 8 ∧ x ≠ 9 then old else f.ty.restore old x

/-- src/fsw/FCCode/EEPROMControllerCommon.cpp:22-29 `execute()`: the first `k` iterations of the loop (a reset may
strike between two of them). The save period of a saved field is never 0. -/
def saveLoop {M : Type} (save : M → Nat → M) (fields : List SField) (cc : Nat) (m : M) : Nat → M
  | 0 => m
  | k + 1 =>
    let m := saveLoop save fields cc m k
    match fields[k]? with
    | none => m
    | some f => if cc % f.period = 0 then save m k else m

/-! ### Desktop -/

/-- The JSON object, as the list of its members. -/
abbrev Json := List (String × Nat)

/-- src/fsw/FCCode/EEPROMControllerDesktop.cpp:38-42 `update_EEPROM`. -/
def Json.update (fields : List SField) (vals : List Int) (m : Json) (i : Nat) : Json :=
  match fields[i]?, vals[i]? with
  | some f, some v => (f.name, f.ty.repr v) :: m.filter fun e => e.1 ≠ f.name
  | _, _ => m

/-- src/fsw/FCCode/EEPROMControllerDesktop.cpp:23-36 `read_EEPROM`, for field `f`. -/
def Json.readField (m : Json) (f : SField) (old : Int) : Int :=
  match m.lookup f.name with
  | none => old
  | some x => setField f old x

/-- src/fsw/FCCode/EEPROMControllerCommon.cpp:3-20 `init()` with src/fsw/FCCode/EEPROMControllerDesktop.cpp:44-46 `check_empty`: the
field values after start-up; a failed assertion is `none`. The file written by the signal handler (lines 48-56) is
taken to be the object at the time of the reboot. -/
def Json.init (fields : List SField) (m : Json) : Option (List Int) :=
  if fields.length ≤ 4096 / 5 then
    if m.length = 0 then some (fields.map (·.default)) else some (fields.map fun f => m.readField f f.default)
  else none

/-! ### Teensy -/

/-- The EEPROM: one byte per address (`EEPROM.length()` of them). -/
abbrev Bytes := List U8

/-- `EEPROM.read(a)`; the library returns one byte. Addresses outside the device are not used. -/
def Bytes.read (m : Bytes) (a : Nat) : U8 := m.getD a 255

/-- src/fsw/FCCode/EEPROMControllerTeensy.cpp:26-32 `update_EEPROM`. `EEPROM.update(int, uint8_t)` keeps the low byte
of the value. -/
def Bytes.update (fields : List SField) (vals : List Int) (m : Bytes) (i : Nat) : Bytes :=
  match fields[i]?, vals[i]? with
  | some f, some v =>
    if (m.read (5 * i)).toNat ≠ f.ty.repr v then m.set (5 * i) (BitVec.ofNat 8 (f.ty.repr v)) else m
  | _, _ => m

/-- src/fsw/FCCode/EEPROMControllerTeensy.cpp:34-44 `check_empty`. -/
def Bytes.empty (m : Bytes) : Bool := m.all fun b => b = 255

/-- src/fsw/FCCode/EEPROMControllerTeensy.cpp:11-24 `read_EEPROM`, from field number `i` on. -/
def Bytes.readFrom (m : Bytes) (i : Nat) : List SField → List Int
  | [] => []
  | f :: fs => setField f f.default (m.read (5 * i)).toNat :: Bytes.readFrom m (i + 1) fs

/-- src/fsw/FCCode/EEPROMControllerCommon.cpp:3-20 `init()` on the Teensy. -/
def Bytes.init (fields : List SField) (m : Bytes) : Option (List Int) :=
  if fields.length ≤ 4096 / 5 then
    if m.empty then some (fields.map (·.default)) else some (m.readFrom 0 fields)
  else none

/-! ### Histories -/

/-- A control cycle: the cycle count and the field values when the EEPROM task runs (the other tasks and the ground set
them), and the number of loop iterations made. A cycle cut short by a reset has `iters` less than the number of
fields. -/
structure Cycle where
  cc : Nat
  vals : List Int
  iters : Nat
  deriving DecidableEq, Repr

/-- The memory after a history of control cycles, on any number of boots. (Booting does not write to memory.) -/
def Json.run (fields : List SField) : Json → List Cycle → Json
  | m, [] => m
  | m, c :: cs => Json.run fields (saveLoop (Json.update fields c.vals) fields c.cc m c.iters) cs

/-- The same on the Teensy. -/
def Bytes.run (fields : List SField) : Bytes → List Cycle → Bytes
  | m, [] => m
  | m, c :: cs => Bytes.run fields (saveLoop (Bytes.update fields c.vals) fields c.cc m c.iters) cs

/-- The saved fields of the flight software in registration order: src/fsw/FCCode/FieldCreatorTask.hpp:26,
src/fsw/FCCode/Estimators/AttitudeEstimator.cpp:44-45 and 71-72, src/fsw/FCCode/MissionManager.cpp:37-42 and 88-95 (`pan.state` starts as `startup`;
fields without an explicit value are value-initialised to 0). -/
def flightFields : List SField :=
  [⟨"pan.bootcount", .uchar, 100, 0⟩,
   ⟨"attitude_estimator.mag_flag", .bool, 1, 0⟩,
   ⟨"attitude_estimator.ignore_sun_vectors", .bool, 1, 0⟩,
   ⟨"pan.state", .uchar, 1, 0⟩,
   ⟨"pan.deployed", .bool, 1, 0⟩,
   ⟨"pan.deployment.elapsed", .uchar, 1, 0⟩,
   ⟨"pan.kill_switch", .uchar, 100, 0⟩]

/-- src/fsw/FCCode/MissionManager.cpp:98-100 `init()`, run after the EEPROM has been read
(src/fsw/FCCode/MainControlLoop.cpp:82-83): the boot count (field 0) is incremented. -/
def countBoot (vals : List Int) : List Int := vals.modify 0 fun v => (v + 1) % 256

end EEPROM
end PAN
