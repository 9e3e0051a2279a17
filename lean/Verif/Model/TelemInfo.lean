import Verif.Model.Startup
import Verif.Model.Float64
/-!
Model of the generator of the telemetry description for the ground: src/gsw/parsers/src/TelemetryInfoGenerator.{hpp,cpp}. It
constructs the flight software's control tasks (`Verif/Model/Startup.lean`) and describes the fields they registered.

Simplified: a map is the list of its entries in the order in which they were made (the ground sees them sorted); the limits of
integers are represented as numbers (they go through text with 15 decimals, which an integer survives), those of floating-point
numbers and of the length of vectors as rounded by the text.
-/
namespace PAN
namespace TelemInfo
open Startup

/-- An associative array. -/
abbrev Map (α : Type) := List (String × α)

/-- `std::map::find`. -/
def get {α : Type} (m : Map α) (n : String) : Option α := (m.find? fun p => decide (p.1 = n)).map (·.2)

/-- `std::map::insert`: an entry that exists is kept. -/
def insert {α : Type} (m : Map α) (n : String) (a : α) : Map α := if (get m n).isSome then m else m ++ [(n, a)]

/-- Assignment to `operator[]`. -/
def put {α : Type} (m : Map α) (n : String) (a : α) : Map α :=
  if (get m n).isSome then m.map fun p => if p.1 = n then (n, a) else p else m ++ [(n, a)]

/-- src/gsw/parsers/src/TelemetryInfoGenerator.hpp:21-30 `FieldData`, with its initial values. (`name` is never set.) -/
structure Desc where
  type : String := ""
  flowId : Nat := 0
  writable : Bool := false
  limits : Option (Int × Int) := none
  range : Option (ℚ × ℚ) := none
  bitsize : Nat := 0
  deriving DecidableEq, Repr

/-- src/gsw/parsers/src/TelemetryInfoGenerator.hpp:32-37 `TelemetryInfo`. -/
structure Info where
  eeprom : Map Nat
  fields : Map Desc
  flows : List NamedFlow

/-- src/gsw/parsers/src/TelemetryInfoGenerator.cpp:24-46 `type_name`, 109-136: `none` for the types for which nothing is
collected. -/
def typeName : Ty → Option String
  | .uint => some "unsigned int"
  | .sint => some "signed int"
  | .uchar => some "unsigned char"
  | .schar => some "signed char"
  | .float => some "float"
  | .double => some "double"
  | .arr3f => some "std float vector"
  | .vec3f => some "lin float vector"
  | .vec3d => some "lin double vector"
  | .vec4f => some "lin float quaternion"
  | .vec4d => some "lin double quaternion"
  | .bool => some "bool"
  | .gps => some "gps_time_t"
  | _ => none

/-- src/gsw/parsers/src/TelemetryInfoGenerator.cpp:56-57: the limits of an integer's serializer. -/
def limitsOf : Option Ser → Option (Int × Int)
  | some (.int _ lo hi) => some (lo, hi)
  | some (.sized _ lo hi _) => some (lo, hi)
  | _ => none

/-- src/gsw/parsers/src/TelemetryInfoGenerator.cpp:15-22 `get_double_string`, and the `std::stod` of line 225: a text with 15
decimals, rounded to the nearest, and the double nearest to that. -/
def shown (x : ℚ) : ℚ := f64 (rne (x * 10 ^ 15) / 10 ^ 15)

/-- src/gsw/parsers/src/TelemetryInfoGenerator.cpp:48-88: the limits of a floating-point number, and of the length of a vector,
which its serializer keeps as the first components of its limits (src/common/SerializerTypes.inl:428-431, 690-696). -/
def rangeOf : Ty → Option Ser → Option (ℚ × ℚ)
  | .float, some (.real lo hi _) => some (shown (f32 lo), shown (f32 hi))
  | .double, some (.real lo hi _) => some (shown (f64 lo), shown (f64 hi))
  | .arr3f, some (.vec lo hi _) => some (shown (f32 lo), shown (f32 hi))
  | .vec3f, some (.vec lo hi _) => some (shown (f32 lo), shown (f32 hi))
  | .vec3d, some (.vec lo hi _) => some (shown (f64 lo), shown (f64 hi))
  | _, _ => none

/-- src/gsw/parsers/src/TelemetryInfoGenerator.cpp:48-148 `get_writable_field_info`, `get_readable_field_info`. `none`: an
assertion fails, because the object is of another class or of a type that is not in the list. -/
noncomputable def collect (s : St) (k : Kind) (f : Registry.Field) : Option Desc :=
  match s.objs[f.addr]? with
  | none => none
  | some d =>
    if d.kind = k then
      match typeName d.ty with
      | none => none
      | some t => some { type := t, writable := decide (k = .writable), limits := limitsOf d.ser, range := rangeOf d.ty d.ser, bitsize := (d.ser.map Ser.width).getD 0 }
    else none

/-- The part of the result the loops over the fields build up. -/
structure Acc where
  fields : Map Desc
  eeprom : Map Nat

/-- src/gsw/parsers/src/TelemetryInfoGenerator.cpp:157-163: the writable fields. -/
noncomputable def addWritables (s : St) : List Registry.Field → Acc → Option Acc
  | [], a => some a
  | f :: fs, a =>
    match collect s .writable f with
    | none => none
    | some d => addWritables s fs ⟨insert a.fields f.name d, if f.period > 0 then put a.eeprom f.name f.period else a.eeprom⟩

/-- src/gsw/parsers/src/TelemetryInfoGenerator.cpp:165-172: the readable fields that have not been described as writable. -/
noncomputable def addReadables (s : St) : List Registry.Field → Acc → Option Acc
  | [], a => some a
  | f :: fs, a =>
    if (get a.fields f.name).isSome then addReadables s fs a
    else
      match collect s .readable f with
      | none => none
      | some d => addReadables s fs ⟨insert a.fields f.name d, if f.period > 0 then put a.eeprom f.name f.period else a.eeprom⟩

/-- src/gsw/parsers/src/TelemetryInfoGenerator.cpp:179: a name that has no description gets an empty one. -/
def setFlow (m : Map Desc) (n : String) (id : Nat) : Map Desc := put m n { (get m n).getD {} with flowId := id }

/-- src/gsw/parsers/src/TelemetryInfoGenerator.cpp:176-181. -/
def setFlows (m : Map Desc) (flows : List NamedFlow) : Map Desc :=
  flows.foldl (fun m f => f.fields.foldl (fun m n => setFlow m n f.id) m) m

/-- src/gsw/parsers/src/TelemetryInfoGenerator.cpp:151-184 `generate_telemetry_info`, for the fields registered. -/
noncomputable def describe (s : St) (flows : List NamedFlow) : Option Info :=
  match addWritables s s.reg.writable ⟨[], []⟩ with
  | none => none
  | some a =>
    match addReadables s s.reg.readable a with
    | none => none
    | some a => some { eeprom := a.eeprom, fields := setFlows a.fields flows, flows := flows }

/-- The values of JSON that occur (lib/fsw/json/json.hpp). -/
inductive Json where
  | num (n : Int)
  | real (x : ℚ)
  | str (s : String)
  | bool (b : Bool)
  | arr (l : List Json)
  | obj (o : List (String × Json))

/-- src/gsw/parsers/src/TelemetryInfoGenerator.cpp:193-230 `to_json(json&, const FieldData&)`. -/
def Desc.toJson (d : Desc) : Json :=
  .obj ([("type", .str d.type), ("writable", .bool d.writable), ("bitsize", .num d.bitsize),
      ("flow_id", if d.flowId > 0 then .num d.flowId else .str "undefined")] ++
    match d.limits with
    | some (lo, hi) => [("min", .num lo), ("max", .num hi)]
    | none =>
      match d.range with
      | some (lo, hi) => [("min", .real lo), ("max", .real hi)]
      | none => [])

/-- src/gsw/parsers/src/TelemetryInfoGenerator.cpp:241-244 `to_json(json&, const FlowData&)`. -/
def flowToJson (f : NamedFlow) : Json :=
  .obj [("active", .bool f.active), ("fields", .arr (f.fields.map .str)), ("id", .num f.id), ("priority", .num ((f.id : Int) - 1))]

/-- src/gsw/parsers/src/TelemetryInfoGenerator.cpp:254-257 `to_json(json&, const TelemetryInfo&)`. -/
def Info.toJson (t : Info) : Json :=
  .obj [("eeprom_saved_fields", .obj (t.eeprom.map fun p => (p.1, .num p.2))),
    ("fields", .obj (t.fields.map fun p => (p.1, p.2.toJson))), ("flow_data", .arr (t.flows.map flowToJson))]

/-- `j[key]` on a constant object. `none`: the key is missing, which is undefined, or the value is not an object, which
throws. -/
def Json.key : Json → String → Option Json
  | .obj o, k => get o k
  | _, _ => none

/-- `get<std::string>()`; `none`: it throws. -/
def Json.asStr : Json → Option String
  | .str s => some s
  | _ => none

/-- `get<unsigned int>()` and `get<unsigned char>()` of a number that has the range; `none`: it throws. -/
def Json.asNat : Json → Option Nat
  | .num n => some n.toNat
  | _ => none

/-- `get<bool>()`; `none`: it throws. -/
def Json.asBool : Json → Option Bool
  | .bool b => some b
  | _ => none

/-- src/gsw/parsers/src/TelemetryInfoGenerator.cpp:231-239 `from_json(const json&, FieldData&)`, with its assignment of the
size to `writable`. The limits are read as texts; only whether this succeeds is modelled. -/
def descFromJson (j : Json) : Option Desc := do
  let type ← (← j.key "type").asStr
  let flowId ← (← j.key "flow_id").asNat
  let _ ← (← j.key "writable").asBool
  let writable ← (← j.key "bitsize").asBool
  let _ ← (← j.key "min").asStr
  let _ ← (← j.key "max").asStr
  pure { type, flowId, writable }

/-- src/gsw/parsers/src/TelemetryInfoGenerator.cpp:246-252 `from_json(const json&, FlowData&)`. -/
def flowFromJson (j : Json) : Option NamedFlow := do
  let active ← (← j.key "active").asBool
  let fields ← match ← j.key "fields" with
    | .arr l => l.mapM Json.asStr
    | _ => none
  let id ← (← j.key "id").asNat
  pure { id, active, fields }

/-- `items()` of an object. -/
def Json.items : Json → Option (List (String × Json))
  | .obj o => some o
  | _ => none

/-- The elements of an array. -/
def Json.elems : Json → Option (List Json)
  | .arr l => some l
  | _ => none

/-- src/gsw/parsers/src/TelemetryInfoGenerator.cpp:259-277 `from_json(const json&, TelemetryInfo&)`. -/
def infoFromJson (j : Json) : Option Info := do
  let es ← (← j.key "eeprom_saved_fields").items
  let eeprom ← es.mapM fun p => do pure (p.1, ← p.2.asNat)
  let fs ← (← j.key "field_data").items
  let fields ← fs.mapM fun p => do pure (p.1, ← descFromJson p.2)
  let ws ← (← j.key "flow_data").elems
  let flows ← ws.mapM flowFromJson
  pure { eeprom, fields, flows }

end TelemInfo
end PAN
