import Verif.Spec.Startup
import Verif.Model.TelemInfo
/-!
Vocabulary of C121: what the description of a field has to say.
-/
namespace PAN
namespace Spec
open Startup TelemInfo

/-- The types of fields the ground has names for, and the names. -/
def TypeCalled : Ty → String → Prop
  | .uint, n => n = "unsigned int"
  | .sint, n => n = "signed int"
  | .uchar, n => n = "unsigned char"
  | .schar, n => n = "signed char"
  | .float, n => n = "float"
  | .double, n => n = "double"
  | .arr3f, n => n = "std float vector"
  | .vec3f, n => n = "lin float vector"
  | .vec3d, n => n = "lin double vector"
  | .vec4f, n => n = "lin float quaternion"
  | .vec4d, n => n = "lin double quaternion"
  | .bool, n => n = "bool"
  | .gps, n => n = "gps_time_t"
  | .ptr, _ => False
  | .size, _ => False
  | .ullong, _ => False

/-- The limits of a serializer of integers. -/
def IntLimits : Option Ser → Option (Int × Int) → Prop
  | some (.int _ lo hi), l => l = some (lo, hi)
  | some (.sized _ lo hi _), l => l = some (lo, hi)
  | _, l => l = none

/-- The field is a number, or a vector, of `double` or of `float`, and its value, or the vector's length, lies between `lo` and
`hi` in the telemetry. -/
inductive Ranges : (double : Bool) → Decl → (lo hi : ℚ) → Prop
  | float (k : Kind) (n : String) (lo hi : ℚ) (w p : Nat) : Ranges false ⟨k, n, .float, some (.real lo hi w), p⟩ lo hi
  | double (k : Kind) (n : String) (lo hi : ℚ) (w p : Nat) : Ranges true ⟨k, n, .double, some (.real lo hi w), p⟩ lo hi
  | arr3f (k : Kind) (n : String) (lo hi : ℚ) (w p : Nat) : Ranges false ⟨k, n, .arr3f, some (.vec lo hi w), p⟩ lo hi
  | vec3f (k : Kind) (n : String) (lo hi : ℚ) (w p : Nat) : Ranges false ⟨k, n, .vec3f, some (.vec lo hi w), p⟩ lo hi
  | vec3d (k : Kind) (n : String) (lo hi : ℚ) (w p : Nat) : Ranges true ⟨k, n, .vec3d, some (.vec lo hi w), p⟩ lo hi

/-- `y` stands for `x`: to 15 decimals, and the precision of the numbers. -/
def Near (double : Bool) (x y : ℚ) : Prop := |y - x| ≤ 1 / 10 ^ 15 + |x| * (if double then 1 / 2 ^ 51 else 1 / 2 ^ 23)

/-- Which flow the ground is told a name belongs to: `flows` is the table, `shown` what the description says. -/
def FlowShown (flows : List NamedFlow) (n : String) (shown : Option Nat) : Prop :=
  ((∀ f ∈ flows, n ∉ f.fields) ∧ shown = none) ∨
    ∃ pre f post, flows = pre ++ f :: post ∧ n ∈ f.fields ∧ (∀ g ∈ post, n ∉ g.fields) ∧ shown = some f.id

end Spec
end PAN
