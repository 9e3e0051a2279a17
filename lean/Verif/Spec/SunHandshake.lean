import Verif.Model.ADCSBox
/-!
Specification for C118: the sun sensor register in the messages to the attitude control box.
-/
namespace PAN
namespace Spec
open ADCS

/-- What a message writes to the register of the sun sensor mode (address 14), if it does. -/
def sunModeIn : List U8 → Option U8
  | a :: m :: _ => if a = 14 then some m else none
  | _ => none

/-- The number of steps of the main loop among some events. -/
def ticksIn : List Box.Ev → Nat
  | [] => 0
  | .recv _ :: evs => ticksIn evs
  | .tick _ :: evs => ticksIn evs + 1

/-- The calculation of the sun vector reports success (2) or failure (0), as in C103. -/
def Calculates (evs : List Box.Ev) : Prop := ∀ e, .tick e ∈ evs → e.ssa = 0 ∨ e.ssa = 2

/-- The messages write only `ok` values to the register. -/
def WritesOnly (ok : U8 → Prop) (evs : List Box.Ev) : Prop := ∀ d m, .recv d ∈ evs → sunModeIn d = some m → ok m

end Spec
end PAN
