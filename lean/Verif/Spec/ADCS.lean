import Verif.Model.ADCSBox
/-!
What the messages on the bus of the attitude control box mean, written down independently of the interrupt routine that
decodes them. A message is a register address followed by data; where the data go on, the following registers are
written too.
-/
namespace PAN
namespace Spec
open ADCS

/-- Three 16-bit numbers, low byte first, on the scale from `-s` to `s`. -/
def six (s : ℚ) : List U8 → Option (V3 ℚ)
  | a :: b :: c :: d :: e :: f :: _ => some ⟨fpS (b ++ a) (-s) s, fpS (d ++ c) (-s) s, fpS (f ++ e) (-s) s⟩
  | _ => none

/-- The moment vector carried by a message, if any (address 11, or address 10 with mode byte first). -/
def momentIn : List U8 → Option (V3 ℚ)
  | [] => none
  | a :: d => if a = 11 then six maxMoment d else if a = 10 then six maxMoment d.tail else none

/-- A message that makes the rods be driven again: it carries a moment vector or (address 12) a limit. -/
def drivesRods : List U8 → Bool
  | [] => false
  | a :: d => (a == 11 && decide (6 ≤ d.length)) || (a == 10 && decide (7 ≤ d.length)) || (a == 12 && decide (1 ≤ d.length))

/-- The mode of the box (address 1). -/
def modeIn : List U8 → Option U8
  | a :: m :: _ => if a = 1 then some m else none
  | _ => none

/-- The mode of the wheels (address 3). -/
def wheelModeIn : List U8 → Option U8
  | a :: m :: _ => if a = 3 then some m else none
  | _ => none

/-- The bytes of a wheel command (address 4, or address 3 with the mode byte first). -/
def wheelBytes : List U8 → Option (List U8)
  | [] => none
  | a :: d => if a = 4 ∧ 6 ≤ d.length then some d else if a = 3 ∧ 7 ≤ d.length then some d.tail else none

/-- A wheel command is a torque in mode 2 and a speed in mode 1; in other modes it means nothing. -/
def wheelUnits (mode : U8) (d : List U8) : Option (V3 ℚ) :=
  if mode = 2 then six maxTorque d else if mode = 1 then six maxSpeedCmd d else none

/-- The table carried by a reset command (address 28); missing bytes count as 0xFF. -/
def resetIn : List U8 → Option (BitVec 32)
  | a :: d => if a = 28 ∧ d ≠ [] then some (Regs.le32 d) else none
  | [] => none

/-- The table carried by a disable command (address 29). -/
def disableIn : List U8 → Option (BitVec 32)
  | a :: d => if a = 29 ∧ d ≠ [] then some (Regs.le32 d) else none
  | [] => none

end Spec
end PAN
