import Verif.Model.Quake
import Verif.Model.Text
/-!
Model of how the radio driver reads the modem's answer to a session request out of its bytes
(src/fsw/FCCode/Drivers/QLocate.cpp:189-219). `Verif/Model/Quake.lean` takes the numbers found as an input; here they are found.
-/
namespace PAN
namespace ModemText
open Text

/-- src/fsw/FCCode/Drivers/QLocate.cpp:210-211: `sscanf` with the first `k` conversions of "%d, %d, %d, %d, %d, %d\r". The numbers
stored; `none`: a number exceeds `int`, which is undefined. The white space at the end of the format changes nothing. -/
def scanList : Nat → List Char → Option (List Int)
  | 0, _ => some []
  | k + 1, s =>
    match scanInt intMin intMax s with
    | .fail => some []
    | .undef => none
    | .other => none
    | .val n r =>
      if k = 0 then some [n]
      else
        match afterComma r with
        | none => some [n]
        | some r' => (scanList k (skipSpace r')).map (n :: ·)

/-- src/fsw/FCCode/Drivers/QLocate.cpp:201-204: the text passed to `parse_ints`: the bytes read, from the ninth on, up to the
first zero (the buffer is cleared before). -/
def answerText (p : ModemIn) : List Char :=
  (((p.rx.take p.avail).drop 8).takeWhile fun b => decide (b ≠ 0)).map fun b => Char.ofNat b.toNat

/-- The number of bytes for which `get_sbdix` reads at all: src/fsw/FCCode/Drivers/QLocate.cpp:193-199. -/
def reads (p : ModemIn) : Bool := decide (26 ≤ p.avail ∧ p.avail < 128)

/-- src/fsw/FCCode/Drivers/QLocate.cpp:189-219 `get_sbdix` and `parse_ints`, from the bytes at the port. `none`: undefined. -/
def getSbdix (q : QLocate) (p : ModemIn) : Option (Int × QLocate) :=
  if reads p then (scanList 6 (answerText p)).map fun ns => q.getSbdix { p with scan := ns } else some (q.getSbdix p)

end ModemText
end PAN
