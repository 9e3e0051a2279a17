import Verif.Spec.Text
import Verif.Model.Quake
/-!
Vocabulary of C122: the modem's answer to a session request.
-/
namespace PAN
namespace Spec

/-- The bytes of a text. -/
def textBytes (s : List Char) : List U8 := s.map fun c => BitVec.ofNat 8 c.toNat

/-- The answer with which the modem reports six numbers, e.g. "+SBDIX: 3, 8, 2, 0, 0, 0\r\n0\r". -/
def ModemAnswer (ns : List Int) (bytes : List U8) : Prop :=
  ∃ ss : List (List Char), List.Forall₂ WritesInt ss ns ∧ ns.length = 6 ∧
    bytes = textBytes ("+SBDIX: ".toList ++ (", ".toList.intercalate ss ++ "\r\n0\r".toList))

/-- `n` is a value of `int`. -/
def IsInt (n : Int) : Prop := -2 ^ 31 ≤ n ∧ n ≤ 2 ^ 31 - 1

/-- These bytes are at the port when it is asked, and no others arrive during the call. -/
def AtPort (bytes : List U8) (p : ModemIn) : Prop := p.avail = bytes.length ∧ p.rx = bytes

end Spec
end PAN
