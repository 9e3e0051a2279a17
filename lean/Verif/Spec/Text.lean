import Mathlib.Data.Rat.Defs
import Mathlib.Algebra.Order.Field.Rat
/-!
What it means that a text writes a number, for C105 and C106.
-/
namespace PAN.Spec

/-- The six white-space characters: space, tab, line feed, vertical tab, form feed, carriage return. -/
def White (c : Char) : Prop := c = ' ' ∨ c = '\t' ∨ c = '\n' ∨ c = '\x0b' ∨ c = '\x0c' ∨ c = '\r'

/-- A non-empty run of the characters '0' to '9'. -/
def Digits (s : List Char) : Prop := s ≠ [] ∧ ∀ c ∈ s, 48 ≤ c.toNat ∧ c.toNat ≤ 57

/-- The number written by a run of decimal digits. -/
def decimal (s : List Char) : ℕ := s.foldl (fun a c => 10 * a + (c.toNat - 48)) 0

/-- `s` is a whole number in decimal notation, with an optional sign. -/
inductive WritesInt : List Char → ℤ → Prop
  | plain (s) : Digits s → WritesInt s (decimal s)
  | plus (s) : Digits s → WritesInt ('+' :: s) (decimal s)
  | minus (s) : Digits s → WritesInt ('-' :: s) (-decimal s)

/-- The canonical notation: no plus sign, no superfluous zero. -/
def Canonical (s : List Char) : Prop := s.head? ≠ some '+' ∧ (s.head? = some '0' → s = ['0'])

/-- `s` is a decimal fraction, with an optional minus sign and digits before and after the point. -/
inductive WritesFraction : List Char → ℚ → Prop
  | plain (a b) : Digits a → Digits b → WritesFraction (a ++ '.' :: b) (decimal a + decimal b / 10 ^ b.length)
  | minus (a b) : Digits a → Digits b → WritesFraction ('-' :: (a ++ '.' :: b)) (-(decimal a + decimal b / 10 ^ b.length))

/-- `s` is a number without sign: digits, with a point somewhere or none, and at least one digit. -/
inductive WritesUnsigned : List Char → ℚ → Prop
  | whole (a) : Digits a → WritesUnsigned a (decimal a)
  | point (a b) : Digits (a ++ b) → WritesUnsigned (a ++ '.' :: b) (decimal a + decimal b / 10 ^ b.length)

/-- The same with an optional power of ten. -/
inductive WritesScaled : List Char → ℚ → Prop
  | plain (s q) : WritesUnsigned s q → WritesScaled s q
  | power (s q c e n) : WritesUnsigned s q → (c = 'e' ∨ c = 'E') → WritesInt e n → WritesScaled (s ++ c :: e) (q * 10 ^ n)

/-- The same with an optional sign: the decimal numbers of the language. -/
inductive WritesReal : List Char → ℚ → Prop
  | plain (s q) : WritesScaled s q → WritesReal s q
  | plus (s q) : WritesScaled s q → WritesReal ('+' :: s) q
  | minus (s q) : WritesScaled s q → WritesReal ('-' :: s) (-q)

end PAN.Spec
