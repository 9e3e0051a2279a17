import Verif.Model.GPSTime
/-! Specification vocabulary for GPS times: the exact (unbounded) nanosecond count. -/
namespace PAN.Spec

/-- Nanoseconds since the GPS epoch denoted by week, milliseconds of week and nanoseconds. -/
def nanos (g : GpsTime) : Int :=
  (g.wn.toNat : Int) * 604800000000000 + (g.tow.toNat : Int) * 1000000 + g.ns.toInt

/-- The time is a nanosecond count an unsigned 64-bit number can hold. -/
def Representable (g : GpsTime) : Prop := 0 ≤ nanos g ∧ nanos g < 2 ^ 64

/-- Milliseconds and nanoseconds are within their natural ranges. -/
def Normalised (g : GpsTime) : Prop :=
  g.tow.toNat < 604800000 ∧ 0 ≤ g.ns.toInt ∧ g.ns.toInt < 1000000

instance (g : GpsTime) : Decidable (Representable g) := inferInstanceAs (Decidable (_ ∧ _))
instance (g : GpsTime) : Decidable (Normalised g) := inferInstanceAs (Decidable (_ ∧ _))

end PAN.Spec
