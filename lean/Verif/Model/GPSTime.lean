import Verif.Model.Basic
/-!
Model of `src/common/GPSTime.hpp`. `unsigned long long` values are natural numbers below `2^64`; every
operation that can leave that range is reduced modulo `2^64` explicitly, as the C++ type does.
-/
namespace PAN

/-- src/common/GPSTime.hpp:9-13: `wn` is `unsigned short`, `tow` is `unsigned int`, `ns` is `int`. -/
structure GpsTime where
  wn : BitVec 16
  tow : BitVec 32
  ns : BitVec 32
  isSet : Bool
  deriving DecidableEq, Repr

namespace GpsTime

/-- src/common/GPSTime.hpp:7 `NANOSECONDS_IN_WEEK`. -/
abbrev nsInWeek : Nat := 7 * 24 * 60 * 60 * 1000000000

/-- src/common/GPSTime.hpp:16-21 default constructor. -/
def unset : GpsTime := { wn := 0, tow := 0, ns := 0, isSet := false }

/-- src/common/GPSTime.hpp:24-29 constructor from week number, time of week and nanoseconds. -/
def mk3 (wn : BitVec 16) (tow ns : BitVec 32) : GpsTime := { wn, tow, ns, isSet := true }

/-- src/common/GPSTime.hpp:32-37 construction from an `unsigned long long` nanosecond count `t`.
The quotient is truncated to 16 bits when stored in `wn`; the subtraction is modulo `2^64`. -/
def ofULL (t : Nat) : GpsTime :=
  let wn := BitVec.ofNat 16 (t / nsInWeek)
  let r := (t + (2 ^ 64 - (wn.toNat * nsInWeek) % 2 ^ 64)) % 2 ^ 64
  { wn, tow := BitVec.ofNat 32 (r / 1000000), ns := BitVec.ofNat 32 (r % 1000000), isSet := true }

/-- src/common/GPSTime.hpp:47-49 cast to `unsigned long long`: the inner sum is a signed 64-bit number
(it cannot overflow), the outer product and sum are modulo `2^64`. -/
def toULL (g : GpsTime) : Nat :=
  (((g.wn.toNat : Int) * (nsInWeek : Int) + ((g.tow.toNat : Int) * 1000000 + g.ns.toInt)) % (2 ^ 64 : Int)).toNat

/-- src/common/GPSTime.hpp:52-55 `operator==(unsigned long long)`. -/
def eqULL (g : GpsTime) (t : Nat) : Bool := if !g.isSet then false else g.toULL == t
/-- src/common/GPSTime.hpp:56-60 `operator==(gps_time_t)`. -/
def eq (g t : GpsTime) : Bool := if !t.isSet then false else g.eqULL t.toULL
/-- src/common/GPSTime.hpp:61-64 `operator<(unsigned long long)`. -/
def ltULL (g : GpsTime) (t : Nat) : Bool := if !g.isSet then false else decide (g.toULL < t)
/-- src/common/GPSTime.hpp:65-69 `operator<(gps_time_t)`. -/
def lt (g t : GpsTime) : Bool := if !t.isSet then false else g.ltULL t.toULL
/-- src/common/GPSTime.hpp:71 `operator!=`. -/
def ne (g t : GpsTime) : Bool := !g.eq t
/-- src/common/GPSTime.hpp:73 `operator>`. -/
def gt (g t : GpsTime) : Bool := !(g.lt t || g.eq t)
/-- src/common/GPSTime.hpp:75 `operator<=`. -/
def le (g t : GpsTime) : Bool := !g.gt t
/-- src/common/GPSTime.hpp:77 `operator>=`. -/
def ge (g t : GpsTime) : Bool := !g.lt t

/-- src/common/GPSTime.hpp:80-84 `operator+=(unsigned long long)`. -/
def addULL (g : GpsTime) (t : Nat) : GpsTime := ofULL ((g.toULL + t) % 2 ^ 64)
/-- src/common/GPSTime.hpp:85-88 `operator+=(gps_time_t)`. -/
def add (g t : GpsTime) : GpsTime := g.addULL t.toULL
/-- src/common/GPSTime.hpp:92-101 `operator-=(unsigned long long)`. -/
def subULL (g : GpsTime) (t : Nat) : GpsTime :=
  if g.ltULL t then { g with isSet := false }
  else ofULL ((g.toULL + (2 ^ 64 - t)) % 2 ^ 64)
/-- src/common/GPSTime.hpp:105-108 `operator-=(gps_time_t)`. -/
def sub (g t : GpsTime) : GpsTime := g.subULL t.toULL

end GpsTime
end PAN
