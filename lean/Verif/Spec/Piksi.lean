import Verif.Spec.Sbp
import Verif.Model.GPSTime
import Verif.Model.Sbp
/-!
What the GPS receiver's messages look like and when a cycle has a fix.
-/
namespace PAN.Spec

/-- A number in `n` bytes, lower byte first. -/
def leBytes (n v : Nat) : List U8 := (List.range n).map (fun i => BitVec.ofNat 8 (v / 256 ^ i))

/-- The "GPS time" message: week number, time of week in milliseconds, nanoseconds, flags. -/
def timeMsg (wn : BitVec 16) (tow ns : BitVec 32) (flags : U8) : List U8 :=
  leBytes 2 wn.toNat ++ leBytes 4 tow.toNat ++ leBytes 4 ns.toNat ++ [flags]

/-- The "position in ECEF" message: time of week, three doubles, accuracy, number of satellites, flags. -/
def posMsg (tow : BitVec 32) (x y z : BitVec 64) (acc : BitVec 16) (nsats flags : U8) : List U8 :=
  leBytes 4 tow.toNat ++ leBytes 8 x.toNat ++ leBytes 8 y.toNat ++ leBytes 8 z.toNat ++ leBytes 2 acc.toNat ++
    [nsats, flags]

/-- The "velocity in ECEF" and "baseline in ECEF" messages: time of week, three signed integers (mm/s or mm), accuracy,
number of satellites, flags. -/
def vecMsg (tow x y z : BitVec 32) (acc : BitVec 16) (nsats flags : U8) : List U8 :=
  leBytes 4 tow.toNat ++ leBytes 4 x.toNat ++ leBytes 4 y.toNat ++ leBytes 4 z.toNat ++ leBytes 2 acc.toNat ++
    [nsats, flags]

/-- What the driver heard in a cycle: whether any bytes came, whether a frame was damaged, and the last message of each
kind (the bytes of its structure). -/
structure Heard where
  any : Prop
  damaged : Prop
  time : Option (List U8)
  pos : Option (List U8)
  vel : Option (List U8)
  baseline : Option (List U8)

/-- The last message of a type among the reports of the decoder: the first `n` bytes of its buffer. -/
def lastOf (ty : BitVec 16) (n : Nat) (evs : List (Sbp.Status × Option Sbp.Msg)) : Option (List U8) :=
  ((evs.filterMap (·.2)).filter (fun m => m.ty == ty)).getLast?.map (fun m => m.buf.take n)

/-- What was heard according to the decoder's reports. -/
def heard (bytes : List U8) (evs : List (Sbp.Status × Option Sbp.Msg)) : Heard :=
  { any := bytes ≠ [], damaged := ∃ e ∈ evs, e.1 = .crcError,
    time := lastOf 0x0100 11 evs, pos := lastOf 0x0200 32 evs, vel := lastOf 0x0204 20 evs,
    baseline := lastOf 0x0202 20 evs }

/-- The number in `n` bytes from offset `off`. -/
def num (m : List U8) (off n : Nat) : Nat := ((m.drop off).take n).foldr (fun b acc => b.toNat + 256 * acc) 0

/-- A cycle has a fix with time, position and velocity messages `t`, `p`, `v`: nothing was damaged, the data are at most
100 ms old, all times of week agree, at least four satellites were used, and a baseline, if there is one, is of the same
time and either fixed (1) or float (0). -/
structure Fix (h : Heard) (age : Nat) (t p v : List U8) : Prop where
  any : h.any
  intact : ¬ h.damaged
  time : h.time = some t
  pos : h.pos = some p
  vel : h.vel = some v
  young : age ≤ 100000
  posTow : num p 0 4 = num t 2 4
  velTow : num v 0 4 = num t 2 4
  sats : 4 ≤ num p 30 1
  baseTow : ∀ b, h.baseline = some b → num b 0 4 = num t 2 4
  baseFlag : ∀ b, h.baseline = some b → num b 19 1 ≤ 1

end PAN.Spec
