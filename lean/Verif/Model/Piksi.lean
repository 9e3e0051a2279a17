import Verif.Model.Sbp
import Verif.Model.GPSTime
/-!
Model of the GPS receiver's driver `src/fsw/FCCode/Drivers/Piksi.cpp` (flight build) and of its control task
`src/fsw/FCCode/PiksiControlTask.cpp`. The serial protocol is in `Model/Sbp.lean`.

The driver keeps the last message of each kind as it stands in memory: the structures of
`lib/common/libsbp/include/libsbp/navigation.h` are packed and the target is little-endian, so a structure is the list of
its bytes and a member is read from its offset.
-/
namespace PAN
namespace Piksi

/-- The unsigned number `n` bytes at offset `off` of a structure stand for, lower byte first. -/
def rd (m : List U8) (off n : Nat) : Nat := ((m.drop off).take n).foldr (fun b acc => b.toNat + 256 * acc) 0

/-- The signed 32-bit member at offset `off`. -/
def rdS32 (m : List U8) (off : Nat) : Int := (BitVec.ofNat 32 (rd m off 4)).toInt

/-- lib/common/libsbp/include/libsbp/navigation.h:56-63: `sizeof(msg_gps_time_t)`; `wn` at 0, `tow` at 2, `ns` at 6. -/
abbrev timeSize : Nat := 11
/-- lib/common/libsbp/include/libsbp/navigation.h:95-105: `sizeof(msg_pos_ecef_t)`; `tow` at 0, `x`, `y`, `z` (doubles) at
4, 12, 20, `accuracy` at 28, `n_sats` at 30, `flags` at 31. -/
abbrev posSize : Nat := 32
/-- lib/common/libsbp/include/libsbp/navigation.h:145-155 and 191-201: `sizeof(msg_baseline_ecef_t)` and
`sizeof(msg_vel_ecef_t)`; `tow` at 0, `x`, `y`, `z` (signed 32 bits) at 4, 8, 12, `accuracy` at 16, `n_sats` at 18,
`flags` at 19. -/
abbrev vecSize : Nat := 20

/-- src/fsw/FCCode/Drivers/Piksi.hpp:413-438: the members `read_all` and the getters of the task use. -/
structure Driver where
  sbp : Sbp.State
  gpsTime : List U8
  posEcef : List U8
  baselineEcef : List U8
  velEcef : List U8
  timeUpd : Bool
  posUpd : Bool
  velUpd : Bool
  baselineUpd : Bool
  microdelta : Nat
  deriving DecidableEq, Repr

/-- The object before the first cycle (static storage: all zero) after `setup`, src/fsw/FCCode/Drivers/Piksi.cpp:72-130. -/
def Driver.init : Driver :=
  { sbp := Sbp.State.init, gpsTime := List.replicate timeSize 0, posEcef := List.replicate posSize 0,
    baselineEcef := List.replicate vecSize 0, velEcef := List.replicate vecSize 0, timeUpd := false, posUpd := false,
    velUpd := false, baselineUpd := false, microdelta := 0 }

/-- src/fsw/FCCode/Drivers/Piksi.cpp:86-127: the message types `setup` registers callbacks for (numbers in
lib/common/libsbp/include/libsbp/{logging,navigation,observation,piksi,settings,system,user}.h). -/
def callbacks : List (BitVec 16) :=
  [0x0401, 0x0100, 0x0206, 0x0200, 0x0202, 0x0204, 0x0048, 0x0019, 0x00A5, 0xFFFF, 0xFF00, 0x001D, 0x0800]

/-- src/fsw/FCCode/Drivers/Piksi.cpp:425-494: the callbacks. Each copies the size of its structure from the message
buffer, whatever the length of the message. Callbacks of messages nothing reads are left out. -/
def Driver.callback (d : Driver) (m : Sbp.Msg) : Driver :=
  if m.ty = 0x0100 then { d with gpsTime := m.buf.take timeSize, timeUpd := true }
  else if m.ty = 0x0200 then { d with posEcef := m.buf.take posSize, posUpd := true }
  else if m.ty = 0x0202 then { d with baselineEcef := m.buf.take vecSize, baselineUpd := true }
  else if m.ty = 0x0204 then { d with velEcef := m.buf.take vecSize, velUpd := true }
  else d

/-- src/fsw/FCCode/Drivers/Piksi.hpp:436: size of `buffer`, `SERIAL4_RX_BUFFER_SIZE` of platformio.ini. -/
abbrev bufferSize : Nat := 1024

/-- src/fsw/FCCode/Drivers/Piksi.cpp:310-360 `read_all`: `bytes` are those read from the port, `ic` the value of
`interrupt_count`. The callbacks run inside the loop that empties the buffer; as they do not touch the decoder they are
applied here afterwards, in order. `none`: the copy ran past `buffer`, or the decoder ran out of its memory or did not
end. -/
def Driver.readAll (d : Driver) (bytes : List U8) (ic : BitVec 32) : Option (Driver × Nat) :=
  if bytes.length > bufferSize then none
  else
    let d := { d with microdelta := (ic * 100).toNat, timeUpd := false, posUpd := false, velUpd := false,
                      baselineUpd := false }
    if bytes.length = 0 then some (d, 4)
    else
      match Sbp.drain callbacks (2 * bytes.length + 1) d.sbp bytes with
      | none => none
      | some (s, evs) =>
        let d := (evs.filterMap (·.2)).foldl Driver.callback { d with sbp := s }
        let crcError := evs.any (fun e => e.1 == .crcError)
        if crcError then some (d, 3)
        else if d.timeUpd && d.posUpd && d.velUpd && !d.baselineUpd then some (d, 0)
        else if d.timeUpd && d.posUpd && d.velUpd && d.baselineUpd then some (d, 1)
        else some (d, 2)

/-- src/fsw/FCCode/PiksiControlTask.hpp:26-43: the published fields. Positions are doubles taken over bit for bit from
the message, so they are kept as their 64 bits; velocity and baseline are 32-bit integers converted to double, which is
exact, so they are kept as integers. -/
structure Fields where
  mode : U8
  time : GpsTime
  pos : BitVec 64 × BitVec 64 × BitVec 64
  vel : Option (Int × Int × Int)
  baseline : Option (Int × Int × Int)
  microdelta : Nat
  deriving DecidableEq, Repr

/-- src/fsw/FCCode/PiksiControlTask.cpp:31-35: initial values. A vector of NaN is `none` for the two integer vectors;
the three NaN patterns of the position are one particular NaN. -/
def Fields.init : Fields :=
  { mode := PiksiMode.noFix, time := GpsTime.unset, pos := (0x7FF8000000000000, 0x7FF8000000000000, 0x7FF8000000000000),
    vel := none, baseline := none, microdelta := 0 }

/-- src/fsw/FCCode/Drivers/Piksi.cpp:139-143 `get_gps_time` and src/common/GPSTime.hpp:39-44. -/
def timeOf (m : List U8) : GpsTime :=
  GpsTime.mk3 (BitVec.ofNat 16 (rd m 0 2)) (BitVec.ofNat 32 (rd m 2 4)) (BitVec.ofNat 32 (rd m 6 4))

/-- src/fsw/FCCode/Drivers/Piksi.cpp:158-163 `get_pos_ecef`: the position. -/
def posOf (m : List U8) : BitVec 64 × BitVec 64 × BitVec 64 :=
  (BitVec.ofNat 64 (rd m 4 8), BitVec.ofNat 64 (rd m 12 8), BitVec.ofNat 64 (rd m 20 8))

/-- src/fsw/FCCode/Drivers/Piksi.cpp:174-179 and 190-196 `get_baseline_ecef`, `get_vel_ecef`: the vector. -/
def vecOf (m : List U8) : Int × Int × Int := (rdS32 m 4, rdS32 m 8, rdS32 m 12)

/-- src/fsw/FCCode/PiksiControlTask.hpp:15 `PIKSI_MD_THRESHOLD`. -/
abbrev mdThreshold : Nat := 100000

/-- src/fsw/FCCode/PiksiControlTask.cpp:38-131 `execute` after `read_all`. -/
def publish (f : Fields) (d : Driver) (readOut : Nat) : Fields :=
  let f := { f with microdelta := d.microdelta }
  let readOut := if d.microdelta > mdThreshold ∧ readOut < 2 then 3 else readOut
  if readOut = 5 then { f with mode := PiksiMode.timeLimitError }
  else if readOut = 4 then { f with mode := PiksiMode.noDataError }
  else if readOut = 3 then { f with mode := PiksiMode.crcError }
  else if readOut = 2 then { f with mode := PiksiMode.noFix }
  else if readOut = 1 ∨ readOut = 0 then
    let time := timeOf d.gpsTime
    let posTow := rd d.posEcef 0 4
    let velTow := rd d.velEcef 0 4
    let baselineTow := rd d.baselineEcef 0 4
    let checkTime :=
      if readOut = 1 then
        time.tow.toNat == posTow && time.tow.toNat == velTow && time.tow.toNat == baselineTow
      else time.tow.toNat == posTow && time.tow.toNat == velTow
    if !checkTime then { f with mode := PiksiMode.syncError }
    else if rd d.posEcef 30 1 < 4 then { f with mode := PiksiMode.nsatError }
    else
      let f' := { f with time := time, pos := posOf d.posEcef, vel := some (vecOf d.velEcef) }
      if readOut = 0 then { f' with mode := PiksiMode.spp }
      else if rd d.baselineEcef 19 1 = 1 then
        { f' with mode := PiksiMode.fixedRtk, baseline := some (vecOf d.baselineEcef) }
      else if rd d.baselineEcef 19 1 = 0 then
        { f' with mode := PiksiMode.floatRtk, baseline := some (vecOf d.baselineEcef) }
      else { f with mode := PiksiMode.dataError }
  else { f with mode := PiksiMode.dataError }

/-- src/fsw/FCCode/PiksiControlTask.cpp:38-131 `execute`: one control cycle. -/
def cycle (s : Driver × Fields) (inp : List U8 × BitVec 32) : Option (Driver × Fields) :=
  match s.1.readAll inp.1 inp.2 with
  | none => none
  | some (d, r) => some (d, publish s.2 d r)

/-- Control cycles one after the other, each with the bytes read and the counter. -/
def cycles : Driver × Fields → List (List U8 × BitVec 32) → Option (Driver × Fields)
  | s, [] => some s
  | s, i :: is =>
    match cycle s i with
    | none => none
    | some s' => cycles s' is

/-! ### The clock that dates the data -/

/-- src/fsw/FCCode/Drivers/Piksi.cpp:36-40: the counters of the timer interrupt. `avail` is what `Serial4.available()`
would answer: the bytes waiting in the port. The port holds up to 1023 bytes (`SERIAL4_RX_BUFFER_SIZE` of platformio.ini
less one); what arrives beyond that is lost. -/
structure Ticker where
  lastBytes : Nat
  ic : BitVec 32
  lic : BitVec 32
  avail : Nat
  deriving DecidableEq, Repr

/-- src/fsw/FCCode/Drivers/Piksi.cpp:36-40: initial values. -/
def Ticker.init : Ticker := { lastBytes := 0, ic := 0, lic := 0, avail := 0 }

/-- src/fsw/FCCode/Drivers/Piksi.cpp:42-58 `check_bytes`, every 100 microseconds; `n` bytes have arrived since. -/
def Ticker.tick (t : Ticker) (n : Nat) : Ticker :=
  let ic := t.ic + 1
  let bytes := min (t.avail + n) (bufferSize - 1)
  if bytes > t.lastBytes then
    let ic := if ic - t.lic > 100 then 0 else ic
    { lastBytes := bytes, ic := ic, lic := ic, avail := bytes }
  else { t with ic := ic, avail := bytes }

/-- src/fsw/FCCode/Drivers/Piksi.cpp:316-330: `read_all` takes the bytes seen by the last tick, and the counter. -/
def Ticker.read (t : Ticker) : Ticker × Nat × BitVec 32 :=
  ({ t with lastBytes := 0, avail := t.avail - t.lastBytes }, t.lastBytes, t.ic)

/-- What happens to the port: a tick of the timer, or a call of `read_all`. -/
inductive PortEv where
  | tick (n : Nat)
  | read
  deriving DecidableEq, Repr

/-- The timer interrupt (src/fsw/FCCode/Drivers/Piksi.cpp:42-58) and `read_all` in any order. -/
def Ticker.run (t : Ticker) : List PortEv → Ticker
  | [] => t
  | .tick n :: es => (t.tick n).run es
  | .read :: es => (t.read.1).run es

end Piksi
end PAN
