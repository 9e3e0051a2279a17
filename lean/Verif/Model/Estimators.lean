import Verif.Model.GPSTime
import Verif.Model.Fault
/-!
Model of the estimators `src/fsw/FCCode/Estimators.cpp` and `src/fsw/FCCode/Estimators/*.cpp`.

The numerical filters are in the library psim, which is not part of the repository (the submodule `lib/common/psim` is
empty at the pinned commit). They are a parameter of the model, `Gnc`: every theorem holds for every library. Vectors of
doubles and floats are abstract too, with the operations the estimators apply to them. Fields of standard deviations are
left out: they are set beside the estimates they belong to and nothing on board reads them.
-/
namespace PAN
namespace Est

/-- The library of filters and vector operations. -/
structure Gnc where
  /-- `lin::Vector3d` and its operations. -/
  Vec : Type
  zero : Vec
  neg : Vec → Vec
  add : Vec → Vec → Vec
  sub : Vec → Vec → Vec
  /-- src/fsw/FCCode/Estimators/RelativeOrbitEstimator.cpp:247-248 `1.0e9 * (a - b) / double(ns)`. -/
  rate : Vec → Vec → Nat → Vec
  /-- `gnc::env::earth_angular_rate` of the time in nanoseconds. -/
  earthRate : Nat → Vec
  /-- `gnc::constant::init_gps_*` as nanoseconds. -/
  epoch : Nat
  /-- `orb::OrbitEstimate`: default value, `valid`, construction from position and velocity, `shortupdate` without and with
  a measurement, position and velocity. -/
  OrbEst : Type
  oeDefault : OrbEst
  oeValid : OrbEst → Bool
  oeMeas : Vec → Vec → OrbEst
  oeProp : Nat → Vec → OrbEst → OrbEst
  oeUpdate : Nat → Vec → OrbEst → OrbEst → OrbEst
  oePos : OrbEst → Vec
  oeVel : OrbEst → Vec
  /-- `gnc::RelativeOrbitEstimate`: default value, `valid`, construction (earth rate, own position and velocity, relative
  position and velocity, and the nanoseconds the covariance is made from), `update` with and without a measurement,
  relative position and velocity. -/
  RelEst : Type
  reDefault : RelEst
  reValid : RelEst → Bool
  reInit : Vec → Vec → Vec → Vec → Vec → Nat → RelEst
  reUpdate : Nat → Vec → Vec → Vec → Vec → RelEst → RelEst
  rePredict : Nat → Vec → Vec → Vec → RelEst → RelEst
  rePos : RelEst → Vec
  reVel : RelEst → Vec
  /-- `orb::Orbit`: default value, `valid`, construction, `shortupdate`, position and velocity. -/
  Orbit : Type
  orDefault : Orbit
  orValid : Orbit → Bool
  orMk : Vec → Vec → Orbit
  orProp : Int → Vec → Orbit → Orbit
  orPos : Orbit → Vec
  orVel : Orbit → Vec
  /-- `lin::Vector3f`. -/
  FVec : Type
  fzero : FVec
  /-- src/fsw/FCCode/Estimators/AttitudeEstimator.cpp:141-147: calibration of the two magnetometers, of the reading and the
  rod command of the cycle before. -/
  cal1 : FVec → FVec → FVec
  cal2 : FVec → FVec → FVec
  /-- src/fsw/FCCode/Estimators/AttitudeEstimator.cpp:188-197: unit vector, and not-a-number. -/
  unit : FVec → FVec
  nans : FVec
  /-- `gnc::AttitudeEstimatorState`, `gnc::AttitudeEstimate`, `attitude_estimator_update` and the two
  `attitude_estimator_reset` (to the identity; from a magnetic and a sun vector). -/
  AttState : Type
  asDefault : AttState
  asValid : AttState → Bool
  AttEst : Type
  aeDefault : AttEst
  aeValid : AttEst → Bool
  attUpdate : AttState → AttEst → Nat → Vec → FVec → FVec → FVec → AttState × AttEst
  attReset : AttState → Nat → AttState
  attResetVec : AttState → Nat → Vec → FVec → FVec → AttState

/-- What the library documents about default values: they are not valid. -/
structure Gnc.Sane (g : Gnc) : Prop where
  oe : g.oeValid g.oeDefault = false
  re : g.reValid g.reDefault = false
  or : g.orValid g.orDefault = false
  ae : g.aeValid g.aeDefault = false

variable (g : Gnc)

/-- src/fsw/FCCode/constants.hpp:13 `control_cycle_time_ns`. -/
abbrev cycleNs : Nat := 170000000

/-- The fields of the GPS task the estimators read: `piksi.state`, `piksi.microdelta`, `piksi.time`, `piksi.pos`,
`piksi.vel`, `piksi.baseline_pos`. -/
structure PiksiIn where
  mode : U8
  microdelta : U32
  time : GpsTime
  pos : g.Vec
  vel : g.Vec
  baseline : g.Vec

/-- The fields of the ADCS monitor the attitude estimator reads, and the rod command `adcs_cmd.mtr_cmd`. -/
structure AdcsIn where
  gyrOk : Bool
  gyr : g.FVec
  mag1Ok : Bool
  mag1 : g.FVec
  mag2Ok : Bool
  mag2 : g.FVec
  ssaMode : U8
  ssa : g.FVec
  mtrCmd : g.FVec

/-- `static_cast<unsigned long long>(1000 * piksi_microdelta_fp->get())`: the product has 32 bits. -/
def dns (md : U32) : Nat := (1000 * md.toNat) % 2 ^ 32

/-- The three modes the estimators take for a fix. -/
def fix (mode : U8) : Bool := mode == PiksiMode.spp || mode == PiksiMode.floatRtk || mode == PiksiMode.fixedRtk

/-- src/fsw/FCCode/Estimators/TimeEstimator.hpp: the fields. -/
structure TimeSt where
  valid : Bool
  gps : GpsTime
  ns : Nat
  earthW : g.Vec
  reset : Bool

/-- src/fsw/FCCode/Estimators/TimeEstimator.cpp:11-36 constructor. Fields without initial value are default constructed. -/
def TimeSt.init : TimeSt g := { valid := false, gps := GpsTime.unset, ns := 0, earthW := g.zero, reset := false }

variable {g}

/-- src/fsw/FCCode/Estimators/TimeEstimator.cpp:38-95 `execute`. -/
def TimeSt.exec (s : TimeSt g) (p : PiksiIn g) : TimeSt g :=
  if s.reset then { s with valid := false, reset := false }
  else
    let s := if fix p.mode then { s with gps := p.time.addULL (dns p.microdelta), valid := true }
             else { s with gps := s.gps.addULL cycleNs }
    if s.valid then
      let ns := (s.gps.toULL + (2 ^ 64 - g.epoch % 2 ^ 64)) % 2 ^ 64
      { s with ns := ns, earthW := g.earthRate ns }
    else s

variable (g) in
/-- src/fsw/FCCode/Estimators/OrbitEstimator.hpp: the fields and the estimate. -/
structure OrbitSt where
  valid : Bool
  pos : g.Vec
  vel : g.Vec
  reset : Bool
  est : g.OrbEst

variable (g) in
/-- src/fsw/FCCode/Estimators/OrbitEstimator.cpp:27-56 constructor. -/
def OrbitSt.init : OrbitSt g := { valid := false, pos := g.zero, vel := g.zero, reset := false, est := g.oeDefault }

/-- src/fsw/FCCode/Estimators/OrbitEstimator.cpp:72-112: the new estimate. -/
def OrbitSt.next (s : OrbitSt g) (t : TimeSt g) (p : PiksiIn g) : g.OrbEst :=
  if fix p.mode then
    let m := g.oeMeas p.pos p.vel
    let m := if dns p.microdelta ≠ 0 then g.oeProp (dns p.microdelta) t.earthW m else m
    if g.oeValid s.est then g.oeUpdate cycleNs t.earthW m s.est else m
  else if g.oeValid s.est then g.oeProp cycleNs t.earthW s.est
  else s.est

/-- src/fsw/FCCode/Estimators/OrbitEstimator.cpp:58-124 `execute`. -/
def OrbitSt.exec (s : OrbitSt g) (t : TimeSt g) (p : PiksiIn g) : OrbitSt g :=
  if !t.valid || s.reset then { s with valid := false, reset := false, est := g.oeDefault }
  else
    let est := s.next t p
    if g.oeValid est then { s with est := est, valid := true, pos := g.oePos est, vel := g.oeVel est }
    else { s with est := est, valid := false }

/-- src/fsw/FCCode/Estimators/rel_orbit_state_t.enum. -/
inductive RelMode where
  | invalid
  | propagating
  | estimating
  deriving DecidableEq, Repr

variable (g) in
/-- src/fsw/FCCode/Estimators/RelativeOrbitEstimator.hpp:60-97: the fields and the private state. -/
structure RelSt where
  state : RelMode
  pos : g.Vec
  vel : g.Vec
  relPos : g.Vec
  relVel : g.Vec
  reset : Bool
  upTime : GpsTime
  upPos : g.Vec
  upVel : g.Vec
  rel : g.RelEst
  orbit : g.Orbit
  uplinkT : GpsTime
  uplinkR : g.Vec
  uplinkV : g.Vec
  havePrev : Bool
  prevPos : g.Vec
  prevNs : U32
  noRtk : U32

/-- src/fsw/FCCode/Estimators/RelativeOrbitEstimator.cpp:37-40 `get_gps_zero`. -/
def gpsZero : GpsTime := GpsTime.mk3 0 0 0

variable (g) in
/-- src/fsw/FCCode/Estimators/RelativeOrbitEstimator.cpp:47-98 constructor. Members without initial value are zero (static
storage). -/
def RelSt.init : RelSt g :=
  { state := .invalid, pos := g.zero, vel := g.zero, relPos := g.zero, relVel := g.zero, reset := false,
    upTime := gpsZero, upPos := g.zero, upVel := g.zero, rel := g.reDefault, orbit := g.orDefault, uplinkT := gpsZero,
    uplinkR := g.zero, uplinkV := g.zero, havePrev := false, prevPos := g.zero, prevNs := 0, noRtk := 0 }

/-- src/fsw/FCCode/Estimators/RelativeOrbitEstimator.cpp:102-126: reset. -/
def RelSt.doReset (s : RelSt g) : RelSt g :=
  { s with state := .invalid, reset := false, uplinkT := gpsZero, rel := g.reDefault, orbit := g.orDefault }

/-- src/fsw/FCCode/Estimators/RelativeOrbitEstimator.cpp:151-177: use of a queued uplink. -/
def RelSt.useUplink (s : RelSt g) (t : TimeSt g) : RelSt g :=
  if s.uplinkT.gt gpsZero && t.gps.gt s.uplinkT then
    let ns := (t.gps.sub s.uplinkT).toULL
    let s := if ns < 2 * cycleNs then
        { s with orbit := g.orProp ((ns : Int) - (cycleNs : Int)) t.earthW (g.orMk s.uplinkR s.uplinkV) }
      else s
    { s with uplinkT := gpsZero }
  else s

/-- src/fsw/FCCode/Estimators/RelativeOrbitEstimator.cpp:178-209: a new uplink is moved into the queue. -/
def RelSt.takeUplink (s : RelSt g) (t : TimeSt g) : RelSt g :=
  let s :=
    if s.upTime.gt gpsZero then
      if s.upTime.gt t.gps && (!(s.uplinkT.gt gpsZero) || s.upTime.lt s.uplinkT) then
        { s with uplinkT := s.upTime, uplinkR := s.upPos, uplinkV := s.upVel }
      else s
    else s
  { s with upTime := gpsZero }

/-- src/fsw/FCCode/Estimators/RelativeOrbitEstimator.cpp:211-278: the relative estimate. -/
def RelSt.updateRel (s : RelSt g) (t : TimeSt g) (o : OrbitSt g) (p : PiksiIn g) : RelSt g :=
  if p.mode = PiksiMode.fixedRtk then
    if g.reValid s.rel then
      let r := g.reUpdate ((cycleNs + (2 ^ 64 - dns p.microdelta)) % 2 ^ 64) t.earthW o.pos o.vel (g.neg p.baseline) s.rel
      { s with noRtk := 0, rel := g.rePredict (dns p.microdelta) t.earthW o.pos o.vel r }
    else
      let prevNs := s.prevNs + BitVec.ofNat 32 cycleNs
      if s.havePrev && decide (prevNs.toNat ≤ 10 * cycleNs) then
        { s with rel := g.reInit t.earthW o.pos o.vel (g.neg p.baseline)
                          (g.neg (g.rate p.baseline s.prevPos prevNs.toNat)) prevNs.toNat,
                 prevNs := prevNs, havePrev := false }
      else { s with prevPos := p.baseline, prevNs := BitVec.ofNat 32 (dns p.microdelta), havePrev := true }
  else if g.reValid s.rel then
    { s with noRtk := s.noRtk + 1, rel := g.rePredict cycleNs t.earthW o.pos o.vel s.rel }
  else s

/-- src/fsw/FCCode/Estimators/RelativeOrbitEstimator.cpp:310 `REL_ORBIT_CC_PREDICT_LIMIT`. -/
abbrev predictLimit : Nat := 5000

/-- src/fsw/FCCode/Estimators/RelativeOrbitEstimator.cpp:280-353: the published estimate. -/
def RelSt.mix (s : RelSt g) (t : TimeSt g) (o : OrbitSt g) : RelSt g :=
  if g.reValid s.rel then
    let pos := g.add o.pos (g.rePos s.rel)
    let vel := g.add o.vel (g.reVel s.rel)
    let s := { s with orbit := g.orMk pos vel, state := .estimating, pos := pos, vel := vel,
                      relPos := g.rePos s.rel, relVel := g.reVel s.rel }
    if s.noRtk.toNat > predictLimit then { s with noRtk := 0, rel := g.reDefault, uplinkT := gpsZero } else s
  else if g.orValid s.orbit then
    let orbit := g.orProp (cycleNs : Int) t.earthW s.orbit
    { s with orbit := orbit, state := .propagating, pos := g.orPos orbit, vel := g.orVel orbit,
             relPos := g.sub (g.orPos orbit) o.pos, relVel := g.sub (g.orVel orbit) o.vel }
  else { s with state := .invalid }

/-- src/fsw/FCCode/Estimators/RelativeOrbitEstimator.cpp:100-354 `execute`. -/
def RelSt.exec (s : RelSt g) (t : TimeSt g) (o : OrbitSt g) (p : PiksiIn g) : RelSt g :=
  if !t.valid || !o.valid || s.reset then s.doReset
  else (((s.useUplink t).takeUplink t).updateRel t o p).mix t o

variable (g) in
/-- src/fsw/FCCode/Estimators/AttitudeEstimator.hpp: the fields and the private state; `pub` is the estimate and the rate
the published fields were last set from. -/
structure AttSt where
  bValid : Bool
  b : g.FVec
  valid : Bool
  pub : Option (g.AttEst × g.FVec)
  reset : Bool
  magFlag : Bool
  ignoreSun : Bool
  fault : Fault
  state : g.AttState
  est : g.AttEst
  slip : g.FVec

variable (g) in
/-- src/fsw/FCCode/Estimators/AttitudeEstimator.cpp:21-78 constructor. -/
def AttSt.init : AttSt g :=
  { bValid := false, b := g.fzero, valid := false, pub := none, reset := false, magFlag := false, ignoreSun := false,
    fault := Fault.init 150, state := g.asDefault, est := g.aeDefault, slip := g.fzero }

/-- src/fsw/FCCode/Estimators/AttitudeEstimator.cpp:131-160: the magnetic field. -/
def AttSt.magnetics (s : AttSt g) (a : AdcsIn g) : AttSt g :=
  let s :=
    if a.mag1Ok || a.mag2Ok then
      let m1 := g.cal1 a.mag1 s.slip
      let m2 := g.cal2 a.mag2 s.slip
      { s with b := if s.magFlag then (if a.mag1Ok then m1 else m2) else (if a.mag2Ok then m2 else m1) }
    else s
  { s with bValid := a.mag1Ok || a.mag2Ok }

/-- src/adcs/constants.hpp:78 `SSA_COMPLETE`. -/
abbrev ssaComplete : U8 := 2

/-- src/fsw/FCCode/Estimators/AttitudeEstimator.cpp:185-223: the filter. -/
def AttSt.filter (s : AttSt g) (t : TimeSt g) (o : OrbitSt g) (a : AdcsIn g) : g.AttState × g.AttEst :=
  let ssaValid := a.ssaMode == ssaComplete
  let ssa := if !ssaValid || s.ignoreSun then g.nans else g.unit a.ssa
  if g.asValid s.state then g.attUpdate s.state s.est t.ns o.pos s.b ssa a.gyr
  else if s.ignoreSun then (g.attReset s.state t.ns, s.est)
  else if ssaValid then (g.attResetVec s.state t.ns o.pos s.b ssa, s.est)
  else (s.state, s.est)

/-- src/fsw/FCCode/Estimators/AttitudeEstimator.cpp:162-243: `_execute` after the magnetic field; `cc` is the number of the
control cycle. -/
def AttSt.estimate (s : AttSt g) (t : TimeSt g) (o : OrbitSt g) (a : AdcsIn g) (cc : U32) : AttSt g :=
  if !t.valid || !o.valid || !a.gyrOk || !s.bValid || s.reset then
    { s with valid := false, reset := false, fault := s.fault.evaluate cc true, state := g.asDefault, est := g.aeDefault }
  else
    let r := s.filter t o a
    let s := { s with state := r.1, est := r.2, valid := g.aeValid r.2, fault := s.fault.evaluate cc (!g.aeValid r.2) }
    if g.aeValid r.2 then { s with pub := some (r.2, a.gyr) } else s

/-- src/fsw/FCCode/Estimators/AttitudeEstimator.cpp:85-93 `execute`. -/
def AttSt.exec (s : AttSt g) (t : TimeSt g) (o : OrbitSt g) (a : AdcsIn g) (cc : U32) : AttSt g :=
  { (s.magnetics a).estimate t o a cc with slip := a.mtrCmd }

variable (g) in
/-- src/fsw/FCCode/Estimators.hpp: the four estimators. -/
structure All where
  time : TimeSt g
  orbit : OrbitSt g
  rel : RelSt g
  att : AttSt g

variable (g) in
/-- All four estimators after construction (src/fsw/FCCode/Estimators.cpp:3-9). -/
def All.init : All g := ⟨TimeSt.init g, OrbitSt.init g, RelSt.init g, AttSt.init g⟩

variable (g) in
/-- What changes between two executions: sensor fields, the cycle number, and the fields the ground or the mission manager
may write (`none`: not written). -/
structure In where
  piksi : PiksiIn g
  adcs : AdcsIn g
  cc : U32
  timeReset : Option Bool
  orbitReset : Option Bool
  relReset : Option Bool
  attReset : Option Bool
  upTime : Option GpsTime
  upPos : Option g.Vec
  upVel : Option g.Vec
  magFlag : Option Bool
  ignoreSun : Option Bool

/-- Writes by the ground (and by EEPROM restore) before the estimators run. -/
def All.write (s : All g) (i : In g) : All g :=
  { time := { s.time with reset := i.timeReset.getD s.time.reset },
    orbit := { s.orbit with reset := i.orbitReset.getD s.orbit.reset },
    rel := { s.rel with reset := i.relReset.getD s.rel.reset, upTime := i.upTime.getD s.rel.upTime,
                        upPos := i.upPos.getD s.rel.upPos, upVel := i.upVel.getD s.rel.upVel },
    att := { s.att with reset := i.attReset.getD s.att.reset, magFlag := i.magFlag.getD s.att.magFlag,
                        ignoreSun := i.ignoreSun.getD s.att.ignoreSun } }

/-- src/fsw/FCCode/Estimators.cpp:16-22 `execute`, after the writes of the cycle. -/
def All.exec (s : All g) (i : In g) : All g :=
  let s := s.write i
  let t := s.time.exec i.piksi
  let o := s.orbit.exec t i.piksi
  let r := s.rel.exec t o i.piksi
  ⟨t, o, r, s.att.exec t o i.adcs i.cc⟩

/-- Control cycles one after the other. -/
def All.run (s : All g) (is : List (In g)) : All g := is.foldl All.exec s

end Est
end PAN
