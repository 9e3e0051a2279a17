import Verif.Model.System
import Verif.Model.Estimators

/-!
The estimators in front of the control tasks of Model/System.lean, in one control cycle
(src/fsw/FCCode/MainControlLoop.cpp:153-160).
-/
namespace PAN

/-- src/fsw/FCCode/Estimators/rel_orbit_state_t.enum:1-14: the number in `rel_orbit.state`. -/
def Est.RelMode.code : Est.RelMode → U8
  | .invalid => 0
  | .propagating => 1
  | .estimating => 2

/-- What the control tasks read of the estimates: the flags `time.valid`, `orbit.valid`, `attitude_estimator.valid` and
`attitude_estimator.b_valid`, and `rel_orbit.state` (src/fsw/FCCode/OrbitController.cpp:29-45,
src/fsw/FCCode/AttitudeController.cpp:14-34, src/fsw/FCCode/MissionManager.cpp:62-72). The vectors they read remain inputs. -/
def SysIn.withEstimates {L : Orb.Lib} {g : Est.Gnc} (i : SysIn L) (a : Est.All g) : SysIn L :=
  { i with
    mm := { i.mm with attValid := a.att.valid, relState := a.rel.state.code }
    att := { i.att with bValid := a.att.bValid, attValid := a.att.valid, timeValid := a.time.valid, orbitValid := a.orbit.valid }
    orb := { i.orb with timeValid := a.time.valid, orbitValid := a.orbit.valid, relState := a.rel.state.code, attValid := a.att.valid } }

/-- The estimators and the control tasks. -/
structure Nav (g : Est.Gnc) (L : Orb.Lib) where
  est : Est.All g
  sys : Sys L

/-- src/fsw/FCCode/MainControlLoop.cpp:153-160: the estimators, then the control tasks on what they have published in this cycle. -/
def Nav.cycle {g : Est.Gnc} {L : Orb.Lib} (ρ : Orb.Rounding) (s : Nav g L) (e : Est.In g) (i : SysIn L) : Option (Nav g L × List (List U8)) :=
  let est := s.est.exec e
  (s.sys.cycle ρ (i.withEstimates est)).map fun r => (⟨est, r.1⟩, r.2)

/-- At construction. -/
def Nav.init (g : Est.Gnc) (L : Orb.Lib) (m : L.Mem) (p t2 t1 : Rat) (a d : Bool) : Nav g L := ⟨Est.All.init g, Sys.init L m p t2 t1 a d⟩

end PAN
