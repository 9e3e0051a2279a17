import Verif.Model.Basic
import Mathlib.Data.Rat.Floor
/-!
Model of the orbit controller `src/fsw/FCCode/OrbitController.cpp`.

Doubles are rational numbers with an explicit rounding after every operation, for every rounding function that is
monotone, symmetric, idempotent and keeps 1 (as IEEE-754 rounding to nearest does). Infinities and not-a-number do not
occur in `schedule_valves` and `impulse_to_time` of the model: the commanded impulse is a finite number.

The guidance law, the environment model and the vector operations are in the library psim, which is not part of the
repository. They are a parameter of the model. Angles are in half turns, so that pi is 1.
-/
namespace PAN
namespace Orb

/-- What is used of the rounding of doubles; `eps` and `tiny` bound its relative and its absolute error. -/
structure Rounding where
  r : ℚ → ℚ
  mono : ∀ x y, x ≤ y → r x ≤ r y
  neg : ∀ x, r (-x) = -r x
  idem : ∀ x, r (r x) = r x
  one : r 1 = 1
  eps : ℚ
  tiny : ℚ
  epsPos : 0 ≤ eps
  tinyPos : 0 ≤ tiny
  err : ∀ x, |r x - x| ≤ eps * |x| + tiny

/-- src/fsw/FCCode/OrbitController.hpp:18 `valve_time_lin_reg_slope`, in newton. -/
def slope : ℚ := 24119 / 1000000
/-- src/fsw/FCCode/OrbitController.hpp:19 `valve_time_lin_reg_intercept`, in newton seconds. -/
def intercept : ℚ := 70092 / 1000000000

/-- The constants of `schedule_valves`. -/
def k1 : ℚ := 4026550706 / 10000000000
def k2 : ℚ := 116788310856 / 100000000000
def k3 : ℚ := 130821559393 / 100000000000
def k4 : ℚ := 92747171211 / 100000000000
def k5 : ℚ := 169335426478 / 100000000000

/-- Conversion of a double to `int`: toward zero. `none`: not representable, undefined. -/
def toInt (x : ℚ) : Option ℤ :=
  let n := if 0 ≤ x then ⌊x⌋ else ⌈x⌉
  if -2147483648 ≤ n ∧ n ≤ 2147483647 then some n else none

/-- src/fsw/FCCode/OrbitController.cpp:221-226 `impulse_to_time`. -/
def impulseToTime (ρ : Rounding) (impulse : ℚ) : Option U32 :=
  let time := ρ.r (ρ.r (impulse - ρ.r intercept) / ρ.r slope)
  match toInt (ρ.r (time * 1000)) with
  | none => none
  | some n => some (BitVec.ofInt 32 (if n < 0 then 0 else n))

/-- src/fsw/FCCode/OrbitController.cpp:241, 248: the first thruster without the fourth. -/
def part1 (ρ : Rounding) (a b c : ℚ) : ℚ :=
  ρ.r (ρ.r (ρ.r (ρ.r k1 * c) + ρ.r (ρ.r k2 * a)) - ρ.r (ρ.r k3 * b))
/-- src/fsw/FCCode/OrbitController.cpp:242, 249: the second. -/
def part2 (ρ : Rounding) (a c : ℚ) : ℚ := ρ.r (ρ.r (ρ.r k4 * c) + ρ.r (ρ.r k4 * a))
/-- src/fsw/FCCode/OrbitController.cpp:243, 250: the third. -/
def part3 (ρ : Rounding) (a b c : ℚ) : ℚ :=
  ρ.r (ρ.r (ρ.r (ρ.r k2 * c) + ρ.r (ρ.r k1 * a)) - ρ.r (ρ.r k3 * b))

/-- src/fsw/FCCode/OrbitController.cpp:241-243, 256-258: with the fourth. -/
def with4 (ρ : Rounding) (p1 p2 p3 x4 : ℚ) : ℚ × ℚ × ℚ :=
  (ρ.r (p1 + ρ.r (ρ.r k5 * x4)), ρ.r (p2 + x4), ρ.r (p3 + ρ.r (ρ.r k5 * x4)))

/-- src/fsw/FCCode/OrbitController.cpp:228-259 `schedule_valves`: the impulses of the four thrusters. `1/152280838494` is
a division of integers, 0, so that `x4` starts at 0 (of either sign). -/
def valveImpulses (ρ : Rounding) (a b c : ℚ) : ℚ × ℚ × ℚ × ℚ :=
  let x4 : ℚ := ρ.r (((-1 * (1 / 152280838494) : ℤ) : ℚ) *
    ρ.r (ρ.r (ρ.r (70618085000 * c) - ρ.r (87226380000 * b)) + ρ.r (70618085000 * a)))
  let x4 := if x4 < 0 then 0 else x4
  let p1 := part1 ρ a b c
  let p2 := part2 ρ a c
  let p3 := part3 ρ a b c
  let x := with4 ρ p1 p2 p3 x4
  if x.1 < 0 ∨ x.2.1 < 0 ∨ x.2.2 < 0 then
    let x4 := ρ.r (-1 * min p1 (min p2 p3))
    let x := with4 ρ p1 p2 p3 x4
    (x.1, x.2.1, x.2.2, x4)
  else (x.1, x.2.1, x.2.2, x4)

/-- The four valve fields `orbit.control.valve1` to `valve4`. -/
abbrev Valves := U32 × U32 × U32 × U32

/-- src/fsw/FCCode/OrbitController.cpp:228-267 `schedule_valves`. -/
def scheduleValves (ρ : Rounding) (J : ℚ × ℚ × ℚ) : Option Valves :=
  let x := valveImpulses ρ J.1 J.2.1 J.2.2
  match impulseToTime ρ x.1, impulseToTime ρ x.2.1, impulseToTime ρ x.2.2.1, impulseToTime ρ x.2.2.2 with
  | some t1, some t2, some t3, some t4 => some (t1, t2, t3, t4)
  | _, _, _, _ => none

/-- src/fsw/FCCode/OrbitController.cpp:12 `firing_nodes_far`. -/
def farNodes : List ℚ := [1 / 3, 1, -1 / 3]

/-- src/fsw/FCCode/OrbitController.cpp:276-286 `node_generator`, entry `i`. `num_nodes - 1` is unsigned. -/
def nearNode (num : U32) (i : Nat) : ℚ :=
  let x : ℚ := i / 90
  let x := if x > 1 then x - 2 else x
  if i > (num - 1).toNat then 0 else x

/-- src/fsw/FCCode/OrbitController.cpp:276-286, 182: all 360 entries. -/
def nearNodes (num : U32) : List ℚ := (List.range 360).map (nearNode num)

/-- src/fsw/FCCode/OrbitController.cpp:172-181 `next_node`: the time to the next node in seconds; `none` for the largest
double, when there is none. Times are exact in the model (the rounding of `double` is left out). -/
def nextNode (theta angVel : ℚ) (nodes : List ℚ) : Option ℚ :=
  nodes.foldl (fun best node =>
    let t := (node - theta) / angVel
    if 0 < t ∧ (best.all fun m => decide (t < m)) = true then some t else best) none

/-- src/fsw/FCCode/OrbitController.cpp:162-185 `time_till_node`; state 2 is `estimating`. -/
def timeTillNode (relState : U8) (num : U32) (theta angVel : ℚ) : Option ℚ :=
  nextNode theta angVel (if relState = 2 then nearNodes num else farNodes)

/-- The library. -/
structure Lib where
  Vec : Type
  Quat : Type
  /-- The state of `gnc::OrbitControllerState`. -/
  Mem : Type
  nan : Vec
  zero : Vec
  /-- `lin::all(lin::isfinite(...))`. -/
  finite : Vec → Bool
  /-- src/fsw/FCCode/OrbitController.cpp:76, 81 `alpha * x + (1 - alpha) * y`. -/
  mix : ℚ → Vec → Vec → Vec
  /-- src/fsw/FCCode/OrbitController.cpp:100-128: velocity in the inertial frame, and the angle between the position and the
  projection of the sun on the orbital plane. The angle of two vectors, from the norm of their cross product. -/
  inertial : ℚ → Vec → Vec → Vec
  angle : ℚ → Vec → Vec → ℚ
  /-- src/fsw/FCCode/OrbitController.cpp:169 in half turns per second. -/
  rate : Vec → Vec → ℚ
  /-- `gnc::control_orbit` with the gains divided by the factor, if any. -/
  control : Mem → ℚ → Vec → Vec → Vec → Vec → Option ℚ → Mem × Vec
  /-- src/fsw/FCCode/OrbitController.cpp:148-157: into the frame of the satellite. -/
  body : ℚ → Quat → Vec → ℚ × ℚ × ℚ

variable (L : Lib)

/-- The controller: its fields and private data; `gain` is the function's static `gain_factor` (none before first use). -/
structure St where
  dr : L.Vec
  dv : L.Vec
  valves : Valves
  impulse : L.Vec
  alpha : ℚ
  numNodes : U32
  mem : L.Mem
  gain : Option ℚ

/-- The fields read: estimates, mission state, and those of the propulsion controller. -/
structure In where
  timeValid : Bool
  orbitValid : Bool
  relState : U8
  attValid : Bool
  mission : U8
  t : ℚ
  pos : L.Vec
  vel : L.Vec
  relPos : L.Vec
  relVel : L.Vec
  q : L.Quat
  propState : U32
  countdown : U32
  maxPress : U32
  fill : U32
  cool : U32

variable {L}

/-- src/fsw/FCCode/OrbitController.cpp:269-274 `prop_min_cycles_needed`. -/
def In.minCycles (i : In L) : U32 := i.maxPress * (i.fill + i.cool) + 4

/-- src/fsw/FCCode/OrbitController.cpp:66-86: the smoothing. -/
def St.smooth (s : St L) (i : In L) : St L :=
  if i.relState ≠ 0 then
    { s with dr := if !L.finite s.dr then i.relPos else L.mix s.alpha i.relPos s.dr,
             dv := if !L.finite s.dv then i.relVel else L.mix s.alpha i.relVel s.dv }
  else { s with dr := L.nan, dv := L.nan }

/-- src/fsw/FCCode/OrbitController.cpp:88-98: the conditions for acting. -/
def In.active (i : In L) : Bool :=
  i.timeValid && i.orbitValid && i.relState != 0 && i.attValid &&
    (i.mission == Mission.follower || i.mission == Mission.followerCloseApproach)

/-- src/fsw/FCCode/OrbitController.cpp:133-140: the value `prop.cycles_until_firing` has afterwards. -/
def In.countdownAfter (i : In L) (num : U32) : U32 :=
  let v := L.inertial i.t i.pos i.vel
  match timeTillNode i.relState num (L.angle i.t i.pos i.vel) (L.rate i.pos v) with
  | none => i.countdown
  | some t =>
    let cc := t * 1000 / 170
    if cc ≤ ((i.minCycles + 10).toNat : ℚ) ∧ i.propState = Prp.idle then BitVec.ofNat 32 ⌊cc⌋.toNat else i.countdown

/-- src/fsw/FCCode/OrbitController.cpp:187-219 `calculate_impulse`. -/
def St.calculate (s : St L) (i : In L) : St L :=
  let gain := s.gain.getD ((s.numNodes.toNat : ℚ) / 3)
  let v := L.inertial i.t i.pos i.vel
  let r := L.control s.mem i.t i.pos v s.dr s.dv (if i.relState = 2 then some gain else none)
  { s with gain := some gain, mem := r.1, impulse := r.2 }

/-- src/fsw/FCCode/OrbitController.cpp:64-160 `execute`; also the new value of `prop.cycles_until_firing`. `none`:
undefined behaviour. -/
def St.exec (ρ : Rounding) (s : St L) (i : In L) : Option (St L × U32) :=
  let s := s.smooth i
  if i.active then
    let n := i.countdownAfter s.numNodes
    let s := s.calculate i
    match scheduleValves ρ (L.body i.t i.q s.impulse) with
    | none => none
    | some v => some ({ s with valves := v }, n)
  else some (s, i.countdown)

variable (L) in
/-- src/fsw/FCCode/OrbitController.cpp:15-53 constructor. -/
def St.init (m : L.Mem) : St L :=
  { dr := L.nan, dv := L.nan, valves := (0, 0, 0, 0), impulse := L.zero, alpha := 2 / 5, numNodes := 180, mem := m,
    gain := none }

end Orb
end PAN
