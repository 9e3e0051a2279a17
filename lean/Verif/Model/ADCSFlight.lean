import Verif.Model.ADCSConv
/-!
Model of the flight computer's side of attitude control: the attitude controller (src/fsw/FCCode/AttitudeController.cpp),
the commander (src/fsw/FCCode/ADCSCommander.cpp) and the task that sends the commands to the box
(src/fsw/FCCode/ADCSBoxController.cpp with src/fsw/FCCode/Drivers/ADCS.cpp).

The numerical controllers of the `gnc` library are inputs. Vectors are finite floats; a vector that may be NaN is an
`Option`.
-/
namespace PAN
namespace ADCS

/-- src/fsw/FCCode/adcs_state_t.enum. -/
abbrev sManual : U8 := 0
abbrev sStartup : U8 := 1
abbrev sLimited : U8 := 2
abbrev sZeroTorque : U8 := 3
abbrev sZeroL : U8 := 4
abbrev sDetumble : U8 := 5
abbrev sPointManual : U8 := 6
abbrev sPointStandby : U8 := 7
abbrev sPointDocking : U8 := 8

/-! ### AttitudeController -/

/-- The fields of the attitude controller: actuator commands and the pointing objectives (`none` is NaN). -/
structure AttCtl where
  torque : V3 ℚ
  moment : V3 ℚ
  v1cur : Option (V3 ℚ)
  v2cur : Option (V3 ℚ)
  v1des : Option (V3 ℚ)
  v2des : Option (V3 ℚ)
  deriving DecidableEq, Repr

/-- What one call reads: the validity flags, and the results of the numerical routines it may call: the detumbling
moment, the frame of the orbit (rows: radial, along-track, normal; `none` if not finite), the direction to the other
satellite (the outer `none`: its position is not finite; the inner one: the quotient by its norm is not), and torque and moment of the pointing controller for given objectives (each `none` if not finite; the
torque is that for the spacecraft, before the sign change of line 236). -/
structure AttIn where
  bValid : Bool
  attValid : Bool
  timeValid : Bool
  orbitValid : Bool
  detumble : Option (V3 ℚ)
  frame : Option (V3 ℚ × V3 ℚ × V3 ℚ)
  toOther : Option (Option (V3 ℚ))
  pointing : V3 ℚ → V3 ℚ → V3 ℚ → V3 ℚ → Option (V3 ℚ × V3 ℚ)

namespace AttCtl

/-- src/fsw/FCCode/AttitudeController.cpp:107-110 `default_actuator_commands`. -/
def defaultCmd (s : AttCtl) : AttCtl := { s with torque := V3.zero, moment := V3.zero }

/-- src/fsw/FCCode/AttitudeController.cpp:112-117 `default_pointing_objectives`. -/
def defaultObj (s : AttCtl) : AttCtl := { s with v1cur := none, v2cur := none, v1des := none, v2des := none }

/-- src/fsw/FCCode/AttitudeController.cpp:59-60, the calls in the constructor. -/
def init : AttCtl := ⟨V3.zero, V3.zero, none, none, none, none⟩

/-- src/fsw/FCCode/AttitudeController.cpp:119-132 `calculate_detumble_controller`. -/
def detumbleCtl (i : AttIn) (s : AttCtl) : AttCtl :=
  if !i.bValid then s else match i.detumble with
    | some m => { s with moment := m }
    | none => s

/-- src/fsw/FCCode/AttitudeController.cpp:134-205 `calculate_pointing_objectives`. -/
def objectives (i : AttIn) (state : U8) (s : AttCtl) : AttCtl :=
  if !i.timeValid || !i.attValid || !i.orbitValid then s
  else if state = sPointStandby then
    match i.frame with
    | some (_, v, n) => { s with v1cur := some ⟨1, 0, 0⟩, v2cur := some ⟨0, 0, -1⟩, v1des := some v, v2des := some n }
    | none => s
  else if state = sPointDocking then
    match i.frame, i.toOther with
    | some (r, _, _), some d =>
      { s with v1cur := some ⟨0, 0, -1⟩, v2cur := some ⟨1, 0, 0⟩, v1des := d, v2des := some r }
    | _, _ => s
  else s

/-- src/fsw/FCCode/AttitudeController.cpp:207-242 `calculate_pointing_controller`. -/
def pointingCtl (i : AttIn) (s : AttCtl) : AttCtl :=
  if !i.attValid || !i.bValid then s
  else match s.v1des, s.v1cur, s.v2des, s.v2cur with
    | some a, some b, some c, some d =>
      match i.pointing a b c d with
      | some (t, m) => { s with torque := t.map (fun x => -x), moment := m }
      | none => s
    | _, _, _, _ => s

/-- src/fsw/FCCode/AttitudeController.cpp:63-105 `execute`; `state` is `adcs.state`. -/
def execute (i : AttIn) (state : U8) (s : AttCtl) : AttCtl :=
  if state = sDetumble ∨ state = sLimited then s.defaultCmd.detumbleCtl i
  else if state = sPointStandby ∨ state = sPointDocking then
    (s.defaultCmd.defaultObj.objectives i state).pointingCtl i
  else if state = sPointManual ∨ state = sManual then s.pointingCtl i
  else if state = sStartup ∨ state = sZeroTorque ∨ state = sZeroL then s.defaultCmd
  else s

end AttCtl

/-! ### ADCSCommander -/

/-- The command fields (src/fsw/FCCode/ADCSCommander.cpp). -/
structure Cmds where
  rwaMode : U8
  speed : V3 ℚ
  torque : V3 ℚ
  speedFlt : ℚ
  rampFlt : ℚ
  mtrMode : U8
  moment : V3 ℚ
  limit : ℚ
  voltFlt : ℚ
  mag1Mode : U8
  mag2Mode : U8
  magFlt : ℚ
  gyrFlt : ℚ
  gyrTempFlt : ℚ
  gyrPwm : U8
  gyrDesired : ℚ
  reset : ℕ → Bool
  disable : ℕ → Bool

namespace Cmds

/-- src/fsw/FCCode/ADCSCommander.cpp:86-102 defaults. -/
def init : Cmds :=
  { rwaMode := 0, speed := V3.zero, torque := V3.zero, speedFlt := 1, rampFlt := 1, mtrMode := 0, moment := V3.zero
    limit := maxMoment, voltFlt := 1, mag1Mode := 0, mag2Mode := 0, magFlt := 1, gyrFlt := 1, gyrTempFlt := 1
    gyrPwm := 255, gyrDesired := 20, reset := fun _ => false, disable := fun _ => false }

/-- src/fsw/FCCode/ADCSCommander.cpp:105-174 `execute`; `torque` and `moment` are the attitude controller's outputs. -/
def command (state : U8) (torque moment : V3 ℚ) (c : Cmds) : Cmds :=
  if state = sStartup then { c with torque := V3.zero, moment := V3.zero }
  else if state = sManual then c
  else if state = sLimited ∨ state = sDetumble then
    { c with rwaMode := 0, torque := V3.zero, mtrMode := 1, moment := moment }
  else if state = sZeroTorque then { c with rwaMode := 2, torque := V3.zero, mtrMode := 0, moment := V3.zero }
  else if state = sZeroL then { c with rwaMode := 0, speed := V3.zero, mtrMode := 1, moment := moment }
  else if state = sPointManual ∨ state = sPointStandby ∨ state = sPointDocking then
    { c with rwaMode := 2, torque := torque, mtrMode := 1, moment := moment }
  else c

/-! ### ADCSBoxController: the messages on the bus -/

/-- The two bytes of a 16-bit number, low byte first (src/fsw/FCCode/Drivers/ADCS.cpp:89-90). -/
def lohi (u : BitVec 16) : List U8 := [u.setWidth 8, (u >>> 8).setWidth 8]

/-- Six bytes of a command vector (src/fsw/FCCode/Drivers/ADCS.cpp:81-91, 110-115). -/
def vec6 (u : V3 (BitVec 16)) : List U8 := lohi u.x ++ lohi u.y ++ lohi u.z

/-- src/fsw/FCCode/Drivers/ADCS.cpp:79-93 `set_rwa_mode`: two messages. -/
def sendRwa (mode : U8) (v : V3 ℚ) : Option (List (List U8)) :=
  let comp : Option (V3 (BitVec 16)) :=
    if mode = 1 then v.mapM (us · (-maxSpeedCmd) maxSpeedCmd)
    else if mode = 2 then v.mapM (us · (-maxTorque) maxTorque)
    else some ⟨0, 0, 0⟩
  comp.map fun u => [[3, mode], 4 :: vec6 u]

/-- A setting sent as one byte (for example src/fsw/FCCode/Drivers/ADCS.cpp:95-98). -/
def sendByte (reg : U8) (f min max : ℚ) : Option (List U8) := (uc f min max).map fun b => [reg, b]

/-- Sending a command table (src/fsw/FCCode/Drivers/ADCS.cpp:173-201): four bytes, low byte first. -/
def sendTable (reg : U8) (t : BitVec 32) : List U8 :=
  [reg, t.setWidth 8, (t >>> 8).setWidth 8, (t >>> 16).setWidth 8, (t >>> 24).setWidth 8]

/-- `temp_cmd_table.set(idx, true)` for every commanded device, starting from the table `t`
(src/fsw/FCCode/ADCSBoxController.cpp:99-110, 118-129). -/
def orTable (cmd : ℕ → Bool) (t : BitVec 32) : BitVec 32 :=
  t ||| BitVec.ofNat 32 (((List.range 19).map fun i => if cmd i then 2 ^ i else 0).sum)

/-- src/fsw/FCCode/ADCSBoxController.cpp:56-135 `execute`: the messages sent, in order, and the fields afterwards.
`ssa` is the sun sensor mode last read. The table of reset commands is not cleared before the disable commands are
added to it (lines 95-134). `none` is undefined behaviour: a command outside its range. -/
def send (state ssa : U8) (c : Cmds) : Option (List (List U8) × Cmds) :=
  let mode : List U8 := [1, if state = sStartup then 0 else 1]
  let rwa : Option (List (List U8)) :=
    if c.rwaMode = 1 then sendRwa c.rwaMode c.speed
    else if c.rwaMode = 2 then sendRwa c.rwaMode c.torque
    else if c.rwaMode = 0 then sendRwa c.rwaMode V3.zero
    else some []
  let anyReset := (List.range 19).any c.reset
  let anyDisable := (List.range 19).any c.disable
  let rt := orTable c.reset 0
  let dt := orTable c.disable rt
  match rwa, sendByte 6 c.speedFlt 0 1, sendByte 7 c.rampFlt 0 1,
      c.moment.mapM (us · (-maxMoment) maxMoment), us c.limit (-maxMoment) maxMoment,
      sendByte 16 c.voltFlt 0 1, sendByte 22 c.magFlt 0 1, sendByte 23 c.gyrFlt 0 1, sendByte 24 c.gyrTempFlt 0 1,
      sendByte 26 c.gyrDesired (-40) 85 with
  | some rwa, some sf, some rf, some mc, some ml, some vf, some mf, some gf, some gtf, some gd =>
    some ([mode] ++ rwa ++ [sf, rf, [10, c.mtrMode], 11 :: vec6 mc, 12 :: lohi ml] ++
      (if ssa ≠ 1 then [[14, 1]] else []) ++
      [vf, [19, c.mag1Mode], [20, c.mag2Mode], mf, gf, gtf, [25, c.gyrPwm], gd] ++
      (if anyReset then [sendTable 28 rt] else []) ++ (if anyDisable then [sendTable 29 dt] else []),
      { c with reset := fun _ => false, disable := fun _ => false })
  | _, _, _, _, _, _, _, _, _, _ => none

end Cmds
end ADCS
end PAN
