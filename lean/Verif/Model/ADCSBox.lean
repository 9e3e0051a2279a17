import Verif.Model.ADCSConv
/-!
Model of the firmware of the attitude control box: the register file written by the I2C interrupt routine
(src/adcs/state_controller.cpp), the main loop that reads it (src/adcs/main.cpp), and the actuators (src/adcs/mtr.cpp,
src/adcs/rwa.cpp, src/adcs/havt.cpp, src/adcs/dev/*).

The main loop is a sequence of small steps, one per access to a volatile register; between any two steps an I2C
message may arrive, and the interrupt routine then runs to completion. Not modelled: logging, the numerical part of
the sensor drivers (readings, filters, least squares) except where stated.
-/
namespace PAN
namespace ADCS

/-- src/adcs/state.hpp: the registers the main loop and the interrupt routine share (read-only sensor registers and
the endianness byte are left out). -/
structure Regs where
  mode : U8
  readPtr : U8
  rwaMode : U8
  rwaCmd : V3 ℚ
  rwaFlg : U8
  speedFlt : ℚ
  rampFlt : ℚ
  mtrMode : U8
  mtrCmd : V3 ℚ
  mtrLimit : ℚ
  mtrFlg : U8
  ssaMode : U8
  sunVec : V3 ℚ
  voltFlt : ℚ
  mag1Mode : U8
  mag2Mode : U8
  magFlt : ℚ
  gyrFlt : ℚ
  gyrTempFlt : ℚ
  gyrPwm : U8
  gyrDesired : ℚ
  havtRead : BitVec 32
  resetTable : BitVec 32
  resetFlg : U8
  disableTable : BitVec 32
  disableFlg : U8
  deriving DecidableEq, Repr

/-- src/adcs/state.cpp:17-71 initial values. -/
def Regs.init : Regs :=
  { mode := 0, readPtr := 0, rwaMode := 0, rwaCmd := V3.zero, rwaFlg := 0, speedFlt := 1, rampFlt := 1
    mtrMode := 0, mtrCmd := V3.zero, mtrLimit := 1, mtrFlg := 0
    ssaMode := 0, sunVec := ⟨f32 (69 / 100), f32 (42 / 100), f32 (-88 / 100)⟩, voltFlt := 1
    mag1Mode := 0, mag2Mode := 0, magFlt := 1, gyrFlt := 1, gyrTempFlt := 1, gyrPwm := 117, gyrDesired := -102
    havtRead := 0xF0F01F1F, resetTable := 0, resetFlg := 0, disableTable := 0, disableFlg := 0 }

/-! ### The I2C interrupt routine: src/adcs/state_controller.cpp:97-353 `on_i2c_recieve`

`d` is the rest of the receive buffer. Several cases of the switch fall through into the next one. Reading from an
empty buffer yields `-1`, that is 0xFF. -/

namespace Regs

/-- src/adcs/state_controller.cpp:114-122 `READ_POINTER`. -/
def recvReadPtr (r : Regs) : List U8 → Regs
  | p :: _ => { r with readPtr := p }
  | [] => r

/-- src/adcs/state_controller.cpp:106-112 `ADCS_MODE`, falling through. -/
def recvMode (r : Regs) : List U8 → Regs
  | m :: d => { r with mode := m }.recvReadPtr d
  | [] => r

/-- src/adcs/state_controller.cpp:132-155 `RWA_COMMAND`. In a mode other than acceleration and speed control the
command is dropped and the flag left alone (lines 144-145). -/
def recvRwaCmd (r : Regs) : List U8 → Regs
  | a :: b :: c :: d :: e :: f :: _ =>
    let t : V3 (BitVec 16) := ⟨le16 a b, le16 c d, le16 e f⟩
    if r.rwaMode = 2 then { r with rwaCmd := t.map (fpS · (-maxTorque) maxTorque), rwaFlg := 1 }
    else if r.rwaMode = 1 then { r with rwaCmd := t.map (fpS · (-maxSpeedCmd) maxSpeedCmd), rwaFlg := 1 }
    else r
  | _ => r

/-- src/adcs/state_controller.cpp:124-130 `RWA_MODE`, falling through. -/
def recvRwaMode (r : Regs) : List U8 → Regs
  | m :: d => { r with rwaMode := m }.recvRwaCmd d
  | [] => r

/-- src/adcs/state_controller.cpp:165-173 `RWA_RAMP_FILTER`. -/
def recvRampFlt (r : Regs) : List U8 → Regs
  | x :: _ => { r with rampFlt := fpC x 0 1 }
  | [] => r

/-- src/adcs/state_controller.cpp:157-163 `RWA_SPEED_FILTER`, falling through. -/
def recvSpeedFlt (r : Regs) : List U8 → Regs
  | x :: d => { r with speedFlt := fpC x 0 1 }.recvRampFlt d
  | [] => r

/-- src/adcs/state_controller.cpp:198-208 `MTR_LIMIT`. One byte is enough to be accepted; the missing second one is
then read as 0xFF. -/
def recvMtrLimit (r : Regs) : List U8 → Regs
  | a :: b :: _ => { r with mtrLimit := fpS (le16 a b) (-maxMoment) maxMoment, mtrFlg := 1 }
  | [a] => { r with mtrLimit := fpS (le16 a 0xFF) (-maxMoment) maxMoment, mtrFlg := 1 }
  | [] => r

/-- src/adcs/state_controller.cpp:183-196 `MTR_COMMAND`, falling through. -/
def recvMtrCmd (r : Regs) : List U8 → Regs
  | a :: b :: c :: d :: e :: f :: rest =>
    let t : V3 (BitVec 16) := ⟨le16 a b, le16 c d, le16 e f⟩
    { r with mtrCmd := t.map (fpS · (-maxMoment) maxMoment), mtrFlg := 1 }.recvMtrLimit rest
  | _ => r

/-- src/adcs/state_controller.cpp:175-181 `MTR_MODE`, falling through. -/
def recvMtrMode (r : Regs) : List U8 → Regs
  | m :: d => { r with mtrMode := m }.recvMtrCmd d
  | [] => r

/-- src/adcs/state_controller.cpp:210-221 `SSA_MODE`: ignored while a calculation is in progress. -/
def recvSsaMode (r : Regs) : List U8 → Regs
  | m :: _ => if r.ssaMode = 2 ∨ r.ssaMode = 0 then { r with ssaMode := m } else r
  | [] => r

/-- src/adcs/state_controller.cpp:223-231 `SSA_VOLTAGE_FILTER`. -/
def recvVoltFlt (r : Regs) : List U8 → Regs
  | x :: _ => { r with voltFlt := fpC x 0 1 }
  | [] => r

/-- src/adcs/state_controller.cpp:241-249 `IMU_MAG2_MODE`. -/
def recvMag2Mode (r : Regs) : List U8 → Regs
  | m :: _ => { r with mag2Mode := m }
  | [] => r

/-- src/adcs/state_controller.cpp:233-239 `IMU_MAG1_MODE`, falling through. -/
def recvMag1Mode (r : Regs) : List U8 → Regs
  | m :: d => { r with mag1Mode := m }.recvMag2Mode d
  | [] => r

/-- src/adcs/state_controller.cpp:267-275 `IMU_GYR_TEMP_FILTER`. -/
def recvGyrTempFlt (r : Regs) : List U8 → Regs
  | x :: _ => { r with gyrTempFlt := fpC x 0 1 }
  | [] => r

/-- src/adcs/state_controller.cpp:259-265 `IMU_GYR_FILTER`, falling through. -/
def recvGyrFlt (r : Regs) : List U8 → Regs
  | x :: d => { r with gyrFlt := fpC x 0 1 }.recvGyrTempFlt d
  | [] => r

/-- src/adcs/state_controller.cpp:251-257 `IMU_MAG_FILTER`, falling through. -/
def recvMagFlt (r : Regs) : List U8 → Regs
  | x :: d => { r with magFlt := fpC x 0 1 }.recvGyrFlt d
  | [] => r

/-- src/adcs/state_controller.cpp:277-285 `IMU_GYR_TEMP_PWM`. -/
def recvGyrPwm (r : Regs) : List U8 → Regs
  | x :: _ => { r with gyrPwm := x }
  | [] => r

/-- src/adcs/state_controller.cpp:287-295 `IMU_GYR_TEMP_DESIRED` (range -40 to 85 degrees). -/
def recvGyrDesired (r : Regs) : List U8 → Regs
  | x :: _ => { r with gyrDesired := fpC x (-40) 85 }
  | [] => r

/-- src/adcs/state_controller.cpp:63-69 `endian_read<unsigned int>`; missing bytes are read as 0xFF. -/
def le32 (d : List U8) : BitVec 32 :=
  (d[3]?.getD 0xFF ++ d[2]?.getD 0xFF : BitVec 16) ++ (d[1]?.getD 0xFF ++ d[0]?.getD 0xFF : BitVec 16)

/-- src/adcs/state_controller.cpp:297-321 `HAVT_COMMAND_RESET`. -/
def recvReset (r : Regs) (d : List U8) : Regs :=
  if d = [] then r else { r with resetTable := le32 d, resetFlg := 1 }

/-- src/adcs/state_controller.cpp:322-346 `HAVT_COMMAND_DISABLE`. -/
def recvDisable (r : Regs) (d : List U8) : Regs :=
  if d = [] then r else { r with disableTable := le32 d, disableFlg := 1 }

/-- src/adcs/state_controller.cpp:97-353 `on_i2c_recieve`; the register addresses are those of
src/adcs/state_registers.hpp. -/
def receive (r : Regs) : List U8 → Regs
  | [] => r
  | a :: d =>
    if a = 1 then r.recvMode d
    else if a = 2 then r.recvReadPtr d
    else if a = 3 then r.recvRwaMode d
    else if a = 4 then r.recvRwaCmd d
    else if a = 6 then r.recvSpeedFlt d
    else if a = 7 then r.recvRampFlt d
    else if a = 10 then r.recvMtrMode d
    else if a = 11 then r.recvMtrCmd d
    else if a = 12 then r.recvMtrLimit d
    else if a = 14 then r.recvSsaMode d
    else if a = 16 then r.recvVoltFlt d
    else if a = 19 then r.recvMag1Mode d
    else if a = 20 then r.recvMag2Mode d
    else if a = 22 then r.recvMagFlt d
    else if a = 23 then r.recvGyrFlt d
    else if a = 24 then r.recvGyrTempFlt d
    else if a = 25 then r.recvGyrPwm d
    else if a = 26 then r.recvGyrDesired d
    else if a = 28 then r.recvReset d
    else if a = 29 then r.recvDisable d
    else r

end Regs

/-! ### Actuators -/

/-- src/adcs/dev/Magnetorquer.hpp: a magnetic torque rod, with the values last written to its two PWM pins. -/
structure Rod where
  functional : Bool
  fwd : ℤ
  rev : ℤ
  deriving DecidableEq, Repr

namespace Rod

/-- src/adcs/dev/Magnetorquer.cpp:36-44 `actuate`. -/
def actuate (r : Rod) (pwm : ℤ) : Rod :=
  if 0 ≤ pwm then { r with fwd := pwm, rev := 0 } else { r with fwd := 0, rev := -pwm }

/-- src/adcs/dev/Magnetorquer.cpp:25-29 `reset`. -/
def reset (r : Rod) : Rod := { r with functional := true }.actuate 0

/-- src/adcs/dev/Magnetorquer.cpp:31-34 `disable`. -/
def disable (r : Rod) : Rod := { r with functional := false }.actuate 0

end Rod

/-- src/adcs/dev/MaxonEC45.hpp: a reaction wheel: settings, and what is on its pins (`cw`, `ccw`, servo pulse). -/
structure Wheel where
  functional : Bool
  speed : ℤ
  ramp : U8
  cw : Bool
  ccw : Bool
  pulse : ℤ
  deriving DecidableEq, Repr

namespace Wheel

/-- src/adcs/dev/MaxonEC45.cpp:57-60 `stop`. -/
def stop (w : Wheel) : Wheel := { w with cw := false, ccw := false }

/-- src/adcs/dev/MaxonEC45.cpp:29-35 `reset`. -/
def reset (w : Wheel) : Wheel := { w with functional := true, ramp := 0, speed := 1000 }.stop

/-- src/adcs/dev/MaxonEC45.cpp:37-42 `disable`. -/
def disable (w : Wheel) : Wheel := { w with functional := false, ramp := 0, speed := 1000 }.stop

/-- src/adcs/dev/MaxonEC45.cpp:44-55 `actuate`, without the potentiometer setting (see `Hw.setRdac`). -/
def actuate (w : Wheel) : Wheel :=
  if 0 ≤ w.speed then { w with cw := false, ccw := true, pulse := w.speed }
  else { w with cw := true, ccw := false, pulse := -w.speed }

end Wheel

/-- src/adcs/dev/AD5254.hpp: the potentiometer that sets the wheels' acceleration: the settings kept in the driver and
those last accepted by the chip (the unused fourth channel is left out). -/
structure Pot where
  functional : Bool
  rdac : V3 U8
  chip : V3 U8
  deriving DecidableEq, Repr

/-- What the surroundings contribute to one step of the main loop: whether I2C transfers to the potentiometer succeed
and whether it stays in service (after too many errors the driver takes it out of service, src/adcs/dev/I2CDevice.inl:35-43),
which sensors a reset brings back and which are still in service, the new filtered temperature if the gyroscope was
read in this pass, and the result of the sun vector calculation. -/
structure Env where
  potOk : Bool
  potAlive : Bool
  resetOk : ℕ → Bool
  alive : ℕ → Bool
  gyr : Option ℚ
  ssa : U8
  sun : V3 ℚ

/-- The devices of the box: rods, wheels, potentiometer, gyroscope heater, and for the sensors only whether they are
in service (indexed as in src/adcs/havt_devices.hpp). -/
structure Hw where
  rods : V3 Rod
  wheels : V3 Wheel
  pot : Pot
  heaterOn : Bool
  heaterPwm : ℤ
  sensor : ℕ → Bool

namespace Hw

/-- src/adcs/mtr_config.hpp:38-50 `body_to_mtr`, leader: each row has one entry -1 and zeros, so the product is a
signed permutation and exact. -/
def bodyToMtrLeader (v : V3 ℚ) : V3 ℚ := ⟨-v.z, -v.x, -v.y⟩
/-- src/adcs/mtr_config.hpp:38-50 `body_to_mtr`, follower. -/
def bodyToMtrFollower (v : V3 ℚ) : V3 ℚ := ⟨v.z, -v.x, v.y⟩
/-- src/adcs/rwa_config.hpp:76-80 `body_to_rwa`. -/
def bodyToRwa (v : V3 ℚ) : V3 ℚ := ⟨-v.y, -v.z, v.x⟩

/-- The build flag `PAN_LEADER` / `PAN_FOLLOWER`. -/
def bodyToMtr (leader : Bool) (v : V3 ℚ) : V3 ℚ := if leader then bodyToMtrLeader v else bodyToMtrFollower v

/-- src/adcs/mtr.cpp:91-93: the first line's result is overwritten by the second, which starts again from the
command. -/
def clampMoment (m lim : ℚ) : ℚ :=
  let _cmd := if m > lim then lim else m
  if m < -lim then -lim else m

/-- src/adcs/mtr.cpp:95 `(int)(32768.0f * cmd / max_moment)`. -/
def pwmOf (c : ℚ) : ℤ := truncZ (f32 (f32 (32768 * c) / maxMoment))

/-- src/adcs/mtr.cpp:82-98, one rod. -/
def driveRod (m lim : ℚ) (r : Rod) : Rod :=
  if r.functional then r.actuate (pwmOf (clampMoment m lim)) else r

/-- src/adcs/mtr.cpp:75-77, one rod. -/
def idleRod (r : Rod) : Rod := if r.functional then r.actuate 0 else r

/-- src/adcs/mtr.cpp:62-106 `mtr::actuate`. -/
def mtrActuate (leader : Bool) (h : Hw) (mode : U8) (cmd : V3 ℚ) (lim : ℚ) : Hw :=
  let c := bodyToMtr leader cmd
  if mode ≠ 1 then { h with rods := h.rods.map idleRod }
  else { h with rods := ⟨driveRod c.x lim h.rods.x, driveRod c.y lim h.rods.y, driveRod c.z lim h.rods.z⟩ }

/-- src/adcs/rwa.cpp:190-196, one wheel: direction and ramp for a torque. Out of range is undefined behaviour. -/
def torqueWheel (t : ℚ) (w : Wheel) : Option Wheel :=
  if 0 ≤ t then (uc t 0 maxTorque).map fun r => { w with speed := 2000, ramp := r }
  else (uc (-t) 0 maxTorque).map fun r => { w with speed := -2000, ramp := r }

/-- src/adcs/rwa.cpp:210-213, one wheel in speed control. -/
def speedWheel (s : ℚ) (w : Wheel) : Wheel :=
  if w.functional then
    { w with ramp := 255, speed := truncZ (f32 (f32 (f32 (1000 * s) / maxSpeedCmd) + 1000)) }
  else w

/-- `if (wheel.is_functional()) wheel.actuate()` (src/adcs/rwa.cpp:200-201, 217-218). -/
def actWheel (w : Wheel) : Wheel := if w.functional then w.actuate else w

/-- `if (wheel.is_functional()) wheel.stop()` (src/adcs/rwa.cpp:226-227). -/
def stopWheel (w : Wheel) : Wheel := if w.functional then w.stop else w

/-- src/adcs/dev/MaxonEC45.cpp:45: a wheel that is actuated passes its ramp on to the potentiometer driver. -/
def setRdac (w : V3 Wheel) (p : Pot) : Pot :=
  { p with rdac := ⟨if w.x.functional then w.x.ramp else p.rdac.x,
                    if w.y.functional then w.y.ramp else p.rdac.y,
                    if w.z.functional then w.z.ramp else p.rdac.z⟩ }

/-- src/adcs/dev/AD5254.cpp:43-58 `write_rdac`. -/
def writeRdac (e : Env) (p : Pot) : Pot :=
  if e.potOk then { p with chip := p.rdac } else { p with functional := p.functional && e.potAlive }

/-- src/adcs/rwa.cpp:170-233 `rwa::actuate`. -/
def rwaActuate (e : Env) (h : Hw) (mode : U8) (cmd : V3 ℚ) : Option Hw :=
  let c := bodyToRwa cmd
  if mode = 2 then
    if !h.pot.functional then some h
    else
      match torqueWheel c.x h.wheels.x, torqueWheel c.y h.wheels.y, torqueWheel c.z h.wheels.z with
      | some a, some b, some d =>
        let w : V3 Wheel := ⟨a, b, d⟩
        some { h with wheels := w.map actWheel, pot := writeRdac e (setRdac w h.pot) }
      | _, _, _ => none
  else if mode = 1 then
    let w : V3 Wheel := ⟨speedWheel c.x h.wheels.x, speedWheel c.y h.wheels.y, speedWheel c.z h.wheels.z⟩
    let p := setRdac w h.pot
    some { h with wheels := w.map actWheel, pot := if p.functional then writeRdac e p else p }
  else some { h with wheels := h.wheels.map stopWheel }

/-- src/adcs/dev/AD5254.cpp:23-32 `reset`: the driver repeats the transfer until it succeeds or the device has been
taken out of service. -/
def potReset (e : Env) (p : Pot) : Pot :=
  let p := { p with rdac := ⟨0, 0, 0⟩ }
  if e.potOk then { p with functional := true, chip := p.rdac } else { p with functional := false }

/-- src/adcs/dev/AD5254.cpp:34-41 `disable`. -/
def potDisable (e : Env) (p : Pot) : Pot :=
  let p := { p with rdac := ⟨0, 0, 0⟩ }
  { (if e.potOk then { p with chip := p.rdac } else p) with functional := false }

/-- src/adcs/havt.cpp:38-59 (the table) and 81-95 `cmd_device(index, 1)`. -/
def resetDev (e : Env) (h : Hw) (i : ℕ) : Hw :=
  if i = 3 then { h with rods := { h.rods with x := h.rods.x.reset } }
  else if i = 4 then { h with rods := { h.rods with y := h.rods.y.reset } }
  else if i = 5 then { h with rods := { h.rods with z := h.rods.z.reset } }
  else if i = 6 then { h with pot := potReset e h.pot }
  else if i = 7 then { h with wheels := { h.wheels with x := h.wheels.x.reset } }
  else if i = 8 then { h with wheels := { h.wheels with y := h.wheels.y.reset } }
  else if i = 9 then { h with wheels := { h.wheels with z := h.wheels.z.reset } }
  else if i = 18 then { h with heaterOn := true, heaterPwm := 0 }
  else { h with sensor := fun k => if k = i then e.resetOk i else h.sensor k }

/-- src/adcs/havt.cpp:81-95 `cmd_device(index, 0)`. -/
def disableDev (e : Env) (h : Hw) (i : ℕ) : Hw :=
  if i = 3 then { h with rods := { h.rods with x := h.rods.x.disable } }
  else if i = 4 then { h with rods := { h.rods with y := h.rods.y.disable } }
  else if i = 5 then { h with rods := { h.rods with z := h.rods.z.disable } }
  else if i = 6 then { h with pot := potDisable e h.pot }
  else if i = 7 then { h with wheels := { h.wheels with x := h.wheels.x.disable } }
  else if i = 8 then { h with wheels := { h.wheels with y := h.wheels.y.disable } }
  else if i = 9 then { h with wheels := { h.wheels with z := h.wheels.z.disable } }
  else if i = 18 then { h with heaterOn := false, heaterPwm := 0 }
  else { h with sensor := fun k => if k = i then false else h.sensor k }

/-- Whether the device with this index is in service (`dev_ptrs[i]->is_functional()`, src/adcs/havt.cpp:38-59). -/
def functional (h : Hw) (i : ℕ) : Bool :=
  if i = 3 then h.rods.x.functional
  else if i = 4 then h.rods.y.functional
  else if i = 5 then h.rods.z.functional
  else if i = 6 then h.pot.functional
  else if i = 7 then h.wheels.x.functional
  else if i = 8 then h.wheels.y.functional
  else if i = 9 then h.wheels.z.functional
  else if i = 18 then h.heaterOn
  else h.sensor i

/-- src/adcs/havt.cpp:97-114 `execute_cmd_reset_table`: the devices from `i` on. -/
def execReset (e : Env) (t : BitVec 32) (h : Hw) : List ℕ → Hw
  | [] => h
  | i :: is => execReset e t (if t.getLsbD i then resetDev e h i else h) is

/-- src/adcs/havt.cpp:116-133 `execute_cmd_disable_table`. -/
def execDisable (e : Env) (t : BitVec 32) (h : Hw) : List ℕ → Hw
  | [] => h
  | i :: is => execDisable e t (if t.getLsbD i then disableDev e h i else h) is

/-- `Index::_LENGTH` devices (src/adcs/havt_devices.hpp). -/
def devices : List ℕ := List.range 19

/-- src/adcs/havt.cpp:61-79 `update_read_table`. -/
def readTable (h : Hw) : BitVec 32 :=
  BitVec.ofNat 32 ((devices.map fun i => if h.functional i then 2 ^ i else 0).sum)

/-- src/adcs/imu.cpp:152-184: the heater part of `update_gyr`; `gyrOk` is whether the gyroscope is in service,
`t` the new filtered temperature if it was read in this pass. -/
def heater (h : Hw) (gyrOk : Bool) (t : Option ℚ) (target : ℚ) (pwm : U8) : Hw :=
  if !h.heaterOn then { h with heaterPwm := 0 }
  else if !gyrOk then { h with heaterPwm := 0 }
  else match t with
    | some v => { h with heaterPwm := if target ≤ v then 0 else pwm.toNat * 128 }
    | none => h

end Hw

/-! ### The main loop -/

/-- Where the main loop is: one constructor per access to a shared register (src/adcs/main.cpp). -/
inductive Pc
  | imu
  | mtrActive | mtrFlag | mtrClear | mtrMode | mtrX | mtrY | mtrZ | mtrCheck | mtrAct
  | rwaActive | rwaFlag | rwaClear | rwaMode | rwaX | rwaY | rwaZ | rwaCheck
  | ssaCheck | ssaStore
  | havtRead
  | resetFlag | resetClear | resetCopy | resetCheck
  | disableFlag | disableClear | disableCopy | disableCheck
  deriving DecidableEq, Repr

/-- The box: registers, devices, position of the main loop and the local variables of its functions. -/
structure Box where
  regs : Regs
  hw : Hw
  pc : Pc
  lmode : U8
  lcmd : V3 ℚ
  ltable : BitVec 32

/-- What a step of the main loop did to the outside: a call of `mtr::actuate`, `rwa::actuate` or of the execution of a
command table. -/
inductive Act
  | mtr (mode : U8) (cmd : V3 ℚ) (lim : ℚ)
  | rwa (mode : U8) (cmd : V3 ℚ)
  | reset (t : BitVec 32)
  | disable (t : BitVec 32)
  deriving DecidableEq, Repr

namespace Box

/-- One step of the main loop, src/adcs/main.cpp:108-239 and 246-251 `loop` (`update_imu`, `update_mtr`, `update_rwa`,
`update_ssa`, `update_havt`). `none` is undefined behaviour. The readings of `update_rwa` and `update_imu` are not
modelled; the sensors may go out of service in any step that talks to them (`e.alive`). -/
def tick (leader : Bool) (e : Env) (b : Box) : Option (Box × Option Act) :=
  match b.pc with
  -- update_imu (src/adcs/main.cpp:140-162): sensors, heater, and the magnetometer modes set back to normal
  | .imu =>
    let s := fun i => b.hw.sensor i && e.alive i
    let h := { b.hw with sensor := s }.heater (s 0) (if s 0 then e.gyr else none) b.regs.gyrDesired b.regs.gyrPwm
    some ({ b with hw := h, regs := { b.regs with mag1Mode := 0, mag2Mode := 0 }, pc := .mtrActive }, none)
  -- update_mtr (src/adcs/main.cpp:171-184)
  | .mtrActive => some ({ b with pc := if b.regs.mode ≠ 1 then .rwaActive else .mtrFlag }, none)
  | .mtrFlag => some ({ b with pc := if b.regs.mtrFlg ≠ 1 then .rwaActive else .mtrClear }, none)
  | .mtrClear => some ({ b with regs := { b.regs with mtrFlg := 0 }, pc := .mtrMode }, none)
  | .mtrMode => some ({ b with lmode := b.regs.mtrMode, pc := .mtrX }, none)
  | .mtrX => some ({ b with lcmd := { b.lcmd with x := b.regs.mtrCmd.x }, pc := .mtrY }, none)
  | .mtrY => some ({ b with lcmd := { b.lcmd with y := b.regs.mtrCmd.y }, pc := .mtrZ }, none)
  | .mtrZ => some ({ b with lcmd := { b.lcmd with z := b.regs.mtrCmd.z }, pc := .mtrCheck }, none)
  | .mtrCheck => some ({ b with pc := if b.regs.mtrFlg = 0 then .mtrAct else .rwaActive }, none)
  | .mtrAct =>
    some ({ b with hw := b.hw.mtrActuate leader b.lmode b.lcmd b.regs.mtrLimit, pc := .rwaActive },
      some (.mtr b.lmode b.lcmd b.regs.mtrLimit))
  -- update_rwa (src/adcs/main.cpp:188-214)
  | .rwaActive => some ({ b with pc := if b.regs.mode ≠ 1 then .ssaCheck else .rwaFlag }, none)
  | .rwaFlag => some ({ b with pc := if b.regs.rwaFlg ≠ 1 then .ssaCheck else .rwaClear }, none)
  | .rwaClear => some ({ b with regs := { b.regs with rwaFlg := 0 }, pc := .rwaMode }, none)
  | .rwaMode => some ({ b with lmode := b.regs.rwaMode, pc := .rwaX }, none)
  | .rwaX => some ({ b with lcmd := { b.lcmd with x := b.regs.rwaCmd.x }, pc := .rwaY }, none)
  | .rwaY => some ({ b with lcmd := { b.lcmd with y := b.regs.rwaCmd.y }, pc := .rwaZ }, none)
  | .rwaZ => some ({ b with lcmd := { b.lcmd with z := b.regs.rwaCmd.z }, pc := .rwaCheck }, none)
  | .rwaCheck =>
    if b.regs.rwaFlg = 0 then
      (b.hw.rwaActuate e b.lmode b.lcmd).map fun h => ({ b with hw := h, pc := .ssaCheck }, some (.rwa b.lmode b.lcmd))
    else some ({ b with pc := .ssaCheck }, none)
  -- update_ssa (src/adcs/main.cpp:220-239)
  | .ssaCheck => some ({ b with pc := if b.regs.ssaMode = 1 then .ssaStore else .havtRead }, none)
  | .ssaStore => some ({ b with regs := { b.regs with ssaMode := e.ssa, sunVec := e.sun }, pc := .havtRead }, none)
  -- update_havt (src/adcs/main.cpp:108-138)
  | .havtRead => some ({ b with regs := { b.regs with havtRead := b.hw.readTable }, pc := .resetFlag }, none)
  | .resetFlag => some ({ b with pc := if b.regs.resetFlg = 1 then .resetClear else .disableFlag }, none)
  | .resetClear => some ({ b with regs := { b.regs with resetFlg := 0 }, pc := .resetCopy }, none)
  | .resetCopy => some ({ b with ltable := b.regs.resetTable, pc := .resetCheck }, none)
  | .resetCheck =>
    if b.regs.resetFlg = 0 then
      some ({ b with hw := b.hw.execReset e b.ltable Hw.devices, pc := .disableFlag }, some (.reset b.ltable))
    else some ({ b with pc := .disableFlag }, none)
  | .disableFlag => some ({ b with pc := if b.regs.disableFlg = 1 then .disableClear else .imu }, none)
  | .disableClear => some ({ b with regs := { b.regs with disableFlg := 0 }, pc := .disableCopy }, none)
  | .disableCopy => some ({ b with ltable := b.regs.disableTable, pc := .disableCheck }, none)
  | .disableCheck =>
    if b.regs.disableFlg = 0 then
      some ({ b with hw := b.hw.execDisable e b.ltable Hw.devices, pc := .imu }, some (.disable b.ltable))
    else some ({ b with pc := .imu }, none)

/-- src/adcs/main.cpp:57-106 `setup` as far as the devices go: rods and wheels are reset, the heater is reset; whether
the potentiometer and the sensors come up is up to the hardware. -/
def boot (pot : Bool) (sensors : ℕ → Bool) : Box :=
  { regs := Regs.init
    hw :=
      { rods := ⟨⟨true, 0, 0⟩, ⟨true, 0, 0⟩, ⟨true, 0, 0⟩⟩
        wheels := ⟨⟨true, 1000, 0, false, false, 0⟩, ⟨true, 1000, 0, false, false, 0⟩, ⟨true, 1000, 0, false, false, 0⟩⟩
        pot := ⟨pot, ⟨0, 0, 0⟩, ⟨0, 0, 0⟩⟩
        heaterOn := true, heaterPwm := 0, sensor := sensors }
    pc := .imu, lmode := 0, lcmd := V3.zero, ltable := 0 }

/-- What happens to the box: a message arrives, or the main loop makes a step. -/
inductive Ev
  | recv (bytes : List U8)
  | tick (e : Env)

/-- One event. -/
def step (leader : Bool) (b : Box) : Ev → Option (Box × Option Act)
  | .recv d => some ({ b with regs := b.regs.receive d }, none)
  | .tick e => b.tick leader e

/-- Any interleaving of messages and main-loop steps, with the actions performed, in order. -/
def run (leader : Bool) (b : Box) : List Ev → Option (Box × List Act)
  | [] => some (b, [])
  | ev :: evs =>
    match b.step leader ev with
    | none => none
    | some (b', a) => (run leader b' evs).map fun r => (r.1, a.toList ++ r.2)

end Box
end ADCS
end PAN
