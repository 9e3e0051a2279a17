import Verif.Model.Power
import Mathlib.Data.List.Infix
/-!
Model of the drivers of the bus devices of the attitude control box (src/adcs/dev): error counting (`I2CDevice`), the first
magnetometer (`LIS2MDLTR`), the gyroscope (`LSM6DSM`), the second magnetometer (`MMC34160PJ`) and the converters (`ADS1015`).

The results of the bus library are inputs: a list of booleans stands for the results of the bus calls of one function, in
order, true for a call without error. Delays and the bytes sent are left out, except for the one configuration register of the
second magnetometer. Contract of the bus library used: a byte requested without error can be read without error.
-/
namespace PAN.BusDev

/-- src/adcs/dev/I2CDevice.hpp:117-131 and src/adcs/dev/Device.hpp:15-46: the state of a device. `errorCount` is an `unsigned int`; whether it
wraps around makes no difference, as the device is out of service from 3 on. -/
structure Dev where
  functional : Bool
  errorCount : Nat
  errorAcc : Bool
  deriving DecidableEq, Repr

/-- src/adcs/dev/I2CDevice.hpp:20-24 `DEV_I2C_ERROR_COUNT`. -/
abbrev maxErrors : Nat := 3

namespace Dev

/-- src/adcs/dev/I2CDevice.inl:18-23 `I2CDevice::reset()` (also run by `setup`, line 31). -/
def reset (_ : Dev) : Dev := { functional := true, errorCount := 0, errorAcc := false }

/-- src/adcs/dev/Device.hpp:31 `disable()`. -/
def disable (d : Dev) : Dev := { d with functional := false }

/-- src/adcs/dev/I2CDevice.inl:48-100: bus calls; an error is remembered. -/
def bus (d : Dev) (calls : List Bool) : Dev := calls.foldl (fun d ok => { d with errorAcc := d.errorAcc || !ok }) d

/-- src/adcs/dev/I2CDevice.inl:38-46 `i2c_pop_errors()`. -/
def popErrors (d : Dev) : Bool × Dev :=
  let d' := if d.errorAcc then
    let d' := { d with errorCount := d.errorCount + 1 }
    if maxErrors ≤ d'.errorCount then d'.disable else d'
  else d
  let temp := d'.errorAcc
  let d' := if !temp then { d' with errorCount := 0 } else d'
  (temp, { d' with errorAcc := false })

/-- The loop of `reset` (src/adcs/dev/ADS1015.cpp:25-38, src/adcs/dev/LIS2MDLTR.cpp:23-37, src/adcs/dev/LSM6DSM.cpp:22-33) with
at most `fuel` attempts; `none`: not finished by then. -/
def resetLoop : Nat → (Nat → List Bool) → Nat → Dev → Option (Bool × Dev)
  | 0, _, _, d => if d.functional then none else some (false, d)
  | fuel + 1, attempts, i, d =>
    if d.functional then
      let (e, d) := (d.bus (attempts i)).popErrors
      if !e then some (true, d) else resetLoop fuel attempts (i + 1) d
    else some (false, d)

end Dev

/-- A sensor with its backing bytes: src/adcs/dev/LIS2MDLTR.hpp:117-122, src/adcs/dev/LSM6DSM.hpp:92-96 (for the gyroscope the temperature comes first).
-/
structure Sensor where
  dev : Dev
  data : List U8
  deriving DecidableEq, Repr

namespace Sensor

/-- src/adcs/dev/LIS2MDLTR.cpp:23-37 and src/adcs/dev/LSM6DSM.cpp:22-33 `reset()`; the latter disables the device again if all attempts
fail (`last`: the bus calls of that). -/
def reset (s : Sensor) (attempts : Nat → List Bool) (last : List Bool) : Option (Bool × Sensor) :=
  match Dev.resetLoop 3 attempts 0 s.dev.reset with
  | some (true, d) => some (true, { s with dev := d })
  | some (false, d) => some (false, { s with dev := d.disable.bus last })
  | none => none

/-- src/adcs/dev/LIS2MDLTR.cpp:39-45 and src/adcs/dev/LSM6DSM.cpp:35-41 `disable()`. -/
def disable (s : Sensor) (calls : List Bool) : Sensor := { s with dev := s.dev.disable.bus calls }

/-- src/adcs/dev/LIS2MDLTR.cpp:47-53 (mask 8), src/adcs/dev/LSM6DSM.cpp:43-50 (mask 2) `is_ready()`; `status` is the byte read. -/
def isReady (s : Sensor) (mask : U8) (calls : List Bool) (status : U8) : Bool × Sensor :=
  let (e, d) := (s.dev.bus calls).popErrors
  (!e && (status &&& mask != 0), { s with dev := d })

/-- src/adcs/dev/LIS2MDLTR.cpp:55-70, src/adcs/dev/LSM6DSM.cpp:52-68 `read()`; `bytes` is what the device sends. -/
def read (s : Sensor) (calls : List Bool) (bytes : List U8) : Bool × Sensor :=
  let (e, d) := (s.dev.bus calls).popErrors
  if e then (false, { s with dev := d }) else (true, { dev := d, data := bytes })

/-- The two ways a sensor in service is used (src/adcs/imu.cpp:53-55, 129-131). -/
inductive Tx where
  | ready (mask : U8) (calls : List Bool) (status : U8)
  | read (calls : List Bool) (bytes : List U8)

/-- One use (src/adcs/imu.cpp:53-55, 129-131). -/
def step (s : Sensor) : Tx → Sensor
  | .ready mask calls status => (s.isReady mask calls status).2
  | .read calls bytes => (s.read calls bytes).2

/-- A component of a reading: two bytes, the low one first, as a signed 16-bit number (src/adcs/dev/LIS2MDLTR.cpp:66-68 with
src/adcs/dev/LIS2MDLTR.hpp:90-96; src/adcs/dev/LSM6DSM.cpp:63-66). -/
def component (s : Sensor) (i : Nat) : Int := (s.data.getD (2 * i + 1) 0 ++ s.data.getD (2 * i) 0).toInt

end Sensor

/-! ### The second magnetometer -/

/-- src/adcs/dev/MMC34160PJ.hpp:106-111. `offset` is the calibration. `ctrl0` is the register INTERNAL_CONTROL_0 of the chip:
the last byte written to it in a transmission without error. -/
structure Mag2 where
  dev : Dev
  b : Fin 3 → U16
  offset : Fin 3 → U16
  ctrl0 : U8

namespace Mag2

/-- A write to INTERNAL_CONTROL_0 (src/adcs/dev/MMC34160PJ.cpp:101-122 and others). -/
def write (m : Mag2) (v : U8) (calls : List Bool) : Mag2 :=
  { m with dev := m.dev.bus calls, ctrl0 := if calls.all id then v else m.ctrl0 }

/-- src/adcs/dev/I2CDevice.inl:38-46 `i2c_pop_errors()`, for this sensor. -/
def pop (m : Mag2) : Bool × Mag2 := (m.dev.popErrors.1, { m with dev := m.dev.popErrors.2 })

/-- The configuration of continuous measurements: `sample_rate | 0b10` at 50 Hz (src/adcs/imu.cpp:223). -/
abbrev continuous : U8 := 0b1110

/-- src/adcs/dev/MMC34160PJ.cpp:22-32 `reset()`: the loop, with the register. -/
def resetLoop : Nat → (Nat → List Bool) → Nat → Mag2 → Option (Bool × Mag2)
  | 0, _, _, m => if m.dev.functional then none else some (false, m)
  | fuel + 1, attempts, i, m =>
    if m.dev.functional then
      let (e, m) := (m.write continuous (attempts i)).pop
      if !e then some (true, m) else resetLoop fuel attempts (i + 1) m
    else some (false, m)

/-- src/adcs/dev/MMC34160PJ.cpp:22-32 `reset()`. -/
def reset (m : Mag2) (attempts : Nat → List Bool) : Option (Bool × Mag2) := resetLoop 3 attempts 0 { m with dev := m.dev.reset }

/-- src/adcs/dev/MMC34160PJ.cpp:74-81 `is_ready()`. -/
def isReady (m : Mag2) (calls : List Bool) (status : U8) : Bool × Mag2 :=
  let (e, m) := { m with dev := m.dev.bus calls }.pop
  (!e && (status &&& 1 != 0), m)

/-- src/adcs/dev/MMC34160PJ.cpp:83-99 `read()`. -/
def read (m : Mag2) (calls : List Bool) (v : Fin 3 → U16) : Bool × Mag2 :=
  let (e, m) := { m with dev := m.dev.bus calls }.pop
  if e then (false, m) else (true, { m with b := v })

/-- The waiting loop of src/adcs/dev/MMC34160PJ.cpp:130-133; `none`: still waiting after these polls. -/
def wait (m : Mag2) : List (List Bool × U8) → Option (Bool × Mag2)
  | [] => none
  | (calls, status) :: rest =>
    let (r, m) := m.isReady calls status
    if r then some (true, m) else if !m.dev.functional then some (false, m) else wait m rest

/-- What the bus does during a single measurement (src/adcs/dev/MMC34160PJ.cpp:124-137). -/
structure Single where
  cmd : List Bool
  polls : List (List Bool × U8)
  calls : List Bool
  value : Fin 3 → U16

/-- src/adcs/dev/MMC34160PJ.cpp:124-137 `single_read`. -/
def singleRead (m : Mag2) (x : Single) : Option (Bool × Mag2) :=
  match (m.write 0x01 x.cmd).wait x.polls with
  | some (true, m) => some (m.read x.calls x.value)
  | r => r

/-- What the bus does during a calibration (src/adcs/dev/MMC34160PJ.cpp:42-72). -/
structure CalIn where
  fill1 : List Bool
  set : List Bool
  r1 : Single
  r2 : Single
  fill2 : List Bool
  rst : List Bool
  r3 : Single
  cont : List Bool

/-- A command and the test for errors after it (src/adcs/dev/MMC34160PJ.cpp:46-49). -/
def cmd (m : Mag2) (v : U8) (calls : List Bool) : Bool × Mag2 := (m.write v calls).pop

/-- src/adcs/dev/MMC34160PJ.cpp:42-72 `calibrate()`. `none`: still waiting for a measurement. -/
def calibrate (m : Mag2) (x : CalIn) : Option (Bool × Mag2) :=
  let (e, m) := m.cmd 0x80 x.fill1
  if e then some (false, m) else
  let (e, m) := m.cmd 0x20 x.set
  if e then some (false, m) else
  match m.singleRead x.r1 with
  | some (true, m) =>
    match m.singleRead x.r2 with
    | some (true, m) =>
      let s := m.b
      let (e, m) := m.pop
      if e then some (false, m) else
      let (e, m) := m.cmd 0x80 x.fill2
      if e then some (false, m) else
      let (e, m) := m.cmd 0x40 x.rst
      if e then some (false, m) else
      match m.singleRead x.r3 with
      | some (true, m) =>
        let (e, m) := m.pop
        if e then some (false, m) else
        let m := { m with offset := fun i => BitVec.ofNat 16 (((s i).toNat + (m.b i).toNat) / 2) }
        let (e, m) := m.cmd continuous x.cont
        if e then some (false, m) else some (true, m)
      | r => r
    | r => r
  | r => r

/-- src/adcs/dev/MMC34160PJ.hpp:86-94 `get_b_x()` and so on: the division of C++ truncates; the result is converted to
`int16_t`. -/
def field (m : Mag2) (i : Fin 3) : Int := (BitVec.ofInt 16 (Int.tdiv (-((m.b i).toNat - (m.offset i).toNat : Int)) 2)).toInt

/-- The uses of the sensor between calibrations and resets (src/adcs/imu.cpp:86-88). -/
inductive Tx where
  | ready (calls : List Bool) (status : U8)
  | read (calls : List Bool) (value : Fin 3 → U16)

/-- One use (src/adcs/imu.cpp:86-88). -/
def step (m : Mag2) : Tx → Mag2
  | .ready calls status => (m.isReady calls status).2
  | .read calls value => (m.read calls value).2

end Mag2

/-! ### The converters -/
namespace Adc

/-- src/adcs/dev/ADS1015.cpp:47-58 `start_read`: errors stay to be popped by `end_read`. -/
def startRead (d : Dev) (calls : List Bool) : Dev := d.bus calls

/-- src/adcs/dev/ADS1015.cpp:65-68: the wait for the alert line, given what it reads as time goes on; false: the line was not high
so far and the loop still runs. -/
def waitAlert : List Bool → Bool
  | [] => false
  | level :: rest => if level then true else waitAlert rest

/-- src/adcs/dev/ADS1015.cpp:60-86 `end_read`; `none`: still waiting for the alert line. The value: 12 bits, sign extended to
the 16 of `val`. -/
def endRead (d : Dev) (pin : List Bool) (calls : List Bool) (b0 b1 : U8) : Option (Option Int × Dev) :=
  if !waitAlert pin then none
  else
    let (e, d) := (d.bus calls).popErrors
    if e then some (none, d)
    else
      let v : U16 := (b0 ++ b1) >>> 4
      let v := if v &&& 0x0800 != 0 then v ||| 0xF000 else v
      some (some v.toInt, d)

end Adc
end PAN.BusDev
