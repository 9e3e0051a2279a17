import Verif.Model.ADCSBox
import Verif.Model.ADCSFlight
import Verif.Model.Fault
/-!
The readings of the attitude control box: the sensor part of its main loop (src/adcs/rwa.cpp, imu.cpp, ssa.cpp), its
answers on the bus (src/adcs/state_controller.cpp `on_i2c_request`), and the flight computer's side
(src/fsw/FCCode/Drivers/ADCS.cpp, src/fsw/FCCode/ADCSBoxMonitor.cpp).

What the sensor chips deliver (raw integers, or a failed transfer) is an input.
-/
namespace PAN
namespace ADCS

/-! ### Constants: src/adcs/constants.hpp -/

/-- src/adcs/constants.hpp:118 `125.0f * 0.01745329251f`. -/
def maxOmega : ℚ := f32 (125 * f32 (1745329251 / 100000000000))
/-- src/adcs/constants.hpp:125. -/
def maxMag1 : ℚ := f32 (49152 / 10000000)
/-- src/adcs/constants.hpp:132. -/
def maxMag2 : ℚ := f32 (16 / 10000)
/-- src/adcs/constants.hpp:110-112 (leader and follower alike). -/
def minTemp : ℚ := -103
/-- src/adcs/constants.hpp:100-103. -/
def maxTemp : ℚ := 153
/-- src/adcs/constants.hpp:180 `3.3f`. -/
def maxVolt : ℚ := f32 (33 / 10)

/-- src/adcs/utl/convert.inl:26-28 `fp(signed short, ..)`. -/
def fpI (r : ℤ) (min max : ℚ) : ℚ := f32 (min + f32 (f32 (f32 (r + 32768) * f32 (max - min)) / 65535))

/-! ### The box: sensors -/

/-- The filtered readings kept by the drivers (src/adcs/rwa.cpp:98-99, src/adcs/imu.cpp:34-42 and 111-115, ssa.cpp `voltages`)
and, for the wheels, the registers, which are copied separately. The registers of the other sensors are refreshed in
every pass of the main loop, the first of which runs before the bus is switched on (src/adcs/main.cpp:90), so that they
are not kept apart from the drivers' values here. -/
structure Rd where
  speed : V3 ℚ
  ramp : V3 ℚ
  speedReg : V3 ℚ
  rampReg : V3 ℚ
  mag1 : V3 ℚ
  mag2 : V3 ℚ
  gyr : V3 ℚ
  temp : ℚ
  volt : ℕ → ℚ

/-- Zeros in the drivers; src/adcs/state.cpp:30-31 for the registers of the wheels. -/
def Rd.init : Rd :=
  { speed := V3.zero, ramp := V3.zero, speedReg := ⟨400, -300, 200⟩
    rampReg := ⟨f32 (1 / 1000), f32 (2 / 1000), f32 (-3 / 1000)⟩
    mag1 := V3.zero, mag2 := V3.zero, gyr := V3.zero, temp := 0, volt := fun _ => 0 }

/-- What the sensors deliver in a step, beside what `Env` says: the value of each converter of the wheels (speed and
ramp channel), of the magnetometers (the second one after subtracting its offset, src/adcs/dev/MMC34160PJ.hpp:88-98), of the
gyroscope with its temperature, and of the twenty sun sensor channels. `none` is a sensor that is not ready or a failed
transfer. -/
structure REnv where
  env : Env
  spd : ℕ → Option ℤ
  rmp : ℕ → Option ℤ
  mag1 : Option (V3 ℤ)
  mag2 : Option (V3 ℤ)
  gyr : Option (V3 ℤ × ℤ)
  volt : ℕ → Option ℤ

namespace Rd

/-- `x = x + flt * (d - x)` (src/adcs/rwa.cpp:128, src/adcs/imu.cpp:66, src/adcs/ssa.cpp:93); the factors also appear in the other
order. -/
def filt (flt x d : ℚ) : ℚ := f32 (x + f32 (flt * f32 (d - x)))

/-- The same for vectors. -/
def filt3 (flt : ℚ) (x d : V3 ℚ) : V3 ℚ := ⟨filt flt x.x d.x, filt flt x.y d.y, filt flt x.z d.z⟩

/-- src/adcs/rwa.cpp:120, src/adcs/ssa.cpp:89 `4.096f * ((float)val) / 2048.0f`. -/
def volts (val : ℤ) : ℚ := f32 (f32 (f32 (4096 / 1000) * val) / 2048)

/-- src/adcs/rwa_config.hpp:84-88 `rwa_to_body`: one entry 1 or -1 per row, so the product is exact. -/
def rwaToBody (v : V3 ℚ) : V3 ℚ := ⟨v.z, -v.x, -v.y⟩

/-- src/adcs/rwa.cpp:117-121, src/adcs/ssa.cpp:86-89: what was kept is replaced by the voltage of a converter that is in service
and answers. -/
def pick (alive : Bool) (raw : Option ℤ) (old : ℚ) : ℚ :=
  match alive, raw with
  | true, some v => volts v
  | _, _ => old

/-- src/adcs/rwa.cpp:108-121 and 139-153, the three converters of the wheels. -/
def fresh (alive : ℕ → Bool) (raw : ℕ → Option ℤ) (old : V3 ℚ) : V3 ℚ :=
  ⟨pick (alive 0) (raw 0) old.x, pick (alive 1) (raw 1) old.y, pick (alive 2) (raw 2) old.z⟩

/-- src/adcs/rwa.cpp:124-125: voltage to speed, applied to every component. -/
def toSpeed (v : ℚ) : ℚ := f32 (f32 (f32 (f32 (maxSpeedRead - -maxSpeedRead) * v) / maxVolt) + -maxSpeedRead)

/-- src/adcs/rwa.cpp:156: voltage to torque (`min_ramp_rd` is 0). -/
def toRamp (v : ℚ) : ℚ := f32 (f32 (f32 (maxTorque * v) / maxVolt) + 0)

/-- src/adcs/rwa.cpp:101-165 `update_sensors` and the copy in src/adcs/main.cpp:204-213. Both readings are filtered with
the speed filter. -/
def wheels (alive : ℕ → Bool) (e : REnv) (flt : ℚ) (s : Rd) : Rd :=
  let sp := filt3 flt s.speed (rwaToBody ((fresh alive e.spd s.speed).map toSpeed))
  let rp := filt3 flt s.ramp (rwaToBody ((fresh alive e.rmp s.ramp).map toRamp))
  { s with speed := sp, ramp := rp, speedReg := sp, rampReg := rp }

/-- src/adcs/imu_config.hpp:58-64 `mag1_to_body`. -/
def mag1ToBody (v : V3 ℚ) : V3 ℚ := ⟨v.x, -v.z, -v.y⟩
/-- src/adcs/imu_config.hpp:66-72 `mag2_to_body`. -/
def mag2ToBody (v : V3 ℚ) : V3 ℚ := ⟨v.y, v.z, -v.x⟩
/-- src/adcs/imu_config.hpp:50-56 `gyr_to_body`. -/
def gyrToBody (v : V3 ℚ) : V3 ℚ := ⟨v.x, -v.z, v.y⟩

/-- src/adcs/imu.cpp:44-76 `update_mag1`. -/
def stepMag1 (ok : Bool) (raw : Option (V3 ℤ)) (flt : ℚ) (s : Rd) : Rd :=
  match ok, raw with
  | true, some r => { s with mag1 := filt3 flt s.mag1 (mag1ToBody (r.map (fpI · (-maxMag1) maxMag1))) }
  | _, _ => s

/-- src/adcs/imu.cpp:78-109 `update_mag2`. -/
def stepMag2 (ok : Bool) (raw : Option (V3 ℤ)) (flt : ℚ) (s : Rd) : Rd :=
  match ok, raw with
  | true, some r => { s with mag2 := filt3 flt s.mag2 (mag2ToBody (r.map (fpI · (-maxMag2) maxMag2))) }
  | _, _ => s

/-- src/adcs/imu.cpp:119-149, the readings of `update_gyr`; the calibration (src/adcs/imu_calibration.cpp) is the
identity. -/
def stepGyr (ok : Bool) (raw : Option (V3 ℤ × ℤ)) (gf tf : ℚ) (s : Rd) : Rd :=
  match ok, raw with
  | true, some r =>
    { s with gyr := filt3 gf s.gyr (gyrToBody (r.1.map (fpI · (-maxOmega) maxOmega))),
             temp := filt tf s.temp (fpI r.2 minTemp maxTemp) }
  | _, _ => s

/-- src/adcs/imu.cpp `update_sensors` and the copy in src/adcs/main.cpp:147-161. The temperature register is written a
few instructions after the others; here they change together. -/
def imu (ok : ℕ → Bool) (e : REnv) (r : Regs) (s : Rd) : Rd :=
  ((s.stepMag1 (ok 1) e.mag1 r.magFlt).stepMag2 (ok 2) e.mag2 r.magFlt).stepGyr (ok 0) e.gyr r.gyrFlt r.gyrTempFlt

/-- src/adcs/ssa.cpp:73-93 `update_sensors` and the copy in src/adcs/main.cpp:225-227; converter `13 + i / 4` serves
channel `i`. -/
def ssa (alive : ℕ → Bool) (e : REnv) (flt : ℚ) (s : Rd) : Rd :=
  { s with volt := fun i => filt flt (s.volt i) (pick (alive (13 + i / 4)) (e.volt i) (s.volt i)) }

end Rd

/-- The box with its readings. -/
structure RBox where
  box : Box
  rd : Rd

/-- A message or a step of the main loop. -/
inductive REv
  | recv (bytes : List U8)
  | tick (e : REnv)

namespace RBox

/-- The box after `setup`. -/
def boot (pot : Bool) (sensors : ℕ → Bool) : RBox := ⟨Box.boot pot sensors, Rd.init⟩

/-- The readings after a step of the main loop (src/adcs/main.cpp:246-251): the inertial sensors at the beginning of the
pass, the wheels at the end of `update_rwa`, which is reached only with a new wheel command in an active box (line 193),
the sun sensors at the beginning of `update_ssa`. -/
def tickRd (s : RBox) (e : REnv) : Rd :=
  if s.box.pc = .imu then s.rd.imu (fun i => s.box.hw.sensor i && e.env.alive i) e s.box.regs
  else if s.box.pc = .rwaCheck then s.rd.wheels (fun i => s.box.hw.sensor (10 + i)) e s.box.regs.speedFlt
  else if s.box.pc = .ssaCheck then s.rd.ssa s.box.hw.sensor e s.box.regs.voltFlt
  else s.rd

/-- One event: the box as in `Box.step`, where the heater sees the temperature just read. -/
def step (leader : Bool) (s : RBox) : REv → Option (RBox × Option Act)
  | .recv d => some ({ s with box := { s.box with regs := s.box.regs.receive d } }, none)
  | .tick e =>
    (s.box.tick leader { e.env with gyr := e.gyr.map fun _ => (s.tickRd e).temp }).map fun r => (⟨r.1, s.tickRd e⟩, r.2)

/-- Any interleaving of messages and steps. -/
def run (leader : Bool) (s : RBox) : List REv → Option RBox
  | [] => some s
  | ev :: evs => match s.step leader ev with
    | none => none
    | some (s', _) => run leader s' evs

/-- `endian_write` of three 16-bit numbers (src/adcs/state_controller.cpp:40-55). -/
def put3 (v : V3 ℚ) (min max : ℚ) : Option (List U8) := (v.mapM (us · min max)).map Cmds.vec6

/-- src/adcs/state_controller.cpp:355-522 `on_i2c_request`: the bytes sent. `none` is undefined behaviour: a value
outside the range of its format. -/
def request (s : RBox) : Option (List U8) :=
  let p := s.box.regs.readPtr
  if p = 0 then some [0x0F]
  else if p = 8 then
    match put3 s.rd.speedReg (-maxSpeedRead) maxSpeedRead, put3 s.rd.rampReg 0 maxTorque with
    | some a, some b => some (a ++ b)
    | _, _ => none
  else if p = 14 then some [s.box.regs.ssaMode]
  else if p = 15 then put3 s.box.regs.sunVec (-1) 1
  else if p = 17 then (List.range 20).mapM fun i => uc (s.rd.volt i) 0 maxVolt
  else if p = 21 then
    match put3 s.rd.mag1 (-maxMag1) maxMag1, put3 s.rd.mag2 (-maxMag2) maxMag2, put3 s.rd.gyr (-maxOmega) maxOmega,
        us s.rd.temp minTemp maxTemp with
    | some a, some b, some c, some t => some (a ++ b ++ c ++ Cmds.lohi t)
    | _, _, _, _ => none
  else if p = 27 then
    let t := s.box.regs.havtRead
    some [t.setWidth 8, (t >>> 8).setWidth 8, (t >>> 16).setWidth 8, (t >>> 24).setWidth 8]
  else some []

end RBox

/-! ### The flight computer's side -/

/-- What the driver's buffer holds: zeros, overwritten by the bytes that arrived (src/fsw/FCCode/Drivers/ADCS.cpp:33-37
and for example 208-216). -/
def byteAt (d : List U8) (i : ℕ) : U8 := d[i]?.getD 0

/-- Three 16-bit numbers from position `k` on (src/fsw/FCCode/Drivers/ADCS.cpp:219-224). -/
def get3 (d : List U8) (k : ℕ) (min max : ℚ) : V3 ℚ :=
  ⟨fpS (le16 (byteAt d k) (byteAt d (k + 1))) min max, fpS (le16 (byteAt d (k + 2)) (byteAt d (k + 3))) min max,
   fpS (le16 (byteAt d (k + 4)) (byteAt d (k + 5))) min max⟩

/-- What the driver returns in one cycle (src/fsw/FCCode/Drivers/ADCS.cpp:203-337). The sun vector is read only if the mode is
"complete" (src/fsw/FCCode/ADCSBoxMonitor.cpp:193-200). -/
structure BoxData where
  whoAmI : List U8
  rwa : List U8
  volt : List U8
  imu : List U8
  ssaMode : List U8
  ssaVec : List U8
  havt : List U8

/-- The fields of the monitor (src/fsw/FCCode/ADCSBoxMonitor.cpp). `none` in `ssaVec` is NaN. -/
structure Monitor where
  functional : Bool
  functionalFault : Fault
  wheel1Fault : Fault
  wheel2Fault : Fault
  wheel3Fault : Fault
  potFault : Fault
  speed : V3 ℚ
  torque : V3 ℚ
  ssaMode : U8
  ssaVec : Option (V3 ℚ)
  volt : ℕ → ℚ
  mag1 : V3 ℚ
  mag2 : V3 ℚ
  gyr : V3 ℚ
  temp : ℚ
  havt : ℕ → Bool
  speedFlag : Bool
  torqueFlag : Bool
  mag1Flag : Bool
  mag2Flag : Bool
  gyrFlag : Bool
  tempFlag : Bool

namespace Monitor

/-- src/fsw/FCCode/ADCSBoxMonitor.cpp:141-148 `exceed_bounds`. -/
def exceeds (v : V3 ℚ) (min max : ℚ) : Bool :=
  decide (v.x < min ∨ max < v.x ∨ v.y < min ∨ max < v.y ∨ v.z < min ∨ max < v.z)

/-- src/fsw/FCCode/ADCSBoxMonitor.cpp:60-64 and 83-88: the faults, and the table of devices all false. Fields without an
initial value are zero. -/
def init : Monitor :=
  { functional := false, functionalFault := Fault.init 1, wheel1Fault := Fault.init 1, wheel2Fault := Fault.init 1
    wheel3Fault := Fault.init 1, potFault := Fault.init 1, speed := V3.zero, torque := V3.zero, ssaMode := 0
    ssaVec := some V3.zero, volt := fun _ => 0, mag1 := V3.zero, mag2 := V3.zero, gyr := V3.zero, temp := 0
    havt := fun _ => false, speedFlag := false, torqueFlag := false, mag1Flag := false, mag2Flag := false
    gyrFlag := false, tempFlag := false }

/-- src/fsw/FCCode/ADCSBoxMonitor.cpp:164-284 `execute` in control cycle `cc`. The faults are evaluated on the values
read in the previous cycle. -/
def execute (cc : U32) (d : BoxData) (m : Monitor) : Monitor :=
  let speed := get3 d.rwa 0 (-maxSpeedRead) maxSpeedRead
  let torque := get3 d.rwa 6 0 maxTorque
  let mag1 := get3 d.imu 0 (-maxMag1) maxMag1
  let mag2 := get3 d.imu 6 (-maxMag2) maxMag2
  let gyr := get3 d.imu 12 (-maxOmega) maxOmega
  let temp := fpS (le16 (byteAt d.imu 18) (byteAt d.imu 19)) minTemp maxTemp
  let mode := byteAt d.ssaMode 0
  let table : BitVec 32 := Regs.le32 [byteAt d.havt 0, byteAt d.havt 1, byteAt d.havt 2, byteAt d.havt 3]
  { functional := decide (byteAt d.whoAmI 0 = 0x0F)
    functionalFault := m.functionalFault.evaluate cc (!m.functional)
    wheel1Fault := m.wheel1Fault.evaluate cc (m.havt 10 == false)
    wheel2Fault := m.wheel2Fault.evaluate cc (m.havt 11 == false)
    wheel3Fault := m.wheel3Fault.evaluate cc (m.havt 12 == false)
    potFault := m.potFault.evaluate cc (m.havt 6 == false)
    speed, torque, mag1, mag2, gyr, temp
    ssaMode := mode
    ssaVec := if mode = 2 then some (get3 d.ssaVec 0 (-1) 1) else none
    volt := fun i => fpC (byteAt d.volt i) 0 maxVolt
    havt := fun i => table.getLsbD i
    speedFlag := exceeds speed (-maxSpeedRead) (f32 (maxSpeedRead - 1))
    torqueFlag := exceeds torque (-maxTorque) (f32 (maxTorque - 1))
    mag1Flag := exceeds mag1 (-maxMag1) (f32 (maxMag1 - 1))
    mag2Flag := exceeds mag2 (-maxMag1) (f32 (maxMag1 - 1))
    gyrFlag := exceeds gyr (-maxOmega) (f32 (maxOmega - 1))
    tempFlag := decide (temp < minTemp ∨ f32 (maxTemp - 1) < temp) }

/-- The monitor over a number of control cycles, each with its number and what the box answered. -/
def run (hist : List (U32 × BoxData)) : Monitor := hist.foldl (fun m h => m.execute h.1 h.2) init

end Monitor
end ADCS
end PAN
