import Verif.Model.ADCSDev
import Verif.Model.ADCSReadings
/-!
What the drivers of the attitude control box's sensors write into the chips: the settings and conversion requests of the
converters (src/adcs/dev/ADS1015.cpp, ADS1015.hpp) and the settings of the gyroscope and the magnetometers
(src/adcs/dev/LSM6DSM.cpp, LIS2MDLTR.cpp, MMC34160PJ.cpp). A message is the list of the bytes written between
`i2c_begin_transmission` and `i2c_end_transmission`: the number of a register, then its new content. Which calls succeed and what the
errors lead to is modelled in `Verif.Model.ADCSDev`; here a message is sent and may or may not arrive.
-/
namespace PAN.SensorSetup

/-! ### The converters -/

/-- src/adcs/dev/ADS1015.hpp:36-51 `GAIN`. -/
inductive Gain
  | twoThirds | one | two | four | eight | sixteen
  deriving DecidableEq, Repr

/-- src/adcs/dev/ADS1015.hpp:38-51, the values of `GAIN`. -/
def Gain.code : Gain → U16
  | .twoThirds => 0x0000
  | .one => 0x0200
  | .two => 0x0400
  | .four => 0x0500
  | .eight => 0x0800
  | .sixteen => 0x0A00

/-- src/adcs/dev/ADS1015.hpp:52-63 `SR`. -/
inductive Rate
  | sps128 | sps250 | sps490 | sps920 | sps1600 | sps2400 | sps3300
  deriving DecidableEq, Repr

/-- src/adcs/dev/ADS1015.hpp:54-63, the values of `SR`. -/
def Rate.code : Rate → U16
  | .sps128 => 0x0000
  | .sps250 => 0x0020
  | .sps490 => 0x0040
  | .sps920 => 0x0060
  | .sps1600 => 0x0080
  | .sps2400 => 0x00A0
  | .sps3300 => 0x00C0

/-- src/adcs/dev/ADS1015.hpp:64-75 `CHANNEL`. -/
inductive Channel
  | diff01 | diff03 | diff13 | diff23 | single0 | single1 | single2 | single3
  deriving DecidableEq, Repr

/-- src/adcs/dev/ADS1015.hpp:66-75, the values of `CHANNEL`. -/
def Channel.code : Channel → U16
  | .diff01 => 0x0000
  | .diff03 => 0x1000
  | .diff13 => 0x2000
  | .diff23 => 0x3000
  | .single0 => 0x4000
  | .single1 => 0x5000
  | .single2 => 0x6000
  | .single3 => 0x7000

/-- The settings the driver keeps (src/adcs/dev/ADS1015.hpp:117-120). `sample_delay` and the time stamp are not used by any code. -/
structure Adc where
  rate : Rate
  gain : Gain

/-- What is done with a converter: src/adcs/dev/ADS1015.hpp:85-112. `reset n`: the loop of `reset` sends its messages n + 1 times. -/
inductive Op
  | gain (g : Gain)
  | rate (r : Rate)
  | reset (retries : ℕ)
  | read (c : Channel)

/-- src/adcs/dev/ADS1015.cpp:18-23 `setup`. -/
def Adc.setup : Adc := ⟨.sps1600, .two⟩

/-- src/adcs/dev/ADS1015.cpp:28-34: the two messages of one round of `reset`. -/
def thresholds : List (List U8) := [[0x02, 0x00, 0x00], [0x03, 0xFF, 0xFF]]

/-- src/adcs/dev/ADS1015.cpp:47-54: the message of `start_read`. -/
def Adc.request (a : Adc) (c : Channel) : List U8 :=
  let config : U16 := 0x8108 ||| a.rate.code ||| a.gain.code ||| c.code
  [0x01, (config >>> 8).setWidth 8, (config &&& 0xFF).setWidth 8]

/-- One call, with the messages it sends. `set_gain` (src/adcs/dev/ADS1015.hpp:89) and `set_sample_rate` (src/adcs/dev/ADS1015.cpp:40-45)
only remember the setting. -/
def Adc.step (a : Adc) : Op → Adc × List (List U8)
  | .gain g => ({ a with gain := g }, [])
  | .rate r => ({ a with rate := r }, [])
  | .reset n => (a, (List.replicate (n + 1) thresholds).flatten)
  | .read c => (a, [a.request c])

/-- A sequence of calls: the settings afterwards and all messages sent. -/
def Adc.run (a : Adc) : List Op → Adc × List (List U8)
  | [] => (a, [])
  | op :: ops => ((run (a.step op).1 ops).1, (a.step op).2 ++ (run (a.step op).1 ops).2)

/-- src/adcs/rwa.cpp:59-67, src/adcs/ssa.cpp:41-52: the calls that prepare each of the eight converters of the box. -/
def boxSetup (retries : ℕ) : List Op := [.gain .one, .reset retries]

/-- src/adcs/rwa.cpp:111-114: the input the speed of a wheel is measured at. -/
def speedInput : Channel := .diff01
/-- src/adcs/rwa.cpp:142-145: the input the torque of a wheel is measured at. -/
def torqueInput : Channel := .single2
/-- src/adcs/ssa.cpp:67-71: the input of each of the four sun sensors of a face. -/
def sunInput : Fin 4 → Channel := fun i => [Channel.single0, .single1, .single2, .single3][i]

/-! ### The other sensors -/

/-- src/adcs/dev/LSM6DSM.cpp:24-29: the message of `reset` of the gyroscope. -/
def gyroReset : List U8 := [0x11, 0x32]
/-- src/adcs/dev/LSM6DSM.cpp:35-41: the message of `disable`. -/
def gyroDisable : List U8 := [0x11, 0x00]

/-- src/adcs/dev/LIS2MDLTR.hpp:50-61 `SR`. -/
inductive Mag1Rate
  | hz10 | hz20 | hz50 | hz100

/-- src/adcs/dev/LIS2MDLTR.hpp:52-61, the values of `SR`. -/
def Mag1Rate.code : Mag1Rate → U8
  | .hz10 => 0b0000
  | .hz20 => 0b0100
  | .hz50 => 0b1000
  | .hz100 => 0b1100

/-- src/adcs/dev/LIS2MDLTR.cpp:24-37: the messages of `reset` of the first magnetometer. -/
def mag1Reset (r : Mag1Rate) : List (List U8) := [[0x60, r.code], [0x62, 0b10000]]
/-- src/adcs/dev/LIS2MDLTR.cpp:39-45: the message of `disable`. -/
def mag1Disable (r : Mag1Rate) : List U8 := [0x60, r.code ||| 0b11]

/-- src/adcs/dev/MMC34160PJ.hpp:47-58 `SR`. -/
inductive Mag2Rate
  | hz1_5 | hz13 | hz25 | hz50

/-- src/adcs/dev/MMC34160PJ.hpp:49-58, the values of `SR`. -/
def Mag2Rate.code : Mag2Rate → U8
  | .hz1_5 => 0b0000
  | .hz13 => 0b0100
  | .hz25 => 0b1000
  | .hz50 => 0b1100

/-- src/adcs/dev/MMC34160PJ.cpp:22-32: the message of `reset` of the second magnetometer, also the last one of `calibrate` (lines 66-69). -/
def mag2Reset (r : Mag2Rate) : List U8 := [0x07, r.code ||| 0b10]
/-- src/adcs/dev/MMC34160PJ.cpp:34-40: the message of `disable`. -/
def mag2Disable : List U8 := [0x07, 0x00]

/-- src/adcs/imu.cpp:211 and 223: the rates the box asks for. -/
def boxRates : Mag1Rate × Mag2Rate := (.hz50, .hz50)

/-! ### Wiring: src/adcs/imu_config.hpp, mtr_config.hpp, rwa_config.hpp, ssa_config.hpp -/

/-- The two buses of the sensors (src/adcs/main.cpp:70-71). -/
inductive Wire
  | one | two
  deriving DecidableEq

/-- Bus and address of every chip: the gyroscope and the magnetometers (src/adcs/imu_config.hpp:28-44, src/adcs/dev/LSM6DSM.hpp:33-40,
src/adcs/dev/LIS2MDLTR.cpp:19-21, src/adcs/dev/MMC34160PJ.cpp:18-20), the potentiometer (src/adcs/rwa_config.hpp:27-32,
src/adcs/dev/AD5254.hpp:32-39), the converters of the wheels (src/adcs/rwa_config.hpp:53-70) and of the sun sensors
(src/adcs/ssa_config.hpp:26-55), with the addresses of src/adcs/dev/ADS1015.hpp:28-35. -/
def addresses : List (Wire × U8) :=
  [(.two, 0b1101010), (.one, 0b0011110), (.two, 0x30), (.one, 0b0101101),
   (.one, 0x48), (.one, 0x49), (.one, 0x4B),
   (.one, 0x4A), (.two, 0x48), (.two, 0x49), (.two, 0x4A), (.two, 0x4B)]

/-- Every pin the box uses: the buses (src/adcs/main.cpp:70-71), the heater (src/adcs/imu_config.hpp:35-36), the coils
(src/adcs/mtr_config.hpp:23-34), the wheels (src/adcs/rwa_config.hpp:34-51) and the alert lines of the converters
(src/adcs/rwa_config.hpp:58, 64, 70, src/adcs/ssa_config.hpp:31, 37, 43, 49, 55). -/
def pins : List ℕ :=
  [37, 38, 3, 4, 30, 7, 8, 35, 36, 2, 14, 26, 39, 23, 10, 25, 22, 9, 24, 21, 11, 12, 16, 13, 15, 20, 27, 28]

end PAN.SensorSetup
