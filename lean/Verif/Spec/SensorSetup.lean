import Verif.Model.SensorSetup
/-!
The chips, as their makers describe them: what a register's content means and what the numbers delivered stand for. Texas Instruments
ADS1015 (config, low and high threshold register), ST LSM6DSM (register CTRL2_G, sensitivity at 125 degrees per second), ST LIS2MDL
(registers CFG_REG_A and CFG_REG_C), MEMSIC MMC34160PJ (register internal control 0). The data sheets are not part of the
repository.
-/
namespace PAN.Spec
open PAN.SensorSetup

/-- The converter chip's registers. -/
structure AdcChip where
  config : U16
  lo : U16
  hi : U16

/-- At power-on. -/
def AdcChip.powerOn : AdcChip := ⟨0x8583, 0x8000, 0x7FFF⟩

/-- Bits `i + n - 1` to `i` of a word. -/
def bits (w : U16) (i n : ℕ) : ℕ := w.toNat / 2 ^ i % 2 ^ n

/-- A message arrives: register number, high byte, low byte. -/
def AdcChip.receive (c : AdcChip) : List U8 → AdcChip
  | [r, h, l] =>
    if r = 1 then { c with config := h ++ l }
    else if r = 2 then { c with lo := h ++ l }
    else if r = 3 then { c with hi := h ++ l }
    else c
  | _ => c

/-- The message starts a conversion: bit 15 written to the config register. -/
def starts : List U8 → Prop
  | [r, h, _] => r = 1 ∧ h.toNat ≥ 128
  | _ => False

/-- The positive input and the negative one (`none`: ground) that are measured: bits 14 to 12. -/
def AdcChip.inputs (c : AdcChip) : ℕ × Option ℕ :=
  match bits c.config 12 3 with
  | 0 => (0, some 1)
  | 1 => (0, some 3)
  | 2 => (1, some 3)
  | 3 => (2, some 3)
  | k => (k - 4, none)

/-- The range in millivolts, to both sides: bits 11 to 9. -/
def AdcChip.range (c : AdcChip) : ℚ :=
  match bits c.config 9 3 with
  | 0 => 6144
  | 1 => 4096
  | 2 => 2048
  | 3 => 1024
  | 4 => 512
  | _ => 256

/-- Samples per second: bits 7 to 5. -/
def AdcChip.samples (c : AdcChip) : ℕ :=
  match bits c.config 5 3 with
  | 0 => 128
  | 1 => 250
  | 2 => 490
  | 3 => 920
  | 4 => 1600
  | 5 => 2400
  | _ => 3300

/-- One conversion per request, not continuously: bit 8. -/
def AdcChip.single (c : AdcChip) : Prop := bits c.config 8 1 = 1

/-- The alert line goes high when a conversion is complete: the top bits of the thresholds are 0 and 1, the comparator is not
disabled (bits 1 to 0) and the line is active high (bit 3). -/
def AdcChip.signals (c : AdcChip) : Prop :=
  bits c.lo 15 1 = 0 ∧ bits c.hi 15 1 = 1 ∧ bits c.config 0 2 ≠ 3 ∧ bits c.config 3 1 = 1

/-- What the driver's header promises for each gain: the range in millivolts (src/adcs/dev/ADS1015.hpp:39-50). -/
def promisedRange : Gain → ℚ
  | .twoThirds => 6144
  | .one => 4096
  | .two => 2048
  | .four => 1024
  | .eight => 512
  | .sixteen => 256

/-- Samples per second, as the name of the setting says. -/
def promisedSamples : Rate → ℕ
  | .sps128 => 128
  | .sps250 => 250
  | .sps490 => 490
  | .sps920 => 920
  | .sps1600 => 1600
  | .sps2400 => 2400
  | .sps3300 => 3300

/-- The inputs, as the name of the channel says. -/
def promisedInputs : Channel → ℕ × Option ℕ
  | .diff01 => (0, some 1)
  | .diff03 => (0, some 3)
  | .diff13 => (1, some 3)
  | .diff23 => (2, some 3)
  | .single0 => (0, none)
  | .single1 => (1, none)
  | .single2 => (2, none)
  | .single3 => (3, none)

/-- The last gain set in a sequence of calls is `g`; the default holds until one is set. -/
def GainIs (default : Gain) (ops : List Op) (g : Gain) : Prop :=
  (∃ pre post, ops = pre ++ .gain g :: post ∧ ∀ h, Op.gain h ∉ post) ∨ (g = default ∧ ∀ h, Op.gain h ∉ ops)

/-- The last rate set. -/
def RateIs (default : Rate) (ops : List Op) (r : Rate) : Prop :=
  (∃ pre post, ops = pre ++ .rate r :: post ∧ ∀ h, Op.rate h ∉ post) ∨ (r = default ∧ ∀ h, Op.rate h ∉ ops)

/-- `n` is the value a converter with this range delivers for a voltage of `mv` millivolts: 2048 steps to each side, off by no
more than a step. -/
def Converts (range mv : ℚ) (n : ℤ) : Prop := -2048 ≤ n ∧ n ≤ 2047 ∧ |(n : ℚ) * (range / 2048) - mv| ≤ range / 2048

/-! ### The gyroscope and the magnetometers -/

/-- CTRL2_G of the gyroscope: samples per second (bits 7 to 4; only the values the driver uses), and the range in degrees per
second (bit 1: 125; otherwise bits 3 to 2). -/
def gyroRange (ctrl : U8) : ℕ :=
  if ctrl.toNat / 2 % 2 = 1 then 125 else [250, 500, 1000, 2000].getD (ctrl.toNat / 4 % 4) 0
/-- 0: the gyroscope is off. -/
def gyroSamples (ctrl : U8) : ℕ := [0, 13, 26, 52, 104, 208, 416, 833, 1660, 3330, 6660].getD (ctrl.toNat / 16) 0

/-- Thousandths of a degree per second per unit, at each range: with the range set to 125 a unit is 4.375 thousandths, so that the
sixteen bits reach beyond the range, to 143.36. -/
def gyroUnit : ℕ → ℚ
  | 125 => 4375 / 1000
  | 250 => 875 / 100
  | 500 => 175 / 10
  | 1000 => 35
  | _ => 70

/-- The temperature of the gyroscope: 256 units per degree, 0 is 25 degrees. -/
def gyroTemperature (n : ℤ) : ℚ := 25 + n / 256

/-- CFG_REG_A of the first magnetometer: measuring continuously (bits 1 to 0 are 0, not in reset or reboot), and the rate. -/
def mag1Continuous (cfg : U8) : Prop := cfg.toNat % 4 = 0 ∧ cfg.toNat / 32 % 4 = 0
def mag1Samples (cfg : U8) : ℕ := [10, 20, 50, 100].getD (cfg.toNat / 4 % 4) 0
/-- Idle: bits 1 to 0 are 3 (or 2). -/
def mag1Idle (cfg : U8) : Prop := cfg.toNat % 4 ≥ 2
/-- CFG_REG_C: a reading is not overwritten while its bytes are fetched (bit 4), the bus is not disabled (bit 5). -/
def mag1Whole (cfg : U8) : Prop := cfg.toNat / 16 % 2 = 1 ∧ cfg.toNat / 32 % 2 = 0

/-- The field in tesla: 1.5 milligauss per unit. -/
def mag1Field (n : ℤ) : ℚ := n * (15 / 10) / 1000 / 10000

/-- Internal control 0 of the second magnetometer: continuous (bit 1), with no pulse (bits 7 to 5). -/
def mag2Continuous (ctrl : U8) : Prop := ctrl.toNat / 2 % 2 = 1 ∧ ctrl.toNat / 32 = 0
/-- Samples per ten seconds. -/
def mag2Samples (ctrl : U8) : ℕ := [15, 130, 250, 500].getD (ctrl.toNat / 4 % 4) 0
/-- The field in tesla, for a reading `n` units away from zero field: 2048 units per gauss. -/
def mag2Field (n : ℤ) : ℚ := n / 2048 / 10000

def promisedMag1 : Mag1Rate → ℕ
  | .hz10 => 10
  | .hz20 => 20
  | .hz50 => 50
  | .hz100 => 100

/-- Per ten seconds. -/
def promisedMag2 : Mag2Rate → ℕ
  | .hz1_5 => 15
  | .hz13 => 130
  | .hz25 => 250
  | .hz50 => 500

end PAN.Spec
