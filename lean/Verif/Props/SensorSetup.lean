import Mathlib.Tactic.Linarith
import Mathlib.Tactic.NormNum
import Mathlib.Tactic.FinCases
import Mathlib.Analysis.Real.Pi.Bounds
import Verif.Props.ADCSReadings
import Verif.Props.ADCSDev
import Verif.Props.ADCSWheelReadings
import Verif.Spec.SensorSetup
/-!
C123: a sensor is read at the input, over the range and at the rate its driver was asked for, and its number is turned into the
quantity by the chip's scale.
-/
namespace PAN
open SensorSetup Spec

namespace SensorSetup

theorem Adc.run_append (a : Adc) (xs ys : List Op) :
    a.run (xs ++ ys) = (((a.run xs).1.run ys).1, (a.run xs).2 ++ ((a.run xs).1.run ys).2) := by
  induction xs generalizing a with
  | nil => rfl
  | cons op ops ih =>
    simp only [List.cons_append, Adc.run, ih, List.append_assoc]

theorem Adc.run_gain_kept (a : Adc) (ops : List Op) (h : ∀ g, Op.gain g ∉ ops) : (a.run ops).1.gain = a.gain := by
  induction ops generalizing a with
  | nil => rfl
  | cons op ops ih =>
    simp only [Adc.run]
    rw [ih _ fun g hg => h g (List.mem_cons_of_mem _ hg)]
    cases op with
    | gain g => exact absurd List.mem_cons_self (h g)
    | rate r => rfl
    | reset n => rfl
    | read c => rfl

theorem Adc.run_rate_kept (a : Adc) (ops : List Op) (h : ∀ r, Op.rate r ∉ ops) : (a.run ops).1.rate = a.rate := by
  induction ops generalizing a with
  | nil => rfl
  | cons op ops ih =>
    simp only [Adc.run]
    rw [ih _ fun g hg => h g (List.mem_cons_of_mem _ hg)]
    cases op with
    | rate g => exact absurd List.mem_cons_self (h g)
    | gain r => rfl
    | reset n => rfl
    | read c => rfl

theorem Adc.run_gain (a : Adc) (ops : List Op) (g : Gain) (h : GainIs a.gain ops g) : (a.run ops).1.gain = g := by
  rcases h with ⟨pre, post, rfl, hp⟩ | ⟨rfl, hn⟩
  · rw [Adc.run_append]
    simp only [Adc.run]
    rw [Adc.run_gain_kept _ _ hp]
    rfl
  · exact a.run_gain_kept ops hn

theorem Adc.run_rate (a : Adc) (ops : List Op) (r : Rate) (h : RateIs a.rate ops r) : (a.run ops).1.rate = r := by
  rcases h with ⟨pre, post, rfl, hp⟩ | ⟨rfl, hn⟩
  · rw [Adc.run_append]
    simp only [Adc.run]
    rw [Adc.run_rate_kept _ _ hp]
    rfl
  · exact a.run_rate_kept ops hn

/-- The message of a request. -/
theorem Adc.run_read (a : Adc) (ops : List Op) (c : Channel) :
    (a.run (ops ++ [.read c])).2 = (a.run ops).2 ++ [(a.run ops).1.request c] := by
  rw [Adc.run_append]
  rfl

/-- A request reaches the config register. -/
theorem request_eq (a : Adc) (c : Channel) :
    ∃ h l : U8, a.request c = [1, h, l] ∧ h.toNat ≥ 128 ∧
      (h ++ l : U16) = 0x8108 ||| a.rate.code ||| a.gain.code ||| c.code := by
  obtain ⟨r, g⟩ := a
  refine ⟨_, _, rfl, ?_, ?_⟩
  · cases r <;> cases g <;> cases c <;> decide
  · cases r <;> cases g <;> cases c <;> decide

end SensorSetup

/-- A conversion requested after any sequence of calls is made, whatever the chip's registers held before (messages may have
been lost), at the inputs named by the channel, at the rate last set and over the range the driver's header promises for the
gain last set; except for one gain. -/
theorem C123_measures_partial (ops : List Op) (c : Channel) (g : Gain) (r : Rate) (hg : GainIs .two ops g) (hr : RateIs .sps1600 ops r)
    (h4 : g ≠ .four) :
    ∃ m, (Adc.setup.run (ops ++ [.read c])).2 = (Adc.setup.run ops).2 ++ [m] ∧ starts m ∧
      ∀ chip : AdcChip, (chip.receive m).inputs = promisedInputs c ∧ (chip.receive m).range = promisedRange g ∧
        (chip.receive m).samples = promisedSamples r ∧ (chip.receive m).single := by
  have eg := Adc.setup.run_gain ops g hg
  have er := Adc.setup.run_rate ops r hr
  refine ⟨_, Adc.setup.run_read ops c, ?_⟩
  obtain ⟨h, l, e, hh, hw⟩ := request_eq (Adc.setup.run ops).1 c
  rw [eg, er] at hw
  rw [e]
  refine ⟨⟨rfl, hh⟩, fun chip => ?_⟩
  have ec : (chip.receive [1, h, l]).config = 0x8108 ||| r.code ||| g.code ||| c.code := hw
  unfold AdcChip.inputs AdcChip.range AdcChip.samples AdcChip.single
  rw [ec]
  cases g <;> first | exact absurd rfl h4 | (cases r <;> cases c <;> decide)

example : GainIs .two [.gain .eight, .read .diff03, .gain .one, .rate .sps250, .reset 0] .one ∧
    RateIs .sps1600 [.gain .eight, .read .diff03, .gain .one, .rate .sps250, .reset 0] .sps250 ∧ Gain.one ≠ .four :=
  ⟨.inl ⟨[.gain .eight, .read .diff03], [.rate .sps250, .reset 0], rfl, by simp⟩,
   .inl ⟨[.gain .eight, .read .diff03, .gain .one], [.reset 0], rfl, by simp⟩, by decide⟩

/-- The gain called four: the header promises a range of 1.024 V, the chip is told 2.048 V (the code is one bit off), so that a
voltage would be reported at half its value by a caller that relies on the header. -/
theorem C123_counterexample_four (ops : List Op) (c : Channel) (hg : GainIs .two ops .four) :
    ∃ m, (Adc.setup.run (ops ++ [.read c])).2 = (Adc.setup.run ops).2 ++ [m] ∧
      ∀ chip : AdcChip, (chip.receive m).range = 2 * promisedRange .four := by
  have eg := Adc.setup.run_gain ops .four hg
  refine ⟨_, Adc.setup.run_read ops c, fun chip => ?_⟩
  obtain ⟨h, l, e, -, hw⟩ := request_eq (Adc.setup.run ops).1 c
  rw [eg] at hw
  rw [e]
  have ec : (chip.receive [1, h, l]).config = 0x8108 ||| (Adc.setup.run ops).1.rate.code ||| Gain.four.code ||| c.code := hw
  unfold AdcChip.range
  rw [ec]
  cases (Adc.setup.run ops).1.rate <;> cases c <;> decide +kernel

example : GainIs .two [.gain .four, .reset 1] .four := .inl ⟨[], [.reset 1], rfl, by simp⟩

namespace SensorSetup

/-- The messages of a sequence of calls are those of `reset` and requests. -/
theorem run_messages (a : Adc) (ops : List Op) (m : List U8) (h : m ∈ (a.run ops).2) :
    m ∈ thresholds ∨ ∃ (b : Adc) (c : Channel), m = b.request c := by
  induction ops generalizing a with
  | nil => exact absurd h (by simp [Adc.run])
  | cons op ops ih =>
    simp only [Adc.run, List.mem_append] at h
    rcases h with h | h
    · cases op with
      | gain g => exact absurd h (by simp [Adc.step])
      | rate r => exact absurd h (by simp [Adc.step])
      | reset n =>
        simp only [Adc.step, List.mem_flatten] at h
        obtain ⟨l, hl, hm⟩ := h
        rw [List.eq_of_mem_replicate hl] at hm
        exact .inl hm
      | read c =>
        simp only [Adc.step, List.mem_singleton] at h
        exact .inr ⟨_, _, h⟩
    · exact ih _ h

theorem thresholds_kept (chip : AdcChip) (ms : List (List U8))
    (h : ∀ m ∈ ms, m ∈ thresholds ∨ ∃ (b : Adc) (c : Channel), m = b.request c) (hl : chip.lo = 0) (hh : chip.hi = 0xFFFF) :
    (ms.foldl AdcChip.receive chip).lo = 0 ∧ (ms.foldl AdcChip.receive chip).hi = 0xFFFF := by
  induction ms generalizing chip with
  | nil => exact ⟨hl, hh⟩
  | cons m ms ih =>
    refine ih _ (fun m hm => h m (List.mem_cons_of_mem _ hm)) ?_ ?_
    · rcases h m List.mem_cons_self with hm | ⟨b, c, rfl⟩
      · simp only [thresholds, List.mem_cons, List.not_mem_nil, or_false] at hm
        rcases hm with rfl | rfl
        · rfl
        · exact hl
      · obtain ⟨x, y, e, -, -⟩ := request_eq b c
        rw [e]
        exact hl
    · rcases h m List.mem_cons_self with hm | ⟨b, c, rfl⟩
      · simp only [thresholds, List.mem_cons, List.not_mem_nil, or_false] at hm
        rcases hm with rfl | rfl
        · exact hh
        · rfl
      · obtain ⟨x, y, e, -, -⟩ := request_eq b c
        rw [e]
        exact hh

end SensorSetup

/-- After a `reset` the messages of which arrived, whatever happened before it and whichever of the messages of later calls
arrive, the end of a requested conversion shows as a high alert line, which is what the driver waits for. -/
theorem C123_signals (a : Adc) (n : ℕ) (post : List Op) (c : Channel) (chip : AdcChip) (arrived : List (List U8))
    (h : arrived.Sublist (a.run (.reset n :: post)).2) :
    ∃ m, (a.run (.reset n :: post ++ [.read c])).2 = (a.run (.reset n :: post)).2 ++ [m] ∧
      ((thresholds ++ arrived ++ [m]).foldl AdcChip.receive chip).signals := by
  refine ⟨_, a.run_read (.reset n :: post) c, ?_⟩
  have hk := thresholds_kept (thresholds.foldl AdcChip.receive chip) arrived
    (fun m hm => run_messages a _ m (h.subset hm)) rfl rfl
  rw [List.foldl_append, List.foldl_append]
  generalize arrived.foldl AdcChip.receive (thresholds.foldl AdcChip.receive chip) = chip' at hk ⊢
  generalize (a.run (.reset n :: post)).1 = b
  obtain ⟨x, y, e, -, hw⟩ := request_eq b c
  show (chip'.receive (b.request c)).signals
  rw [e]
  have e1 : (chip'.receive [1, x, y]).config = 0x8108 ||| b.rate.code ||| b.gain.code ||| c.code := hw
  have e2 : (chip'.receive [1, x, y]).lo = chip'.lo := rfl
  have e3 : (chip'.receive [1, x, y]).hi = chip'.hi := rfl
  unfold AdcChip.signals
  rw [e1, e2, e3, hk.1, hk.2]
  refine ⟨by decide, by decide, ?_, ?_⟩ <;> cases b.rate <;> cases b.gain <;> cases c <;> decide

example : [Adc.setup.request .single1].Sublist (Adc.setup.run (.reset 2 :: [.read .single0, .read .single1])).2 := by decide

/-- Without a `reset` the line never says that a conversion is complete. -/
theorem C123_counterexample_no_reset (a : Adc) (cs : List Channel) :
    ¬ ((a.run (cs.map .read)).2.foldl AdcChip.receive .powerOn).signals := by
  have key : ∀ (cs : List Channel) (a : Adc) (chip : AdcChip), chip.lo = 0x8000 →
      ((a.run (cs.map .read)).2.foldl AdcChip.receive chip).lo = 0x8000 := by
    intro cs
    induction cs with
    | nil => intro a chip h; exact h
    | cons c cs ih =>
      intro a chip h
      refine ih a _ ?_
      obtain ⟨x, y, e, -, -⟩ := request_eq a c
      rw [e]
      exact h
  intro hs
  have := hs.1
  rw [key cs a .powerOn rfl] at this
  exact absurd this (by decide)

namespace SensorSetup

theorem volts_close {n : ℤ} (h0 : -2048 ≤ n) (h1 : n ≤ 2047) : |ADCS.Rd.volts n - 2 / 1000 * n| ≤ 1 / 1000000 := by
  have c1 : f32 (4096 / 1000) = 8589935 / 2097152 := by decide +kernel
  have q0 : (-2048 : ℚ) ≤ n := by exact_mod_cast h0
  have q1 : (n : ℚ) ≤ 2047 := by exact_mod_cast h1
  have v1 : |f32 (f32 (4096 / 1000) * n) - 4096 / 1000 * n| ≤ 91 / 100000 := by
    refine (ADCS.round_near (x := f32 (4096 / 1000) * n) (b := 8389) (d := 400 / 1000000) ?_ ?_).trans (by norm_num) <;>
      rw [c1, abs_le] <;> constructor <;> linarith
  unfold ADCS.Rd.volts
  rw [abs_le] at v1
  refine (ADCS.round_near (b := 41 / 10) (d := 450 / 1000000000) ?_ ?_).trans (by norm_num) <;>
    rw [abs_le] <;> constructor <;> linarith

end SensorSetup

/-- The eight converters of the box: after the set-up, however often they are reset and read later, a conversion is made over
4.096 V to each side at 1600 samples per second, and a voltage within that range becomes a reading within 2.001 mV of it. -/
theorem C123_box (retries : ℕ) (later : List Op) (hl : ∀ op ∈ later, (∃ n, op = .reset n) ∨ ∃ c, op = .read c) (c : Channel) :
    ∃ m, (Adc.setup.run (boxSetup retries ++ later ++ [.read c])).2 = (Adc.setup.run (boxSetup retries ++ later)).2 ++ [m] ∧ starts m ∧
      ∀ chip : AdcChip, (chip.receive m).inputs = promisedInputs c ∧ (chip.receive m).samples = 1600 ∧
        ∀ (volts : ℚ) (n : ℤ) (b0 b1 : U8), Converts (chip.receive m).range (1000 * volts) n → conversion b0.toNat b1.toNat = n →
          |ADCS.Rd.volts (conversion b0.toNat b1.toNat) - volts| ≤ 2001 / 1000000 := by
  have hg : GainIs .two (boxSetup retries ++ later) .one := by
    refine .inl ⟨[], .reset retries :: later, rfl, fun h hm => ?_⟩
    simp only [List.mem_cons, reduceCtorEq, false_or] at hm
    rcases hl _ hm with ⟨_, e⟩ | ⟨_, e⟩ <;> cases e
  have hr : RateIs .sps1600 (boxSetup retries ++ later) .sps1600 := by
    refine .inr ⟨rfl, fun h hm => ?_⟩
    simp only [boxSetup, List.cons_append, List.nil_append, List.mem_cons, reduceCtorEq, false_or] at hm
    rcases hl _ hm with ⟨_, e⟩ | ⟨_, e⟩ <;> cases e
  obtain ⟨m, hm, hs, hc⟩ := C123_measures_partial _ c .one .sps1600 hg hr (by decide)
  refine ⟨m, hm, hs, fun chip => ⟨(hc chip).1, (hc chip).2.2.1, fun volts n b0 b1 hn hb => ?_⟩⟩
  rw [(hc chip).2.1] at hn
  obtain ⟨h0, h1, h2⟩ := hn
  have hv := volts_close h0 h1
  rw [hb]
  simp only [promisedRange] at h2
  rw [abs_le] at hv h2 ⊢
  norm_num at h2
  constructor <;> linarith [hv.1, hv.2, h2.1, h2.2]

example : (∀ op ∈ [Op.read .diff01, .reset 1, .read .single2], (∃ n, op = .reset n) ∨ ∃ c, op = .read c) ∧
    Converts 4096 (1000 * (1234567 / 1000000)) 617 ∧ conversion 0x26 0x90 = 617 := by
  refine ⟨by simp, ?_, by decide⟩
  refine ⟨by decide, by decide, ?_⟩
  rw [abs_le]
  constructor <;> norm_num

/-- The inputs the box measures: the speed of a wheel between inputs 0 and 1, its torque at input 2, and the four sun sensors of a
face at inputs 0 to 3. -/
theorem C123_inputs : promisedInputs speedInput = (0, some 1) ∧ promisedInputs torqueInput = (2, none) ∧
    ∀ i : Fin 4, promisedInputs (sunInput i) = (i.val, none) :=
  ⟨rfl, rfl, fun i => by fin_cases i <;> rfl⟩

/-- Every chip has an address of its own on its bus, and no pin has two uses. -/
theorem C123_apart : addresses.Nodup ∧ pins.Nodup := by decide

/-- The gyroscope is set to 125 degrees per second and 52 samples per second, and switched off when it is taken out of service; the
magnetometers measure continuously at the rate asked for after a reset, and stop when taken out of service. -/
theorem C123_settings (r1 : Mag1Rate) (r2 : Mag2Rate) :
    (∃ g, gyroReset = [0x11, g] ∧ gyroRange g = 125 ∧ gyroSamples g = 52) ∧ (∃ g, gyroDisable = [0x11, g] ∧ gyroSamples g = 0) ∧
    (∃ a c, mag1Reset r1 = [[0x60, a], [0x62, c]] ∧ mag1Continuous a ∧ mag1Samples a = promisedMag1 r1 ∧ mag1Whole c) ∧
    (∃ a, mag1Disable r1 = [0x60, a] ∧ mag1Idle a) ∧
    (∃ a, mag2Reset r2 = [0x07, a] ∧ mag2Continuous a ∧ mag2Samples a = promisedMag2 r2) ∧
    (∃ a, mag2Disable = [0x07, a] ∧ ¬ mag2Continuous a) := by
  refine ⟨⟨_, rfl, by decide, by decide⟩, ⟨_, rfl, by decide⟩, ⟨_, _, rfl, ?_, ?_, by unfold mag1Whole; decide⟩, ⟨_, rfl, ?_⟩, ⟨_, rfl, ?_, ?_⟩, ⟨_, rfl, ?_⟩⟩
  · unfold mag1Continuous; cases r1 <;> decide
  · cases r1 <;> decide
  · unfold mag1Idle; cases r1 <;> decide
  · unfold mag2Continuous; cases r2 <;> decide
  · cases r2 <;> decide
  · unfold mag2Continuous; decide

/-! ### From numbers to quantities

`Read` is what C94 proves of the values the flight computer decodes: within 1.1 steps of the number on the box's scale. -/

namespace SensorSetup
open ADCS

theorem mag1_scale : maxMag1 = 659707 / 134217728 := by decide +kernel
theorem mag2_scale : maxMag2 = 13743895 / 8589934592 := by decide +kernel
theorem omega_scale : maxOmega = 1143819 / 524288 := by decide +kernel

end SensorSetup

/-- The field decoded by the flight computer is the field at the first magnetometer, to two steps. -/
theorem C123_field (r : ℤ) (v : ℚ) (hr : ADCS.Raw16 r)
    (hv : Read (-ADCS.maxMag1) ADCS.maxMag1 v (scaled (-ADCS.maxMag1) ADCS.maxMag1 r)) :
    |v - mag1Field r| ≤ 22 / 10 * (2 * ADCS.maxMag1 / 65535) := by
  have q0 : (-32768 : ℚ) ≤ r := by exact_mod_cast hr.1
  have q1 : (r : ℚ) ≤ 32767 := by exact_mod_cast hr.2
  unfold Read scaled at hv
  unfold mag1Field
  rw [mag1_scale] at hv ⊢
  rw [abs_le] at hv ⊢
  constructor <;> linarith [hv.1, hv.2]

/-- The temperature is the gyroscope's, to two steps. -/
theorem C123_temperature (r : ℤ) (v : ℚ) (hr : ADCS.Raw16 r) (hv : Read (-103) 153 v (scaled (-103) 153 r)) :
    |v - gyroTemperature r| ≤ 22 / 10 * (256 / 65535) := by
  have q0 : (-32768 : ℚ) ≤ r := by exact_mod_cast hr.1
  have q1 : (r : ℚ) ≤ 32767 := by exact_mod_cast hr.2
  unfold Read scaled at hv
  unfold gyroTemperature
  rw [abs_le] at hv ⊢
  constructor <;> linarith [hv.1, hv.2]

/-- The rate decoded by the flight computer is 125 / 143.36 of the rate of turn, to two steps: with the setting the gyroscope gets, the
sixteen bits reach to 143.36 degrees per second, and the box takes them to reach to 125. -/
theorem C123_rate (r : ℤ) (v : ℚ) (hr : ADCS.Raw16 r) (g : U8) (hg : gyroReset = [0x11, g])
    (hv : Read (-ADCS.maxOmega) ADCS.maxOmega v (scaled (-ADCS.maxOmega) ADCS.maxOmega r)) :
    |(v : ℝ) - 12500 / 14336 * ((r : ℝ) * (gyroUnit (gyroRange g) : ℚ) / 1000 * (Real.pi / 180))| ≤
      22 / 10 * (2 * (ADCS.maxOmega : ℚ) / 65535) := by
  have q0 : (-32768 : ℝ) ≤ r := by exact_mod_cast hr.1
  have q1 : (r : ℝ) ≤ 32767 := by exact_mod_cast hr.2
  obtain rfl : g = 0x32 := by
    simp only [gyroReset, List.cons.injEq, and_true, true_and] at hg
    exact hg.symm
  have hu : gyroUnit (gyroRange 0x32) = 4375 / 1000 := by decide +kernel
  rw [hu]
  unfold Read scaled at hv
  rw [omega_scale] at hv ⊢
  have hv' : |(v : ℝ) - (-(1143819 / 524288) + (r + 32768) * (1143819 / 524288 - -(1143819 / 524288)) / 65535)| ≤
      44 / 40 * ((1143819 / 524288 - -(1143819 / 524288)) / 65535) := by
    have h := (Rat.cast_le (K := ℝ)).mpr hv
    rw [Rat.cast_abs] at h
    push_cast at h
    exact h
  have p0 := Real.pi_gt_d6
  have p1 := Real.pi_lt_d6
  have t : |(r : ℝ) * (Real.pi - 3.1415925)| ≤ 32768 * 0.000001 := by
    rw [abs_mul]
    refine mul_le_mul ?_ ?_ (abs_nonneg _) (by norm_num)
    · rw [abs_le]; constructor <;> linarith
    · rw [abs_le]; constructor <;> linarith
  push_cast
  rw [abs_le] at hv' t ⊢
  have e : 12500 / 14336 * ((r : ℝ) * (4375 / 1000) / 1000 * (Real.pi / 180)) =
      12500 / 14336 * (4375 / 1000) / 1000 / 180 * (r * (Real.pi - 3.1415925)) + 12500 / 14336 * (4375 / 1000) / 1000 / 180 * 3.1415925 * r := by
    ring
  rw [e]
  generalize (r : ℝ) * (Real.pi - 3.1415925) = w at t
  constructor <;> linarith [hv'.1, hv'.2, t.1, t.2]

/-- So every rate of more than a tenth of a degree per second is decoded as less than nine tenths of it. -/
theorem C123_counterexample_rate (r : ℤ) (v : ℚ) (hr : ADCS.Raw16 r) (hbig : 100 ≤ |r|)
    (hv : Read (-ADCS.maxOmega) ADCS.maxOmega v (scaled (-ADCS.maxOmega) ADCS.maxOmega r)) :
    |(v : ℝ)| ≤ 9 / 10 * |(r : ℝ) * (gyroUnit 125 : ℚ) / 1000 * (Real.pi / 180)| := by
  have h := C123_rate r v hr 0x32 rfl hv
  have hu : gyroUnit (gyroRange 0x32) = gyroUnit 125 := by decide +kernel
  rw [hu] at h
  have hb : (100 : ℝ) ≤ |(r : ℝ)| := by exact_mod_cast hbig
  have hu' : gyroUnit 125 = 4375 / 1000 := rfl
  have ht : |(r : ℝ) * (gyroUnit 125 : ℚ) / 1000 * (Real.pi / 180)| = |(r : ℝ)| * (4375 / 1000 / 1000 / 180 * Real.pi) := by
    rw [hu']
    push_cast
    rw [show (r : ℝ) * (4375 / 1000) / 1000 * (Real.pi / 180) = r * (4375 / 1000 / 1000 / 180 * Real.pi) by ring, abs_mul,
      abs_of_pos (a := (4375 / 1000 / 1000 / 180 * Real.pi : ℝ)) (by linarith [Real.pi_pos])]
  have hp := Real.pi_gt_d6
  have hlow : 100 * (4375 / 1000 / 1000 / 180 * Real.pi) ≤ |(r : ℝ) * (gyroUnit 125 : ℚ) / 1000 * (Real.pi / 180)| := by
    rw [ht]
    exact mul_le_mul_of_nonneg_right hb (by linarith)
  generalize (r : ℝ) * (gyroUnit 125 : ℚ) / 1000 * (Real.pi / 180) = t at h hlow
  rw [omega_scale] at h
  have h2 : |(v : ℝ)| ≤ |(v : ℝ) - 12500 / 14336 * t| + 12500 / 14336 * |t| := by
    have := abs_add_le ((v : ℝ) - 12500 / 14336 * t) (12500 / 14336 * t)
    rw [abs_mul, abs_of_pos (a := (12500 / 14336 : ℝ)) (by norm_num), sub_add_cancel] at this
    exact this
  push_cast at h
  linarith

/-- The second magnetometer: of a reading `g` units away from zero field the driver keeps half (C101), and the box's scale is that of
the whole, so that what is decoded is half the field, to three steps. -/
theorem C123_field2 (g : ℤ) (v : ℚ) (hg : |g| ≤ 65535)
    (hv : Read (-ADCS.maxMag2) ADCS.maxMag2 v (scaled (-ADCS.maxMag2) ADCS.maxMag2 (g.tdiv 2))) :
    |v - mag2Field g / 2| ≤ 27 / 10 * (2 * ADCS.maxMag2 / 65535) := by
  have h2 : |2 * ((g.tdiv 2 : ℤ) : ℚ) - g| ≤ 1 := by
    have : |2 * g.tdiv 2 - g| ≤ 1 := by
      rw [abs_le]
      have := Int.mul_tdiv_add_tmod g 2
      have h1 := Int.tmod_lt_of_pos g (show (0 : ℤ) < 2 by norm_num)
      have h2 : -2 < g.tmod 2 := Int.lt_tmod_of_pos g (by norm_num)
      omega
    exact_mod_cast this
  have hq : |(g : ℚ)| ≤ 65535 := by exact_mod_cast hg
  unfold Read scaled at hv
  unfold mag2Field
  rw [mag2_scale] at hv ⊢
  generalize ((g.tdiv 2 : ℤ) : ℚ) = k at hv h2
  rw [abs_le] at hv h2 hq ⊢
  constructor <;> linarith [hv.1, hv.2, h2.1, h2.2, hq.1, hq.2]

/-- So every field of more than five microtesla is decoded as less than six tenths of it. -/
theorem C123_counterexample_field2 (g : ℤ) (v : ℚ) (hg : |g| ≤ 65535) (hbig : 100 ≤ |g|)
    (hv : Read (-ADCS.maxMag2) ADCS.maxMag2 v (scaled (-ADCS.maxMag2) ADCS.maxMag2 (g.tdiv 2))) :
    |v| ≤ 6 / 10 * |mag2Field g| := by
  have h := C123_field2 g v hg hv
  rw [mag2_scale] at h
  have hb : (100 : ℚ) ≤ |(g : ℚ)| := by exact_mod_cast hbig
  have ht : |mag2Field g| = |(g : ℚ)| / 2048 / 10000 := by
    unfold mag2Field
    rw [abs_div, abs_div]
    norm_num
  have h2 : |v| ≤ |v - mag2Field g / 2| + |mag2Field g| / 2 := by
    have := abs_add_le (v - mag2Field g / 2) (mag2Field g / 2)
    rw [sub_add_cancel, abs_div, abs_of_pos (a := (2 : ℚ)) (by norm_num)] at this
    exact this
  rw [ht] at h2 ⊢
  linarith

example : ADCS.Raw16 (-20000) ∧ 100 ≤ |(-20000 : ℤ)| ∧
    Read (-ADCS.maxOmega) ADCS.maxOmega (-13316 / 10000) (scaled (-ADCS.maxOmega) ADCS.maxOmega (-20000)) ∧
    Read (-ADCS.maxMag1) ADCS.maxMag1 (-3 / 1000) (scaled (-ADCS.maxMag1) ADCS.maxMag1 (-20000)) ∧
    Read (-ADCS.maxMag2) ADCS.maxMag2 (-488264 / 1000000000) (scaled (-ADCS.maxMag2) ADCS.maxMag2 ((-20000 : ℤ).tdiv 2)) ∧
    Read (-103) 153 (-53124 / 1000) (scaled (-103) 153 (-20000)) := by
  refine ⟨⟨by decide, by decide⟩, by decide, ?_, ?_, ?_, ?_⟩ <;> unfold Read scaled
  · rw [omega_scale, abs_le]; constructor <;> norm_num
  · rw [mag1_scale, abs_le]; constructor <;> norm_num
  · rw [mag2_scale, show ((-20000 : ℤ).tdiv 2) = -10000 by decide, abs_le]; constructor <;> norm_num
  · rw [abs_le]; constructor <;> norm_num

end PAN
