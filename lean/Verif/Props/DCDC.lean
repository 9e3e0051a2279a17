import Verif.Model.Power
import Mathlib.Logic.Function.Iterate
/-!
C48: the DC-DC converters.
-/
namespace PAN
namespace DCDC

/-- **C48.** After every cycle the reported states are those of the converters. -/
theorem C48_reported (d : DCDC) : d.execute.adcsF = d.execute.adcs ∧ d.execute.sphF = d.execute.sph := ⟨rfl, rfl⟩

/-- **C48.** Without disable and reset commands each converter is in its commanded state at the end of the cycle, and
the commands stay. -/
theorem C48_follows (d : DCDC) (h1 : d.disableCmd = false) (h2 : d.resetCmd = false) :
    d.execute.adcs = d.adcsCmd ∧ d.execute.sph = d.sphCmd
      ∧ d.execute.adcsCmd = d.adcsCmd ∧ d.execute.sphCmd = d.sphCmd
      ∧ d.execute.disableCmd = false ∧ d.execute.resetCmd = false := by
  obtain ⟨a, b, c, e, f, g, h, i⟩ := d
  revert a b c e f g h i; decide

/-- **C48.** A disable command (without a reset) turns both converters off in that cycle, makes "off" their commanded
state and clears itself; so they stay off in every later cycle until one is commanded on. -/
theorem C48_disable (d : DCDC) (h1 : d.disableCmd = true) (h2 : d.resetCmd = false) (n : Nat) :
    let d' := (execute^[n + 1]) d
    d'.adcs = false ∧ d'.sph = false ∧ d'.adcsCmd = false ∧ d'.sphCmd = false ∧ d'.disableCmd = false
      ∧ d'.resetCmd = false := by
  have key : ∀ d : DCDC, d.disableCmd = true → d.resetCmd = false →
      d.execute.adcs = false ∧ d.execute.sph = false ∧ d.execute.adcsCmd = false ∧ d.execute.sphCmd = false
        ∧ d.execute.disableCmd = false ∧ d.execute.resetCmd = false := by
    rintro ⟨a, b, c, e, f, g, h, i⟩; revert a b c e f g h i; decide
  have stay : ∀ d : DCDC, d.adcs = false → d.sph = false → d.adcsCmd = false → d.sphCmd = false →
      d.disableCmd = false → d.resetCmd = false →
      d.execute.adcs = false ∧ d.execute.sph = false ∧ d.execute.adcsCmd = false ∧ d.execute.sphCmd = false
        ∧ d.execute.disableCmd = false ∧ d.execute.resetCmd = false := by
    rintro ⟨a, b, c, e, f, g, h, i⟩; revert a b c e f g h i; decide
  induction n with
  | zero => exact key d h1 h2
  | succ n ih =>
    obtain ⟨a, b, c, e, f, g⟩ := ih
    show let d' := (execute^[n + 1 + 1]) d; _
    rw [Function.iterate_succ_apply']
    exact stay _ a b c e f g

/-- **C48.** A reset command (without a disable) while a converter is commanded on: both are off at the end of that
cycle, both are on at the end of the next, and the reset command is then cleared; they stay on afterwards. -/
theorem C48_reset (d : DCDC) (h1 : d.disableCmd = false) (h2 : d.resetCmd = true)
    (h3 : d.adcsCmd = true ∨ d.sphCmd = true) (n : Nat) :
    (d.execute.adcs = false ∧ d.execute.sph = false ∧ d.execute.resetCmd = true)
    ∧ (let d' := (execute^[n + 2]) d
       d'.adcs = true ∧ d'.sph = true ∧ d'.resetCmd = false ∧ d'.disableCmd = false
        ∧ d'.adcsCmd = true ∧ d'.sphCmd = true) := by
  have key : ∀ d : DCDC, d.disableCmd = false → d.resetCmd = true → d.adcsCmd = true ∨ d.sphCmd = true →
      (d.execute.adcs = false ∧ d.execute.sph = false ∧ d.execute.resetCmd = true) ∧
      d.execute.execute.adcs = true ∧ d.execute.execute.sph = true ∧ d.execute.execute.resetCmd = false
        ∧ d.execute.execute.disableCmd = false
        ∧ d.execute.execute.adcsCmd = true ∧ d.execute.execute.sphCmd = true := by
    rintro ⟨a, b, c, e, f, g, h, i⟩; revert a b c e f g h i; decide
  have stay : ∀ d : DCDC, d.adcs = true → d.sph = true → d.resetCmd = false → d.disableCmd = false →
      d.adcsCmd = true → d.sphCmd = true →
      d.execute.adcs = true ∧ d.execute.sph = true ∧ d.execute.resetCmd = false ∧ d.execute.disableCmd = false
        ∧ d.execute.adcsCmd = true ∧ d.execute.sphCmd = true := by
    rintro ⟨a, b, c, e, f, g, h, i⟩; revert a b c e f g h i; decide
  obtain ⟨k1, k2⟩ := key d h1 h2 h3
  refine ⟨k1, ?_⟩
  induction n with
  | zero => exact k2
  | succ n ih =>
    obtain ⟨a, b, c, e, f, g⟩ := ih
    show let d' := (execute^[n + 2 + 1]) d; _
    rw [Function.iterate_succ_apply']
    exact stay _ a b c e f g

/-- **C48.** A reset command while both converters are commanded off: both are on at the end of that cycle (there is
no cycle with a power interruption, because they were off), and the reset command is cleared. -/
theorem C48_reset_from_off (d : DCDC) (h1 : d.disableCmd = false) (h2 : d.resetCmd = true)
    (h3 : d.adcsCmd = false) (h4 : d.sphCmd = false) :
    d.execute.adcs = true ∧ d.execute.sph = true ∧ d.execute.resetCmd = false := by
  obtain ⟨a, b, c, e, f, g, h, i⟩ := d
  revert a b c e f g h i; decide

/-- **C48 is false** when both commands are given in one cycle: the disable command is consumed and both converters
are on at the end of the cycle, and in every later one. -/
theorem C48_counterexample_both (d : DCDC) (h1 : d.disableCmd = true) (h2 : d.resetCmd = true) :
    d.execute.adcs = true ∧ d.execute.sph = true ∧ d.execute.disableCmd = false
      ∧ d.execute.execute.adcs = true ∧ d.execute.execute.sph = true := by
  obtain ⟨a, b, c, e, f, g, h, i⟩ := d
  revert a b c e f g h i; decide

/-- The commands are initialised from pins that are not yet configured as outputs: whatever those reads gave, the
converters are switched accordingly in the first cycle, without any command. -/
theorem C48_boot_reads (a s : Bool) : (DCDC.init a s).execute.adcs = a ∧ (DCDC.init a s).execute.sph = s := by
  revert a s; decide

/-- The hypotheses of `C48_reset` and `C48_disable` are met by states reached from construction. -/
example : ∃ d : DCDC, d = { (DCDC.init true false).execute with resetCmd := true } ∧ d.disableCmd = false
    ∧ d.adcsCmd = true ∧ d.adcs = true := ⟨_, rfl, by decide, by decide, by decide⟩
example : ∃ d : DCDC, d = { (DCDC.init true true).execute with disableCmd := true } ∧ d.resetCmd = false
    ∧ d.adcs = true ∧ d.sph = true := ⟨_, rfl, by decide, by decide, by decide⟩

end DCDC
end PAN
