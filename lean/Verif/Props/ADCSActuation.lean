import Verif.Props.ADCSCommands
/-!
Theorems about what the attitude control box does with its actuators over a run: commands are applied (C73), no
undefined behaviour without speed control (C74), switching the wheels off does not stop them (C75), passive mode does
not switch anything off (C76), devices taken out of service stay off (C77).
-/
namespace PAN
namespace ADCS

theorem heater_rods (h : Hw) (g : Bool) (t : Option ℚ) (d : ℚ) (p : U8) :
    (h.heater g t d p).rods = h.rods ∧ (h.heater g t d p).wheels = h.wheels ∧ (h.heater g t d p).pot = h.pot ∧
    (h.heater g t d p).heaterOn = h.heaterOn ∧ (h.heater g t d p).sensor = h.sensor := by
  unfold Hw.heater
  split
  · exact ⟨rfl, rfl, rfl, rfl, rfl⟩
  · split
    · exact ⟨rfl, rfl, rfl, rfl, rfl⟩
    · split <;> exact ⟨rfl, rfl, rfl, rfl, rfl⟩

theorem mtrActuate_rods (l : Bool) {h h' : Hw} (hr : h.rods = h'.rods) (m : U8) (c : V3 ℚ) (lim : ℚ) :
    (h.mtrActuate l m c lim).rods = (h'.mtrActuate l m c lim).rods := by
  unfold Hw.mtrActuate
  split <;> simp [hr]

theorem mtrActuate_other (l : Bool) (h : Hw) (m : U8) (c : V3 ℚ) (lim : ℚ) :
    (h.mtrActuate l m c lim).wheels = h.wheels ∧ (h.mtrActuate l m c lim).pot = h.pot ∧
    (h.mtrActuate l m c lim).heaterOn = h.heaterOn ∧ (h.mtrActuate l m c lim).heaterPwm = h.heaterPwm ∧
    (h.mtrActuate l m c lim).sensor = h.sensor := by
  unfold Hw.mtrActuate
  split <;> exact ⟨rfl, rfl, rfl, rfl, rfl⟩

/-- Decoded torques stay within the range. -/
theorem fpS_torque (u : BitVec 16) : |fpS u (-maxTorque) maxTorque| ≤ maxTorque := by
  have mono : ∀ a b : ℚ, a ≤ b → f32 (-maxTorque + f32 (f32 (a * f32 (maxTorque - -maxTorque)) / 65535)) ≤
      f32 (-maxTorque + f32 (f32 (b * f32 (maxTorque - -maxTorque)) / 65535)) := by
    intro a b hab
    have hD : 0 ≤ f32 (maxTorque - -maxTorque) := f32_nonneg (by linarith [maxTorque_pos])
    have h1 := f32_mono (mul_le_mul_of_nonneg_right hab hD)
    have h2 := f32_mono (div_le_div_of_nonneg_right h1 (show (0 : ℚ) ≤ 65535 by norm_num))
    exact f32_mono (by linarith)
  have lo : f32 (-maxTorque + f32 (f32 (0 * f32 (maxTorque - -maxTorque)) / 65535)) = -maxTorque := by decide +kernel
  have hi : f32 (-maxTorque + f32 (f32 (65535 * f32 (maxTorque - -maxTorque)) / 65535)) = maxTorque := by decide +kernel
  have h1 := mono 0 u.toNat (by positivity)
  have h2 := mono u.toNat 65535 (by have := u.isLt; exact_mod_cast (by omega : u.toNat ≤ 65535))
  rw [lo] at h1
  rw [hi] at h2
  exact abs_le.2 ⟨h1, h2⟩

theorem torqueWheel_some {t : ℚ} (h : |t| ≤ maxTorque) (w : Wheel) : ∃ w', Hw.torqueWheel t w = some w' := by
  unfold Hw.torqueWheel
  rw [abs_le] at h
  split
  · rename_i h0
    obtain ⟨u, hu, _⟩ := uc_ok (f := t) (min := 0) (max := maxTorque) h0 h.2 (le_refl _) maxTorque_pos.le
      maxTorque_width'.1 maxTorque_width'.2
    exact ⟨_, by rw [hu]; rfl⟩
  · rename_i h0
    obtain ⟨u, hu, _⟩ := uc_ok (f := -t) (min := 0) (max := maxTorque) (by linarith) (by linarith) (le_refl _) maxTorque_pos.le
      maxTorque_width'.1 maxTorque_width'.2
    exact ⟨_, by rw [hu]; rfl⟩

theorem rwaActuate_some (e : Env) (h : Hw) (mode : U8) {cmd : V3 ℚ} (hc : cmd.all (|·| ≤ maxTorque)) :
    ∃ h', h.rwaActuate e mode cmd = some h' := by
  obtain ⟨hx, hy, hz⟩ := hc
  unfold Hw.rwaActuate
  by_cases h2 : mode = 2
  · rw [if_pos h2]
    by_cases hp : (!h.pot.functional) = true
    · rw [if_pos hp]; exact ⟨_, rfl⟩
    · rw [if_neg hp]
      obtain ⟨a, ha⟩ := torqueWheel_some (t := (Hw.bodyToRwa cmd).x) (by simpa [Hw.bodyToRwa] using hy) h.wheels.x
      obtain ⟨b, hb⟩ := torqueWheel_some (t := (Hw.bodyToRwa cmd).y) (by simpa [Hw.bodyToRwa] using hz) h.wheels.y
      obtain ⟨c, hc⟩ := torqueWheel_some (t := (Hw.bodyToRwa cmd).z) (by simpa [Hw.bodyToRwa] using hx) h.wheels.z
      rw [ha, hb, hc]; exact ⟨_, rfl⟩
  · rw [if_neg h2]
    split <;> exact ⟨_, rfl⟩

theorem lastWheel_snoc (evs : List Box.Ev) (m : List U8) : Spec.lastWheel (evs ++ [.recv m]) =
    ((Spec.wheelModeIn m).getD (Spec.lastWheel evs).1,
      ((Spec.wheelBytes m).bind (Spec.wheelUnits ((Spec.wheelModeIn m).getD (Spec.lastWheel evs).1))).getD
        (Spec.lastWheel evs).2) := by
  rw [Spec.lastWheel, List.foldl_append]; rfl

theorem lastWheel_torque : ∀ (evs : List Box.Ev), (∀ m, Box.Ev.recv m ∈ evs → Spec.wheelModeIn m ≠ some 1) →
    (Spec.lastWheel evs).1 ≠ 1 ∧ (Spec.lastWheel evs).2.all (|·| ≤ maxTorque) := by
  intro evs
  induction evs using List.reverseRecOn with
  | nil =>
    intro _
    refine ⟨by decide, ?_⟩
    simp [Spec.lastWheel, V3.all, V3.zero, maxTorque_pos.le]
  | append_singleton evs ev ih =>
    intro h
    obtain ⟨i1, i2⟩ := ih (fun m hm => h m (by simp [hm]))
    cases ev with
    | tick e => rw [lastWheel_tick]; exact ⟨i1, i2⟩
    | recv m =>
      rw [lastWheel_snoc]
      have hm := h m (by simp)
      have h1 : (Spec.wheelModeIn m).getD (Spec.lastWheel evs).1 ≠ 1 := by
        cases hw : Spec.wheelModeIn m with
        | none => exact i1
        | some k => rw [hw] at hm; intro hk; exact hm (by rw [← hk]; rfl)
      refine ⟨h1, ?_⟩
      simp only []
      set k := (Spec.wheelModeIn m).getD (Spec.lastWheel evs).1
      cases hb : Spec.wheelBytes m with
      | none => exact i2
      | some d =>
        simp only [Option.bind_some]
        unfold Spec.wheelUnits
        rw [if_neg h1]
        split
        · unfold Spec.six
          split
          · exact ⟨fpS_torque _, fpS_torque _, fpS_torque _⟩
          · exact i2
        · exact i2

end ADCS
open ADCS

/-- C73: a rod command is applied within one pass. If the box is active, a command is waiting and no message arrives
during the ten steps from the start of the pass, then exactly one actuation happens, with the mode, moment and limit in
the registers, and it decides the state of the rods. -/
theorem C73_rods_applied (leader : Bool) (b : Box) (e : Fin 10 → Env) (hp : b.pc = .imu) (hm : b.regs.mode = 1)
    (hf : b.regs.mtrFlg = 1) :
    ∃ b', Box.run leader b ((List.ofFn e).map .tick) =
        some (b', [.mtr b.regs.mtrMode b.regs.mtrCmd b.regs.mtrLimit]) ∧
      b'.hw.rods = (b.hw.mtrActuate leader b.regs.mtrMode b.regs.mtrCmd b.regs.mtrLimit).rods := by
  obtain ⟨regs, hw, pc, lm, lc, lt⟩ := b
  simp only at hp hm hf
  subst hp
  simp [List.ofFn, Fin.foldr, Fin.foldr.loop, Box.run, Box.step, Box.tick, hm, hf]
  exact mtrActuate_rods leader (h' := hw) (by rw [(heater_rods _ _ _ _ _).1]) _ _ _

/-- C73: the same for the wheels, from the point of the pass where their part begins: exactly one actuation, with the
mode and the command in the registers. The run ends in undefined behaviour exactly if that actuation does. -/
theorem C73_wheels_applied (leader : Bool) (b : Box) (e : Fin 8 → Env) (hp : b.pc = .rwaActive) (hm : b.regs.mode = 1)
    (hf : b.regs.rwaFlg = 1) :
    Box.run leader b ((List.ofFn e).map .tick) =
      (b.hw.rwaActuate (e 7) b.regs.rwaMode b.regs.rwaCmd).map fun h =>
        ({ b with hw := h, pc := .ssaCheck, lmode := b.regs.rwaMode, lcmd := b.regs.rwaCmd
                  regs := { b.regs with rwaFlg := 0 } }, [.rwa b.regs.rwaMode b.regs.rwaCmd]) := by
  obtain ⟨regs, hw, pc, lm, lc, lt⟩ := b
  simp only at hp hm hf
  subst hp
  simp [List.ofFn, Fin.foldr, Fin.foldr.loop, Box.run, Box.step, Box.tick, hm, hf]
  cases hw.rwaActuate (e 7) regs.rwaMode regs.rwaCmd <;> simp

/-- C74 (part): the firmware never converts a number out of range as long as speed control of the wheels is never
selected, which the autonomous attitude states never do: in every interleaving of messages and main-loop steps, with
arbitrary message contents otherwise. Missing: runs in which speed control is selected, for which it is false
(`C74_counterexample_mode_race`). -/
theorem C74_no_undefined_partial (leader pot : Bool) (sensors : ℕ → Bool) (evs : List Box.Ev)
    (h : ∀ m, Box.Ev.recv m ∈ evs → Spec.wheelModeIn m ≠ some 1) :
    ∃ b acts, Box.run leader (Box.boot pot sensors) evs = some (b, acts) := by
  induction evs using List.reverseRecOn with
  | nil => exact ⟨_, _, rfl⟩
  | append_singleton evs ev ih =>
    have h' : ∀ m, Box.Ev.recv m ∈ evs → Spec.wheelModeIn m ≠ some 1 := fun m hm => h m (by simp [hm])
    obtain ⟨b, acts, hr⟩ := ih h'
    have hi := inv_run evs hr
    suffices hs : ∃ x, b.step leader ev = some x by
      obtain ⟨x, hx⟩ := hs
      rw [Box.run_append, hr]
      simp only [Option.bind_some, Box.run, hx]
      exact ⟨_, _, rfl⟩
    cases ev with
    | recv m => exact ⟨_, rfl⟩
    | tick e =>
      simp only [Box.step]
      unfold Box.tick
      cases hp : b.pc <;> try exact ⟨_, rfl⟩
      · by_cases hf : b.regs.rwaFlg = 0
        · simp only [if_pos hf]
          have hc : b.lcmd.all (|·| ≤ maxTorque) := by
            rw [hi.rc hp hf]
            have := (lastWheel_torque evs h').2
            rw [← hi.rwa] at this
            exact this
          obtain ⟨w, hw⟩ := rwaActuate_some e b.hw b.lmode hc
          rw [hw]; exact ⟨_, rfl⟩
        · simp only [if_neg hf]; exact ⟨_, rfl⟩
      · by_cases hf : b.regs.resetFlg = 0
        · simp only [if_pos hf]; exact ⟨_, rfl⟩
        · simp only [if_neg hf]; exact ⟨_, rfl⟩
      · by_cases hf : b.regs.disableFlg = 0
        · simp only [if_pos hf]; exact ⟨_, rfl⟩
        · simp only [if_neg hf]; exact ⟨_, rfl⟩

namespace Spec
/-- `n` steps of the main loop in surroundings where everything works. -/
def ticksOf (n : ℕ) : List Box.Ev := List.replicate n (.tick goodEnv)
end Spec

/-- C74, counterexample: the box is in speed control with 600 rad/s on the first wheel's axis; the flight computer
changes to torque control, and between its two messages (mode, command) the main loop takes over the mode. The speed is
then read as a torque and converted far out of range. -/
theorem C74_counterexample_mode_race : Box.run true (Box.boot true fun _ => true)
    ([.recv [1, 1], .recv [3, 1], .recv [4, 0xD3, 0xF0, 0xD3, 0xF0, 0xD3, 0xF0]] ++ Spec.ticksOf 4 ++ [.recv [3, 2]] ++
      Spec.ticksOf 7) = none := by
  have h : ((Box.run true (Box.boot true fun _ => true)
    ([.recv [1, 1], .recv [3, 1], .recv [4, 0xD3, 0xF0, 0xD3, 0xF0, 0xD3, 0xF0]] ++ Spec.ticksOf 4 ++ [.recv [3, 2]] ++
      Spec.ticksOf 7)).isNone) = true := by decide +kernel
  exact Option.isNone_iff_eq_none.1 h

namespace Spec

/-- Points of the main loop at which no wheel command and no device table is being worked on. -/
def betweenWheelCommands : List Pc :=
  [.imu, .mtrActive, .mtrFlag, .mtrClear, .mtrMode, .mtrX, .mtrY, .mtrZ, .mtrCheck, .mtrAct, .rwaActive, .rwaFlag,
    .ssaCheck, .ssaStore, .havtRead, .resetFlag, .disableFlag]

/-- Points of the main loop at which no actuator command at all is being worked on. -/
def betweenCommands : List Pc :=
  [.imu, .mtrActive, .rwaActive, .ssaCheck, .ssaStore, .havtRead, .resetFlag, .disableFlag]

end Spec

/-- C75, refuted: once the wheels are commanded "disabled" they are never stopped. Take any box in which the wheel mode
is "disabled", no earlier wheel command is waiting and no device table is waiting; then whatever messages arrive, with
any interleaving, as long as they neither select another wheel mode nor reset or disable devices, the wheels keep
exactly the direction, speed and acceleration they had: the command that goes with the mode "disabled" is dropped. -/
theorem C75_disabled_wheels_keep_turning (leader : Bool) (b : Box) (evs : List Box.Ev) {b' : Box} {acts : List Act}
    (hmode : b.regs.rwaMode = 0) (hflg : b.regs.rwaFlg ≠ 1) (hr : b.regs.resetFlg ≠ 1) (hd : b.regs.disableFlg ≠ 1)
    (hpc : b.pc ∈ Spec.betweenWheelCommands)
    (hmsg : ∀ m, Box.Ev.recv m ∈ evs → (Spec.wheelModeIn m = none ∨ Spec.wheelModeIn m = some 0) ∧
      Spec.resetIn m = none ∧ Spec.disableIn m = none)
    (hrun : Box.run leader b evs = some (b', acts)) :
    b'.hw.wheels = b.hw.wheels ∧ b'.hw.pot = b.hw.pot := by
  have key := Box.run_inv (l := leader)
    (fun c => c.regs.rwaMode = 0 ∧ c.regs.rwaFlg ≠ 1 ∧ c.regs.resetFlg ≠ 1 ∧ c.regs.disableFlg ≠ 1 ∧
      c.pc ∈ Spec.betweenWheelCommands ∧ c.hw.wheels = b.hw.wheels ∧ c.hw.pot = b.hw.pot)
    (fun _ => True)
    (fun ev => ∀ m, ev = .recv m → (Spec.wheelModeIn m = none ∨ Spec.wheelModeIn m = some 0) ∧
      Spec.resetIn m = none ∧ Spec.disableIn m = none)
    (by
      intro c ev c' a hR hP hs
      obtain ⟨p1, p2, p3, p4, p5, p6, p7⟩ := hP
      refine ⟨?_, fun _ _ => trivial⟩
      cases ev with
      | recv m =>
        obtain ⟨r1, r2, r3⟩ := hR m rfl
        simp only [Box.step, Option.some.injEq, Prod.mk.injEq] at hs
        obtain ⟨rfl, -⟩ := hs
        obtain ⟨_, _, _, s4, _, s6, _, s8, _, s10, _, _⟩ := Regs.receive_spec c.regs m
        have hm0 : (c.regs.receive m).rwaMode = 0 := by
          rw [s4]; rcases r1 with r | r <;> rw [r]
          · exact p1
          · rfl
        refine ⟨hm0, ?_, ?_, ?_, p5, p6, p7⟩
        · show (c.regs.receive m).rwaFlg ≠ 1
          have hw : ∀ d, Spec.wheelUnits 0 d = none := fun d => rfl
          rw [s6, hm0]
          cases Spec.wheelBytes m with
          | none => exact p2
          | some d => simp only [Option.bind_some, hw]; exact p2
        · show (c.regs.receive m).resetFlg ≠ 1
          rw [s8, r2]; exact p3
        · show (c.regs.receive m).disableFlg ≠ 1
          rw [s10, r3]; exact p4
      | tick e =>
        simp only [Box.step] at hs
        unfold Box.tick at hs
        cases hp : c.pc <;> rw [hp] at hs p5 <;> try (exact absurd p5 (by decide))
        case imu =>
          simp only [Option.some.injEq, Prod.mk.injEq] at hs
          obtain ⟨rfl, -⟩ := hs
          exact ⟨p1, p2, p3, p4, by dsimp only; decide, (heater_rods _ _ _ _ _).2.1.trans p6, (heater_rods _ _ _ _ _).2.2.1.trans p7⟩
        case mtrAct =>
          simp only [Option.some.injEq, Prod.mk.injEq] at hs
          obtain ⟨rfl, -⟩ := hs
          exact ⟨p1, p2, p3, p4, by dsimp only; decide, (mtrActuate_other _ _ _ _ _).1.trans p6, (mtrActuate_other _ _ _ _ _).2.1.trans p7⟩
        case rwaFlag =>
          simp only [if_pos p2, Option.some.injEq, Prod.mk.injEq] at hs
          obtain ⟨rfl, -⟩ := hs
          exact ⟨p1, p2, p3, p4, by dsimp only; decide, p6, p7⟩
        case resetFlag =>
          simp only [if_neg p3, Option.some.injEq, Prod.mk.injEq] at hs
          obtain ⟨rfl, -⟩ := hs
          exact ⟨p1, p2, p3, p4, by dsimp only; decide, p6, p7⟩
        case disableFlag =>
          simp only [if_neg p4, Option.some.injEq, Prod.mk.injEq] at hs
          obtain ⟨rfl, -⟩ := hs
          exact ⟨p1, p2, p3, p4, by dsimp only; decide, p6, p7⟩
        case mtrActive | mtrFlag | mtrCheck | rwaActive | ssaCheck =>
          simp only [Option.some.injEq, Prod.mk.injEq] at hs
          obtain ⟨rfl, -⟩ := hs
          refine ⟨p1, p2, p3, p4, ?_, p6, p7⟩
          show (if _ then _ else _) ∈ _
          split <;> decide
        all_goals
          simp only [Option.some.injEq, Prod.mk.injEq] at hs
          obtain ⟨rfl, -⟩ := hs
          exact ⟨p1, p2, p3, p4, by dsimp only; decide, p6, p7⟩)
  have := (key evs (b := b) (b' := b') (acts := acts) ⟨hmode, hflg, hr, hd, hpc, rfl, rfl⟩
    (fun ev hev m hm => hmsg m (hm ▸ hev)) hrun).1
  exact ⟨this.2.2.2.2.2.1, this.2.2.2.2.2.2⟩

/-- C75, counterexample: torque control with full torque on all wheels, then "disabled" as the flight computer sends it
when it goes to detumbling; however many steps follow (here 100), the wheels are still commanded at full speed. -/
theorem C75_counterexample_detumble : ∃ b acts, Box.run true (Box.boot true fun _ => true)
    ([.recv [1, 1], .recv [3, 2], .recv [4, 0xFF, 0xFF, 0xFF, 0xFF, 0xFF, 0xFF]] ++ Spec.ticksOf 20 ++
      [.recv [3, 0], .recv [4, 0, 0, 0, 0, 0, 0]] ++ Spec.ticksOf 100) = some (b, acts) ∧
    b.hw.wheels.z = ⟨true, 2000, 255, false, true, 2000⟩ ∧ b.hw.pot.chip = ⟨255, 255, 255⟩ := by
  have h : ((Box.run true (Box.boot true fun _ => true)
      ([.recv [1, 1], .recv [3, 2], .recv [4, 0xFF, 0xFF, 0xFF, 0xFF, 0xFF, 0xFF]] ++ Spec.ticksOf 20 ++
        [.recv [3, 0], .recv [4, 0, 0, 0, 0, 0, 0]] ++ Spec.ticksOf 100)).map
      fun r => decide (r.1.hw.wheels.z = ⟨true, 2000, 255, false, true, 2000⟩ ∧ r.1.hw.pot.chip = ⟨255, 255, 255⟩)) =
      some true := by decide +kernel
  cases hr : Box.run true (Box.boot true fun _ => true)
      ([.recv [1, 1], .recv [3, 2], .recv [4, 0xFF, 0xFF, 0xFF, 0xFF, 0xFF, 0xFF]] ++ Spec.ticksOf 20 ++
        [.recv [3, 0], .recv [4, 0, 0, 0, 0, 0, 0]] ++ Spec.ticksOf 100) with
  | none => rw [hr] at h; simp at h
  | some r =>
    rw [hr] at h
    simp only [Option.map_some, Option.some.injEq, decide_eq_true_eq] at h
    exact ⟨r.1, r.2, rfl, h⟩

/-- C75 (part): what does stop the wheels. An actuation in mode "disabled" takes both direction pins of every wheel in
service to off. Missing: that commanding "disabled" leads to such an actuation, which is false
(`C75_disabled_wheels_keep_turning`). -/
theorem C75_stop_partial (e : Env) (h : Hw) (mode : U8) (cmd : V3 ℚ) (i : Fin 3) (h1 : mode ≠ 1) (h2 : mode ≠ 2)
    (hf : (Spec.comp h.wheels i).functional = true) :
    ∃ h', h.rwaActuate e mode cmd = some h' ∧ (Spec.comp h'.wheels i).cw = false ∧ (Spec.comp h'.wheels i).ccw = false := by
  unfold Hw.rwaActuate
  rw [if_neg h2, if_neg h1]
  refine ⟨_, rfl, ?_⟩
  fin_cases i <;> simp_all [Spec.comp, V3.map, Hw.stopWheel, Wheel.stop]

/-- C76, refuted: commanding the box passive switches nothing off. From any point between two commands, with the mode
register not "active" and no device table waiting, whatever messages arrive, as long as none sets the box active or
resets or disables devices: rods, wheels and potentiometer keep exactly what was last commanded. -/
theorem C76_passive_keeps_driving (leader : Bool) (b : Box) (evs : List Box.Ev) {b' : Box} {acts : List Act}
    (hmode : b.regs.mode ≠ 1) (hr : b.regs.resetFlg ≠ 1) (hd : b.regs.disableFlg ≠ 1)
    (hpc : b.pc ∈ Spec.betweenCommands)
    (hmsg : ∀ m, Box.Ev.recv m ∈ evs → Spec.modeIn m ≠ some 1 ∧ Spec.resetIn m = none ∧ Spec.disableIn m = none)
    (hrun : Box.run leader b evs = some (b', acts)) :
    b'.hw.rods = b.hw.rods ∧ b'.hw.wheels = b.hw.wheels ∧ b'.hw.pot = b.hw.pot ∧ acts = [] := by
  have key := Box.run_inv (l := leader)
    (fun c => c.regs.mode ≠ 1 ∧ c.regs.resetFlg ≠ 1 ∧ c.regs.disableFlg ≠ 1 ∧
      c.pc ∈ Spec.betweenCommands ∧ c.hw.rods = b.hw.rods ∧ c.hw.wheels = b.hw.wheels ∧ c.hw.pot = b.hw.pot)
    (fun _ => False)
    (fun ev => ∀ m, ev = .recv m → Spec.modeIn m ≠ some 1 ∧ Spec.resetIn m = none ∧ Spec.disableIn m = none)
    (by
      intro c ev c' a hR hP hs
      obtain ⟨p1, p3, p4, p5, p6, p7, p8⟩ := hP
      cases ev with
      | recv m =>
        obtain ⟨r1, r2, r3⟩ := hR m rfl
        simp only [Box.step, Option.some.injEq, Prod.mk.injEq] at hs
        obtain ⟨rfl, rfl⟩ := hs
        obtain ⟨s1, _, _, _, _, _, _, s8, _, s10, _, _⟩ := Regs.receive_spec c.regs m
        refine ⟨⟨?_, ?_, ?_, p5, p6, p7, p8⟩, nofun⟩
        · show (c.regs.receive m).mode ≠ 1
          rw [s1]
          cases hk : Spec.modeIn m with
          | none => exact p1
          | some k => intro hk'; exact r1 (by rw [hk]; exact congrArg some hk')
        · show (c.regs.receive m).resetFlg ≠ 1
          rw [s8, r2]; exact p3
        · show (c.regs.receive m).disableFlg ≠ 1
          rw [s10, r3]; exact p4
      | tick e =>
        simp only [Box.step] at hs
        unfold Box.tick at hs
        cases hp : c.pc <;> rw [hp] at hs p5 <;> try (exact absurd p5 (by decide))
        case imu =>
          simp only [Option.some.injEq, Prod.mk.injEq] at hs
          obtain ⟨rfl, rfl⟩ := hs
          exact ⟨⟨p1, p3, p4, by dsimp only; decide, (heater_rods _ _ _ _ _).1.trans p6, (heater_rods _ _ _ _ _).2.1.trans p7,
            (heater_rods _ _ _ _ _).2.2.1.trans p8⟩, nofun⟩
        case mtrActive | rwaActive =>
          simp only [if_pos p1, Option.some.injEq, Prod.mk.injEq] at hs
          obtain ⟨rfl, rfl⟩ := hs
          exact ⟨⟨p1, p3, p4, by dsimp only; decide, p6, p7, p8⟩, nofun⟩
        case resetFlag =>
          simp only [if_neg p3, Option.some.injEq, Prod.mk.injEq] at hs
          obtain ⟨rfl, rfl⟩ := hs
          exact ⟨⟨p1, p3, p4, by dsimp only; decide, p6, p7, p8⟩, nofun⟩
        case disableFlag =>
          simp only [if_neg p4, Option.some.injEq, Prod.mk.injEq] at hs
          obtain ⟨rfl, rfl⟩ := hs
          exact ⟨⟨p1, p3, p4, by dsimp only; decide, p6, p7, p8⟩, nofun⟩
        case ssaCheck =>
          simp only [Option.some.injEq, Prod.mk.injEq] at hs
          obtain ⟨rfl, rfl⟩ := hs
          refine ⟨⟨p1, p3, p4, ?_, p6, p7, p8⟩, nofun⟩
          show (if _ then _ else _) ∈ _
          split <;> decide
        all_goals
          simp only [Option.some.injEq, Prod.mk.injEq] at hs
          obtain ⟨rfl, rfl⟩ := hs
          exact ⟨⟨p1, p3, p4, by dsimp only; decide, p6, p7, p8⟩, nofun⟩)
  have := key evs (b := b) (b' := b') (acts := acts) ⟨hmode, hr, hd, hpc, rfl, rfl, rfl⟩
    (fun ev hev m hm => hmsg m (hm ▸ hev)) hrun
  exact ⟨this.1.2.2.2.2.1, this.1.2.2.2.2.2.1, this.1.2.2.2.2.2.2, List.eq_nil_iff_forall_not_mem.2 this.2⟩

/-- C76, counterexample: rods at full moment, wheels at full torque, then "passive" with zero commands, as the flight
computer sends it in safehold; 100 steps later everything is still on. -/
theorem C76_counterexample_safehold : ∃ b acts, Box.run true (Box.boot true fun _ => true)
    ([.recv [1, 1], .recv [3, 2], .recv [4, 0xFF, 0xFF, 0xFF, 0xFF, 0xFF, 0xFF], .recv [10, 1],
        .recv [11, 0, 0, 0, 0, 0, 0]] ++ Spec.ticksOf 30 ++
      [.recv [1, 0], .recv [3, 2], .recv [4, 0xFF, 0x7F, 0xFF, 0x7F, 0xFF, 0x7F], .recv [10, 1],
        .recv [11, 0xFF, 0x7F, 0xFF, 0x7F, 0xFF, 0x7F]] ++ Spec.ticksOf 100) = some (b, acts) ∧
    b.hw.wheels.z = ⟨true, 2000, 255, false, true, 2000⟩ ∧ b.hw.rods.x = ⟨true, 32768, 0⟩ := by
  have h : ((Box.run true (Box.boot true fun _ => true)
    ([.recv [1, 1], .recv [3, 2], .recv [4, 0xFF, 0xFF, 0xFF, 0xFF, 0xFF, 0xFF], .recv [10, 1],
        .recv [11, 0, 0, 0, 0, 0, 0]] ++ Spec.ticksOf 30 ++
      [.recv [1, 0], .recv [3, 2], .recv [4, 0xFF, 0x7F, 0xFF, 0x7F, 0xFF, 0x7F], .recv [10, 1],
        .recv [11, 0xFF, 0x7F, 0xFF, 0x7F, 0xFF, 0x7F]] ++ Spec.ticksOf 100)).map
      fun r => decide (r.1.hw.wheels.z = ⟨true, 2000, 255, false, true, 2000⟩ ∧ r.1.hw.rods.x = ⟨true, 32768, 0⟩)) =
      some true := by decide +kernel
  cases hr : Box.run true (Box.boot true fun _ => true)
    ([.recv [1, 1], .recv [3, 2], .recv [4, 0xFF, 0xFF, 0xFF, 0xFF, 0xFF, 0xFF], .recv [10, 1],
        .recv [11, 0, 0, 0, 0, 0, 0]] ++ Spec.ticksOf 30 ++
      [.recv [1, 0], .recv [3, 2], .recv [4, 0xFF, 0x7F, 0xFF, 0x7F, 0xFF, 0x7F], .recv [10, 1],
        .recv [11, 0xFF, 0x7F, 0xFF, 0x7F, 0xFF, 0x7F]] ++ Spec.ticksOf 100) with
  | none => rw [hr] at h; simp at h
  | some r =>
    rw [hr] at h
    simp only [Option.map_some, Option.some.injEq, decide_eq_true_eq] at h
    exact ⟨r.1, r.2, rfl, h⟩

/-- C76 (part): a passive box does not start anything: no actuation happens while it is passive. Missing: that it stops
what is running, which is false (`C76_passive_keeps_driving`). -/
theorem C76_no_new_actuation_partial (leader : Bool) (b : Box) (evs : List Box.Ev) {b' : Box} {acts : List Act}
    (hmode : b.regs.mode ≠ 1) (hpc : b.pc ∈ Spec.betweenCommands)
    (hmsg : ∀ m, Box.Ev.recv m ∈ evs → Spec.modeIn m ≠ some 1)
    (hrun : Box.run leader b evs = some (b', acts)) :
    Spec.count Spec.isMtr acts = 0 ∧ Spec.count Spec.isRwa acts = 0 := by
  have key := Box.run_inv (l := leader)
    (fun c => c.regs.mode ≠ 1 ∧ c.pc ∉ [Pc.mtrFlag, .mtrClear, .mtrMode, .mtrX, .mtrY, .mtrZ, .mtrCheck, .mtrAct,
      .rwaFlag, .rwaClear, .rwaMode, .rwaX, .rwaY, .rwaZ, .rwaCheck])
    (fun a => Spec.isMtr a = false ∧ Spec.isRwa a = false)
    (fun ev => ∀ m, ev = .recv m → Spec.modeIn m ≠ some 1)
    (by
      intro c ev c' a hR hP hs
      obtain ⟨p1, p2⟩ := hP
      cases ev with
      | recv m =>
        simp only [Box.step, Option.some.injEq, Prod.mk.injEq] at hs
        obtain ⟨rfl, rfl⟩ := hs
        refine ⟨⟨?_, p2⟩, nofun⟩
        show (c.regs.receive m).mode ≠ 1
        rw [(Regs.receive_spec c.regs m).1]
        cases hk : Spec.modeIn m with
        | none => exact p1
        | some k => intro hk'; exact hR m rfl (by rw [hk]; exact congrArg some hk')
      | tick e =>
        simp only [Box.step] at hs
        unfold Box.tick at hs
        cases hp : c.pc <;> rw [hp] at hs p2 <;> try (exact absurd (by decide) p2)
        case mtrActive | rwaActive =>
          simp only [if_pos p1, Option.some.injEq, Prod.mk.injEq] at hs
          obtain ⟨rfl, rfl⟩ := hs
          exact ⟨⟨p1, by dsimp only; decide⟩, nofun⟩
        case resetCheck =>
          by_cases hf : c.regs.resetFlg = 0
          · simp only [if_pos hf, Option.some.injEq, Prod.mk.injEq] at hs
            obtain ⟨rfl, rfl⟩ := hs
            refine ⟨⟨p1, by dsimp only; decide⟩, ?_⟩
            rintro x ⟨⟩; exact ⟨rfl, rfl⟩
          · simp only [if_neg hf, Option.some.injEq, Prod.mk.injEq] at hs
            obtain ⟨rfl, rfl⟩ := hs
            exact ⟨⟨p1, by dsimp only; decide⟩, nofun⟩
        case disableCheck =>
          by_cases hf : c.regs.disableFlg = 0
          · simp only [if_pos hf, Option.some.injEq, Prod.mk.injEq] at hs
            obtain ⟨rfl, rfl⟩ := hs
            refine ⟨⟨p1, by dsimp only; decide⟩, ?_⟩
            rintro x ⟨⟩; exact ⟨rfl, rfl⟩
          · simp only [if_neg hf, Option.some.injEq, Prod.mk.injEq] at hs
            obtain ⟨rfl, rfl⟩ := hs
            exact ⟨⟨p1, by dsimp only; decide⟩, nofun⟩
        case ssaCheck | resetFlag | disableFlag =>
          simp only [Option.some.injEq, Prod.mk.injEq] at hs
          obtain ⟨rfl, rfl⟩ := hs
          refine ⟨⟨p1, ?_⟩, nofun⟩
          show (if _ then _ else _) ∉ _
          split <;> decide
        all_goals
          simp only [Option.some.injEq, Prod.mk.injEq] at hs
          obtain ⟨rfl, rfl⟩ := hs
          exact ⟨⟨p1, by dsimp only; decide⟩, nofun⟩)
  have hpc' : b.pc ∉ [Pc.mtrFlag, .mtrClear, .mtrMode, .mtrX, .mtrY, .mtrZ, .mtrCheck, .mtrAct,
      .rwaFlag, .rwaClear, .rwaMode, .rwaX, .rwaY, .rwaZ, .rwaCheck] := by
    revert hpc; cases b.pc <;> decide
  have := (key evs (b := b) (b' := b') (acts := acts) ⟨hmode, hpc'⟩ (fun ev hev m hm => hmsg m (hm ▸ hev)) hrun).2
  constructor
  · exact List.countP_eq_zero.2 fun a ha => by simp [(this a ha).1]
  · exact List.countP_eq_zero.2 fun a ha => by simp [(this a ha).2]

/-! Non-vacuity of the theorems of this file and of `ADCSCommands`. -/

/-- C73: a torque command arrives while the main loop is between commands; after 25 steps the wheels have been driven with
it, once. -/
example : ((Box.run true (Box.boot true fun _ => true)
    ([.recv [1, 1], .recv [3, 2]] ++ Spec.ticksOf 3 ++ [.recv [4, 0xFF, 0xFF, 0, 0, 0, 0]] ++ Spec.ticksOf 25)).map
    fun r => decide (Spec.count Spec.isRwa r.2 = 1 ∧ r.1.hw.wheels.z.ramp = 255)) = some true := by decide +kernel

/-- C73_whole_commands: a step that drives the wheels. -/
example : ((Box.run true (Box.boot true fun _ => true)
    ([.recv [1, 1], .recv [3, 2], .recv [4, 0xFF, 0xFF, 0, 0, 0, 0]] ++ Spec.ticksOf 10)).bind fun r =>
      (r.1.tick true Spec.goodEnv).map fun x => x.2.isSome) = some true := by decide +kernel

/-- C73_rods_applied, C73_wheels_applied: the starting points are reached. -/
example : ((Box.run true (Box.boot true fun _ => true) [.recv [1, 1], .recv [10, 1], .recv [11, 0, 0, 0, 0, 0, 0]]).map
    fun r => decide (r.1.pc = .imu ∧ r.1.regs.mode = 1 ∧ r.1.regs.mtrFlg = 1)) = some true := by decide +kernel
example : ((Box.run true (Box.boot true fun _ => true) ([.recv [1, 1], .recv [3, 2], .recv [4, 0, 0, 0, 0, 0, 0]] ++
    Spec.ticksOf 3)).map
    fun r => decide (r.1.pc = .rwaActive ∧ r.1.regs.mode = 1 ∧ r.1.regs.rwaFlg = 1)) = some true := by decide +kernel

/-- C74: a run without speed control, with traffic and steps. -/
example : ∀ m, Box.Ev.recv m ∈ ([.recv [1, 1], .recv [3, 2], .recv [4, 0, 0, 0, 0, 0, 0]] ++ [.tick Spec.goodEnv] : List Box.Ev) →
    Spec.wheelModeIn m ≠ some 1 := by
  intro m hm
  simp only [List.cons_append, List.nil_append, List.mem_cons, Box.Ev.recv.injEq, List.not_mem_nil, or_false,
    reduceCtorEq] at hm
  rcases hm with rfl | rfl | rfl <;> decide

/-- C75: the state in which the wheels spin, the mode is "disabled" and nothing is waiting is reached. -/
example : ((Box.run true (Box.boot true fun _ => true)
    ([.recv [1, 1], .recv [3, 2], .recv [4, 0xFF, 0xFF, 0xFF, 0xFF, 0xFF, 0xFF]] ++ Spec.ticksOf 20 ++
      [.recv [3, 0], .recv [4, 0, 0, 0, 0, 0, 0]] ++ Spec.ticksOf 100)).map
    fun r => decide (r.1.regs.rwaMode = 0 ∧ r.1.regs.rwaFlg ≠ 1 ∧ r.1.regs.resetFlg ≠ 1 ∧ r.1.regs.disableFlg ≠ 1 ∧
      r.1.pc ∈ Spec.betweenWheelCommands ∧ r.1.hw.wheels.z.ccw = true)) = some true := by decide +kernel

/-- C76: the state in which the box is passive and still drives wheels and rods is reached. -/
example : ((Box.run true (Box.boot true fun _ => true)
    ([.recv [1, 1], .recv [3, 2], .recv [4, 0xFF, 0xFF, 0xFF, 0xFF, 0xFF, 0xFF], .recv [10, 1],
        .recv [11, 0, 0, 0, 0, 0, 0]] ++ Spec.ticksOf 30 ++ [.recv [1, 0]] ++ Spec.ticksOf 10)).map
    fun r => decide (r.1.regs.mode ≠ 1 ∧ r.1.regs.resetFlg ≠ 1 ∧ r.1.regs.disableFlg ≠ 1 ∧
      r.1.pc ∈ Spec.betweenCommands ∧ r.1.hw.wheels.z.ccw = true ∧ r.1.hw.rods.x.fwd = 32768)) = some true := by decide +kernel

end PAN
