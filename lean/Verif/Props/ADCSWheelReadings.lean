import Verif.Props.ADCSReadings
/-!
The wheel readings of the attitude control box: C93.
-/
namespace PAN
open ADCS

namespace Spec

/-- The speed a wheel reports with a raw converter value: 2 mV per unit, 0 to 3.3 V for full speed backwards to full speed
forwards. -/
def wheelSpeed (raw : ℤ) : ℚ := 2 * maxSpeedRead * (2 / 1000 * raw) / (33 / 10) - maxSpeedRead

/-- How the wheels are mounted: the third along x, the first against y, the second against z. -/
def wheelMount {α : Type} [Neg α] (v : V3 α) : V3 α := ⟨v.z, -v.x, -v.y⟩

/-- Points of the main loop at which a wheel command is being worked on. -/
def wheelWork : List Pc := [.rwaClear, .rwaMode, .rwaX, .rwaY, .rwaZ, .rwaCheck]

end Spec
open Spec

namespace ADCS

theorem tickRd_wheels {s : RBox} {e : REnv} (h : s.box.pc ≠ .rwaCheck) :
    (s.tickRd e).speed = s.rd.speed ∧ (s.tickRd e).ramp = s.rd.ramp ∧ (s.tickRd e).speedReg = s.rd.speedReg ∧
      (s.tickRd e).rampReg = s.rd.rampReg := by
  have a1 : ∀ ok raw f (r : Rd), (r.stepMag1 ok raw f).speed = r.speed ∧ (r.stepMag1 ok raw f).ramp = r.ramp ∧
      (r.stepMag1 ok raw f).speedReg = r.speedReg ∧ (r.stepMag1 ok raw f).rampReg = r.rampReg := by
    intro ok raw f r; cases ok <;> cases raw <;> exact ⟨rfl, rfl, rfl, rfl⟩
  have a2 : ∀ ok raw f (r : Rd), (r.stepMag2 ok raw f).speed = r.speed ∧ (r.stepMag2 ok raw f).ramp = r.ramp ∧
      (r.stepMag2 ok raw f).speedReg = r.speedReg ∧ (r.stepMag2 ok raw f).rampReg = r.rampReg := by
    intro ok raw f r; cases ok <;> cases raw <;> exact ⟨rfl, rfl, rfl, rfl⟩
  have a3 : ∀ ok raw f g (r : Rd), (r.stepGyr ok raw f g).speed = r.speed ∧ (r.stepGyr ok raw f g).ramp = r.ramp ∧
      (r.stepGyr ok raw f g).speedReg = r.speedReg ∧ (r.stepGyr ok raw f g).rampReg = r.rampReg := by
    intro ok raw f g r; cases ok <;> cases raw <;> exact ⟨rfl, rfl, rfl, rfl⟩
  unfold RBox.tickRd
  rw [if_neg h]
  split
  · unfold Rd.imu
    exact ⟨(a3 _ _ _ _ _).1.trans ((a2 _ _ _ _).1.trans (a1 _ _ _ _).1),
      (a3 _ _ _ _ _).2.1.trans ((a2 _ _ _ _).2.1.trans (a1 _ _ _ _).2.1),
      (a3 _ _ _ _ _).2.2.1.trans ((a2 _ _ _ _).2.2.1.trans (a1 _ _ _ _).2.2.1),
      (a3 _ _ _ _ _).2.2.2.trans ((a2 _ _ _ _).2.2.2.trans (a1 _ _ _ _).2.2.2)⟩
  · split <;> exact ⟨rfl, rfl, rfl, rfl⟩

theorem request8 {s : RBox} (h : s.box.regs.readPtr = 8) : s.request =
    match RBox.put3 s.rd.speedReg (-maxSpeedRead) maxSpeedRead, RBox.put3 s.rd.rampReg 0 maxTorque with
    | some a, some b => some (a ++ b)
    | _, _ => none := by
  unfold RBox.request
  dsimp only
  rw [if_neg (by rw [h]; decide), if_pos h]
  rfl

/-- The wheel readings of two states are the same. -/
def SameWheels (r r' : Rd) : Prop :=
  r'.speed = r.speed ∧ r'.ramp = r.ramp ∧ r'.speedReg = r.speedReg ∧ r'.rampReg = r.rampReg

theorem SameWheels.trans {a b c : Rd} (h : SameWheels a b) (k : SameWheels b c) : SameWheels a c :=
  ⟨k.1.trans h.1, k.2.1.trans h.2.1, k.2.2.1.trans h.2.2.1, k.2.2.2.trans h.2.2.2⟩

/-- Without a wheel command waiting the main loop does not come to the wheels. -/
theorem tick_idle {l : Bool} {e : Env} {b b' : Box} {a : Option Act} (h : b.tick l e = some (b', a))
    (hf : b.regs.rwaFlg ≠ 1) (hp : b.pc ∉ wheelWork) :
    b'.regs.rwaFlg ≠ 1 ∧ b'.regs.rwaMode = b.regs.rwaMode ∧ b'.pc ∉ wheelWork := by
  unfold Box.tick at h
  cases hc : b.pc <;> rw [hc] at h hp <;> try (exact absurd (by decide) hp)
  case rwaFlag =>
    simp only [if_pos hf, Option.some.injEq, Prod.mk.injEq] at h
    obtain ⟨rfl, -⟩ := h
    exact ⟨hf, rfl, by dsimp only; decide⟩
  case mtrActive | mtrFlag | mtrCheck | rwaActive | ssaCheck | resetFlag | disableFlag =>
    simp only [Option.some.injEq, Prod.mk.injEq] at h
    obtain ⟨rfl, -⟩ := h
    refine ⟨hf, rfl, ?_⟩
    show (if _ then _ else _) ∉ _
    split <;> decide
  case resetCheck | disableCheck =>
    dsimp only at h
    split at h
    all_goals
      simp only [Option.some.injEq, Prod.mk.injEq] at h
      obtain ⟨rfl, -⟩ := h
      exact ⟨hf, rfl, by dsimp only; decide⟩
  all_goals
    simp only [Option.some.injEq, Prod.mk.injEq] at h
    obtain ⟨rfl, -⟩ := h
    exact ⟨hf, rfl, by dsimp only; decide⟩

/-- Nor in a box that is not active. -/
theorem tick_passive {l : Bool} {e : Env} {b b' : Box} {a : Option Act} (h : b.tick l e = some (b', a))
    (hf : b.regs.mode ≠ 1) (hp : b.pc ∉ Pc.rwaFlag :: wheelWork) :
    b'.regs.mode ≠ 1 ∧ b'.pc ∉ Pc.rwaFlag :: wheelWork := by
  unfold Box.tick at h
  cases hc : b.pc <;> rw [hc] at h hp <;> try (exact absurd (by decide) hp)
  case rwaActive | mtrActive =>
    simp only [if_pos hf, Option.some.injEq, Prod.mk.injEq] at h
    obtain ⟨rfl, -⟩ := h
    exact ⟨hf, by dsimp only; decide⟩
  case mtrFlag | mtrCheck | ssaCheck | resetFlag | disableFlag =>
    simp only [Option.some.injEq, Prod.mk.injEq] at h
    obtain ⟨rfl, -⟩ := h
    refine ⟨hf, ?_⟩
    show (if _ then _ else _) ∉ _
    split <;> decide
  case resetCheck | disableCheck =>
    dsimp only at h
    split at h
    all_goals
      simp only [Option.some.injEq, Prod.mk.injEq] at h
      obtain ⟨rfl, -⟩ := h
      exact ⟨hf, by dsimp only; decide⟩
  all_goals
    simp only [Option.some.injEq, Prod.mk.injEq] at h
    obtain ⟨rfl, -⟩ := h
    exact ⟨hf, by dsimp only; decide⟩

/-- Without a message that makes a wheel command wait, the wheel readings stay. -/
theorem idle_frozen {l : Bool} (M : U8 → Prop) (R : List U8 → Prop)
    (hM : ∀ k m, M k → R m → M ((wheelModeIn m).getD k) ∧ (wheelBytes m).bind (wheelUnits ((wheelModeIn m).getD k)) = none)
    {evs : List REv} {s s' : RBox} (hmode : M s.box.regs.rwaMode) (hflg : s.box.regs.rwaFlg ≠ 1)
    (hpc : s.box.pc ∉ wheelWork) (hmsg : ∀ m, REv.recv m ∈ evs → R m) (hrun : RBox.run l s evs = some s') :
    SameWheels s.rd s'.rd := by
  refine (RBox.run_inv (l := l)
    (fun x => M x.box.regs.rwaMode ∧ x.box.regs.rwaFlg ≠ 1 ∧ x.box.pc ∉ wheelWork ∧ SameWheels s.rd x.rd)
    (fun ev => ∀ m, ev = .recv m → R m) ?_ evs ⟨hmode, hflg, hpc, rfl, rfl, rfl, rfl⟩
    (fun ev hev m hm => hmsg m (hm ▸ hev)) hrun).2.2.2
  intro x ev x' a hR ⟨p1, p2, p3, p4⟩ hs
  cases ev with
  | recv m =>
    obtain ⟨e1, e2⟩ := RBox.step_recv hs
    obtain ⟨_, _, _, s4, _, s6, _⟩ := Regs.receive_spec x.box.regs m
    obtain ⟨q1, q2⟩ := hM _ m p1 (hR m rfl)
    rw [e1, e2]
    refine ⟨by rw [s4]; exact q1, ?_, p3, p4⟩
    dsimp only
    rw [s6, s4, q2]
    exact p2
  | tick e =>
    obtain ⟨e', ht, hr⟩ := RBox.step_tick hs
    obtain ⟨q1, q2, q3⟩ := tick_idle ht p2 p3
    refine ⟨q2 ▸ p1, q1, q3, ?_⟩
    rw [hr]
    exact p4.trans (tickRd_wheels fun h => p3 (by rw [h]; decide))

end ADCS

/-- C93, refuted: the wheel readings are not kept up to date. While the wheel mode is "disabled" (and no earlier command
is being worked on), whatever happens - however long, with any converter values - as long as no message selects another
wheel mode, the box goes on reporting the same speeds and torques. (The wheels themselves keep turning: C75.) -/
theorem C93_counterexample_frozen_when_disabled (leader : Bool) (s : RBox) (evs : List REv) {s' : RBox}
    (hmode : s.box.regs.rwaMode = 0) (hflg : s.box.regs.rwaFlg ≠ 1) (hpc : s.box.pc ∉ wheelWork)
    (hmsg : ∀ m, REv.recv m ∈ evs → wheelModeIn m = none ∨ wheelModeIn m = some 0)
    (hrun : RBox.run leader s evs = some s') (h1 : s.box.regs.readPtr = 8) (h2 : s'.box.regs.readPtr = 8) :
    s'.request = s.request := by
  obtain ⟨-, -, e1, e2⟩ := idle_frozen (l := leader) (· = 0) (fun m => wheelModeIn m = none ∨ wheelModeIn m = some 0) (by
    intro k m hk hm
    have h0 : (wheelModeIn m).getD k = 0 := by
      rcases hm with h | h <;> rw [h]
      · exact hk
      · rfl
    refine ⟨h0, ?_⟩
    rw [h0]
    cases wheelBytes m <;> rfl) hmode hflg hpc hmsg hrun
  rw [request8 h1, request8 h2, e1, e2]

/-- C93, refuted: the same in a box that is not active, whatever is sent except the mode "active". -/
theorem C93_counterexample_frozen_when_passive (leader : Bool) (s : RBox) (evs : List REv) {s' : RBox}
    (hmode : s.box.regs.mode ≠ 1) (hpc : s.box.pc ∉ Pc.rwaFlag :: wheelWork)
    (hmsg : ∀ m, REv.recv m ∈ evs → modeIn m ≠ some 1)
    (hrun : RBox.run leader s evs = some s') (h1 : s.box.regs.readPtr = 8) (h2 : s'.box.regs.readPtr = 8) :
    s'.request = s.request := by
  have key := (RBox.run_inv (l := leader)
    (fun x => x.box.regs.mode ≠ 1 ∧ x.box.pc ∉ Pc.rwaFlag :: wheelWork ∧ SameWheels s.rd x.rd)
    (fun ev => ∀ m, ev = .recv m → modeIn m ≠ some 1) (by
      intro x ev x' a hR ⟨p1, p3, p4⟩ hs
      cases ev with
      | recv m =>
        obtain ⟨e1, e2⟩ := RBox.step_recv hs
        obtain ⟨s1, _⟩ := Regs.receive_spec x.box.regs m
        rw [e1, e2]
        refine ⟨?_, p3, p4⟩
        dsimp only
        rw [s1]
        cases hk : modeIn m with
        | none => exact p1
        | some k => intro hk'; exact hR m rfl (by rw [hk]; exact congrArg some hk')
      | tick e =>
        obtain ⟨e', ht, hr⟩ := RBox.step_tick hs
        obtain ⟨q1, q3⟩ := tick_passive ht p1 p3
        refine ⟨q1, q3, ?_⟩
        rw [hr]
        exact p4.trans (tickRd_wheels fun h => p3 (by rw [h]; decide)))
    evs ⟨hmode, hpc, rfl, rfl, rfl, rfl⟩ (fun ev hev m hm => hmsg m (hm ▸ hev)) hrun).2.2
  rw [request8 h1, request8 h2, key.2.2.1, key.2.2.2]

/-- C93, refuted: from power-up until the first wheel command, asking for the wheel readings is undefined behaviour: the
registers hold placeholders, one of which is a negative torque. -/
theorem C93_counterexample_startup (leader pot : Bool) (sensors : ℕ → Bool) (evs : List REv) {s : RBox}
    (hmsg : ∀ m, REv.recv m ∈ evs → wheelBytes m = none)
    (hrun : RBox.run leader (RBox.boot pot sensors) evs = some s) (hp : s.box.regs.readPtr = 8) : s.request = none := by
  obtain ⟨-, -, e1, e2⟩ := idle_frozen (l := leader) (fun _ => True) (fun m => wheelBytes m = none) (by
    intro k m _ hm
    exact ⟨trivial, by rw [hm]; rfl⟩) (s := RBox.boot pot sensors) trivial
    (show (0 : U8) ≠ 1 by decide) (show Pc.imu ∉ wheelWork by decide) hmsg hrun
  have h : RBox.put3 Rd.init.rampReg 0 maxTorque = none := by decide +kernel
  have e3 : s.rd.rampReg = Rd.init.rampReg := e2
  rw [request8 hp, e3, h]
  cases RBox.put3 s.rd.speedReg (-maxSpeedRead) maxSpeedRead <;> rfl

namespace ADCS

theorem tol_speed : Tol (-maxSpeedRead) maxSpeedRead (-slack maxSpeedRead) (slack maxSpeedRead) := by
  constructor <;> decide +kernel

theorem slack_speed : maxSpeedRead + (maxSpeedRead + slack maxSpeedRead) / 2 ^ 24 + 1 / 2 ^ 150 ≤ slack maxSpeedRead := by
  decide +kernel

/-- One more rounding. -/
theorem round_near {x y b d : ℚ} (h : |x - y| ≤ d) (hx : |x| ≤ b) : |f32 x - y| ≤ d + b / 2 ^ 24 + 1 / 2 ^ 150 := by
  have he := f32_err_abs x
  have hb : |x| / 2 ^ 24 ≤ b / 2 ^ 24 := div_le_div_of_nonneg_right hx (by norm_num)
  rw [abs_le] at h he ⊢
  constructor <;> linarith

/-- The converters deliver 2 mV per unit. -/
theorem volts_near {n : ℤ} (h0 : 0 ≤ n) (h1 : n ≤ 1650) : |Rd.volts n - 2 / 1000 * n| ≤ 56 / 100000000 := by
  have c1 : f32 (4096 / 1000) = 8589935 / 2097152 := by decide +kernel
  have q0 : (0 : ℚ) ≤ n := by exact_mod_cast h0
  have q1 : (n : ℚ) ≤ 1650 := by exact_mod_cast h1
  have v1 : |f32 (f32 (4096 / 1000) * n) - 4096 / 1000 * n| ≤ 73 / 100000 := by
    refine (round_near (x := f32 (4096 / 1000) * n) (b := 6760) (d := 322 / 1000000) ?_ ?_).trans (by norm_num) <;>
      rw [c1, abs_le] <;> constructor <;> linarith
  unfold Rd.volts
  rw [abs_le] at v1
  refine (round_near (b := 34 / 10) (d := 357 / 1000000000) ?_ ?_).trans (by norm_num) <;>
    rw [abs_le] <;> constructor <;> linarith

/-- The conversion of a converter value is accurate. -/
theorem speed_near {n : ℤ} (h0 : 0 ≤ n) (h1 : n ≤ 1650) :
    |Rd.toSpeed (Rd.volts n) - wheelSpeed n| ≤ (maxSpeedRead - -maxSpeedRead) / 65535 / 40 := by
  have c2 : maxSpeedRead = 4289331 / 4096 := by decide +kernel
  have c3 : maxVolt = 13841203 / 4194304 := by decide +kernel
  have c4 : f32 (maxSpeedRead - -maxSpeedRead) = 4289331 / 2048 := by decide +kernel
  have q0 : (0 : ℚ) ≤ n := by exact_mod_cast h0
  have q1 : (n : ℚ) ≤ 1650 := by exact_mod_cast h1
  have v2 := volts_near h0 h1
  rw [abs_le] at v2
  have v3 : |f32 (f32 (maxSpeedRead - -maxSpeedRead) * Rd.volts n) - 4289331 / 2048 * (2 / 1000 * n)| ≤ 159 / 100000 := by
    refine (round_near (b := 6920) (d := 1174 / 1000000) ?_ ?_).trans (by norm_num) <;>
      rw [c4, abs_le] <;> constructor <;> linarith
  rw [abs_le] at v3
  have v4 : |f32 (f32 (f32 (maxSpeedRead - -maxSpeedRead) * Rd.volts n) / maxVolt) -
      4289331 / 2048 * (2 / 1000 * n) / (33 / 10)| ≤ 66 / 100000 := by
    refine (round_near (b := 2096) (d := 53 / 100000) ?_ ?_).trans (by norm_num) <;>
      rw [c3, abs_le] <;> constructor <;> linarith
  rw [abs_le] at v4
  unfold Rd.toSpeed wheelSpeed
  refine (round_near (b := 1050) (d := 66 / 100000) ?_ ?_).trans (by rw [c2]; norm_num) <;>
    rw [abs_le] <;> constructor <;> rw [c2] at * <;> linarith

theorem toSpeed_mono {a b : ℚ} (h : a ≤ b) : Rd.toSpeed a ≤ Rd.toSpeed b := by
  have c3 : 0 ≤ maxVolt := by decide +kernel
  have c4 : 0 ≤ f32 (maxSpeedRead - -maxSpeedRead) := by decide +kernel
  unfold Rd.toSpeed
  refine f32_mono (add_le_add_left ?_ _)
  exact f32_mono (div_le_div_of_nonneg_right (f32_mono (mul_le_mul_of_nonneg_left h c4)) c3)

theorem volts_mono {a b : ℤ} (h : a ≤ b) : Rd.volts a ≤ Rd.volts b := by
  have c : 0 ≤ f32 (4096 / 1000) := by decide +kernel
  have q : (a : ℚ) ≤ b := by exact_mod_cast h
  unfold Rd.volts
  exact f32_mono (div_le_div_of_nonneg_right (f32_mono (mul_le_mul_of_nonneg_left q c)) (by norm_num))

theorem speed_bounds {n : ℤ} (h0 : 0 ≤ n) (h1 : n ≤ 1650) :
    -maxSpeedRead ≤ Rd.toSpeed (Rd.volts n) ∧ Rd.toSpeed (Rd.volts n) ≤ maxSpeedRead + 1 / 4096 :=
  ⟨(show -maxSpeedRead ≤ Rd.toSpeed (Rd.volts 0) by decide +kernel).trans (toSpeed_mono (volts_mono h0)),
   (toSpeed_mono (volts_mono h1)).trans (by decide +kernel)⟩

theorem used_wheels {s : RBox} {e : REnv} {v : V3 ℤ} (hpc : s.box.pc = .rwaCheck)
    (hs : s.box.hw.sensor 10 = true ∧ s.box.hw.sensor 11 = true ∧ s.box.hw.sensor 12 = true)
    (hv : e.spd 0 = some v.x ∧ e.spd 1 = some v.y ∧ e.spd 2 = some v.z) :
    (s.tickRd e).speed = Rd.filt3 s.box.regs.speedFlt s.rd.speed (Rd.rwaToBody ((v.map Rd.volts).map Rd.toSpeed)) ∧
      (s.tickRd e).speedReg = (s.tickRd e).speed := by
  have e1 : Rd.fresh (fun i => s.box.hw.sensor (10 + i)) e.spd s.rd.speed = v.map Rd.volts := by
    simp only [Rd.fresh, hs.1, hs.2.1, hs.2.2, hv.1, hv.2.1, hv.2.2]
    rfl
  unfold RBox.tickRd
  rw [if_neg (by rw [hpc]; decide), if_pos hpc]
  refine ⟨?_, rfl⟩
  rw [← e1]
  rfl

/-- The range of the conversion, with the sign either way. -/
theorem body_bounds {n : ℤ} (h0 : 0 ≤ n) (h1 : n ≤ 1650) {d : ℚ}
    (hd : d = Rd.toSpeed (Rd.volts n) ∨ d = -Rd.toSpeed (Rd.volts n)) :
    -(maxSpeedRead + 1 / 4096) ≤ d ∧ d ≤ maxSpeedRead + 1 / 4096 := by
  obtain ⟨a, b⟩ := speed_bounds h0 h1
  rcases hd with rfl | rfl <;> constructor <;> linarith

theorem filt_speed {x d : ℚ} (hx : -slack maxSpeedRead ≤ x ∧ x ≤ slack maxSpeedRead)
    (hd : -(maxSpeedRead + 1 / 4096) ≤ d ∧ d ≤ maxSpeedRead + 1 / 4096) :
    (-slack maxSpeedRead ≤ Rd.filt 1 x d ∧ Rd.filt 1 x d ≤ slack maxSpeedRead) ∧
      |Rd.filt 1 x d - d| ≤ (maxSpeedRead - -maxSpeedRead) / 65535 / 40 := by
  refine ⟨filt_range zero_le_one le_rfl (rep_neg (rep_slack _)) (rep_slack _) hx.1 hx.2 hd.1 hd.2 (by decide +kernel)
    (by decide +kernel), ?_⟩
  refine (filt_one (M := 1048) (g := 1048) (by norm_num) ?_ ?_).trans (by decide +kernel)
  · exact abs_le.2 ⟨(show -(1048 : ℚ) ≤ -slack maxSpeedRead by decide +kernel).trans hx.1, hx.2.trans (by decide +kernel)⟩
  · exact abs_le.2 ⟨(show -(1048 : ℚ) ≤ -(maxSpeedRead + 1 / 4096) by decide +kernel).trans hd.1, hd.2.trans (by decide +kernel)⟩

end ADCS

/-- C93 (part): the wheel speeds that a pass over the wheels with all three converters working has read are the ones the
flight computer gets, in the body frame and to the resolution of the format, as long as no new wheel command has come
in. Assumed: the filter at its default, and earlier readings within the range (which this theorem establishes for the
next one). Missing: everything outside a pass with a wheel command (`C93_counterexample_frozen_when_disabled`,
`C93_counterexample_frozen_when_passive`, `C93_counterexample_startup`), lost converters
(`C93_counterexample_lost_converter`), and that there is an answer at all (`C93_counterexample_torque`). -/
theorem C93_speeds_partial (leader : Bool) (s : RBox) (e : REnv) (v : V3 ℤ) (evs : List REv) {s' s'' : RBox} {a : Option Act}
    {d : List U8} (hpc : s.box.pc = .rwaCheck)
    (hs : s.box.hw.sensor 10 = true ∧ s.box.hw.sensor 11 = true ∧ s.box.hw.sensor 12 = true)
    (hv : e.spd 0 = some v.x ∧ e.spd 1 = some v.y ∧ e.spd 2 = some v.z) (hr : v.all fun n => 0 ≤ n ∧ n ≤ 1650)
    (hf : s.box.regs.speedFlt = 1) (hprev : Within (-slack maxSpeedRead) (slack maxSpeedRead) s.rd.speed)
    (hflg : s.box.regs.rwaFlg ≠ 1) (h1 : s.step leader (.tick e) = some (s', a))
    (hmsg : ∀ m, REv.recv m ∈ evs → wheelBytes m = none) (h2 : RBox.run leader s' evs = some s'')
    (hp : s''.box.regs.readPtr = 8) (hd : s''.request = some d) :
    Read3 (-maxSpeedRead) maxSpeedRead (get3 d 0 (-maxSpeedRead) maxSpeedRead) (wheelMount (v.map wheelSpeed)) ∧
      Within (-slack maxSpeedRead) (slack maxSpeedRead) s''.rd.speed := by
  obtain ⟨e', ht, hrd⟩ := RBox.step_tick h1
  obtain ⟨u1, u2⟩ := used_wheels hpc hs hv
  obtain ⟨r1, r2, r3⟩ := hr
  obtain ⟨x1, x2, x3⟩ := hprev
  have hst : s'.box.regs.rwaFlg ≠ 1 ∧ s'.box.pc ∉ wheelWork := by
    unfold Box.tick at ht
    rw [hpc] at ht
    dsimp only at ht
    split at ht
    · rw [Option.map_eq_some_iff] at ht
      obtain ⟨h, -, hh⟩ := ht
      rw [Prod.mk.injEq] at hh
      rw [← hh.1]
      exact ⟨hflg, by dsimp only; decide⟩
    · rw [Option.some.injEq, Prod.mk.injEq] at ht
      rw [← ht.1]
      exact ⟨hflg, by dsimp only; decide⟩
  obtain ⟨k1, -, k3, -⟩ := idle_frozen (l := leader) (fun _ => True) (fun m => wheelBytes m = none) (by
    intro k m _ hm
    exact ⟨trivial, by rw [hm]; rfl⟩) trivial hst.1 hst.2 hmsg h2
  have q1 := filt_speed x1 (body_bounds r3.1 r3.2 (Or.inl rfl))
  have q2 := filt_speed x2 (body_bounds r1.1 r1.2 (Or.inr rfl))
  have q3 := filt_speed x3 (body_bounds r2.1 r2.2 (Or.inr rfl))
  have hsp : s''.rd.speed = Rd.filt3 1 s.rd.speed (Rd.rwaToBody ((v.map Rd.volts).map Rd.toSpeed)) := by
    rw [k1, hrd, u1, hf]
  have hreg : s''.rd.speedReg = s''.rd.speed := by
    rw [k3, k1, hrd, u2]
  have hw : Within (-slack maxSpeedRead) (slack maxSpeedRead) s''.rd.speed := by
    rw [hsp]; exact ⟨q1.1, q2.1, q3.1⟩
  refine ⟨?_, hw⟩
  obtain ⟨t, t0, t1, t2, t3⟩ := put3_ok tol_speed (hreg ▸ hw)
  rw [request8 hp, t0] at hd
  cases hp2 : RBox.put3 s''.rd.rampReg 0 maxTorque with
  | none => rw [hp2] at hd; cases hd
  | some b =>
    rw [hp2] at hd
    cases hd
    have eg : get3 (Cmds.vec6 t ++ b) 0 (-maxSpeedRead) maxSpeedRead = t.map (fpS · (-maxSpeedRead) maxSpeedRead) := by
      simp only [get3, byteAt, Cmds.vec6, Cmds.lohi, List.cons_append, List.nil_append, List.getElem?_cons_zero,
        List.getElem?_cons_succ, Option.getD_some, le16_lohi, V3.map, Nat.zero_add]
    have z1 := speed_near r1.1 r1.2
    have z2 := speed_near r2.1 r2.2
    have z3 := speed_near r3.1 r3.2
    rw [hreg, hsp] at t1 t2 t3
    have comb : ∀ {p q x y w : ℚ}, |p - q| ≤ 42 / 40 * w → |q - x| ≤ w / 40 → |x - y| ≤ w / 40 → |p - y| ≤ 44 / 40 * w := by
      intro p q x y w a b c
      rw [abs_le] at a b c ⊢
      constructor <;> linarith
    have neg : ∀ {x y w : ℚ}, |x - y| ≤ w → |-x - -y| ≤ w := by
      intro x y w a
      rw [abs_le] at a ⊢
      constructor <;> linarith
    rw [eg]
    exact ⟨comb t1 q1.2 z3, comb t2 q2.2 (neg z1), comb t3 q3.2 (neg z2)⟩

namespace ADCS

theorem toRamp_mono {a b : ℚ} (h : a ≤ b) : Rd.toRamp a ≤ Rd.toRamp b := by
  have c3 : 0 ≤ maxVolt := by decide +kernel
  have c4 : 0 ≤ maxTorque := by decide +kernel
  unfold Rd.toRamp
  refine f32_mono (add_le_add_left ?_ _)
  exact f32_mono (div_le_div_of_nonneg_right (f32_mono (mul_le_mul_of_nonneg_left h c4)) c3)

/-- A value below the range of the format by a step or more cannot be sent. -/
theorem us_below {f g min max : ℚ} (hD : 0 < f32 (max - min)) (h : f ≤ g) (hg : truncZ (enc 65535 g min max) < 0) :
    us f min max = none := by
  have := enc_mono (N := 65535) (by norm_num) hD h
  unfold us
  exact if_neg fun hh => absurd hh.1 (by unfold enc at this hg; omega)

theorem put3_below {v : V3 ℚ} {min max : ℚ} (h : us v.y min max = none) : RBox.put3 v min max = none := by
  unfold RBox.put3 V3.mapM
  dsimp only
  rw [h]
  cases us v.x min max <;> rfl

theorem filt_below {x d M g b c : ℚ} (hM : 0 ≤ M) (hx : |x| ≤ g) (hd : |d| ≤ M) (hb : d ≤ b)
    (hc : b + ((M + g) / 2 ^ 22 + 1 / 2 ^ 148) ≤ c) : Rd.filt 1 x d ≤ c := by
  have := filt_one hM hx hd
  rw [abs_le] at this
  linarith

end ADCS

/-- C93, refuted: a wheel that is accelerating makes the readings unavailable. If the first wheel's ramp channel delivers
any positive value, then asking for the wheel readings after that pass is undefined behaviour: the torque along body y is
negative and its format has no negative numbers. (The second wheel does the same to body z.) -/
theorem C93_counterexample_torque (leader : Bool) (s : RBox) (e : REnv) (n : ℤ) {s' : RBox} {a : Option Act}
    (hpc : s.box.pc = .rwaCheck) (hs : s.box.hw.sensor 10 = true) (hn : e.rmp 0 = some n) (h0 : 1 ≤ n) (h1 : n ≤ 2047)
    (hf : s.box.regs.speedFlt = 1) (hprev : |s.rd.ramp.y| ≤ maxTorque)
    (hstep : s.step leader (.tick e) = some (s', a)) (hp : s'.box.regs.readPtr = 8) : s'.request = none := by
  obtain ⟨e', -, hrd⟩ := RBox.step_tick hstep
  have u : s'.rd.rampReg.y = Rd.filt 1 s.rd.ramp.y (-Rd.toRamp (Rd.volts n)) := by
    rw [hrd]
    unfold RBox.tickRd
    rw [if_neg (by rw [hpc]; decide), if_pos hpc]
    have e1 : Rd.pick (s.box.hw.sensor (10 + 0)) (e.rmp 0) s.rd.ramp.x = Rd.volts n := by
      rw [hs, hn]; rfl
    rw [← e1, ← hf]
    rfl
  have lo : Rd.toRamp (Rd.volts 1) ≤ Rd.toRamp (Rd.volts n) := toRamp_mono (volts_mono h0)
  have hi : Rd.toRamp (Rd.volts n) ≤ Rd.toRamp (Rd.volts 2047) := toRamp_mono (volts_mono h1)
  have p0 : 0 ≤ Rd.toRamp (Rd.volts 1) := by decide +kernel
  have k : s'.rd.rampReg.y ≤ -2 / 1000000 := by
    rw [u]
    refine filt_below (M := Rd.toRamp (Rd.volts 2047)) (g := maxTorque) (b := -Rd.toRamp (Rd.volts 1))
      (p0.trans (lo.trans hi)) hprev ?_ (neg_le_neg lo) (by decide +kernel)
    rw [abs_neg, abs_of_nonneg (p0.trans lo)]
    exact hi
  rw [request8 hp, put3_below (us_below (by decide +kernel) k (by decide +kernel))]
  cases RBox.put3 s'.rd.speedReg (-maxSpeedRead) maxSpeedRead <;> rfl

/-- C93, refuted: with the first wheel's converter out of service, its speed is not kept but replaced by nonsense: the
speed along body x (in rad/s) is taken for the converter's voltage. From a body x speed between 4 rad/s and full speed,
asking for the wheel readings after one pass is undefined behaviour: the speed along body y is out of range. -/
theorem C93_counterexample_lost_converter (leader : Bool) (s : RBox) (e : REnv) {s' : RBox} {a : Option Act}
    (hpc : s.box.pc = .rwaCheck) (hs : s.box.hw.sensor 10 = false) (h0 : 4 ≤ s.rd.speed.x) (h1 : s.rd.speed.x ≤ 1048)
    (hf : s.box.regs.speedFlt = 1) (hprev : |s.rd.speed.y| ≤ 1048)
    (hstep : s.step leader (.tick e) = some (s', a)) (hp : s'.box.regs.readPtr = 8) : s'.request = none := by
  obtain ⟨e', -, hrd⟩ := RBox.step_tick hstep
  have u : s'.rd.speedReg.y = Rd.filt 1 s.rd.speed.y (-Rd.toSpeed s.rd.speed.x) := by
    rw [hrd]
    unfold RBox.tickRd
    rw [if_neg (by rw [hpc]; decide), if_pos hpc]
    have e1 : Rd.pick (s.box.hw.sensor (10 + 0)) (e.spd 0) s.rd.speed.x = s.rd.speed.x := by
      rw [hs]; cases e.spd 0 <;> rfl
    rw [← hf]
    show Rd.filt _ _ (-Rd.toSpeed (Rd.pick (s.box.hw.sensor (10 + 0)) (e.spd 0) s.rd.speed.x)) = _
    rw [e1]
  have lo : Rd.toSpeed 4 ≤ Rd.toSpeed s.rd.speed.x := toSpeed_mono h0
  have hi : Rd.toSpeed s.rd.speed.x ≤ Rd.toSpeed 1048 := toSpeed_mono h1
  have p0 : 0 ≤ Rd.toSpeed 4 := by decide +kernel
  have k : s'.rd.speedReg.y ≤ -1200 := by
    rw [u]
    refine filt_below (M := Rd.toSpeed 1048) (g := 1048) (b := -Rd.toSpeed 4)
      (p0.trans (lo.trans hi)) hprev ?_ (neg_le_neg lo) (by decide +kernel)
    rw [abs_neg, abs_of_nonneg (p0.trans lo)]
    exact hi
  rw [request8 hp, put3_below (us_below (by decide +kernel) k (by decide +kernel))]

/-- C93, the filter. In every history since power-up, what the next wheel readings, speed and torque, are blended with is what was last
reported; before the first pass over the wheels it is zero. -/
theorem C93_memory (leader pot : Bool) (sensors : ℕ → Bool) (evs : List REv) {s : RBox}
    (hrun : RBox.run leader (RBox.boot pot sensors) evs = some s) :
    (s.rd.speed = V3.zero ∧ s.rd.ramp = V3.zero ∧ s.rd.speedReg = Rd.init.speedReg ∧ s.rd.rampReg = Rd.init.rampReg) ∨
      (s.rd.speed = s.rd.speedReg ∧ s.rd.ramp = s.rd.rampReg) := by
  refine RBox.run_inv (l := leader)
    (fun x => (x.rd.speed = V3.zero ∧ x.rd.ramp = V3.zero ∧ x.rd.speedReg = Rd.init.speedReg ∧ x.rd.rampReg = Rd.init.rampReg) ∨
      (x.rd.speed = x.rd.speedReg ∧ x.rd.ramp = x.rd.rampReg)) (fun _ => True) ?_ evs (Or.inl ⟨rfl, rfl, rfl, rfl⟩) (fun _ _ => trivial) hrun
  intro x ev x' a _ hx hs
  cases ev with
  | recv m => rw [(RBox.step_recv hs).2]; exact hx
  | tick e =>
    obtain ⟨e', -, hr⟩ := RBox.step_tick hs
    rw [hr]
    by_cases hp : x.box.pc = .rwaCheck
    · unfold RBox.tickRd
      rw [if_neg (by rw [hp]; decide), if_pos hp]
      exact Or.inr ⟨rfl, rfl⟩
    · obtain ⟨k1, k2, k3, k4⟩ := tickRd_wheels (s := x) (e := e) hp
      rw [k1, k2, k3, k4]
      exact hx

namespace ADCS

/-- A step in which every device works and the wheels deliver values (the first wheel accelerating if `n` is positive). -/
def turning (n : ℤ) : REnv :=
  { quiet with spd := fun i => some (if i = 0 then 900 else if i = 1 then 825 else 1000)
               rmp := fun i => some (if i = 0 then n else 0) }

/-- Power-up, active box, torque control with a command, read pointer on the wheels, up to the pass over the wheels. -/
def untilWheels : List REv :=
  [.recv [1, 1, 8], .recv [3, 2, 0, 128, 0, 128, 0, 128]] ++ List.replicate 10 (.tick quiet)

end ADCS

/-- A run reaches the pass over the wheels, with every hypothesis of `C93_speeds_partial` and `C93_counterexample_torque`. -/
example : ((RBox.run true (RBox.boot true fun _ => true) untilWheels).map fun s =>
    decide (s.box.pc = .rwaCheck ∧ s.box.regs.speedFlt = 1 ∧ s.box.regs.readPtr = 8 ∧ s.box.regs.rwaFlg ≠ 1 ∧
      s.box.hw.sensor 10 ∧ s.box.hw.sensor 11 ∧ s.box.hw.sensor 12 ∧ s.rd.speed = V3.zero ∧ s.rd.ramp = V3.zero)) =
    some true := by decide +kernel

/-- With no torque there is an answer: third wheel 222.2 rad/s along x, first 95.2 rad/s against y. -/
example : (((RBox.run true (RBox.boot true fun _ => true) (untilWheels ++ [.tick (turning 0)])).bind RBox.request).map fun d =>
    decide (|(get3 d 0 (-maxSpeedRead) maxSpeedRead).x - 2222 / 10| < 1 / 4 ∧
      |(get3 d 0 (-maxSpeedRead) maxSpeedRead).y + 952 / 10| < 1 / 4)) = some true := by decide +kernel

-- `C93_memory`: after that pass the torque of two idle wheels is remembered as reported
example : ((RBox.run true (RBox.boot true fun _ => true) (untilWheels ++ [.tick (turning 1)])).map fun s =>
    decide (s.rd.ramp = s.rd.rampReg ∧ s.rd.ramp ≠ V3.zero)) = some true := by decide +kernel

/-- With torque there is none. -/
example : ((RBox.run true (RBox.boot true fun _ => true) (untilWheels ++ [.tick (turning 1)])).bind RBox.request) = none := by
  decide +kernel

/-- After that pass, the converter failing at the next one. -/
example : (((RBox.run true (RBox.boot true fun i => i != 10) (untilWheels ++ [.tick (turning 0)])).map fun s =>
    decide (s.rd.speed.x < 223 ∧ 222 < s.rd.speed.x ∧ s.box.hw.sensor 10 = false ∧ |s.rd.speed.y| ≤ 1048))) = some true := by
  decide +kernel

end PAN
