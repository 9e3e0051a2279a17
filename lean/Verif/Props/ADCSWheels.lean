import Verif.Props.ADCSStates
/-!
Theorems about the reaction wheels and the heater of the attitude control box: C52 from the attitude controller to the
wheels, C80 (the gyroscope heater follows the last temperature reading), C81 (wheel commands are carried out with the right
size and direction).
-/
namespace PAN

namespace Spec
open ADCS

/-- The torque a wheel is set to: the potentiometer's setting as a fraction of the largest torque, with the sign of the
direction pins. -/
def wheelTorque (w : Wheel) (chip : U8) : ℚ :=
  (if w.ccw then 1 else if w.cw then -1 else 0) * (chip.toNat * (maxTorque / 255))

/-- The direction of each wheel in body coordinates. -/
def wheelAxis (j : Fin 3) : V3 ℚ := if j = 0 then ⟨0, -1, 0⟩ else if j = 1 then ⟨0, 0, -1⟩ else ⟨1, 0, 0⟩

/-- The gyroscope temperatures read during a run, oldest first, each with the target temperature and the heater setting
commanded at that moment. A temperature is read in a pass of `update_imu` in which the gyroscope is in service and has
new data. -/
def temperatures (leader : Bool) (b : Box) : List Box.Ev → List (ℚ × ℚ × U8)
  | [] => []
  | ev :: evs =>
    (match ev with
      | .tick e => if b.pc = .imu ∧ b.hw.sensor 0 = true ∧ e.alive 0 = true then
          (e.gyr.map fun v => (v, b.regs.gyrDesired, b.regs.gyrPwm)).toList else []
      | .recv _ => []) ++
    (match b.step leader ev with
      | some (b', _) => temperatures leader b' evs
      | none => [])

end Spec

namespace ADCS

/-- The eight-bit setting for a torque is off by little more than one step. -/
theorem uc_raw {t : ℚ} (h0 : 0 ≤ t) (h1 : t ≤ maxTorque) :
    ∃ u, uc t 0 maxTorque = some u ∧ |(u.toNat : ℚ) * (maxTorque / 255) - t| ≤ 81 / 80 * (maxTorque / 255) := by
  have hm := maxTorque_pos
  have hw := maxTorque_width'
  have e0 := enc_nonneg (N := 255) (f := t) (min := 0) (max := maxTorque) (by norm_num) h0 hm
  have he := enc_err (N := 255) (by norm_num) (by norm_num) h0 h1 hw.1 hw.2
  have hb : 255 * (t - 0) / (maxTorque - 0) ≤ 255 := by rw [div_le_iff₀ (by linarith)]; linarith
  rw [abs_le] at he
  have hv : enc 255 t 0 maxTorque < 256 := by linarith
  have q0 : 0 ≤ ⌊enc 255 t 0 maxTorque⌋ := Int.floor_nonneg.2 e0
  have q1 : ⌊enc 255 t 0 maxTorque⌋ < 256 := Int.floor_lt.2 (by push_cast; exact hv)
  have ht : truncZ (f32 (f32 (255 * f32 (t - 0)) / f32 (maxTorque - 0))) = ⌊enc 255 t 0 maxTorque⌋ := truncZ_nonneg e0
  refine ⟨BitVec.ofInt 8 ⌊enc 255 t 0 maxTorque⌋, ?_, ?_⟩
  · unfold uc
    simp only [ht]
    rw [if_pos ⟨q0, q1⟩]
  · have hn : (((BitVec.ofInt 8 ⌊enc 255 t 0 maxTorque⌋).toNat : ℕ) : ℚ) = (⌊enc 255 t 0 maxTorque⌋ : ℤ) := by
      rw [BitVec.toNat_ofInt]
      have : ((⌊enc 255 t 0 maxTorque⌋ % ((2 ^ 8 : ℕ) : ℤ)).toNat : ℤ) = ⌊enc 255 t 0 maxTorque⌋ := by
        rw [Int.emod_eq_of_lt q0 (by push_cast; omega)]; omega
      exact_mod_cast this
    rw [hn]
    have f1 := Int.floor_le (enc 255 t 0 maxTorque)
    have f2 := Int.lt_floor_add_one (enc 255 t 0 maxTorque)
    have hu : 0 < maxTorque / 255 := by positivity
    have ex : 255 * (t - 0) / (maxTorque - 0) = t / (maxTorque / 255) := by
      rw [sub_zero, sub_zero]; field_simp
    rw [ex] at he
    have htu : t = t / (maxTorque / 255) * (maxTorque / 255) := by field_simp
    generalize maxTorque / 255 = u at *
    generalize t / u = x at *
    generalize (⌊enc 255 t 0 maxTorque⌋ : ℤ) = q at *
    have k1 : (q : ℚ) * u ≤ (x + 81 / 80) * u := mul_le_mul_of_nonneg_right (by linarith) hu.le
    have k2 : (x - 81 / 80) * u ≤ (q : ℚ) * u := mul_le_mul_of_nonneg_right (by linarith) hu.le
    rw [abs_le]
    constructor <;> linarith

theorem bodyToRwa_comp (cmd : V3 ℚ) (j : Fin 3) : Spec.comp (Hw.bodyToRwa cmd) j = Spec.dot (Spec.wheelAxis j) cmd := by
  fin_cases j <;> simp [Spec.comp, Hw.bodyToRwa, Spec.dot, Spec.wheelAxis]

/-- What `torqueWheel` followed by `actWheel` does. -/
theorem torqueWheel_spec {t : ℚ} {w w' : Wheel} (ht : |t| ≤ maxTorque) (h : Hw.torqueWheel t w = some w')
    (hf : w.functional = true) : w'.functional = true ∧ |Spec.wheelTorque (Hw.actWheel w') w'.ramp - t| ≤ 81 / 80 * (maxTorque / 255) := by
  unfold Hw.torqueWheel at h
  rw [abs_le] at ht
  by_cases h0 : 0 ≤ t
  · rw [if_pos h0] at h
    obtain ⟨u, hu, he⟩ := uc_raw h0 ht.2
    rw [hu] at h
    simp only [Option.map_some, Option.some.injEq] at h
    subst h
    refine ⟨hf, ?_⟩
    simp only [Hw.actWheel, hf, if_true, Wheel.actuate, Spec.wheelTorque]
    simpa using he
  · rw [if_neg h0] at h
    obtain ⟨u, hu, he⟩ := uc_raw (t := -t) (by linarith) (by linarith)
    rw [hu] at h
    simp only [Option.map_some, Option.some.injEq] at h
    subst h
    refine ⟨hf, ?_⟩
    simp only [Hw.actWheel, hf, if_true, Wheel.actuate, Spec.wheelTorque]
    rw [abs_le] at he ⊢
    norm_num
    constructor <;> linarith

/-- The pulse for a speed. -/
def pulseOf (s : ℚ) : ℤ := truncZ (f32 (f32 (f32 (1000 * s) / maxSpeedCmd) + 1000))

theorem pulseOf_mono {a b : ℚ} (h : a ≤ b) : pulseOf a ≤ pulseOf b := by
  unfold pulseOf
  apply truncZ_mono
  apply f32_mono
  have := f32_mono (x := f32 (1000 * a) / maxSpeedCmd) (y := f32 (1000 * b) / maxSpeedCmd)
    (div_le_div_of_nonneg_right (f32_mono (by linarith)) maxSpeedCmd_pos.le)
  linarith

theorem pulseOf_ends : pulseOf (-maxSpeedCmd) = 0 ∧ pulseOf 0 = 1000 ∧ pulseOf maxSpeedCmd = 2000 := by decide +kernel

end ADCS
open ADCS

/-- C81: a torque command is carried out. If the potentiometer is in service and takes the transfer, then after an
actuation in torque control every wheel in service is set to the component of the commanded torque along its axis, with
the right sign, up to the resolution of the potentiometer. -/
theorem C81_torque {e : Env} {h h' : Hw} {cmd : V3 ℚ} (j : Fin 3) (hrun : h.rwaActuate e 2 cmd = some h')
    (hp : h.pot.functional = true) (hok : e.potOk = true) (hf : (Spec.comp h.wheels j).functional = true)
    (hr : |Spec.dot (Spec.wheelAxis j) cmd| ≤ maxTorque) :
    |Spec.wheelTorque (Spec.comp h'.wheels j) (Spec.comp h'.pot.chip j) - Spec.dot (Spec.wheelAxis j) cmd| ≤
      81 / 80 * (maxTorque / 255) := by
  unfold Hw.rwaActuate at hrun
  simp only [if_true, hp, Bool.not_true, Bool.false_eq_true, if_false] at hrun
  split at hrun
  · rename_i a b d ha hb hd
    simp only [Option.some.injEq] at hrun
    rw [← bodyToRwa_comp] at hr ⊢
    subst hrun
    simp only [Hw.writeRdac, hok, if_true, Hw.setRdac, V3.map]
    fin_cases j
    · have := torqueWheel_spec (by simpa [Spec.comp] using hr) ha (by simpa [Spec.comp] using hf)
      simpa [Spec.comp, this.1] using this.2
    · have := torqueWheel_spec (by simpa [Spec.comp] using hr) hb (by simpa [Spec.comp] using hf)
      simpa [Spec.comp, this.1] using this.2
    · have := torqueWheel_spec (by simpa [Spec.comp] using hr) hd (by simpa [Spec.comp] using hf)
      simpa [Spec.comp, this.1] using this.2
  · cases hrun

/-- C81, refuted for the potentiometer: while it is out of service, an actuation in torque control changes nothing: all
wheels keep turning as they did. -/
theorem C81_no_potentiometer (e : Env) (h : Hw) (cmd : V3 ℚ) (hp : h.pot.functional = false) :
    h.rwaActuate e 2 cmd = some h := by
  unfold Hw.rwaActuate
  simp [hp]

/-- C81, refuted for speed control: whatever speed within range is commanded, forwards or backwards, a wheel in service is
always driven in the same direction; the pulse lies between 0 and 2000 and is below the standstill value 1000 for negative
speeds (and exactly 1000 for speed 0). -/
theorem C81_speed_never_reverses (e : Env) (h : Hw) (cmd : V3 ℚ) (j : Fin 3)
    (hf : (Spec.comp h.wheels j).functional = true) (hr : |Spec.dot (Spec.wheelAxis j) cmd| ≤ maxSpeedCmd) :
    ∃ h', h.rwaActuate e 1 cmd = some h' ∧ (Spec.comp h'.wheels j).ccw = true ∧ (Spec.comp h'.wheels j).cw = false ∧
      0 ≤ (Spec.comp h'.wheels j).pulse ∧ (Spec.comp h'.wheels j).pulse ≤ 2000 ∧
      (Spec.dot (Spec.wheelAxis j) cmd ≤ 0 → (Spec.comp h'.wheels j).pulse ≤ 1000) ∧
      (0 ≤ Spec.dot (Spec.wheelAxis j) cmd → 1000 ≤ (Spec.comp h'.wheels j).pulse) := by
  have key : ∀ (s : ℚ) (w : Wheel), w.functional = true → |s| ≤ maxSpeedCmd →
      (Hw.actWheel (Hw.speedWheel s w)).ccw = true ∧ (Hw.actWheel (Hw.speedWheel s w)).cw = false ∧
      0 ≤ (Hw.actWheel (Hw.speedWheel s w)).pulse ∧ (Hw.actWheel (Hw.speedWheel s w)).pulse ≤ 2000 ∧
      (s ≤ 0 → (Hw.actWheel (Hw.speedWheel s w)).pulse ≤ 1000) ∧ (0 ≤ s → 1000 ≤ (Hw.actWheel (Hw.speedWheel s w)).pulse) := by
    intro s w hw hs
    rw [abs_le] at hs
    obtain ⟨p1, p2, p3⟩ := pulseOf_ends
    have b1 := pulseOf_mono hs.1
    have b2 := pulseOf_mono hs.2
    rw [p1] at b1
    rw [p3] at b2
    have e1 : Hw.speedWheel s w = { w with ramp := 255, speed := pulseOf s } := by
      unfold Hw.speedWheel
      rw [if_pos hw]
      rfl
    rw [e1]
    simp only [Hw.actWheel, hw, if_true, Wheel.actuate, b1]
    refine ⟨trivial, trivial, trivial, b2, fun h => ?_, fun h => ?_⟩
    · have := pulseOf_mono h; omega
    · have := pulseOf_mono h; omega
  unfold Hw.rwaActuate
  rw [if_neg (by decide), if_pos rfl]
  refine ⟨_, rfl, ?_⟩
  rw [← bodyToRwa_comp] at hr ⊢
  fin_cases j
  · simpa [Spec.comp, V3.map] using key (Hw.bodyToRwa cmd).x h.wheels.x (by simpa [Spec.comp] using hf) (by simpa [Spec.comp] using hr)
  · simpa [Spec.comp, V3.map] using key (Hw.bodyToRwa cmd).y h.wheels.y (by simpa [Spec.comp] using hf) (by simpa [Spec.comp] using hr)
  · simpa [Spec.comp, V3.map] using key (Hw.bodyToRwa cmd).z h.wheels.z (by simpa [Spec.comp] using hf) (by simpa [Spec.comp] using hr)

/-- C52, from the attitude controller to the wheels: in the three pointing states, if the torque asked for is within range
and the potentiometer works, a wheel in service that is actuated with the command of the cycle is set to the component of
that torque along its axis, up to the resolution of the two scales. -/
theorem C52_wheels_end_to_end {i : AttIn} {state ssa : U8} {s s' : AttCtl} {c c' : Cmds} {msgs : List (List U8)}
    (hst : state = sPointManual ∨ state = sPointStandby ∨ state = sPointDocking)
    (h : Spec.attitudeCycle i state ssa s c = some (msgs, s', c')) (pre : List Box.Ev)
    (hr : s'.torque.all (|·| ≤ maxTorque)) {e : Env} {hw hw' : Hw} (j : Fin 3)
    (hrun : hw.rwaActuate e (Spec.lastWheel (pre ++ Spec.asEvents msgs)).1 (Spec.lastWheel (pre ++ Spec.asEvents msgs)).2 = some hw')
    (hp : hw.pot.functional = true) (hok : e.potOk = true) (hf : (Spec.comp hw.wheels j).functional = true) :
    |Spec.wheelTorque (Spec.comp hw'.wheels j) (Spec.comp hw'.pot.chip j) - Spec.dot (Spec.wheelAxis j) s'.torque| ≤
      81 / 80 * (maxTorque / 255) + 41 / 40 * (2 * maxTorque / 65535) := by
  obtain ⟨k1, _, k2, _⟩ := C52_pointing hst h pre
  have k2 := k2 hr
  rw [k1] at hrun
  obtain ⟨hs, hc⟩ := cycle_split h
  obtain ⟨_, _, _, _, _, h2⟩ := send_means hc
  obtain ⟨v, hv, hv'⟩ := h2 (by rcases hst with rfl | rfl | rfl <;> rfl)
  have hall : ((Spec.lastWheel (pre ++ Spec.asEvents msgs)).2).all (|·| ≤ maxTorque) := by
    rw [hv']; exact ⟨fpS_torque _, fpS_torque _, fpS_torque _⟩
  generalize (Spec.lastWheel (pre ++ Spec.asEvents msgs)).2 = cmd at *
  have hdot : |Spec.dot (Spec.wheelAxis j) cmd| ≤ maxTorque := by
    obtain ⟨a1, a2, a3⟩ := hall
    fin_cases j <;> simp [Spec.dot, Spec.wheelAxis, abs_neg] <;> assumption
  have t1 := C81_torque j hrun hp hok hf hdot
  have t2 : |Spec.dot (Spec.wheelAxis j) cmd - Spec.dot (Spec.wheelAxis j) s'.torque| ≤ 41 / 40 * (2 * maxTorque / 65535) := by
    obtain ⟨a1, a2, a3⟩ := k2
    rw [abs_le] at a1 a2 a3
    fin_cases j <;> simp only [Spec.dot, Spec.wheelAxis, Fin.zero_eta, Fin.mk_one, Fin.reduceFinMk, Fin.isValue, reduceIte,
      Fin.reduceEq, one_ne_zero] <;> rw [abs_le] <;> constructor <;> linarith
  have tri := abs_sub_le (Spec.wheelTorque (Spec.comp hw'.wheels j) (Spec.comp hw'.pot.chip j))
    (Spec.dot (Spec.wheelAxis j) cmd) (Spec.dot (Spec.wheelAxis j) s'.torque)
  linarith

namespace ADCS

theorem temperatures_snoc {l : Bool} : ∀ (evs : List Box.Ev) {b b1 : Box} {acts : List Act} (ev : Box.Ev),
    Box.run l b evs = some (b1, acts) →
    Spec.temperatures l b (evs ++ [ev]) = Spec.temperatures l b evs ++ Spec.temperatures l b1 [ev] := by
  intro evs
  induction evs with
  | nil =>
    intro b b1 acts ev h
    simp only [Box.run, Option.some.injEq, Prod.mk.injEq] at h
    obtain ⟨rfl, rfl⟩ := h
    rfl
  | cons x xs ih =>
    intro b b1 acts ev h
    simp only [Box.run] at h
    cases hs : b.step l x with
    | none => rw [hs] at h; cases h
    | some r =>
      rw [hs] at h
      simp only [Option.map_eq_some_iff] at h
      obtain ⟨r', h1, h2⟩ := h
      simp only [Prod.mk.injEq] at h2
      obtain ⟨rfl, _⟩ := h2
      have := ih (b := r.1) (b1 := r'.1) (acts := r'.2) ev h1
      have c : ∀ ys, Spec.temperatures l b (x :: ys) = (match x with
          | .tick e => if b.pc = .imu ∧ b.hw.sensor 0 = true ∧ e.alive 0 = true then
              (e.gyr.map fun v => (v, b.regs.gyrDesired, b.regs.gyrPwm)).toList else []
          | .recv _ => []) ++ Spec.temperatures l r.1 ys := by
        intro ys
        cases x <;> simp only [Spec.temperatures, hs]
      rw [List.cons_append, c, c, this, List.append_assoc]

/-- Outside `update_imu` the heater is left alone or switched off. -/
theorem heater_other {l : Bool} {e : Env} {b b' : Box} {a : Option Act} (h : b.tick l e = some (b', a)) (hp : b.pc ≠ .imu) :
    (b'.hw.heaterPwm = b.hw.heaterPwm ∧ b'.hw.heaterOn = b.hw.heaterOn) ∨ b'.hw.heaterPwm = 0 := by
  have hnd : Hw.devices.Nodup := List.nodup_range
  have hmem : 18 ∈ Hw.devices := List.mem_range.2 (by decide)
  have dev : ∀ {h1 h2 : Hw}, Spec.device h1 18 = Spec.device h2 18 → h1.heaterPwm = h2.heaterPwm ∧ h1.heaterOn = h2.heaterOn := by
    intro h1 h2 hd
    simp [Spec.device] at hd
    exact ⟨hd.2, hd.1⟩
  have offs : ∀ {h1 : Hw}, Spec.notDriven (Spec.device h1 18) → h1.heaterPwm = 0 := by
    intro h1 hd
    exact hd _ (by simp [Spec.device])
  unfold Box.tick at h
  cases hc : b.pc <;> rw [hc] at h
  case imu => exact absurd hc hp
  case mtrAct =>
    simp only [Option.some.injEq, Prod.mk.injEq] at h
    obtain ⟨rfl, rfl⟩ := h
    have := mtrActuate_other l b.hw b.lmode b.lcmd b.regs.mtrLimit
    left
    simp only
    simp_all
  case rwaCheck =>
    by_cases hf : b.regs.rwaFlg = 0
    · simp only [if_pos hf] at h
      cases hw : b.hw.rwaActuate e b.lmode b.lcmd with
      | none => rw [hw] at h; simp at h
      | some w =>
        rw [hw] at h
        simp only [Option.map_some, Option.some.injEq, Prod.mk.injEq] at h
        obtain ⟨rfl, rfl⟩ := h
        have := Hw.rwaActuate_wheels hw
        left
        simp only
        simp_all
    · simp only [if_neg hf, Option.some.injEq, Prod.mk.injEq] at h
      obtain ⟨rfl, rfl⟩ := h
      exact Or.inl ⟨rfl, rfl⟩
  case resetCheck =>
    by_cases hf : b.regs.resetFlg = 0
    · simp only [if_pos hf, Option.some.injEq, Prod.mk.injEq] at h
      obtain ⟨rfl, rfl⟩ := h
      obtain ⟨k1, k2⟩ := Hw.execReset_spec e b.ltable 18 Hw.devices b.hw hnd
      by_cases hb : b.ltable.getLsbD 18 = true
      · exact Or.inr (offs (k1 hmem hb).2)
      · exact Or.inl (dev (k2 (Or.inr (by simpa using hb))))
    · simp only [if_neg hf, Option.some.injEq, Prod.mk.injEq] at h
      obtain ⟨rfl, rfl⟩ := h
      exact Or.inl ⟨rfl, rfl⟩
  case disableCheck =>
    by_cases hf : b.regs.disableFlg = 0
    · simp only [if_pos hf, Option.some.injEq, Prod.mk.injEq] at h
      obtain ⟨rfl, rfl⟩ := h
      obtain ⟨k1, k2⟩ := Hw.execDisable_spec e b.ltable 18 Hw.devices b.hw hnd
      by_cases hb : b.ltable.getLsbD 18 = true
      · exact Or.inr (offs (k1 hmem hb).2)
      · exact Or.inl (dev (k2 (Or.inr (by simpa using hb))))
    · simp only [if_neg hf, Option.some.injEq, Prod.mk.injEq] at h
      obtain ⟨rfl, rfl⟩ := h
      exact Or.inl ⟨rfl, rfl⟩
  all_goals
    simp only [Option.some.injEq, Prod.mk.injEq] at h
    obtain ⟨rfl, rfl⟩ := h
    exact Or.inl ⟨rfl, rfl⟩

/-- A step without news from the gyroscope and without orders for gyroscope and heater leaves both alone. -/
theorem heater_quiet {l : Bool} {e : Env} {b b' : Box} {a : Option Act} (h : b.tick l e = some (b', a))
    (hh : b.hw.heaterOn = true) (hs : b.hw.sensor 0 = true) (hg : e.gyr = none) (ha : e.alive 0 = true)
    (ho : ∀ t, (a = some (.reset t) ∨ a = some (.disable t)) → t.getLsbD 0 = false ∧ t.getLsbD 18 = false) :
    b'.hw.heaterPwm = b.hw.heaterPwm ∧ b'.hw.heaterOn = true ∧ b'.hw.sensor 0 = true := by
  have hnd : Hw.devices.Nodup := List.nodup_range
  have dev : ∀ {h1 h2 : Hw}, Spec.device h1 18 = Spec.device h2 18 → h1.heaterPwm = h2.heaterPwm ∧ h1.heaterOn = h2.heaterOn := by
    intro h1 h2 hd
    simp [Spec.device] at hd
    exact ⟨hd.2, hd.1⟩
  have dev0 : ∀ {h1 h2 : Hw}, Spec.device h1 0 = Spec.device h2 0 → h1.sensor 0 = h2.sensor 0 := by
    intro h1 h2 hd
    simpa [Spec.device] using hd
  unfold Box.tick at h
  cases hc : b.pc <;> rw [hc] at h
  case imu =>
    simp only [Option.some.injEq, Prod.mk.injEq] at h
    obtain ⟨rfl, rfl⟩ := h
    simp [Hw.heater, hh, hs, hg, ha]
  case mtrAct =>
    simp only [Option.some.injEq, Prod.mk.injEq] at h
    obtain ⟨rfl, rfl⟩ := h
    obtain ⟨_, _, k1, k2, k3⟩ := mtrActuate_other l b.hw b.lmode b.lcmd b.regs.mtrLimit
    exact ⟨k2, k1.trans hh, (congrFun k3 0).trans hs⟩
  case rwaCheck =>
    by_cases hf : b.regs.rwaFlg = 0
    · simp only [if_pos hf] at h
      cases hw : b.hw.rwaActuate e b.lmode b.lcmd with
      | none => rw [hw] at h; simp at h
      | some w =>
        rw [hw] at h
        simp only [Option.map_some, Option.some.injEq, Prod.mk.injEq] at h
        obtain ⟨rfl, rfl⟩ := h
        obtain ⟨_, _, _, _, k1, k2, k3, _⟩ := Hw.rwaActuate_wheels hw
        exact ⟨k2, k1.trans hh, (congrFun k3 0).trans hs⟩
    · simp only [if_neg hf, Option.some.injEq, Prod.mk.injEq] at h
      obtain ⟨rfl, rfl⟩ := h
      exact ⟨rfl, hh, hs⟩
  case resetCheck =>
    by_cases hf : b.regs.resetFlg = 0
    · simp only [if_pos hf, Option.some.injEq, Prod.mk.injEq] at h
      obtain ⟨rfl, rfl⟩ := h
      obtain ⟨o1, o2⟩ := ho _ (Or.inl rfl)
      have k := dev ((Hw.execReset_spec e b.ltable 18 Hw.devices b.hw hnd).2 (Or.inr o2))
      exact ⟨k.1, k.2.trans hh, (dev0 ((Hw.execReset_spec e b.ltable 0 Hw.devices b.hw hnd).2 (Or.inr o1))).trans hs⟩
    · simp only [if_neg hf, Option.some.injEq, Prod.mk.injEq] at h
      obtain ⟨rfl, rfl⟩ := h
      exact ⟨rfl, hh, hs⟩
  case disableCheck =>
    by_cases hf : b.regs.disableFlg = 0
    · simp only [if_pos hf, Option.some.injEq, Prod.mk.injEq] at h
      obtain ⟨rfl, rfl⟩ := h
      obtain ⟨o1, o2⟩ := ho _ (Or.inr rfl)
      have k := dev ((Hw.execDisable_spec e b.ltable 18 Hw.devices b.hw hnd).2 (Or.inr o2))
      exact ⟨k.1, k.2.trans hh, (dev0 ((Hw.execDisable_spec e b.ltable 0 Hw.devices b.hw hnd).2 (Or.inr o1))).trans hs⟩
    · simp only [if_neg hf, Option.some.injEq, Prod.mk.injEq] at h
      obtain ⟨rfl, rfl⟩ := h
      exact ⟨rfl, hh, hs⟩
  all_goals
    simp only [Option.some.injEq, Prod.mk.injEq] at h
    obtain ⟨rfl, rfl⟩ := h
    exact ⟨rfl, hh, hs⟩

end ADCS

/-- C80: in every run from power-up, with any messages, readings and device failures: while the gyroscope heater is
driven, it is in service, the last temperature read was below the target commanded at that time, and it is driven with
the strength commanded at that time. -/
theorem C80_heater_on (leader pot : Bool) (sensors : ℕ → Bool) (evs : List Box.Ev) {b : Box} {acts : List Act}
    (hrun : Box.run leader (Box.boot pot sensors) evs = some (b, acts)) (hon : b.hw.heaterPwm ≠ 0) :
    b.hw.heaterOn = true ∧ ∃ v target p, (Spec.temperatures leader (Box.boot pot sensors) evs).getLast? = some (v, target, p) ∧
      v < target ∧ b.hw.heaterPwm = 128 * p.toNat := by
  induction evs using List.reverseRecOn generalizing b acts with
  | nil =>
    simp only [Box.run, Option.some.injEq, Prod.mk.injEq] at hrun
    obtain ⟨rfl, rfl⟩ := hrun
    exact absurd rfl hon
  | append_singleton evs ev ih =>
    obtain ⟨b1, acts1, a, h1, h2, rfl⟩ := Box.run_snoc hrun
    have ih := ih h1
    rw [temperatures_snoc evs ev h1]
    cases ev with
    | recv m =>
      simp only [Box.step, Option.some.injEq, Prod.mk.injEq] at h2
      obtain ⟨rfl, rfl⟩ := h2
      simpa [Spec.temperatures, Box.step] using ih hon
    | tick e =>
      have ht : Spec.temperatures leader b1 [.tick e] = if b1.pc = .imu ∧ b1.hw.sensor 0 = true ∧ e.alive 0 = true then
          (e.gyr.map fun v => (v, b1.regs.gyrDesired, b1.regs.gyrPwm)).toList else [] := by
        simp only [Spec.temperatures]
        cases b1.step leader (.tick e) <;> simp
      rw [ht]
      simp only [Box.step] at h2
      by_cases hp : b1.pc = .imu
      · unfold Box.tick at h2
        rw [hp] at h2
        simp only [Option.some.injEq, Prod.mk.injEq] at h2
        obtain ⟨rfl, rfl⟩ := h2
        unfold Hw.heater at hon ⊢
        by_cases hf : b1.hw.heaterOn = true
        · by_cases hs : (b1.hw.sensor 0 && e.alive 0) = true
          · cases hg : e.gyr with
            | none => simp [hf, hs, hg] at hon ⊢; simpa [hf] using ih hon
            | some v =>
              simp only [hf, hs, hg, Bool.not_true, Bool.false_eq_true, if_false, if_true] at hon ⊢
              rw [Bool.and_eq_true] at hs
              rw [if_pos ⟨hp, hs⟩]
              by_cases hv : b1.regs.gyrDesired ≤ v
              · rw [if_pos hv] at hon; exact absurd rfl hon
              · rw [if_neg hv]
                exact ⟨trivial, v, b1.regs.gyrDesired, b1.regs.gyrPwm, by simp, by linarith, by ring⟩
          · simp [hf, hs] at hon
        · simp [hf] at hon
      · rw [if_neg (fun h => hp h.1)]
        rcases heater_other h2 hp with ⟨h3, h4⟩ | h3
        · rw [h3] at hon
          rw [h3, h4]
          simpa using ih hon
        · exact absurd h3 hon

/-- C80: a temperature read is acted on at once: after the step that reads a temperature, a heater in service is driven
with the commanded strength if the temperature is below the target and not driven otherwise. -/
theorem C80_reading (leader : Bool) (b : Box) (e : Env) {v : ℚ} (hp : b.pc = .imu) (hh : b.hw.heaterOn = true)
    (hs : b.hw.sensor 0 = true) (ha : e.alive 0 = true) (hg : e.gyr = some v) :
    ∃ b', b.tick leader e = some (b', none) ∧
      b'.hw.heaterPwm = if v < b.regs.gyrDesired then 128 * b.regs.gyrPwm.toNat else 0 := by
  unfold Box.tick
  rw [hp]
  refine ⟨_, rfl, ?_⟩
  simp only [Hw.heater, hh, hs, ha, hg, Bool.and_true, Bool.not_true, Bool.false_eq_true, if_false, if_true]
  by_cases hv : v < b.regs.gyrDesired
  · rw [if_pos hv, if_neg (by linarith)]; push_cast; ring
  · rw [if_neg hv, if_pos (by linarith)]; simp

/-- C80: a gyroscope or heater out of service means no heating from the next `update_imu` on. -/
theorem C80_out_of_service (leader : Bool) (b : Box) (e : Env) (hp : b.pc = .imu)
    (h : b.hw.heaterOn = false ∨ b.hw.sensor 0 = false ∨ e.alive 0 = false) :
    ∃ b', b.tick leader e = some (b', none) ∧ b'.hw.heaterPwm = 0 := by
  unfold Box.tick
  rw [hp]
  refine ⟨_, rfl, ?_⟩
  unfold Hw.heater
  by_cases h1 : b.hw.heaterOn = true
  · have : (b.hw.sensor 0 && e.alive 0) = false := by
      rcases h with h | h | h
      · simp [h] at h1
      · simp [h]
      · simp [h]
    simp [h1, this]
  · simp [h1]

/-- C80, refuted as a safety property: a heater that is on stays on with the same strength for as long as the gyroscope
answers but has no new data, however long that is and whatever target temperature is commanded meanwhile. -/
theorem C80_stuck (leader : Bool) (b : Box) (evs : List Box.Ev) {b' : Box} {acts : List Act}
    (hrun : Box.run leader b evs = some (b', acts)) (hh : b.hw.heaterOn = true) (hs : b.hw.sensor 0 = true)
    (he : ∀ e, Box.Ev.tick e ∈ evs → e.gyr = none ∧ e.alive 0 = true)
    (ho : ∀ t, (Act.reset t ∈ acts ∨ Act.disable t ∈ acts) → t.getLsbD 0 = false ∧ t.getLsbD 18 = false) :
    b'.hw.heaterPwm = b.hw.heaterPwm := by
  suffices H : b'.hw.heaterPwm = b.hw.heaterPwm ∧ b'.hw.heaterOn = true ∧ b'.hw.sensor 0 = true from H.1
  induction evs using List.reverseRecOn generalizing b' acts with
  | nil =>
    simp only [Box.run, Option.some.injEq, Prod.mk.injEq] at hrun
    obtain ⟨rfl, rfl⟩ := hrun
    exact ⟨rfl, hh, hs⟩
  | append_singleton evs ev ih =>
    obtain ⟨b1, acts1, a, h1, h2, rfl⟩ := Box.run_snoc hrun
    obtain ⟨i1, i2, i3⟩ := ih h1 (fun e hm => he e (by simp [hm])) (fun t hm => ho t (by
      rcases hm with hm | hm
      · exact Or.inl (List.mem_append_left _ hm)
      · exact Or.inr (List.mem_append_left _ hm)))
    cases ev with
    | recv m =>
      simp only [Box.step, Option.some.injEq, Prod.mk.injEq] at h2
      obtain ⟨rfl, rfl⟩ := h2
      exact ⟨i1, i2, i3⟩
    | tick e =>
      obtain ⟨e1, e2⟩ := he e (by simp)
      obtain ⟨k1, k2, k3⟩ := heater_quiet h2 i2 i3 e1 e2 (fun t ht => ho t (by
        rcases ht with rfl | rfl
        · exact Or.inl (by simp)
        · exact Or.inr (by simp)))
      exact ⟨k1.trans i1, k2, k3⟩

/-- Non-vacuity of `C80_heater_on`, `C80_reading`, `C80_out_of_service`, `C80_stuck`: with the target set to the top of its
range a reading of 20 degrees switches the heater on; then the gyroscope goes quiet for a step of every kind. -/
private def exEnv (g : Option ℚ) (a : Bool) : Env := ⟨true, true, fun _ => true, fun _ => a, g, 0, V3.zero⟩

example : (Box.run true (Box.boot true fun _ => true) [.recv [26, 255], .tick (exEnv (some 20) true)]).map
    (fun r => decide (r.1.hw.heaterPwm ≠ 0 ∧ r.1.pc = .mtrActive)) = some true := by decide +kernel
example : (Box.run true (Box.boot true fun _ => true) ([.recv [26, 255], .tick (exEnv (some 20) true)] ++
    (List.replicate 30 (.tick (exEnv none true))))).map (fun r => decide (r.1.hw.heaterPwm = 128 * 117 ∧ r.1.hw.heaterOn = true)) =
    some true := by decide +kernel
example : (Box.run true (Box.boot true fun _ => true) [.recv [26, 255], .tick (exEnv (some 20) false)]).map
    (fun r => decide (r.1.hw.heaterPwm = 0)) = some true := by decide +kernel

/-- Non-vacuity of `C81_torque` and `C81_speed_never_reverses`. -/
example : ((Box.boot true fun _ => true).hw.rwaActuate (exEnv none true) 2 ⟨-1/1000, 0, 1/500⟩).map
    (fun h => decide (h.wheels.x.functional = true ∧ h.wheels.z.cw = true ∧ h.pot.chip.z ≠ 0)) = some true := by decide +kernel
example : |Spec.dot (Spec.wheelAxis 2) ⟨-1/1000, 0, 1/500⟩| ≤ maxTorque := by decide +kernel
example : |Spec.dot (Spec.wheelAxis 2) ⟨-100, 0, 0⟩| ≤ maxSpeedCmd := by decide +kernel

end PAN
