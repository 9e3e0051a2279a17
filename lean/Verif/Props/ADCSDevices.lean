import Verif.Props.ADCSActuation
import Verif.Model.ADCSFlight
/-!
Theorems about taking devices of the attitude control box out of service and bringing them back: C77 (what an order
does to the devices), C51 (how orders get from the flight computer's fields to the devices).
-/
namespace PAN

namespace Spec
open ADCS

/-- A device as seen from outside: whether it is in service, and what drives it: for a rod the two PWM values, for a
wheel its two direction pins, for the heater its PWM value. The potentiometer and the sensors drive nothing. -/
def device (h : Hw) (i : ℕ) : Bool × List ℤ :=
  if i = 3 then (h.rods.x.functional, [h.rods.x.fwd, h.rods.x.rev])
  else if i = 4 then (h.rods.y.functional, [h.rods.y.fwd, h.rods.y.rev])
  else if i = 5 then (h.rods.z.functional, [h.rods.z.fwd, h.rods.z.rev])
  else if i = 6 then (h.pot.functional, [])
  else if i = 7 then (h.wheels.x.functional, [h.wheels.x.cw.toInt, h.wheels.x.ccw.toInt])
  else if i = 8 then (h.wheels.y.functional, [h.wheels.y.cw.toInt, h.wheels.y.ccw.toInt])
  else if i = 9 then (h.wheels.z.functional, [h.wheels.z.cw.toInt, h.wheels.z.ccw.toInt])
  else if i = 18 then (h.heaterOn, [h.heaterPwm])
  else (h.sensor i, [])

/-- Not driven in any direction. -/
def notDriven (d : Bool × List ℤ) : Prop := ∀ x ∈ d.2, x = 0

/-- Out of service and not driven. -/
def off (h : Hw) (i : ℕ) : Prop := (device h i).1 = false ∧ notDriven (device h i)

/-- Rods, wheels and the heater: devices the box cannot lose contact with. -/
def dumb : List ℕ := [3, 4, 5, 7, 8, 9, 18]

/-- The last order for a device among those carried out: `true` for a reset, `false` for taking it out of service. -/
def lastOrder (i : ℕ) (acts : List Act) : Option Bool :=
  acts.foldl (fun o a => match a with
    | .reset t => if t.getLsbD i then some true else o
    | .disable t => if t.getLsbD i then some false else o
    | _ => o) none

end Spec

namespace ADCS
namespace Hw

/-- The devices of the table are the eight with outputs and the rest. -/
theorem dev_cases (j : ℕ) : j = 3 ∨ j = 4 ∨ j = 5 ∨ j = 6 ∨ j = 7 ∨ j = 8 ∨ j = 9 ∨ j = 18 ∨
    (j ≠ 3 ∧ j ≠ 4 ∧ j ≠ 5 ∧ j ≠ 6 ∧ j ≠ 7 ∧ j ≠ 8 ∧ j ≠ 9 ∧ j ≠ 18) := by omega

theorem resetDev_sensor (e : Env) (h : Hw) {j : ℕ}
    (hj : j ≠ 3 ∧ j ≠ 4 ∧ j ≠ 5 ∧ j ≠ 6 ∧ j ≠ 7 ∧ j ≠ 8 ∧ j ≠ 9 ∧ j ≠ 18) :
    h.resetDev e j = { h with sensor := fun k => if k = j then e.resetOk j else h.sensor k } := by
  obtain ⟨h3, h4, h5, h6, h7, h8, h9, h18⟩ := hj
  unfold resetDev
  rw [if_neg h3, if_neg h4, if_neg h5, if_neg h6, if_neg h7, if_neg h8, if_neg h9, if_neg h18]

theorem disableDev_sensor (e : Env) (h : Hw) {j : ℕ}
    (hj : j ≠ 3 ∧ j ≠ 4 ∧ j ≠ 5 ∧ j ≠ 6 ∧ j ≠ 7 ∧ j ≠ 8 ∧ j ≠ 9 ∧ j ≠ 18) :
    h.disableDev e j = { h with sensor := fun k => if k = j then false else h.sensor k } := by
  obtain ⟨h3, h4, h5, h6, h7, h8, h9, h18⟩ := hj
  unfold disableDev
  rw [if_neg h3, if_neg h4, if_neg h5, if_neg h6, if_neg h7, if_neg h8, if_neg h9, if_neg h18]

theorem device_sensor (h : Hw) {j : ℕ} (hj : j ≠ 3 ∧ j ≠ 4 ∧ j ≠ 5 ∧ j ≠ 6 ∧ j ≠ 7 ∧ j ≠ 8 ∧ j ≠ 9 ∧ j ≠ 18) :
    Spec.device h j = (h.sensor j, []) := by
  obtain ⟨h3, h4, h5, h6, h7, h8, h9, h18⟩ := hj
  unfold Spec.device
  rw [if_neg h3, if_neg h4, if_neg h5, if_neg h6, if_neg h7, if_neg h8, if_neg h9, if_neg h18]

theorem device_sensor_other (h : Hw) (s : ℕ → Bool) {i : ℕ} (hs : s i = h.sensor i) :
    Spec.device { h with sensor := s } i = Spec.device h i := by
  unfold Spec.device
  simp only [hs]

theorem resetDev_other (e : Env) (h : Hw) {i j : ℕ} (hij : i ≠ j) : Spec.device (h.resetDev e j) i = Spec.device h i := by
  rcases dev_cases j with rfl | rfl | rfl | rfl | rfl | rfl | rfl | rfl | hj
  all_goals first
    | (rw [resetDev_sensor e h hj]; exact device_sensor_other h _ (by simp only [if_neg hij]))
    | (unfold Spec.device; simp only [if_neg hij]; rfl)

theorem disableDev_other (e : Env) (h : Hw) {i j : ℕ} (hij : i ≠ j) :
    Spec.device (h.disableDev e j) i = Spec.device h i := by
  rcases dev_cases j with rfl | rfl | rfl | rfl | rfl | rfl | rfl | rfl | hj
  all_goals first
    | (rw [disableDev_sensor e h hj]; exact device_sensor_other h _ (by simp only [if_neg hij]))
    | (unfold Spec.device; simp only [if_neg hij]; rfl)

theorem disableDev_same (e : Env) (h : Hw) (i : ℕ) : Spec.off (h.disableDev e i) i := by
  unfold Spec.off Spec.notDriven
  rcases dev_cases i with rfl | rfl | rfl | rfl | rfl | rfl | rfl | rfl | hj
  all_goals first
    | (rw [disableDev_sensor e h hj, device_sensor _ hj]; simp)
    | (simp [Spec.device, disableDev, Rod.disable, Rod.actuate, Wheel.disable, Wheel.stop, potDisable])

theorem resetDev_same (e : Env) (h : Hw) (i : ℕ) :
    (Spec.device (h.resetDev e i) i).1 = (if i ∈ Spec.dumb then true else if i = 6 then e.potOk else e.resetOk i) ∧
    Spec.notDriven (Spec.device (h.resetDev e i) i) := by
  unfold Spec.notDriven Spec.dumb
  rcases dev_cases i with rfl | rfl | rfl | rfl | rfl | rfl | rfl | rfl | hj
  all_goals first
    | (rw [resetDev_sensor e h hj, device_sensor _ hj]; simp [hj])
    | (simp [Spec.device, resetDev, Rod.reset, Rod.actuate, Wheel.reset, Wheel.stop]; done)
    | (simp [Spec.device, resetDev, potReset]; split <;> simp_all)

theorem execDisable_spec (e : Env) (t : BitVec 32) (i : ℕ) : ∀ (l : List ℕ) (h : Hw), l.Nodup →
    (i ∈ l → t.getLsbD i = true → Spec.off (h.execDisable e t l) i) ∧
    (i ∉ l ∨ t.getLsbD i = false → Spec.device (h.execDisable e t l) i = Spec.device h i) := by
  intro l
  induction l with
  | nil => intro h _; exact ⟨by simp, fun _ => rfl⟩
  | cons j l ih =>
    intro h hn
    obtain ⟨hj, hl⟩ := List.nodup_cons.1 hn
    simp only [execDisable]
    obtain ⟨ih1, ih2⟩ := ih (if t.getLsbD j then disableDev e h j else h) hl
    constructor
    · intro hi ht
      by_cases hij : i = j
      · subst hij
        have := ih2 (Or.inl hj)
        unfold Spec.off
        rw [this, if_pos ht]
        exact disableDev_same e h i
      · exact ih1 (by simpa [hij] using hi) ht
    · intro hi
      rw [ih2 (hi.imp_left fun h' h2 => h' (by simp [h2]))]
      by_cases hij : i = j
      · subst hij
        rw [if_neg]
        rcases hi with hi | hi
        · exact absurd (by simp) hi
        · simp [hi]
      · split
        · exact disableDev_other e h hij
        · rfl

theorem execReset_spec (e : Env) (t : BitVec 32) (i : ℕ) : ∀ (l : List ℕ) (h : Hw), l.Nodup →
    (i ∈ l → t.getLsbD i = true →
      (Spec.device (h.execReset e t l) i).1 =
        (if i ∈ Spec.dumb then true else if i = 6 then e.potOk else e.resetOk i) ∧
      Spec.notDriven (Spec.device (h.execReset e t l) i)) ∧
    (i ∉ l ∨ t.getLsbD i = false → Spec.device (h.execReset e t l) i = Spec.device h i) := by
  intro l
  induction l with
  | nil => intro h _; exact ⟨by simp, fun _ => rfl⟩
  | cons j l ih =>
    intro h hn
    obtain ⟨hj, hl⟩ := List.nodup_cons.1 hn
    simp only [execReset]
    obtain ⟨ih1, ih2⟩ := ih (if t.getLsbD j then resetDev e h j else h) hl
    constructor
    · intro hi ht
      by_cases hij : i = j
      · subst hij
        rw [ih2 (Or.inl hj), if_pos ht]
        exact resetDev_same e h i
      · exact ih1 (by simpa [hij] using hi) ht
    · intro hi
      rw [ih2 (hi.imp_left fun h' h2 => h' (by simp [h2]))]
      by_cases hij : i = j
      · subst hij
        rw [if_neg]
        rcases hi with hi | hi
        · exact absurd (by simp) hi
        · simp [hi]
      · split
        · exact resetDev_other e h hij
        · rfl

theorem driveRod_off (m lim : ℚ) {r : Rod} (h : r.functional = false) : driveRod m lim r = r := by
  unfold driveRod; simp [h]
theorem idleRod_off {r : Rod} (h : r.functional = false) : idleRod r = r := by
  unfold idleRod; simp [h]
theorem driveRod_fun (m lim : ℚ) (r : Rod) : (driveRod m lim r).functional = r.functional := by
  unfold driveRod Rod.actuate; split_ifs <;> rfl
theorem idleRod_fun (r : Rod) : (idleRod r).functional = r.functional := by
  unfold idleRod Rod.actuate; split_ifs <;> rfl

theorem mtrActuate_dev (l : Bool) (h : Hw) (m : U8) (c : V3 ℚ) (lim : ℚ) (i : ℕ) :
    (Spec.device (h.mtrActuate l m c lim) i).1 = (Spec.device h i).1 ∧
    ((Spec.device h i).1 = false → Spec.device (h.mtrActuate l m c lim) i = Spec.device h i) := by
  unfold Hw.mtrActuate
  split
  all_goals
    rcases dev_cases i with rfl | rfl | rfl | rfl | rfl | rfl | rfl | rfl | hj
    all_goals first
      | (rw [device_sensor _ hj, device_sensor _ hj]; exact ⟨rfl, fun _ => rfl⟩)
      | exact ⟨rfl, fun _ => rfl⟩
      | (simp only [Spec.device, Nat.reduceEqDiff, ↓reduceIte, V3.map]
         exact ⟨by first | exact idleRod_fun _ | exact driveRod_fun _ _ _,
           fun hf => by first | rw [idleRod_off hf] | rw [driveRod_off _ _ hf]⟩)

theorem heater_dev (h : Hw) (g : Bool) (t : Option ℚ) (d : ℚ) (p : U8) (i : ℕ) :
    (Spec.device (h.heater g t d p) i).1 = (Spec.device h i).1 ∧
    (Spec.off h i → Spec.device (h.heater g t d p) i = Spec.device h i) := by
  obtain ⟨a1, a2, a3, a4, a5⟩ := heater_rods h g t d p
  by_cases hi : i = 18
  · subst hi
    unfold Spec.off Spec.notDriven
    simp only [Spec.device, Nat.reduceEqDiff, ↓reduceIte, a4, true_and, List.mem_singleton, forall_eq, and_imp]
    intro h0 h1
    rw [Prod.mk.injEq]
    refine ⟨rfl, ?_⟩
    unfold Hw.heater
    simp [h0, h1]
  · have : Spec.device (h.heater g t d p) i = Spec.device h i := by
      unfold Spec.device
      rw [a1, a2, a3, a5]
      simp [hi]
    rw [this]; exact ⟨rfl, fun _ => rfl⟩

theorem torqueWheel_pins {t : ℚ} {w w' : Wheel} (h : torqueWheel t w = some w') :
    w'.functional = w.functional ∧ w'.cw = w.cw ∧ w'.ccw = w.ccw := by
  unfold torqueWheel at h
  split at h
  · cases hu : uc t 0 maxTorque with
    | none => rw [hu] at h; simp at h
    | some r => rw [hu] at h; simp at h; subst h; exact ⟨rfl, rfl, rfl⟩
  · cases hu : uc (-t) 0 maxTorque with
    | none => rw [hu] at h; simp at h
    | some r => rw [hu] at h; simp at h; subst h; exact ⟨rfl, rfl, rfl⟩

theorem speedWheel_off (s : ℚ) (w : Wheel) : (speedWheel s w).functional = w.functional ∧
    (speedWheel s w).cw = w.cw ∧ (speedWheel s w).ccw = w.ccw := by
  unfold speedWheel; split <;> exact ⟨rfl, rfl, rfl⟩

theorem actWheel_fun (w : Wheel) : (actWheel w).functional = w.functional := by
  unfold actWheel Wheel.actuate; split_ifs <;> rfl
theorem actWheel_off {w : Wheel} (h : w.functional = false) : actWheel w = w := by
  unfold actWheel; simp [h]
theorem stopWheel_fun (w : Wheel) : (stopWheel w).functional = w.functional := by
  unfold stopWheel Wheel.stop; split_ifs <;> rfl
theorem stopWheel_off {w : Wheel} (h : w.functional = false) : stopWheel w = w := by
  unfold stopWheel; simp [h]
theorem writeRdac_off (e : Env) {p : Pot} (h : p.functional = false) : (writeRdac e p).functional = false := by
  unfold writeRdac; split <;> simp [h]

/-- `w'` is in service like `w`, and its pins are those of `w` if it is not. -/
def Keeps (w w' : Wheel) : Prop :=
  w'.functional = w.functional ∧ (w.functional = false → w'.cw = w.cw ∧ w'.ccw = w.ccw)

theorem keeps_act {w w' : Wheel} (h : w'.functional = w.functional ∧ w'.cw = w.cw ∧ w'.ccw = w.ccw) :
    Keeps w (actWheel w') :=
  ⟨by rw [actWheel_fun]; exact h.1, fun hf => by rw [actWheel_off (h.1.trans hf)]; exact h.2⟩

theorem keeps_stop (w : Wheel) : Keeps w (stopWheel w) :=
  ⟨stopWheel_fun w, fun hf => by rw [stopWheel_off hf]; exact ⟨rfl, rfl⟩⟩

theorem keeps_refl (w : Wheel) : Keeps w w := ⟨rfl, fun _ => ⟨rfl, rfl⟩⟩

/-- The devices after an actuation of the wheels. -/
theorem rwaActuate_wheels {e : Env} {h h' : Hw} {m : U8} {c : V3 ℚ} (ha : h.rwaActuate e m c = some h') :
    Keeps h.wheels.x h'.wheels.x ∧ Keeps h.wheels.y h'.wheels.y ∧ Keeps h.wheels.z h'.wheels.z ∧
    h'.rods = h.rods ∧ h'.heaterOn = h.heaterOn ∧ h'.heaterPwm = h.heaterPwm ∧ h'.sensor = h.sensor ∧
    (h.pot.functional = false → h'.pot.functional = false) := by
  unfold Hw.rwaActuate at ha
  by_cases h2 : m = 2
  · simp only [if_pos h2] at ha
    by_cases hp : (!h.pot.functional) = true
    · simp only [if_pos hp, Option.some.injEq] at ha
      subst ha
      exact ⟨keeps_refl _, keeps_refl _, keeps_refl _, rfl, rfl, rfl, rfl, id⟩
    · simp only [if_neg hp] at ha
      cases hx : torqueWheel (bodyToRwa c).x h.wheels.x with
      | none => rw [hx] at ha; simp at ha
      | some a =>
      cases hy : torqueWheel (bodyToRwa c).y h.wheels.y with
      | none => rw [hx, hy] at ha; simp at ha
      | some b =>
      cases hz : torqueWheel (bodyToRwa c).z h.wheels.z with
      | none => rw [hx, hy, hz] at ha; simp at ha
      | some d =>
        rw [hx, hy, hz] at ha
        simp only [Option.some.injEq] at ha
        subst ha
        exact ⟨keeps_act (torqueWheel_pins hx), keeps_act (torqueWheel_pins hy), keeps_act (torqueWheel_pins hz),
          rfl, rfl, rfl, rfl, fun hf => absurd (by simp [hf]) hp⟩
  · simp only [if_neg h2] at ha
    by_cases h1 : m = 1
    · simp only [if_pos h1, Option.some.injEq] at ha
      subst ha
      exact ⟨keeps_act (speedWheel_off _ _), keeps_act (speedWheel_off _ _), keeps_act (speedWheel_off _ _),
        rfl, rfl, rfl, rfl, fun hf => by simp [setRdac, hf]⟩
    · simp only [if_neg h1, Option.some.injEq] at ha
      subst ha
      exact ⟨keeps_stop _, keeps_stop _, keeps_stop _, rfl, rfl, rfl, rfl, id⟩

theorem rwaActuate_dev {e : Env} {h h' : Hw} {m : U8} {c : V3 ℚ} (ha : h.rwaActuate e m c = some h') (i : ℕ) :
    (i ∈ Spec.dumb → (Spec.device h' i).1 = (Spec.device h i).1) ∧
    ((Spec.device h i).1 = false → Spec.device h' i = Spec.device h i) := by
  obtain ⟨w0, w1, w2, a1, a2, a3, a4, a5⟩ := rwaActuate_wheels ha
  unfold Keeps at w0 w1 w2
  unfold Spec.device Spec.dumb
  rw [a1, a2, a3, a4]
  constructor
  · intro hd
    simp only [List.mem_cons, List.not_mem_nil, or_false] at hd
    rcases hd with rfl | rfl | rfl | rfl | rfl | rfl | rfl <;> simp_all
  · rcases dev_cases i with rfl | rfl | rfl | rfl | rfl | rfl | rfl | rfl | hj
    all_goals first
      | (simp [hj])
      | (intro hf; simp_all)

end Hw

/-- What a step of the main loop does to a device: nothing while it is out of service, unless it is ordered back. -/
theorem tick_dev {l : Bool} {e : Env} {b b' : Box} {a : Option Act} (h : b.tick l e = some (b', a)) {i : ℕ}
    (hi : i < 19) :
    (Spec.off b.hw i → (∀ t, a = some (.reset t) → t.getLsbD i = false) → Spec.off b'.hw i) ∧
    (∀ t, a = some (.disable t) → t.getLsbD i = true → Spec.off b'.hw i) ∧
    (∀ t, a = some (.reset t) → t.getLsbD i = true →
      (Spec.device b'.hw i).1 = (if i ∈ Spec.dumb then true else if i = 6 then e.potOk else e.resetOk i) ∧
      Spec.notDriven (Spec.device b'.hw i)) ∧
    (i ∈ Spec.dumb → (∀ t, a = some (.reset t) ∨ a = some (.disable t) → t.getLsbD i = false) →
      (Spec.device b'.hw i).1 = (Spec.device b.hw i).1) := by
  have hmem : i ∈ Hw.devices := List.mem_range.2 hi
  have hnd : Hw.devices.Nodup := List.nodup_range
  unfold Box.tick at h
  cases hp : b.pc <;> rw [hp] at h
  case imu =>
    simp only [Option.some.injEq, Prod.mk.injEq] at h
    obtain ⟨rfl, rfl⟩ := h
    refine ⟨fun ho _ => ?_, nofun, nofun, fun hd _ => ?_⟩
    · have key : Spec.off { b.hw with sensor := fun i => b.hw.sensor i && e.alive i } i := by
        rcases Hw.dev_cases i with rfl | rfl | rfl | rfl | rfl | rfl | rfl | rfl | hj
        all_goals first
          | exact ho
          | (unfold Spec.off Spec.notDriven at ho ⊢
             rw [Hw.device_sensor _ hj] at ho ⊢
             simp only at ho
             simp [ho.1])
      have := (Hw.heater_dev _ (b.hw.sensor 0 && e.alive 0)
        (if (b.hw.sensor 0 && e.alive 0) = true then e.gyr else none) b.regs.gyrDesired b.regs.gyrPwm i).2 key
      show Spec.off (Hw.heater _ _ _ _ _) i
      unfold Spec.off
      rw [this]; exact key
    · show (Spec.device (Hw.heater _ _ _ _ _) i).1 = _
      rw [(Hw.heater_dev _ _ _ _ _ i).1]
      unfold Spec.dumb at hd
      simp only [List.mem_cons, List.not_mem_nil, or_false] at hd
      rcases hd with rfl | rfl | rfl | rfl | rfl | rfl | rfl <;> rfl
  case mtrAct =>
    simp only [Option.some.injEq, Prod.mk.injEq] at h
    obtain ⟨rfl, rfl⟩ := h
    obtain ⟨k1, k2⟩ := Hw.mtrActuate_dev l b.hw b.lmode b.lcmd b.regs.mtrLimit i
    refine ⟨fun ho _ => ?_, nofun, nofun, fun hd _ => k1⟩
    unfold Spec.off; simp only [k2 ho.1]; exact ho
  case rwaCheck =>
    by_cases hf : b.regs.rwaFlg = 0
    · simp only [if_pos hf] at h
      cases hw : b.hw.rwaActuate e b.lmode b.lcmd with
      | none => rw [hw] at h; simp at h
      | some w =>
        rw [hw] at h
        simp only [Option.map_some, Option.some.injEq, Prod.mk.injEq] at h
        obtain ⟨rfl, rfl⟩ := h
        obtain ⟨k1, k2⟩ := Hw.rwaActuate_dev hw i
        refine ⟨fun ho _ => ?_, nofun, nofun, fun hd _ => k1 hd⟩
        unfold Spec.off; simp only [k2 ho.1]; exact ho
    · simp only [if_neg hf, Option.some.injEq, Prod.mk.injEq] at h
      obtain ⟨rfl, rfl⟩ := h
      exact ⟨fun ho _ => ho, nofun, nofun, fun _ _ => rfl⟩
  case resetCheck =>
    by_cases hf : b.regs.resetFlg = 0
    · simp only [if_pos hf, Option.some.injEq, Prod.mk.injEq] at h
      obtain ⟨rfl, rfl⟩ := h
      obtain ⟨k1, k2⟩ := Hw.execReset_spec e b.ltable i Hw.devices b.hw hnd
      refine ⟨fun ho ht => ?_, nofun, ?_, fun _ ht => ?_⟩
      · unfold Spec.off; simp only [k2 (Or.inr (ht _ rfl))]; exact ho
      · rintro t ⟨⟩ ht; exact k1 hmem ht
      · simp only [k2 (Or.inr (ht _ (Or.inl rfl)))]
    · simp only [if_neg hf, Option.some.injEq, Prod.mk.injEq] at h
      obtain ⟨rfl, rfl⟩ := h
      exact ⟨fun ho _ => ho, nofun, nofun, fun _ _ => rfl⟩
  case disableCheck =>
    by_cases hf : b.regs.disableFlg = 0
    · simp only [if_pos hf, Option.some.injEq, Prod.mk.injEq] at h
      obtain ⟨rfl, rfl⟩ := h
      obtain ⟨k1, k2⟩ := Hw.execDisable_spec e b.ltable i Hw.devices b.hw hnd
      refine ⟨fun ho _ => ?_, ?_, nofun, fun _ ht => ?_⟩
      · by_cases hb : b.ltable.getLsbD i = true
        · exact k1 hmem hb
        · unfold Spec.off; simp only [k2 (Or.inr (by simpa using hb))]; exact ho
      · rintro t ⟨⟩ ht; exact k1 hmem ht
      · simp only [k2 (Or.inr (ht _ (Or.inr rfl)))]
    · simp only [if_neg hf, Option.some.injEq, Prod.mk.injEq] at h
      obtain ⟨rfl, rfl⟩ := h
      exact ⟨fun ho _ => ho, nofun, nofun, fun _ _ => rfl⟩
  all_goals
    simp only [Option.some.injEq, Prod.mk.injEq] at h
    obtain ⟨rfl, rfl⟩ := h
    exact ⟨fun ho _ => ho, nofun, nofun, fun _ _ => rfl⟩

theorem lastOrder_snoc (i : ℕ) (acts : List Act) (a : Option Act) : Spec.lastOrder i (acts ++ a.toList) =
    match a with
    | some (.reset t) => if t.getLsbD i then some true else Spec.lastOrder i acts
    | some (.disable t) => if t.getLsbD i then some false else Spec.lastOrder i acts
    | _ => Spec.lastOrder i acts := by
  unfold Spec.lastOrder
  rw [List.foldl_append]
  cases a with
  | none => rfl
  | some x => cases x <;> rfl

end ADCS
open ADCS

/-- C77: a device ordered out of service is out of service and not driven from then on, whatever else is commanded,
until it is ordered back: in every run, with any interleaving of messages and any behaviour of the hardware, a device
whose last order carried out was to go out of service is off at the end. The same holds for one that was off at the
start and has had no order since. -/
theorem C77_off_until_reset (leader : Bool) (b : Box) (evs : List Box.Ev) {b' : Box} {acts : List Act} {i : ℕ}
    (hi : i < 19) (hrun : Box.run leader b evs = some (b', acts))
    (h : Spec.lastOrder i acts = some false ∨ (Spec.lastOrder i acts = none ∧ Spec.off b.hw i)) : Spec.off b'.hw i := by
  induction evs using List.reverseRecOn generalizing b' acts with
  | nil =>
    simp only [Box.run, Option.some.injEq, Prod.mk.injEq] at hrun
    obtain ⟨rfl, rfl⟩ := hrun
    rcases h with h | h
    · cases h
    · exact h.2
  | append_singleton evs ev ih =>
    obtain ⟨b1, acts1, a, h1, h2, rfl⟩ := Box.run_snoc hrun
    have ih := ih h1
    rw [lastOrder_snoc] at h
    cases ev with
    | recv m =>
      simp only [Box.step, Option.some.injEq, Prod.mk.injEq] at h2
      obtain ⟨rfl, rfl⟩ := h2
      exact ih h
    | tick e =>
      obtain ⟨k1, k2, k3, _⟩ := tick_dev h2 hi
      match a, h with
      | some (.reset t), h =>
        by_cases ht : t.getLsbD i = true
        · simp only [if_pos ht] at h; rcases h with h | h
          · cases h
          · cases h.1
        · simp only [if_neg ht] at h
          exact k1 (ih h) (by rintro t' ⟨⟩; simpa using ht)
      | some (.disable t), h =>
        by_cases ht : t.getLsbD i = true
        · exact k2 t rfl ht
        · simp only [if_neg ht] at h
          exact k1 (ih h) nofun
      | some (.mtr _ _ _), h => exact k1 (ih h) nofun
      | some (.rwa _ _), h => exact k1 (ih h) nofun
      | none, h => exact k1 (ih h) nofun

theorem ADCS.Hw.resetDev_pot (e : ADCS.Env) (h : ADCS.Hw) (j : ℕ) :
    (h.resetDev e j).pot = if j = 6 then ADCS.Hw.potReset e h.pot else h.pot := by
  unfold ADCS.Hw.resetDev
  split_ifs <;> first | rfl | omega

theorem ADCS.Hw.disableDev_pot (e : ADCS.Env) (h : ADCS.Hw) (j : ℕ) :
    (h.disableDev e j).pot = if j = 6 then ADCS.Hw.potDisable e h.pot else h.pot := by
  unfold ADCS.Hw.disableDev
  split_ifs <;> first | rfl | omega

theorem ADCS.Hw.execReset_pot (e : ADCS.Env) (t : BitVec 32) : ∀ (l : List ℕ) (h : ADCS.Hw), l.Nodup →
    (h.execReset e t l).pot = if 6 ∈ l ∧ t.getLsbD 6 = true then ADCS.Hw.potReset e h.pot else h.pot
  | [], h, _ => by simp [ADCS.Hw.execReset]
  | j :: l, h, hn => by
    obtain ⟨hj, hl⟩ := List.nodup_cons.1 hn
    rw [ADCS.Hw.execReset, execReset_pot e t l _ hl]
    by_cases h6 : j = 6
    · subst h6
      rw [if_neg (fun h => hj h.1)]
      by_cases ht : t.getLsbD 6 = true
      · rw [if_pos ht, if_pos ⟨by simp, ht⟩, ADCS.Hw.resetDev_pot, if_pos rfl]
      · rw [if_neg ht, if_neg (fun h => ht h.2)]
    · have : (if t.getLsbD j = true then ADCS.Hw.resetDev e h j else h).pot = h.pot := by
        split
        · rw [ADCS.Hw.resetDev_pot, if_neg h6]
        · rfl
      rw [this]
      simp only [List.mem_cons, show ¬(6 = j) from fun h => h6 h.symm, false_or]

theorem ADCS.Hw.execDisable_pot (e : ADCS.Env) (t : BitVec 32) : ∀ (l : List ℕ) (h : ADCS.Hw), l.Nodup →
    (h.execDisable e t l).pot = if 6 ∈ l ∧ t.getLsbD 6 = true then ADCS.Hw.potDisable e h.pot else h.pot
  | [], h, _ => by simp [ADCS.Hw.execDisable]
  | j :: l, h, hn => by
    obtain ⟨hj, hl⟩ := List.nodup_cons.1 hn
    rw [ADCS.Hw.execDisable, execDisable_pot e t l _ hl]
    by_cases h6 : j = 6
    · subst h6
      rw [if_neg (fun h => hj h.1)]
      by_cases ht : t.getLsbD 6 = true
      · rw [if_pos ht, if_pos ⟨by simp, ht⟩, ADCS.Hw.disableDev_pot, if_pos rfl]
      · rw [if_neg ht, if_neg (fun h => ht h.2)]
    · have : (if t.getLsbD j = true then ADCS.Hw.disableDev e h j else h).pot = h.pot := by
        split
        · rw [ADCS.Hw.disableDev_pot, if_neg h6]
        · rfl
      rw [this]
      simp only [List.mem_cons, show ¬(6 = j) from fun h => h6 h.symm, false_or]

/-- C77: an order to the wheels' potentiometer, to go out of service or to come back, takes all torque from the three wheels: if
the chip can be reached, it is set to zero for each of them. -/
theorem C77_no_torque (leader : Bool) (e : ADCS.Env) (b b' : ADCS.Box) (t : BitVec 32) (h6 : t.getLsbD 6 = true)
    (hok : e.potOk = true) (a : ADCS.Act) (ha : a = .reset t ∨ a = .disable t) (h : b.tick leader e = some (b', some a)) :
    b'.hw.pot.chip = ⟨0, 0, 0⟩ := by
  have hnd : ADCS.Hw.devices.Nodup := List.nodup_range
  have hmem : 6 ∈ ADCS.Hw.devices := List.mem_range.2 (by norm_num)
  unfold ADCS.Box.tick at h
  cases hp : b.pc <;> rw [hp] at h <;> simp only [Option.some.injEq, Prod.mk.injEq, reduceCtorEq, and_false] at h
  case mtrAct => rcases ha with rfl | rfl <;> exact absurd h.2 (by simp)
  case rwaCheck =>
    split at h
    · rw [Option.map_eq_some_iff] at h
      obtain ⟨x, -, hx⟩ := h
      simp only [Prod.mk.injEq, Option.some.injEq] at hx
      rcases ha with rfl | rfl <;> exact absurd hx.2 (by simp)
    · simp at h
  case resetCheck =>
    split at h
    · simp only [Option.some.injEq, Prod.mk.injEq] at h
      obtain ⟨rfl, rfl⟩ := h
      rcases ha with ha | ha
      · simp only [ADCS.Act.reset.injEq] at ha
        subst ha
        simp only [ADCS.Hw.execReset_pot e _ _ _ hnd, if_pos (And.intro hmem h6), ADCS.Hw.potReset, hok]
        rfl
      · exact absurd ha (by simp)
    · simp at h
  case disableCheck =>
    split at h
    · simp only [Option.some.injEq, Prod.mk.injEq] at h
      obtain ⟨rfl, rfl⟩ := h
      rcases ha with ha | ha
      · exact absurd ha (by simp)
      · simp only [ADCS.Act.disable.injEq] at ha
        subst ha
        simp only [ADCS.Hw.execDisable_pot e _ _ _ hnd, if_pos (And.intro hmem h6), ADCS.Hw.potDisable, hok]
        rfl
    · simp at h

-- Such a step: the table with bit 6 is carried out.
example (leader : Bool) (e : ADCS.Env) :
    ((({ ADCS.Box.boot true (fun _ => true) with pc := .resetCheck, ltable := 64 } : ADCS.Box).tick leader e).map (·.2) =
      some (some (.reset 64))) ∧ (64 : BitVec 32).getLsbD 6 = true := ⟨rfl, by decide⟩

/-- C77: rods, wheels and the heater are in service exactly as last ordered, and as they were at the start if there was
no order since. -/
theorem C77_in_service (leader : Bool) (b : Box) (evs : List Box.Ev) {b' : Box} {acts : List Act} {i : ℕ}
    (hi : i ∈ Spec.dumb) (hrun : Box.run leader b evs = some (b', acts)) :
    (Spec.device b'.hw i).1 = (Spec.lastOrder i acts).getD (Spec.device b.hw i).1 := by
  have hi' : i < 19 := by
    unfold Spec.dumb at hi
    simp only [List.mem_cons, List.not_mem_nil, or_false] at hi
    omega
  induction evs using List.reverseRecOn generalizing b' acts with
  | nil =>
    simp only [Box.run, Option.some.injEq, Prod.mk.injEq] at hrun
    obtain ⟨rfl, rfl⟩ := hrun
    rfl
  | append_singleton evs ev ih =>
    obtain ⟨b1, acts1, a, h1, h2, rfl⟩ := Box.run_snoc hrun
    have ih := ih h1
    rw [lastOrder_snoc]
    cases ev with
    | recv m =>
      simp only [Box.step, Option.some.injEq, Prod.mk.injEq] at h2
      obtain ⟨rfl, rfl⟩ := h2
      exact ih
    | tick e =>
      obtain ⟨k1, k2, k3, k4⟩ := tick_dev h2 hi'
      match a with
      | some (.reset t) =>
        by_cases ht : t.getLsbD i = true
        · simp only [if_pos ht]; rw [(k3 t rfl ht).1, if_pos hi]; rfl
        · simp only [if_neg ht]; rw [← ih]
          exact k4 hi (by rintro t' (⟨⟨⟩⟩ | ⟨⟨⟩⟩); simpa using ht)
      | some (.disable t) =>
        by_cases ht : t.getLsbD i = true
        · simp only [if_pos ht]; rw [(k2 t rfl ht).1]; rfl
        · simp only [if_neg ht]; rw [← ih]
          exact k4 hi (by rintro t' (⟨⟨⟩⟩ | ⟨⟨⟩⟩); simpa using ht)
      | some (.mtr _ _ _) => rw [← ih]; exact k4 hi (by rintro t' (⟨⟨⟩⟩ | ⟨⟨⟩⟩))
      | some (.rwa _ _) => rw [← ih]; exact k4 hi (by rintro t' (⟨⟨⟩⟩ | ⟨⟨⟩⟩))
      | none => rw [← ih]; exact k4 hi (by rintro t' (⟨⟨⟩⟩ | ⟨⟨⟩⟩))

namespace Spec

/-- The reset tables carried out, in order. -/
def resets (acts : List Act) : List (BitVec 32) :=
  acts.filterMap fun a => match a with | .reset t => some t | _ => none

/-- The tables of devices taken out of service, in order. -/
def disables (acts : List Act) : List (BitVec 32) :=
  acts.filterMap fun a => match a with | .disable t => some t | _ => none

/-- The reset tables received, in order. -/
def resetMsgs (evs : List Box.Ev) : List (BitVec 32) :=
  evs.filterMap fun ev => match ev with | .recv m => resetIn m | .tick _ => none

/-- The tables of devices to be taken out of service received, in order. -/
def disableMsgs (evs : List Box.Ev) : List (BitVec 32) :=
  evs.filterMap fun ev => match ev with | .recv m => disableIn m | .tick _ => none

/-- No table is waiting or being carried out. -/
def noTable (b : Box) : Prop :=
  b.regs.resetFlg = 0 ∧ b.regs.disableFlg = 0 ∧
  b.pc ∉ [Pc.resetClear, .resetCopy, .resetCheck, .disableClear, .disableCopy, .disableCheck]

end Spec

namespace ADCS

/-- Position in the main loop. -/
def pos : Pc → ℕ
  | .imu => 0 | .mtrActive => 1 | .mtrFlag => 2 | .mtrClear => 3 | .mtrMode => 4 | .mtrX => 5 | .mtrY => 6 | .mtrZ => 7
  | .mtrCheck => 8 | .mtrAct => 9 | .rwaActive => 10 | .rwaFlag => 11 | .rwaClear => 12 | .rwaMode => 13 | .rwaX => 14
  | .rwaY => 15 | .rwaZ => 16 | .rwaCheck => 17 | .ssaCheck => 18 | .ssaStore => 19 | .havtRead => 20
  | .resetFlag => 21 | .resetClear => 22 | .resetCopy => 23 | .resetCheck => 24
  | .disableFlag => 25 | .disableClear => 26 | .disableCopy => 27 | .disableCheck => 28

/-- What a step of the main loop does to the part that handles the tables. -/
theorem tick_table {l : Bool} {e : Env} {b b' : Box} {a : Option Act} (h : b.tick l e = some (b', a)) :
    b'.regs.resetTable = b.regs.resetTable ∧ b'.regs.disableTable = b.regs.disableTable ∧
    b'.regs.resetFlg = (if b.pc = .resetClear then 0 else b.regs.resetFlg) ∧
    b'.regs.disableFlg = (if b.pc = .disableClear then 0 else b.regs.disableFlg) ∧
    b'.ltable = (if b.pc = .resetCopy then b.regs.resetTable else
      if b.pc = .disableCopy then b.regs.disableTable else b.ltable) ∧
    (pos b.pc < 21 → pos b.pc < pos b'.pc ∧ pos b'.pc ≤ 21) ∧
    (b.pc = .resetFlag → b'.pc = if b.regs.resetFlg = 1 then .resetClear else .disableFlag) ∧
    (b.pc = .resetClear → b'.pc = .resetCopy) ∧ (b.pc = .resetCopy → b'.pc = .resetCheck) ∧
    (b.pc = .resetCheck → b'.pc = .disableFlag) ∧
    (b.pc = .disableFlag → b'.pc = if b.regs.disableFlg = 1 then .disableClear else .imu) ∧
    (b.pc = .disableClear → b'.pc = .disableCopy) ∧ (b.pc = .disableCopy → b'.pc = .disableCheck) ∧
    (b.pc = .disableCheck → b'.pc = .imu) ∧
    (∀ t, a = some (.reset t) ↔ b.pc = .resetCheck ∧ b.regs.resetFlg = 0 ∧ t = b.ltable) ∧
    (∀ t, a = some (.disable t) ↔ b.pc = .disableCheck ∧ b.regs.disableFlg = 0 ∧ t = b.ltable) := by
  unfold Box.tick at h
  cases hp : b.pc <;> rw [hp] at h
  case resetCheck =>
    by_cases hf : b.regs.resetFlg = 0
    · simp only [if_pos hf, Option.some.injEq, Prod.mk.injEq] at h
      obtain ⟨rfl, rfl⟩ := h
      simp [pos, hf]
      exact fun t => eq_comm
    · simp only [if_neg hf, Option.some.injEq, Prod.mk.injEq] at h
      obtain ⟨rfl, rfl⟩ := h
      simp [pos]
      exact hf
  case disableCheck =>
    by_cases hf : b.regs.disableFlg = 0
    · simp only [if_pos hf, Option.some.injEq, Prod.mk.injEq] at h
      obtain ⟨rfl, rfl⟩ := h
      simp [pos, hf]
      exact fun t => eq_comm
    · simp only [if_neg hf, Option.some.injEq, Prod.mk.injEq] at h
      obtain ⟨rfl, rfl⟩ := h
      simp [pos]
      exact hf
  case rwaCheck =>
    by_cases hf : b.regs.rwaFlg = 0
    · simp only [if_pos hf] at h
      cases hw : b.hw.rwaActuate e b.lmode b.lcmd with
      | none => rw [hw] at h; simp at h
      | some w =>
        rw [hw] at h
        simp only [Option.map_some, Option.some.injEq, Prod.mk.injEq] at h
        obtain ⟨rfl, rfl⟩ := h
        simp [pos]
    · simp only [if_neg hf, Option.some.injEq, Prod.mk.injEq] at h
      obtain ⟨rfl, rfl⟩ := h
      simp [pos]
  case mtrActive | mtrFlag | mtrCheck | rwaActive | rwaFlag | ssaCheck =>
    simp only [Option.some.injEq, Prod.mk.injEq] at h
    obtain ⟨rfl, rfl⟩ := h
    refine ⟨rfl, rfl, by simp, by simp, by simp, fun _ => ?_, by simp, by simp, by simp, by simp, by simp, by simp,
      by simp, by simp, by simp, by simp⟩
    dsimp only
    split <;> decide
  all_goals
    simp only [Option.some.injEq, Prod.mk.injEq] at h
    obtain ⟨rfl, rfl⟩ := h
    simp [pos]

/-- A reset table is waiting or being carried out. -/
def PendR (t : BitVec 32) (b : Box) : Prop :=
  (b.regs.resetFlg = 1 ∧ b.regs.resetTable = t) ∨
  (b.regs.resetFlg = 0 ∧ b.regs.resetTable = t ∧ b.pc = .resetCopy) ∨
  (b.regs.resetFlg = 0 ∧ b.ltable = t ∧ b.pc = .resetCheck)

/-- No reset table is waiting or being carried out. -/
def QuietR (b : Box) : Prop := b.regs.resetFlg = 0 ∧ b.pc ∉ [Pc.resetClear, .resetCopy, .resetCheck]

/-- How many steps it can take at most until a waiting table is carried out. -/
def leftR (b : Box) : ℕ :=
  if b.regs.resetFlg = 0 then (if b.pc = .resetCopy then 2 else 1)
  else if b.pc = .resetClear then 3
  else if pos b.pc ≤ 21 then 25 - pos b.pc else 54 - pos b.pc

/-- A table of devices to take out of service is waiting or being carried out. -/
def PendD (t : BitVec 32) (b : Box) : Prop :=
  (b.regs.disableFlg = 1 ∧ b.regs.disableTable = t) ∨
  (b.regs.disableFlg = 0 ∧ b.regs.disableTable = t ∧ b.pc = .disableCopy) ∨
  (b.regs.disableFlg = 0 ∧ b.ltable = t ∧ b.pc = .disableCheck)

def QuietD (b : Box) : Prop := b.regs.disableFlg = 0 ∧ b.pc ∉ [Pc.disableClear, .disableCopy, .disableCheck]

def leftD (b : Box) : ℕ :=
  if b.regs.disableFlg = 0 then (if b.pc = .disableCopy then 2 else 1)
  else if b.pc = .disableClear then 3
  else if pos b.pc ≤ 25 then 29 - pos b.pc else 58 - pos b.pc

theorem pos_cases (p : Pc) : pos p < 21 ∨ p = .resetFlag ∨ p = .resetClear ∨ p = .resetCopy ∨ p = .resetCheck ∨
    p = .disableFlag ∨ p = .disableClear ∨ p = .disableCopy ∨ p = .disableCheck := by
  cases p <;> simp [pos]

theorem pos_lt_21 {p : Pc} (h : pos p < 21) : p ≠ .resetFlag ∧ p ≠ .resetClear ∧ p ≠ .resetCopy ∧ p ≠ .resetCheck ∧
    p ≠ .disableFlag ∧ p ≠ .disableClear ∧ p ≠ .disableCopy ∧ p ≠ .disableCheck := by
  refine ⟨?_, ?_, ?_, ?_, ?_, ?_, ?_, ?_⟩ <;> rintro rfl <;> simp [pos] at h

theorem pos_le_21 {p : Pc} (h : pos p ≤ 21) : p ≠ .resetClear ∧ p ≠ .resetCopy ∧ p ≠ .resetCheck ∧
    p ≠ .disableFlag ∧ p ≠ .disableClear ∧ p ≠ .disableCopy ∧ p ≠ .disableCheck := by
  refine ⟨?_, ?_, ?_, ?_, ?_, ?_, ?_⟩ <;> rintro rfl <;> simp [pos] at h

theorem quietR_tick {l : Bool} {e : Env} {b b' : Box} {a : Option Act} (hq : QuietR b)
    (h : b.tick l e = some (b', a)) : QuietR b' ∧ Spec.resets a.toList = [] := by
  obtain ⟨q1, q2⟩ := hq
  simp only [List.mem_cons, List.not_mem_nil, or_false, not_or] at q2
  obtain ⟨_, _, f1, _, _, p0, p1, _, _, _, p5, p6, p7, p8, a1, _⟩ := tick_table h
  rw [if_neg q2.1] at f1
  refine ⟨⟨f1.trans q1, ?_⟩, ?_⟩
  · simp only [List.mem_cons, List.not_mem_nil, or_false, not_or]
    rcases pos_cases b.pc with hp | hp | hp | hp | hp | hp | hp | hp | hp
    · have := pos_le_21 (p0 hp).2; exact ⟨this.1, this.2.1, this.2.2.1⟩
    · rw [p1 hp, if_neg (by rw [q1]; decide)]; decide
    · exact absurd hp q2.1
    · exact absurd hp q2.2.1
    · exact absurd hp q2.2.2
    · rw [p5 hp]; split <;> decide
    · rw [p6 hp]; decide
    · rw [p7 hp]; decide
    · rw [p8 hp]; decide
  · have : ∀ t, a ≠ some (.reset t) := fun t ht => q2.2.2 ((a1 t).1 ht).1
    match a, this with
    | none, _ => rfl
    | some (.mtr _ _ _), _ => rfl
    | some (.rwa _ _), _ => rfl
    | some (.disable _), _ => rfl
    | some (.reset t), h' => exact absurd rfl (h' t)

theorem pendR_tick {l : Bool} {e : Env} {b b' : Box} {a : Option Act} {t : BitVec 32} (hq : PendR t b)
    (h : b.tick l e = some (b', a)) :
    (PendR t b' ∧ Spec.resets a.toList = [] ∧ leftR b' + 1 ≤ leftR b) ∨ (QuietR b' ∧ Spec.resets a.toList = [t]) := by
  obtain ⟨t1, _, f1, _, lt, p0, p1, p2, p3, p4, p5, p6, p7, p8, a1, _⟩ := tick_table h
  have none_of : b.pc ≠ .resetCheck ∨ b.regs.resetFlg ≠ 0 → Spec.resets a.toList = [] := by
    intro hn
    have : ∀ t, a ≠ some (.reset t) := fun t ht => by
      have := (a1 t).1 ht
      rcases hn with hn | hn
      · exact hn this.1
      · exact hn this.2.1
    match a, this with
    | none, _ => rfl
    | some (.mtr _ _ _), _ => rfl
    | some (.rwa _ _), _ => rfl
    | some (.disable _), _ => rfl
    | some (.reset t), h' => exact absurd rfl (h' t)
  rcases hq with ⟨q1, q2⟩ | ⟨q1, q2, q3⟩ | ⟨q1, q2, q3⟩
  · left
    have hne : b.regs.resetFlg ≠ 0 := by rw [q1]; decide
    refine ⟨?_, none_of (Or.inr hne), ?_⟩
    · by_cases hc : b.pc = .resetClear
      · exact Or.inr (Or.inl ⟨by rw [f1, if_pos hc], t1.trans q2, p2 hc⟩)
      · exact Or.inl ⟨by rw [f1, if_neg hc, q1], t1.trans q2⟩
    · unfold leftR
      rw [if_neg hne]
      rcases pos_cases b.pc with hp | hp | hp | hp | hp | hp | hp | hp | hp
      · obtain ⟨k1, k2⟩ := p0 hp
        have n1 := (pos_lt_21 hp).2.1
        have n2 := (pos_le_21 k2).1
        rw [f1, if_neg n1, if_neg hne, if_neg n2, if_pos k2, if_neg n1, if_pos (by omega)]
        omega
      all_goals rw [f1]
      · rw [p1 hp, q1, hp]; decide
      · rw [p2 hp, hp, q1]; decide
      · rw [p3 hp, q1, hp]; decide
      · rw [p4 hp, q1, hp]; decide
      · have : b'.pc = .disableClear ∨ b'.pc = .imu := by rw [p5 hp]; split <;> simp
        rcases this with k | k <;> rw [k, q1, hp] <;> decide
      · rw [p6 hp, q1, hp]; decide
      · rw [p7 hp, q1, hp]; decide
      · rw [p8 hp, q1, hp]; decide
  · left
    refine ⟨Or.inr (Or.inr ⟨?_, ?_, p3 q3⟩), none_of (Or.inl (by rw [q3]; decide)), ?_⟩
    · rw [f1, if_neg (by rw [q3]; decide), q1]
    · rw [lt, if_pos q3, q2]
    · unfold leftR; rw [f1, p3 q3, q3, q1]; decide
  · right
    have ha := (a1 b.ltable).2 ⟨q3, q1, rfl⟩
    subst ha
    refine ⟨⟨?_, ?_⟩, by rw [q2]; rfl⟩
    · rw [f1, if_neg (by rw [q3]; decide), q1]
    · rw [p4 q3]; decide

theorem quietD_tick {l : Bool} {e : Env} {b b' : Box} {a : Option Act} (hq : QuietD b)
    (h : b.tick l e = some (b', a)) : QuietD b' ∧ Spec.disables a.toList = [] := by
  obtain ⟨q1, q2⟩ := hq
  simp only [List.mem_cons, List.not_mem_nil, or_false, not_or] at q2
  obtain ⟨_, _, _, f1, _, p0, p1, p2, p3, p4, p5, p6, p7, p8, _, a1⟩ := tick_table h
  rw [if_neg q2.1] at f1
  refine ⟨⟨f1.trans q1, ?_⟩, ?_⟩
  · simp only [List.mem_cons, List.not_mem_nil, or_false, not_or]
    rcases pos_cases b.pc with hp | hp | hp | hp | hp | hp | hp | hp | hp
    · have := pos_le_21 (p0 hp).2; exact ⟨this.2.2.2.2.1, this.2.2.2.2.2.1, this.2.2.2.2.2.2⟩
    · rw [p1 hp]; split <;> decide
    · rw [p2 hp]; decide
    · rw [p3 hp]; decide
    · rw [p4 hp]; decide
    · rw [p5 hp, if_neg (by rw [q1]; decide)]; decide
    · exact absurd hp q2.1
    · exact absurd hp q2.2.1
    · exact absurd hp q2.2.2
  · have : ∀ t, a ≠ some (.disable t) := fun t ht => q2.2.2 ((a1 t).1 ht).1
    match a, this with
    | none, _ => rfl
    | some (.mtr _ _ _), _ => rfl
    | some (.rwa _ _), _ => rfl
    | some (.reset _), _ => rfl
    | some (.disable t), h' => exact absurd rfl (h' t)

theorem pendD_tick {l : Bool} {e : Env} {b b' : Box} {a : Option Act} {t : BitVec 32} (hq : PendD t b)
    (h : b.tick l e = some (b', a)) :
    (PendD t b' ∧ Spec.disables a.toList = [] ∧ leftD b' + 1 ≤ leftD b) ∨
    (QuietD b' ∧ Spec.disables a.toList = [t]) := by
  obtain ⟨_, t1, _, f1, lt, p0, p1, p2, p3, p4, p5, p6, p7, p8, _, a1⟩ := tick_table h
  have none_of : b.pc ≠ .disableCheck ∨ b.regs.disableFlg ≠ 0 → Spec.disables a.toList = [] := by
    intro hn
    have : ∀ t, a ≠ some (.disable t) := fun t ht => by
      have := (a1 t).1 ht
      rcases hn with hn | hn
      · exact hn this.1
      · exact hn this.2.1
    match a, this with
    | none, _ => rfl
    | some (.mtr _ _ _), _ => rfl
    | some (.rwa _ _), _ => rfl
    | some (.reset _), _ => rfl
    | some (.disable t), h' => exact absurd rfl (h' t)
  rcases hq with ⟨q1, q2⟩ | ⟨q1, q2, q3⟩ | ⟨q1, q2, q3⟩
  · left
    have hne : b.regs.disableFlg ≠ 0 := by rw [q1]; decide
    refine ⟨?_, none_of (Or.inr hne), ?_⟩
    · by_cases hc : b.pc = .disableClear
      · exact Or.inr (Or.inl ⟨by rw [f1, if_pos hc], t1.trans q2, p6 hc⟩)
      · exact Or.inl ⟨by rw [f1, if_neg hc, q1], t1.trans q2⟩
    · unfold leftD
      rw [if_neg hne]
      rcases pos_cases b.pc with hp | hp | hp | hp | hp | hp | hp | hp | hp
      · obtain ⟨k1, k2⟩ := p0 hp
        have n1 := (pos_lt_21 hp).2.2.2.2.2.1
        have n2 := (pos_le_21 k2).2.2.2.2.1
        rw [f1, if_neg n1, if_neg hne, if_neg n2, if_pos (by omega), if_neg n1, if_pos (by omega)]
        omega
      all_goals rw [f1]
      · have : b'.pc = .resetClear ∨ b'.pc = .disableFlag := by rw [p1 hp]; split <;> simp
        rcases this with k | k <;> rw [k, q1, hp] <;> decide
      · rw [p2 hp, q1, hp]; decide
      · rw [p3 hp, q1, hp]; decide
      · rw [p4 hp, q1, hp]; decide
      · rw [p5 hp, q1, hp]; decide
      · rw [p6 hp, hp, q1]; decide
      · rw [p7 hp, q1, hp]; decide
      · rw [p8 hp, q1, hp]; decide
  · left
    refine ⟨Or.inr (Or.inr ⟨?_, ?_, p7 q3⟩), none_of (Or.inl (by rw [q3]; decide)), ?_⟩
    · rw [f1, if_neg (by rw [q3]; decide), q1]
    · rw [lt, if_neg (by rw [q3]; decide), if_pos q3, q2]
    · unfold leftD; rw [f1, p7 q3, q3, q1]; decide
  · right
    have ha := (a1 b.ltable).2 ⟨q3, q1, rfl⟩
    subst ha
    refine ⟨⟨?_, ?_⟩, by rw [q2]; rfl⟩
    · rw [f1, if_neg (by rw [q3]; decide), q1]
    · rw [p8 q3]; decide

theorem resets_append (a b : List Act) : Spec.resets (a ++ b) = Spec.resets a ++ Spec.resets b := List.filterMap_append ..
theorem disables_append (a b : List Act) : Spec.disables (a ++ b) = Spec.disables a ++ Spec.disables b :=
  List.filterMap_append ..
theorem resetMsgs_append (a b : List Box.Ev) : Spec.resetMsgs (a ++ b) = Spec.resetMsgs a ++ Spec.resetMsgs b :=
  List.filterMap_append ..
theorem disableMsgs_append (a b : List Box.Ev) : Spec.disableMsgs (a ++ b) = Spec.disableMsgs a ++ Spec.disableMsgs b :=
  List.filterMap_append ..
theorem ticks_append (a b : List Box.Ev) : Spec.ticks (a ++ b) = Spec.ticks a + Spec.ticks b := List.countP_append ..

theorem quietR_run {l : Bool} : ∀ (evs : List Box.Ev) {b b' : Box} {acts : List Act}, QuietR b →
    Spec.resetMsgs evs = [] → Box.run l b evs = some (b', acts) → QuietR b' ∧ Spec.resets acts = [] := by
  intro evs
  induction evs using List.reverseRecOn with
  | nil =>
    intro b b' acts hq _ h
    simp only [Box.run, Option.some.injEq, Prod.mk.injEq] at h
    obtain ⟨rfl, rfl⟩ := h
    exact ⟨hq, rfl⟩
  | append_singleton evs ev ih =>
    intro b b' acts hq hm h
    obtain ⟨b1, acts1, a, h1, h2, rfl⟩ := Box.run_snoc h
    rw [resetMsgs_append, List.append_eq_nil_iff] at hm
    obtain ⟨k1, k2⟩ := ih hq hm.1 h1
    cases ev with
    | recv m =>
      simp only [Box.step, Option.some.injEq, Prod.mk.injEq] at h2
      obtain ⟨rfl, rfl⟩ := h2
      have hm2 : Spec.resetIn m = none := by
        have := hm.2
        cases hr : Spec.resetIn m with
        | none => rfl
        | some t => simp [Spec.resetMsgs, hr] at this
      obtain ⟨_, _, _, _, _, _, _, s8, _⟩ := Regs.receive_spec b1.regs m
      refine ⟨⟨?_, k1.2⟩, by rw [resets_append, k2]; rfl⟩
      show (b1.regs.receive m).resetFlg = 0
      rw [s8, hm2]; exact k1.1
    | tick e =>
      obtain ⟨j1, j2⟩ := quietR_tick k1 h2
      exact ⟨j1, by rw [resets_append, k2, j2]; rfl⟩

theorem quietD_run {l : Bool} : ∀ (evs : List Box.Ev) {b b' : Box} {acts : List Act}, QuietD b →
    Spec.disableMsgs evs = [] → Box.run l b evs = some (b', acts) → QuietD b' ∧ Spec.disables acts = [] := by
  intro evs
  induction evs using List.reverseRecOn with
  | nil =>
    intro b b' acts hq _ h
    simp only [Box.run, Option.some.injEq, Prod.mk.injEq] at h
    obtain ⟨rfl, rfl⟩ := h
    exact ⟨hq, rfl⟩
  | append_singleton evs ev ih =>
    intro b b' acts hq hm h
    obtain ⟨b1, acts1, a, h1, h2, rfl⟩ := Box.run_snoc h
    rw [disableMsgs_append, List.append_eq_nil_iff] at hm
    obtain ⟨k1, k2⟩ := ih hq hm.1 h1
    cases ev with
    | recv m =>
      simp only [Box.step, Option.some.injEq, Prod.mk.injEq] at h2
      obtain ⟨rfl, rfl⟩ := h2
      have hm2 : Spec.disableIn m = none := by
        have := hm.2
        cases hr : Spec.disableIn m with
        | none => rfl
        | some t => simp [Spec.disableMsgs, hr] at this
      obtain ⟨_, _, _, _, _, _, _, _, _, s10, _⟩ := Regs.receive_spec b1.regs m
      refine ⟨⟨?_, k1.2⟩, by rw [disables_append, k2]; rfl⟩
      show (b1.regs.receive m).disableFlg = 0
      rw [s10, hm2]; exact k1.1
    | tick e =>
      obtain ⟨j1, j2⟩ := quietD_tick k1 h2
      exact ⟨j1, by rw [disables_append, k2, j2]; rfl⟩

theorem pendR_run {l : Bool} {t : BitVec 32} : ∀ (evs : List Box.Ev) {b b' : Box} {acts : List Act}, PendR t b →
    Spec.resetMsgs evs = [] → Box.run l b evs = some (b', acts) →
    (PendR t b' ∧ Spec.resets acts = [] ∧ leftR b' + Spec.ticks evs ≤ leftR b) ∨
    (QuietR b' ∧ Spec.resets acts = [t]) := by
  intro evs
  induction evs using List.reverseRecOn with
  | nil =>
    intro b b' acts hq _ h
    simp only [Box.run, Option.some.injEq, Prod.mk.injEq] at h
    obtain ⟨rfl, rfl⟩ := h
    exact Or.inl ⟨hq, rfl, le_refl _⟩
  | append_singleton evs ev ih =>
    intro b b' acts hq hm h
    obtain ⟨b1, acts1, a, h1, h2, rfl⟩ := Box.run_snoc h
    rw [resetMsgs_append, List.append_eq_nil_iff] at hm
    rw [resets_append, ticks_append]
    have ih := ih hq hm.1 h1
    cases ev with
    | recv m =>
      simp only [Box.step, Option.some.injEq, Prod.mk.injEq] at h2
      obtain ⟨rfl, rfl⟩ := h2
      have hm2 : Spec.resetIn m = none := by
        have := hm.2
        cases hr : Spec.resetIn m with
        | none => rfl
        | some t => simp [Spec.resetMsgs, hr] at this
      obtain ⟨_, _, _, _, _, _, s7, s8, _⟩ := Regs.receive_spec b1.regs m
      rw [hm2] at s7 s8
      rcases ih with ⟨k1, k2, k3⟩ | ⟨k1, k2⟩
      · refine Or.inl ⟨?_, by rw [k2]; rfl, ?_⟩
        · unfold PendR at k1 ⊢
          simp only [s7, s8, Option.getD_none]
          exact k1
        · have : leftR { b1 with regs := b1.regs.receive m } = leftR b1 := by
            unfold leftR; simp only [s8]; rfl
          rw [this]; exact k3
      · exact Or.inr ⟨⟨by rw [s8]; exact k1.1, k1.2⟩, by rw [k2]; rfl⟩
    | tick e =>
      rcases ih with ⟨k1, k2, k3⟩ | ⟨k1, k2⟩
      · rcases pendR_tick k1 h2 with ⟨j1, j2, j3⟩ | ⟨j1, j2⟩
        · refine Or.inl ⟨j1, by rw [k2, j2]; rfl, ?_⟩
          have : Spec.ticks [Box.Ev.tick e] = 1 := rfl
          omega
        · exact Or.inr ⟨j1, by rw [k2, j2]; rfl⟩
      · obtain ⟨j1, j2⟩ := quietR_tick k1 h2
        exact Or.inr ⟨j1, by rw [k2, j2]; rfl⟩

theorem pendD_run {l : Bool} {t : BitVec 32} : ∀ (evs : List Box.Ev) {b b' : Box} {acts : List Act}, PendD t b →
    Spec.disableMsgs evs = [] → Box.run l b evs = some (b', acts) →
    (PendD t b' ∧ Spec.disables acts = [] ∧ leftD b' + Spec.ticks evs ≤ leftD b) ∨
    (QuietD b' ∧ Spec.disables acts = [t]) := by
  intro evs
  induction evs using List.reverseRecOn with
  | nil =>
    intro b b' acts hq _ h
    simp only [Box.run, Option.some.injEq, Prod.mk.injEq] at h
    obtain ⟨rfl, rfl⟩ := h
    exact Or.inl ⟨hq, rfl, le_refl _⟩
  | append_singleton evs ev ih =>
    intro b b' acts hq hm h
    obtain ⟨b1, acts1, a, h1, h2, rfl⟩ := Box.run_snoc h
    rw [disableMsgs_append, List.append_eq_nil_iff] at hm
    rw [disables_append, ticks_append]
    have ih := ih hq hm.1 h1
    cases ev with
    | recv m =>
      simp only [Box.step, Option.some.injEq, Prod.mk.injEq] at h2
      obtain ⟨rfl, rfl⟩ := h2
      have hm2 : Spec.disableIn m = none := by
        have := hm.2
        cases hr : Spec.disableIn m with
        | none => rfl
        | some t => simp [Spec.disableMsgs, hr] at this
      obtain ⟨_, _, _, _, _, _, _, _, s9, s10, _⟩ := Regs.receive_spec b1.regs m
      rw [hm2] at s9 s10
      rcases ih with ⟨k1, k2, k3⟩ | ⟨k1, k2⟩
      · refine Or.inl ⟨?_, by rw [k2]; rfl, ?_⟩
        · unfold PendD at k1 ⊢
          simp only [s9, s10, Option.getD_none]
          exact k1
        · have : leftD { b1 with regs := b1.regs.receive m } = leftD b1 := by
            unfold leftD; simp only [s10]; rfl
          rw [this]; exact k3
      · exact Or.inr ⟨⟨by rw [s10]; exact k1.1, k1.2⟩, by rw [k2]; rfl⟩
    | tick e =>
      rcases ih with ⟨k1, k2, k3⟩ | ⟨k1, k2⟩
      · rcases pendD_tick k1 h2 with ⟨j1, j2, j3⟩ | ⟨j1, j2⟩
        · refine Or.inl ⟨j1, by rw [k2, j2]; rfl, ?_⟩
          have : Spec.ticks [Box.Ev.tick e] = 1 := rfl
          omega
        · exact Or.inr ⟨j1, by rw [k2, j2]; rfl⟩
      · obtain ⟨j1, j2⟩ := quietD_tick k1 h2
        exact Or.inr ⟨j1, by rw [k2, j2]; rfl⟩

/-- Bits of a sum of distinct powers of two. -/
theorem testBit_powers (c : ℕ → Bool) (n i : ℕ) :
    (((List.range n).map fun i => if c i then 2 ^ i else 0).sum).testBit i = (decide (i < n) && c i) ∧
    ((List.range n).map fun i => if c i then 2 ^ i else 0).sum < 2 ^ n := by
  induction n with
  | zero => simp
  | succ n ih =>
    rw [List.range_succ, List.map_append, List.sum_append]
    simp only [List.map_cons, List.map_nil, List.sum_cons, List.sum_nil, Nat.add_zero]
    set s := ((List.range n).map fun i => if c i then 2 ^ i else 0).sum
    obtain ⟨ih1, ih2⟩ := ih
    constructor
    · by_cases hc : c n = true
      · rw [if_pos hc, Nat.add_comm]
        rcases lt_trichotomy i n with h | h | h
        · rw [Nat.testBit_two_pow_add_gt h, ih1]
          simp [h, Nat.lt_succ_of_lt h]
        · subst h
          rw [Nat.testBit_two_pow_add_eq, ih1]
          simp [hc]
        · have : (2 ^ n + s) < 2 ^ i := by
            have h1 : 2 ^ n + s < 2 ^ (n + 1) := by rw [Nat.pow_succ]; omega
            exact lt_of_lt_of_le h1 (Nat.pow_le_pow_right (by norm_num) h)
          rw [Nat.testBit_lt_two_pow this]
          simp; omega
      · rw [if_neg hc, Nat.add_zero, ih1]
        by_cases h : i = n
        · subst h; simp [hc]
        · congr 1; simp; omega
    · have : 2 ^ (n + 1) = 2 ^ n + 2 ^ n := by rw [Nat.pow_succ]; omega
      split <;> omega

theorem orTable_bit (c : ℕ → Bool) (t : BitVec 32) {i : ℕ} (hi : i < 19) :
    (Cmds.orTable c t).getLsbD i = (t.getLsbD i || c i) := by
  unfold Cmds.orTable
  rw [BitVec.getLsbD_or, BitVec.getLsbD_ofNat, (testBit_powers c 19 i).1]
  simp [hi, show i < 32 by omega]

/-- The four bytes of a table, sent low byte first, are put together again by the box. -/
theorem le32_sendTable (t : BitVec 32) :
    Regs.le32 [t.setWidth 8, (t >>> 8).setWidth 8, (t >>> 16).setWidth 8, (t >>> 24).setWidth 8] = t := by
  apply BitVec.eq_of_getLsbD_eq
  intro i hi
  show ((((t >>> 24).setWidth 8 ++ (t >>> 16).setWidth 8 : BitVec 16) ++
    ((t >>> 8).setWidth 8 ++ t.setWidth 8 : BitVec 16) : BitVec 32)).getLsbD i = _
  simp only [BitVec.getLsbD_append, BitVec.getLsbD_setWidth, BitVec.getLsbD_ushiftRight]
  split_ifs with h1 h2 h3
  · simp [h2]
  · simp only [show 8 + (i - 8) = i by omega, show i - 8 < 8 by omega, decide_true, Bool.true_and]
  · simp only [show 16 + (i - 16) = i by omega, show i - 16 < 8 by omega, decide_true, Bool.true_and]
  · simp only [show 24 + (i - 16 - 8) = i by omega, show i - 16 - 8 < 8 by omega, decide_true, Bool.true_and]

end ADCS
open ADCS

/-- C77: the table of devices in service that the box reports is the state of the devices at the moment it is
refreshed. -/
theorem C77_reported (leader : Bool) (e : Env) (b : Box) (hp : b.pc = .havtRead) {i : ℕ} (hi : i < 19) :
    ∃ b', b.tick leader e = some (b', none) ∧ b'.regs.havtRead.getLsbD i = (Spec.device b.hw i).1 := by
  unfold Box.tick
  rw [hp]
  refine ⟨_, rfl, ?_⟩
  show (Hw.readTable b.hw).getLsbD i = _
  unfold Hw.readTable
  rw [BitVec.getLsbD_ofNat, Hw.devices, (testBit_powers _ 19 i).1]
  simp only [hi, show i < 32 by omega, decide_true, Bool.true_and]
  unfold Hw.functional Spec.device
  split_ifs <;> rfl

namespace Spec

/-- The messages the box received, in order. -/
def messages (evs : List Box.Ev) : List (List U8) :=
  evs.filterMap fun ev => match ev with | .recv m => some m | .tick _ => none

end Spec

namespace ADCS

theorem resetMsgs_eq (evs : List Box.Ev) : Spec.resetMsgs evs = (Spec.messages evs).filterMap Spec.resetIn := by
  unfold Spec.resetMsgs Spec.messages
  rw [List.filterMap_filterMap]
  congr 1
  funext ev
  cases ev <;> rfl

theorem disableMsgs_eq (evs : List Box.Ev) : Spec.disableMsgs evs = (Spec.messages evs).filterMap Spec.disableIn := by
  unfold Spec.disableMsgs Spec.messages
  rw [List.filterMap_filterMap]
  congr 1
  funext ev
  cases ev <;> rfl

theorem no_table (a : U8) (d : List U8) (h1 : a ≠ 28) (h2 : a ≠ 29) :
    Spec.resetIn (a :: d) = none ∧ Spec.disableIn (a :: d) = none := by
  simp only [Spec.resetIn, Spec.disableIn]
  rw [if_neg (fun h => h1 h.1), if_neg (fun h => h2 h.1)]
  exact ⟨rfl, rfl⟩

theorem sendByte_form {r : U8} {f lo hi : ℚ} {m : List U8} (h : Cmds.sendByte r f lo hi = some m) : ∃ b, m = [r, b] := by
  unfold Cmds.sendByte at h
  cases hu : uc f lo hi with
  | none => rw [hu] at h; simp at h
  | some b => rw [hu] at h; simp at h; exact ⟨b, h.symm⟩

theorem sendRwa_form {mode : U8} {v : V3 ℚ} {ms : List (List U8)} (h : Cmds.sendRwa mode v = some ms) :
    ∃ d, ms = [[3, mode], 4 :: d] := by
  unfold Cmds.sendRwa at h
  simp only [Option.map_eq_some_iff] at h
  obtain ⟨u, _, rfl⟩ := h
  exact ⟨_, rfl⟩

/-- The messages of one cycle, exactly. -/
theorem send_exact {state ssa : U8} {c c' : Cmds} {msgs : List (List U8)} (h : Cmds.send state ssa c = some (msgs, c')) :
    ∃ (rwa : List (List U8)) (sf rf : List U8) (mc : V3 (BitVec 16)) (ml : BitVec 16) (vf mf gf gtf gd : List U8),
      (if c.rwaMode = 1 then Cmds.sendRwa c.rwaMode c.speed
        else if c.rwaMode = 2 then Cmds.sendRwa c.rwaMode c.torque
        else if c.rwaMode = 0 then Cmds.sendRwa c.rwaMode V3.zero else some []) = some rwa ∧
      Cmds.sendByte 6 c.speedFlt 0 1 = some sf ∧ Cmds.sendByte 7 c.rampFlt 0 1 = some rf ∧
      V3.mapM (us · (-maxMoment) maxMoment) c.moment = some mc ∧ us c.limit (-maxMoment) maxMoment = some ml ∧
      Cmds.sendByte 16 c.voltFlt 0 1 = some vf ∧ Cmds.sendByte 22 c.magFlt 0 1 = some mf ∧
      Cmds.sendByte 23 c.gyrFlt 0 1 = some gf ∧ Cmds.sendByte 24 c.gyrTempFlt 0 1 = some gtf ∧
      Cmds.sendByte 26 c.gyrDesired (-40) 85 = some gd ∧
      msgs = [[1, if state = sStartup then 0 else 1]] ++ rwa ++
        [sf, rf, [10, c.mtrMode], 11 :: Cmds.vec6 mc, 12 :: Cmds.lohi ml] ++ (if ssa ≠ 1 then [[14, 1]] else []) ++
        [vf, [19, c.mag1Mode], [20, c.mag2Mode], mf, gf, gtf, [25, c.gyrPwm], gd] ++
        (if (List.range 19).any c.reset then [Cmds.sendTable 28 (Cmds.orTable c.reset 0)] else []) ++
        (if (List.range 19).any c.disable then
          [Cmds.sendTable 29 (Cmds.orTable c.disable (Cmds.orTable c.reset 0))] else []) ∧
      c' = { c with reset := fun _ => false, disable := fun _ => false } := by
  unfold Cmds.send at h
  simp only [] at h
  generalize hrwa : (if c.rwaMode = 1 then Cmds.sendRwa c.rwaMode c.speed
    else if c.rwaMode = 2 then Cmds.sendRwa c.rwaMode c.torque
    else if c.rwaMode = 0 then Cmds.sendRwa c.rwaMode V3.zero else some []) = R at h
  generalize hsf : Cmds.sendByte 6 c.speedFlt 0 1 = S6 at h
  generalize hrf : Cmds.sendByte 7 c.rampFlt 0 1 = S7 at h
  generalize hmc : V3.mapM (us · (-maxMoment) maxMoment) c.moment = S11 at h
  generalize hml : us c.limit (-maxMoment) maxMoment = S12 at h
  generalize hvf : Cmds.sendByte 16 c.voltFlt 0 1 = S16 at h
  generalize hmf : Cmds.sendByte 22 c.magFlt 0 1 = S22 at h
  generalize hgf : Cmds.sendByte 23 c.gyrFlt 0 1 = S23 at h
  generalize hgtf : Cmds.sendByte 24 c.gyrTempFlt 0 1 = S24 at h
  generalize hgd : Cmds.sendByte 26 c.gyrDesired (-40) 85 = S26 at h
  rcases R with _ | rwa
  · simp at h
  rcases S6 with _ | sf
  · simp at h
  rcases S7 with _ | rf
  · simp at h
  rcases S11 with _ | mc
  · simp at h
  rcases S12 with _ | ml
  · simp at h
  rcases S16 with _ | vf
  · simp at h
  rcases S22 with _ | mf
  · simp at h
  rcases S23 with _ | gf
  · simp at h
  rcases S24 with _ | gtf
  · simp at h
  rcases S26 with _ | gd
  · simp at h
  simp only [Option.some.injEq, Prod.mk.injEq] at h
  exact ⟨rwa, sf, rf, mc, ml, vf, mf, gf, gtf, gd, rfl, rfl, rfl, rfl, rfl, rfl, rfl, rfl, rfl, rfl, h.1.symm, h.2.symm⟩

/-- The messages of one cycle: everything except the last ones, which carry the tables. -/
theorem send_form {state ssa : U8} {c c' : Cmds} {msgs : List (List U8)} (h : Cmds.send state ssa c = some (msgs, c')) :
    ∃ front : List (List U8), (∀ m ∈ front, ∃ a d, m = a :: d ∧ a ≠ 28 ∧ a ≠ 29) ∧
      msgs = front ++ (if (List.range 19).any c.reset then [Cmds.sendTable 28 (Cmds.orTable c.reset 0)] else []) ++
        (if (List.range 19).any c.disable then
          [Cmds.sendTable 29 (Cmds.orTable c.disable (Cmds.orTable c.reset 0))] else []) ∧
      c' = { c with reset := fun _ => false, disable := fun _ => false } := by
  obtain ⟨rwa, sf, rf, mc, ml, vf, mf, gf, gtf, gd, hrwa, hsf, hrf, hmc, hml, hvf, hmf, hgf, hgtf, hgd, rfl, rfl⟩ :=
    send_exact h
  refine ⟨_, ?_, rfl, rfl⟩
  obtain ⟨b1, rfl⟩ := sendByte_form hsf
  obtain ⟨b2, rfl⟩ := sendByte_form hrf
  obtain ⟨b3, rfl⟩ := sendByte_form hvf
  obtain ⟨b4, rfl⟩ := sendByte_form hmf
  obtain ⟨b5, rfl⟩ := sendByte_form hgf
  obtain ⟨b6, rfl⟩ := sendByte_form hgtf
  obtain ⟨b7, rfl⟩ := sendByte_form hgd
  have hr : ∀ m ∈ rwa, ∃ a d, m = a :: d ∧ a ≠ 28 ∧ a ≠ 29 := by
    have : (∃ mode d, rwa = [[3, mode], 4 :: d]) ∨ rwa = [] := by
      split at hrwa
      · obtain ⟨d, hd⟩ := sendRwa_form hrwa; exact Or.inl ⟨_, d, hd⟩
      · split at hrwa
        · obtain ⟨d, hd⟩ := sendRwa_form hrwa; exact Or.inl ⟨_, d, hd⟩
        · split at hrwa
          · obtain ⟨d, hd⟩ := sendRwa_form hrwa; exact Or.inl ⟨_, d, hd⟩
          · exact Or.inr (by simpa using hrwa.symm)
    rcases this with ⟨mode, d, rfl⟩ | rfl
    · simp
    · simp
  intro m hm
  simp only [List.mem_append] at hm
  rcases hm with (((hm | hm) | hm) | hm) | hm
  · simp at hm; subst hm; exact ⟨_, _, rfl, by decide, by decide⟩
  · exact hr m hm
  · simp at hm
    rcases hm with rfl | rfl | rfl | rfl | rfl <;> exact ⟨_, _, rfl, by decide, by decide⟩
  · split at hm
    · simp at hm; subst hm; exact ⟨_, _, rfl, by decide, by decide⟩
    · simp at hm
  · simp at hm
    rcases hm with rfl | rfl | rfl | rfl | rfl | rfl | rfl | rfl <;> exact ⟨_, _, rfl, by decide, by decide⟩

end ADCS
open ADCS

/-- C51: the orders on the bus. One cycle of the flight computer sends a reset table exactly if some device is to be
reset, with a bit for every such device and no other; it sends a table of devices to take out of service exactly if
there is such a device, and that table has a bit for those and also for the devices to be reset. The orders are then
cleared, so each is sent once. -/
theorem C51_messages {state ssa : U8} {c c' : Cmds} {msgs : List (List U8)}
    (h : Cmds.send state ssa c = some (msgs, c')) :
    ((∃ j < 19, c.reset j = true) → ∃ t, msgs.filterMap Spec.resetIn = [t] ∧ ∀ i < 19, t.getLsbD i = c.reset i) ∧
    ((¬ ∃ j < 19, c.reset j = true) → msgs.filterMap Spec.resetIn = []) ∧
    ((∃ j < 19, c.disable j = true) →
      ∃ t, msgs.filterMap Spec.disableIn = [t] ∧ ∀ i < 19, t.getLsbD i = (c.reset i || c.disable i)) ∧
    ((¬ ∃ j < 19, c.disable j = true) → msgs.filterMap Spec.disableIn = []) ∧
    (∀ i, c'.reset i = false ∧ c'.disable i = false) := by
  obtain ⟨front, hf, rfl, rfl⟩ := send_form h
  have f1 : front.filterMap Spec.resetIn = [] := by
    rw [List.filterMap_eq_nil_iff]
    intro m hm
    obtain ⟨a, d, rfl, k1, k2⟩ := hf m hm
    exact (no_table a d k1 k2).1
  have f2 : front.filterMap Spec.disableIn = [] := by
    rw [List.filterMap_eq_nil_iff]
    intro m hm
    obtain ⟨a, d, rfl, k1, k2⟩ := hf m hm
    exact (no_table a d k1 k2).2
  have any_iff : ∀ g : ℕ → Bool, (List.range 19).any g = true ↔ ∃ j < 19, g j = true := by
    intro g; simp
  have r28 : ∀ t, Spec.resetIn (Cmds.sendTable 28 t) = some t := by
    intro t
    simp only [Spec.resetIn, Cmds.sendTable]
    rw [if_pos (by simp), le32_sendTable]
  have r29 : ∀ t, Spec.resetIn (Cmds.sendTable 29 t) = none := fun t => rfl
  have d28 : ∀ t, Spec.disableIn (Cmds.sendTable 28 t) = none := fun t => rfl
  have d29 : ∀ t, Spec.disableIn (Cmds.sendTable 29 t) = some t := by
    intro t
    simp only [Spec.disableIn, Cmds.sendTable]
    rw [if_pos (by simp), le32_sendTable]
  simp only [List.filterMap_append, f1, f2, List.nil_append]
  refine ⟨fun hr => ?_, fun hr => ?_, fun hd => ?_, fun hd => ?_, fun i => by simp⟩
  · refine ⟨Cmds.orTable c.reset 0, ?_, ?_⟩
    · rw [if_pos ((any_iff _).2 hr)]
      split <;> simp only [List.filterMap_cons, List.filterMap_nil, r28, r29, List.append_nil]
    · intro i hi; rw [orTable_bit _ _ hi]; simp
  · rw [if_neg (fun h => hr ((any_iff _).1 h))]
    split <;> simp only [List.filterMap_cons, List.filterMap_nil, r29, List.append_nil]
  · refine ⟨Cmds.orTable c.disable (Cmds.orTable c.reset 0), ?_, ?_⟩
    · rw [if_pos ((any_iff _).2 hd)]
      split <;> simp only [List.filterMap_cons, List.filterMap_nil, d28, d29, List.nil_append]
    · intro i hi; rw [orTable_bit _ _ hi, orTable_bit _ _ hi]; simp
  · rw [if_neg (fun h => hd ((any_iff _).1 h))]
    split <;> simp only [List.filterMap_cons, List.filterMap_nil, d28, List.append_nil]

namespace ADCS

theorem run_split {l : Bool} {b b' : Box} {e1 e2 : List Box.Ev} {acts : List Act}
    (h : Box.run l b (e1 ++ e2) = some (b', acts)) :
    ∃ b1 a1 a2, Box.run l b e1 = some (b1, a1) ∧ Box.run l b1 e2 = some (b', a2) ∧ acts = a1 ++ a2 := by
  rw [Box.run_append] at h
  cases h1 : Box.run l b e1 with
  | none => rw [h1] at h; simp at h
  | some x =>
    rw [h1] at h
    simp only [Option.bind_some, Option.map_eq_some_iff] at h
    obtain ⟨r, hr, he⟩ := h
    simp only [Prod.mk.injEq] at he
    exact ⟨x.1, x.2, r.2, rfl, by rw [hr, ← he.1], he.2.symm⟩

theorem leftR_le (b : Box) : leftR b ≤ 31 := by
  unfold leftR
  split
  · split <;> omega
  · split
    · omega
    · split
      · omega
      · rename_i h1 h2
        have : pos b.pc ≠ 22 := by
          intro h; apply h1; revert h; cases b.pc <;> simp [pos]
        omega

theorem leftD_le (b : Box) : leftD b ≤ 31 := by
  unfold leftD
  split
  · split <;> omega
  · split
    · omega
    · split
      · omega
      · rename_i h1 h2
        have : pos b.pc ≠ 26 := by
          intro h; apply h1; revert h; cases b.pc <;> simp [pos]
        omega

theorem filterMap_single {α β : Type} {f : α → Option β} {l : List α} {t : β} (h : l.filterMap f = [t]) :
    ∃ l1 a l2, l = l1 ++ a :: l2 ∧ f a = some t ∧ l1.filterMap f = [] ∧ l2.filterMap f = [] := by
  induction l with
  | nil => simp at h
  | cons x l ih =>
    cases hx : f x with
    | none =>
      rw [List.filterMap_cons_none hx] at h
      obtain ⟨l1, a, l2, rfl, h2, h3, h4⟩ := ih h
      exact ⟨x :: l1, a, l2, rfl, h2, by rw [List.filterMap_cons_none hx, h3], h4⟩
    | some y =>
      rw [List.filterMap_cons_some hx] at h
      simp only [List.cons.injEq] at h
      exact ⟨[], x, l, rfl, by rw [hx, h.1], rfl, h.2⟩

/-- One reset table received, then enough time: carried out exactly once. -/
theorem resets_done {l : Bool} {b b' : Box} {e1 e2 : List Box.Ev} {acts : List Act} {t : BitVec 32} (hq : QuietR b)
    (h1 : Spec.resetMsgs e1 = [t]) (h2 : Spec.resetMsgs e2 = []) (ht : 31 ≤ Spec.ticks e2)
    (h : Box.run l b (e1 ++ e2) = some (b', acts)) : Spec.resets acts = [t] ∧ QuietR b' := by
  obtain ⟨f1, ev, f2, rfl, hev, hf1, hf2⟩ := filterMap_single h1
  rw [List.append_assoc, List.cons_append] at h
  obtain ⟨b1, a1, a2, r1, r2, rfl⟩ := run_split h
  obtain ⟨q1, q2⟩ := quietR_run f1 hq hf1 r1
  cases ev with
  | tick e => simp at hev
  | recv m =>
    simp only at hev
    simp only [Box.run, Box.step, Option.map_eq_some_iff] at r2
    obtain ⟨⟨bb, aa⟩, r3, he⟩ := r2
    simp only [Option.toList, List.nil_append, Prod.mk.injEq] at he
    obtain ⟨rfl, rfl⟩ := he
    obtain ⟨_, _, _, _, _, _, s7, s8, _⟩ := Regs.receive_spec b1.regs m
    rw [hev] at s7 s8
    have hp : PendR t { b1 with regs := b1.regs.receive m } := Or.inl ⟨s8, s7⟩
    rw [resets_append, q2]
    rcases pendR_run (f2 ++ e2) hp (by rw [resetMsgs_append, h2, List.append_nil]; exact hf2) r3 with
      ⟨k1, k2, k3⟩ | ⟨k1, k2⟩
    · exfalso
      rw [ticks_append] at k3
      have hl := leftR_le { b1 with regs := b1.regs.receive m }
      have : 1 ≤ leftR bb := by
        unfold leftR
        split
        · split <;> omega
        · split
          · omega
          · have : pos bb.pc ≤ 28 := by cases bb.pc <;> simp [pos]
            split <;> omega
      omega
    · exact ⟨k2, k1⟩

theorem disables_done {l : Bool} {b b' : Box} {e1 e2 : List Box.Ev} {acts : List Act} {t : BitVec 32} (hq : QuietD b)
    (h1 : Spec.disableMsgs e1 = [t]) (h2 : Spec.disableMsgs e2 = []) (ht : 31 ≤ Spec.ticks e2)
    (h : Box.run l b (e1 ++ e2) = some (b', acts)) : Spec.disables acts = [t] ∧ QuietD b' := by
  obtain ⟨f1, ev, f2, rfl, hev, hf1, hf2⟩ := filterMap_single h1
  rw [List.append_assoc, List.cons_append] at h
  obtain ⟨b1, a1, a2, r1, r2, rfl⟩ := run_split h
  obtain ⟨q1, q2⟩ := quietD_run f1 hq hf1 r1
  cases ev with
  | tick e => simp at hev
  | recv m =>
    simp only at hev
    simp only [Box.run, Box.step, Option.map_eq_some_iff] at r2
    obtain ⟨⟨bb, aa⟩, r3, he⟩ := r2
    simp only [Option.toList, List.nil_append, Prod.mk.injEq] at he
    obtain ⟨rfl, rfl⟩ := he
    obtain ⟨_, _, _, _, _, _, _, _, s9, s10, _⟩ := Regs.receive_spec b1.regs m
    rw [hev] at s9 s10
    have hp : PendD t { b1 with regs := b1.regs.receive m } := Or.inl ⟨s10, s9⟩
    rw [disables_append, q2]
    rcases pendD_run (f2 ++ e2) hp (by rw [disableMsgs_append, h2, List.append_nil]; exact hf2) r3 with
      ⟨k1, k2, k3⟩ | ⟨k1, k2⟩
    · exfalso
      rw [ticks_append] at k3
      have hl := leftD_le { b1 with regs := b1.regs.receive m }
      have : 1 ≤ leftD bb := by
        unfold leftD
        split
        · split <;> omega
        · split
          · omega
          · have : pos bb.pc ≤ 28 := by cases bb.pc <;> simp [pos]
            split <;> omega
      omega
    · exact ⟨k2, k1⟩

theorem quiet_of_noTable {b : Box} (h : Spec.noTable b) : QuietR b ∧ QuietD b := by
  obtain ⟨h1, h2, h3⟩ := h
  simp only [List.mem_cons, List.not_mem_nil, or_false, not_or] at h3
  refine ⟨⟨h1, ?_⟩, ⟨h2, ?_⟩⟩ <;> simp only [List.mem_cons, List.not_mem_nil, or_false, not_or] <;> tauto

theorem lastOrder_resets (i : ℕ) (acts : List Act) (o : Option Bool) (h : Spec.disables acts = []) :
    acts.foldl (fun o a => match a with
      | .reset t => if t.getLsbD i then some true else o
      | .disable t => if t.getLsbD i then some false else o
      | _ => o) o = (Spec.resets acts).foldl (fun o t => if t.getLsbD i then some true else o) o := by
  induction acts generalizing o with
  | nil => rfl
  | cons a acts ih =>
    cases a with
    | disable t => simp [Spec.disables] at h
    | _ => exact ih _ h

theorem lastOrder_disables (i : ℕ) (acts : List Act) (o : Option Bool) (h : Spec.resets acts = []) :
    acts.foldl (fun o a => match a with
      | .reset t => if t.getLsbD i then some true else o
      | .disable t => if t.getLsbD i then some false else o
      | _ => o) o = (Spec.disables acts).foldl (fun o t => if t.getLsbD i then some false else o) o := by
  induction acts generalizing o with
  | nil => rfl
  | cons a acts ih =>
    cases a with
    | reset t => simp [Spec.resets] at h
    | _ => exact ih _ h

end ADCS
open ADCS

/-- C51 (part): orders of one kind reach the devices. Let the flight computer send one cycle's messages to a box that
has no table waiting, with the main loop of the box at any point and running on at any pace while they arrive; let no
other table arrive for the next 31 steps. If devices are only to be reset, then exactly those are reset, once; if
devices are only to be taken out of service, then exactly those are. Missing: both kinds in one cycle, where it is
false (`C51_counterexample_both`). -/
theorem C51_delivered_partial (leader : Bool) {state ssa : U8} {c c' : Cmds} {msgs : List (List U8)} {b b' : Box}
    {e1 e2 : List Box.Ev} {acts : List Act} (hsend : Cmds.send state ssa c = some (msgs, c'))
    (hmsgs : Spec.messages e1 = msgs) (hb : Spec.noTable b)
    (h2 : ∀ m ∈ Spec.messages e2, Spec.resetIn m = none ∧ Spec.disableIn m = none) (ht : 31 ≤ Spec.ticks e2)
    (hrun : Box.run leader b (e1 ++ e2) = some (b', acts)) :
    ((∀ j < 19, c.disable j = false) → ∀ i < 19, Spec.lastOrder i acts = if c.reset i then some true else none) ∧
    ((∀ j < 19, c.reset j = false) → ∀ i < 19, Spec.lastOrder i acts = if c.disable i then some false else none) ∧
    (Spec.resets acts).length ≤ 1 ∧ (Spec.disables acts).length ≤ 1 ∧ Spec.noTable b' := by
  obtain ⟨qr, qd⟩ := quiet_of_noTable hb
  obtain ⟨m1, m1', m2, m2', _⟩ := C51_messages hsend
  rw [← hmsgs, ← resetMsgs_eq] at m1 m1'
  rw [← hmsgs, ← disableMsgs_eq] at m2 m2'
  have n1 : Spec.resetMsgs e2 = [] := by
    rw [resetMsgs_eq, List.filterMap_eq_nil_iff]; exact fun m hm => (h2 m hm).1
  have n2 : Spec.disableMsgs e2 = [] := by
    rw [disableMsgs_eq, List.filterMap_eq_nil_iff]; exact fun m hm => (h2 m hm).2
  have R : QuietR b' ∧ ((∃ j < 19, c.reset j = true) →
      ∃ t, Spec.resets acts = [t] ∧ ∀ i < 19, t.getLsbD i = c.reset i) ∧
      ((¬ ∃ j < 19, c.reset j = true) → Spec.resets acts = []) := by
    by_cases hr : ∃ j < 19, c.reset j = true
    · obtain ⟨t, k1, k2⟩ := m1 hr
      have := resets_done qr k1 n1 ht hrun
      exact ⟨this.2, fun _ => ⟨t, this.1, k2⟩, fun h => absurd hr h⟩
    · have := quietR_run _ qr (by rw [resetMsgs_append, m1' hr, n1]; rfl) hrun
      exact ⟨this.1, fun h => absurd h hr, fun _ => this.2⟩
  have D : QuietD b' ∧ ((∃ j < 19, c.disable j = true) →
      ∃ t, Spec.disables acts = [t] ∧ ∀ i < 19, t.getLsbD i = (c.reset i || c.disable i)) ∧
      ((¬ ∃ j < 19, c.disable j = true) → Spec.disables acts = []) := by
    by_cases hd : ∃ j < 19, c.disable j = true
    · obtain ⟨t, k1, k2⟩ := m2 hd
      have := disables_done qd k1 n2 ht hrun
      exact ⟨this.2, fun _ => ⟨t, this.1, k2⟩, fun h => absurd hd h⟩
    · have := quietD_run _ qd (by rw [disableMsgs_append, m2' hd, n2]; rfl) hrun
      exact ⟨this.1, fun h => absurd h hd, fun _ => this.2⟩
  refine ⟨?_, ?_, ?_, ?_, ?_⟩
  · intro hd i hi
    have hd' := D.2.2 (by rintro ⟨j, hj, hj'⟩; rw [hd j hj] at hj'; cases hj')
    unfold Spec.lastOrder
    rw [lastOrder_resets i acts none hd']
    by_cases hr : ∃ j < 19, c.reset j = true
    · obtain ⟨t, k1, k2⟩ := R.2.1 hr
      rw [k1]
      simp only [List.foldl_cons, List.foldl_nil, k2 i hi]
    · rw [R.2.2 hr]
      have : c.reset i = false := by
        by_contra hc; exact hr ⟨i, hi, by simpa using hc⟩
      simp [this]
  · intro hr i hi
    have hr' : ¬ ∃ j < 19, c.reset j = true := by rintro ⟨j, hj, hj'⟩; rw [hr j hj] at hj'; cases hj'
    unfold Spec.lastOrder
    rw [lastOrder_disables i acts none (R.2.2 hr')]
    by_cases hd : ∃ j < 19, c.disable j = true
    · obtain ⟨t, k1, k2⟩ := D.2.1 hd
      rw [k1]
      simp only [List.foldl_cons, List.foldl_nil, k2 i hi, hr i hi, Bool.false_or]
    · rw [D.2.2 hd]
      have : c.disable i = false := by
        by_contra hc; exact hd ⟨i, hi, by simpa using hc⟩
      simp [this]
  · by_cases hr : ∃ j < 19, c.reset j = true
    · obtain ⟨t, k1, _⟩ := R.2.1 hr; rw [k1]; simp
    · rw [R.2.2 hr]; simp
  · by_cases hd : ∃ j < 19, c.disable j = true
    · obtain ⟨t, k1, _⟩ := D.2.1 hd; rw [k1]; simp
    · rw [D.2.2 hd]; simp
  · refine ⟨R.1.1, D.1.1, ?_⟩
    have r := R.1.2
    have d := D.1.2
    simp only [List.mem_cons, List.not_mem_nil, or_false, not_or] at r d ⊢
    tauto

namespace ADCS

/-- Two tables received before the main loop looks at either: the reset table is carried out first. -/
def Both (t t' : BitVec 32) (i : ℕ) (b : Box) (acts : List Act) : Prop :=
  (PendR t b ∧ b.regs.disableFlg = 1 ∧ b.regs.disableTable = t' ∧ pos b.pc ≤ 24 ∧
    (b.regs.resetFlg = 1 → pos b.pc ≤ 22)) ∨
  (QuietR b ∧ PendD t' b) ∨
  (QuietR b ∧ QuietD b ∧ Spec.lastOrder i acts = some false)

theorem both_run {l : Bool} {t t' : BitVec 32} {i : ℕ} (hi : t'.getLsbD i = true) :
    ∀ (evs : List Box.Ev) {b b' : Box} {acts : List Act},
    PendR t b → b.regs.disableFlg = 1 → b.regs.disableTable = t' → pos b.pc ≤ 22 → b.regs.resetFlg = 1 →
    Spec.resetMsgs evs = [] → Spec.disableMsgs evs = [] → Box.run l b evs = some (b', acts) → Both t t' i b' acts := by
  intro evs
  induction evs using List.reverseRecOn with
  | nil =>
    intro b b' acts hq h1 h2 h3 h4 _ _ h
    simp only [Box.run, Option.some.injEq, Prod.mk.injEq] at h
    obtain ⟨rfl, rfl⟩ := h
    exact Or.inl ⟨hq, h1, h2, by omega, fun _ => h3⟩
  | append_singleton evs ev ih =>
    intro b b' acts hq h1 h2 h3 h4 m1 m2 h
    obtain ⟨b1, acts1, a, r1, r2, rfl⟩ := Box.run_snoc h
    rw [resetMsgs_append, List.append_eq_nil_iff] at m1
    rw [disableMsgs_append, List.append_eq_nil_iff] at m2
    have ih := ih hq h1 h2 h3 h4 m1.1 m2.1 r1
    cases ev with
    | recv m =>
      simp only [Box.step, Option.some.injEq, Prod.mk.injEq] at r2
      obtain ⟨rfl, rfl⟩ := r2
      have n1 : Spec.resetIn m = none := by
        have := m1.2
        cases hr : Spec.resetIn m with
        | none => rfl
        | some t => simp [Spec.resetMsgs, hr] at this
      have n2 : Spec.disableIn m = none := by
        have := m2.2
        cases hr : Spec.disableIn m with
        | none => rfl
        | some t => simp [Spec.disableMsgs, hr] at this
      obtain ⟨_, _, _, _, _, _, s7, s8, s9, s10, _⟩ := Regs.receive_spec b1.regs m
      rw [n1] at s7 s8
      rw [n2] at s9 s10
      simp only [Option.getD_none, Option.isSome_none, Bool.false_eq_true, if_false] at s7 s8 s9 s10
      simp only [Option.toList, List.append_nil]
      unfold Both PendR QuietR PendD QuietD at ih ⊢
      simp only [s7, s8, s9, s10]
      exact ih
    | tick e =>
      have r2 : b1.tick l e = some (b', a) := r2
      obtain ⟨t1, t2, f1, f2, lt, p0, p1, p2, p3, p4, p5, p6, p7, p8, a1, a2⟩ := tick_table r2
      rcases ih with ⟨k1, k2, k3, k4, k5⟩ | ⟨k1, k2⟩ | ⟨k1, k2, k3⟩
      · have nd : b1.pc ≠ .disableClear := by intro h; rw [h] at k4; simp [pos] at k4
        have d1 : b'.regs.disableFlg = 1 := by rw [f2, if_neg nd, k2]
        have d2 : b'.regs.disableTable = t' := t2.trans k3
        rcases pendR_tick k1 r2 with ⟨j1, _, _⟩ | ⟨j1, _⟩
        · refine Or.inl ⟨j1, d1, d2, ?_⟩
          rcases pos_cases b1.pc with hp | hp | hp | hp | hp | hp | hp | hp | hp
          · have := (p0 hp).2; exact ⟨by omega, fun _ => by omega⟩
          · rcases k1 with ⟨q1, _⟩ | ⟨_, _, q⟩ | ⟨_, _, q⟩
            · rw [p1 hp, if_pos q1]; simp [pos]
            · rw [hp] at q; cases q
            · rw [hp] at q; cases q
          · rw [p2 hp, f1, if_pos hp]
            exact ⟨by simp [pos], fun h => by simp at h⟩
          · rcases k1 with ⟨q1, _⟩ | ⟨q0, _, q⟩ | ⟨_, _, q⟩
            · have := k5 q1; rw [hp] at this; simp [pos] at this
            · rw [p3 hp, f1, if_neg (by rw [hp]; decide), q0]
              exact ⟨by simp [pos], fun h => by simp at h⟩
            · rw [hp] at q; cases q
          · exfalso
            rcases k1 with ⟨q1, _⟩ | ⟨q0, _, q⟩ | ⟨q0, _, q⟩
            · have := k5 q1; rw [hp] at this; simp [pos] at this
            · rw [hp] at q; cases q
            · rcases j1 with ⟨w, _⟩ | ⟨_, _, w⟩ | ⟨_, _, w⟩
              · rw [f1, if_neg (by rw [hp]; decide), q0] at w; simp at w
              · rw [p4 hp] at w; cases w
              · rw [p4 hp] at w; cases w
          all_goals (rw [hp] at k4; simp [pos] at k4)
        · exact Or.inr (Or.inl ⟨j1, Or.inl ⟨d1, d2⟩⟩)
      · obtain ⟨j1, _⟩ := quietR_tick k1 r2
        rcases pendD_tick k2 r2 with ⟨j2, _, _⟩ | ⟨j2, j3⟩
        · exact Or.inr (Or.inl ⟨j1, j2⟩)
        · refine Or.inr (Or.inr ⟨j1, j2, ?_⟩)
          rw [lastOrder_snoc]
          match a, j3 with
          | none, j3 => cases j3
          | some (.mtr _ _ _), j3 => cases j3
          | some (.rwa _ _), j3 => cases j3
          | some (.reset _), j3 => cases j3
          | some (.disable x), j3 =>
            have : x = t' := by simpa [Spec.disables] using j3
            subst this
            simp only [if_pos hi]
      · obtain ⟨j1, j3⟩ := quietR_tick k1 r2
        obtain ⟨j2, j4⟩ := quietD_tick k2 r2
        refine Or.inr (Or.inr ⟨j1, j2, ?_⟩)
        rw [lastOrder_snoc]
        match a, j3, j4 with
        | none, _, _ => exact k3
        | some (.mtr _ _ _), _, _ => exact k3
        | some (.rwa _ _), _, _ => exact k3
        | some (.reset _), j3, _ => cases j3
        | some (.disable _), _, j4 => cases j4

end ADCS
open ADCS

/-- C51, refuted for both kinds in one cycle: whenever some device is to be taken out of service in the same cycle,
every device that was to be reset ends up out of service, too. The messages reach a box with no table waiting at any
point of its pass before it looks for tables; then other messages and 31 steps of the main loop follow. -/
theorem C51_counterexample_both (leader : Bool) {state ssa : U8} {c c' : Cmds} {msgs : List (List U8)} {b b' : Box}
    {evs : List Box.Ev} {acts : List Act} (hsend : Cmds.send state ssa c = some (msgs, c'))
    (hb : Spec.noTable b)
    (hpc : b.pc ∈ [Pc.imu, .mtrActive, .mtrFlag, .mtrClear, .mtrMode, .mtrX, .mtrY, .mtrZ, .mtrCheck, .mtrAct,
      .rwaActive, .rwaFlag, .rwaClear, .rwaMode, .rwaX, .rwaY, .rwaZ, .rwaCheck, .ssaCheck, .ssaStore, .havtRead,
      .resetFlag])
    (hevs : ∀ m ∈ Spec.messages evs, Spec.resetIn m = none ∧ Spec.disableIn m = none) (ht : 31 ≤ Spec.ticks evs)
    (hrun : Box.run leader b (msgs.map .recv ++ evs) = some (b', acts))
    {i j : ℕ} (hi : i < 19) (hri : c.reset i = true) (hj : j < 19) (hdj : c.disable j = true) :
    Spec.lastOrder i acts = some false ∧ Spec.off b'.hw i := by
  suffices h : Spec.lastOrder i acts = some false from
    ⟨h, C77_off_until_reset leader b _ hi hrun (Or.inl h)⟩
  obtain ⟨qr, qd⟩ := quiet_of_noTable hb
  obtain ⟨m1, _, m2, _, _⟩ := C51_messages hsend
  obtain ⟨t, k1, k2⟩ := m1 ⟨i, hi, hri⟩
  obtain ⟨t', k3, k4⟩ := m2 ⟨j, hj, hdj⟩
  have hm : Spec.messages (msgs.map Box.Ev.recv) = msgs := by
    unfold Spec.messages
    rw [List.filterMap_map]
    show List.filterMap (fun m => some m) msgs = msgs
    simp
  have n1 : Spec.resetMsgs evs = [] := by
    rw [resetMsgs_eq, List.filterMap_eq_nil_iff]; exact fun m hm => (hevs m hm).1
  have n2 : Spec.disableMsgs evs = [] := by
    rw [disableMsgs_eq, List.filterMap_eq_nil_iff]; exact fun m hm => (hevs m hm).2
  have done := disables_done qd (by rw [disableMsgs_eq, hm]; exact k3) n2 ht hrun
  obtain ⟨b1, a1, a2, r1, r2, rfl⟩ := run_split hrun
  -- after the messages: both tables waiting, the main loop where it was
  have recvs : ∀ (ms : List (List U8)) {x y : Box} {as : List Act}, Box.run leader x (ms.map .recv) = some (y, as) →
      as = [] ∧ y.pc = x.pc ∧
      (∀ t, ms.filterMap Spec.resetIn = [t] → y.regs.resetFlg = 1 ∧ y.regs.resetTable = t) ∧
      (ms.filterMap Spec.resetIn = [] → y.regs.resetFlg = x.regs.resetFlg ∧ y.regs.resetTable = x.regs.resetTable) ∧
      (∀ t, ms.filterMap Spec.disableIn = [t] → y.regs.disableFlg = 1 ∧ y.regs.disableTable = t) ∧
      (ms.filterMap Spec.disableIn = [] →
        y.regs.disableFlg = x.regs.disableFlg ∧ y.regs.disableTable = x.regs.disableTable) := by
    intro ms
    induction ms with
    | nil =>
      intro x y as h
      simp only [List.map_nil, Box.run, Option.some.injEq, Prod.mk.injEq] at h
      obtain ⟨rfl, rfl⟩ := h
      simp
    | cons m ms ih =>
      intro x y as h
      simp only [List.map_cons, Box.run, Box.step, Option.map_eq_some_iff] at h
      obtain ⟨⟨bb, aa⟩, r3, he⟩ := h
      simp only [Option.toList, List.nil_append, Prod.mk.injEq] at he
      obtain ⟨rfl, rfl⟩ := he
      obtain ⟨i1, i2, i3, i4, i5, i6⟩ := ih r3
      obtain ⟨_, _, _, _, _, _, s7, s8, s9, s10, _⟩ := Regs.receive_spec x.regs m
      refine ⟨i1, i2, ?_, ?_, ?_, ?_⟩
      · intro t h
        cases hr : Spec.resetIn m with
        | none => rw [List.filterMap_cons_none hr] at h; exact i3 t h
        | some u =>
          rw [List.filterMap_cons_some hr] at h
          simp only [List.cons.injEq] at h
          obtain ⟨w1, w2⟩ := i4 h.2
          rw [w1, w2]
          simp only [s7, s8, hr, h.1]
          exact ⟨rfl, rfl⟩
      · intro h
        cases hr : Spec.resetIn m with
        | none =>
          rw [List.filterMap_cons_none hr] at h
          obtain ⟨w1, w2⟩ := i4 h
          rw [w1, w2]
          simp only [s7, s8, hr]
          exact ⟨rfl, rfl⟩
        | some u => rw [List.filterMap_cons_some hr] at h; cases h
      · intro t h
        cases hr : Spec.disableIn m with
        | none => rw [List.filterMap_cons_none hr] at h; exact i5 t h
        | some u =>
          rw [List.filterMap_cons_some hr] at h
          simp only [List.cons.injEq] at h
          obtain ⟨w1, w2⟩ := i6 h.2
          rw [w1, w2]
          simp only [s9, s10, hr, h.1]
          exact ⟨rfl, rfl⟩
      · intro h
        cases hr : Spec.disableIn m with
        | none =>
          rw [List.filterMap_cons_none hr] at h
          obtain ⟨w1, w2⟩ := i6 h
          rw [w1, w2]
          simp only [s9, s10, hr]
          exact ⟨rfl, rfl⟩
        | some u => rw [List.filterMap_cons_some hr] at h; cases h
  obtain ⟨rfl, c1, c2, _, c4, _⟩ := recvs msgs r1
  have hpos : pos b1.pc ≤ 22 := by
    rw [c1]; revert hpc; cases b.pc <;> simp [pos]
  rw [List.nil_append] at done ⊢
  have := both_run (i := i) (by rw [k4 i hi, hri]; rfl) evs (Or.inl (c2 t k1)) (c4 t' k3).1 (c4 t' k3).2 hpos
    (c2 t k1).1 n1 n2 r2
  rcases this with ⟨_, w, _⟩ | ⟨_, w⟩ | ⟨_, _, w⟩
  · have := done.2.1; rw [w] at this; simp at this
  · rcases w with ⟨w, _⟩ | ⟨_, _, w⟩ | ⟨_, _, w⟩
    · have := done.2.1; rw [w] at this; simp at this
    · have := done.2.2; rw [w] at this; simp at this
    · have := done.2.2; rw [w] at this; simp at this
  · exact w

/-! Non-vacuity. Device 7 is to be reset and device 3 to be taken out of service. -/

example : (Cmds.send 5 0 { Cmds.init with reset := (· == 7), disable := (· == 3) }).isSome = true := by decide +kernel

/-- C51_messages: the tables of that cycle. -/
example : ((Cmds.send 5 0 { Cmds.init with reset := (· == 7), disable := (· == 3) }).map fun r =>
    decide (r.1.filterMap Spec.resetIn = [128] ∧ r.1.filterMap Spec.disableIn = [136])) = some true := by decide +kernel

/-- C51_delivered_partial, C51_counterexample_both, C77: with the box running on, a lone disable order is carried out
once; with both orders device 7 ends up out of service. -/
example : ((Cmds.send 5 0 { Cmds.init with disable := (· == 3) }).bind fun c =>
    (Box.run true (Box.boot true fun _ => true) (c.1.map .recv ++ Spec.ticksOf 60)).map fun r =>
      decide (Spec.lastOrder 3 r.2 = some false ∧ Spec.lastOrder 7 r.2 = none ∧ (Spec.device r.1.hw 3).1 = false ∧
        (Spec.device r.1.hw 7).1 = true ∧ Spec.ticks (Spec.ticksOf 60) = 60)) = some true := by decide +kernel
example : ((Cmds.send 5 0 { Cmds.init with reset := (· == 7), disable := (· == 3) }).bind fun c =>
    (Box.run true (Box.boot true fun _ => true) (c.1.map .recv ++ Spec.ticksOf 60)).map fun r =>
      decide (Spec.lastOrder 7 r.2 = some false ∧ (Spec.device r.1.hw 7).1 = false)) = some true := by decide +kernel
example : Spec.noTable (Box.boot true fun _ => true) ∧ (Box.boot true fun _ => true).pc = .imu := by
  constructor
  · unfold Spec.noTable; decide
  · rfl

end PAN
