import Verif.Props.ADCSWheelReadings

/-!
C93 and C94, continued: the setting of the torque filter has no effect, and the mounting of the inertial sensors.
-/
namespace PAN
open Spec ADCS

namespace Spec

/-- The message sets the filter of the torque readings (address 7). -/
def setsTorqueFilter : REv → Bool
  | .recv (a :: _) => a == 7
  | _ => false

/-- The vector product. -/
def vecProd (u v : V3 ℚ) : V3 ℚ := ⟨u.y * v.z - u.z * v.y, u.z * v.x - u.x * v.z, u.x * v.y - u.y * v.x⟩

/-- The scalar product. -/
def scalProd (u v : V3 ℚ) : ℚ := u.x * v.x + u.y * v.y + u.z * v.z

/-- Turning a body from one position to another: lengths, angles and handedness are kept. -/
def IsRotation (f : V3 ℚ → V3 ℚ) : Prop := ∀ u v, scalProd (f u) (f v) = scalProd u v ∧ vecProd (f u) (f v) = f (vecProd u v)

/-- Turning and mirroring: lengths and angles are kept, handedness is not. -/
def IsMirrored (f : V3 ℚ → V3 ℚ) : Prop :=
  ∀ u v, scalProd (f u) (f v) = scalProd u v ∧ vecProd (f u) (f v) = (f (vecProd u v)).map fun x => -x

end Spec

namespace ADCS

/-- Without the setting. -/
def Regs.noRamp (r : Regs) : Regs := { r with rampFlt := 0 }
def Box.noRamp (b : Box) : Box := { b with regs := b.regs.noRamp }
def RBox.noRamp (s : RBox) : RBox := { s with box := s.box.noRamp }

theorem noRamp_if {p : Prop} [Decidable p] {a b c d : Regs} (h1 : a.noRamp = c.noRamp) (h2 : b.noRamp = d.noRamp) :
    (if p then a else b).noRamp = (if p then c else d).noRamp := by
  split
  · exact h1
  · exact h2

theorem rwaCmd_noRamp (r : Regs) (d : List U8) : (r.noRamp.recvRwaCmd d).noRamp = (r.recvRwaCmd d).noRamp := by
  unfold Regs.recvRwaCmd
  split
  · exact noRamp_if rfl (noRamp_if rfl rfl)
  · rfl

theorem mtrLimit_noRamp (r : Regs) (d : List U8) : (r.noRamp.recvMtrLimit d).noRamp = (r.recvMtrLimit d).noRamp := by
  unfold Regs.recvMtrLimit
  split <;> rfl

theorem mtrCmd_noRamp (r : Regs) (d : List U8) : (r.noRamp.recvMtrCmd d).noRamp = (r.recvMtrCmd d).noRamp := by
  unfold Regs.recvMtrCmd
  split
  · rename_i a b c e f g rest
    exact mtrLimit_noRamp { r with mtrCmd := V3.map (fpS · (-maxMoment) maxMoment) ⟨le16 a b, le16 c e, le16 f g⟩, mtrFlg := 1 } rest
  · rfl

theorem receive_noRamp (r : Regs) (d : List U8) : (r.noRamp.receive d).noRamp = (r.receive d).noRamp := by
  cases d with
  | nil => rfl
  | cons a d =>
    have h1 : (r.noRamp.recvMode d).noRamp = (r.recvMode d).noRamp := by rcases d with _ | ⟨_, _ | ⟨_, _⟩⟩ <;> rfl
    have h2 : (r.noRamp.recvReadPtr d).noRamp = (r.recvReadPtr d).noRamp := by cases d <;> rfl
    have h3 : (r.noRamp.recvRwaMode d).noRamp = (r.recvRwaMode d).noRamp := by
      cases d with
      | nil => rfl
      | cons m d => exact rwaCmd_noRamp { r with rwaMode := m } d
    have h6 : (r.noRamp.recvSpeedFlt d).noRamp = (r.recvSpeedFlt d).noRamp := by rcases d with _ | ⟨_, _ | ⟨_, _⟩⟩ <;> rfl
    have h7 : (r.noRamp.recvRampFlt d).noRamp = (r.recvRampFlt d).noRamp := by cases d <;> rfl
    have h10 : (r.noRamp.recvMtrMode d).noRamp = (r.recvMtrMode d).noRamp := by
      cases d with
      | nil => rfl
      | cons m d => exact mtrCmd_noRamp { r with mtrMode := m } d
    have h14 : (r.noRamp.recvSsaMode d).noRamp = (r.recvSsaMode d).noRamp := by
      cases d with
      | nil => rfl
      | cons m d => exact noRamp_if rfl rfl
    have h16 : (r.noRamp.recvVoltFlt d).noRamp = (r.recvVoltFlt d).noRamp := by cases d <;> rfl
    have h19 : (r.noRamp.recvMag1Mode d).noRamp = (r.recvMag1Mode d).noRamp := by rcases d with _ | ⟨_, _ | ⟨_, _⟩⟩ <;> rfl
    have h20 : (r.noRamp.recvMag2Mode d).noRamp = (r.recvMag2Mode d).noRamp := by cases d <;> rfl
    have h22 : (r.noRamp.recvMagFlt d).noRamp = (r.recvMagFlt d).noRamp := by
      rcases d with _ | ⟨_, _ | ⟨_, _ | ⟨_, _⟩⟩⟩ <;> rfl
    have h23 : (r.noRamp.recvGyrFlt d).noRamp = (r.recvGyrFlt d).noRamp := by rcases d with _ | ⟨_, _ | ⟨_, _⟩⟩ <;> rfl
    have h24 : (r.noRamp.recvGyrTempFlt d).noRamp = (r.recvGyrTempFlt d).noRamp := by cases d <;> rfl
    have h25 : (r.noRamp.recvGyrPwm d).noRamp = (r.recvGyrPwm d).noRamp := by cases d <;> rfl
    have h26 : (r.noRamp.recvGyrDesired d).noRamp = (r.recvGyrDesired d).noRamp := by cases d <;> rfl
    have h28 : (r.noRamp.recvReset d).noRamp = (r.recvReset d).noRamp := by cases d <;> rfl
    have h29 : (r.noRamp.recvDisable d).noRamp = (r.recvDisable d).noRamp := by cases d <;> rfl
    unfold Regs.receive
    exact noRamp_if h1 (noRamp_if h2 (noRamp_if h3 (noRamp_if (rwaCmd_noRamp r d) (noRamp_if h6 (noRamp_if h7 (noRamp_if h10
      (noRamp_if (mtrCmd_noRamp r d) (noRamp_if (mtrLimit_noRamp r d) (noRamp_if h14 (noRamp_if h16 (noRamp_if h19
      (noRamp_if h20 (noRamp_if h22 (noRamp_if h23 (noRamp_if h24 (noRamp_if h25 (noRamp_if h26 (noRamp_if h28
      (noRamp_if h29 rfl)))))))))))))))))))

theorem receive_seven (r : Regs) (d : List U8) : (r.receive (7 :: d)).noRamp = r.noRamp := by
  cases d <;> rfl

theorem tick_noRamp (l : Bool) (e : Env) (b : Box) : b.noRamp.tick l e = (b.tick l e).map fun r => (r.1.noRamp, r.2) := by
  obtain ⟨regs, hw, pc, lm, lc, lt⟩ := b
  cases pc
  case rwaCheck =>
    show (if regs.rwaFlg = 0 then _ else _) = Option.map _ (if regs.rwaFlg = 0 then _ else _)
    by_cases h : regs.rwaFlg = 0
    · rw [if_pos h, if_pos h, Option.map_map]; rfl
    · rw [if_neg h, if_neg h]; rfl
  case resetCheck =>
    show (if regs.resetFlg = 0 then _ else _) = Option.map _ (if regs.resetFlg = 0 then _ else _)
    by_cases h : regs.resetFlg = 0
    · rw [if_pos h, if_pos h]; rfl
    · rw [if_neg h, if_neg h]; rfl
  case disableCheck =>
    show (if regs.disableFlg = 0 then _ else _) = Option.map _ (if regs.disableFlg = 0 then _ else _)
    by_cases h : regs.disableFlg = 0
    · rw [if_pos h, if_pos h]; rfl
    · rw [if_neg h, if_neg h]; rfl
  all_goals rfl

/-- A step does not look at the setting. -/
theorem step_noRamp (l : Bool) (ev : REv) {s t : RBox} (h : s.noRamp = t.noRamp) :
    (s.step l ev).map (fun r => r.1.noRamp) = (t.step l ev).map fun r => r.1.noRamp := by
  have key : ∀ u : RBox, (u.step l ev).map (fun r => r.1.noRamp) = (u.noRamp.step l ev).map fun r => r.1.noRamp := by
    intro u
    cases ev with
    | recv d =>
      show some _ = some _
      have := receive_noRamp u.box.regs d
      show some (RBox.mk { u.box with regs := (u.box.regs.receive d).noRamp } u.rd) =
        some (RBox.mk { u.box with regs := (u.box.regs.noRamp.receive d).noRamp } u.rd)
      rw [this]
    | tick e =>
      have ht := tick_noRamp l { e.env with gyr := e.gyr.map fun _ => (u.tickRd e).temp } u.box
      show Option.map _ (Option.map _ (u.box.tick l { e.env with gyr := e.gyr.map fun _ => (u.tickRd e).temp })) =
        Option.map (fun r => r.1.noRamp) (Option.map (fun r => ((⟨r.1, u.tickRd e⟩ : RBox), r.2))
          (u.box.noRamp.tick l { e.env with gyr := e.gyr.map fun _ => (u.tickRd e).temp }))
      rw [ht]
      simp only [Option.map_map]
      rfl
  rw [key s, key t, h]

/-- Nor does a run, and messages that only set it may be left out. -/
theorem run_noRamp (l : Bool) (evs : List REv) {s t : RBox} (h : s.noRamp = t.noRamp) :
    (s.run l evs).map RBox.noRamp = (t.run l (evs.filter fun ev => !setsTorqueFilter ev)).map RBox.noRamp := by
  induction evs generalizing s t with
  | nil => exact congrArg some h
  | cons ev evs ih =>
    by_cases hs : setsTorqueFilter ev = true
    · rw [List.filter_cons_of_neg (by simp [hs])]
      obtain ⟨d, rfl⟩ : ∃ d, ev = .recv (7 :: d) := by
        rcases ev with d | e
        · rcases d with _ | ⟨a, d⟩
          · exact absurd hs (by decide)
          · have : a = 7 := by simpa [setsTorqueFilter] using hs
            exact ⟨d, by rw [this]⟩
        · exact absurd hs (by simp [setsTorqueFilter])
      refine ih (s := { s with box := { s.box with regs := s.box.regs.receive (7 :: d) } }) (Eq.trans ?_ h)
      show RBox.mk { s.box with regs := (s.box.regs.receive (7 :: d)).noRamp } s.rd = RBox.mk { s.box with regs := s.box.regs.noRamp } s.rd
      rw [receive_seven]
    · rw [List.filter_cons_of_pos (by simp [hs])]
      have h1 := step_noRamp l ev h
      show Option.map _ (match s.step l ev with | none => none | some (s', _) => RBox.run l s' evs) =
        Option.map _ (match t.step l ev with | none => none | some (s', _) => RBox.run l s' _)
      revert h1
      generalize s.step l ev = x
      generalize t.step l ev = y
      intro h1
      cases x with
      | none => cases y with
        | none => rfl
        | some y => exact absurd h1 (by simp)
      | some x => cases y with
        | none => exact absurd h1 (by simp)
        | some y => exact ih (Option.some.inj h1)

end ADCS

/-- **C93, finding.** The setting of the torque filter has no effect: leave out of any history all messages to its address,
and the box runs just as well, with the same readings and the same devices, and answers every request alike. -/
theorem C93_counterexample_ramp_filter (leader : Bool) (s s1 : RBox) (evs : List REv) (h : s.run leader evs = some s1) :
    ∃ s2, s.run leader (evs.filter fun ev => !setsTorqueFilter ev) = some s2 ∧
      s2.request = s1.request ∧ s2.rd = s1.rd ∧ s2.box.hw = s1.box.hw := by
  have h1 := run_noRamp leader evs (rfl : s.noRamp = s.noRamp)
  rw [h] at h1
  cases h2 : s.run leader (evs.filter fun ev => !setsTorqueFilter ev) with
  | none => rw [h2] at h1; exact absurd h1 (by simp)
  | some s2 =>
    rw [h2] at h1
    have h3 : s1.noRamp = s2.noRamp := Option.some.inj h1
    refine ⟨s2, rfl, ?_, ?_, ?_⟩
    · exact (congrArg RBox.request h3).symm
    · exact (congrArg RBox.rd h3).symm
    · exact (congrArg (fun u => u.box.hw) h3).symm

/-- A message that sets the torque filter, and one that reads the wheels. -/
example (pot : Bool) (sensors : ℕ → Bool) :
    ∃ s1, (RBox.boot pot sensors).run true [.recv [7, 128], .recv [2, 8]] = some s1 ∧ s1.box.regs.readPtr = 8 ∧
      ([.recv [7, 128], .recv [2, 8]] : List REv).filter (fun ev => !setsTorqueFilter ev) = [.recv [2, 8]] :=
  ⟨_, rfl, rfl, rfl⟩

/-- **C94.** The gyroscope's readings are turned into the body frame. -/
theorem C94_gyroscope_turned : IsRotation Rd.gyrToBody := by
  intro u v
  obtain ⟨a, b, c⟩ := u
  obtain ⟨d, e, f⟩ := v
  constructor
  · simp only [scalProd, Rd.gyrToBody]; ring
  · simp only [vecProd, Rd.gyrToBody, V3.mk.injEq]; refine ⟨?_, ?_, ?_⟩ <;> ring

/-- **C94, finding.** Those of both magnetometers are turned and mirrored, which no mounting of a chip does: either the chip's
axes are left-handed, or an axis has the wrong sign. -/
theorem C94_counterexample_mirrored : IsMirrored Rd.mag1ToBody ∧ IsMirrored Rd.mag2ToBody ∧
    ¬ IsRotation Rd.mag1ToBody ∧ ¬ IsRotation Rd.mag2ToBody := by
  refine ⟨?_, ?_, ?_, ?_⟩
  · rintro ⟨a, b, c⟩ ⟨d, e, f⟩
    constructor
    · simp only [scalProd, Rd.mag1ToBody]; ring
    · simp only [vecProd, Rd.mag1ToBody, V3.map, V3.mk.injEq]; refine ⟨?_, ?_, ?_⟩ <;> ring
  · rintro ⟨a, b, c⟩ ⟨d, e, f⟩
    constructor
    · simp only [scalProd, Rd.mag2ToBody]; ring
    · simp only [vecProd, Rd.mag2ToBody, V3.map, V3.mk.injEq]; refine ⟨?_, ?_, ?_⟩ <;> ring
  · intro h
    have := congrArg V3.x (h ⟨0, 1, 0⟩ ⟨0, 0, 1⟩).2
    norm_num [vecProd, Rd.mag1ToBody] at this
  · intro h
    have := congrArg V3.y (h ⟨1, 0, 0⟩ ⟨0, 1, 0⟩).2
    norm_num [vecProd, Rd.mag2ToBody] at this

/-- Neither is a rotation or a mirror image when an axis is lost. -/
example : ¬ IsRotation (fun v => ⟨v.x, v.y, 0⟩) ∧ ¬ IsMirrored (fun v => ⟨v.x, v.y, 0⟩) := by
  constructor <;> intro h
  · have := (h ⟨0, 0, 1⟩ ⟨0, 0, 1⟩).1
    norm_num [scalProd] at this
  · have := (h ⟨0, 0, 1⟩ ⟨0, 0, 1⟩).1
    norm_num [scalProd] at this

end PAN
