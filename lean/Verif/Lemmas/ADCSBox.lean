import Verif.Spec.ADCS
import Mathlib.Tactic.SplitIfs
/-!
Lemmas about the attitude control box: what a message does to each group of registers, and induction over runs.
-/
namespace PAN
namespace ADCS

namespace Regs

/-- `r'` differs from `r` only in registers that no actuator command is kept in. -/
def Minor (r r' : Regs) : Prop :=
  ∃ p sf rf ss vf m1 m2 mf gf gtf pw gd, r' = { r with readPtr := p, speedFlt := sf, rampFlt := rf, ssaMode := ss, voltFlt := vf, mag1Mode := m1, mag2Mode := m2, magFlt := mf, gyrFlt := gf, gyrTempFlt := gtf, gyrPwm := pw, gyrDesired := gd }

theorem Minor.refl (r : Regs) : Minor r r := ⟨_, _, _, _, _, _, _, _, _, _, _, _, rfl⟩

theorem minor_readPtr (r : Regs) (d : List U8) : Minor r (r.recvReadPtr d) := by
  cases d <;> exact ⟨_, _, _, _, _, _, _, _, _, _, _, _, rfl⟩
theorem minor_rampFlt (r : Regs) (d : List U8) : Minor r (r.recvRampFlt d) := by
  cases d <;> exact ⟨_, _, _, _, _, _, _, _, _, _, _, _, rfl⟩
theorem minor_speedFlt (r : Regs) (d : List U8) : Minor r (r.recvSpeedFlt d) := by
  rcases d with _ | ⟨a, _ | ⟨b, d⟩⟩ <;> exact ⟨_, _, _, _, _, _, _, _, _, _, _, _, rfl⟩
theorem minor_ssaMode (r : Regs) (d : List U8) : Minor r (r.recvSsaMode d) := by
  cases d with
  | nil => exact .refl r
  | cons a d =>
    simp only [recvSsaMode]
    split
    · exact ⟨_, _, _, _, _, _, _, _, _, _, _, _, rfl⟩
    · exact .refl r
theorem minor_voltFlt (r : Regs) (d : List U8) : Minor r (r.recvVoltFlt d) := by
  cases d <;> exact ⟨_, _, _, _, _, _, _, _, _, _, _, _, rfl⟩
theorem minor_mag2Mode (r : Regs) (d : List U8) : Minor r (r.recvMag2Mode d) := by
  cases d <;> exact ⟨_, _, _, _, _, _, _, _, _, _, _, _, rfl⟩
theorem minor_mag1Mode (r : Regs) (d : List U8) : Minor r (r.recvMag1Mode d) := by
  rcases d with _ | ⟨a, _ | ⟨b, d⟩⟩ <;> exact ⟨_, _, _, _, _, _, _, _, _, _, _, _, rfl⟩
theorem minor_gyrTempFlt (r : Regs) (d : List U8) : Minor r (r.recvGyrTempFlt d) := by
  cases d <;> exact ⟨_, _, _, _, _, _, _, _, _, _, _, _, rfl⟩
theorem minor_gyrFlt (r : Regs) (d : List U8) : Minor r (r.recvGyrFlt d) := by
  rcases d with _ | ⟨a, _ | ⟨b, d⟩⟩ <;> exact ⟨_, _, _, _, _, _, _, _, _, _, _, _, rfl⟩
theorem minor_magFlt (r : Regs) (d : List U8) : Minor r (r.recvMagFlt d) := by
  rcases d with _ | ⟨a, _ | ⟨b, _ | ⟨c, d⟩⟩⟩ <;> exact ⟨_, _, _, _, _, _, _, _, _, _, _, _, rfl⟩
theorem minor_gyrPwm (r : Regs) (d : List U8) : Minor r (r.recvGyrPwm d) := by
  cases d <;> exact ⟨_, _, _, _, _, _, _, _, _, _, _, _, rfl⟩
theorem minor_gyrDesired (r : Regs) (d : List U8) : Minor r (r.recvGyrDesired d) := by
  cases d <;> exact ⟨_, _, _, _, _, _, _, _, _, _, _, _, rfl⟩

/-- A message is one of those that carry actuator commands, or it changes only minor registers. -/
theorem receive_cases (r : Regs) (m : List U8) :
    (Minor r (r.receive m) ∧ (∀ k ∈ ([1, 3, 4, 10, 11, 12, 28, 29] : List U8), m.head? ≠ some k)) ∨
    (∃ d, m = 1 :: d ∧ r.receive m = r.recvMode d) ∨ (∃ d, m = 3 :: d ∧ r.receive m = r.recvRwaMode d) ∨
    (∃ d, m = 4 :: d ∧ r.receive m = r.recvRwaCmd d) ∨ (∃ d, m = 10 :: d ∧ r.receive m = r.recvMtrMode d) ∨
    (∃ d, m = 11 :: d ∧ r.receive m = r.recvMtrCmd d) ∨ (∃ d, m = 12 :: d ∧ r.receive m = r.recvMtrLimit d) ∨
    (∃ d, m = 28 :: d ∧ r.receive m = r.recvReset d) ∨ (∃ d, m = 29 :: d ∧ r.receive m = r.recvDisable d) := by
  cases m with
  | nil => exact Or.inl ⟨.refl r, by simp⟩
  | cons a d =>
    by_cases h1 : a = 1
    · subst h1; exact Or.inr (Or.inl ⟨d, rfl, rfl⟩)
    by_cases h3 : a = 3
    · subst h3; exact Or.inr (Or.inr (Or.inl ⟨d, rfl, rfl⟩))
    by_cases h4 : a = 4
    · subst h4; exact Or.inr (Or.inr (Or.inr (Or.inl ⟨d, rfl, rfl⟩)))
    by_cases h10 : a = 10
    · subst h10; exact Or.inr (Or.inr (Or.inr (Or.inr (Or.inl ⟨d, rfl, rfl⟩))))
    by_cases h11 : a = 11
    · subst h11; exact Or.inr (Or.inr (Or.inr (Or.inr (Or.inr (Or.inl ⟨d, rfl, rfl⟩)))))
    by_cases h12 : a = 12
    · subst h12; exact Or.inr (Or.inr (Or.inr (Or.inr (Or.inr (Or.inr (Or.inl ⟨d, rfl, rfl⟩))))))
    by_cases h28 : a = 28
    · subst h28; exact Or.inr (Or.inr (Or.inr (Or.inr (Or.inr (Or.inr (Or.inr (Or.inl ⟨d, rfl, rfl⟩)))))))
    by_cases h29 : a = 29
    · subst h29; exact Or.inr (Or.inr (Or.inr (Or.inr (Or.inr (Or.inr (Or.inr (Or.inr ⟨d, rfl, rfl⟩)))))))
    refine Or.inl ⟨?_, by simp; exact ⟨h1, h3, h4, h10, h11, h12, h28, h29⟩⟩
    unfold receive
    simp only [h1, h3, h4, h10, h11, h12, h28, h29, if_false]
    by_cases h2 : a = 2
    · rw [if_pos h2]; exact minor_readPtr r d
    rw [if_neg h2]
    by_cases h6 : a = 6
    · rw [if_pos h6]; exact minor_speedFlt r d
    rw [if_neg h6]
    by_cases h7 : a = 7
    · rw [if_pos h7]; exact minor_rampFlt r d
    rw [if_neg h7]
    by_cases h14 : a = 14
    · rw [if_pos h14]; exact minor_ssaMode r d
    rw [if_neg h14]
    by_cases h16 : a = 16
    · rw [if_pos h16]; exact minor_voltFlt r d
    rw [if_neg h16]
    by_cases h19 : a = 19
    · rw [if_pos h19]; exact minor_mag1Mode r d
    rw [if_neg h19]
    by_cases h20 : a = 20
    · rw [if_pos h20]; exact minor_mag2Mode r d
    rw [if_neg h20]
    by_cases h22 : a = 22
    · rw [if_pos h22]; exact minor_magFlt r d
    rw [if_neg h22]
    by_cases h23 : a = 23
    · rw [if_pos h23]; exact minor_gyrFlt r d
    rw [if_neg h23]
    by_cases h24 : a = 24
    · rw [if_pos h24]; exact minor_gyrTempFlt r d
    rw [if_neg h24]
    by_cases h25 : a = 25
    · rw [if_pos h25]; exact minor_gyrPwm r d
    rw [if_neg h25]
    by_cases h26 : a = 26
    · rw [if_pos h26]; exact minor_gyrDesired r d
    rw [if_neg h26]
    exact .refl r

/-- What the message functions change, for the actuator registers. -/
theorem recvMode_form (r : Regs) (d : List U8) :
    ∃ p, r.recvMode d = { r with mode := (d.head?).getD r.mode, readPtr := p } := by
  rcases d with _ | ⟨a, _ | ⟨b, d⟩⟩ <;> exact ⟨_, rfl⟩

theorem recvMtrLimit_form (r : Regs) (d : List U8) :
    ∃ l, r.recvMtrLimit d = { r with mtrLimit := l, mtrFlg := if d = [] then r.mtrFlg else 1 } := by
  rcases d with _ | ⟨a, _ | ⟨b, d⟩⟩ <;> exact ⟨_, rfl⟩

theorem recvMtrCmd_form (r : Regs) (d : List U8) :
    ∃ l, r.recvMtrCmd d = { r with
      mtrCmd := (Spec.six maxMoment d).getD r.mtrCmd, mtrLimit := l
      mtrFlg := if 6 ≤ d.length then 1 else r.mtrFlg } := by
  rcases d with _ | ⟨a, _ | ⟨b, _ | ⟨c, _ | ⟨d, _ | ⟨e, _ | ⟨f, g⟩⟩⟩⟩⟩⟩
  · exact ⟨_, rfl⟩
  · exact ⟨_, rfl⟩
  · exact ⟨_, rfl⟩
  · exact ⟨_, rfl⟩
  · exact ⟨_, rfl⟩
  · exact ⟨_, rfl⟩
  · simp only [recvMtrCmd]
    obtain ⟨l, hl⟩ := recvMtrLimit_form
      { r with mtrCmd := (⟨le16 a b, le16 c d, le16 e f⟩ : V3 (BitVec 16)).map (fpS · (-maxMoment) maxMoment), mtrFlg := 1 } g
    refine ⟨l, ?_⟩
    rw [hl]
    simp [Spec.six, V3.map, le16]

theorem recvMtrMode_form (r : Regs) (d : List U8) :
    ∃ l, r.recvMtrMode d = { r with
      mtrMode := (d.head?).getD r.mtrMode, mtrCmd := (Spec.six maxMoment d.tail).getD r.mtrCmd, mtrLimit := l
      mtrFlg := if 7 ≤ d.length then 1 else r.mtrFlg } := by
  cases d with
  | nil => exact ⟨_, rfl⟩
  | cons m d =>
    obtain ⟨l, hl⟩ := recvMtrCmd_form { r with mtrMode := m } d
    refine ⟨l, ?_⟩
    simp only [recvMtrMode]
    rw [hl]
    simp

theorem six_none {s : ℚ} {d : List U8} (h : d.length < 6) : Spec.six s d = none := by
  rcases d with _ | ⟨a, _ | ⟨b, _ | ⟨c, _ | ⟨d, _ | ⟨e, _ | ⟨f, g⟩⟩⟩⟩⟩⟩ <;> simp [Spec.six] at h ⊢
  omega

theorem recvRwaCmd_form (r : Regs) (d : List U8) :
    r.recvRwaCmd d = { r with
      rwaCmd := (Spec.wheelUnits r.rwaMode d).getD r.rwaCmd
      rwaFlg := if (Spec.wheelUnits r.rwaMode d).isSome then 1 else r.rwaFlg } := by
  rcases d with _ | ⟨a, _ | ⟨b, _ | ⟨c, _ | ⟨d, _ | ⟨e, _ | ⟨f, g⟩⟩⟩⟩⟩⟩
  case cons.cons.cons.cons.cons.cons =>
    simp only [recvRwaCmd]
    by_cases h2 : r.rwaMode = 2
    · simp [h2, Spec.wheelUnits, Spec.six, V3.map, le16]
    · by_cases h1 : r.rwaMode = 1
      · simp [h1, Spec.wheelUnits, Spec.six, V3.map, le16]
      · simp only [Spec.wheelUnits, if_neg h1, if_neg h2]; rfl
  all_goals
    have : ∀ (m : U8) (l : List U8), l.length < 6 → Spec.wheelUnits m l = none := by
      intro m l hl
      unfold Spec.wheelUnits
      split
      · exact six_none hl
      · split
        · exact six_none hl
        · rfl
    rw [this _ _ (by simp)]
    rfl

theorem recvRwaMode_form (r : Regs) (d : List U8) :
    r.recvRwaMode d = { r with
      rwaMode := (d.head?).getD r.rwaMode
      rwaCmd := (Spec.wheelUnits ((d.head?).getD r.rwaMode) d.tail).getD r.rwaCmd
      rwaFlg := if (Spec.wheelUnits ((d.head?).getD r.rwaMode) d.tail).isSome then 1 else r.rwaFlg } := by
  cases d with
  | nil =>
    have : Spec.wheelUnits r.rwaMode [] = none := by
      unfold Spec.wheelUnits
      split
      · rfl
      · split <;> rfl
    simp [recvRwaMode, this]
  | cons m d =>
    simp only [recvRwaMode]
    rw [recvRwaCmd_form]
    rfl

theorem recvReset_form (r : Regs) (d : List U8) :
    r.recvReset d = { r with
      resetTable := if d = [] then r.resetTable else le32 d, resetFlg := if d = [] then r.resetFlg else 1 } := by
  unfold recvReset
  split <;> simp

theorem recvDisable_form (r : Regs) (d : List U8) :
    r.recvDisable d = { r with
      disableTable := if d = [] then r.disableTable else le32 d, disableFlg := if d = [] then r.disableFlg else 1 } := by
  unfold recvDisable
  split <;> simp

/-- The effect of any message on the registers of actuator commands, in terms of the specification of messages. -/
theorem receive_spec (r : Regs) (m : List U8) :
    let r' := r.receive m
    r'.mode = (Spec.modeIn m).getD r.mode ∧
    r'.mtrCmd = (Spec.momentIn m).getD r.mtrCmd ∧
    r'.mtrFlg = (if Spec.drivesRods m then 1 else r.mtrFlg) ∧
    r'.rwaMode = (Spec.wheelModeIn m).getD r.rwaMode ∧
    r'.rwaCmd = ((Spec.wheelBytes m).bind (Spec.wheelUnits r'.rwaMode)).getD r.rwaCmd ∧
    r'.rwaFlg = (if ((Spec.wheelBytes m).bind (Spec.wheelUnits r'.rwaMode)).isSome then 1 else r.rwaFlg) ∧
    r'.resetTable = (Spec.resetIn m).getD r.resetTable ∧
    r'.resetFlg = (if (Spec.resetIn m).isSome then 1 else r.resetFlg) ∧
    r'.disableTable = (Spec.disableIn m).getD r.disableTable ∧
    r'.disableFlg = (if (Spec.disableIn m).isSome then 1 else r.disableFlg) ∧
    r'.sunVec = r.sunVec ∧ r'.havtRead = r.havtRead := by
  intro r'
  have wn : ∀ (k : U8) (l : List U8), l.length < 6 → Spec.wheelUnits k l = none := by
    intro k l hl
    unfold Spec.wheelUnits
    split
    · exact six_none hl
    · split
      · exact six_none hl
      · rfl
  rcases receive_cases r m with ⟨⟨p, sf, rf, ss, vf, m1, m2, mf, gf, gtf, pw, gd, h⟩, hn⟩ | ⟨d, rfl, h⟩ | ⟨d, rfl, h⟩ |
    ⟨d, rfl, h⟩ | ⟨d, rfl, h⟩ | ⟨d, rfl, h⟩ | ⟨d, rfl, h⟩ | ⟨d, rfl, h⟩ | ⟨d, rfl, h⟩
  · have h' : r' = _ := h
    rw [h']
    cases m with
    | nil => simp [Spec.modeIn, Spec.momentIn, Spec.drivesRods, Spec.wheelModeIn, Spec.wheelBytes, Spec.resetIn, Spec.disableIn]
    | cons a d =>
      have n1 : a ≠ 1#8 := fun e => hn 1 (by decide) (by rw [e]; rfl)
      have n3 : a ≠ 3#8 := fun e => hn 3 (by decide) (by rw [e]; rfl)
      have n4 : a ≠ 4#8 := fun e => hn 4 (by decide) (by rw [e]; rfl)
      have n10 : a ≠ 10#8 := fun e => hn 10 (by decide) (by rw [e]; rfl)
      have n11 : a ≠ 11#8 := fun e => hn 11 (by decide) (by rw [e]; rfl)
      have n12 : a ≠ 12#8 := fun e => hn 12 (by decide) (by rw [e]; rfl)
      have n28 : a ≠ 28#8 := fun e => hn 28 (by decide) (by rw [e]; rfl)
      have n29 : a ≠ 29#8 := fun e => hn 29 (by decide) (by rw [e]; rfl)
      cases d <;>
        simp [Spec.modeIn, Spec.momentIn, Spec.drivesRods, Spec.wheelModeIn, Spec.wheelBytes, Spec.resetIn,
          Spec.disableIn, n1, n3, n4, n10, n11, n12, n28, n29]
  · obtain ⟨p, hf⟩ := recvMode_form r d
    have h' : r' = _ := h.trans hf
    rw [h']
    cases d <;>
      simp [Spec.modeIn, Spec.momentIn, Spec.drivesRods, Spec.wheelModeIn, Spec.wheelBytes, Spec.resetIn, Spec.disableIn]
  · have h' : r' = _ := h.trans (recvRwaMode_form r d)
    rw [h']
    cases d with
    | nil =>
      simp [Spec.modeIn, Spec.momentIn, Spec.drivesRods, Spec.wheelModeIn, Spec.wheelBytes, Spec.resetIn, Spec.disableIn, wn]
    | cons k d =>
      by_cases hl : 6 ≤ d.length
      · simp [Spec.modeIn, Spec.momentIn, Spec.drivesRods, Spec.wheelModeIn, Spec.wheelBytes, Spec.resetIn, Spec.disableIn, hl]
        congr
      · simp [Spec.modeIn, Spec.momentIn, Spec.drivesRods, Spec.wheelModeIn, Spec.wheelBytes, Spec.resetIn, Spec.disableIn, hl,
          wn k d (by omega)]
  · have h' : r' = _ := h.trans (recvRwaCmd_form r d)
    rw [h']
    by_cases hl : 6 ≤ d.length
    · cases d <;>
        simp_all [Spec.modeIn, Spec.momentIn, Spec.drivesRods, Spec.wheelModeIn, Spec.wheelBytes, Spec.resetIn, Spec.disableIn]
    · rw [wn r.rwaMode d (by omega)]
      have hw : Spec.wheelBytes (4 :: d) = none := by simp [Spec.wheelBytes, hl]
      rw [hw]
      cases d <;> simp [Spec.modeIn, Spec.momentIn, Spec.drivesRods, Spec.wheelModeIn, Spec.resetIn, Spec.disableIn]
  · obtain ⟨l, hf⟩ := recvMtrMode_form r d
    have h' : r' = _ := h.trans hf
    rw [h']
    cases d <;>
      simp [Spec.modeIn, Spec.momentIn, Spec.drivesRods, Spec.wheelModeIn, Spec.wheelBytes, Spec.resetIn, Spec.disableIn]
  · obtain ⟨l, hf⟩ := recvMtrCmd_form r d
    have h' : r' = _ := h.trans hf
    rw [h']
    cases d <;>
      simp [Spec.modeIn, Spec.momentIn, Spec.drivesRods, Spec.wheelModeIn, Spec.wheelBytes, Spec.resetIn, Spec.disableIn]
  · obtain ⟨l, hf⟩ := recvMtrLimit_form r d
    have h' : r' = _ := h.trans hf
    rw [h']
    cases d <;>
      simp [Spec.modeIn, Spec.momentIn, Spec.drivesRods, Spec.wheelModeIn, Spec.wheelBytes, Spec.resetIn, Spec.disableIn]
  · have h' : r' = _ := h.trans (recvReset_form r d)
    rw [h']
    cases d <;>
      simp [Spec.modeIn, Spec.momentIn, Spec.drivesRods, Spec.wheelModeIn, Spec.wheelBytes, Spec.resetIn, Spec.disableIn]
  · have h' : r' = _ := h.trans (recvDisable_form r d)
    rw [h']
    cases d <;>
      simp [Spec.modeIn, Spec.momentIn, Spec.drivesRods, Spec.wheelModeIn, Spec.wheelBytes, Spec.resetIn, Spec.disableIn]

end Regs
end ADCS
end PAN
