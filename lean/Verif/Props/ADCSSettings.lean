import Verif.Props.System
import Verif.Props.ADCSWheels
/-!
The settings that the flight computer sends to the attitude control box in every cycle, beside the actuator commands:
C92.
-/
namespace PAN
open ADCS

namespace Spec

/-- The settings of the box are those commanded: the numbers up to the resolution of the bus format, whose steps are
1/255 or 1/65535 of the range (plus a fortieth for the rounding). -/
structure SettingsArrived (c : Cmds) (r : Regs) : Prop where
  speedFlt : |r.speedFlt - c.speedFlt| ≤ 41 / 40 * (1 / 255)
  rampFlt : |r.rampFlt - c.rampFlt| ≤ 41 / 40 * (1 / 255)
  mtrMode : r.mtrMode = c.mtrMode
  limit : |r.mtrLimit - c.limit| ≤ 41 / 40 * (2 * maxMoment / 65535)
  voltFlt : |r.voltFlt - c.voltFlt| ≤ 41 / 40 * (1 / 255)
  magFlt : |r.magFlt - c.magFlt| ≤ 41 / 40 * (1 / 255)
  gyrFlt : |r.gyrFlt - c.gyrFlt| ≤ 41 / 40 * (1 / 255)
  gyrTempFlt : |r.gyrTempFlt - c.gyrTempFlt| ≤ 41 / 40 * (1 / 255)
  gyrPwm : r.gyrPwm = c.gyrPwm
  gyrDesired : |r.gyrDesired - c.gyrDesired| ≤ 41 / 40 * (125 / 255)

end Spec
open Spec

namespace ADCS

/-- The registers of the settings. -/
structure Sett where
  speedFlt : ℚ
  rampFlt : ℚ
  mtrMode : U8
  mtrLimit : ℚ
  voltFlt : ℚ
  magFlt : ℚ
  gyrFlt : ℚ
  gyrTempFlt : ℚ
  gyrPwm : U8
  gyrDesired : ℚ

def Regs.sett (r : Regs) : Sett :=
  ⟨r.speedFlt, r.rampFlt, r.mtrMode, r.mtrLimit, r.voltFlt, r.magFlt, r.gyrFlt, r.gyrTempFlt, r.gyrPwm, r.gyrDesired⟩

theorem sett_rwaCmd (r : Regs) (d : List U8) : (r.recvRwaCmd d).sett = r.sett := by
  rw [Regs.recvRwaCmd_form]
  rfl

theorem sett_mtrLimit {r1 r2 : Regs} (h : r1.sett = r2.sett) (d : List U8) :
    (r1.recvMtrLimit d).sett = (r2.recvMtrLimit d).sett := by
  have e : ∀ {r1 r2 : Regs} (l : ℚ) (f : U8), r1.sett = r2.sett → ({ r1 with mtrLimit := l, mtrFlg := f } : Regs).sett =
      ({ r2 with mtrLimit := l, mtrFlg := f } : Regs).sett := fun l _ h => congrArg (fun s : Sett => { s with mtrLimit := l }) h
  rcases d with _ | ⟨a, _ | ⟨b, d⟩⟩
  · exact h
  · exact e _ _ h
  · exact e _ _ h

theorem sett_mtrCmd {r1 r2 : Regs} (h : r1.sett = r2.sett) (d : List U8) :
    (r1.recvMtrCmd d).sett = (r2.recvMtrCmd d).sett := by
  rcases d with _ | ⟨a, _ | ⟨b, _ | ⟨c, _ | ⟨d, _ | ⟨e, _ | ⟨f, g⟩⟩⟩⟩⟩⟩
  all_goals first
    | exact h
    | (simp only [Regs.recvMtrCmd]
       refine sett_mtrLimit ?_ g
       have e : ∀ (r : Regs) (l : V3 ℚ) (f : U8), ({ r with mtrCmd := l, mtrFlg := f } : Regs).sett = r.sett := fun _ _ _ => rfl
       exact (e r1 _ _).trans (h.trans (e r2 _ _).symm))

theorem sett_mtrMode {r1 r2 : Regs} (h : r1.sett = r2.sett) (d : List U8) :
    (r1.recvMtrMode d).sett = (r2.recvMtrMode d).sett := by
  rcases d with _ | ⟨a, d⟩
  · exact h
  · simp only [Regs.recvMtrMode]
    refine sett_mtrCmd ?_ d
    exact congrArg (fun s : Sett => { s with mtrMode := a }) h

theorem sett_mode (r : Regs) (d : List U8) : (r.recvMode d).sett = r.sett := by
  obtain ⟨p, hp⟩ := Regs.recvMode_form r d
  rw [hp]
  rfl

theorem sett_ssaMode (r : Regs) (d : List U8) : (r.recvSsaMode d).sett = r.sett := by
  rcases d with _ | ⟨x, d⟩
  · rfl
  · unfold Regs.recvSsaMode; dsimp only; split_ifs <;> rfl

theorem sett_rwaMode (r : Regs) (d : List U8) : (r.recvRwaMode d).sett = r.sett := by
  rcases d with _ | ⟨x, d⟩
  · rfl
  · show (Regs.recvRwaCmd _ d).sett = _
    rw [sett_rwaCmd]
    rfl

theorem sett_reset (r : Regs) (d : List U8) : (r.recvReset d).sett = r.sett := by
  unfold Regs.recvReset; split_ifs <;> rfl

theorem sett_disable (r : Regs) (d : List U8) : (r.recvDisable d).sett = r.sett := by
  unfold Regs.recvDisable; split_ifs <;> rfl

/-- What a message makes of the settings depends on the settings alone. -/
theorem sett_congr {r1 r2 : Regs} (h : r1.sett = r2.sett) (m : List U8) : (r1.receive m).sett = (r2.receive m).sett := by
  have eSf : ∀ {r1 r2 : Regs} (x : ℚ), r1.sett = r2.sett → ({ r1 with speedFlt := x } : Regs).sett =
      ({ r2 with speedFlt := x } : Regs).sett := fun x h => congrArg (fun s : Sett => { s with speedFlt := x }) h
  have eRf : ∀ {r1 r2 : Regs} (x : ℚ), r1.sett = r2.sett → ({ r1 with rampFlt := x } : Regs).sett =
      ({ r2 with rampFlt := x } : Regs).sett := fun x h => congrArg (fun s : Sett => { s with rampFlt := x }) h
  have eVf : ∀ {r1 r2 : Regs} (x : ℚ), r1.sett = r2.sett → ({ r1 with voltFlt := x } : Regs).sett =
      ({ r2 with voltFlt := x } : Regs).sett := fun x h => congrArg (fun s : Sett => { s with voltFlt := x }) h
  have eMf : ∀ {r1 r2 : Regs} (x : ℚ), r1.sett = r2.sett → ({ r1 with magFlt := x } : Regs).sett =
      ({ r2 with magFlt := x } : Regs).sett := fun x h => congrArg (fun s : Sett => { s with magFlt := x }) h
  have eGf : ∀ {r1 r2 : Regs} (x : ℚ), r1.sett = r2.sett → ({ r1 with gyrFlt := x } : Regs).sett =
      ({ r2 with gyrFlt := x } : Regs).sett := fun x h => congrArg (fun s : Sett => { s with gyrFlt := x }) h
  have eTf : ∀ {r1 r2 : Regs} (x : ℚ), r1.sett = r2.sett → ({ r1 with gyrTempFlt := x } : Regs).sett =
      ({ r2 with gyrTempFlt := x } : Regs).sett := fun x h => congrArg (fun s : Sett => { s with gyrTempFlt := x }) h
  have ePw : ∀ {r1 r2 : Regs} (x : U8), r1.sett = r2.sett → ({ r1 with gyrPwm := x } : Regs).sett =
      ({ r2 with gyrPwm := x } : Regs).sett := fun x h => congrArg (fun s : Sett => { s with gyrPwm := x }) h
  have eGd : ∀ {r1 r2 : Regs} (x : ℚ), r1.sett = r2.sett → ({ r1 with gyrDesired := x } : Regs).sett =
      ({ r2 with gyrDesired := x } : Regs).sett := fun x h => congrArg (fun s : Sett => { s with gyrDesired := x }) h
  have eRp : ∀ {r1 r2 : Regs} (x : U8), r1.sett = r2.sett → ({ r1 with readPtr := x } : Regs).sett =
      ({ r2 with readPtr := x } : Regs).sett := fun _ h => h
  have eM1 : ∀ {r1 r2 : Regs} (x : U8), r1.sett = r2.sett → ({ r1 with mag1Mode := x } : Regs).sett =
      ({ r2 with mag1Mode := x } : Regs).sett := fun _ h => h
  have eM2 : ∀ {r1 r2 : Regs} (x : U8), r1.sett = r2.sett → ({ r1 with mag2Mode := x } : Regs).sett =
      ({ r2 with mag2Mode := x } : Regs).sett := fun _ h => h
  have kRp : ∀ {r1 r2 : Regs} (d : List U8), r1.sett = r2.sett → (r1.recvReadPtr d).sett = (r2.recvReadPtr d).sett := by
    intro r1 r2 d h; rcases d with _ | ⟨x, d⟩
    · exact h
    · exact eRp _ h
  have kRf : ∀ {r1 r2 : Regs} (d : List U8), r1.sett = r2.sett → (r1.recvRampFlt d).sett = (r2.recvRampFlt d).sett := by
    intro r1 r2 d h; rcases d with _ | ⟨x, d⟩
    · exact h
    · exact eRf _ h
  have kSf : ∀ {r1 r2 : Regs} (d : List U8), r1.sett = r2.sett → (r1.recvSpeedFlt d).sett = (r2.recvSpeedFlt d).sett := by
    intro r1 r2 d h; rcases d with _ | ⟨x, d⟩
    · exact h
    · exact kRf d (eSf _ h)
  have kVf : ∀ {r1 r2 : Regs} (d : List U8), r1.sett = r2.sett → (r1.recvVoltFlt d).sett = (r2.recvVoltFlt d).sett := by
    intro r1 r2 d h; rcases d with _ | ⟨x, d⟩
    · exact h
    · exact eVf _ h
  have kM2 : ∀ {r1 r2 : Regs} (d : List U8), r1.sett = r2.sett → (r1.recvMag2Mode d).sett = (r2.recvMag2Mode d).sett := by
    intro r1 r2 d h; rcases d with _ | ⟨x, d⟩
    · exact h
    · exact eM2 _ h
  have kM1 : ∀ {r1 r2 : Regs} (d : List U8), r1.sett = r2.sett → (r1.recvMag1Mode d).sett = (r2.recvMag1Mode d).sett := by
    intro r1 r2 d h; rcases d with _ | ⟨x, d⟩
    · exact h
    · exact kM2 d (eM1 _ h)
  have kTf : ∀ {r1 r2 : Regs} (d : List U8), r1.sett = r2.sett → (r1.recvGyrTempFlt d).sett = (r2.recvGyrTempFlt d).sett := by
    intro r1 r2 d h; rcases d with _ | ⟨x, d⟩
    · exact h
    · exact eTf _ h
  have kGf : ∀ {r1 r2 : Regs} (d : List U8), r1.sett = r2.sett → (r1.recvGyrFlt d).sett = (r2.recvGyrFlt d).sett := by
    intro r1 r2 d h; rcases d with _ | ⟨x, d⟩
    · exact h
    · exact kTf d (eGf _ h)
  have kMf : ∀ {r1 r2 : Regs} (d : List U8), r1.sett = r2.sett → (r1.recvMagFlt d).sett = (r2.recvMagFlt d).sett := by
    intro r1 r2 d h; rcases d with _ | ⟨x, d⟩
    · exact h
    · exact kGf d (eMf _ h)
  have kPw : ∀ {r1 r2 : Regs} (d : List U8), r1.sett = r2.sett → (r1.recvGyrPwm d).sett = (r2.recvGyrPwm d).sett := by
    intro r1 r2 d h; rcases d with _ | ⟨x, d⟩
    · exact h
    · exact ePw _ h
  have kGd : ∀ {r1 r2 : Regs} (d : List U8), r1.sett = r2.sett → (r1.recvGyrDesired d).sett = (r2.recvGyrDesired d).sett := by
    intro r1 r2 d h; rcases d with _ | ⟨x, d⟩
    · exact h
    · exact eGd _ h
  cases m with
  | nil => exact h
  | cons a d =>
    by_cases h1 : a = 1
    · subst h1; exact (sett_mode r1 d).trans (h.trans (sett_mode r2 d).symm)
    by_cases h2 : a = 2
    · subst h2; exact kRp d h
    by_cases h3 : a = 3
    · subst h3; exact (sett_rwaMode r1 d).trans (h.trans (sett_rwaMode r2 d).symm)
    by_cases h4 : a = 4
    · subst h4; exact (sett_rwaCmd r1 d).trans (h.trans (sett_rwaCmd r2 d).symm)
    by_cases h6 : a = 6
    · subst h6; exact kSf d h
    by_cases h7 : a = 7
    · subst h7; exact kRf d h
    by_cases h10 : a = 10
    · subst h10; exact sett_mtrMode h d
    by_cases h11 : a = 11
    · subst h11; exact sett_mtrCmd h d
    by_cases h12 : a = 12
    · subst h12; exact sett_mtrLimit h d
    by_cases h14 : a = 14
    · subst h14; exact (sett_ssaMode r1 d).trans (h.trans (sett_ssaMode r2 d).symm)
    by_cases h16 : a = 16
    · subst h16; exact kVf d h
    by_cases h19 : a = 19
    · subst h19; exact kM1 d h
    by_cases h20 : a = 20
    · subst h20; exact kM2 d h
    by_cases h22 : a = 22
    · subst h22; exact kMf d h
    by_cases h23 : a = 23
    · subst h23; exact kGf d h
    by_cases h24 : a = 24
    · subst h24; exact kTf d h
    by_cases h25 : a = 25
    · subst h25; exact kPw d h
    by_cases h26 : a = 26
    · subst h26; exact kGd d h
    by_cases h28 : a = 28
    · subst h28; exact (sett_reset r1 d).trans (h.trans (sett_reset r2 d).symm)
    by_cases h29 : a = 29
    · subst h29; exact (sett_disable r1 d).trans (h.trans (sett_disable r2 d).symm)
    simp only [Regs.receive, h1, h2, h3, h4, h6, h7, h10, h11, h12, h14, h16, h19, h20, h22, h23, h24, h25, h26, h28, h29, if_false]
    exact h

theorem sett_congr_list (ms : List (List U8)) : ∀ {r1 r2 : Regs}, r1.sett = r2.sett →
    (ms.foldl Regs.receive r1).sett = (ms.foldl Regs.receive r2).sett := by
  induction ms with
  | nil => exact fun h => h
  | cons m ms ih => exact fun h => ih (sett_congr h m)

/-- The main loop leaves the settings alone. -/
theorem sett_tick {l : Bool} {e : Env} {b b' : Box} {a : Option Act} (h : b.tick l e = some (b', a)) :
    b'.regs.sett = b.regs.sett := by
  have key : b'.regs = b.regs ∨ (∃ x y, b'.regs = { b.regs with mag1Mode := x, mag2Mode := y }) ∨
      (∃ x, b'.regs = { b.regs with mtrFlg := x }) ∨ (∃ x, b'.regs = { b.regs with rwaFlg := x }) ∨
      (∃ x y, b'.regs = { b.regs with ssaMode := x, sunVec := y }) ∨ (∃ x, b'.regs = { b.regs with havtRead := x }) ∨
      (∃ x, b'.regs = { b.regs with resetFlg := x }) ∨ (∃ x, b'.regs = { b.regs with disableFlg := x }) := by
    unfold Box.tick at h
    split at h
    case h_1 => simp only [Option.some.injEq, Prod.mk.injEq] at h; rw [← h.1]; exact Or.inr (Or.inl ⟨_, _, rfl⟩)
    case h_4 => simp only [Option.some.injEq, Prod.mk.injEq] at h; rw [← h.1]; exact Or.inr (Or.inr (Or.inl ⟨_, rfl⟩))
    case h_13 => simp only [Option.some.injEq, Prod.mk.injEq] at h; rw [← h.1]; exact Or.inr (Or.inr (Or.inr (Or.inl ⟨_, rfl⟩)))
    case h_20 =>
      simp only [Option.some.injEq, Prod.mk.injEq] at h; rw [← h.1]; exact Or.inr (Or.inr (Or.inr (Or.inr (Or.inl ⟨_, _, rfl⟩))))
    case h_21 =>
      simp only [Option.some.injEq, Prod.mk.injEq] at h; rw [← h.1]
      exact Or.inr (Or.inr (Or.inr (Or.inr (Or.inr (Or.inl ⟨_, rfl⟩)))))
    case h_23 =>
      simp only [Option.some.injEq, Prod.mk.injEq] at h; rw [← h.1]
      exact Or.inr (Or.inr (Or.inr (Or.inr (Or.inr (Or.inr (Or.inl ⟨_, rfl⟩))))))
    case h_27 =>
      simp only [Option.some.injEq, Prod.mk.injEq] at h; rw [← h.1]
      exact Or.inr (Or.inr (Or.inr (Or.inr (Or.inr (Or.inr (Or.inr ⟨_, rfl⟩))))))
    all_goals
      left
      first
      | (simp only [Option.some.injEq, Prod.mk.injEq] at h; rw [← h.1])
      | (split at h
         · first
           | (simp only [Option.some.injEq, Prod.mk.injEq] at h; rw [← h.1])
           | (rw [Option.map_eq_some_iff] at h
              obtain ⟨x, _, hx⟩ := h
              simp only [Prod.mk.injEq] at hx
              rw [← hx.1])
         · simp only [Option.some.injEq, Prod.mk.injEq] at h; rw [← h.1])
  rcases key with e | ⟨_, _, e⟩ | ⟨_, e⟩ | ⟨_, e⟩ | ⟨_, _, e⟩ | ⟨_, e⟩ | ⟨_, e⟩ | ⟨_, e⟩ <;> rw [e] <;> rfl

theorem sett_run {l : Bool} : ∀ (evs : List Box.Ev) {b b' : Box} {acts : List Act}, Box.run l b evs = some (b', acts) →
    b'.regs.sett = ((Spec.messages evs).foldl Regs.receive b.regs).sett := by
  intro evs
  induction evs with
  | nil =>
    intro b b' acts h
    have e1 := congrArg (·.1) (Option.some.inj h)
    dsimp only at e1
    subst e1
    rfl
  | cons ev evs ih =>
    intro b b' acts h
    unfold Box.run at h
    split at h
    · cases h
    · rename_i b1 a1 h1
      rw [Option.map_eq_some_iff] at h
      obtain ⟨x, hx, hx'⟩ := h
      have e1 := congrArg (·.1) hx'
      dsimp only at e1
      subst e1
      rw [ih hx]
      cases ev with
      | recv m =>
        have e1 := congrArg (·.1) (Option.some.inj h1)
        dsimp only at e1
        subst e1
        rfl
      | tick e => exact sett_congr_list _ (sett_tick h1)

/-- Wheel commands, the sun sensor mode and the device tables do not touch the settings. -/
theorem sett_other {m : List U8} (h : m.head? ∈ [some 1, some 3, some 4, some 14, some 28, some (29 : U8)]) (r : Regs) :
    (r.receive m).sett = r.sett := by
  cases m with
  | nil => simp at h
  | cons a d =>
    simp only [List.head?_cons, List.mem_cons, Option.some.injEq, List.not_mem_nil, or_false] at h
    rcases h with rfl | rfl | rfl | rfl | rfl | rfl
    · exact sett_mode r d
    · exact sett_rwaMode r d
    · exact sett_rwaCmd r d
    · exact sett_ssaMode r d
    · exact sett_reset r d
    · exact sett_disable r d

theorem sett_others (ms : List (List U8))
    (h : ∀ m ∈ ms, m.head? ∈ [some 1, some 3, some 4, some 14, some 28, some (29 : U8)]) :
    ∀ r : Regs, (ms.foldl Regs.receive r).sett = r.sett := by
  induction ms with
  | nil => exact fun _ => rfl
  | cons m ms ih =>
    intro r
    show (ms.foldl Regs.receive (r.receive m)).sett = _
    rw [ih (fun m hm => h m (by simp [hm]))]
    exact sett_other (h m (by simp)) r

theorem sendByte_close {reg : U8} {f min max : ℚ} {m : List U8} (h : Cmds.sendByte reg f min max = some m)
    (h1 : min ≤ f) (h2 : f ≤ max) (hlo : min ≤ 0) (hhi : 0 ≤ max) (hD : f32 (max - min) = max - min)
    (hD' : 1 / 2 ^ 20 ≤ max - min) : ∃ u, m = [reg, u] ∧ |fpC u min max - f| ≤ 41 / 40 * ((max - min) / 255) := by
  obtain ⟨u, hu, hc⟩ := uc_ok h1 h2 hlo hhi hD hD'
  unfold Cmds.sendByte at h
  rw [hu] at h
  exact ⟨u, (Option.some.inj h).symm, hc⟩

end ADCS

/-- C92: let the box receive the messages of one cycle, in any state of its registers and devices and with its main loop
running on at any pace meanwhile and afterwards. Then its settings are those commanded. -/
theorem C92_arrive (leader : Bool) {state ssa : U8} {c c' : Cmds} {msgs : List (List U8)} {b b' : Box}
    {evs : List Box.Ev} {acts : List Act} (hs : SettingsOk c) (hsend : Cmds.send state ssa c = some (msgs, c'))
    (hm : Spec.messages evs = msgs) (hrun : Box.run leader b evs = some (b', acts)) : SettingsArrived c b'.regs := by
  have hr := sett_run evs hrun
  rw [hm] at hr
  obtain ⟨rwa, sf, rf, mc, ml, vf, mf, gf, gtf, gd, hrwa, hsf, hrf, hmc, hml, hvf, hmf, hgf, hgtf, hgd, rfl, _⟩ :=
    send_exact hsend
  have b1 : f32 ((1 : ℚ) - 0) = 1 - 0 := by decide +kernel
  have b2 : (1 : ℚ) / 2 ^ 20 ≤ 1 - 0 := by norm_num
  obtain ⟨u1, rfl, k1⟩ := sendByte_close hsf hs.speedFlt.1 hs.speedFlt.2 (le_refl _) zero_le_one b1 b2
  obtain ⟨u2, rfl, k2⟩ := sendByte_close hrf hs.rampFlt.1 hs.rampFlt.2 (le_refl _) zero_le_one b1 b2
  obtain ⟨u3, rfl, k3⟩ := sendByte_close hvf hs.voltFlt.1 hs.voltFlt.2 (le_refl _) zero_le_one b1 b2
  obtain ⟨u4, rfl, k4⟩ := sendByte_close hmf hs.magFlt.1 hs.magFlt.2 (le_refl _) zero_le_one b1 b2
  obtain ⟨u5, rfl, k5⟩ := sendByte_close hgf hs.gyrFlt.1 hs.gyrFlt.2 (le_refl _) zero_le_one b1 b2
  obtain ⟨u6, rfl, k6⟩ := sendByte_close hgtf hs.gyrTempFlt.1 hs.gyrTempFlt.2 (le_refl _) zero_le_one b1 b2
  obtain ⟨u7, rfl, k7⟩ := sendByte_close hgd hs.gyrDesired.1 hs.gyrDesired.2 (by norm_num) (by norm_num)
    (by decide +kernel) (by norm_num)
  obtain ⟨l, hl, kl⟩ := us_ok (f := c.limit) (min := -maxMoment) (max := maxMoment) (abs_le.mp hs.limit).1
    (abs_le.mp hs.limit).2 (by decide +kernel) (by decide +kernel) (by decide +kernel) (by decide +kernel)
  rw [hl] at hml
  have hml := Option.some.inj hml
  subst hml
  have hrwa' : ∀ m ∈ rwa, m.head? ∈ [some 1, some 3, some 4, some 14, some 28, some (29 : U8)] := by
    have key : ∀ v, Cmds.sendRwa c.rwaMode v = some rwa →
        ∀ m ∈ rwa, m.head? ∈ [some 1, some 3, some 4, some 14, some 28, some (29 : U8)] := by
      intro v hv
      obtain ⟨d, rfl⟩ := sendRwa_form hv
      intro m hm
      simp only [List.mem_cons, List.not_mem_nil, or_false] at hm
      rcases hm with rfl | rfl <;> simp
    split at hrwa
    · exact key _ hrwa
    · split at hrwa
      · exact key _ hrwa
      · split at hrwa
        · exact key _ hrwa
        · have := Option.some.inj hrwa
          subst this
          intro m hm
          cases hm
  simp only [List.foldl_append] at hr
  rw [sett_others (if (List.range 19).any c.disable = true then _ else _) (by
      intro m hm
      split at hm
      · simp only [List.mem_cons, List.not_mem_nil, or_false] at hm
        subst hm
        simp [Cmds.sendTable]
      · cases hm)] at hr
  rw [sett_others (if (List.range 19).any c.reset = true then _ else _) (by
      intro m hm
      split at hm
      · simp only [List.mem_cons, List.not_mem_nil, or_false] at hm
        subst hm
        simp [Cmds.sendTable]
      · cases hm)] at hr
  rw [sett_congr_list _ (sett_others (if ssa ≠ 1 then _ else _) (by
      intro m hm
      split at hm
      · simp only [List.mem_cons, List.not_mem_nil, or_false] at hm
        subst hm
        simp
      · cases hm) _)] at hr
  have hl16 : le16 (l.setWidth 8) ((l >>> 8).setWidth 8) = l := lohi_append l
  have hfin : b'.regs.sett = ⟨fpC u1 0 1, fpC u2 0 1, c.mtrMode, fpS l (-maxMoment) maxMoment, fpC u3 0 1, fpC u4 0 1,
      fpC u5 0 1, fpC u6 0 1, c.gyrPwm, fpC u7 (-40) 85⟩ := by
    rw [hr]
    simp only [List.foldl_cons, List.foldl_nil]
    have r6 : ∀ (r : Regs) x, r.receive [6, x] = { r with speedFlt := fpC x 0 1 } := fun _ _ => rfl
    have r7 : ∀ (r : Regs) x, r.receive [7, x] = { r with rampFlt := fpC x 0 1 } := fun _ _ => rfl
    have r10 : ∀ (r : Regs) x, r.receive [10, x] = { r with mtrMode := x } := fun _ _ => rfl
    have r11 : ∀ (r : Regs), ∃ v f, r.receive (11 :: Cmds.vec6 mc) = { r with mtrCmd := v, mtrFlg := f } :=
      fun _ => ⟨_, _, rfl⟩
    have r12 : ∀ (r : Regs), ∃ f, r.receive (12 :: Cmds.lohi l) =
        { r with mtrLimit := fpS (le16 (l.setWidth 8) ((l >>> 8).setWidth 8)) (-maxMoment) maxMoment, mtrFlg := f } :=
      fun _ => ⟨_, rfl⟩
    have r16 : ∀ (r : Regs) x, r.receive [16, x] = { r with voltFlt := fpC x 0 1 } := fun _ _ => rfl
    have r19 : ∀ (r : Regs) x, r.receive [19, x] = { r with mag1Mode := x } := fun _ _ => rfl
    have r20 : ∀ (r : Regs) x, r.receive [20, x] = { r with mag2Mode := x } := fun _ _ => rfl
    have r22 : ∀ (r : Regs) x, r.receive [22, x] = { r with magFlt := fpC x 0 1 } := fun _ _ => rfl
    have r23 : ∀ (r : Regs) x, r.receive [23, x] = { r with gyrFlt := fpC x 0 1 } := fun _ _ => rfl
    have r24 : ∀ (r : Regs) x, r.receive [24, x] = { r with gyrTempFlt := fpC x 0 1 } := fun _ _ => rfl
    have r25 : ∀ (r : Regs) x, r.receive [25, x] = { r with gyrPwm := x } := fun _ _ => rfl
    have r26 : ∀ (r : Regs) x, r.receive [26, x] = { r with gyrDesired := fpC x (-40) 85 } := fun _ _ => rfl
    simp only [r6, r7, r10]
    generalize List.foldl Regs.receive _ rwa = r0
    obtain ⟨v, f, e11⟩ := r11 { r0 with speedFlt := fpC u1 0 1, rampFlt := fpC u2 0 1, mtrMode := c.mtrMode }
    rw [e11]
    obtain ⟨g, e12⟩ := r12 { r0 with speedFlt := fpC u1 0 1, rampFlt := fpC u2 0 1, mtrMode := c.mtrMode, mtrCmd := v, mtrFlg := f }
    rw [e12, hl16]
    simp only [r16, r19, r20, r22, r23, r24, r25, r26, Regs.sett]
  have w : (41 : ℚ) / 40 * ((1 - 0) / 255) = 41 / 40 * (1 / 255) := by norm_num
  rw [w] at k1 k2 k3 k4 k5 k6
  refine ⟨?_, ?_, ?_, ?_, ?_, ?_, ?_, ?_, ?_, ?_⟩
  · rw [show b'.regs.speedFlt = _ from congrArg Sett.speedFlt hfin]; exact k1
  · rw [show b'.regs.rampFlt = _ from congrArg Sett.rampFlt hfin]; exact k2
  · exact congrArg Sett.mtrMode hfin
  · rw [show b'.regs.mtrLimit = _ from congrArg Sett.mtrLimit hfin]
    rw [show 2 * maxMoment = maxMoment - -maxMoment by ring]
    exact kl
  · rw [show b'.regs.voltFlt = _ from congrArg Sett.voltFlt hfin]; exact k3
  · rw [show b'.regs.magFlt = _ from congrArg Sett.magFlt hfin]; exact k4
  · rw [show b'.regs.gyrFlt = _ from congrArg Sett.gyrFlt hfin]; exact k5
  · rw [show b'.regs.gyrTempFlt = _ from congrArg Sett.gyrTempFlt hfin]; exact k6
  · exact congrArg Sett.gyrPwm hfin
  · rw [show b'.regs.gyrDesired = _ from congrArg Sett.gyrDesired hfin]
    rw [show (125 : ℚ) = 85 - -40 by norm_num]
    exact k7

/-- A cycle with settings of its own, after which the hypotheses hold. -/
example : ∃ c : Cmds, SettingsOk c ∧ c.limit = 1 / 100 ∧ c.gyrDesired = 37 ∧
    ∃ r, Cmds.send sDetumble 2 c = some r := by
  refine ⟨{ Cmds.init with limit := 1 / 100, gyrDesired := 37, voltFlt := 1 / 3 }, ?_, rfl, rfl, ?_⟩
  · exact ⟨initSettings.1, initSettings.2, initSettings.3, by decide +kernel, by decide +kernel, initSettings.6,
      initSettings.7, initSettings.8, by decide +kernel⟩
  · exact send_some rfl rfl ⟨initSettings.1, initSettings.2, initSettings.3, by decide +kernel, by decide +kernel,
      initSettings.6, initSettings.7, initSettings.8, by decide +kernel⟩

end PAN
