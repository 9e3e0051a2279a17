import Verif.Props.ADCSMonitor

/-!
C94, what a request is answered with: the register the flight computer has asked for last.
-/
namespace PAN
open ADCS

namespace Spec

/-- The register a message asks for, if it does: the read pointer has address 2, and is also written by the byte after the mode, which
has address 1 (src/adcs/state_controller.cpp:106-122). -/
def asksFor : List U8 → Option U8
  | [] => none
  | a :: d => if a = 2 then d[0]? else if a = 1 then d[1]? else none

/-- The register asked for last in a history, if any. -/
def askedLast (p : U8) : List REv → U8
  | [] => p
  | .recv d :: evs => askedLast ((asksFor d).getD p) evs
  | .tick _ :: evs => askedLast p evs

end Spec
open Spec

namespace ADCS.Regs

theorem asked_ptr (r : Regs) (d : List U8) : (r.recvReadPtr d).readPtr = (asksFor (2 :: d)).getD r.readPtr := by
  have h : asksFor (2 :: d) = d[0]? := by
    unfold asksFor
    dsimp only
    rw [if_pos rfl]
  rw [h]
  cases d <;> rfl
theorem asked_mode (r : Regs) (d : List U8) : (r.recvMode d).readPtr = (asksFor (1 :: d)).getD r.readPtr := by
  have h : asksFor (1 :: d) = d[1]? := by
    unfold asksFor
    dsimp only
    rw [if_neg (by decide), if_pos rfl]
  rw [h]
  rcases d with _ | ⟨a, _ | ⟨b, d⟩⟩ <;> rfl
theorem ptr_rwaCmd (r : Regs) (d : List U8) : (r.recvRwaCmd d).readPtr = r.readPtr := by
  unfold recvRwaCmd
  split
  · dsimp only
    split_ifs <;> rfl
  · rfl
theorem ptr_rwaMode (r : Regs) (d : List U8) : (r.recvRwaMode d).readPtr = r.readPtr := by
  cases d with
  | nil => rfl
  | cons a d => exact ptr_rwaCmd _ d
theorem ptr_mtrLimit (r : Regs) (d : List U8) : (r.recvMtrLimit d).readPtr = r.readPtr := by
  unfold recvMtrLimit
  split <;> rfl
theorem ptr_mtrCmd (r : Regs) (d : List U8) : (r.recvMtrCmd d).readPtr = r.readPtr := by
  unfold recvMtrCmd
  split
  · exact ptr_mtrLimit _ _
  · rfl
theorem ptr_mtrMode (r : Regs) (d : List U8) : (r.recvMtrMode d).readPtr = r.readPtr := by
  cases d with
  | nil => rfl
  | cons a d => exact ptr_mtrCmd _ d
theorem ptr_ssaMode (r : Regs) (d : List U8) : (r.recvSsaMode d).readPtr = r.readPtr := by
  cases d with
  | nil => rfl
  | cons a d => simp only [recvSsaMode]; split <;> rfl
theorem ptr_reset (r : Regs) (d : List U8) : (r.recvReset d).readPtr = r.readPtr := by unfold recvReset; split <;> rfl
theorem ptr_disable (r : Regs) (d : List U8) : (r.recvDisable d).readPtr = r.readPtr := by unfold recvDisable; split <;> rfl
theorem ptr_rampFlt (r : Regs) (d : List U8) : (r.recvRampFlt d).readPtr = r.readPtr := by cases d <;> rfl
theorem ptr_voltFlt (r : Regs) (d : List U8) : (r.recvVoltFlt d).readPtr = r.readPtr := by cases d <;> rfl
theorem ptr_mag2 (r : Regs) (d : List U8) : (r.recvMag2Mode d).readPtr = r.readPtr := by cases d <;> rfl
theorem ptr_gyrTemp (r : Regs) (d : List U8) : (r.recvGyrTempFlt d).readPtr = r.readPtr := by cases d <;> rfl
theorem ptr_gyrPwm (r : Regs) (d : List U8) : (r.recvGyrPwm d).readPtr = r.readPtr := by cases d <;> rfl
theorem ptr_gyrDesired (r : Regs) (d : List U8) : (r.recvGyrDesired d).readPtr = r.readPtr := by cases d <;> rfl
theorem ptr_speedFlt (r : Regs) (d : List U8) : (r.recvSpeedFlt d).readPtr = r.readPtr := by
  cases d with
  | nil => rfl
  | cons a d => exact ptr_rampFlt _ d
theorem ptr_mag1 (r : Regs) (d : List U8) : (r.recvMag1Mode d).readPtr = r.readPtr := by
  cases d with
  | nil => rfl
  | cons a d => exact ptr_mag2 _ d
theorem ptr_gyrFlt (r : Regs) (d : List U8) : (r.recvGyrFlt d).readPtr = r.readPtr := by
  cases d with
  | nil => rfl
  | cons a d => exact ptr_gyrTemp _ d
theorem ptr_magFlt (r : Regs) (d : List U8) : (r.recvMagFlt d).readPtr = r.readPtr := by
  cases d with
  | nil => rfl
  | cons a d => exact ptr_gyrFlt _ d

theorem receive_ptr (r : Regs) (m : List U8) : (r.receive m).readPtr = (asksFor m).getD r.readPtr := by
  cases m with
  | nil => rfl
  | cons a d =>
    by_cases h1 : a = 1
    · subst h1; exact asked_mode r d
    by_cases h2 : a = 2
    · subst h2; exact asked_ptr r d
    have hn : asksFor (a :: d) = none := by
      unfold asksFor
      dsimp only
      rw [if_neg h2, if_neg h1]
    rw [hn]
    unfold receive
    dsimp only
    rw [if_neg h1, if_neg h2]
    show _ = r.readPtr
    by_cases h : a = 3
    · rw [if_pos h]; exact ptr_rwaMode r d
    rw [if_neg h]; clear h
    by_cases h : a = 4
    · rw [if_pos h]; exact ptr_rwaCmd r d
    rw [if_neg h]; clear h
    by_cases h : a = 6
    · rw [if_pos h]; exact ptr_speedFlt r d
    rw [if_neg h]; clear h
    by_cases h : a = 7
    · rw [if_pos h]; exact ptr_rampFlt r d
    rw [if_neg h]; clear h
    by_cases h : a = 10
    · rw [if_pos h]; exact ptr_mtrMode r d
    rw [if_neg h]; clear h
    by_cases h : a = 11
    · rw [if_pos h]; exact ptr_mtrCmd r d
    rw [if_neg h]; clear h
    by_cases h : a = 12
    · rw [if_pos h]; exact ptr_mtrLimit r d
    rw [if_neg h]; clear h
    by_cases h : a = 14
    · rw [if_pos h]; exact ptr_ssaMode r d
    rw [if_neg h]; clear h
    by_cases h : a = 16
    · rw [if_pos h]; exact ptr_voltFlt r d
    rw [if_neg h]; clear h
    by_cases h : a = 19
    · rw [if_pos h]; exact ptr_mag1 r d
    rw [if_neg h]; clear h
    by_cases h : a = 20
    · rw [if_pos h]; exact ptr_mag2 r d
    rw [if_neg h]; clear h
    by_cases h : a = 22
    · rw [if_pos h]; exact ptr_magFlt r d
    rw [if_neg h]; clear h
    by_cases h : a = 23
    · rw [if_pos h]; exact ptr_gyrFlt r d
    rw [if_neg h]; clear h
    by_cases h : a = 24
    · rw [if_pos h]; exact ptr_gyrTemp r d
    rw [if_neg h]; clear h
    by_cases h : a = 25
    · rw [if_pos h]; exact ptr_gyrPwm r d
    rw [if_neg h]; clear h
    by_cases h : a = 26
    · rw [if_pos h]; exact ptr_gyrDesired r d
    rw [if_neg h]; clear h
    by_cases h : a = 28
    · rw [if_pos h]; exact ptr_reset r d
    rw [if_neg h]; clear h
    by_cases h : a = 29
    · rw [if_pos h]; exact ptr_disable r d
    rw [if_neg h]

end ADCS.Regs

/-- C94. In every history of the box, with any messages and any steps of its main loop in between, a request is answered with the
register the flight computer asked for last; in particular no step of the main loop and no command changes it. -/
theorem C94_asked (leader : Bool) (evs : List REv) : ∀ (s s' : RBox), RBox.run leader s evs = some s' →
    s'.box.regs.readPtr = askedLast s.box.regs.readPtr evs := by
  induction evs with
  | nil =>
    intro s s' h
    unfold RBox.run at h
    cases h
    rfl
  | cons ev evs ih =>
    intro s s' h
    unfold RBox.run at h
    split at h
    · cases h
    · rename_i s1 a hs
      rw [ih s1 s' h]
      cases ev with
      | recv d =>
        obtain ⟨hb, -⟩ := RBox.step_recv hs
        show _ = askedLast ((asksFor d).getD s.box.regs.readPtr) evs
        rw [hb]
        exact congrArg (askedLast · evs) (Regs.receive_ptr s.box.regs d)
      | tick e =>
        obtain ⟨e', ht, -⟩ := RBox.step_tick hs
        show _ = askedLast s.box.regs.readPtr evs
        rw [(tick_flt ht).2.2.2.2.2]

-- asked for the inertial sensors, then other commands, then the mode
example : askedLast 0 [.recv [2, 21], .recv [3, 1, 2, 2], .recv [1, 1], .recv [14, 2]] = 21 := by decide

/-! ### The sun sensor's mode and vector -/

/-- C118. The answer to a request for the mode of the sun sensor is the mode, whatever happened between asking and answering. -/
theorem C118_mode_read (leader : Bool) (s s' : RBox) (evs : List REv) (h : RBox.run leader s evs = some s')
    (ha : askedLast s.box.regs.readPtr evs = 14) : s'.request = some [s'.box.regs.ssaMode] := by
  have hp : s'.box.regs.readPtr = 14 := (C94_asked leader evs s s' h).trans ha
  unfold RBox.request
  simp only [hp, show ((14 : U8) = 0) = False by decide, show ((14 : U8) = 8) = False by decide, if_false, if_true]

/-- C118. The answer to a request for the sun vector is the vector, and the flight computer takes it for the same one up to the
step of the format; any vector of length at most one can be sent. -/
theorem C118_vector_read (leader : Bool) (s s' : RBox) (evs : List REv) (h : RBox.run leader s evs = some s')
    (ha : askedLast s.box.regs.readPtr evs = 15) (hx : |s'.box.regs.sunVec.x| ≤ 1) (hy : |s'.box.regs.sunVec.y| ≤ 1)
    (hz : |s'.box.regs.sunVec.z| ≤ 1) :
    ∃ d, s'.request = some d ∧ d.length = 6 ∧
      |(get3 d 0 (-1) 1).x - s'.box.regs.sunVec.x| ≤ 1 / 31000 ∧ |(get3 d 0 (-1) 1).y - s'.box.regs.sunVec.y| ≤ 1 / 31000 ∧
      |(get3 d 0 (-1) 1).z - s'.box.regs.sunVec.z| ≤ 1 / 31000 := by
  have hp : s'.box.regs.readPtr = 15 := (C94_asked leader evs s s' h).trans ha
  have T : Tol (-1) 1 (-1) 1 := by constructor <;> decide +kernel
  obtain ⟨u, hu, e1, e2, e3⟩ := put3_ok T (v := s'.box.regs.sunVec) ⟨abs_le.1 hx, abs_le.1 hy, abs_le.1 hz⟩
  have hr : s'.request = some (Cmds.vec6 u) := by
    unfold RBox.request
    simp only [hp, show ((15 : U8) = 0) = False by decide, show ((15 : U8) = 8) = False by decide,
      show ((15 : U8) = 14) = False by decide, if_false, if_true]
    exact hu
  have e : get3 (Cmds.vec6 u) 0 (-1) 1 = u.map (fpS · (-1) 1) := by
    simp only [get3, byteAt, Cmds.vec6, Cmds.lohi, List.cons_append, List.nil_append, List.getElem?_cons_zero,
      List.getElem?_cons_succ, Option.getD_some, le16_lohi, V3.map, Nat.zero_add]
  have hb : (42 / 40 * ((1 - -1) / 65535) : ℚ) ≤ 1 / 31000 := by norm_num
  refine ⟨_, hr, rfl, ?_⟩
  rw [e]
  exact ⟨e1.trans hb, e2.trans hb, e3.trans hb⟩

-- a vector that meets the bounds, asked for across other messages
example : askedLast 0 [.recv [2, 14], .recv [14, 1], .recv [2, 15], .recv [4, 0, 0]] = 15 ∧
    |(⟨3 / 5, 0, -4 / 5⟩ : V3 ℚ).x| ≤ 1 ∧ |(⟨3 / 5, 0, -4 / 5⟩ : V3 ℚ).z| ≤ 1 := by decide +kernel
-- from power-up: the mode is asked for, a calculation is requested, and the answer is that it is not done
example : ((RBox.run true (RBox.boot true fun _ => true) [.recv [2, 14], .recv [14, 1]]).bind RBox.request) = some [1] := by
  decide +kernel

end PAN
