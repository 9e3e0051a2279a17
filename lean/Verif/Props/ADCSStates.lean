import Verif.Props.ADCSDevices
/-!
Theorems about what the flight computer commands the attitude control box to do in each attitude state: C52 (actuation
follows the attitude state), C75 and C76 from the flight computer's side, C78 (pointing needs valid estimates).

One cycle runs the attitude controller, the commander and the box controller in this order (src/fsw/FCCode/MainControlLoop.cpp
`execute`).
-/
namespace PAN

namespace Spec
open ADCS

/-- What the attitude chain of the flight computer does in one cycle: the messages sent, and its state afterwards. -/
def attitudeCycle (i : AttIn) (state ssa : U8) (s : AttCtl) (c : Cmds) : Option (List (List U8) × AttCtl × Cmds) :=
  (Cmds.send state ssa (c.command state (s.execute i state).torque (s.execute i state).moment)).map
    fun r => (r.1, s.execute i state, r.2)

/-- What the box has received as messages. -/
def asEvents (msgs : List (List U8)) : List Box.Ev := msgs.map .recv

/-- The rod mode last sent (address 10). -/
def lastRodMode (msgs : List (List U8)) : Option U8 :=
  msgs.foldl (fun r m => match m with | a :: k :: _ => if a = 10 then some k else r | _ => r) none

/-- `a` and `b` agree on every axis within one and a bit units of a 16-bit scale from `-s` to `s`. -/
def close (s : ℚ) (a b : V3 ℚ) : Prop :=
  |a.x - b.x| ≤ 41 / 40 * (2 * s / 65535) ∧ |a.y - b.y| ≤ 41 / 40 * (2 * s / 65535) ∧ |a.z - b.z| ≤ 41 / 40 * (2 * s / 65535)

end Spec

namespace ADCS

theorem lohi_append (u : BitVec 16) : ((u >>> 8).setWidth 8 ++ u.setWidth 8 : BitVec 16) = u := by
  apply BitVec.eq_of_getLsbD_eq
  intro i hi
  simp only [BitVec.getLsbD_append, BitVec.getLsbD_setWidth, BitVec.getLsbD_ushiftRight]
  split_ifs with h
  · simp [h]
  · simp only [show 8 + (i - 8) = i by omega, show i - 8 < 8 by omega, decide_true, Bool.true_and]

/-- The box decodes a vector to the numbers that were sent. -/
theorem six_vec6 (s : ℚ) (u : V3 (BitVec 16)) : Spec.six s (Cmds.vec6 u) = some (u.map (fpS · (-s) s)) := by
  simp only [Cmds.vec6, Cmds.lohi, List.cons_append, List.nil_append, Spec.six, V3.map, lohi_append]

theorem mapM_some {α β : Type} {f : α → Option β} {v : V3 α} {w : V3 β} (h : v.mapM f = some w) :
    f v.x = some w.x ∧ f v.y = some w.y ∧ f v.z = some w.z := by
  unfold V3.mapM at h
  split at h
  · rename_i a b c h1 h2 h3
    simp only [Option.some.injEq] at h
    subst h
    exact ⟨h1, h2, h3⟩
  · cases h

/-- A vector within range arrives as sent, up to the resolution of the scale. -/
theorem close_of_mapM {s : ℚ} (hs : 0 < s) (hD : f32 (s - -s) = s - -s) (hD' : 1 / 2 ^ 20 ≤ s - -s) {v : V3 ℚ}
    (hv : v.all (|·| ≤ s)) {w : V3 (BitVec 16)} (h : v.mapM (us · (-s) s) = some w) :
    Spec.close s (w.map (fpS · (-s) s)) v := by
  obtain ⟨h1, h2, h3⟩ := mapM_some h
  obtain ⟨v1, v2, v3⟩ := hv
  have key : ∀ (f : ℚ) (u : BitVec 16), |f| ≤ s → us f (-s) s = some u → |fpS u (-s) s - f| ≤ 41 / 40 * (2 * s / 65535) := by
    intro f u hf hu
    rw [abs_le] at hf
    obtain ⟨u', hu', he⟩ := us_ok (f := f) hf.1 hf.2 (by linarith) hs.le hD hD'
    rw [hu] at hu'
    simp only [Option.some.injEq] at hu'
    subst hu'
    rwa [show s - -s = 2 * s by ring] at he
  exact ⟨key _ _ v1 h1, key _ _ v2 h2, key _ _ v3 h3⟩

theorem mapM_range {s : ℚ} (hs : 0 < s) (hD : f32 (s - -s) = s - -s) (hD' : 1 / 2 ^ 20 ≤ s - -s) {v : V3 ℚ}
    (hv : v.all (|·| ≤ s)) : ∃ w, v.mapM (us · (-s) s) = some w := by
  obtain ⟨v1, v2, v3⟩ := hv
  rw [abs_le] at v1 v2 v3
  obtain ⟨a, ha, _⟩ := us_ok (f := v.x) v1.1 v1.2 (by linarith) hs.le hD hD'
  obtain ⟨b, hb, _⟩ := us_ok (f := v.y) v2.1 v2.2 (by linarith) hs.le hD hD'
  obtain ⟨c, hc, _⟩ := us_ok (f := v.z) v3.1 v3.2 (by linarith) hs.le hD hD'
  exact ⟨⟨a, b, c⟩, by unfold V3.mapM; simp only [ha, hb, hc]⟩

theorem us_zero_torque : us 0 (-maxTorque) maxTorque = some 32767 := by decide +kernel
theorem us_zero_moment : us 0 (-maxMoment) maxMoment = some 32767 := by decide +kernel
theorem us_full_moment : us maxMoment (-maxMoment) maxMoment = some 65535 := by decide +kernel
theorem fpS_full_moment : fpS 65535 (-maxMoment) maxMoment = maxMoment := by decide +kernel

/-- What the messages of one cycle mean to the box, whatever it received before. -/
theorem send_means {state ssa : U8} {c c' : Cmds} {msgs : List (List U8)} (h : Cmds.send state ssa c = some (msgs, c')) :
    msgs.filterMap Spec.modeIn = [if state = sStartup then 0 else 1] ∧
    Spec.lastRodMode msgs = some c.mtrMode ∧
    (∃ u, c.moment.mapM (us · (-maxMoment) maxMoment) = some u ∧
      ∀ pre, Spec.lastMoment (pre ++ Spec.asEvents msgs) = u.map (fpS · (-maxMoment) maxMoment)) ∧
    (c.rwaMode = 0 → ∀ pre, Spec.lastWheel (pre ++ Spec.asEvents msgs) = (0, (Spec.lastWheel pre).2)) ∧
    (c.rwaMode = 1 → ∃ u, c.speed.mapM (us · (-maxSpeedCmd) maxSpeedCmd) = some u ∧
      ∀ pre, Spec.lastWheel (pre ++ Spec.asEvents msgs) = (1, u.map (fpS · (-maxSpeedCmd) maxSpeedCmd))) ∧
    (c.rwaMode = 2 → ∃ u, c.torque.mapM (us · (-maxTorque) maxTorque) = some u ∧
      ∀ pre, Spec.lastWheel (pre ++ Spec.asEvents msgs) = (2, u.map (fpS · (-maxTorque) maxTorque))) := by
  obtain ⟨rwa, sf, rf, mc, ml, vf, mf, gf, gtf, gd, hrwa, hsf, hrf, hmc, hml, hvf, hmf, hgf, hgtf, hgd, rfl, rfl⟩ :=
    send_exact h
  obtain ⟨b1, rfl⟩ := sendByte_form hsf
  obtain ⟨b2, rfl⟩ := sendByte_form hrf
  obtain ⟨b3, rfl⟩ := sendByte_form hvf
  obtain ⟨b4, rfl⟩ := sendByte_form hmf
  obtain ⟨b5, rfl⟩ := sendByte_form hgf
  obtain ⟨b6, rfl⟩ := sendByte_form hgtf
  obtain ⟨b7, rfl⟩ := sendByte_form hgd
  -- the messages after the wheel part
  generalize htail : [[6, b1], [7, b2], [10, c.mtrMode], 11 :: Cmds.vec6 mc, 12 :: Cmds.lohi ml] ++
        (if ssa ≠ 1 then [[14, 1]] else []) ++
        [[16, b3], [19, c.mag1Mode], [20, c.mag2Mode], [22, b4], [23, b5], [24, b6], [25, c.gyrPwm], [26, b7]] ++
        (if (List.range 19).any c.reset then [Cmds.sendTable 28 (Cmds.orTable c.reset 0)] else []) ++
        (if (List.range 19).any c.disable then
          [Cmds.sendTable 29 (Cmds.orTable c.disable (Cmds.orTable c.reset 0))] else []) = tail
  have hmsgs : [[1, if state = sStartup then 0 else 1]] ++ rwa ++
        [[6, b1], [7, b2], [10, c.mtrMode], 11 :: Cmds.vec6 mc, 12 :: Cmds.lohi ml] ++ (if ssa ≠ 1 then [[14, 1]] else []) ++
        [[16, b3], [19, c.mag1Mode], [20, c.mag2Mode], [22, b4], [23, b5], [24, b6], [25, c.gyrPwm], [26, b7]] ++
        (if (List.range 19).any c.reset then [Cmds.sendTable 28 (Cmds.orTable c.reset 0)] else []) ++
        (if (List.range 19).any c.disable then
          [Cmds.sendTable 29 (Cmds.orTable c.disable (Cmds.orTable c.reset 0))] else []) =
      [[1, if state = sStartup then 0 else 1]] ++ rwa ++ tail := by
    rw [← htail]; simp only [List.append_assoc]
  rw [hmsgs]
  -- what the tail means
  have t1 : tail.filterMap Spec.modeIn = [] := by
    rw [← htail]; split_ifs <;> rfl
  have t2 : ∀ r, tail.foldl (fun r m => match m with | a :: k :: _ => if a = 10 then some k else r | _ => r) r =
      some c.mtrMode := by
    intro r; rw [← htail]; split_ifs <;> rfl
  have t3 : ∀ v, (tail.map Box.Ev.recv).foldl
      (fun v ev => match ev with | .recv m => (Spec.momentIn m).getD v | .tick _ => v) v =
      mc.map (fpS · (-maxMoment) maxMoment) := by
    intro v
    have hV : Spec.momentIn (11 :: Cmds.vec6 mc) = some (mc.map (fpS · (-maxMoment) maxMoment)) := by
      simp only [Spec.momentIn, if_true, six_vec6]
    have hN : ∀ (a : U8) (d : List U8), a ≠ 11 → a ≠ 10 → Spec.momentIn (a :: d) = none := by
      intro a d h1 h2
      simp only [Spec.momentIn, if_neg h1, if_neg h2]
    have hM : ∀ k : U8, Spec.momentIn [10, k] = none := by
      intro k
      simp only [Spec.momentIn, show ¬ ((10 : U8) = 11) by decide, if_false, if_true, List.tail_cons, Spec.six]
    generalize mc.map (fpS · (-maxMoment) maxMoment) = V at hV ⊢
    have n6 := fun d => hN 6 d (by decide) (by decide)
    have n7 := fun d => hN 7 d (by decide) (by decide)
    have n12 := fun d => hN 12 d (by decide) (by decide)
    have n14 := fun d => hN 14 d (by decide) (by decide)
    have n16 := fun d => hN 16 d (by decide) (by decide)
    have n19 := fun d => hN 19 d (by decide) (by decide)
    have n20 := fun d => hN 20 d (by decide) (by decide)
    have n22 := fun d => hN 22 d (by decide) (by decide)
    have n23 := fun d => hN 23 d (by decide) (by decide)
    have n24 := fun d => hN 24 d (by decide) (by decide)
    have n25 := fun d => hN 25 d (by decide) (by decide)
    have n26 := fun d => hN 26 d (by decide) (by decide)
    have n28 := fun d => hN 28 d (by decide) (by decide)
    have n29 := fun d => hN 29 d (by decide) (by decide)
    rw [← htail]
    split_ifs <;>
      simp only [List.cons_append, List.nil_append, List.map_cons, List.map_nil, List.foldl_cons, List.foldl_nil, hV, hM,
        Cmds.sendTable, n6, n7, n12, n14, n16, n19, n20, n22, n23, n24, n25, n26, n28, n29, Option.getD_some,
        Option.getD_none]
  have t4 : ∀ s : U8 × V3 ℚ, (tail.map Box.Ev.recv).foldl (fun s ev => match ev with
      | .recv m => ((Spec.wheelModeIn m).getD s.1,
          ((Spec.wheelBytes m).bind (Spec.wheelUnits ((Spec.wheelModeIn m).getD s.1))).getD s.2)
      | .tick _ => s) s = s := by
    intro s; rw [← htail]; split_ifs <;> rfl
  -- what the wheel part means
  have hrw : ∀ mode v, Cmds.sendRwa mode v = some rwa → ∃ u : V3 (BitVec 16), rwa = [[3, mode], 4 :: Cmds.vec6 u] ∧
      (mode = 1 → v.mapM (us · (-maxSpeedCmd) maxSpeedCmd) = some u) ∧
      (mode = 2 → v.mapM (us · (-maxTorque) maxTorque) = some u) := by
    intro mode v hm
    unfold Cmds.sendRwa at hm
    simp only [Option.map_eq_some_iff] at hm
    obtain ⟨u, hu, rfl⟩ := hm
    refine ⟨u, rfl, ?_, ?_⟩
    · rintro rfl; simpa using hu
    · rintro rfl; simpa using hu
  have hany : (∃ mode u, rwa = [[3, mode], 4 :: Cmds.vec6 u]) ∨ rwa = [] := by
    split at hrwa
    · obtain ⟨u, hu, _⟩ := hrw _ _ hrwa; exact Or.inl ⟨_, u, hu⟩
    · split at hrwa
      · obtain ⟨u, hu, _⟩ := hrw _ _ hrwa; exact Or.inl ⟨_, u, hu⟩
      · split at hrwa
        · obtain ⟨u, hu, _⟩ := hrw _ _ hrwa; exact Or.inl ⟨_, u, hu⟩
        · exact Or.inr (by simpa using hrwa.symm)
  have w4 : ∀ (pre : List Box.Ev) (mode : U8) (u : V3 (BitVec 16)),
      Spec.lastWheel (pre ++ Spec.asEvents ([[1, if state = sStartup then 0 else 1]] ++
        [[3, mode], 4 :: Cmds.vec6 u] ++ tail)) =
      (mode, (Spec.wheelUnits mode (Cmds.vec6 u)).getD (Spec.lastWheel pre).2) := by
    intro pre mode u
    unfold Spec.asEvents
    rw [Spec.lastWheel, List.foldl_append, List.map_append, List.foldl_append]
    refine (t4 _).trans ?_
    have e3 : Spec.wheelModeIn [3, mode] = some mode := by simp [Spec.wheelModeIn]
    have e3' : Spec.wheelBytes [3, mode] = none := by simp [Spec.wheelBytes]
    have e1 : ∀ k : U8, Spec.wheelModeIn [1, k] = none := by intro k; simp [Spec.wheelModeIn]
    have e1' : ∀ k : U8, Spec.wheelBytes [1, k] = none := by intro k; simp [Spec.wheelBytes]
    have e4 : ∀ l, Spec.wheelModeIn (4 :: l) = none := by intro l; cases l <;> simp [Spec.wheelModeIn]
    have e4' : Spec.wheelBytes (4 :: Cmds.vec6 u) = some (Cmds.vec6 u) := by
      simp [Spec.wheelBytes, Cmds.vec6, Cmds.lohi]
    simp only [List.cons_append, List.nil_append, List.map_cons, List.map_nil, List.foldl_cons, List.foldl_nil, e1, e1', e3,
      e3', e4, e4', Option.getD_none, Option.getD_some, Option.bind_none, Option.bind_some]
    rfl
  clear htail
  refine ⟨?_, ?_, ⟨mc, hmc, fun pre => ?_⟩, ?_, ?_, ?_⟩
  · rw [List.filterMap_append, List.filterMap_append, t1]
    rcases hany with ⟨mode, u, rfl⟩ | rfl <;> rfl
  · unfold Spec.lastRodMode
    rw [List.foldl_append]
    exact t2 _
  · unfold Spec.asEvents
    rw [Spec.lastMoment, List.foldl_append, List.map_append, List.foldl_append]
    exact t3 _
  · intro h0 pre
    rw [if_neg (by rw [h0]; decide), if_neg (by rw [h0]; decide), if_pos h0, h0] at hrwa
    obtain ⟨u, rfl, _⟩ := hrw _ _ hrwa
    rw [w4]
    simp [Spec.wheelUnits]
  · intro h1
    rw [if_pos h1, h1] at hrwa
    obtain ⟨u, rfl, hu, _⟩ := hrw _ _ hrwa
    refine ⟨u, hu rfl, fun pre => ?_⟩
    rw [w4]
    simp only [Spec.wheelUnits, show ¬ ((1 : U8) = 2) by decide, if_false, if_true, six_vec6, Option.getD_some]
  · intro h2
    rw [if_neg (by rw [h2]; decide), if_pos h2, h2] at hrwa
    obtain ⟨u, rfl, _, hu⟩ := hrw _ _ hrwa
    refine ⟨u, hu rfl, fun pre => ?_⟩
    rw [w4]
    simp only [Spec.wheelUnits, if_true, six_vec6, Option.getD_some]

theorem cycle_split {i : AttIn} {state ssa : U8} {s s' : AttCtl} {c c' : Cmds} {msgs : List (List U8)}
    (h : Spec.attitudeCycle i state ssa s c = some (msgs, s', c')) :
    s' = s.execute i state ∧ Cmds.send state ssa (c.command state s'.torque s'.moment) = some (msgs, c') := by
  unfold Spec.attitudeCycle at h
  rw [Option.map_eq_some_iff] at h
  obtain ⟨⟨m, c1⟩, h1, h2⟩ := h
  simp only [Prod.mk.injEq] at h2
  obtain ⟨rfl, rfl, rfl⟩ := h2
  exact ⟨rfl, h1⟩

theorem mapM_zero {f : ℚ → Option (BitVec 16)} {k : BitVec 16} (hf : f 0 = some k) {u : V3 (BitVec 16)}
    (h : V3.zero.mapM f = some u) : u = ⟨k, k, k⟩ := by
  obtain ⟨h1, h2, h3⟩ := mapM_some h
  simp only [V3.zero, hf, Option.some.injEq] at h1 h2 h3
  obtain ⟨x, y, z⟩ := u
  simp only [V3.mk.injEq]
  exact ⟨h1.symm, h2.symm, h3.symm⟩

end ADCS

namespace Spec
open ADCS

/-- The number that stands for zero on a scale from `-s` to `s` (the middle of the 16-bit range, 32767). -/
def zeroCode (s : ℚ) : V3 ℚ := ⟨fpS 32767 (-s) s, fpS 32767 (-s) s, fpS 32767 (-s) s⟩

end Spec

open ADCS

/-- C52: the box is commanded active or passive in every cycle, passive exactly in the startup state. -/
theorem C52_mode {i : AttIn} {state ssa : U8} {s s' : AttCtl} {c c' : Cmds} {msgs : List (List U8)}
    (h : Spec.attitudeCycle i state ssa s c = some (msgs, s', c')) :
    msgs.filterMap Spec.modeIn = [if state = sStartup then 0 else 1] :=
  (send_means (cycle_split h).2).1

/-- C52: in the startup state, whatever was commanded before, the box ends up with the moment command "zero" and, if its
wheels are left in torque control, with the torque command "zero". -/
theorem C52_startup {i : AttIn} {ssa : U8} {s s' : AttCtl} {c c' : Cmds} {msgs : List (List U8)}
    (h : Spec.attitudeCycle i sStartup ssa s c = some (msgs, s', c')) :
    s'.torque = V3.zero ∧ s'.moment = V3.zero ∧ c'.torque = V3.zero ∧ c'.moment = V3.zero ∧
    ∀ pre, Spec.lastMoment (pre ++ Spec.asEvents msgs) = Spec.zeroCode maxMoment ∧
      (c.rwaMode = 2 → Spec.lastWheel (pre ++ Spec.asEvents msgs) = (2, Spec.zeroCode maxTorque)) := by
  obtain ⟨hs, hc⟩ := cycle_split h
  obtain ⟨_, _, ⟨u, hu, hm⟩, _, _, h2⟩ := send_means hc
  have e : s' = s.defaultCmd := by rw [hs]; rfl
  have ec : c' = { c.command sStartup s'.torque s'.moment with reset := fun _ => false, disable := fun _ => false } := by
    obtain ⟨rwa, sf, rf, mc, ml, vf, mf, gf, gtf, gd, _, _, _, _, _, _, _, _, _, _, _, hc2⟩ := send_exact hc
    exact hc2
  refine ⟨by rw [e]; rfl, by rw [e]; rfl, by rw [ec]; rfl, by rw [ec]; rfl, fun pre => ⟨?_, ?_⟩⟩
  · rw [hm]
    rw [mapM_zero us_zero_moment hu]
    rfl
  · intro hr
    obtain ⟨v, hv, hw⟩ := h2 hr
    rw [hw, mapM_zero us_zero_torque hv]
    rfl

/-- C52: in the states "limited", "detumble" and "zero angular momentum" the wheels are commanded disabled, whatever was
commanded before; the box is left with wheel mode "disabled" whatever it had received. -/
theorem C52_wheels_disabled {i : AttIn} {state ssa : U8} {s s' : AttCtl} {c c' : Cmds} {msgs : List (List U8)}
    (hst : state = sLimited ∨ state = sDetumble ∨ state = sZeroL)
    (h : Spec.attitudeCycle i state ssa s c = some (msgs, s', c')) (pre : List Box.Ev) :
    (Spec.lastWheel (pre ++ Spec.asEvents msgs)).1 = 0 := by
  obtain ⟨hs, hc⟩ := cycle_split h
  obtain ⟨_, _, _, h0, _, _⟩ := send_means hc
  rw [h0 (by rcases hst with rfl | rfl | rfl <;> rfl)]

/-- C52: a wheel torque other than "zero" is commanded only in the three pointing states and, by the ground, in the
manual state. -/
theorem C52_torque_only_pointing {i : AttIn} {state ssa : U8} {s s' : AttCtl} {c c' : Cmds} {msgs : List (List U8)}
    (hst : state ∈ [sStartup, sLimited, sZeroTorque, sZeroL, sDetumble])
    (h : Spec.attitudeCycle i state ssa s c = some (msgs, s', c')) (pre : List Box.Ev)
    (hw : c.rwaMode = 0 ∨ c.rwaMode = 1 ∨ c.rwaMode = 2) :
    (Spec.lastWheel (pre ++ Spec.asEvents msgs)).1 = 2 →
    (Spec.lastWheel (pre ++ Spec.asEvents msgs)).2 = Spec.zeroCode maxTorque := by
  obtain ⟨hs, hc⟩ := cycle_split h
  obtain ⟨_, _, _, h0, h1, h2⟩ := send_means hc
  simp only [List.mem_cons, List.not_mem_nil, or_false] at hst
  rcases hst with rfl | rfl | rfl | rfl | rfl
  · rcases hw with hw | hw | hw
    · rw [h0 hw]; intro hx; exact absurd hx (by dsimp only; decide)
    · obtain ⟨v, _, hv⟩ := h1 hw
      rw [hv]; intro hx; exact absurd hx (by dsimp only; decide)
    · obtain ⟨v, hv, hv'⟩ := h2 hw
      intro _
      rw [hv', mapM_zero us_zero_torque hv]
      rfl
  · rw [h0 rfl]; intro hx; exact absurd hx (by dsimp only; decide)
  · obtain ⟨v, hv, hv'⟩ := h2 rfl
    intro _
    rw [hv', mapM_zero us_zero_torque hv]
    rfl
  · rw [h0 rfl]; intro hx; exact absurd hx (by dsimp only; decide)
  · rw [h0 rfl]; intro hx; exact absurd hx (by dsimp only; decide)

/-- C52: in the state "zero torque" the wheels are in torque control with torque "zero" and the rods are switched off. -/
theorem C52_zero_torque {i : AttIn} {ssa : U8} {s s' : AttCtl} {c c' : Cmds} {msgs : List (List U8)}
    (h : Spec.attitudeCycle i sZeroTorque ssa s c = some (msgs, s', c')) (pre : List Box.Ev) :
    Spec.lastWheel (pre ++ Spec.asEvents msgs) = (2, Spec.zeroCode maxTorque) ∧ Spec.lastRodMode msgs = some 0 ∧
    Spec.lastMoment (pre ++ Spec.asEvents msgs) = Spec.zeroCode maxMoment := by
  obtain ⟨hs, hc⟩ := cycle_split h
  obtain ⟨_, hr, ⟨u, hu, hm⟩, _, _, h2⟩ := send_means hc
  obtain ⟨v, hv, hv'⟩ := h2 rfl
  refine ⟨?_, hr, ?_⟩
  · rw [hv', mapM_zero us_zero_torque hv]; rfl
  · rw [hm, mapM_zero us_zero_moment hu]; rfl

/-- C52: in the states "limited" and "detumble" the rods are switched on and the box is given, up to the resolution of the
scale, the moment that the detumbling law asks for in this cycle: exactly "zero" if there is no valid magnetic field
estimate or the law has no finite answer. -/
theorem C52_detumble {i : AttIn} {state ssa : U8} {s s' : AttCtl} {c c' : Cmds} {msgs : List (List U8)}
    (hst : state = sLimited ∨ state = sDetumble)
    (h : Spec.attitudeCycle i state ssa s c = some (msgs, s', c')) (pre : List Box.Ev) :
    Spec.lastRodMode msgs = some 1 ∧
    (i.bValid = false ∨ i.detumble = none → Spec.lastMoment (pre ++ Spec.asEvents msgs) = Spec.zeroCode maxMoment) ∧
    (∀ m, i.bValid = true → i.detumble = some m → m.all (|·| ≤ maxMoment) →
      Spec.close maxMoment (Spec.lastMoment (pre ++ Spec.asEvents msgs)) m) := by
  obtain ⟨hs, hc⟩ := cycle_split h
  obtain ⟨_, hr, ⟨u, hu, hm⟩, _, _, _⟩ := send_means hc
  have e : s' = s.defaultCmd.detumbleCtl i := by rcases hst with rfl | rfl <;> rw [hs] <;> rfl
  have e2 : (c.command state s'.torque s'.moment).moment = s'.moment := by rcases hst with rfl | rfl <;> rfl
  rw [e2] at hu
  refine ⟨by rw [hr]; rcases hst with rfl | rfl <;> rfl, ?_, ?_⟩
  · intro hz
    have : s'.moment = V3.zero := by
      rw [e]
      unfold AttCtl.detumbleCtl
      rcases hz with hz | hz
      · simp [hz, AttCtl.defaultCmd]
      · rw [hz]; split <;> rfl
    rw [this] at hu
    rw [hm, mapM_zero us_zero_moment hu]; rfl
  · intro m hb hd hrange
    have : s'.moment = m := by
      rw [e]
      unfold AttCtl.detumbleCtl
      simp [hb, hd]
    rw [this] at hu
    rw [hm]
    exact close_of_mapM maxMoment_pos maxMoment_width.1 maxMoment_width.2 hrange hu

/-- C52: in the three pointing states the wheels are in torque control, the rods are on, and the box is given, up to the
resolution of the scales, the torque and the moment that the attitude controller holds. -/
theorem C52_pointing {i : AttIn} {state ssa : U8} {s s' : AttCtl} {c c' : Cmds} {msgs : List (List U8)}
    (hst : state = sPointManual ∨ state = sPointStandby ∨ state = sPointDocking)
    (h : Spec.attitudeCycle i state ssa s c = some (msgs, s', c')) (pre : List Box.Ev) :
    (Spec.lastWheel (pre ++ Spec.asEvents msgs)).1 = 2 ∧ Spec.lastRodMode msgs = some 1 ∧
    (s'.torque.all (|·| ≤ maxTorque) → Spec.close maxTorque (Spec.lastWheel (pre ++ Spec.asEvents msgs)).2 s'.torque) ∧
    (s'.moment.all (|·| ≤ maxMoment) → Spec.close maxMoment (Spec.lastMoment (pre ++ Spec.asEvents msgs)) s'.moment) := by
  obtain ⟨hs, hc⟩ := cycle_split h
  obtain ⟨_, hr, ⟨u, hu, hm⟩, _, _, h2⟩ := send_means hc
  obtain ⟨v, hv, hv'⟩ := h2 (by rcases hst with rfl | rfl | rfl <;> rfl)
  rw [show (c.command state s'.torque s'.moment).moment = s'.moment by rcases hst with rfl | rfl | rfl <;> rfl] at hu
  rw [show (c.command state s'.torque s'.moment).torque = s'.torque by rcases hst with rfl | rfl | rfl <;> rfl] at hv
  refine ⟨by rw [hv'], by rw [hr]; rcases hst with rfl | rfl | rfl <;> rfl, ?_, ?_⟩
  · intro hx
    rw [hv']
    exact close_of_mapM maxTorque_pos maxTorque_width.1 maxTorque_width.2 hx hv
  · intro hx
    rw [hm]
    exact close_of_mapM maxMoment_pos maxMoment_width.1 maxMoment_width.2 hx hu

/-- C52: in the manual state the box is given the ground's settings as they are, and the cycle leaves them unchanged,
apart from the one-shot device tables. -/
theorem C52_manual {i : AttIn} {ssa : U8} {s s' : AttCtl} {c c' : Cmds} {msgs : List (List U8)}
    (h : Spec.attitudeCycle i sManual ssa s c = some (msgs, s', c')) :
    c' = { c with reset := fun _ => false, disable := fun _ => false } ∧ Spec.lastRodMode msgs = some c.mtrMode ∧
    ∀ pre, (c.moment.all (|·| ≤ maxMoment) → Spec.close maxMoment (Spec.lastMoment (pre ++ Spec.asEvents msgs)) c.moment) ∧
      (c.rwaMode = 1 → c.speed.all (|·| ≤ maxSpeedCmd) → (Spec.lastWheel (pre ++ Spec.asEvents msgs)).1 = 1 ∧
        Spec.close maxSpeedCmd (Spec.lastWheel (pre ++ Spec.asEvents msgs)).2 c.speed) ∧
      (c.rwaMode = 2 → c.torque.all (|·| ≤ maxTorque) → (Spec.lastWheel (pre ++ Spec.asEvents msgs)).1 = 2 ∧
        Spec.close maxTorque (Spec.lastWheel (pre ++ Spec.asEvents msgs)).2 c.torque) := by
  obtain ⟨hs, hc⟩ := cycle_split h
  have ec : c.command sManual s'.torque s'.moment = c := rfl
  rw [ec] at hc
  obtain ⟨_, hr, ⟨u, hu, hm⟩, _, h1, h2⟩ := send_means hc
  refine ⟨?_, hr, fun pre => ⟨?_, ?_, ?_⟩⟩
  · obtain ⟨rwa, sf, rf, mc, ml, vf, mf, gf, gtf, gd, _, _, _, _, _, _, _, _, _, _, _, hc2⟩ := send_exact hc
    exact hc2
  · intro hx
    rw [hm]
    exact close_of_mapM maxMoment_pos maxMoment_width.1 maxMoment_width.2 hx hu
  · intro hw hx
    obtain ⟨v, hv, hv'⟩ := h1 hw
    rw [hv']
    exact ⟨rfl, close_of_mapM maxSpeedCmd_pos maxSpeedCmd_width.1 maxSpeedCmd_width.2 hx hv⟩
  · intro hw hx
    obtain ⟨v, hv, hv'⟩ := h2 hw
    rw [hv']
    exact ⟨rfl, close_of_mapM maxTorque_pos maxTorque_width.1 maxTorque_width.2 hx hv⟩

namespace ADCS

theorem zero_moment_small : fpS 32767 (-maxMoment) maxMoment < 0 ∧ Hw.pwmOf (fpS 32767 (-maxMoment) maxMoment) = 0 ∧
    Hw.pwmOf (-fpS 32767 (-maxMoment) maxMoment) = 0 := by decide +kernel

theorem zero_torque_small : fpS 32767 (-maxTorque) maxTorque < 0 ∧
    uc (-fpS 32767 (-maxTorque) maxTorque) 0 maxTorque = some 0 := by decide +kernel

theorem dot_axis_const (leader : Bool) (j : Fin 3) (z : ℚ) :
    Spec.dot (Spec.rodAxis leader j) ⟨z, z, z⟩ = z ∨ Spec.dot (Spec.rodAxis leader j) ⟨z, z, z⟩ = -z := by
  cases leader <;> fin_cases j <;> simp [Spec.dot, Spec.rodAxis]

theorem rep_fpS (u : BitVec 16) (a b : ℚ) : Rep32 (fpS u a b) := rep_f32 _

/-- Decoded numbers lie within the scale. -/
theorem fpS_moment_range (u : BitVec 16) : |fpS u (-maxMoment) maxMoment| ≤ maxMoment := by
  have h0 : fpS 0 (-maxMoment) maxMoment = -maxMoment := by decide +kernel
  have mono : ∀ a b : BitVec 16, a.toNat ≤ b.toNat → fpS a (-maxMoment) maxMoment ≤ fpS b (-maxMoment) maxMoment := by
    intro a b hab
    unfold fpS
    have hw : (0 : ℚ) ≤ f32 (maxMoment - -maxMoment) := f32_nonneg (by have := maxMoment_pos; linarith)
    apply f32_mono
    have := f32_mono (x := f32 (a.toNat * f32 (maxMoment - -maxMoment)) / 65535)
      (y := f32 (b.toNat * f32 (maxMoment - -maxMoment)) / 65535)
      (div_le_div_of_nonneg_right (f32_mono (mul_le_mul_of_nonneg_right (by exact_mod_cast hab) hw)) (by norm_num))
    linarith
  rw [abs_le]
  constructor
  · calc -maxMoment = fpS 0 (-maxMoment) maxMoment := h0.symm
      _ ≤ _ := mono 0 u (Nat.zero_le _)
  · calc fpS u (-maxMoment) maxMoment ≤ fpS 65535 (-maxMoment) maxMoment := mono u 65535 (by
          have := u.isLt
          show u.toNat ≤ 65535
          omega)
      _ = maxMoment := fpS_full_moment

theorem dot_close {leader : Bool} {j : Fin 3} {a b : V3 ℚ} (h : Spec.close maxMoment a b) :
    |Spec.dot (Spec.rodAxis leader j) a - Spec.dot (Spec.rodAxis leader j) b| ≤ 41 / 40 * (2 * maxMoment / 65535) := by
  obtain ⟨h1, h2, h3⟩ := h
  cases leader <;> fin_cases j <;> simp only [Spec.dot, Spec.rodAxis, Fin.reduceFinMk, Fin.isValue, reduceIte,
    Fin.zero_eta, Fin.mk_one, one_ne_zero, Fin.reduceEq, Bool.false_eq_true, if_false, if_true] <;>
    rw [abs_le] at * <;> constructor <;> linarith [h1.1, h1.2, h2.1, h2.2, h3.1, h3.2]

theorem dot_range {leader : Bool} {j : Fin 3} {a : V3 ℚ} {s : ℚ} (h : a.all (|·| ≤ s)) :
    |Spec.dot (Spec.rodAxis leader j) a| ≤ s := by
  obtain ⟨h1, h2, h3⟩ := h
  cases leader <;> fin_cases j <;> simp only [Spec.dot, Spec.rodAxis, Fin.reduceFinMk, Fin.isValue, reduceIte,
    Fin.zero_eta, Fin.mk_one, one_ne_zero, Fin.reduceEq, Bool.false_eq_true, if_false, if_true] <;>
    rw [abs_le] at * <;> constructor <;> linarith [h1.1, h1.2, h2.1, h2.2, h3.1, h3.2]

end ADCS

/-- C52: what "zero" means in the box. The moment command "zero" with any limit from zero up leaves every rod in service
without current. -/
theorem C52_zero_moment_is_off (leader : Bool) (h : Hw) (lim : ℚ) (j : Fin 3) (hl : Rep32 lim) (h0 : 0 ≤ lim)
    (hf : (Spec.comp h.rods j).functional = true) :
    Spec.rodMoment (Spec.comp (h.mtrActuate leader 1 (Spec.zeroCode maxMoment) lim).rods j) = 0 := by
  rw [mtrActuate_rod, Hw.driveRod, if_pos hf, rod_moment_actuate, clampMoment_eq]
  obtain ⟨z1, z2, z3⟩ := zero_moment_small
  have hz := rep_fpS 32767 (-maxMoment) maxMoment
  unfold Spec.zeroCode
  generalize fpS 32767 (-maxMoment) maxMoment = z at z1 z2 z3 hz ⊢
  rcases dot_axis_const leader j z with he | he <;> rw [he]
  · by_cases hlt : z < -lim
    · rw [if_pos hlt]
      have a := pwmOf_mono hz (rep_neg hl) hlt.le
      have b := pwmOf_mono (rep_neg hl) (rep_neg hz) (by linarith)
      have : Hw.pwmOf (-lim) = 0 := by omega
      rw [this]; norm_num
    · rw [if_neg hlt, z2]; norm_num
  · rw [if_neg (by linarith), z3]; norm_num

/-- C52: the torque command "zero" gives every wheel in service the acceleration setting 0, in the driver and, if the
transfer succeeds, in the potentiometer. -/
theorem C52_zero_torque_is_off (e : Env) (h : Hw) (hp : h.pot.functional = true) (hok : e.potOk = true) :
    ∃ h', h.rwaActuate e 2 (Spec.zeroCode maxTorque) = some h' ∧
      ∀ j, (Spec.comp h'.wheels j).ramp = 0 ∧ ((Spec.comp h.wheels j).functional = true → Spec.comp h'.pot.chip j = 0) := by
  obtain ⟨z1, z2⟩ := zero_torque_small
  have z3 : uc 0 0 maxTorque = some 0 := by decide +kernel
  unfold Spec.zeroCode Hw.rwaActuate Hw.bodyToRwa
  generalize fpS 32767 (-maxTorque) maxTorque = z at z1 z2 ⊢
  have t1 : ∀ w, Hw.torqueWheel (-z) w = some { w with speed := 2000, ramp := 0 } := by
    intro w; unfold Hw.torqueWheel; rw [if_pos (by linarith), z2]; rfl
  have t2 : ∀ w, Hw.torqueWheel z w = some { w with speed := -2000, ramp := 0 } := by
    intro w; unfold Hw.torqueWheel; rw [if_neg (by linarith), z2]; rfl
  simp only [hp, Bool.not_true, Bool.false_eq_true, if_false, if_true, t1, t2]
  refine ⟨_, rfl, ?_⟩
  intro j
  simp only [Hw.writeRdac, hok, if_true, Hw.setRdac, V3.map, Hw.actWheel, Wheel.actuate]
  fin_cases j <;> simp only [Spec.comp, Fin.reduceFinMk, Fin.isValue, reduceIte, Fin.zero_eta, Fin.mk_one, one_ne_zero,
    Fin.reduceEq] <;> refine ⟨?_, fun hw => by rw [if_pos hw]⟩ <;> split_ifs <;> rfl

/-- C52, from the attitude controller to the rods: in the states in which the rods are on, a rod in service that is driven
with the command of the cycle and the full limit produces the component along its axis of the moment that the controller
asked for, up to the resolution of the two scales. -/
theorem C52_rods_end_to_end {i : AttIn} {state ssa : U8} {s s' : AttCtl} {c c' : Cmds} {msgs : List (List U8)}
    (hst : state ∈ [sLimited, sDetumble, sZeroL, sPointManual, sPointStandby, sPointDocking])
    (h : Spec.attitudeCycle i state ssa s c = some (msgs, s', c')) (pre : List Box.Ev)
    (hr : s'.moment.all (|·| ≤ maxMoment)) (leader : Bool) (hw : Hw) (j : Fin 3)
    (hf : (Spec.comp hw.rods j).functional = true) :
    |Spec.rodMoment (Spec.comp (hw.mtrActuate leader 1 (Spec.lastMoment (pre ++ Spec.asEvents msgs)) maxMoment).rods j) -
      Spec.dot (Spec.rodAxis leader j) s'.moment| ≤
      41 / 40 * (2 * maxMoment / 65535) + maxMoment / 32768 + maxMoment / 2 ^ 23 + 1 / 2 ^ 130 := by
  obtain ⟨hs, hc⟩ := cycle_split h
  obtain ⟨_, _, ⟨u, hu, hm⟩, _, _, _⟩ := send_means hc
  have e2 : (c.command state s'.torque s'.moment).moment = s'.moment := by
    simp only [List.mem_cons, List.not_mem_nil, or_false] at hst
    rcases hst with rfl | rfl | rfl | rfl | rfl | rfl <;> rfl
  rw [e2] at hu
  have hcl := close_of_mapM maxMoment_pos maxMoment_width.1 maxMoment_width.2 hr hu
  rw [hm]
  have hall : (u.map (fpS · (-maxMoment) maxMoment)).all (|·| ≤ maxMoment) :=
    ⟨fpS_moment_range _, fpS_moment_range _, fpS_moment_range _⟩
  have hrep : (u.map (fpS · (-maxMoment) maxMoment)).all Rep32 := ⟨rep_fpS _ _ _, rep_fpS _ _ _, rep_fpS _ _ _⟩
  have hd := dot_close (leader := leader) (j := j) hcl
  have hg := dot_range (leader := leader) (j := j) hall
  have hfa := C50_faithful leader hw (u.map (fpS · (-maxMoment) maxMoment)) maxMoment j hrep (by rw [abs_le] at hg; exact hg.1) hf
  simp only at hfa
  have tri := abs_sub_le (Spec.rodMoment (Spec.comp (hw.mtrActuate leader 1 (u.map (fpS · (-maxMoment) maxMoment)) maxMoment).rods j))
    (Spec.dot (Spec.rodAxis leader j) (u.map (fpS · (-maxMoment) maxMoment))) (Spec.dot (Spec.rodAxis leader j) s'.moment)
  have hq : |Spec.dot (Spec.rodAxis leader j) (u.map (fpS · (-maxMoment) maxMoment))| / 2 ^ 23 ≤ maxMoment / 2 ^ 23 :=
    div_le_div_of_nonneg_right hg (by norm_num)
  linarith

namespace Spec
open ADCS

/-- The message is one of a cycle in one of the given attitude states, without reset or disable orders to devices. -/
def sentIn (states : List U8) (m : List U8) : Prop :=
  ∃ i state ssa s c msgs s' c', state ∈ states ∧ Spec.attitudeCycle i state ssa s c = some (msgs, s', c') ∧ m ∈ msgs ∧
    (∀ k, c.reset k = false) ∧ (∀ k, c.disable k = false)

end Spec

namespace ADCS

theorem command_orders (state : U8) (t m : V3 ℚ) (c : Cmds) :
    (c.command state t m).reset = c.reset ∧ (c.command state t m).disable = c.disable := by
  unfold Cmds.command
  split_ifs <;> exact ⟨rfl, rfl⟩

/-- Each message of a cycle without device orders: its effect on the box mode, the wheel mode and the device tables. -/
theorem send_each {state ssa : U8} {c c' : Cmds} {msgs : List (List U8)} (h : Cmds.send state ssa c = some (msgs, c'))
    (hr : ∀ k, c.reset k = false) (hd : ∀ k, c.disable k = false) {m : List U8} (hm : m ∈ msgs) :
    (Spec.modeIn m = none ∨ Spec.modeIn m = some (if state = sStartup then 0 else 1)) ∧
    (Spec.wheelModeIn m = none ∨ Spec.wheelModeIn m = some c.rwaMode) ∧
    Spec.resetIn m = none ∧ Spec.disableIn m = none := by
  obtain ⟨rwa, sf, rf, mc, ml, vf, mf, gf, gtf, gd, hrwa, hsf, hrf, hmc, hml, hvf, hmf, hgf, hgtf, hgd, rfl, rfl⟩ :=
    send_exact h
  obtain ⟨b1, rfl⟩ := sendByte_form hsf
  obtain ⟨b2, rfl⟩ := sendByte_form hrf
  obtain ⟨b3, rfl⟩ := sendByte_form hvf
  obtain ⟨b4, rfl⟩ := sendByte_form hmf
  obtain ⟨b5, rfl⟩ := sendByte_form hgf
  obtain ⟨b6, rfl⟩ := sendByte_form hgtf
  obtain ⟨b7, rfl⟩ := sendByte_form hgd
  have ar : (List.range 19).any c.reset = false := by simp [hr]
  have ad : (List.range 19).any c.disable = false := by simp [hd]
  have hany : (∃ u, rwa = [[3, c.rwaMode], 4 :: Cmds.vec6 u]) ∨ rwa = [] := by
    have key : ∀ v, Cmds.sendRwa c.rwaMode v = some rwa → ∃ u, rwa = [[3, c.rwaMode], 4 :: Cmds.vec6 u] := by
      intro v hv
      unfold Cmds.sendRwa at hv
      simp only [Option.map_eq_some_iff] at hv
      obtain ⟨u, _, rfl⟩ := hv
      exact ⟨u, rfl⟩
    split at hrwa
    · exact Or.inl (key _ hrwa)
    · split at hrwa
      · exact Or.inl (key _ hrwa)
      · split at hrwa
        · exact Or.inl (key _ hrwa)
        · exact Or.inr (by simpa using hrwa.symm)
  rw [ar, ad] at hm
  have base : ∀ m ∈ [[1, if state = sStartup then 0 else 1]] ++ rwa ++
        [[6, b1], [7, b2], [10, c.mtrMode], 11 :: Cmds.vec6 mc, 12 :: Cmds.lohi ml] ++ (if ssa ≠ 1 then [[14, 1]] else []) ++
        [[16, b3], [19, c.mag1Mode], [20, c.mag2Mode], [22, b4], [23, b5], [24, b6], [25, c.gyrPwm], [26, b7]],
      (Spec.modeIn m = none ∨ Spec.modeIn m = some (if state = sStartup then 0 else 1)) ∧
      (Spec.wheelModeIn m = none ∨ Spec.wheelModeIn m = some c.rwaMode) ∧
      Spec.resetIn m = none ∧ Spec.disableIn m = none := by
    intro m hm
    simp only [List.mem_append, List.mem_cons, List.not_mem_nil, or_false] at hm
    rcases hm with (((hm | hm) | hm) | hm) | hm
    · subst hm; refine ⟨Or.inr rfl, Or.inl rfl, rfl, rfl⟩
    · rcases hany with ⟨u, rfl⟩ | rfl
      · simp only [List.mem_cons, List.not_mem_nil, or_false] at hm
        rcases hm with rfl | rfl
        · exact ⟨Or.inl rfl, Or.inr rfl, rfl, rfl⟩
        · exact ⟨Or.inl rfl, Or.inl rfl, rfl, rfl⟩
      · simp at hm
    · rcases hm with rfl | rfl | rfl | rfl | rfl <;> exact ⟨Or.inl rfl, Or.inl rfl, rfl, rfl⟩
    · split_ifs at hm with h1
      · simp only [List.mem_cons, List.not_mem_nil, or_false] at hm
        subst hm; exact ⟨Or.inl rfl, Or.inl rfl, rfl, rfl⟩
      · simp at hm
    · rcases hm with rfl | rfl | rfl | rfl | rfl | rfl | rfl | rfl <;> exact ⟨Or.inl rfl, Or.inl rfl, rfl, rfl⟩
  exact base m (by simpa using hm)

end ADCS

/-- C75, refuted, from the flight computer's side: a box whose wheels are spinning is never made to stop them by any number
of cycles in the states "limited", "detumble" and "zero angular momentum", in any interleaving with its main loop: once
the mode register says "disabled" and no earlier command is waiting, direction, speed and acceleration of all wheels stay
what they were. -/
theorem C75_never_stopped (leader : Bool) (b : Box) (evs : List Box.Ev) {b' : Box} {acts : List Act}
    (hmode : b.regs.rwaMode = 0) (hflg : b.regs.rwaFlg ≠ 1) (hr : b.regs.resetFlg ≠ 1) (hd : b.regs.disableFlg ≠ 1)
    (hpc : b.pc ∈ Spec.betweenWheelCommands)
    (hmsg : ∀ m, Box.Ev.recv m ∈ evs → Spec.sentIn [sLimited, sDetumble, sZeroL] m)
    (hrun : Box.run leader b evs = some (b', acts)) :
    b'.hw.wheels = b.hw.wheels ∧ b'.hw.pot = b.hw.pot := by
  refine C75_disabled_wheels_keep_turning leader b evs hmode hflg hr hd hpc ?_ hrun
  intro m hm
  obtain ⟨i, state, ssa, s, c, msgs, s', c', hst, hcy, hmm, ho, ho'⟩ := hmsg m hm
  obtain ⟨hs, hc⟩ := cycle_split hcy
  have co := command_orders state s'.torque s'.moment c
  obtain ⟨_, h2, h3, h4⟩ := send_each hc (by rw [co.1]; exact ho) (by rw [co.2]; exact ho') hmm
  refine ⟨?_, h3, h4⟩
  rw [show (c.command state s'.torque s'.moment).rwaMode = 0 by
    simp only [List.mem_cons, List.not_mem_nil, or_false] at hst
    rcases hst with rfl | rfl | rfl <;> rfl] at h2
  exact h2

/-- C76, refuted, from the flight computer's side: safehold puts the attitude state to "startup". Any number of cycles in
that state, in any interleaving with the main loop of a box that has taken over the passive mode and is between two
commands, changes nothing in rods, wheels and potentiometer: what was driven before stays driven. -/
theorem C76_never_switched_off (leader : Bool) (b : Box) (evs : List Box.Ev) {b' : Box} {acts : List Act}
    (hmode : b.regs.mode ≠ 1) (hr : b.regs.resetFlg ≠ 1) (hd : b.regs.disableFlg ≠ 1) (hpc : b.pc ∈ Spec.betweenCommands)
    (hmsg : ∀ m, Box.Ev.recv m ∈ evs → Spec.sentIn [sStartup] m)
    (hrun : Box.run leader b evs = some (b', acts)) :
    b'.hw.rods = b.hw.rods ∧ b'.hw.wheels = b.hw.wheels ∧ b'.hw.pot = b.hw.pot ∧ acts = [] := by
  refine C76_passive_keeps_driving leader b evs hmode hr hd hpc ?_ hrun
  intro m hm
  obtain ⟨i, state, ssa, s, c, msgs, s', c', hst, hcy, hmm, ho, ho'⟩ := hmsg m hm
  obtain ⟨hs, hc⟩ := cycle_split hcy
  have co := command_orders state s'.torque s'.moment c
  obtain ⟨h1, _, h3, h4⟩ := send_each hc (by rw [co.1]; exact ho) (by rw [co.2]; exact ho') hmm
  refine ⟨?_, h3, h4⟩
  simp only [List.mem_cons, List.not_mem_nil, or_false] at hst
  subst hst
  rcases h1 with h1 | h1 <;> rw [h1]
  · simp
  · decide

/-- C78: in the states "point standby" and "point docking" a torque or a moment other than zero comes out of the attitude
controller only in a cycle in which the attitude, magnetic field, time and orbit estimates are all valid, and it is then
the answer of the pointing law to this cycle's objectives. -/
theorem C78_valid_partial {i : AttIn} {state : U8} {s : AttCtl} (hst : state = sPointStandby ∨ state = sPointDocking)
    (hne : (s.execute i state).torque ≠ V3.zero ∨ (s.execute i state).moment ≠ V3.zero) :
    i.attValid = true ∧ i.bValid = true ∧ i.timeValid = true ∧ i.orbitValid = true ∧
    ∃ d1 c1 d2 c2 t m, i.pointing d1 c1 d2 c2 = some (t, m) ∧ (s.execute i state).torque = t.map (fun x => -x) ∧
      (s.execute i state).moment = m ∧
      (state = sPointStandby → ∃ r, i.frame = some (r, d1, d2) ∧ c1 = ⟨1, 0, 0⟩ ∧ c2 = ⟨0, 0, -1⟩) ∧
      (state = sPointDocking → ∃ v n, i.frame = some (d2, v, n) ∧ i.toOther = some (some d1) ∧ c1 = ⟨0, 0, -1⟩ ∧ c2 = ⟨1, 0, 0⟩) := by
  have e : s.execute i state = (s.defaultCmd.defaultObj.objectives i state).pointingCtl i := by
    rcases hst with rfl | rfl <;> rfl
  rw [e] at hne ⊢
  -- the commands before the pointing law are zero
  have hz : (s.defaultCmd.defaultObj.objectives i state).torque = V3.zero ∧
      (s.defaultCmd.defaultObj.objectives i state).moment = V3.zero := by
    unfold AttCtl.objectives
    split_ifs
    · exact ⟨rfl, rfl⟩
    · split <;> exact ⟨rfl, rfl⟩
    · split <;> exact ⟨rfl, rfl⟩
    · exact ⟨rfl, rfl⟩
  have hobj : ∀ d1 c1 d2 c2, (s.defaultCmd.defaultObj.objectives i state).v1des = some d1 →
      (s.defaultCmd.defaultObj.objectives i state).v1cur = some c1 →
      (s.defaultCmd.defaultObj.objectives i state).v2des = some d2 →
      (s.defaultCmd.defaultObj.objectives i state).v2cur = some c2 →
      i.timeValid = true ∧ i.orbitValid = true ∧
      (state = sPointStandby → ∃ r, i.frame = some (r, d1, d2) ∧ c1 = ⟨1, 0, 0⟩ ∧ c2 = ⟨0, 0, -1⟩) ∧
      (state = sPointDocking → ∃ v n, i.frame = some (d2, v, n) ∧ i.toOther = some (some d1) ∧ c1 = ⟨0, 0, -1⟩ ∧ c2 = ⟨1, 0, 0⟩) := by
    intro d1 c1 d2 c2 h1 h2 h3 h4
    unfold AttCtl.objectives at h1 h2 h3 h4
    by_cases hv : (!i.timeValid || !i.attValid || !i.orbitValid) = true
    · rw [if_pos hv] at h1; cases h1
    · rw [if_neg hv] at h1 h2 h3 h4
      simp only [Bool.or_eq_true, Bool.not_eq_true', not_or, Bool.not_eq_false] at hv
      refine ⟨hv.1.1, hv.2, ?_, ?_⟩
      · rintro rfl
        rw [if_pos rfl] at h1 h2 h3 h4
        cases hfr : i.frame with
        | none => rw [hfr] at h1; cases h1
        | some f =>
          rw [hfr] at h1 h2 h3 h4
          simp only [Option.some.injEq] at h1 h2 h3 h4
          exact ⟨f.1, by rw [← h1, ← h3], h2.symm, h4.symm⟩
      · rintro rfl
        rw [if_neg (by decide), if_pos rfl] at h1 h2 h3 h4
        cases hfr : i.frame with
        | none => rw [hfr] at h1; cases h1
        | some f =>
          cases hto : i.toOther with
          | none => rw [hfr, hto] at h1; cases h1
          | some d =>
            rw [hfr, hto] at h1 h2 h3 h4
            simp only [Option.some.injEq] at h1 h2 h3 h4
            exact ⟨f.2.1, f.2.2, by rw [← h3], by rw [h1], h2.symm, h4.symm⟩
  generalize s.defaultCmd.defaultObj.objectives i state = o at hne hz hobj ⊢
  unfold AttCtl.pointingCtl at hne ⊢
  by_cases hv : (!i.attValid || !i.bValid) = true
  · rw [if_pos hv] at hne
    rcases hne with hne | hne
    · exact absurd hz.1 hne
    · exact absurd hz.2 hne
  · rw [if_neg hv] at hne ⊢
    simp only [Bool.or_eq_true, Bool.not_eq_true', not_or, Bool.not_eq_false] at hv
    have bad : ¬ (o.torque ≠ V3.zero ∨ o.moment ≠ V3.zero) := by
      rintro (hx | hx)
      · exact hx hz.1
      · exact hx hz.2
    split at hne
    · rename_i d1 c1 d2 c2 h1 h2 h3 h4
      cases hp : i.pointing d1 c1 d2 c2 with
      | none => rw [hp] at hne; exact absurd hne bad
      | some tm =>
        obtain ⟨o1, o2, o3, o4⟩ := hobj d1 c1 d2 c2 h1 h2 h3 h4
        refine ⟨hv.1, hv.2, o1, o2, d1, c1, d2, c2, tm.1, tm.2, hp, ?_, ?_, o3, o4⟩
        · simp only [hp]
        · simp only [hp]
    · exact absurd hne bad

/-- C78: what the attitude controller holds after a cycle in the states "point standby" and "point docking" (torque, moment
and the four objectives) is determined by that cycle's inputs alone: nothing is left of earlier cycles. Without valid
attitude, time and orbit estimates all of it is zero or absent. -/
theorem C78_nothing_left {state : U8} (hst : state = sPointStandby ∨ state = sPointDocking) (i : AttIn) (s t : AttCtl) :
    s.execute i state = t.execute i state ∧
    (i.attValid = false ∨ i.timeValid = false ∨ i.orbitValid = false →
      s.execute i state = ⟨V3.zero, V3.zero, none, none, none, none⟩) := by
  have e : ∀ s : AttCtl, s.execute i state = ((⟨V3.zero, V3.zero, none, none, none, none⟩ : AttCtl).objectives i state).pointingCtl i := by
    intro s
    rcases hst with rfl | rfl <;> rfl
  refine ⟨(e s).trans (e t).symm, ?_⟩
  intro hv
  rw [e s]
  have hv' : (!i.timeValid || !i.attValid || !i.orbitValid) = true := by
    rcases hv with h | h | h <;> simp [h]
  unfold AttCtl.objectives
  rw [if_pos hv']
  unfold AttCtl.pointingCtl
  split_ifs <;> rfl

/-- C78, refuted for the state "point manual": however many cycles pass without a valid attitude or magnetic field
estimate, the wheel torque and the moment last computed are kept, and (`C52_pointing`) sent to the box in every one of
them. -/
theorem C78_point_manual_keeps_torque (is : List AttIn) (s : AttCtl)
    (h : ∀ i ∈ is, i.attValid = false ∨ i.bValid = false) :
    is.foldl (fun s i => s.execute i sPointManual) s = s := by
  induction is generalizing s with
  | nil => rfl
  | cons i is ih =>
    have : s.execute i sPointManual = s := by
      show s.pointingCtl i = s
      unfold AttCtl.pointingCtl
      rw [if_pos]
      rcases h i (by simp) with h | h <;> simp [h]
    rw [List.foldl_cons, this]
    exact ih s fun i hi => h i (by simp [hi])

/-! Non-vacuity: cycles in every state are defined, and their messages are those claimed. -/

/-- Inputs with everything valid, a detumbling moment, an orbital frame and a pointing answer. -/
private def exIn : AttIn :=
  { bValid := true, attValid := true, timeValid := true, orbitValid := true, detumble := some ⟨1 / 64, 0, -1 / 64⟩
    frame := some (⟨1, 0, 0⟩, ⟨0, 1, 0⟩, ⟨0, 0, 1⟩), toOther := some (some ⟨0, 1, 0⟩)
    pointing := fun _ _ _ _ => some (⟨1 / 1024, 0, 0⟩, ⟨0, 1 / 64, 0⟩) }

example : ∀ state ∈ [sStartup, sLimited, sZeroTorque, sZeroL, sDetumble, sManual, sPointManual, sPointStandby, sPointDocking],
    (Spec.attitudeCycle exIn state 0 AttCtl.init Cmds.init).isSome = true := by decide +kernel
example : ((Spec.attitudeCycle exIn sPointStandby 0 AttCtl.init Cmds.init).map fun r =>
    decide (r.2.1.torque = ⟨-1 / 1024, 0, 0⟩ ∧ r.2.1.moment = ⟨0, 1 / 64, 0⟩ ∧ r.2.1.torque ≠ V3.zero ∧ r.1.length = 17)) =
    some true := by decide +kernel
example : ((Spec.attitudeCycle exIn sDetumble 0 AttCtl.init Cmds.init).map fun r =>
    decide (r.2.1.moment = ⟨1 / 64, 0, -1 / 64⟩)) = some true := by decide +kernel
example : (⟨1 / 64, 0, -1 / 64⟩ : V3 ℚ).all (|·| ≤ maxMoment) := ⟨by decide +kernel, by decide +kernel, by decide +kernel⟩
example : (⟨-1 / 1024, 0, 0⟩ : V3 ℚ).all (|·| ≤ maxTorque) := ⟨by decide +kernel, by decide +kernel, by decide +kernel⟩

/-- C75_never_stopped, C76_never_switched_off: a message of such a cycle. -/
example : Spec.sentIn [sLimited, sDetumble, sZeroL] [3, 0] := by
  have h : ((Spec.attitudeCycle exIn sDetumble 0 AttCtl.init Cmds.init).map fun r => decide ([3, 0] ∈ r.1)) = some true := by
    decide +kernel
  cases hc : Spec.attitudeCycle exIn sDetumble 0 AttCtl.init Cmds.init with
  | none => rw [hc] at h; cases h
  | some r =>
    rw [hc] at h
    simp only [Option.map_some, Option.some.injEq, decide_eq_true_eq] at h
    exact ⟨_, _, _, _, _, _, _, _, by simp, hc, h, fun _ => rfl, fun _ => rfl⟩
example : Spec.sentIn [sStartup] [1, 0] := by
  have h : ((Spec.attitudeCycle exIn sStartup 0 AttCtl.init Cmds.init).map fun r => decide ([1, 0] ∈ r.1)) = some true := by
    decide +kernel
  cases hc : Spec.attitudeCycle exIn sStartup 0 AttCtl.init Cmds.init with
  | none => rw [hc] at h; cases h
  | some r =>
    rw [hc] at h
    simp only [Option.map_some, Option.some.injEq, decide_eq_true_eq] at h
    exact ⟨_, _, _, _, _, _, _, _, by simp, hc, h, fun _ => rfl, fun _ => rfl⟩

end PAN
