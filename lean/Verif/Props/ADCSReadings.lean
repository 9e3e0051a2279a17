import Verif.Lemmas.ADCSReadings
/-!
The readings of the attitude control box: C94 (magnetometers and gyroscope).
-/
namespace PAN
open ADCS

namespace Spec

/-- The chips deliver sixteen-bit numbers. -/
def Chips (evs : List REv) : Prop :=
  ∀ e, REv.tick e ∈ evs → (∀ r, e.mag1 = some r → r.all Raw16) ∧ (∀ r, e.mag2 = some r → r.all Raw16) ∧
    (∀ r, e.gyr = some r → r.1.all Raw16 ∧ Raw16 r.2)

/-- The physical value of a raw reading on a scale from `min` to `max`. -/
def scaled (min max : ℚ) (r : ℤ) : ℚ := min + (r + 32768) * (max - min) / 65535

/-- `a` is `b` within 1.1 steps of a sixteen-bit scale from `min` to `max`. -/
def Read (min max a b : ℚ) : Prop := |a - b| ≤ 44 / 40 * ((max - min) / 65535)

/-- The same on three axes. -/
def Read3 (min max : ℚ) (a b : V3 ℚ) : Prop := Read min max a.x b.x ∧ Read min max a.y b.y ∧ Read min max a.z b.z

/-- How the first magnetometer is mounted. -/
def mag1Mount {α : Type} [Neg α] (v : V3 α) : V3 α := ⟨v.x, -v.z, -v.y⟩
/-- How the second magnetometer is mounted. -/
def mag2Mount {α : Type} [Neg α] (v : V3 α) : V3 α := ⟨v.y, v.z, -v.x⟩
/-- How the gyroscope is mounted. -/
def gyrMount {α : Type} [Neg α] (v : V3 α) : V3 α := ⟨v.x, -v.z, v.y⟩

end Spec
open Spec

namespace ADCS

/-- What holds of the inertial readings in every reachable state. -/
structure ImuOk (s : RBox) : Prop where
  flt : FltOk s.box.regs
  mag1 : Within (-slack maxMag1) (slack maxMag1) s.rd.mag1
  mag2 : Within (-slack maxMag2) (slack maxMag2) s.rd.mag2
  gyr : Within (-slack maxOmega) (slack maxOmega) s.rd.gyr
  temp : tempLo ≤ s.rd.temp ∧ s.rd.temp ≤ tempHi

theorem within_zero {g : ℚ} (h : 0 ≤ g) : Within (-g) g V3.zero :=
  ⟨⟨by simpa [V3.zero] using h, h⟩, ⟨by simpa [V3.zero] using h, h⟩, ⟨by simpa [V3.zero] using h, h⟩⟩

theorem imuOk_boot (pot : Bool) (sensors : ℕ → Bool) : ImuOk (RBox.boot pot sensors) where
  flt := ⟨⟨zero_le_one, le_rfl⟩, ⟨zero_le_one, le_rfl⟩, ⟨zero_le_one, le_rfl⟩, ⟨zero_le_one, le_rfl⟩, ⟨zero_le_one, le_rfl⟩⟩
  mag1 := within_zero (show 0 ≤ slack maxMag1 by decide +kernel)
  mag2 := within_zero (by decide +kernel)
  gyr := within_zero (by decide +kernel)
  temp := ⟨show tempLo ≤ 0 by decide +kernel, show 0 ≤ tempHi by decide +kernel⟩

namespace Rd

theorem stepGyr_other (ok : Bool) (raw : Option (V3 ℤ × ℤ)) (gf tf : ℚ) (s : Rd) :
    (s.stepGyr ok raw gf tf).mag1 = s.mag1 ∧ (s.stepGyr ok raw gf tf).mag2 = s.mag2 := by
  cases ok <;> cases raw <;> exact ⟨rfl, rfl⟩

theorem stepMag2_other (ok : Bool) (raw : Option (V3 ℤ)) (f : ℚ) (s : Rd) :
    (s.stepMag2 ok raw f).mag1 = s.mag1 ∧ (s.stepMag2 ok raw f).gyr = s.gyr ∧ (s.stepMag2 ok raw f).temp = s.temp := by
  cases ok <;> cases raw <;> exact ⟨rfl, rfl, rfl⟩

theorem stepMag1_other (ok : Bool) (raw : Option (V3 ℤ)) (f : ℚ) (s : Rd) :
    (s.stepMag1 ok raw f).mag2 = s.mag2 ∧ (s.stepMag1 ok raw f).gyr = s.gyr ∧ (s.stepMag1 ok raw f).temp = s.temp := by
  cases ok <;> cases raw <;> exact ⟨rfl, rfl, rfl⟩

theorem stepMag1_cases (ok : Bool) (raw : Option (V3 ℤ)) (f : ℚ) (s : Rd) : (s.stepMag1 ok raw f).mag1 = s.mag1 ∨
    ∃ r, raw = some r ∧ ok = true ∧
      (s.stepMag1 ok raw f).mag1 = filt3 f s.mag1 (mag1ToBody (r.map (fpI · (-maxMag1) maxMag1))) := by
  cases ok <;> cases raw <;> first | exact Or.inl rfl | exact Or.inr ⟨_, rfl, rfl, rfl⟩

theorem stepMag2_cases (ok : Bool) (raw : Option (V3 ℤ)) (f : ℚ) (s : Rd) : (s.stepMag2 ok raw f).mag2 = s.mag2 ∨
    ∃ r, raw = some r ∧ ok = true ∧
      (s.stepMag2 ok raw f).mag2 = filt3 f s.mag2 (mag2ToBody (r.map (fpI · (-maxMag2) maxMag2))) := by
  cases ok <;> cases raw <;> first | exact Or.inl rfl | exact Or.inr ⟨_, rfl, rfl, rfl⟩

theorem stepGyr_cases (ok : Bool) (raw : Option (V3 ℤ × ℤ)) (gf tf : ℚ) (s : Rd) :
    ((s.stepGyr ok raw gf tf).gyr = s.gyr ∧ (s.stepGyr ok raw gf tf).temp = s.temp) ∨
    ∃ r, raw = some r ∧ ok = true ∧
      (s.stepGyr ok raw gf tf).gyr = filt3 gf s.gyr (gyrToBody (r.1.map (fpI · (-maxOmega) maxOmega))) ∧
      (s.stepGyr ok raw gf tf).temp = filt tf s.temp (fpI r.2 minTemp maxTemp) := by
  cases ok <;> cases raw <;> first | exact Or.inl ⟨rfl, rfl⟩ | exact Or.inr ⟨_, rfl, rfl, rfl, rfl⟩

end Rd

/-- The inertial readings after a step: unchanged, or updated from values that were delivered. -/
theorem tickRd_mag1 (s : RBox) (e : REnv) : (s.tickRd e).mag1 = s.rd.mag1 ∨
    ∃ r, e.mag1 = some r ∧ (s.tickRd e).mag1 =
      Rd.filt3 s.box.regs.magFlt s.rd.mag1 (Rd.mag1ToBody (r.map (fpI · (-maxMag1) maxMag1))) := by
  unfold RBox.tickRd
  split_ifs
  · have o : (s.rd.imu (fun i => s.box.hw.sensor i && e.env.alive i) e s.box.regs).mag1 =
        (s.rd.stepMag1 (s.box.hw.sensor 1 && e.env.alive 1) e.mag1 s.box.regs.magFlt).mag1 :=
      (Rd.stepGyr_other _ _ _ _ _).1.trans (Rd.stepMag2_other _ _ _ _).1
    rw [o]
    rcases Rd.stepMag1_cases (s.box.hw.sensor 1 && e.env.alive 1) e.mag1 s.box.regs.magFlt s.rd with h | ⟨r, h1, -, h2⟩
    · exact Or.inl h
    · exact Or.inr ⟨r, h1, h2⟩
  · exact Or.inl rfl
  · exact Or.inl rfl
  · exact Or.inl rfl

theorem tickRd_mag2 (s : RBox) (e : REnv) : (s.tickRd e).mag2 = s.rd.mag2 ∨
    ∃ r, e.mag2 = some r ∧ (s.tickRd e).mag2 =
      Rd.filt3 s.box.regs.magFlt s.rd.mag2 (Rd.mag2ToBody (r.map (fpI · (-maxMag2) maxMag2))) := by
  unfold RBox.tickRd
  split_ifs
  · have o' : (s.rd.imu (fun i => s.box.hw.sensor i && e.env.alive i) e s.box.regs).mag2 =
        ((s.rd.stepMag1 (s.box.hw.sensor 1 && e.env.alive 1) e.mag1 s.box.regs.magFlt).stepMag2
          (s.box.hw.sensor 2 && e.env.alive 2) e.mag2 s.box.regs.magFlt).mag2 :=
      (Rd.stepGyr_other _ _ _ _ _).2
    rw [o']
    have o := Rd.stepMag1_other (s.box.hw.sensor 1 && e.env.alive 1) e.mag1 s.box.regs.magFlt s.rd
    rcases Rd.stepMag2_cases (s.box.hw.sensor 2 && e.env.alive 2) e.mag2 s.box.regs.magFlt
      (s.rd.stepMag1 (s.box.hw.sensor 1 && e.env.alive 1) e.mag1 s.box.regs.magFlt) with h | ⟨r, h1, -, h2⟩
    · exact Or.inl (h.trans o.1)
    · rw [o.1] at h2; exact Or.inr ⟨r, h1, h2⟩
  · exact Or.inl rfl
  · exact Or.inl rfl
  · exact Or.inl rfl

theorem tickRd_gyr (s : RBox) (e : REnv) : ((s.tickRd e).gyr = s.rd.gyr ∧ (s.tickRd e).temp = s.rd.temp) ∨
    ∃ r, e.gyr = some r ∧ (s.tickRd e).gyr =
      Rd.filt3 s.box.regs.gyrFlt s.rd.gyr (Rd.gyrToBody (r.1.map (fpI · (-maxOmega) maxOmega))) ∧
      (s.tickRd e).temp = Rd.filt s.box.regs.gyrTempFlt s.rd.temp (fpI r.2 minTemp maxTemp) := by
  unfold RBox.tickRd
  split_ifs
  · have o := Rd.stepMag1_other (s.box.hw.sensor 1 && e.env.alive 1) e.mag1 s.box.regs.magFlt s.rd
    have o2 := Rd.stepMag2_other (s.box.hw.sensor 2 && e.env.alive 2) e.mag2 s.box.regs.magFlt
      (s.rd.stepMag1 (s.box.hw.sensor 1 && e.env.alive 1) e.mag1 s.box.regs.magFlt)
    rcases Rd.stepGyr_cases (s.box.hw.sensor 0 && e.env.alive 0) e.gyr s.box.regs.gyrFlt s.box.regs.gyrTempFlt
      ((s.rd.stepMag1 (s.box.hw.sensor 1 && e.env.alive 1) e.mag1 s.box.regs.magFlt).stepMag2
        (s.box.hw.sensor 2 && e.env.alive 2) e.mag2 s.box.regs.magFlt) with h | ⟨r, h1, -, h2, h3⟩
    · exact Or.inl ⟨h.1.trans (o2.2.1.trans o.2.1), h.2.trans (o2.2.2.trans o.2.2)⟩
    · rw [o2.2.1, o.2.1] at h2
      rw [o2.2.2, o.2.2] at h3
      exact Or.inr ⟨r, h1, h2, h3⟩
  · exact Or.inl ⟨rfl, rfl⟩
  · exact Or.inl ⟨rfl, rfl⟩
  · exact Or.inl ⟨rfl, rfl⟩

theorem within_mag1 {r : V3 ℤ} (h : r.all Raw16) : Within (-maxMag1) maxMag1 (Rd.mag1ToBody (r.map (fpI · (-maxMag1) maxMag1))) := by
  obtain ⟨a, b, c⟩ := h
  have A := fpI_mag1 a; have B := fpI_mag1 b; have C := fpI_mag1 c
  exact ⟨A, ⟨neg_le_neg C.2, neg_le.1 C.1⟩,
    ⟨neg_le_neg B.2, neg_le.1 B.1⟩⟩

theorem within_mag2 {r : V3 ℤ} (h : r.all Raw16) : Within (-maxMag2) maxMag2 (Rd.mag2ToBody (r.map (fpI · (-maxMag2) maxMag2))) := by
  obtain ⟨a, b, c⟩ := h
  have A := fpI_mag2 a; have B := fpI_mag2 b; have C := fpI_mag2 c
  exact ⟨B, C, ⟨neg_le_neg A.2, neg_le.1 A.1⟩⟩

theorem within_gyr {r : V3 ℤ} (h : r.all Raw16) : Within (-maxOmega) maxOmega (Rd.gyrToBody (r.map (fpI · (-maxOmega) maxOmega))) := by
  obtain ⟨a, b, c⟩ := h
  have A := fpI_omega a; have B := fpI_omega b; have C := fpI_omega c
  exact ⟨A, ⟨neg_le_neg C.2, neg_le.1 C.1⟩, B⟩

theorem imuOk_step {l : Bool} {s s' : RBox} {ev : REv} {a : Option Act}
    (hev : ∀ e, ev = .tick e → (∀ r, e.mag1 = some r → r.all Raw16) ∧ (∀ r, e.mag2 = some r → r.all Raw16) ∧
      (∀ r, e.gyr = some r → r.1.all Raw16 ∧ Raw16 r.2))
    (h : ImuOk s) (hs : s.step l ev = some (s', a)) : ImuOk s' := by
  cases ev with
  | recv m =>
    obtain ⟨hb, hr⟩ := RBox.step_recv hs
    exact ⟨by rw [hb]; exact flt_receive h.flt m, hr ▸ h.mag1, hr ▸ h.mag2, hr ▸ h.gyr, hr ▸ h.temp⟩
  | tick e =>
    obtain ⟨e', ht, hr⟩ := RBox.step_tick hs
    obtain ⟨t1, t2, t3, t4, t5, -⟩ := tick_flt ht
    obtain ⟨k1, k2, k3⟩ := hev e rfl
    refine ⟨flt_same h.flt t1 t2 t3 t4 t5, ?_, ?_, ?_, ?_⟩
    · rw [hr]
      rcases tickRd_mag1 s e with q | ⟨r, q, p⟩
      · rw [q]; exact h.mag1
      · rw [p]; exact filt3_sym h.flt.mag.1 h.flt.mag.2 slack_mag1 h.mag1 (within_mag1 (k1 r q))
    · rw [hr]
      rcases tickRd_mag2 s e with q | ⟨r, q, p⟩
      · rw [q]; exact h.mag2
      · rw [p]; exact filt3_sym h.flt.mag.1 h.flt.mag.2 slack_mag2 h.mag2 (within_mag2 (k2 r q))
    · rw [hr]
      rcases tickRd_gyr s e with q | ⟨r, q, p, -⟩
      · rw [q.1]; exact h.gyr
      · rw [p]; exact filt3_sym h.flt.gyr.1 h.flt.gyr.2 slack_omega h.gyr (within_gyr (k3 r q).1)
    · rw [hr]
      rcases tickRd_gyr s e with q | ⟨r, q, -, p⟩
      · rw [q.2]; exact h.temp
      · rw [p]
        have := fpI_temp (k3 r q).2
        exact filt_range h.flt.temp.1 h.flt.temp.2 rep_tempLo rep_tempHi h.temp.1 h.temp.2 this.1 this.2
          (by decide +kernel) (by decide +kernel)

theorem imuOk_run {l : Bool} (evs : List REv) {s s' : RBox} (hc : Chips evs) (h : ImuOk s)
    (hr : RBox.run l s evs = some s') : ImuOk s' :=
  RBox.run_inv (l := l) ImuOk (fun ev => ∀ e, ev = .tick e → (∀ r, e.mag1 = some r → r.all Raw16) ∧
      (∀ r, e.mag2 = some r → r.all Raw16) ∧ (∀ r, e.gyr = some r → r.1.all Raw16 ∧ Raw16 r.2))
    (fun _ _ _ _ hR hP hs => imuOk_step hR hP hs) evs h (fun _ hev e he => hc e (he ▸ hev)) hr

/-! ### Encoding and decoding -/

theorem le16_lohi (u : BitVec 16) : le16 (u.setWidth 8) ((u >>> 8).setWidth 8) = u := lohi_append u

theorem put3_ok {v : V3 ℚ} {min max lo hi : ℚ} (T : Tol min max lo hi) (h : Within lo hi v) :
    ∃ u : V3 (BitVec 16), RBox.put3 v min max = some (Cmds.vec6 u) ∧
      |fpS u.x min max - v.x| ≤ 42 / 40 * ((max - min) / 65535) ∧
      |fpS u.y min max - v.y| ≤ 42 / 40 * ((max - min) / 65535) ∧
      |fpS u.z min max - v.z| ≤ 42 / 40 * ((max - min) / 65535) := by
  obtain ⟨h1, h2, h3⟩ := h
  obtain ⟨a, ha, ea⟩ := us_near T h1.1 h1.2
  obtain ⟨b, hb, eb⟩ := us_near T h2.1 h2.2
  obtain ⟨c, hc, ec⟩ := us_near T h3.1 h3.2
  refine ⟨⟨a, b, c⟩, ?_, ea, eb, ec⟩
  simp only [RBox.put3, V3.mapM, ha, hb, hc, Option.map_some]

/-- The answer to a request for the inertial readings. -/
theorem imu_answer {s : RBox} (h : ImuOk s) (hp : s.box.regs.readPtr = 21) :
    ∃ d, s.request = some d ∧
      (∀ v, |v.x - s.rd.mag1.x| ≤ (maxMag1 - -maxMag1) / 65535 / 20 → |v.y - s.rd.mag1.y| ≤ (maxMag1 - -maxMag1) / 65535 / 20 →
        |v.z - s.rd.mag1.z| ≤ (maxMag1 - -maxMag1) / 65535 / 20 → Read3 (-maxMag1) maxMag1 (get3 d 0 (-maxMag1) maxMag1) v) ∧
      (∀ v, |v.x - s.rd.mag2.x| ≤ (maxMag2 - -maxMag2) / 65535 / 20 → |v.y - s.rd.mag2.y| ≤ (maxMag2 - -maxMag2) / 65535 / 20 →
        |v.z - s.rd.mag2.z| ≤ (maxMag2 - -maxMag2) / 65535 / 20 → Read3 (-maxMag2) maxMag2 (get3 d 6 (-maxMag2) maxMag2) v) ∧
      (∀ v, |v.x - s.rd.gyr.x| ≤ (maxOmega - -maxOmega) / 65535 / 20 → |v.y - s.rd.gyr.y| ≤ (maxOmega - -maxOmega) / 65535 / 20 →
        |v.z - s.rd.gyr.z| ≤ (maxOmega - -maxOmega) / 65535 / 20 → Read3 (-maxOmega) maxOmega (get3 d 12 (-maxOmega) maxOmega) v) ∧
      (∀ v, |v - s.rd.temp| ≤ (maxTemp - minTemp) / 65535 / 20 →
        Read minTemp maxTemp (fpS (le16 (byteAt d 18) (byteAt d 19)) minTemp maxTemp) v) := by
  obtain ⟨a, ha, a1, a2, a3⟩ := put3_ok tol_mag1 h.mag1
  obtain ⟨b, hb, b1, b2, b3⟩ := put3_ok tol_mag2 h.mag2
  obtain ⟨c, hc, c1, c2, c3⟩ := put3_ok tol_omega h.gyr
  obtain ⟨t, ht, t1⟩ := us_near tol_temp h.temp.1 h.temp.2
  have comb : ∀ {p q v w : ℚ}, |p - q| ≤ 42 / 40 * w → |v - q| ≤ w / 20 → |p - v| ≤ 44 / 40 * w := by
    intro p q v w h1 h2
    rw [abs_le] at h1 h2 ⊢
    constructor <;> linarith
  refine ⟨Cmds.vec6 a ++ Cmds.vec6 b ++ Cmds.vec6 c ++ Cmds.lohi t, ?_, ?_, ?_, ?_, ?_⟩
  · unfold RBox.request
    simp only [hp, ha, hb, hc, ht]
    rfl
  · intro v v1 v2 v3
    have e : get3 (Cmds.vec6 a ++ Cmds.vec6 b ++ Cmds.vec6 c ++ Cmds.lohi t) 0 (-maxMag1) maxMag1 =
        a.map (fpS · (-maxMag1) maxMag1) := by
      simp only [get3, byteAt, Cmds.vec6, Cmds.lohi, List.cons_append, List.nil_append, List.getElem?_cons_zero,
        List.getElem?_cons_succ, Option.getD_some, le16_lohi, V3.map, Nat.zero_add]
    rw [e]
    exact ⟨comb a1 v1, comb a2 v2, comb a3 v3⟩
  · intro v v1 v2 v3
    have e : get3 (Cmds.vec6 a ++ Cmds.vec6 b ++ Cmds.vec6 c ++ Cmds.lohi t) 6 (-maxMag2) maxMag2 =
        b.map (fpS · (-maxMag2) maxMag2) := by
      simp only [get3, byteAt, Cmds.vec6, Cmds.lohi, List.cons_append, List.nil_append, List.getElem?_cons_zero,
        List.getElem?_cons_succ, Option.getD_some, le16_lohi, V3.map, Nat.reduceAdd]
    rw [e]
    exact ⟨comb b1 v1, comb b2 v2, comb b3 v3⟩
  · intro v v1 v2 v3
    have e : get3 (Cmds.vec6 a ++ Cmds.vec6 b ++ Cmds.vec6 c ++ Cmds.lohi t) 12 (-maxOmega) maxOmega =
        c.map (fpS · (-maxOmega) maxOmega) := by
      simp only [get3, byteAt, Cmds.vec6, Cmds.lohi, List.cons_append, List.nil_append, List.getElem?_cons_zero,
        List.getElem?_cons_succ, Option.getD_some, le16_lohi, V3.map, Nat.reduceAdd]
    rw [e]
    exact ⟨comb c1 v1, comb c2 v2, comb c3 v3⟩
  · intro v v1
    have e : le16 (byteAt (Cmds.vec6 a ++ Cmds.vec6 b ++ Cmds.vec6 c ++ Cmds.lohi t) 18)
        (byteAt (Cmds.vec6 a ++ Cmds.vec6 b ++ Cmds.vec6 c ++ Cmds.lohi t) 19) = t := by
      simp only [byteAt, Cmds.vec6, Cmds.lohi, List.cons_append, List.nil_append, List.getElem?_cons_zero,
        List.getElem?_cons_succ, Option.getD_some, le16_lohi]
    rw [e]
    exact comb t1 v1

/-- A measurement that has passed the filter at setting one is the physical value, up to a twentieth of a step. -/
theorem filt_scaled {r : ℤ} {x M : ℚ} (hr : Raw16 r) (hx : -slack M ≤ x ∧ x ≤ slack M) (hM : 0 ≤ M)
    (hs : slack M ≤ 2 * M) (hD : f32 (M - -M) = M - -M) (hD' : 1 / 2 ^ 20 ≤ M - -M)
    (h1 : -M ≤ fpI r (-M) M) (h2 : fpI r (-M) M ≤ M) (hm : 1 / 2 ^ 148 ≤ (M - -M) / 65535 / 100) :
    |scaled (-M) M r - Rd.filt 1 x (fpI r (-M) M)| ≤ (M - -M) / 65535 / 20 ∧
    |-scaled (-M) M r - Rd.filt 1 x (-fpI r (-M) M)| ≤ (M - -M) / 65535 / 20 := by
  have hd : |fpI r (-M) M| ≤ M := abs_le.2 ⟨h1, h2⟩
  have hd' : |-fpI r (-M) M| ≤ M := by rw [abs_neg]; exact hd
  have k1 := filt_one hM (abs_le.2 hx) hd
  have k2 := filt_one hM (abs_le.2 hx) hd'
  have q0 : (0 : ℚ) ≤ (r : ℚ) + 32768 := by have : (-32768 : ℚ) ≤ r := by exact_mod_cast hr.1
                                            linarith
  have q1 : (r : ℚ) + 32768 ≤ 65535 := by have : (r : ℚ) ≤ 32767 := by exact_mod_cast hr.2
                                          linarith
  have hn : f32 ((r : ℚ) + 32768) = r + 32768 := by
    have : |r + 32768| ≤ 2 ^ 24 := by rw [abs_le]; constructor <;> have := hr.1 <;> have := hr.2 <;> omega
    have e := f32_int this
    push_cast at e
    exact e
  have k3 : |fpI r (-M) M - scaled (-M) M r| ≤ (M - -M) / 65535 / 80 := by
    unfold fpI scaled
    rw [hn]
    exact dec_err (by norm_num) (by norm_num) q0 q1 (by linarith) hM hD hD'
  have k4 : (M + slack M) / 2 ^ 22 ≤ (M - -M) / 65535 / 40 := by
    have : (M + slack M) / 2 ^ 22 ≤ 3 * M / 2 ^ 22 := div_le_div_of_nonneg_right (by linarith) (by norm_num)
    refine this.trans ?_
    rw [sub_neg_eq_add, div_div, div_le_div_iff₀ (by norm_num) (by norm_num)]
    nlinarith
  have hw : 0 ≤ (M - -M) / 65535 := div_nonneg (by linarith) (by norm_num)
  rw [abs_le] at k1 k2 k3
  constructor
  · rw [abs_le]
    constructor <;> linarith
  · rw [abs_le]
    constructor <;> linarith

end ADCS

/-- C94: every request for the magnetic field and angular rate readings is answered (no conversion overflows), in every
run from power-up, with any messages, sensor values, device failures and interleaving. -/
theorem C94_answered (leader pot : Bool) (sensors : ℕ → Bool) (evs : List REv) {s : RBox} (hc : Chips evs)
    (hrun : RBox.run leader (RBox.boot pot sensors) evs = some s) (hp : s.box.regs.readPtr = 21) :
    ∃ d, s.request = some d ∧ d.length = 20 := by
  obtain ⟨d, hd, -⟩ := imu_answer (imuOk_run evs hc (imuOk_boot pot sensors) hrun) hp
  refine ⟨d, hd, ?_⟩
  unfold RBox.request at hd
  simp only [hp] at hd
  simp only [show ((21 : U8) = 0) = False by decide, show ((21 : U8) = 8) = False by decide, show ((21 : U8) = 14) = False by decide, show ((21 : U8) = 15) = False by decide,
    show ((21 : U8) = 17) = False by decide, if_false, if_true] at hd
  have len : ∀ {v : V3 ℚ} {a b : ℚ} {l : List U8}, RBox.put3 v a b = some l → l.length = 6 := by
    intro v a b l h
    unfold RBox.put3 at h
    rw [Option.map_eq_some_iff] at h
    obtain ⟨u, -, rfl⟩ := h
    rfl
  split at hd
  · rename_i a b c t h1 h2 h3 h4
    cases hd
    simp only [List.length_append, len h1, len h2, len h3]
    rfl
  · cases hd

namespace ADCS

/-- The state before the measurement, the one after it and the last one are as in `ImuOk`. -/
theorem three_ok {l pot : Bool} {sensors : ℕ → Bool} {evs1 evs2 : List REv} {e : REnv} {s s' s'' : RBox} {a : Option Act}
    (hc : Chips (evs1 ++ .tick e :: evs2)) (h1 : RBox.run l (RBox.boot pot sensors) evs1 = some s)
    (h2 : s.step l (.tick e) = some (s', a)) (h3 : RBox.run l s' evs2 = some s'') : ImuOk s ∧ ImuOk s'' := by
  have o1 := imuOk_run evs1 (fun e he => hc e (by simp [he])) (imuOk_boot pot sensors) h1
  have o2 : ImuOk s' := imuOk_step (fun e' he => hc e' (by simp [he.symm])) o1 h2
  exact ⟨o1, imuOk_run evs2 (fun e he => hc e (by simp [he])) o2 h3⟩

theorem kept_mag1 {l : Bool} {evs : List REv} {s s' : RBox} (hq : ∀ e, REv.tick e ∈ evs → e.mag1 = none)
    (h : RBox.run l s evs = some s') : s'.rd.mag1 = s.rd.mag1 := by
  refine RBox.run_inv (l := l) (fun x => x.rd.mag1 = s.rd.mag1) (fun ev => ∀ e, ev = .tick e → e.mag1 = none) ?_ evs rfl
    (fun ev hev e he => hq e (he ▸ hev)) h
  intro x ev x' a hR hP hs
  cases ev with
  | recv m => rw [(RBox.step_recv hs).2]; exact hP
  | tick e =>
    obtain ⟨-, -, hr⟩ := RBox.step_tick hs
    rw [hr]
    rcases tickRd_mag1 x e with q | ⟨r, q, -⟩
    · rw [q]; exact hP
    · rw [hR e rfl] at q; cases q

theorem kept_mag2 {l : Bool} {evs : List REv} {s s' : RBox} (hq : ∀ e, REv.tick e ∈ evs → e.mag2 = none)
    (h : RBox.run l s evs = some s') : s'.rd.mag2 = s.rd.mag2 := by
  refine RBox.run_inv (l := l) (fun x => x.rd.mag2 = s.rd.mag2) (fun ev => ∀ e, ev = .tick e → e.mag2 = none) ?_ evs rfl
    (fun ev hev e he => hq e (he ▸ hev)) h
  intro x ev x' a hR hP hs
  cases ev with
  | recv m => rw [(RBox.step_recv hs).2]; exact hP
  | tick e =>
    obtain ⟨-, -, hr⟩ := RBox.step_tick hs
    rw [hr]
    rcases tickRd_mag2 x e with q | ⟨r, q, -⟩
    · rw [q]; exact hP
    · rw [hR e rfl] at q; cases q

theorem kept_gyr {l : Bool} {evs : List REv} {s s' : RBox} (hq : ∀ e, REv.tick e ∈ evs → e.gyr = none)
    (h : RBox.run l s evs = some s') : s'.rd.gyr = s.rd.gyr ∧ s'.rd.temp = s.rd.temp := by
  refine RBox.run_inv (l := l) (fun x => x.rd.gyr = s.rd.gyr ∧ x.rd.temp = s.rd.temp)
    (fun ev => ∀ e, ev = .tick e → e.gyr = none) ?_ evs ⟨rfl, rfl⟩ (fun ev hev e he => hq e (he ▸ hev)) h
  intro x ev x' a hR hP hs
  cases ev with
  | recv m => rw [(RBox.step_recv hs).2]; exact hP
  | tick e =>
    obtain ⟨-, -, hr⟩ := RBox.step_tick hs
    rw [hr]
    rcases tickRd_gyr x e with q | ⟨r, q, -⟩
    · rw [q.1, q.2]; exact hP
    · rw [hR e rfl] at q; cases q

/-- In the step of the inertial sensors a sensor in service that delivers a value is used. -/
theorem used_mag1 {s : RBox} {e : REnv} {r : V3 ℤ} (hpc : s.box.pc = .imu) (hs : s.box.hw.sensor 1 = true)
    (ha : e.env.alive 1 = true) (hm : e.mag1 = some r) : (s.tickRd e).mag1 =
      Rd.filt3 s.box.regs.magFlt s.rd.mag1 (Rd.mag1ToBody (r.map (fpI · (-maxMag1) maxMag1))) := by
  have o : (s.rd.imu (fun i => s.box.hw.sensor i && e.env.alive i) e s.box.regs).mag1 =
      (s.rd.stepMag1 (s.box.hw.sensor 1 && e.env.alive 1) e.mag1 s.box.regs.magFlt).mag1 :=
    (Rd.stepGyr_other _ _ _ _ _).1.trans (Rd.stepMag2_other _ _ _ _).1
  unfold RBox.tickRd
  rw [if_pos hpc, o, hs, ha, hm]
  rfl

theorem used_mag2 {s : RBox} {e : REnv} {r : V3 ℤ} (hpc : s.box.pc = .imu) (hs : s.box.hw.sensor 2 = true)
    (ha : e.env.alive 2 = true) (hm : e.mag2 = some r) : (s.tickRd e).mag2 =
      Rd.filt3 s.box.regs.magFlt s.rd.mag2 (Rd.mag2ToBody (r.map (fpI · (-maxMag2) maxMag2))) := by
  have o' : (s.rd.imu (fun i => s.box.hw.sensor i && e.env.alive i) e s.box.regs).mag2 =
      ((s.rd.stepMag1 (s.box.hw.sensor 1 && e.env.alive 1) e.mag1 s.box.regs.magFlt).stepMag2
        (s.box.hw.sensor 2 && e.env.alive 2) e.mag2 s.box.regs.magFlt).mag2 :=
    (Rd.stepGyr_other _ _ _ _ _).2
  have o := Rd.stepMag1_other (s.box.hw.sensor 1 && e.env.alive 1) e.mag1 s.box.regs.magFlt s.rd
  unfold RBox.tickRd
  rw [if_pos hpc, o', hs, ha, hm, ← o.1]
  rfl

theorem used_gyr {s : RBox} {e : REnv} {r : V3 ℤ × ℤ} (hpc : s.box.pc = .imu) (hs : s.box.hw.sensor 0 = true)
    (ha : e.env.alive 0 = true) (hm : e.gyr = some r) :
    (s.tickRd e).gyr = Rd.filt3 s.box.regs.gyrFlt s.rd.gyr (Rd.gyrToBody (r.1.map (fpI · (-maxOmega) maxOmega))) ∧
    (s.tickRd e).temp = Rd.filt s.box.regs.gyrTempFlt s.rd.temp (fpI r.2 minTemp maxTemp) := by
  have o := Rd.stepMag1_other (s.box.hw.sensor 1 && e.env.alive 1) e.mag1 s.box.regs.magFlt s.rd
  have o2 := Rd.stepMag2_other (s.box.hw.sensor 2 && e.env.alive 2) e.mag2 s.box.regs.magFlt
    (s.rd.stepMag1 (s.box.hw.sensor 1 && e.env.alive 1) e.mag1 s.box.regs.magFlt)
  unfold RBox.tickRd
  rw [if_pos hpc, ← o.2.1, ← o.2.2, ← o2.2.1, ← o2.2.2]
  unfold Rd.imu
  dsimp only
  rw [hs, ha, hm]
  exact ⟨rfl, rfl⟩

end ADCS

/-- C94: the flight computer reads what the first magnetometer measured. After any run, a measurement `r` of a sensor in
service with the filter at its default, then anything at all except a newer value of that sensor: the answer, decoded
as the flight computer does, is the field in the body frame, to the resolution of the format. -/
theorem C94_mag1 (leader pot : Bool) (sensors : ℕ → Bool) (evs1 evs2 : List REv) (e : REnv) (r : V3 ℤ) {s s' s'' : RBox}
    {a : Option Act} (hc : Chips (evs1 ++ .tick e :: evs2))
    (h1 : RBox.run leader (RBox.boot pot sensors) evs1 = some s)
    (hpc : s.box.pc = .imu) (hs : s.box.hw.sensor 1 = true) (ha : e.env.alive 1 = true) (hm : e.mag1 = some r)
    (hf : s.box.regs.magFlt = 1) (h2 : s.step leader (.tick e) = some (s', a))
    (h3 : RBox.run leader s' evs2 = some s'') (hq : ∀ e, REv.tick e ∈ evs2 → e.mag1 = none)
    (hp : s''.box.regs.readPtr = 21) :
    ∃ d, s''.request = some d ∧
      Read3 (-maxMag1) maxMag1 (get3 d 0 (-maxMag1) maxMag1) (mag1Mount (r.map (scaled (-maxMag1) maxMag1))) := by
  obtain ⟨o1, o3⟩ := three_ok hc h1 h2 h3
  obtain ⟨d, hd, k, -⟩ := imu_answer o3 hp
  refine ⟨d, hd, k _ ?_ ?_ ?_⟩
  all_goals
    rw [kept_mag1 hq h3, (RBox.step_tick h2).choose_spec.2, used_mag1 hpc hs ha hm, hf]
    obtain ⟨r1, r2, r3⟩ := (hc e (by simp)).1 r hm
    obtain ⟨x1, x2, x3⟩ := o1.mag1
  · exact (filt_scaled r1 x1 (by decide +kernel) (by decide +kernel) (by decide +kernel) (by decide +kernel)
      (fpI_mag1 r1).1 (fpI_mag1 r1).2 (by decide +kernel)).1
  · exact (filt_scaled r3 x2 (by decide +kernel) (by decide +kernel) (by decide +kernel) (by decide +kernel)
      (fpI_mag1 r3).1 (fpI_mag1 r3).2 (by decide +kernel)).2
  · exact (filt_scaled r2 x3 (by decide +kernel) (by decide +kernel) (by decide +kernel) (by decide +kernel)
      (fpI_mag1 r2).1 (fpI_mag1 r2).2 (by decide +kernel)).2

/-- C94: the same for the second magnetometer. -/
theorem C94_mag2 (leader pot : Bool) (sensors : ℕ → Bool) (evs1 evs2 : List REv) (e : REnv) (r : V3 ℤ) {s s' s'' : RBox}
    {a : Option Act} (hc : Chips (evs1 ++ .tick e :: evs2))
    (h1 : RBox.run leader (RBox.boot pot sensors) evs1 = some s)
    (hpc : s.box.pc = .imu) (hs : s.box.hw.sensor 2 = true) (ha : e.env.alive 2 = true) (hm : e.mag2 = some r)
    (hf : s.box.regs.magFlt = 1) (h2 : s.step leader (.tick e) = some (s', a))
    (h3 : RBox.run leader s' evs2 = some s'') (hq : ∀ e, REv.tick e ∈ evs2 → e.mag2 = none)
    (hp : s''.box.regs.readPtr = 21) :
    ∃ d, s''.request = some d ∧
      Read3 (-maxMag2) maxMag2 (get3 d 6 (-maxMag2) maxMag2) (mag2Mount (r.map (scaled (-maxMag2) maxMag2))) := by
  obtain ⟨o1, o3⟩ := three_ok hc h1 h2 h3
  obtain ⟨d, hd, -, k, -⟩ := imu_answer o3 hp
  refine ⟨d, hd, k _ ?_ ?_ ?_⟩
  all_goals
    rw [kept_mag2 hq h3, (RBox.step_tick h2).choose_spec.2, used_mag2 hpc hs ha hm, hf]
    obtain ⟨r1, r2, r3⟩ := (hc e (by simp)).2.1 r hm
    obtain ⟨x1, x2, x3⟩ := o1.mag2
  · exact (filt_scaled r2 x1 (by decide +kernel) (by decide +kernel) (by decide +kernel) (by decide +kernel)
      (fpI_mag2 r2).1 (fpI_mag2 r2).2 (by decide +kernel)).1
  · exact (filt_scaled r3 x2 (by decide +kernel) (by decide +kernel) (by decide +kernel) (by decide +kernel)
      (fpI_mag2 r3).1 (fpI_mag2 r3).2 (by decide +kernel)).1
  · exact (filt_scaled r1 x3 (by decide +kernel) (by decide +kernel) (by decide +kernel) (by decide +kernel)
      (fpI_mag2 r1).1 (fpI_mag2 r1).2 (by decide +kernel)).2

/-- C94: the same for the gyroscope. -/
theorem C94_gyro (leader pot : Bool) (sensors : ℕ → Bool) (evs1 evs2 : List REv) (e : REnv) (r : V3 ℤ × ℤ) {s s' s'' : RBox}
    {a : Option Act} (hc : Chips (evs1 ++ .tick e :: evs2))
    (h1 : RBox.run leader (RBox.boot pot sensors) evs1 = some s)
    (hpc : s.box.pc = .imu) (hs : s.box.hw.sensor 0 = true) (ha : e.env.alive 0 = true) (hm : e.gyr = some r)
    (hf : s.box.regs.gyrFlt = 1) (h2 : s.step leader (.tick e) = some (s', a))
    (h3 : RBox.run leader s' evs2 = some s'') (hq : ∀ e, REv.tick e ∈ evs2 → e.gyr = none)
    (hp : s''.box.regs.readPtr = 21) :
    ∃ d, s''.request = some d ∧
      Read3 (-maxOmega) maxOmega (get3 d 12 (-maxOmega) maxOmega) (gyrMount (r.1.map (scaled (-maxOmega) maxOmega))) := by
  obtain ⟨o1, o3⟩ := three_ok hc h1 h2 h3
  obtain ⟨d, hd, -, -, k, -⟩ := imu_answer o3 hp
  refine ⟨d, hd, k _ ?_ ?_ ?_⟩
  all_goals
    rw [(kept_gyr hq h3).1, (RBox.step_tick h2).choose_spec.2, (used_gyr hpc hs ha hm).1, hf]
    obtain ⟨r1, r2, r3⟩ := ((hc e (by simp)).2.2 r hm).1
    obtain ⟨x1, x2, x3⟩ := o1.gyr
  · exact (filt_scaled r1 x1 (by decide +kernel) (by decide +kernel) (by decide +kernel) (by decide +kernel)
      (fpI_omega r1).1 (fpI_omega r1).2 (by decide +kernel)).1
  · exact (filt_scaled r3 x2 (by decide +kernel) (by decide +kernel) (by decide +kernel) (by decide +kernel)
      (fpI_omega r3).1 (fpI_omega r3).2 (by decide +kernel)).2
  · exact (filt_scaled r2 x3 (by decide +kernel) (by decide +kernel) (by decide +kernel) (by decide +kernel)
      (fpI_omega r2).1 (fpI_omega r2).2 (by decide +kernel)).1

/-- C94: and for its temperature. -/
theorem C94_temperature (leader pot : Bool) (sensors : ℕ → Bool) (evs1 evs2 : List REv) (e : REnv) (r : V3 ℤ × ℤ)
    {s s' s'' : RBox} {a : Option Act} (hc : Chips (evs1 ++ .tick e :: evs2))
    (h1 : RBox.run leader (RBox.boot pot sensors) evs1 = some s)
    (hpc : s.box.pc = .imu) (hs : s.box.hw.sensor 0 = true) (ha : e.env.alive 0 = true) (hm : e.gyr = some r)
    (hf : s.box.regs.gyrTempFlt = 1) (h2 : s.step leader (.tick e) = some (s', a))
    (h3 : RBox.run leader s' evs2 = some s'') (hq : ∀ e, REv.tick e ∈ evs2 → e.gyr = none)
    (hp : s''.box.regs.readPtr = 21) :
    ∃ d, s''.request = some d ∧
      Read (-103) 153 (fpS (le16 (byteAt d 18) (byteAt d 19)) (-103) 153) (scaled (-103) 153 r.2) := by
  obtain ⟨o1, o3⟩ := three_ok hc h1 h2 h3
  obtain ⟨d, hd, -, -, -, k⟩ := imu_answer o3 hp
  refine ⟨d, hd, k _ ?_⟩
  rw [(kept_gyr hq h3).2, (RBox.step_tick h2).choose_spec.2, (used_gyr hpc hs ha hm).2, hf]
  have rr := ((hc e (by simp)).2.2 r hm).2
  have q0 : (0 : ℚ) ≤ (r.2 : ℚ) + 32768 := by
    have : (-32768 : ℚ) ≤ r.2 := by exact_mod_cast rr.1
    linarith
  have q1 : (r.2 : ℚ) + 32768 ≤ 65535 := by
    have : (r.2 : ℚ) ≤ 32767 := by exact_mod_cast rr.2
    linarith
  have hn : f32 ((r.2 : ℚ) + 32768) = r.2 + 32768 := by
    have : |r.2 + 32768| ≤ 2 ^ 24 := by rw [abs_le]; constructor <;> have := rr.1 <;> have := rr.2 <;> omega
    have e := f32_int this
    push_cast at e
    exact e
  have k3 : |fpI r.2 minTemp maxTemp - scaled (-103) 153 r.2| ≤ (153 - -103) / 65535 / 80 := by
    unfold fpI scaled minTemp maxTemp
    rw [hn]
    exact dec_err (by norm_num) (by norm_num) q0 q1 (by norm_num) (by norm_num) (by decide +kernel) (by norm_num)
  have hT := fpI_temp rr
  have hT2 : fpI r.2 minTemp maxTemp ≤ 153 := hT.2
  have hT1 : -103 ≤ fpI r.2 minTemp maxTemp := hT.1
  have k1 := filt_one (x := s.rd.temp) (d := fpI r.2 minTemp maxTemp) (M := 153) (g := 154) (by norm_num)
    (abs_le.2 ⟨by have := o1.temp.1; unfold tempLo at this; norm_num at this; linarith,
      by have := o1.temp.2; unfold tempHi at this; norm_num at this; linarith⟩)
    (abs_le.2 ⟨by linarith, hT2⟩)
  rw [abs_le] at k1 k3 ⊢
  unfold minTemp maxTemp
  unfold minTemp maxTemp at k1 k3
  norm_num at k1 k3 ⊢
  constructor <;> linarith

namespace ADCS

/-- A step in which every device works, the magnetometers and the gyroscope deliver a value and the rest is silent. -/
def busy : REnv :=
  { env := ⟨true, true, fun _ => true, fun _ => true, none, 2, V3.zero⟩, spd := fun _ => none, rmp := fun _ => none
    mag1 := some ⟨1200, -3000, 32767⟩, mag2 := some ⟨-32768, 5, 77⟩, gyr := some (⟨100, -200, 300⟩, 12000)
    volt := fun _ => none }

/-- The same without values. -/
def quiet : REnv := { busy with mag1 := none, mag2 := none, gyr := none }

theorem chips_busy (d : List U8) : Chips ([] ++ .tick busy :: [.tick quiet, .recv d, .tick quiet]) := by
  intro e he
  simp only [List.nil_append, List.mem_cons, REv.tick.injEq, reduceCtorEq, List.not_mem_nil, or_false, false_or] at he
  rcases he with rfl | rfl | rfl
  · refine ⟨?_, ?_, ?_⟩ <;> intro r hr <;> cases hr
    · exact ⟨by constructor <;> norm_num, by constructor <;> norm_num, by constructor <;> norm_num⟩
    · exact ⟨by constructor <;> norm_num, by constructor <;> norm_num, by constructor <;> norm_num⟩
    · exact ⟨⟨by constructor <;> norm_num, by constructor <;> norm_num, by constructor <;> norm_num⟩,
        by constructor <;> norm_num⟩
  all_goals refine ⟨?_, ?_, ?_⟩ <;> intro r hr <;> cases hr

end ADCS

/-- The hypotheses of the five theorems are met, by a run with a measurement, a message setting the read pointer, and
further steps. -/
example : ∃ (s' s'' : RBox) (a : Option Act),
    (RBox.boot true fun _ => true).box.pc = .imu ∧
    (RBox.boot true fun _ => true).box.regs.magFlt = 1 ∧ (RBox.boot true fun _ => true).box.regs.gyrFlt = 1 ∧
    (RBox.boot true fun _ => true).step true (.tick busy) = some (s', a) ∧
    RBox.run true s' [.tick quiet, .recv [2, 21], .tick quiet] = some s'' ∧ s''.box.regs.readPtr = 21 :=
  ⟨_, _, _, rfl, rfl, rfl, rfl, rfl, rfl⟩

/-- The answer in that run, decoded: the temperature is 71.8 degrees. -/
example : (((RBox.run true (RBox.boot true fun _ => true)
      [.tick busy, .tick quiet, .recv [2, 21], .tick quiet]).bind RBox.request).map fun d =>
        decide (|fpS (le16 (byteAt d 18) (byteAt d 19)) minTemp maxTemp - 718 / 10| < 1 / 10)) = some true := by
  decide +kernel

end PAN
