import Verif.Props.ADCSWheelReadings
import Verif.Props.Fault
/-!
The sun sensor voltages (C95) and the flight computer's monitor of the attitude control box (C96).
-/
namespace PAN
open ADCS

namespace Spec

/-- The sun sensor converters deliver values between -12 mV and 3.312 V. -/
def VoltRange (evs : List REv) : Prop := ∀ e, REv.tick e ∈ evs → ∀ i n, e.volt i = some n → -6 ≤ n ∧ n ≤ 1656

/-- Whether the device table in an answer says that device `i` is in service (bit `i % 8` of byte `i / 8`); bytes that did
not arrive count as zero. -/
def listed (answer : List U8) (i : ℕ) : Bool := (answer[i / 8]?.getD 0).getLsbD (i % 8)

end Spec
open Spec

namespace ADCS

/-! ### Voltages -/

/-- The lowest and highest voltage kept. -/
def voltLo : ℚ := f32 (-121 / 10000)
/-- The lowest and highest voltage kept. -/
def voltHi : ℚ := f32 (33125 / 10000)

theorem filt_self {f x : ℚ} (hx : Rep32 x) : Rd.filt f x x = x := by
  unfold Rd.filt
  rw [sub_self, f32_zero, mul_zero, f32_zero, add_zero, f32_rep hx]

/-- What holds of the voltages in every reachable state. -/
structure VoltOk (s : RBox) : Prop where
  flt : FltOk s.box.regs
  volt : ∀ i, (voltLo ≤ s.rd.volt i ∧ s.rd.volt i ≤ voltHi) ∧ Rep32 (s.rd.volt i)

theorem volts_range {n : ℤ} (h : -6 ≤ n ∧ n ≤ 1656) :
    Rd.volts (-6) ≤ Rd.volts n ∧ Rd.volts n ≤ Rd.volts 1656 := ⟨volts_mono h.1, volts_mono h.2⟩

theorem filt_volt {f x : ℚ} {n : ℤ} (h0 : 0 ≤ f) (h1 : f ≤ 1) (hx : voltLo ≤ x ∧ x ≤ voltHi) (h : -6 ≤ n ∧ n ≤ 1656) :
    voltLo ≤ Rd.filt f x (Rd.volts n) ∧ Rd.filt f x (Rd.volts n) ≤ voltHi :=
  filt_range h0 h1 (rep_f32 _) (rep_f32 _) hx.1 hx.2 (volts_range h).1 (volts_range h).2 (by decide +kernel)
    (by decide +kernel)

/-- The voltages after a step. -/
theorem tickRd_volt (s : RBox) (e : REnv) (i : ℕ) :
    (s.tickRd e).volt i = s.rd.volt i ∨
    (s.tickRd e).volt i = Rd.filt s.box.regs.voltFlt (s.rd.volt i)
      (Rd.pick (s.box.hw.sensor (13 + i / 4)) (e.volt i) (s.rd.volt i)) := by
  have a1 : ∀ ok raw f (r : Rd), (r.stepMag1 ok raw f).volt = r.volt := by
    intro ok raw f r; cases ok <;> cases raw <;> rfl
  have a2 : ∀ ok raw f (r : Rd), (r.stepMag2 ok raw f).volt = r.volt := by
    intro ok raw f r; cases ok <;> cases raw <;> rfl
  have a3 : ∀ ok raw f g (r : Rd), (r.stepGyr ok raw f g).volt = r.volt := by
    intro ok raw f g r; cases ok <;> cases raw <;> rfl
  unfold RBox.tickRd
  split
  · unfold Rd.imu
    rw [a3, a2, a1]
    exact Or.inl rfl
  · split
    · exact Or.inl rfl
    · split
      · exact Or.inr rfl
      · exact Or.inl rfl

theorem voltOk_step {l : Bool} {s s' : RBox} {ev : REv} {a : Option Act}
    (hev : ∀ e, ev = .tick e → ∀ i n, e.volt i = some n → -6 ≤ n ∧ n ≤ 1656)
    (h : VoltOk s) (hs : s.step l ev = some (s', a)) : VoltOk s' := by
  cases ev with
  | recv m =>
    obtain ⟨hb, hr⟩ := RBox.step_recv hs
    exact ⟨by rw [hb]; exact flt_receive h.flt m, fun i => by rw [hr]; exact h.volt i⟩
  | tick e =>
    obtain ⟨e', ht, hr⟩ := RBox.step_tick hs
    obtain ⟨t1, t2, t3, t4, t5, -⟩ := tick_flt ht
    refine ⟨flt_same h.flt t1 t2 t3 t4 t5, fun i => ?_⟩
    rw [hr]
    rcases tickRd_volt s e i with q | q
    · rw [q]; exact h.volt i
    · rw [q]
      refine ⟨?_, rep_f32 _⟩
      obtain ⟨h1, h2⟩ := h.volt i
      cases hk : s.box.hw.sensor (13 + i / 4) with
      | false =>
        have e1 : Rd.pick false (e.volt i) (s.rd.volt i) = s.rd.volt i := by cases e.volt i <;> rfl
        rw [e1, filt_self h2]; exact h1
      | true =>
        cases hv : e.volt i with
        | none =>
          have e1 : Rd.pick true none (s.rd.volt i) = s.rd.volt i := rfl
          rw [e1, filt_self h2]; exact h1
        | some n => exact filt_volt h.flt.volt.1 h.flt.volt.2 h1 (hev e rfl i n hv)

theorem voltOk_boot (pot : Bool) (sensors : ℕ → Bool) : VoltOk (RBox.boot pot sensors) where
  flt := (imuOk_boot pot sensors).flt
  volt := fun _ => ⟨⟨show voltLo ≤ 0 by decide +kernel, show 0 ≤ voltHi by decide +kernel⟩,
    show Rep32 0 from f32_zero ▸ rep_f32 0⟩

theorem voltOk_run {l : Bool} (evs : List REv) {s s' : RBox} (hc : VoltRange evs) (h : VoltOk s)
    (hr : RBox.run l s evs = some s') : VoltOk s' :=
  RBox.run_inv (l := l) VoltOk (fun ev => ∀ e, ev = .tick e → ∀ i n, e.volt i = some n → -6 ≤ n ∧ n ≤ 1656)
    (fun _ _ _ _ hR hP hs => voltOk_step hR hP hs) evs h (fun _ hev e he => hc e (he ▸ hev)) hr

theorem listMapM_some {α β : Type} {f : α → Option β} {g : α → β} :
    ∀ {l : List α}, (∀ x ∈ l, f x = some (g x)) → l.mapM f = some (l.map g) := by
  intro l
  induction l with
  | nil => intro _; rfl
  | cons a l ih =>
    intro h
    rw [List.mapM_cons, h a (by simp), ih fun x hx => h x (by simp [hx])]
    rfl

/-- In the whole range kept the encoder is defined. -/
theorem uc_volt {f : ℚ} (h1 : voltLo ≤ f) (h2 : f ≤ voltHi) : ∃ u, uc f 0 maxVolt = some u := by
  have hD : 0 < f32 (maxVolt - 0) := by decide +kernel
  have a1 : truncZ (enc 255 voltLo 0 maxVolt) = 0 := by decide +kernel
  have a2 : truncZ (enc 255 voltHi 0 maxVolt) = 255 := by decide +kernel
  have t1 := enc_mono (N := 255) (by norm_num) hD h1
  have t2 := enc_mono (N := 255) (by norm_num) hD h2
  rw [a1] at t1
  rw [a2] at t2
  unfold enc at t1 t2
  unfold uc
  exact ⟨_, if_pos ⟨t1, by omega⟩⟩

theorem request17 {s : RBox} (h : s.box.regs.readPtr = 17) :
    s.request = (List.range 20).mapM fun i => uc (s.rd.volt i) 0 maxVolt := by
  unfold RBox.request
  dsimp only
  rw [if_neg (by rw [h]; decide), if_neg (by rw [h]; decide), if_neg (by rw [h]; decide), if_neg (by rw [h]; decide), if_pos h]

theorem volt_answer {s : RBox} (h : VoltOk s) (hp : s.box.regs.readPtr = 17) :
    ∃ d, s.request = some d ∧ d.length = 20 ∧ ∀ i < 20, uc (s.rd.volt i) 0 maxVolt = some (byteAt d i) := by
  have hu : ∀ i, uc (s.rd.volt i) 0 maxVolt = some ((uc (s.rd.volt i) 0 maxVolt).getD 0) := by
    intro i
    obtain ⟨u, hu⟩ := uc_volt (h.volt i).1.1 (h.volt i).1.2
    rw [hu]; rfl
  refine ⟨(List.range 20).map fun i => (uc (s.rd.volt i) 0 maxVolt).getD 0, ?_, by simp, ?_⟩
  · rw [request17 hp]
    exact listMapM_some fun i _ => hu i
  · intro i hi
    rw [hu i]
    unfold byteAt
    rw [List.getElem?_map, List.getElem?_range hi]
    rfl

/-- A voltage at most slightly out of range is decoded accurately. -/
theorem uc_near {f : ℚ} {u : U8} (h1 : -(1 / 10000) ≤ f) (h2 : f ≤ maxVolt + 1 / 10000) (hu : uc f 0 maxVolt = some u) :
    |fpC u 0 maxVolt - f| ≤ 42 / 40 * (maxVolt / 255) := by
  have hD : 0 < f32 (maxVolt - 0) := by decide +kernel
  have hw : (1 : ℚ) / 100 ≤ maxVolt / 255 := by decide +kernel
  by_cases k1 : 0 ≤ f
  · by_cases k2 : f ≤ maxVolt
    · obtain ⟨u', hu', he⟩ := uc_ok k1 k2 le_rfl (by decide +kernel) (by decide +kernel) (by decide +kernel)
      rw [hu] at hu'
      cases hu'
      rw [sub_zero] at he
      exact he.trans (by linarith)
    · push Not at k2
      have a1 : truncZ (enc 255 maxVolt 0 maxVolt) = 255 := by decide +kernel
      have a2 : truncZ (enc 255 (maxVolt + 1 / 10000) 0 maxVolt) = 255 := by decide +kernel
      have t : truncZ (enc 255 f 0 maxVolt) = 255 :=
        le_antisymm (a2 ▸ enc_mono (by norm_num) hD h2) (a1 ▸ enc_mono (by norm_num) hD k2.le)
      have e : u = 255 := by
        unfold enc at t
        unfold uc at hu
        simp only [t] at hu
        exact (Option.some.inj hu).symm
      have f1 : fpC 255 0 maxVolt = maxVolt := by decide +kernel
      rw [e, f1, abs_le]
      constructor <;> linarith
  · push Not at k1
    have a1 : truncZ (enc 255 0 0 maxVolt) = 0 := by decide +kernel
    have a2 : truncZ (enc 255 (-(1 / 10000)) 0 maxVolt) = 0 := by decide +kernel
    have t : truncZ (enc 255 f 0 maxVolt) = 0 :=
      le_antisymm (a1 ▸ enc_mono (by norm_num) hD k1.le) (a2 ▸ enc_mono (by norm_num) hD h1)
    have e : u = 0 := by
      unfold enc at t
      unfold uc at hu
      simp only [t] at hu
      exact (Option.some.inj hu).symm
    have f1 : fpC 0 0 maxVolt = 0 := by decide +kernel
    rw [e, f1, abs_le]
    constructor <;> linarith

end ADCS

/-- C95: every request for the sun sensor voltages is answered with twenty numbers, in every run from power-up with any
messages, filter settings and failing converters, as long as the converters deliver values between -12 mV and
3.312 V. -/
theorem C95_answered (leader pot : Bool) (sensors : ℕ → Bool) (evs : List REv) {s : RBox} (hc : VoltRange evs)
    (hrun : RBox.run leader (RBox.boot pot sensors) evs = some s) (hp : s.box.regs.readPtr = 17) :
    ∃ d, s.request = some d ∧ d.length = 20 := by
  obtain ⟨d, h1, h2, -⟩ := volt_answer (voltOk_run evs hc (voltOk_boot pot sensors) hrun) hp
  exact ⟨d, h1, h2⟩

/-- C95: the flight computer reads what channel `i` measured (a value of `n` units of 2 mV), within 1.1 steps of the
eight-bit format, with the filter at its default and until that channel is measured again. -/
theorem C95_voltage (leader pot : Bool) (sensors : ℕ → Bool) (evs1 evs2 : List REv) (e : REnv) (i : ℕ) (n : ℤ)
    {s s' s'' : RBox} {a : Option Act} (hc : VoltRange (evs1 ++ .tick e :: evs2)) (hi : i < 20)
    (h1 : RBox.run leader (RBox.boot pot sensors) evs1 = some s)
    (hpc : s.box.pc = .ssaCheck) (hs : s.box.hw.sensor (13 + i / 4) = true) (hm : e.volt i = some n)
    (h0 : 0 ≤ n) (h6 : n ≤ 1650) (hf : s.box.regs.voltFlt = 1) (h2 : s.step leader (.tick e) = some (s', a))
    (h3 : RBox.run leader s' evs2 = some s'') (hq : ∀ e, REv.tick e ∈ evs2 → e.volt i = none)
    (hp : s''.box.regs.readPtr = 17) :
    ∃ d, s''.request = some d ∧ |fpC (byteAt d i) 0 maxVolt - 2 / 1000 * n| ≤ 44 / 40 * (maxVolt / 255) := by
  have o1 := voltOk_run evs1 (fun e he => hc e (by simp [he])) (voltOk_boot pot sensors) h1
  have o2 : VoltOk s' := voltOk_step (fun e' he => hc e' (by simp [he.symm])) o1 h2
  have o3 := voltOk_run evs2 (fun e he => hc e (by simp [he])) o2 h3
  obtain ⟨d, hd, -, hb⟩ := volt_answer o3 hp
  refine ⟨d, hd, ?_⟩
  have e1 : s'.rd.volt i = Rd.filt 1 (s.rd.volt i) (Rd.volts n) := by
    rw [(RBox.step_tick h2).choose_spec.2]
    unfold RBox.tickRd
    rw [if_neg (by rw [hpc]; decide), if_neg (by rw [hpc]; decide), if_pos hpc]
    have e1 : Rd.pick (s.box.hw.sensor (13 + i / 4)) (e.volt i) (s.rd.volt i) = Rd.volts n := by rw [hs, hm]; rfl
    rw [← e1, ← hf]
    rfl
  have e2 : s''.rd.volt i = s'.rd.volt i := by
    refine (RBox.run_inv (l := leader) (fun x => x.rd.volt i = s'.rd.volt i)
      (fun ev => ∀ e, ev = .tick e → e.volt i = none) ?_ evs2 rfl (fun ev hev e he => hq e (he ▸ hev)) h3)
    intro x ev x' a hR hP hx
    cases ev with
    | recv m => rw [(RBox.step_recv hx).2]; exact hP
    | tick e =>
      rw [(RBox.step_tick hx).choose_spec.2]
      rcases tickRd_volt x e i with q | q
      · rw [q]; exact hP
      · have e3 : Rd.pick (x.box.hw.sensor (13 + i / 4)) (e.volt i) (x.rd.volt i) = x.rd.volt i := by
          rw [hR e rfl]; cases x.box.hw.sensor (13 + i / 4) <;> rfl
        rw [q, e3, filt_self (by rw [hP]; exact (o2.volt i).2)]; exact hP
  have q0 : (0 : ℚ) ≤ n := by exact_mod_cast h0
  have q1 : (n : ℚ) ≤ 1650 := by exact_mod_cast h6
  have v := volts_near h0 h6
  rw [abs_le] at v
  have k := filt_one (x := s.rd.volt i) (d := Rd.volts n) (M := 4) (g := 4) (by norm_num)
    (abs_le.2 ⟨(show -(4 : ℚ) ≤ voltLo by decide +kernel).trans (o1.volt i).1.1,
      (o1.volt i).1.2.trans (by decide +kernel)⟩) (abs_le.2 ⟨by linarith, by linarith⟩)
  rw [← e1, ← e2, abs_le] at k
  norm_num at k
  have hV : (32999 : ℚ) / 10000 ≤ maxVolt := by decide +kernel
  have hw : (1 : ℚ) / 100 ≤ maxVolt / 255 := by decide +kernel
  have hV' : (33 : ℚ) / 10 - 1 / 1000000 ≤ maxVolt := by decide +kernel
  have u := uc_near (f := s''.rd.volt i) (by linarith) (by linarith) (hb i hi)
  rw [abs_le] at u ⊢
  constructor <;> linarith

/-- C95, the limit of the range: a channel at -14 mV or below makes asking for the voltages undefined behaviour. -/
theorem C95_counterexample_negative (leader : Bool) (s : RBox) (e : REnv) (n : ℤ) {s' : RBox} {a : Option Act}
    (hpc : s.box.pc = .ssaCheck) (hs : s.box.hw.sensor 13 = true) (hn : e.volt 0 = some n) (h0 : -2048 ≤ n) (h1 : n ≤ -7)
    (hf : s.box.regs.voltFlt = 1) (hprev : |s.rd.volt 0| ≤ 5)
    (hstep : s.step leader (.tick e) = some (s', a)) (hp : s'.box.regs.readPtr = 17) : s'.request = none := by
  have u : s'.rd.volt 0 = Rd.filt 1 (s.rd.volt 0) (Rd.volts n) := by
    rw [(RBox.step_tick hstep).choose_spec.2]
    unfold RBox.tickRd
    rw [if_neg (by rw [hpc]; decide), if_neg (by rw [hpc]; decide), if_pos hpc]
    have e1 : Rd.pick (s.box.hw.sensor (13 + 0 / 4)) (e.volt 0) (s.rd.volt 0) = Rd.volts n := by
      show Rd.pick (s.box.hw.sensor 13) (e.volt 0) (s.rd.volt 0) = Rd.volts n
      rw [hs, hn]; rfl
    rw [← e1, ← hf]
    rfl
  have lo : Rd.volts (-2048) ≤ Rd.volts n := volts_mono h0
  have hi : Rd.volts n ≤ Rd.volts (-7) := volts_mono h1
  have p0 : Rd.volts (-7) ≤ 0 := by decide +kernel
  have p1 : (-5 : ℚ) ≤ Rd.volts (-2048) := by decide +kernel
  have k : s'.rd.volt 0 ≤ -139 / 10000 := by
    rw [u]
    refine filt_below (M := 5) (g := 5) (b := Rd.volts (-7)) (by norm_num) hprev ?_ hi (by decide +kernel)
    exact abs_le.2 ⟨by linarith, by linarith⟩
  have hD : 0 < f32 (maxVolt - 0) := by decide +kernel
  have t := enc_mono (N := 255) (by norm_num) hD k
  have t' : truncZ (enc 255 (-139 / 10000) 0 maxVolt) < 0 := by decide +kernel
  have hu : uc (s'.rd.volt 0) 0 maxVolt = none := by
    unfold uc
    exact if_neg fun hh => absurd hh.1 (by unfold enc at t t'; omega)
  rw [request17 hp]
  show (0 :: List.range' 1 19).mapM _ = none
  rw [List.mapM_cons, hu]
  rfl

/-- The hypotheses of `C95_voltage` are met, by a run up to the sun sensors, a measurement, a message and more steps. -/
example : ((RBox.run true (RBox.boot true fun _ => true) (List.replicate 3 (.tick quiet))).map fun s =>
    decide (s.box.pc = .ssaCheck ∧ s.box.regs.voltFlt = 1 ∧ s.box.hw.sensor 14 = true)) = some true := by decide +kernel

/-- Channel 5 at 3 V. -/
example : (((RBox.run true (RBox.boot true fun _ => true) (List.replicate 3 (.tick quiet) ++
      [.tick { quiet with volt := fun i => if i = 5 then some 1500 else none }, .recv [2, 17], .tick quiet])).bind
        RBox.request).map fun d => decide (|fpC (byteAt d 5) 0 maxVolt - 3| < 1 / 50)) = some true := by decide +kernel

/-! ### The monitor -/

namespace ADCS

theorem fpS_mono {a b : BitVec 16} {min max : ℚ} (hD : 0 ≤ f32 (max - min)) (h : a.toNat ≤ b.toNat) :
    fpS a min max ≤ fpS b min max := by
  have q : (a.toNat : ℚ) ≤ b.toNat := by exact_mod_cast h
  unfold fpS
  refine f32_mono (add_le_add_right ?_ _)
  exact f32_mono (div_le_div_of_nonneg_right (f32_mono (mul_le_mul_of_nonneg_right q hD)) (by norm_num))

theorem fpS_ge {u : BitVec 16} {min max b : ℚ} (hD : 0 ≤ f32 (max - min)) (h : b < fpS 0 min max) : b < fpS u min max :=
  h.trans_le (fpS_mono hD (Nat.zero_le _))

theorem fpS_le {u : BitVec 16} {min max b : ℚ} (hD : 0 ≤ f32 (max - min)) (h : fpS 65535 min max ≤ b) : fpS u min max ≤ b :=
  (fpS_mono hD (show u.toNat ≤ 65535 by have := u.isLt; omega)).trans h

/-- The table as the monitor decodes it. -/
theorem table_listed (d : List U8) {i : ℕ} (hi : i < 32) :
    (Regs.le32 [byteAt d 0, byteAt d 1, byteAt d 2, byteAt d 3]).getLsbD i = listed d i := by
  show (((byteAt d 3 ++ byteAt d 2 : BitVec 16) ++ (byteAt d 1 ++ byteAt d 0 : BitVec 16) : BitVec 32)).getLsbD i = _
  unfold listed byteAt
  simp only [BitVec.getLsbD_append]
  rcases (by omega : i / 8 = 0 ∨ i / 8 = 1 ∨ i / 8 = 2 ∨ i / 8 = 3) with h | h | h | h
  · have e : i % 8 = i := by omega
    rw [h, e]
    simp [show i < 16 by omega, show i < 8 by omega]
  · have e : i % 8 = i - 8 := by omega
    rw [h, e]
    simp [show i < 16 by omega, show ¬ i < 8 by omega]
  · have e : i % 8 = i - 16 := by omega
    rw [h, e]
    simp [show ¬ i < 16 by omega, show i - 16 < 8 by omega]
  · have e : i % 8 = i - 16 - 8 := by omega
    rw [h, e]
    simp [show ¬ i < 16 by omega, show ¬ i - 16 < 8 by omega]

/-- The evaluations of a fault over a history: cycle number and what was known before the cycle. -/
def evals (bad : BoxData → Bool) : Bool → List (U32 × BoxData) → List (U32 × Bool)
  | _, [] => []
  | prev, h :: t => (h.1, prev) :: evals bad (bad h.2) t

theorem evals_cycles (bad : BoxData → Bool) : ∀ (t : List (U32 × BoxData)) (p : Bool), (evals bad p t).map (·.1) = t.map (·.1) := by
  intro t
  induction t with
  | nil => intro p; rfl
  | cons h t ih => intro p; simp only [evals, List.map_cons, ih]

theorem evals_flags (bad : BoxData → Bool) : ∀ (t : List (U32 × BoxData)) (p : Bool),
    (evals bad p t).map (·.2) = (p :: t.map fun h => bad h.2).dropLast := by
  intro t
  induction t with
  | nil => intro p; rfl
  | cons h t ih => intro p; simp only [evals, List.map_cons, ih, List.dropLast_cons₂]

/-- A fault of the monitor that is evaluated on `bad` of the previous cycle. -/
theorem monitor_fault (sel : Monitor → Fault) (know : Monitor → Bool) (bad : BoxData → Bool)
    (h1 : ∀ (cc : U32) (d : BoxData) (m : Monitor), sel (m.execute cc d) = (sel m).evaluate cc (know m)) (h2 : ∀ (cc : U32) (d : BoxData) (m : Monitor), know (m.execute cc d) = bad d)
    (h3 : sel Monitor.init = Fault.init 1) (h4 : know Monitor.init = true) (hist : List (U32 × BoxData))
    (hmono : (hist.map (·.1.toNat)).Pairwise (· < ·)) (hpos : ∀ h ∈ hist, 0 < h.1.toNat) :
    (sel (Monitor.run hist)).isFaulted = decide (trailingTrue ((true :: hist.map fun h => bad h.2).dropLast) > 1) := by
  have gen : ∀ (t : List (U32 × BoxData)) (m : Monitor), sel (t.foldl (fun (m : Monitor) h => m.execute h.1 h.2) m) =
      (evals bad (know m) t).foldl (fun f e => f.evaluate e.1 e.2) (sel m) := by
    intro t
    induction t with
    | nil => intro m; rfl
    | cons h t ih =>
      intro m
      simp only [List.foldl_cons, evals]
      rw [ih, h1, h2]
  unfold Monitor.run
  rw [gen, h3, h4, C21_fault_trips_on_consecutive_evaluations]
  · rw [evals_flags]; rfl
  · have := evals_cycles bad hist true
    have e : (evals bad true hist).map (fun e => e.1.toNat) = hist.map (fun h => h.1.toNat) := by
      have := congrArg (List.map BitVec.toNat) this
      rw [List.map_map, List.map_map] at this
      exact this
    rw [e]; exact hmono
  · intro e he
    have : e.1 ∈ (evals bad true hist).map (·.1) := List.mem_map.2 ⟨e, he, rfl⟩
    rw [evals_cycles] at this
    obtain ⟨h, hh, hx⟩ := List.mem_map.1 this
    rw [← hx]; exact hpos h hh

end ADCS

/-- C96: the faults of the three wheel converters (devices 10, 11 and 12) and of the potentiometer (device 6) follow the
device table with one cycle's delay. Over any history of control cycles without ground commands to the fault, it is
raised exactly if the device was out of service in the two cycles (or more) before the last one, where the time before
the first cycle counts as out of service. -/
theorem C96_device_faults (hist : List (U32 × BoxData)) (hmono : (hist.map (·.1.toNat)).Pairwise (· < ·))
    (hpos : ∀ h ∈ hist, 0 < h.1.toNat) :
    ((Monitor.run hist).wheel1Fault.isFaulted =
      decide (trailingTrue ((true :: hist.map fun h => !listed h.2.havt 10).dropLast) > 1)) ∧
    ((Monitor.run hist).wheel2Fault.isFaulted =
      decide (trailingTrue ((true :: hist.map fun h => !listed h.2.havt 11).dropLast) > 1)) ∧
    ((Monitor.run hist).wheel3Fault.isFaulted =
      decide (trailingTrue ((true :: hist.map fun h => !listed h.2.havt 12).dropLast) > 1)) ∧
    ((Monitor.run hist).potFault.isFaulted =
      decide (trailingTrue ((true :: hist.map fun h => !listed h.2.havt 6).dropLast) > 1)) := by
  have k : ∀ {i : ℕ}, i < 32 → ∀ (cc : U32) (d : BoxData) (m : Monitor),
      ((m.execute cc d).havt i == false) = !listed d.havt i := by
    intro i hi cc d m
    have : (m.execute cc d).havt i = listed d.havt i := table_listed d.havt hi
    rw [this]
    cases listed d.havt i <;> rfl
  exact ⟨monitor_fault (·.wheel1Fault) (fun m => m.havt 10 == false) _ (fun _ _ _ => rfl) (k (by norm_num)) rfl rfl hist hmono hpos,
    monitor_fault (·.wheel2Fault) (fun m => m.havt 11 == false) _ (fun _ _ _ => rfl) (k (by norm_num)) rfl rfl hist hmono hpos,
    monitor_fault (·.wheel3Fault) (fun m => m.havt 12 == false) _ (fun _ _ _ => rfl) (k (by norm_num)) rfl rfl hist hmono hpos,
    monitor_fault (·.potFault) (fun m => m.havt 6 == false) _ (fun _ _ _ => rfl) (k (by norm_num)) rfl rfl hist hmono hpos⟩

/-- C96: the same for the box as a whole: its fault is raised exactly if the box did not answer with its identity in the two
cycles (or more) before the last one. -/
theorem C96_box_fault (hist : List (U32 × BoxData)) (hmono : (hist.map (·.1.toNat)).Pairwise (· < ·))
    (hpos : ∀ h ∈ hist, 0 < h.1.toNat) :
    (Monitor.run hist).functionalFault.isFaulted =
      decide (trailingTrue ((true :: hist.map fun h => decide (h.2.whoAmI.head? ≠ some 0x0F)).dropLast) > 1) := by
  refine monitor_fault (·.functionalFault) (fun m => !m.functional) (fun d => decide (d.whoAmI.head? ≠ some 0x0F))
    (fun _ _ _ => rfl) ?_ rfl rfl hist hmono hpos
  intro cc d m
  show (!decide (byteAt d.whoAmI 0 = 0x0F)) = _
  unfold byteAt
  cases d.whoAmI with
  | nil => rfl
  | cons a l =>
    simp only [List.getElem?_cons_zero, Option.getD_some, List.head?_cons, ne_eq, Option.some.injEq]
    by_cases h : a = 0x0F
    · simp [h]
    · simp [h]

/-- C96, in words for the running system: a box that was silent in two consecutive cycles is reported in the next one, and
one answer in the last cycle withdraws the report in the next one. -/
theorem C96_box_fault_delay (hist : List (U32 × BoxData)) (a b c : U32 × BoxData)
    (hmono : ((hist ++ [a, b, c]).map (·.1.toNat)).Pairwise (· < ·)) (hpos : ∀ h ∈ hist ++ [a, b, c], 0 < h.1.toNat) :
    (a.2.whoAmI = [] → b.2.whoAmI = [] → (Monitor.run (hist ++ [a, b, c])).functionalFault.isFaulted = true) ∧
    (b.2.whoAmI = [0x0F] → (Monitor.run (hist ++ [a, b, c])).functionalFault.isFaulted = false) := by
  have e : (true :: (hist ++ [a, b, c]).map fun h => decide (h.2.whoAmI.head? ≠ some 0x0F)).dropLast =
      (true :: hist.map fun h => decide (h.2.whoAmI.head? ≠ some 0x0F)) ++
        [decide (a.2.whoAmI.head? ≠ some 0x0F), decide (b.2.whoAmI.head? ≠ some 0x0F)] := by
    rw [List.map_append, ← List.cons_append]
    show (_ ++ ([_, _] ++ [_])).dropLast = _
    rw [← List.append_assoc, List.dropLast_concat]
  rw [C96_box_fault _ hmono hpos, e]
  constructor
  · intro h1 h2
    rw [h1, h2]
    simp [trailingTrue]
  · intro h2
    rw [h2]
    simp [trailingTrue]

/-- C96: the sun vector is published only when the box says it is complete, and is then the one the box sent; otherwise it is
"not a number". -/
theorem C96_sun_vector (cc : U32) (d : BoxData) (m : Monitor) :
    (m.execute cc d).ssaVec = (if d.ssaMode.head? = some 2 then some (get3 d.ssaVec 0 (-1) 1) else none) := by
  show (if byteAt d.ssaMode 0 = 2 then some (get3 d.ssaVec 0 (-1) 1) else none) = _
  unfold byteAt
  cases d.ssaMode with
  | nil => rfl
  | cons a l => simp only [List.getElem?_cons_zero, Option.getD_some, List.head?_cons, Option.some.injEq]

/-- C96: the device table of the box arrives: the answer of the box, read by the monitor, says of every device what the
box's table says. -/
theorem C96_device_table (s : RBox) (hp : s.box.regs.readPtr = 27) (cc : U32) (d : BoxData) (m : Monitor)
    (hd : s.request = some d.havt) (i : ℕ) :
    (m.execute cc d).havt i = s.box.regs.havtRead.getLsbD i := by
  have e : s.request = some [s.box.regs.havtRead.setWidth 8, (s.box.regs.havtRead >>> 8).setWidth 8,
      (s.box.regs.havtRead >>> 16).setWidth 8, (s.box.regs.havtRead >>> 24).setWidth 8] := by
    unfold RBox.request
    dsimp only
    rw [if_neg (by rw [hp]; decide), if_neg (by rw [hp]; decide), if_neg (by rw [hp]; decide), if_neg (by rw [hp]; decide),
      if_neg (by rw [hp]; decide), if_neg (by rw [hp]; decide), if_pos hp]
  rw [e] at hd
  show (Regs.le32 [byteAt d.havt 0, byteAt d.havt 1, byteAt d.havt 2, byteAt d.havt 3]).getLsbD i = _
  rw [← Option.some.inj hd]
  exact congrArg (·.getLsbD i) (le32_sendTable s.box.regs.havtRead)

/-- C96, refuted: the range flags of the torque and of both magnetometers say nothing: they are set whatever the box
sends. -/
theorem C96_counterexample_flags (cc : U32) (d : BoxData) (m : Monitor) :
    (m.execute cc d).torqueFlag = true ∧ (m.execute cc d).mag1Flag = true ∧ (m.execute cc d).mag2Flag = true := by
  refine ⟨?_, ?_, ?_⟩
  · exact decide_eq_true (Or.inr (Or.inl (fpS_ge (by decide +kernel) (by decide +kernel))))
  · exact decide_eq_true (Or.inr (Or.inl (fpS_ge (by decide +kernel) (by decide +kernel))))
  · exact decide_eq_true (Or.inr (Or.inl (fpS_ge (by decide +kernel) (by decide +kernel))))

/-- C96, refuted: a box that does not answer is not visible in its readings: the published values are those of a box
reporting full speed backwards on all wheels and the strongest negative field and rate on all axes. -/
theorem C96_counterexample_silent (cc : U32) (d : BoxData) (m : Monitor) (h1 : d.rwa = []) (h2 : d.imu = []) :
    (m.execute cc d).speed = ⟨-maxSpeedRead, -maxSpeedRead, -maxSpeedRead⟩ ∧
    (m.execute cc d).mag1 = ⟨-maxMag1, -maxMag1, -maxMag1⟩ ∧ (m.execute cc d).gyr = ⟨-maxOmega, -maxOmega, -maxOmega⟩ ∧
    (m.execute cc d).temp = -103 ∧ (m.execute cc d).speedFlag = false ∧ (m.execute cc d).gyrFlag = false ∧
    (m.execute cc d).tempFlag = false := by
  have e : ∀ i, byteAt [] i = 0 := fun _ => rfl
  have z : le16 0 0 = 0 := by decide
  have a1 : fpS 0 (-maxSpeedRead) maxSpeedRead = -maxSpeedRead := by decide +kernel
  have a2 : fpS 0 (-maxMag1) maxMag1 = -maxMag1 := by decide +kernel
  have a3 : fpS 0 (-maxOmega) maxOmega = -maxOmega := by decide +kernel
  have a4 : fpS 0 minTemp maxTemp = -103 := by decide +kernel
  have b1 : (m.execute cc d).speed = ⟨-maxSpeedRead, -maxSpeedRead, -maxSpeedRead⟩ := by
    show get3 d.rwa 0 _ _ = _
    rw [h1]; simp only [get3, e, z, a1]
  have b2 : (m.execute cc d).mag1 = ⟨-maxMag1, -maxMag1, -maxMag1⟩ := by
    show get3 d.imu 0 _ _ = _
    rw [h2]; simp only [get3, e, z, a2]
  have b3 : (m.execute cc d).gyr = ⟨-maxOmega, -maxOmega, -maxOmega⟩ := by
    show get3 d.imu 12 _ _ = _
    rw [h2]; simp only [get3, e, z, a3]
  have b4 : (m.execute cc d).temp = -103 := by
    show fpS (le16 (byteAt d.imu 18) (byteAt d.imu 19)) minTemp maxTemp = _
    rw [h2]; simp only [e, z, a4]
  refine ⟨b1, b2, b3, b4, ?_, ?_, ?_⟩
  · show Monitor.exceeds (m.execute cc d).speed _ _ = _
    rw [b1]; decide +kernel
  · show Monitor.exceeds (m.execute cc d).gyr _ _ = _
    rw [b3]; decide +kernel
  · show decide ((m.execute cc d).temp < minTemp ∨ f32 (maxTemp - 1) < (m.execute cc d).temp) = _
    rw [b4]; decide +kernel

/-- C96 (part): what the flags of speed, rate and temperature mean: some component is above the top of the scale less one.
Missing: the flags of torque and field, which are always set (`C96_counterexample_flags`). -/
theorem C96_flags_partial (cc : U32) (d : BoxData) (m : Monitor) :
    let m' := m.execute cc d
    (m'.speedFlag = true ↔ f32 (maxSpeedRead - 1) < m'.speed.x ∨ f32 (maxSpeedRead - 1) < m'.speed.y ∨
      f32 (maxSpeedRead - 1) < m'.speed.z) ∧
    (m'.gyrFlag = true ↔ f32 (maxOmega - 1) < m'.gyr.x ∨ f32 (maxOmega - 1) < m'.gyr.y ∨ f32 (maxOmega - 1) < m'.gyr.z) ∧
    (m'.tempFlag = true ↔ 152 < m'.temp) := by
  have ge : ∀ {min max : ℚ} (u : BitVec 16), 0 ≤ f32 (max - min) → min ≤ fpS 0 min max → ¬ fpS u min max < min :=
    fun u h1 h2 => not_lt.2 (h2.trans (fpS_mono h1 (Nat.zero_le _)))
  have k1 := fun u => ge (min := -maxSpeedRead) (max := maxSpeedRead) u (by decide +kernel) (by decide +kernel)
  have k2 := fun u => ge (min := -maxOmega) (max := maxOmega) u (by decide +kernel) (by decide +kernel)
  have k3 := fun u => ge (min := minTemp) (max := maxTemp) u (by decide +kernel) (by decide +kernel)
  have t : f32 (maxTemp - 1) = 152 := by decide +kernel
  intro m'
  refine ⟨?_, ?_, ?_⟩
  · show Monitor.exceeds (get3 d.rwa 0 _ _) _ _ = true ↔ f32 (maxSpeedRead - 1) < (get3 d.rwa 0 (-maxSpeedRead) maxSpeedRead).x ∨ _ <
      (get3 d.rwa 0 (-maxSpeedRead) maxSpeedRead).y ∨ _ < (get3 d.rwa 0 (-maxSpeedRead) maxSpeedRead).z
    simp only [Monitor.exceeds, get3, k1, false_or, decide_eq_true_eq]
  · show Monitor.exceeds (get3 d.imu 12 _ _) _ _ = true ↔ f32 (maxOmega - 1) < (get3 d.imu 12 (-maxOmega) maxOmega).x ∨ _ <
      (get3 d.imu 12 (-maxOmega) maxOmega).y ∨ _ < (get3 d.imu 12 (-maxOmega) maxOmega).z
    simp only [Monitor.exceeds, get3, k2, false_or, decide_eq_true_eq]
  · show decide (fpS (le16 (byteAt d.imu 18) (byteAt d.imu 19)) minTemp maxTemp < minTemp ∨
      f32 (maxTemp - 1) < fpS (le16 (byteAt d.imu 18) (byteAt d.imu 19)) minTemp maxTemp) = true ↔
      152 < fpS (le16 (byteAt d.imu 18) (byteAt d.imu 19)) minTemp maxTemp
    rw [t]
    simp only [k3, false_or, decide_eq_true_eq]

/-- Histories as in the theorems: a wheel converter lost in cycle 3 and 4 is reported in cycle 5. -/
example : ((Monitor.run ([(1, 0x04), (2, 0x04), (3, 0x00), (4, 0x00), (5, 0x00)].map fun c =>
      (c.1, ⟨[0x0F], [], [], [], [], [], [0, c.2, 0, 0]⟩))).wheel1Fault.isFaulted,
    (Monitor.run ([(1, 0x04), (2, 0x04), (3, 0x00), (4, 0x00)].map fun c =>
      (c.1, ⟨[0x0F], [], [], [], [], [], [0, c.2, 0, 0]⟩))).wheel1Fault.isFaulted) = (true, false) := by decide +kernel

end PAN
