import Verif.Lemmas.Piksi
import Verif.Props.Sbp
import Mathlib.Tactic.Ring
import Mathlib.Data.Rat.Defs
import Mathlib.Algebra.Order.Field.Rat
/-!
C53: the GPS fields are published all together, from one fix. C83: the age of the data. C84: units.
-/
namespace PAN
open Spec Piksi

namespace Spec

/-- The modes that stand for a fix. -/
def isFix (mode : U8) : Prop := mode = PiksiMode.spp ∨ mode = PiksiMode.fixedRtk ∨ mode = PiksiMode.floatRtk

/-- The signed number in four bytes from offset `off`. -/
def snum (m : List U8) (off : Nat) : Int := (BitVec.ofNat 32 (num m off 4)).toInt

/-- `f'` shows the fix with the messages `t`, `p`, `v` (and the baseline, if one was heard). -/
structure Shows (f f' : Fields) (h : Heard) (t p v : List U8) : Prop where
  time : f'.time = { wn := BitVec.ofNat 16 (num t 0 2), tow := BitVec.ofNat 32 (num t 2 4),
                     ns := BitVec.ofNat 32 (num t 6 4), isSet := true }
  pos : f'.pos = (BitVec.ofNat 64 (num p 4 8), BitVec.ofNat 64 (num p 12 8), BitVec.ofNat 64 (num p 20 8))
  vel : f'.vel = some (snum v 4, snum v 8, snum v 12)
  spp : h.baseline = none → f'.mode = PiksiMode.spp ∧ f'.baseline = f.baseline
  rtk : ∀ b, h.baseline = some b → f'.baseline = some (snum b 4, snum b 8, snum b 12) ∧
    f'.mode = if num b 19 1 = 1 then PiksiMode.fixedRtk else PiksiMode.floatRtk

/-- The reported reason for having no fix. -/
structure Reason (mode : U8) (h : Heard) (age : Nat) : Prop where
  silent : ¬ h.any → mode = PiksiMode.noDataError
  damaged : h.any → h.damaged → mode = PiksiMode.crcError
  incomplete : h.any → ¬ h.damaged → (h.time = none ∨ h.pos = none ∨ h.vel = none) → mode = PiksiMode.noFix
  old : h.any → ¬ h.damaged → ∀ t p v, h.time = some t → h.pos = some p → h.vel = some v → 100000 < age →
    mode = PiksiMode.crcError
  desync : h.any → ¬ h.damaged → ∀ t p v, h.time = some t → h.pos = some p → h.vel = some v → age ≤ 100000 →
    (num p 0 4 ≠ num t 2 4 ∨ num v 0 4 ≠ num t 2 4 ∨ ∃ b, h.baseline = some b ∧ num b 0 4 ≠ num t 2 4) →
    mode = PiksiMode.syncError

end Spec

theorem num_mod (m : List U8) (off n : Nat) : num m off n % 256 ^ n = num m off n := Nat.mod_eq_of_lt (num_lt m off n)

theorem tow_eq (t : List U8) : (timeOf t).tow.toNat = num t 2 4 := by
  show (BitVec.ofNat 32 (num t 2 4)).toNat = _
  rw [BitVec.toNat_ofNat]
  exact num_mod t 2 4

theorem pub4 (f : Fields) (d : Driver) :
    publish f d 4 = { f with microdelta := d.microdelta, mode := PiksiMode.noDataError } := by
  unfold publish
  simp

theorem pub3 (f : Fields) (d : Driver) :
    publish f d 3 = { f with microdelta := d.microdelta, mode := PiksiMode.crcError } := by
  unfold publish
  simp

theorem pub2 (f : Fields) (d : Driver) :
    publish f d 2 = { f with microdelta := d.microdelta, mode := PiksiMode.noFix } := by
  unfold publish
  simp

theorem pubOld (f : Fields) (d : Driver) (r : Nat) (hr : r < 2) (h : 100000 < d.microdelta) :
    publish f d r = { f with microdelta := d.microdelta, mode := PiksiMode.crcError } := by
  unfold publish
  simp [hr, h]

theorem pub0 (f : Fields) (d : Driver) (h : d.microdelta ≤ 100000) :
    publish f d 0 =
      if num d.posEcef 0 4 = num d.gpsTime 2 4 ∧ num d.velEcef 0 4 = num d.gpsTime 2 4 then
        if num d.posEcef 30 1 < 4 then { f with microdelta := d.microdelta, mode := PiksiMode.nsatError }
        else { f with microdelta := d.microdelta, mode := PiksiMode.spp, time := timeOf d.gpsTime,
                      pos := posOf d.posEcef, vel := some (vecOf d.velEcef) }
      else { f with microdelta := d.microdelta, mode := PiksiMode.syncError } := by
  have h0 : ¬ (100000 < d.microdelta) := by omega
  unfold publish
  simp only [rd_num, tow_eq]
  generalize num d.posEcef 0 4 = P
  generalize num d.velEcef 0 4 = V
  generalize num d.gpsTime 2 4 = T
  by_cases h1 : P = T
  · by_cases h2 : V = T
    · subst h1; subst h2; simp [h0]
    · have h2' : ¬ T = V := fun h => h2 h.symm
      simp [h0, h2, h2']
  · have h1' : ¬ T = P := fun h => h1 h.symm
    simp [h0, h1, h1']

theorem pub1 (f : Fields) (d : Driver) (h : d.microdelta ≤ 100000) :
    publish f d 1 =
      if num d.posEcef 0 4 = num d.gpsTime 2 4 ∧ num d.velEcef 0 4 = num d.gpsTime 2 4 ∧
          num d.baselineEcef 0 4 = num d.gpsTime 2 4 then
        if num d.posEcef 30 1 < 4 then { f with microdelta := d.microdelta, mode := PiksiMode.nsatError }
        else if num d.baselineEcef 19 1 = 1 then
          { f with microdelta := d.microdelta, mode := PiksiMode.fixedRtk, time := timeOf d.gpsTime,
                   pos := posOf d.posEcef, vel := some (vecOf d.velEcef), baseline := some (vecOf d.baselineEcef) }
        else if num d.baselineEcef 19 1 = 0 then
          { f with microdelta := d.microdelta, mode := PiksiMode.floatRtk, time := timeOf d.gpsTime,
                   pos := posOf d.posEcef, vel := some (vecOf d.velEcef), baseline := some (vecOf d.baselineEcef) }
        else { f with microdelta := d.microdelta, mode := PiksiMode.dataError }
      else { f with microdelta := d.microdelta, mode := PiksiMode.syncError } := by
  have h0 : ¬ (100000 < d.microdelta) := by omega
  unfold publish
  simp only [rd_num, tow_eq]
  generalize num d.posEcef 0 4 = P
  generalize num d.velEcef 0 4 = V
  generalize num d.gpsTime 2 4 = T
  generalize num d.baselineEcef 0 4 = B
  by_cases h1 : P = T
  · by_cases h2 : V = T
    · by_cases h3 : B = T
      · subst h1; subst h2; subst h3; simp [h0]; rfl
      · have h3' : ¬ T = B := fun h => h3 h.symm
        simp [h0, h3, h3']
    · have h2' : ¬ T = V := fun h => h2 h.symm
      simp [h0, h2, h2']
  · have h1' : ¬ T = P := fun h => h1 h.symm
    simp [h0, h1, h1']

theorem not_fix (m : U8) (h : m = PiksiMode.noDataError ∨ m = PiksiMode.crcError ∨ m = PiksiMode.noFix ∨
    m = PiksiMode.syncError ∨ m = PiksiMode.nsatError ∨ m = PiksiMode.dataError) : ¬ isFix m := by
  unfold isFix
  rcases h with rfl | rfl | rfl | rfl | rfl | rfl <;> decide

/-- One cycle: all reachable decoder states satisfy `Sbp.Inv`. -/
theorem cycle_ok (d : Driver) (f : Fields) (hi : Sbp.Inv d.sbp) (bytes : List U8) (hb : bytes.length ≤ 1024)
    (ic : BitVec 32) :
    ∃ s evs d' f', Sbp.drain callbacks (2 * bytes.length + 1) d.sbp bytes = some (s, evs) ∧
      cycle (d, f) (bytes, ic) = some (d', f') ∧ d'.sbp = s ∧ Sbp.Inv s ∧ f'.microdelta = (ic * 100).toNat ∧
      (∀ t p v, Fix (heard bytes evs) (ic * 100).toNat t p v → Shows f f' (heard bytes evs) t p v) ∧
      ((¬ ∃ t p v, Fix (heard bytes evs) (ic * 100).toNat t p v) →
        ¬ isFix f'.mode ∧ f'.time = f.time ∧ f'.pos = f.pos ∧ f'.vel = f.vel ∧ f'.baseline = f.baseline ∧
        Reason f'.mode (heard bytes evs) (ic * 100).toNat) := by
  obtain ⟨s, evs, d', r, hd, hr, hs, his, hmd, h4, h3, hk⟩ := readAll_ok d hi bytes hb ic
  refine ⟨s, evs, d', publish f d' r, hd, by simp only [cycle, hr], hs, his, ?_⟩
  generalize heard bytes evs = h at *
  rw [← hmd]
  by_cases ha : h.any
  swap
  · rw [h4 ha, pub4]
    refine ⟨rfl, fun t p v hf => absurd hf.any ha, fun _ => ⟨not_fix _ (Or.inl rfl), rfl, rfl, rfl, rfl,
      fun _ => rfl, fun h => absurd h ha, fun h => absurd h ha, fun h => absurd h ha, fun h => absurd h ha⟩⟩
  by_cases hdg : h.damaged
  · rw [h3 ha hdg, pub3]
    refine ⟨rfl, fun t p v hf => absurd hdg hf.intact, fun _ => ⟨not_fix _ (Or.inr (Or.inl rfl)), rfl, rfl, rfl, rfl,
      fun h => absurd ha h, fun _ _ => rfl, fun _ h => absurd hdg h, fun _ h => absurd hdg h, fun _ h => absurd hdg h⟩⟩
  obtain ⟨k1, k2, k3, k4, hr'⟩ := hk ha hdg
  rw [k1.upd, k2.upd, k3.upd, k4.upd] at hr'
  by_cases hmiss : h.time = none ∨ h.pos = none ∨ h.vel = none
  · have hr2 : r = 2 := by
      rw [hr']
      rcases hmiss with h0 | h0 | h0 <;> rw [h0] <;> simp
    rw [hr2, pub2]
    refine ⟨rfl, fun t p v hf => ?_, fun _ => ⟨not_fix _ (Or.inr (Or.inr (Or.inl rfl))), rfl, rfl, rfl, rfl,
      fun h => absurd ha h, fun _ h => absurd h hdg, fun _ _ _ => rfl, fun _ _ t p v e1 e2 e3 => ?_,
      fun _ _ t p v e1 e2 e3 => ?_⟩⟩
    · rcases hmiss with h0 | h0 | h0
      · rw [hf.time] at h0; cases h0
      · rw [hf.pos] at h0; cases h0
      · rw [hf.vel] at h0; cases h0
    · rw [e1, e2, e3] at hmiss; simp at hmiss
    · rw [e1, e2, e3] at hmiss; simp at hmiss
  obtain ⟨t, et⟩ : ∃ t, h.time = some t := by
    cases e : h.time with
    | none => exact absurd (Or.inl e) hmiss
    | some t => exact ⟨t, rfl⟩
  obtain ⟨p, ep⟩ : ∃ t, h.pos = some t := by
    cases e : h.pos with
    | none => exact absurd (Or.inr (Or.inl e)) hmiss
    | some t => exact ⟨t, rfl⟩
  obtain ⟨v, ev⟩ : ∃ t, h.vel = some t := by
    cases e : h.vel with
    | none => exact absurd (Or.inr (Or.inr e)) hmiss
    | some t => exact ⟨t, rfl⟩
  have vt := k1.val t et
  have vp := k2.val p ep
  have vv := k3.val v ev
  have uniq : ∀ {t' p' v'}, h.time = some t' → h.pos = some p' → h.vel = some v' → t' = t ∧ p' = p ∧ v' = v := by
    intro t' p' v' e1 e2 e3
    rw [et] at e1; rw [ep] at e2; rw [ev] at e3
    cases e1; cases e2; cases e3
    exact ⟨rfl, rfl, rfl⟩
  have hmiss' : ¬ (h.time = none ∨ h.pos = none ∨ h.vel = none) := hmiss
  have hr01 : r = if h.baseline.isSome then 1 else 0 := by rw [hr', et, ep, ev]; rfl
  by_cases hage : 100000 < d'.microdelta
  · rw [pubOld f d' r (by rw [hr01]; split <;> omega) hage]
    refine ⟨rfl, fun t p v hf => absurd hf.young (by omega), fun _ => ⟨not_fix _ (Or.inr (Or.inl rfl)), rfl, rfl, rfl, rfl,
      fun h => absurd ha h, fun _ h => absurd h hdg, fun _ _ h => absurd h hmiss', fun _ _ t p v _ _ _ _ => rfl,
      fun _ _ t p v _ _ _ h => absurd hage (by omega)⟩⟩
  have hage' : d'.microdelta ≤ 100000 := by omega
  cases hb0 : h.baseline with
  | none =>
    rw [hb0] at hr01
    rw [show r = 0 from hr01, pub0 f d' hage', vt, vp, vv]
    by_cases hc : num p 0 4 = num t 2 4 ∧ num v 0 4 = num t 2 4
    · rw [if_pos hc]
      by_cases hn : num p 30 1 < 4
      · rw [if_pos hn]
        refine ⟨rfl, fun t' p' v' hf => ?_, fun _ => ⟨not_fix _ (by simp), rfl, rfl, rfl, rfl,
          fun h => absurd ha h, fun _ h => absurd h hdg, fun _ _ h => absurd h hmiss',
          fun _ _ t p v _ _ _ h => absurd h hage, fun _ _ t' p' v' e1 e2 e3 _ h => ?_⟩⟩
        · obtain ⟨rfl, rfl, rfl⟩ := uniq hf.time hf.pos hf.vel
          exact absurd hf.sats (by omega)
        · obtain ⟨rfl, rfl, rfl⟩ := uniq e1 e2 e3
          rcases h with h | h | ⟨b, h, _⟩
          · exact absurd hc.1 h
          · exact absurd hc.2 h
          · rw [hb0] at h; cases h
      · rw [if_neg hn]
        refine ⟨rfl, fun t' p' v' hf => ?_, fun hno => absurd ⟨t, p, v, ?_⟩ hno⟩
        · obtain ⟨rfl, rfl, rfl⟩ := uniq hf.time hf.pos hf.vel
          exact ⟨rfl, rfl, rfl, fun _ => ⟨rfl, rfl⟩, fun b h => (by rw [hb0] at h; cases h)⟩
        · exact ⟨ha, hdg, et, ep, ev, hage', hc.1, hc.2, by omega, fun b h => (by rw [hb0] at h; cases h),
            fun b h => (by rw [hb0] at h; cases h)⟩
    · rw [if_neg hc]
      refine ⟨rfl, fun t' p' v' hf => ?_, fun _ => ⟨not_fix _ (by simp), rfl, rfl, rfl, rfl,
          fun h => absurd ha h, fun _ h => absurd h hdg, fun _ _ h => absurd h hmiss',
          fun _ _ t p v _ _ _ h => absurd h hage, fun _ _ t' p' v' e1 e2 e3 _ h => rfl⟩⟩
      obtain ⟨rfl, rfl, rfl⟩ := uniq hf.time hf.pos hf.vel
      exact absurd ⟨hf.posTow, hf.velTow⟩ hc
  | some b =>
    have vb := k4.val b hb0
    rw [hb0] at hr01
    rw [show r = 1 from hr01, pub1 f d' hage', vt, vp, vv, vb]
    by_cases hc : num p 0 4 = num t 2 4 ∧ num v 0 4 = num t 2 4 ∧ num b 0 4 = num t 2 4
    · rw [if_pos hc]
      have hnoDesync : ∀ t' p' v', h.time = some t' → h.pos = some p' → h.vel = some v' →
          (num p' 0 4 ≠ num t' 2 4 ∨ num v' 0 4 ≠ num t' 2 4 ∨ ∃ b, h.baseline = some b ∧ num b 0 4 ≠ num t' 2 4) →
          False := by
        intro t' p' v' e1 e2 e3 h
        obtain ⟨rfl, rfl, rfl⟩ := uniq e1 e2 e3
        rcases h with h | h | ⟨b', h, h'⟩
        · exact absurd hc.1 h
        · exact absurd hc.2.1 h
        · rw [hb0] at h; cases h; exact absurd hc.2.2 h'
      by_cases hn : num p 30 1 < 4
      · rw [if_pos hn]
        refine ⟨rfl, fun t' p' v' hf => ?_, fun _ => ⟨not_fix _ (by simp), rfl, rfl, rfl, rfl,
          fun h => absurd ha h, fun _ h => absurd h hdg, fun _ _ h => absurd h hmiss',
          fun _ _ t p v _ _ _ h => absurd h hage, fun _ _ t' p' v' e1 e2 e3 _ h => absurd (hnoDesync _ _ _ e1 e2 e3 h) id⟩⟩
        obtain ⟨rfl, rfl, rfl⟩ := uniq hf.time hf.pos hf.vel
        exact absurd hf.sats (by omega)
      · rw [if_neg hn]
        by_cases hf1 : num b 19 1 = 1
        · rw [if_pos hf1]
          refine ⟨rfl, fun t' p' v' hf => ?_, fun hno => absurd ⟨t, p, v, ?_⟩ hno⟩
          · obtain ⟨rfl, rfl, rfl⟩ := uniq hf.time hf.pos hf.vel
            refine ⟨rfl, rfl, rfl, fun h => (by rw [hb0] at h; cases h), fun b' h => ?_⟩
            rw [hb0] at h; cases h
            exact ⟨rfl, by rw [if_pos hf1]⟩
          · refine ⟨ha, hdg, et, ep, ev, hage', hc.1, hc.2.1, by omega, fun b' h => ?_, fun b' h => ?_⟩
            · rw [hb0] at h; cases h; exact hc.2.2
            · rw [hb0] at h; cases h; omega
        · rw [if_neg hf1]
          by_cases hf0 : num b 19 1 = 0
          · rw [if_pos hf0]
            refine ⟨rfl, fun t' p' v' hf => ?_, fun hno => absurd ⟨t, p, v, ?_⟩ hno⟩
            · obtain ⟨rfl, rfl, rfl⟩ := uniq hf.time hf.pos hf.vel
              refine ⟨rfl, rfl, rfl, fun h => (by rw [hb0] at h; cases h), fun b' h => ?_⟩
              rw [hb0] at h; cases h
              exact ⟨rfl, by rw [if_neg hf1]⟩
            · refine ⟨ha, hdg, et, ep, ev, hage', hc.1, hc.2.1, by omega, fun b' h => ?_, fun b' h => ?_⟩
              · rw [hb0] at h; cases h; exact hc.2.2
              · rw [hb0] at h; cases h; omega
          · rw [if_neg hf0]
            refine ⟨rfl, fun t' p' v' hf => ?_, fun _ => ⟨not_fix _ (by simp), rfl, rfl, rfl, rfl,
              fun h => absurd ha h, fun _ h => absurd h hdg, fun _ _ h => absurd h hmiss',
              fun _ _ t p v _ _ _ h => absurd h hage,
              fun _ _ t' p' v' e1 e2 e3 _ h => absurd (hnoDesync _ _ _ e1 e2 e3 h) id⟩⟩
            have := hf.baseFlag b hb0
            omega
    · rw [if_neg hc]
      refine ⟨rfl, fun t' p' v' hf => ?_, fun _ => ⟨not_fix _ (by simp), rfl, rfl, rfl, rfl,
          fun h => absurd ha h, fun _ h => absurd h hdg, fun _ _ h => absurd h hmiss',
          fun _ _ t p v _ _ _ h => absurd h hage, fun _ _ t' p' v' e1 e2 e3 _ h => rfl⟩⟩
      obtain ⟨rfl, rfl, rfl⟩ := uniq hf.time hf.pos hf.vel
      exact absurd ⟨hf.posTow, hf.velTow, hf.baseTow b hb0⟩ hc

/-! ### Runs -/

/-- Every cycle of a run works on a decoder in order and on at most a buffer full of bytes. -/
theorem cycles_inv {is : List (List U8 × BitVec 32)} {d0 : Driver} {f0 : Fields} (hi : Sbp.Inv d0.sbp) {d : Driver}
    {f : Fields} (h : cycles (d0, f0) is = some (d, f)) :
    Sbp.Inv d.sbp ∧ Sbp.norm d.sbp = (Sbp.feeds callbacks (Sbp.norm d0.sbp) (is.map (·.1)).flatten).1 := by
  induction is generalizing d0 f0 with
  | nil =>
    simp only [cycles, Option.some.injEq, Prod.mk.injEq] at h
    obtain ⟨rfl, rfl⟩ := h
    exact ⟨hi, rfl⟩
  | cons i is ih =>
    simp only [cycles] at h
    have hb : i.1.length ≤ 1024 := by
      by_contra hlt
      have : cycle (d0, f0) i = none := by
        unfold cycle Driver.readAll
        rw [if_pos (show i.1.length > 1024 by omega)]
      rw [this] at h
      cases h
    obtain ⟨s, evs, hd, his, hf⟩ := Sbp.drain_ok callbacks (2 * i.1.length + 1) d0.sbp i.1 hi (by split <;> omega)
    obtain ⟨s', evs', d', f', hd', hc, hs, _⟩ := cycle_ok d0 f0 hi i.1 hb i.2
    rw [hd] at hd'
    simp only [Option.some.injEq, Prod.mk.injEq] at hd'
    obtain ⟨rfl, rfl⟩ := hd'
    rw [hc] at h
    dsimp only at h
    have := ih (hs ▸ his) h
    refine ⟨this.1, ?_⟩
    rw [this.2, hs, List.map_cons, List.flatten_cons, Sbp.feeds_append, ← hf]

theorem init_inv : Sbp.Inv Driver.init.sbp := Sbp.inv_init

/-- What was heard in the last of some cycles (the decoder's reports on the bytes of that cycle, after those of the
cycles before). -/
def heardIn (is : List (List U8 × BitVec 32)) (i : List U8 × BitVec 32) (h : Heard) : Prop :=
  ∃ s0 e0 s evs, Sbp.reads callbacks Sbp.State.init (is.map (·.1)) = some (s0, e0) ∧
    Sbp.reads callbacks s0 [i.1] = some (s, evs) ∧ h = heard i.1 evs

theorem cycles_reads {is : List (List U8 × BitVec 32)} {d0 : Driver} {f0 : Fields} (hi : Sbp.Inv d0.sbp) {d : Driver}
    {f : Fields} (h : cycles (d0, f0) is = some (d, f)) :
    ∃ evs, Sbp.reads callbacks d0.sbp (is.map (·.1)) = some (d.sbp, evs) := by
  induction is generalizing d0 f0 with
  | nil =>
    simp only [cycles, Option.some.injEq, Prod.mk.injEq] at h
    obtain ⟨rfl, rfl⟩ := h
    exact ⟨[], rfl⟩
  | cons i is ih =>
    simp only [cycles] at h
    have hb : i.1.length ≤ 1024 := by
      by_contra hlt
      have : cycle (d0, f0) i = none := by
        unfold cycle Driver.readAll
        rw [if_pos (show i.1.length > 1024 by omega)]
      rw [this] at h
      cases h
    obtain ⟨s', evs', d', f', hd', hc, hs, his, _⟩ := cycle_ok d0 f0 hi i.1 hb i.2
    rw [hc] at h
    dsimp only at h
    obtain ⟨e, he⟩ := ih (hs ▸ his) h
    refine ⟨evs' ++ e, ?_⟩
    rw [List.map_cons]
    simp only [Sbp.reads, hd']
    rw [← hs, he]

theorem cycle_bound {d : Driver} {f : Fields} {i : List U8 × BitVec 32} {x : Driver × Fields}
    (h : cycle (d, f) i = some x) : i.1.length ≤ 1024 := by
  by_contra hlt
  have : cycle (d, f) i = none := by
    unfold cycle Driver.readAll
    rw [if_pos (show i.1.length > 1024 by omega)]
  rw [this] at h
  cases h

/-- The GPS task never gets stuck or writes outside its memory while the port hands over at most a buffer full. -/
theorem C53_safe (is : List (List U8 × BitVec 32)) (hb : ∀ i ∈ is, i.1.length ≤ 1024) :
    ∃ d f, cycles (Driver.init, Fields.init) is = some (d, f) := by
  suffices ∀ (is : List (List U8 × BitVec 32)) (d0 : Driver) (f0 : Fields), Sbp.Inv d0.sbp →
      (∀ i ∈ is, i.1.length ≤ 1024) → ∃ d f, cycles (d0, f0) is = some (d, f) from this is _ _ init_inv hb
  intro is
  induction is with
  | nil => exact fun d0 f0 _ _ => ⟨d0, f0, rfl⟩
  | cons i is ih =>
    intro d0 f0 hi hb
    obtain ⟨s', evs', d', f', hd', hc, hs, his, _⟩ := cycle_ok d0 f0 hi i.1 (hb i List.mem_cons_self) i.2
    obtain ⟨d, f, h⟩ := ih d' f' (hs ▸ his) (fun i h => hb i (List.mem_cons_of_mem _ h))
    exact ⟨d, f, by simp only [cycles, hc, h]⟩

theorem step_ok {is : List (List U8 × BitVec 32)} {i : List U8 × BitVec 32} {d d' : Driver} {f f' : Fields}
    (h : cycles (Driver.init, Fields.init) is = some (d, f)) (h' : cycle (d, f) i = some (d', f')) :
    ∃ s evs, Sbp.drain callbacks (2 * i.1.length + 1) d.sbp i.1 = some (s, evs) ∧ heardIn is i (heard i.1 evs) ∧
      (∀ hh, heardIn is i hh → hh = heard i.1 evs) ∧ f'.microdelta = (i.2 * 100).toNat ∧
      (∀ t p v, Fix (heard i.1 evs) (i.2 * 100).toNat t p v → Shows f f' (heard i.1 evs) t p v) ∧
      ((¬ ∃ t p v, Fix (heard i.1 evs) (i.2 * 100).toNat t p v) →
        ¬ isFix f'.mode ∧ f'.time = f.time ∧ f'.pos = f.pos ∧ f'.vel = f.vel ∧ f'.baseline = f.baseline ∧
        Reason f'.mode (heard i.1 evs) (i.2 * 100).toNat) := by
  have hi := (cycles_inv init_inv h).1
  obtain ⟨e0, hr⟩ := cycles_reads init_inv h
  obtain ⟨s, evs, d1, f1, hd, hc, hs, his, hm, hfx, hno⟩ := cycle_ok d f hi i.1 (cycle_bound h') i.2
  rw [h'] at hc
  simp only [Option.some.injEq, Prod.mk.injEq] at hc
  obtain ⟨rfl, rfl⟩ := hc
  have hrd : Sbp.reads callbacks d.sbp [i.1] = some (s, evs) := by
    simp only [Sbp.reads, hd, List.append_nil]
  refine ⟨s, evs, hd, ⟨d.sbp, e0, s, evs, hr, hrd, rfl⟩, ?_, hm, hfx, hno⟩
  rintro hh ⟨s0, e1, s1, evs1, h1, h2, rfl⟩
  have h1' : Sbp.reads callbacks Sbp.State.init (is.map (·.1)) = some (d.sbp, e0) := hr
  rw [h1'] at h1
  simp only [Option.some.injEq, Prod.mk.injEq] at h1
  obtain ⟨rfl, rfl⟩ := h1
  rw [hrd] at h2
  simp only [Option.some.injEq, Prod.mk.injEq] at h2
  obtain ⟨rfl, rfl⟩ := h2
  rfl

/-- A cycle with a fix publishes it: time, position and velocity, and the baseline if one came with it, all of this
cycle; the mode tells which kind of fix. -/
theorem C53_published (is : List (List U8 × BitVec 32)) (i : List U8 × BitVec 32) (d d' : Driver) (f f' : Fields)
    (h : cycles (Driver.init, Fields.init) is = some (d, f)) (h' : cycle (d, f) i = some (d', f'))
    (hh : Heard) (hheard : heardIn is i hh) (t p v : List U8) (hfix : Fix hh (i.2 * 100).toNat t p v) :
    Shows f f' hh t p v := by
  obtain ⟨s, evs, _, _, hu, _, hfx, _⟩ := step_ok h h'
  rw [hu hh hheard] at hfix ⊢
  exact hfx t p v hfix

/-- A cycle without a fix changes none of time, position, velocity and baseline, does not show a fix mode, and shows the
reason. -/
theorem C53_kept (is : List (List U8 × BitVec 32)) (i : List U8 × BitVec 32) (d d' : Driver) (f f' : Fields)
    (h : cycles (Driver.init, Fields.init) is = some (d, f)) (h' : cycle (d, f) i = some (d', f'))
    (hh : Heard) (hheard : heardIn is i hh) (hfix : ¬ ∃ t p v, Fix hh (i.2 * 100).toNat t p v) :
    ¬ isFix f'.mode ∧ f'.time = f.time ∧ f'.pos = f.pos ∧ f'.vel = f.vel ∧ f'.baseline = f.baseline ∧
      Reason f'.mode hh (i.2 * 100).toNat := by
  obtain ⟨s, evs, _, _, hu, _, _, hno⟩ := step_ok h h'
  rw [hu hh hheard] at hfix ⊢
  exact hno hfix

/-- The fields change only in a cycle that ends with a fix mode. -/
theorem C53_only_with_fix (is : List (List U8 × BitVec 32)) (i : List U8 × BitVec 32) (d d' : Driver) (f f' : Fields)
    (h : cycles (Driver.init, Fields.init) is = some (d, f)) (h' : cycle (d, f) i = some (d', f'))
    (hch : f'.time ≠ f.time ∨ f'.pos ≠ f.pos ∨ f'.vel ≠ f.vel ∨ f'.baseline ≠ f.baseline) : isFix f'.mode := by
  obtain ⟨s, evs, _, hheard, _, _, hfx, hno⟩ := step_ok h h'
  by_cases hf : ∃ t p v, Fix (heard i.1 evs) (i.2 * 100).toNat t p v
  · obtain ⟨t, p, v, hf⟩ := hf
    have := hfx t p v hf
    cases hb : (heard i.1 evs).baseline with
    | none => exact Or.inl (this.spp hb).1
    | some b =>
      rw [(this.rtk b hb).2]
      split
      · exact Or.inr (Or.inl rfl)
      · exact Or.inr (Or.inr rfl)
  · have := hno hf
    rcases hch with hc | hc | hc | hc
    · exact absurd this.2.1 hc
    · exact absurd this.2.2.1 hc
    · exact absurd this.2.2.2.1 hc
    · exact absurd this.2.2.2.2.1 hc

namespace Spec
/-- The message stands as a whole frame, with the right checksum, in what the receiver has sent up to the end of this
cycle, and its last byte came in this cycle. -/
def Fresh (is : List (List U8 × BitVec 32)) (i : List U8 × BitVec 32) (ty : BitVec 16) (m : Sbp.Msg) : Prop :=
  ∃ pre post, post.length < i.1.length ∧
    (is.map (·.1)).flatten ++ i.1 = pre ++ frame ty m.sender (m.buf.take m.len.toNat) ++ post
end Spec

theorem lastOf_some {ty : BitVec 16} {n : Nat} {evs : List (Sbp.Status × Option Sbp.Msg)} {x : List U8}
    (h : lastOf ty n evs = some x) : ∃ e ∈ evs, ∃ m, e.2 = some m ∧ m.ty = ty ∧ m.buf.take n = x := by
  unfold lastOf at h
  rw [Option.map_eq_some_iff] at h
  obtain ⟨m, hm, hx⟩ := h
  have h1 := List.mem_of_getLast? hm
  rw [List.mem_filter, List.mem_filterMap] at h1
  obtain ⟨⟨e, he, hem⟩, hty⟩ := h1
  exact ⟨e, he, m, hem, by simpa using hty, hx⟩

/-- Whatever is published with a fix was sent by the receiver in whole, undamaged frames that were completed in this very
cycle, all of the same time of week, from at least four satellites, and at most 100 ms before. -/
theorem C53_source (is : List (List U8 × BitVec 32)) (i : List U8 × BitVec 32) (d d' : Driver) (f f' : Fields)
    (h : cycles (Driver.init, Fields.init) is = some (d, f)) (h' : cycle (d, f) i = some (d', f'))
    (hmode : isFix f'.mode) :
    ∃ mt mp mv, Fresh is i 0x0100 mt ∧ Fresh is i 0x0200 mp ∧ Fresh is i 0x0204 mv ∧
      f'.time = { wn := BitVec.ofNat 16 (num (mt.buf.take 11) 0 2), tow := BitVec.ofNat 32 (num (mt.buf.take 11) 2 4),
                  ns := BitVec.ofNat 32 (num (mt.buf.take 11) 6 4), isSet := true } ∧
      f'.pos = (BitVec.ofNat 64 (num (mp.buf.take 32) 4 8), BitVec.ofNat 64 (num (mp.buf.take 32) 12 8),
        BitVec.ofNat 64 (num (mp.buf.take 32) 20 8)) ∧
      f'.vel = some (snum (mv.buf.take 20) 4, snum (mv.buf.take 20) 8, snum (mv.buf.take 20) 12) ∧
      num (mp.buf.take 32) 0 4 = num (mt.buf.take 11) 2 4 ∧ num (mv.buf.take 20) 0 4 = num (mt.buf.take 11) 2 4 ∧
      4 ≤ num (mp.buf.take 32) 30 1 ∧ f'.microdelta ≤ 100000 ∧
      (f'.mode = PiksiMode.spp → f'.baseline = f.baseline) ∧
      (f'.mode ≠ PiksiMode.spp → ∃ mb, Fresh is i 0x0202 mb ∧
        num (mb.buf.take 20) 0 4 = num (mt.buf.take 11) 2 4 ∧
        f'.baseline = some (snum (mb.buf.take 20) 4, snum (mb.buf.take 20) 8, snum (mb.buf.take 20) 12)) := by
  have hi := (cycles_inv init_inv h)
  obtain ⟨s, evs, hd, hheard, _, hmd, hfx, hno⟩ := step_ok h h'
  have hfr : ∀ ty n x, lastOf ty n evs = some x → ∃ m, m.buf.take n = x ∧ Fresh is i ty m := by
    intro ty n x hl
    obtain ⟨e, he, m, hem, hty, hx⟩ := lastOf_some hl
    refine ⟨m, hx, ?_⟩
    obtain ⟨hex, _⟩ := Sbp.drain_msg hd e he m hem
    obtain ⟨s2, evs2, hd2, _, hf2⟩ := Sbp.drain_ok callbacks (2 * i.1.length + 1) d.sbp i.1 hi.1 (by split <;> omega)
    rw [hd] at hd2
    simp only [Option.some.injEq, Prod.mk.injEq] at hd2
    obtain ⟨rfl, rfl⟩ := hd2
    have hmem : e ∈ (Sbp.feeds callbacks (Sbp.norm d.sbp) i.1).2 := by
      rw [← hf2]
      exact List.mem_filter.mpr ⟨he, by rw [hex]; rfl⟩
    have hn : Sbp.norm Sbp.State.init = Sbp.State.init := rfl
    have hin := Sbp.feeds_inv callbacks (is.map (·.1)).flatten Sbp.inv_init hn
    have hmid := Sbp.feeds_mid callbacks (is.map (·.1)).flatten Sbp.inv_init hn (past := [])
      (show Sbp.Mid Sbp.State.init [] from trivial)
    rw [hi.2] at hmem
    have := Sbp.feeds_told callbacks i.1 hin.1 hin.2 hmid e hmem m hem
    obtain ⟨_, pre, post, hlt, hp⟩ := this
    rw [List.nil_append, hty] at hp
    exact ⟨pre, post, hlt, hp⟩
  by_cases hf : ∃ t p v, Fix (heard i.1 evs) (i.2 * 100).toNat t p v
  swap
  · exact absurd hmode (hno hf).1
  obtain ⟨t, p, v, hf⟩ := hf
  have hs := hfx t p v hf
  obtain ⟨mt, rfl, ft⟩ := hfr _ _ _ hf.time
  obtain ⟨mp, rfl, fp⟩ := hfr _ _ _ hf.pos
  obtain ⟨mv, rfl, fv⟩ := hfr _ _ _ hf.vel
  refine ⟨mt, mp, mv, ft, fp, fv, hs.time, hs.pos, hs.vel, hf.posTow, hf.velTow, hf.sats, by rw [hmd]; exact hf.young,
    fun hm => ?_, fun hm => ?_⟩
  · cases hb : (heard i.1 evs).baseline with
    | none => exact (hs.spp hb).2
    | some b =>
      have := (hs.rtk b hb).2
      rw [hm] at this
      split at this <;> exact absurd this (by decide)
  · cases hb : (heard i.1 evs).baseline with
    | none => exact absurd (hs.spp hb).1 hm
    | some b =>
      obtain ⟨mb, rfl, fb⟩ := hfr _ _ _ hb
      exact ⟨mb, fb, hf.baseTow _ hb, (hs.rtk _ hb).1⟩

/-! ### From the receiver to the fields -/

theorem arrivals_state (cbs : List (BitVec 16)) (as : List Arrival) (hok : ∀ a ∈ as, a.Ok) (s : Sbp.State) (hi : Sbp.Inv s)
    (hw : s.st = .waiting) : (Sbp.feeds cbs s (as.flatMap Arrival.bytes)).1.st = .waiting := by
  induction as generalizing s with
  | nil => exact hw
  | cons a as ih =>
    have ha := hok a List.mem_cons_self
    obtain ⟨t0, t1, s0, s1, c0, c1, ht, hs, hc, hb, hf⟩ := frame_bytes a.ty a.sender a.payload
    have hlen : a.payload.length = (BitVec.ofNat 8 a.payload.length : U8).toNat := by
      rw [BitVec.toNat_ofNat]
      have := ha.2
      show _ = _ % 256
      omega
    have hfe := Sbp.feeds_layout cbs s hi hw t0 t1 s0 s1 _ a.payload c0 c1 hlen
    rw [List.flatMap_cons, Arrival.bytes, List.append_assoc, Sbp.feeds_append, Sbp.feeds_noise cbs s hw _ ha.1]
    dsimp only
    rw [Sbp.feeds_append, hf, hfe]
    exact ih (fun a h => hok a (List.mem_cons_of_mem _ h)) _ (Sbp.atCrc_inv hi _ _ _ _ _ _ _ hlen) rfl

namespace Spec
/-- The payload of the last frame of a type among some arrivals. -/
def lastPayload (ty : BitVec 16) (as : List Arrival) : Option (List U8) :=
  (as.filter (fun a => a.ty == ty)).getLast?.map Arrival.payload
end Spec

theorem reported_last {cbs : List (BitVec 16)} {ty : BitVec 16} (hty : ty ∈ cbs) {as : List Arrival}
    {L : List (Sbp.Status × Option Sbp.Msg)} (h : List.Forall₂ (Reported cbs) as L) :
    ((L.filterMap (·.2)).filter (fun m => m.ty == ty)).map (fun m => (m.len.toNat, m.buf.take m.len.toNat)) =
      (as.filter (fun a => a.ty == ty)).map (fun a => (a.payload.length, a.payload)) := by
  induction h with
  | nil => rfl
  | @cons a e as L ha _ ih =>
    unfold Reported at ha
    by_cases hm : a.ty ∈ cbs
    · rw [if_pos hm] at ha
      obtain ⟨_, m, hem, h1, h2, h3, h4⟩ := ha
      rw [List.filterMap_cons_some hem]
      by_cases he : a.ty = ty
      · rw [List.filter_cons_of_pos (by simp [h1, he]), List.filter_cons_of_pos (by simp [he]), List.map_cons,
          List.map_cons, ih, h4, h3]
      · rw [List.filter_cons_of_neg (by simp [h1, he]), List.filter_cons_of_neg (by simp [he]), ih]
    · rw [if_neg hm] at ha
      subst ha
      rw [List.filterMap_cons_none rfl, List.filter_cons_of_neg (by
        simp only [beq_iff_eq]
        intro he
        exact hm (he ▸ hty)), ih]

theorem reported_intact {cbs : List (BitVec 16)} {as : List Arrival} {L : List (Sbp.Status × Option Sbp.Msg)}
    (h : List.Forall₂ (Reported cbs) as L) : ∀ e ∈ L, e.1 ≠ .crcError := by
  induction h with
  | nil => intro e he; cases he
  | @cons a e as L ha _ ih =>
    intro e' he'
    rcases List.mem_cons.mp he' with rfl | he'
    · unfold Reported at ha
      split at ha
      · rw [ha.1]; decide
      · rw [ha]; decide
    · exact ih e' he'

theorem loud_filterMap {cbs : List (BitVec 16)} {fuel : Nat} {s s' : Sbp.State} {inp : List U8}
    {evs : List (Sbp.Status × Option Sbp.Msg)} (h : Sbp.drain cbs fuel s inp = some (s', evs)) :
    evs.filterMap (·.2) = (Sbp.loud evs).filterMap (·.2) := by
  have := Sbp.drain_msg h
  clear h
  induction evs with
  | nil => rfl
  | cons e evs ih =>
    have ih := ih (fun e he => this e (List.mem_cons_of_mem _ he))
    unfold Sbp.loud at ih ⊢
    cases hm : e.2 with
    | none =>
      rw [List.filterMap_cons_none hm, ih, List.filter_cons]
      split
      · rw [List.filterMap_cons_none hm]
      · rfl
    | some m =>
      have hx := (this e List.mem_cons_self m hm).1
      rw [List.filterMap_cons_some hm, List.filter_cons_of_pos (by simp [hx]), List.filterMap_cons_some hm, ih]

/-- What is heard in a cycle in which whole frames arrive, after whole frames. -/
theorem heard_arrivals {is : List (List U8 × BitVec 32)} {i : List U8 × BitVec 32} {d : Driver} {f : Fields}
    (h : cycles (Driver.init, Fields.init) is = some (d, f)) (prev as : List Arrival) (hpo : ∀ a ∈ prev, a.Ok)
    (hao : ∀ a ∈ as, a.Ok) (hp : (is.map (·.1)).flatten = prev.flatMap Arrival.bytes)
    (ha : i.1 = as.flatMap Arrival.bytes) {s : Sbp.State} {evs : List (Sbp.Status × Option Sbp.Msg)}
    (hd : Sbp.drain callbacks (2 * i.1.length + 1) d.sbp i.1 = some (s, evs)) :
    (∀ e ∈ evs, e.1 ≠ .crcError) ∧
      ∀ ty ∈ callbacks, ∀ n, (∀ a ∈ as, a.ty = ty → a.payload.length = n) → lastOf ty n evs = lastPayload ty as := by
  have hi := cycles_inv init_inv h
  have hn : Sbp.norm Sbp.State.init = Sbp.State.init := rfl
  have hinv := Sbp.feeds_inv callbacks (prev.flatMap Arrival.bytes) Sbp.inv_init hn
  have hw := arrivals_state callbacks prev hpo Sbp.State.init Sbp.inv_init rfl
  obtain ⟨s2, evs2, hd2, _, hf2⟩ := Sbp.drain_ok callbacks (2 * i.1.length + 1) d.sbp i.1 hi.1 (by split <;> omega)
  rw [hd] at hd2
  simp only [Option.some.injEq, Prod.mk.injEq] at hd2
  obtain ⟨rfl, rfl⟩ := hd2
  have hsd : Sbp.norm d.sbp = (Sbp.feeds callbacks Sbp.State.init (prev.flatMap Arrival.bytes)).1 := by
    rw [hi.2, hp]; rfl
  rw [hsd, ha] at hf2
  have hrep := feeds_arrivals callbacks as hao _ hinv.1 hw
  rw [← hf2] at hrep
  dsimp only at hrep
  constructor
  · intro e he hc
    exact reported_intact hrep e (List.mem_filter.mpr ⟨he, by rw [hc]; rfl⟩) hc
  · intro ty hty n hlen
    have hmap := reported_last hty hrep
    rw [← loud_filterMap hd] at hmap
    unfold lastOf lastPayload
    have hl := congrArg List.getLast? hmap
    rw [List.getLast?_map, List.getLast?_map] at hl
    cases hg : (as.filter (fun a => a.ty == ty)).getLast? with
    | none =>
      rw [hg] at hl
      simp only [Option.map_none, Option.map_eq_none_iff] at hl
      rw [hl]; rfl
    | some a =>
      rw [hg] at hl
      simp only [Option.map_some, Option.map_eq_some_iff, Prod.mk.injEq] at hl
      obtain ⟨m, hm, h1, h2⟩ := hl
      have hmem := List.mem_of_getLast? hg
      rw [List.mem_filter] at hmem
      have := hlen a hmem.1 (by simpa using hmem.2)
      rw [hm]
      show some (m.buf.take n) = some a.payload
      rw [← this, ← h1, h2]

theorem leBytes_length (n v : Nat) : (leBytes n v).length = n := by simp [leBytes]

theorem leBytes_val (n v : Nat) : (leBytes n v).foldr (fun b acc => b.toNat + 256 * acc) 0 = v % 256 ^ n := by
  induction n generalizing v with
  | zero => simp [leBytes, Nat.mod_one]
  | succ n ih =>
    have he : leBytes (n + 1) v = BitVec.ofNat 8 v :: leBytes n (v / 256) := by
      unfold leBytes
      rw [List.range_succ_eq_map, List.map_cons, List.map_map]
      congr 1
      · simp
      · apply List.map_congr_left
        intro k _
        simp only [Function.comp, Nat.succ_eq_add_one]
        rw [Nat.div_div_eq_div_mul, Nat.pow_succ, Nat.mul_comm 256]
    rw [he, List.foldr_cons, ih, BitVec.toNat_ofNat, show 256 ^ (n + 1) = 256 * 256 ^ n from Nat.pow_succ',
      Nat.mod_mul]

/-- The number at an offset of a message. -/
theorem num_at (a : List U8) (n v : Nat) (b : List U8) {off : Nat} (ho : off = a.length) (hv : v < 256 ^ n) :
    num (a ++ (leBytes n v ++ b)) off n = v := by
  unfold num
  rw [ho, List.drop_left, List.take_append_of_le_length (by rw [leBytes_length]),
    List.take_of_length_le (by rw [leBytes_length]), leBytes_val, Nat.mod_eq_of_lt hv]

theorem num_byte (a : List U8) (x : U8) (b : List U8) {off : Nat} (ho : off = a.length) :
    num (a ++ (x :: b)) off 1 = x.toNat := by
  unfold num
  rw [ho, List.drop_left]
  simp

theorem timeMsg_num (wn : BitVec 16) (tow ns : BitVec 32) (fl : U8) :
    num (timeMsg wn tow ns fl) 0 2 = wn.toNat ∧ num (timeMsg wn tow ns fl) 2 4 = tow.toNat ∧
      num (timeMsg wn tow ns fl) 6 4 = ns.toNat ∧ (timeMsg wn tow ns fl).length = 11 := by
  unfold timeMsg
  simp only [List.append_assoc]
  refine ⟨num_at [] 2 _ _ rfl wn.isLt, num_at (leBytes 2 wn.toNat) 4 _ _ (by simp [leBytes_length]) tow.isLt, ?_, ?_⟩
  · rw [← List.append_assoc]
    exact num_at (leBytes 2 wn.toNat ++ leBytes 4 tow.toNat) 4 _ _ (by simp [leBytes_length]) ns.isLt
  · simp [leBytes_length]

theorem posMsg_num (tow : BitVec 32) (x y z : BitVec 64) (acc : BitVec 16) (ns fl : U8) :
    num (posMsg tow x y z acc ns fl) 0 4 = tow.toNat ∧ num (posMsg tow x y z acc ns fl) 4 8 = x.toNat ∧
      num (posMsg tow x y z acc ns fl) 12 8 = y.toNat ∧ num (posMsg tow x y z acc ns fl) 20 8 = z.toNat ∧
      num (posMsg tow x y z acc ns fl) 30 1 = ns.toNat ∧ (posMsg tow x y z acc ns fl).length = 32 := by
  have e : posMsg tow x y z acc ns fl = leBytes 4 tow.toNat ++ (leBytes 8 x.toNat ++ (leBytes 8 y.toNat ++
      (leBytes 8 z.toNat ++ (leBytes 2 acc.toNat ++ [ns, fl])))) := by
    unfold posMsg; simp only [List.append_assoc]
  refine ⟨?_, ?_, ?_, ?_, ?_, ?_⟩
  · rw [e]; exact num_at [] 4 _ _ rfl tow.isLt
  · rw [e]; exact num_at (leBytes 4 tow.toNat) 8 _ _ (by simp [leBytes_length]) x.isLt
  · rw [e, ← List.append_assoc]
    exact num_at (leBytes 4 tow.toNat ++ leBytes 8 x.toNat) 8 _ _ (by simp [leBytes_length]) y.isLt
  · rw [e, ← List.append_assoc, ← List.append_assoc]
    exact num_at (leBytes 4 tow.toNat ++ leBytes 8 x.toNat ++ leBytes 8 y.toNat) 8 _ _ (by simp [leBytes_length]) z.isLt
  · rw [e, ← List.append_assoc, ← List.append_assoc, ← List.append_assoc, ← List.append_assoc]
    exact num_byte _ ns [fl] (by simp [leBytes_length])
  · rw [e]; simp [leBytes_length]

theorem vecMsg_num (tow x y z : BitVec 32) (acc : BitVec 16) (ns fl : U8) :
    num (vecMsg tow x y z acc ns fl) 0 4 = tow.toNat ∧ num (vecMsg tow x y z acc ns fl) 4 4 = x.toNat ∧
      num (vecMsg tow x y z acc ns fl) 8 4 = y.toNat ∧ num (vecMsg tow x y z acc ns fl) 12 4 = z.toNat ∧
      num (vecMsg tow x y z acc ns fl) 19 1 = fl.toNat ∧ (vecMsg tow x y z acc ns fl).length = 20 := by
  have e : vecMsg tow x y z acc ns fl = leBytes 4 tow.toNat ++ (leBytes 4 x.toNat ++ (leBytes 4 y.toNat ++
      (leBytes 4 z.toNat ++ (leBytes 2 acc.toNat ++ [ns, fl])))) := by
    unfold vecMsg; simp only [List.append_assoc]
  refine ⟨?_, ?_, ?_, ?_, ?_, ?_⟩
  · rw [e]; exact num_at [] 4 _ _ rfl tow.isLt
  · rw [e]; exact num_at (leBytes 4 tow.toNat) 4 _ _ (by simp [leBytes_length]) x.isLt
  · rw [e, ← List.append_assoc]
    exact num_at (leBytes 4 tow.toNat ++ leBytes 4 x.toNat) 4 _ _ (by simp [leBytes_length]) y.isLt
  · rw [e, ← List.append_assoc, ← List.append_assoc]
    exact num_at (leBytes 4 tow.toNat ++ leBytes 4 x.toNat ++ leBytes 4 y.toNat) 4 _ _ (by simp [leBytes_length]) z.isLt
  · rw [e, ← List.append_assoc, ← List.append_assoc, ← List.append_assoc, ← List.append_assoc,
      show [ns, fl] = [ns] ++ [fl] from rfl, ← List.append_assoc]
    exact num_byte _ fl [] (by simp [leBytes_length])
  · rw [e]; simp [leBytes_length]

theorem snum_of {m : List U8} {off : Nat} {x : BitVec 32} (h : num m off 4 = x.toNat) : snum m off = x.toInt := by
  unfold snum
  rw [h, BitVec.ofNat_toNat, BitVec.setWidth_eq]

namespace Spec
/-- Every frame of the four kinds the receiver sends has the size of its kind. -/
def FullSize (as : List Arrival) : Prop :=
  (∀ a ∈ as, a.ty = 0x0100 → a.payload.length = 11) ∧ (∀ a ∈ as, a.ty = 0x0200 → a.payload.length = 32) ∧
    (∀ a ∈ as, a.ty = 0x0204 → a.payload.length = 20) ∧ (∀ a ∈ as, a.ty = 0x0202 → a.payload.length = 20)
end Spec

/-- End to end, without a baseline: when the receiver sends a time, a position and a velocity message of one epoch in a
cycle (among any other frames), from at least four satellites and not older than 100 ms, exactly what it sent is in the
fields after the cycle, and the mode is single point. -/
theorem C53_end_to_end_spp (is : List (List U8 × BitVec 32)) (i : List U8 × BitVec 32) (d : Driver) (f : Fields)
    (h : cycles (Driver.init, Fields.init) is = some (d, f)) (prev as : List Arrival) (hpo : ∀ a ∈ prev, a.Ok)
    (hao : ∀ a ∈ as, a.Ok) (hp : (is.map (·.1)).flatten = prev.flatMap Arrival.bytes)
    (ha : i.1 = as.flatMap Arrival.bytes) (hsz : i.1.length ≤ 1024) (hfull : FullSize as)
    (wn acc acc' : BitVec 16) (tow ns : BitVec 32) (fl fl' fl'' nsats nsats' : U8) (x y z : BitVec 64)
    (vx vy vz : BitVec 32)
    (ht : lastPayload 0x0100 as = some (timeMsg wn tow ns fl))
    (hpp : lastPayload 0x0200 as = some (posMsg tow x y z acc nsats fl'))
    (hv : lastPayload 0x0204 as = some (vecMsg tow vx vy vz acc' nsats' fl''))
    (hb : lastPayload 0x0202 as = none) (hsat : 4 ≤ nsats.toNat) (hage : (i.2 * 100).toNat ≤ 100000) :
    ∃ d' f', cycle (d, f) i = some (d', f') ∧ f'.mode = PiksiMode.spp ∧
      f'.time = { wn := wn, tow := tow, ns := ns, isSet := true } ∧ f'.pos = (x, y, z) ∧
      f'.vel = some (vx.toInt, vy.toInt, vz.toInt) ∧ f'.baseline = f.baseline := by
  obtain ⟨_, _, d', f', _, hc, _⟩ := cycle_ok d f (cycles_inv init_inv h).1 i.1 hsz i.2
  obtain ⟨s, evs, hd, hheard, _, hmd, hfx, _⟩ := step_ok h hc
  obtain ⟨hint, hlast⟩ := heard_arrivals h prev as hpo hao hp ha hd
  have e1 := hlast 0x0100 (by decide) 11 hfull.1
  have e2 := hlast 0x0200 (by decide) 32 hfull.2.1
  have e3 := hlast 0x0204 (by decide) 20 hfull.2.2.1
  have e4 := hlast 0x0202 (by decide) 20 hfull.2.2.2
  obtain ⟨n1, n2, n3, _⟩ := timeMsg_num wn tow ns fl
  obtain ⟨q0, q1, q2, q3, q4, _⟩ := posMsg_num tow x y z acc nsats fl'
  obtain ⟨r0, r1, r2, r3, r4, _⟩ := vecMsg_num tow vx vy vz acc' nsats' fl''
  have hne : i.1 ≠ [] := by
    intro h0
    rw [h0] at hd
    simp only [Sbp.drain, Option.some.injEq, Prod.mk.injEq] at hd
    rw [← hd.2, ht] at e1
    cases e1
  have hfix : Fix (heard i.1 evs) (i.2 * 100).toNat (timeMsg wn tow ns fl) (posMsg tow x y z acc nsats fl')
      (vecMsg tow vx vy vz acc' nsats' fl'') := by
    refine ⟨hne, fun ⟨e, he, hx⟩ => hint e he hx, e1.trans ht, e2.trans hpp, e3.trans hv, hage, by rw [q0, n2],
      by rw [r0, n2], by rw [q4]; exact hsat, fun b hb' => ?_, fun b hb' => ?_⟩
    · rw [show (heard i.1 evs).baseline = none from e4.trans hb] at hb'; cases hb'
    · rw [show (heard i.1 evs).baseline = none from e4.trans hb] at hb'; cases hb'
  have hs := hfx _ _ _ hfix
  refine ⟨d', f', hc, (hs.spp (e4.trans hb)).1, ?_, ?_, ?_, (hs.spp (e4.trans hb)).2⟩
  · rw [hs.time, n1, n2, n3]; simp
  · rw [hs.pos, q1, q2, q3]; simp
  · rw [hs.vel, snum_of r1, snum_of r2, snum_of r3]

/-- End to end with a baseline of the same epoch: the baseline is published too, and the mode is fixed or float as the
receiver says. -/
theorem C53_end_to_end_rtk (is : List (List U8 × BitVec 32)) (i : List U8 × BitVec 32) (d : Driver) (f : Fields)
    (h : cycles (Driver.init, Fields.init) is = some (d, f)) (prev as : List Arrival) (hpo : ∀ a ∈ prev, a.Ok)
    (hao : ∀ a ∈ as, a.Ok) (hp : (is.map (·.1)).flatten = prev.flatMap Arrival.bytes)
    (ha : i.1 = as.flatMap Arrival.bytes) (hsz : i.1.length ≤ 1024) (hfull : FullSize as)
    (wn acc acc' acc'' : BitVec 16) (tow ns : BitVec 32) (fl fl' fl'' nsats nsats' nsats'' : U8) (fixed : Bool)
    (x y z : BitVec 64) (vx vy vz bx bb bz : BitVec 32)
    (ht : lastPayload 0x0100 as = some (timeMsg wn tow ns fl))
    (hpp : lastPayload 0x0200 as = some (posMsg tow x y z acc nsats fl'))
    (hv : lastPayload 0x0204 as = some (vecMsg tow vx vy vz acc' nsats' fl''))
    (hb : lastPayload 0x0202 as = some (vecMsg tow bx bb bz acc'' nsats'' (if fixed then 1 else 0)))
    (hsat : 4 ≤ nsats.toNat) (hage : (i.2 * 100).toNat ≤ 100000) :
    ∃ d' f', cycle (d, f) i = some (d', f') ∧
      f'.mode = (if fixed then PiksiMode.fixedRtk else PiksiMode.floatRtk) ∧
      f'.time = { wn := wn, tow := tow, ns := ns, isSet := true } ∧ f'.pos = (x, y, z) ∧
      f'.vel = some (vx.toInt, vy.toInt, vz.toInt) ∧ f'.baseline = some (bx.toInt, bb.toInt, bz.toInt) := by
  obtain ⟨_, _, d', f', _, hc, _⟩ := cycle_ok d f (cycles_inv init_inv h).1 i.1 hsz i.2
  obtain ⟨s, evs, hd, hheard, _, hmd, hfx, _⟩ := step_ok h hc
  obtain ⟨hint, hlast⟩ := heard_arrivals h prev as hpo hao hp ha hd
  have e1 := hlast 0x0100 (by decide) 11 hfull.1
  have e2 := hlast 0x0200 (by decide) 32 hfull.2.1
  have e3 := hlast 0x0204 (by decide) 20 hfull.2.2.1
  have e4 : (heard i.1 evs).baseline = some _ := (hlast 0x0202 (by decide) 20 hfull.2.2.2).trans hb
  obtain ⟨n1, n2, n3, _⟩ := timeMsg_num wn tow ns fl
  obtain ⟨q0, q1, q2, q3, q4, _⟩ := posMsg_num tow x y z acc nsats fl'
  obtain ⟨r0, r1, r2, r3, r4, _⟩ := vecMsg_num tow vx vy vz acc' nsats' fl''
  obtain ⟨b0, b1, b2, b3, b4, _⟩ := vecMsg_num tow bx bb bz acc'' nsats'' (if fixed then 1 else 0)
  have hne : i.1 ≠ [] := by
    intro h0
    rw [h0] at hd
    simp only [Sbp.drain, Option.some.injEq, Prod.mk.injEq] at hd
    rw [← hd.2, ht] at e1
    cases e1
  have hfix : Fix (heard i.1 evs) (i.2 * 100).toNat (timeMsg wn tow ns fl) (posMsg tow x y z acc nsats fl')
      (vecMsg tow vx vy vz acc' nsats' fl'') := by
    refine ⟨hne, fun ⟨e, he, hx⟩ => hint e he hx, e1.trans ht, e2.trans hpp, e3.trans hv, hage, by rw [q0, n2],
      by rw [r0, n2], by rw [q4]; exact hsat, fun b hb' => ?_, fun b hb' => ?_⟩
    · rw [e4] at hb'; cases hb'; rw [b0, n2]
    · rw [e4] at hb'; cases hb'; rw [b4]; cases fixed <;> decide
  have hs := hfx _ _ _ hfix
  obtain ⟨hbl, hmode⟩ := hs.rtk _ e4
  refine ⟨d', f', hc, ?_, ?_, ?_, ?_, ?_⟩
  · rw [hmode, b4]; cases fixed <;> rfl
  · rw [hs.time, n1, n2, n3]; simp
  · rw [hs.pos, q1, q2, q3]; simp
  · rw [hs.vel, snum_of r1, snum_of r2, snum_of r3]
  · rw [hbl, snum_of b1, snum_of b2, snum_of b3]

/-! ### Age of the data -/

namespace Spec

/-- For each tick of the timer, whether the port received something since the tick before. `b` bytes wait in the port,
which holds 1023. -/
def rxTicks : Nat → List PortEv → List Bool
  | _, [] => []
  | b, .tick n :: es => (decide (0 < n) && decide (b < 1023)) :: rxTicks (min (b + n) 1023) es
  | _, .read :: es => rxTicks 0 es

/-- Something is received often enough not to be taken for a new packet: never after more than 100 ticks (10 ms). `d`
ticks have passed since the last reception. -/
def Unbroken : Nat → List Bool → Prop
  | _, [] => True
  | d, false :: r => Unbroken (d + 1) r
  | d, true :: r => d + 1 ≤ 100 ∧ Unbroken 0 r

/-- A packet began `g.length` ticks ago: first some history `a` that ends in a reception (or is empty), then `m` ticks of
silence, at least 100, then the packet, without a break. -/
structure Began (a : List Bool) (m : Nat) (g fs : List Bool) : Prop where
  shape : fs = a ++ List.replicate m false ++ true :: g
  before : a = [] ∨ ∃ a', a = a' ++ [true]
  silence : 100 ≤ m
  unbroken : Unbroken 0 g

end Spec

/-- The two counters of the timer alone. -/
def stepIc (c : BitVec 32 × BitVec 32) (g : Bool) : BitVec 32 × BitVec 32 :=
  let ic := c.1 + 1
  if g then
    let ic := if ic - c.2 > 100 then 0 else ic
    (ic, ic)
  else (ic, c.2)

theorem run_ic (es : List PortEv) (t : Ticker) (h : t.lastBytes = t.avail) (hcap : t.avail ≤ 1023) :
    ((t.run es).ic, (t.run es).lic) = (rxTicks t.avail es).foldl stepIc (t.ic, t.lic) ∧
      (t.run es).lastBytes = (t.run es).avail := by
  induction es generalizing t with
  | nil => exact ⟨rfl, h⟩
  | cons e es ih =>
    cases e with
    | tick n =>
      rw [Ticker.run, rxTicks, List.foldl_cons]
      by_cases hg : 0 < n ∧ t.avail < 1023
      · have hgt : min (t.avail + n) (bufferSize - 1) > t.lastBytes := by
          show min (t.avail + n) 1023 > _
          omega
        have e1 : t.tick n = { lastBytes := min (t.avail + n) 1023, avail := min (t.avail + n) 1023,
                               ic := (stepIc (t.ic, t.lic) true).1, lic := (stepIc (t.ic, t.lic) true).2 } := by
          unfold Ticker.tick stepIc
          dsimp only
          rw [if_pos hgt]
          rfl
        rw [e1, show (decide (0 < n) && decide (t.avail < 1023)) = true from by simp [hg]]
        exact ih _ rfl (Nat.min_le_right _ _)
      · have hgt : ¬ min (t.avail + n) (bufferSize - 1) > t.lastBytes := by
          show ¬ min (t.avail + n) 1023 > _
          omega
        have e1 : t.tick n = { t with avail := min (t.avail + n) 1023, ic := (stepIc (t.ic, t.lic) false).1,
                                      lic := (stepIc (t.ic, t.lic) false).2 } := by
          unfold Ticker.tick stepIc
          dsimp only
          rw [if_neg hgt]
          rfl
        rw [e1, show (decide (0 < n) && decide (t.avail < 1023)) = false from by
          simp only [Bool.and_eq_false_iff, decide_eq_false_iff_not]; omega]
        refine ih _ ?_ (Nat.min_le_right _ _)
        show t.lastBytes = min (t.avail + n) 1023
        have h2 : ¬ min (t.avail + n) 1023 > t.lastBytes := hgt
        clear hgt e1
        omega
    | read =>
      rw [Ticker.run, rxTicks]
      have : t.read.1 = { t with lastBytes := 0, avail := 0 } := by
        unfold Ticker.read
        dsimp only
        rw [h, Nat.sub_self]
      rw [this]
      exact ih _ rfl (Nat.zero_le _)

theorem one32 : (1 : BitVec 32).toNat = 1 := rfl

theorem hundred32 : (100 : BitVec 32).toNat = 100 := rfl

theorem stepIc_quiet (m : Nat) (c : BitVec 32 × BitVec 32) :
    (List.replicate m false).foldl stepIc c = (c.1 + BitVec.ofNat 32 m, c.2) := by
  induction m generalizing c with
  | zero => simp
  | succ m ih =>
    rw [List.replicate_succ, List.foldl_cons, ih]
    unfold stepIc
    simp only [Bool.false_eq_true, if_false, Prod.mk.injEq, and_true]
    apply BitVec.eq_of_toNat_eq
    simp only [BitVec.toNat_add, BitVec.toNat_ofNat, one32]
    omega

theorem diff_gt (x : BitVec 32) (d : Nat) (hd : d < 2 ^ 32) : (x + BitVec.ofNat 32 d - x > 100) ↔ 100 < d := by
  rw [show x + BitVec.ofNat 32 d - x = BitVec.ofNat 32 d from by
    rw [BitVec.add_comm, BitVec.add_sub_cancel], gt_iff_lt, BitVec.lt_def, BitVec.toNat_ofNat, Nat.mod_eq_of_lt hd]
  rfl

theorem stepIc_unbroken (g : List Bool) : ∀ (d : Nat) (c l : BitVec 32), c = l + BitVec.ofNat 32 d → Unbroken d g →
    (g.foldl stepIc (c, l)).1 = c + BitVec.ofNat 32 g.length := by
  induction g with
  | nil => intro d c l _ _; simp
  | cons b g ih =>
    intro d c l hc hu
    have e : ∀ x : BitVec 32, x + 1 + BitVec.ofNat 32 g.length = x + BitVec.ofNat 32 (g.length + 1) := by
      intro x
      apply BitVec.eq_of_toNat_eq
      simp only [BitVec.toNat_add, BitVec.toNat_ofNat, one32]
      omega
    have e2 : c + 1 = l + BitVec.ofNat 32 (d + 1) := by
      rw [hc]
      apply BitVec.eq_of_toNat_eq
      simp only [BitVec.toNat_add, BitVec.toNat_ofNat, one32]
      omega
    rw [List.foldl_cons]
    cases b with
    | false =>
      rw [show stepIc (c, l) false = (c + 1, l) from rfl, ih (d + 1) (c + 1) l e2 hu, e]
      rfl
    | true =>
      have : ¬ (c + 1 - l > 100) := by
        rw [e2, diff_gt l (d + 1) (by have := hu.1; omega)]
        have := hu.1
        omega
      rw [show stepIc (c, l) true = (c + 1, c + 1) from by unfold stepIc; simp only [this, if_true, if_false],
        ih 0 (c + 1) (c + 1) (by simp) hu.2, e]
      rfl

/-- The age published with the data is the time since the packet now in the port began, counted in ticks of 100
microseconds: for every history of the port, with reads at any time, provided the silence before the packet and the
packet itself are within what the counters hold (five days, 71 minutes). -/
theorem C83_age_partial (es : List PortEv) (a : List Bool) (m : Nat) (g : List Bool)
    (h : Began a m g (rxTicks 0 es)) (hm : m + 1 < 2 ^ 32) :
    (((Ticker.init.run es).read.2.2) * 100).toNat = (100 * g.length) % 2 ^ 32 := by
  have hr := (run_ic es Ticker.init rfl (Nat.zero_le _)).1
  have hic : (Ticker.init.run es).ic = ((rxTicks 0 es).foldl stepIc (0, 0)).1 := congrArg Prod.fst hr
  show ((Ticker.init.run es).ic * 100).toNat = _
  rw [hic, h.shape, List.foldl_append, List.foldl_append, stepIc_quiet, List.foldl_cons]
  have heq : (a.foldl stepIc (0, 0)).1 = (a.foldl stepIc (0, 0)).2 := by
    rcases h.before with rfl | ⟨a', rfl⟩
    · rfl
    · rw [List.foldl_append]; rfl
  generalize (a.foldl stepIc (0, 0)) = c at heq
  obtain ⟨c1, c2⟩ := c
  dsimp only at heq ⊢
  subst heq
  have hs : stepIc (c1 + BitVec.ofNat 32 m, c1) true = (0, 0) := by
    have e : c1 + BitVec.ofNat 32 m + 1 = c1 + BitVec.ofNat 32 (m + 1) := by
      apply BitVec.eq_of_toNat_eq
      simp only [BitVec.toNat_add, BitVec.toNat_ofNat, one32]
      omega
    have : c1 + BitVec.ofNat 32 m + 1 - c1 > 100 := by
      rw [e, diff_gt c1 (m + 1) hm]
      have := h.silence
      omega
    unfold stepIc
    simp only [this, if_true]
  rw [hs, stepIc_unbroken g 0 0 0 (by simp) h.unbroken]
  rw [show ∀ x : BitVec 32, 0 + x = x from BitVec.zero_add]
  simp only [BitVec.toNat_mul, BitVec.toNat_ofNat, hundred32]
  omega

/-- In the first packet after a start-up within 10 ms, the age counts from the start-up. -/
theorem C83_first (es : List PortEv) (h : Unbroken 0 (rxTicks 0 es)) :
    (((Ticker.init.run es).read.2.2) * 100).toNat = (100 * (rxTicks 0 es).length) % 2 ^ 32 := by
  have hr := (run_ic es Ticker.init rfl (Nat.zero_le _)).1
  have hic : (Ticker.init.run es).ic = ((rxTicks 0 es).foldl stepIc (0, 0)).1 := congrArg Prod.fst hr
  show ((Ticker.init.run es).ic * 100).toNat = _
  rw [hic, stepIc_unbroken _ 0 0 0 (by simp) h]
  rw [show ∀ x : BitVec 32, 0 + x = x from BitVec.zero_add]
  simp only [BitVec.toNat_mul, BitVec.toNat_ofNat, hundred32]
  omega

theorem unbroken_or (fs : List Bool) : ∀ d, Unbroken d fs ∨
    ∃ a m g, List.replicate d false ++ fs = a ++ List.replicate m false ++ true :: g ∧
      (a = [] ∨ ∃ a', a = a' ++ [true]) ∧ 100 ≤ m ∧ Unbroken 0 g := by
  induction fs with
  | nil => intro d; exact Or.inl trivial
  | cons b fs ih =>
    intro d
    cases b with
    | false =>
      rcases ih (d + 1) with h | ⟨a, m, g, h1, h2⟩
      · exact Or.inl h
      · refine Or.inr ⟨a, m, g, ?_, h2⟩
        rw [← h1, List.replicate_succ', List.append_assoc]
        rfl
    | true =>
      rcases ih 0 with h | ⟨a, m, g, h1, h2, h3⟩
      · by_cases hd : d + 1 ≤ 100
        · exact Or.inl ⟨hd, h⟩
        · exact Or.inr ⟨[], d, fs, rfl, Or.inl rfl, by omega, h⟩
      · refine Or.inr ⟨List.replicate d false ++ true :: a, m, g, ?_, Or.inr ?_, h3⟩
        · have h1' : fs = a ++ List.replicate m false ++ true :: g := by simpa using h1
          rw [h1']
          simp
        · rcases h2 with rfl | ⟨a', rfl⟩
          · exact ⟨List.replicate d false, rfl⟩
          · exact ⟨List.replicate d false ++ true :: a', by simp⟩

/-- Every history is covered: either a packet began after a silence, or there was none of 10 ms yet. -/
theorem C83_cases (fs : List Bool) : Unbroken 0 fs ∨ ∃ a m g, Began a m g fs := by
  rcases unbroken_or fs 0 with h | ⟨a, m, g, h1, h2, h3, h4⟩
  · exact Or.inl h
  · exact Or.inr ⟨a, m, g, by simpa using h1, h2, h3, h4⟩

/-- Data is dated correctly whenever its packet is not longer than 71 minutes. -/
theorem C83_young (es : List PortEv) (a : List Bool) (m : Nat) (g : List Bool)
    (h : Began a m g (rxTicks 0 es)) (hm : m + 1 < 2 ^ 32) (hg : g.length ≤ 42949672) :
    (((Ticker.init.run es).read.2.2) * 100).toNat = 100 * g.length := by
  rw [C83_age_partial es a m g h hm, Nat.mod_eq_of_lt (by omega)]

theorem received_stream (n : Nat) : rxTicks 0 ((List.replicate n [PortEv.tick 1, PortEv.read]).flatten) =
    List.replicate n true := by
  induction n with
  | zero => rfl
  | succ n ih =>
    rw [List.replicate_succ, List.flatten_cons, List.replicate_succ]
    show _ :: rxTicks 0 (List.replicate n _).flatten = _
    rw [ih]
    rfl

theorem received_quiet (n : Nat) (es : List PortEv) : rxTicks 0 (List.replicate n (PortEv.tick 0) ++ es) =
    List.replicate n false ++ rxTicks 0 es := by
  induction n with
  | zero => rfl
  | succ n ih =>
    rw [List.replicate_succ, List.cons_append, List.replicate_succ, List.cons_append]
    show _ :: rxTicks 0 _ = _
    rw [ih]
    rfl

theorem unbroken_stream (n : Nat) : Unbroken 0 (List.replicate n true) := by
  induction n with
  | zero => trivial
  | succ n ih => exact ⟨by omega, ih⟩

/-- A receiver that sends without a pause of 10 ms for 71 minutes and a half is dated as if it had just begun: after
42949673 ticks the age is 4 microseconds, and the data passes for young. -/
theorem C83_counterexample_wrap :
    ∃ es g, Began [] 100 g (rxTicks 0 es) ∧ g.length = 42949673 ∧
      (((Ticker.init.run es).read.2.2) * 100).toNat = 4 := by
  have hb : Began [] 100 (List.replicate 42949673 true) (rxTicks 0 (List.replicate 100 (PortEv.tick 0) ++
      (List.replicate 42949674 [PortEv.tick 1, PortEv.read]).flatten)) := by
    refine ⟨?_, Or.inl rfl, by omega, unbroken_stream _⟩
    rw [received_quiet, received_stream]
    rfl
  refine ⟨_, _, hb, List.length_replicate .., ?_⟩
  rw [C83_age_partial _ _ _ _ hb (by omega), List.length_replicate]
  decide

/-- 150 silent ticks, a packet of two bytes with a tick between them, 30 silent ticks: 3200 microseconds. -/
example : Began [] 150 (false :: true :: List.replicate 30 false)
    (rxTicks 0 (List.replicate 150 (.tick 0) ++ [.tick 1, .tick 0, .tick 1] ++ List.replicate 30 (.tick 0))) :=
  ⟨by decide +kernel, Or.inl rfl, by omega, by simp [Unbroken, List.replicate]⟩

/-! ### Units -/

namespace Spec
/-- Millimetres (per second), the receiver's unit, in metres (per second), the unit of the fields. -/
def metres (mm : BitVec 32) : ℚ := mm.toInt / 1000
end Spec

/-- The velocity field is in metres per second, but the receiver's millimetres per second are published as they are: a
thousand times too much. -/
theorem C84_counterexample_velocity (is : List (List U8 × BitVec 32)) (i : List U8 × BitVec 32) (d : Driver) (f : Fields)
    (h : cycles (Driver.init, Fields.init) is = some (d, f)) (prev as : List Arrival) (hpo : ∀ a ∈ prev, a.Ok)
    (hao : ∀ a ∈ as, a.Ok) (hp : (is.map (·.1)).flatten = prev.flatMap Arrival.bytes)
    (ha : i.1 = as.flatMap Arrival.bytes) (hsz : i.1.length ≤ 1024) (hfull : FullSize as)
    (wn acc acc' : BitVec 16) (tow ns : BitVec 32) (fl fl' fl'' nsats nsats' : U8) (x y z : BitVec 64)
    (vx vy vz : BitVec 32)
    (ht : lastPayload 0x0100 as = some (timeMsg wn tow ns fl))
    (hpp : lastPayload 0x0200 as = some (posMsg tow x y z acc nsats fl'))
    (hv : lastPayload 0x0204 as = some (vecMsg tow vx vy vz acc' nsats' fl''))
    (hb : lastPayload 0x0202 as = none) (hsat : 4 ≤ nsats.toNat) (hage : (i.2 * 100).toNat ≤ 100000) :
    ∃ d' f' px py pz, cycle (d, f) i = some (d', f') ∧ isFix f'.mode ∧ f'.vel = some (px, py, pz) ∧
      (px : ℚ) = 1000 * metres vx ∧ (py : ℚ) = 1000 * metres vy ∧ (pz : ℚ) = 1000 * metres vz := by
  obtain ⟨d', f', hc, hm, _, _, hv, _⟩ := C53_end_to_end_spp is i d f h prev as hpo hao hp ha hsz hfull wn acc acc' tow ns
    fl fl' fl'' nsats nsats' x y z vx vy vz ht hpp hv hb hsat hage
  have e : ∀ w : BitVec 32, (w.toInt : ℚ) = 1000 * metres w := by
    intro w
    unfold metres
    ring
  exact ⟨d', f', _, _, _, hc, Or.inl hm, hv, e vx, e vy, e vz⟩

/-- The same for the baseline. -/
theorem C84_counterexample_baseline (is : List (List U8 × BitVec 32)) (i : List U8 × BitVec 32) (d : Driver) (f : Fields)
    (h : cycles (Driver.init, Fields.init) is = some (d, f)) (prev as : List Arrival) (hpo : ∀ a ∈ prev, a.Ok)
    (hao : ∀ a ∈ as, a.Ok) (hp : (is.map (·.1)).flatten = prev.flatMap Arrival.bytes)
    (ha : i.1 = as.flatMap Arrival.bytes) (hsz : i.1.length ≤ 1024) (hfull : FullSize as)
    (wn acc acc' acc'' : BitVec 16) (tow ns : BitVec 32) (fl fl' fl'' nsats nsats' nsats'' : U8) (fixed : Bool)
    (x y z : BitVec 64) (vx vy vz bx bb bz : BitVec 32)
    (ht : lastPayload 0x0100 as = some (timeMsg wn tow ns fl))
    (hpp : lastPayload 0x0200 as = some (posMsg tow x y z acc nsats fl'))
    (hv : lastPayload 0x0204 as = some (vecMsg tow vx vy vz acc' nsats' fl''))
    (hb : lastPayload 0x0202 as = some (vecMsg tow bx bb bz acc'' nsats'' (if fixed then 1 else 0)))
    (hsat : 4 ≤ nsats.toNat) (hage : (i.2 * 100).toNat ≤ 100000) :
    ∃ d' f' px py pz, cycle (d, f) i = some (d', f') ∧ isFix f'.mode ∧ f'.baseline = some (px, py, pz) ∧
      (px : ℚ) = 1000 * metres bx ∧ (py : ℚ) = 1000 * metres bb ∧ (pz : ℚ) = 1000 * metres bz := by
  obtain ⟨d', f', hc, hm, _, _, _, hb⟩ := C53_end_to_end_rtk is i d f h prev as hpo hao hp ha hsz hfull wn acc acc' acc''
    tow ns fl fl' fl'' nsats nsats' nsats'' fixed x y z vx vy vz bx bb bz ht hpp hv hb hsat hage
  have e : ∀ w : BitVec 32, (w.toInt : ℚ) = 1000 * metres w := by
    intro w
    unfold metres
    ring
  refine ⟨d', f', _, _, _, hc, ?_, hb, e bx, e bb, e bz⟩
  rw [hm]
  cases fixed
  · exact Or.inr (Or.inr rfl)
  · exact Or.inr (Or.inl rfl)

/-! ### Concrete cases -/

/-- Three messages of one epoch. -/
def exArrivals : List Arrival :=
  [{ noise := [], ty := 0x0100, sender := 0x0123, payload := timeMsg 2000 360000 (-500) 1 },
   { noise := [0x11], ty := 0x0200, sender := 0x0123,
     payload := posMsg 360000 0x4159B1E000000000 0x4100000000000000 0xC110000000000000 0 9 1 },
   { noise := [], ty := 0x0204, sender := 0x0123, payload := vecMsg 360000 7600000 (-1000) 25 0 9 0 }]

/-- The same with a baseline. -/
def exRtk : List Arrival :=
  exArrivals ++ [{ noise := [], ty := 0x0202, sender := 0x0123, payload := vecMsg 360000 1200 (-3400) 56 0 9 1 }]

/-- They meet the hypotheses of `C53_end_to_end_spp` in the second of two cycles, the first without data. -/
example : (∀ a ∈ exArrivals, a.Ok) ∧ FullSize exArrivals ∧ (exArrivals.flatMap Arrival.bytes).length ≤ 1024 ∧
    lastPayload 0x0100 exArrivals = some (timeMsg 2000 360000 (-500) 1) ∧
    lastPayload 0x0202 exArrivals = none ∧ (cycles (Driver.init, Fields.init) [([], 900)]).isSome = true := by
  refine ⟨?_, ⟨?_, ?_, ?_, ?_⟩, ?_, ?_, ?_, ?_⟩
  · intro a ha
    unfold exArrivals at ha
    simp only [List.mem_cons, List.not_mem_nil, or_false] at ha
    rcases ha with rfl | rfl | rfl <;> exact ⟨by decide +kernel, by decide +kernel⟩
  all_goals decide +kernel

example : (cycles (Driver.init, Fields.init) [([], 900), (exArrivals.flatMap Arrival.bytes, 40)]).map
    (fun s => (s.2.mode, s.2.time, s.2.microdelta)) =
    some (PiksiMode.spp, { wn := 2000, tow := 360000, ns := -500, isSet := true }, 4000) := by
  decide +kernel

example : (cycles (Driver.init, Fields.init) [(exRtk.flatMap Arrival.bytes, 40)]).map
    (fun s => (s.2.mode, s.2.baseline)) = some (PiksiMode.fixedRtk, some (1200, -3400, 56)) := by
  decide +kernel

/-- A time message of six bytes, without nanoseconds and flags. -/
def exShort : List Arrival :=
  [{ noise := [], ty := 0x0100, sender := 0x0123, payload := leBytes 2 2000 ++ leBytes 4 360000 }] ++ exArrivals.tail

/-- A message shorter than its kind is taken at face value, although its checksum and type are right: the callbacks copy
the whole structure out of the receive buffer, so the missing members are what an earlier frame left there. Here the
cycle reports a fix whose nanoseconds come from an earlier, unrelated frame. -/
theorem C53_counterexample_short :
    (cycles (Driver.init, Fields.init)
      [(Arrival.bytes { noise := [], ty := 0x0401, sender := 1, payload := List.replicate 20 0x55 }, 10),
       (exShort.flatMap Arrival.bytes, 40)]).map (fun s => (s.2.mode, s.2.time)) =
    some (PiksiMode.spp, { wn := 2000, tow := 360000, ns := 0x55555555, isSet := true }) := by
  decide +kernel

end PAN
