import Verif.Model.Piksi
import Verif.Spec.Piksi
import Verif.Lemmas.SbpFrame
namespace PAN
open Spec
namespace Piksi

theorem rd_num (m : List U8) (off n : Nat) : rd m off n = num m off n := rfl

theorem bytesVal_lt : ∀ l : List U8, l.foldr (fun b acc => b.toNat + 256 * acc) 0 < 256 ^ l.length
  | [] => by simp
  | b :: l => by
    have h := bytesVal_lt l
    have hb := b.isLt
    rw [List.foldr_cons, List.length_cons, Nat.pow_succ]
    have h1 : 256 ^ l.length * 256 = 256 * 256 ^ l.length := Nat.mul_comm _ _
    rw [h1]
    generalize 256 ^ l.length = P at *
    generalize List.foldr (fun (b : U8) acc => b.toNat + 256 * acc) 0 l = v at *
    have : b.toNat < 256 := hb
    omega

theorem num_lt (m : List U8) (off n : Nat) : num m off n < 256 ^ n := by
  refine Nat.lt_of_lt_of_le (bytesVal_lt _) ?_
  apply Nat.pow_le_pow_right (by omega)
  exact List.length_take_le _ _

/-- The contents of the kept message of a type after some messages. -/
theorem fold_kept {α : Type} (get : Driver → α) (ms : List Sbp.Msg) (d : Driver) (ty : BitVec 16) (val : Sbp.Msg → α)
    (h1 : ∀ d m, m.ty = ty → get (Driver.callback d m) = val m) (h2 : ∀ d m, m.ty ≠ ty → get (Driver.callback d m) = get d) :
    get (ms.foldl Driver.callback d) = ((ms.filter (fun m => m.ty == ty)).getLast?.map val).getD (get d) := by
  induction ms generalizing d with
  | nil => rfl
  | cons m ms ih =>
    rw [List.foldl_cons, ih]
    by_cases hm : m.ty = ty
    · rw [h1 d m hm, List.filter_cons_of_pos (by simpa using hm)]
      cases hl : (ms.filter (fun m => m.ty == ty)) with
      | nil => rfl
      | cons a l => rw [List.getLast?_cons_cons]; cases h : (a :: l).getLast? with
        | none => simp at h
        | some x => rfl
    · rw [h2 d m hm, List.filter_cons_of_neg (by simpa using hm)]

theorem cb_sbp (ms : List Sbp.Msg) (d : Driver) : (ms.foldl Driver.callback d).sbp = d.sbp := by
  induction ms generalizing d with
  | nil => rfl
  | cons m ms ih => rw [List.foldl_cons, ih]; unfold Driver.callback; repeat' split
                    all_goals rfl

theorem cb_md (ms : List Sbp.Msg) (d : Driver) : (ms.foldl Driver.callback d).microdelta = d.microdelta := by
  induction ms generalizing d with
  | nil => rfl
  | cons m ms ih => rw [List.foldl_cons, ih]; unfold Driver.callback; repeat' split
                    all_goals rfl

/-- The messages of a cycle and what the driver keeps: `upd` tells whether there was one, `val` its bytes. -/
structure Kept (upd : Bool) (val : List U8) (o : Option (List U8)) : Prop where
  upd : upd = o.isSome
  val : ∀ x, o = some x → val = x

theorem kept_of {upd : Bool} {val : List U8} {ms : List Sbp.Msg} {ty : BitVec 16} {n : Nat} {dflt : List U8}
    (hu : upd = ((ms.filter (fun m => m.ty == ty)).getLast?.map (fun _ => true)).getD false)
    (hv : val = ((ms.filter (fun m => m.ty == ty)).getLast?.map (fun m => m.buf.take n)).getD dflt) :
    Kept upd val ((ms.filter (fun m => m.ty == ty)).getLast?.map (fun m => m.buf.take n)) := by
  cases h : (ms.filter (fun m => m.ty == ty)).getLast? with
  | none => rw [h] at hu hv; exact ⟨hu, fun x hx => by cases hx⟩
  | some m => rw [h] at hu hv; exact ⟨hu, fun x hx => by cases hx; exact hv⟩

/-- `read_all`, by what was heard. -/
theorem readAll_ok (d : Driver) (hi : Sbp.Inv d.sbp) (bytes : List U8) (hb : bytes.length ≤ 1024) (ic : BitVec 32) :
    ∃ s evs d' r, Sbp.drain callbacks (2 * bytes.length + 1) d.sbp bytes = some (s, evs) ∧
      d.readAll bytes ic = some (d', r) ∧ d'.sbp = s ∧ Sbp.Inv s ∧ d'.microdelta = (ic * 100).toNat ∧
      (¬ (heard bytes evs).any → r = 4) ∧ ((heard bytes evs).any → (heard bytes evs).damaged → r = 3) ∧
      ((heard bytes evs).any → ¬ (heard bytes evs).damaged →
        Kept d'.timeUpd d'.gpsTime (heard bytes evs).time ∧ Kept d'.posUpd d'.posEcef (heard bytes evs).pos ∧
        Kept d'.velUpd d'.velEcef (heard bytes evs).vel ∧ Kept d'.baselineUpd d'.baselineEcef (heard bytes evs).baseline ∧
        r = if d'.timeUpd && d'.posUpd && d'.velUpd then if d'.baselineUpd then 1 else 0 else 2) := by
  obtain ⟨s, evs, hd, his, _⟩ := Sbp.drain_ok callbacks (2 * bytes.length + 1) d.sbp bytes hi (by split <;> omega)
  refine ⟨s, evs, ?_⟩
  have hdm : (heard bytes evs).damaged ↔ evs.any (fun e => e.1 == .crcError) = true := by
    simp [heard]
  by_cases h0 : bytes.length = 0
  · have hb0 : bytes = [] := List.length_eq_zero_iff.mp h0
    subst hb0
    have hse : s = d.sbp ∧ evs = [] := by
      simp only [Sbp.drain, Option.some.injEq, Prod.mk.injEq] at hd
      exact ⟨hd.1.symm, hd.2.symm⟩
    refine ⟨{ d with microdelta := (ic * 100).toNat, timeUpd := false, posUpd := false, velUpd := false,
                      baselineUpd := false }, 4, hd, rfl, hse.1.symm, his, rfl, fun _ => rfl,
      fun h => absurd rfl h, fun h => absurd rfl h⟩
  · have hany : (heard bytes evs).any := fun h => h0 (by rw [h]; rfl)
    have hr : d.readAll bytes ic = (match Sbp.drain callbacks (2 * bytes.length + 1) d.sbp bytes with
      | none => none
      | some (s, evs) =>
        let d := (evs.filterMap (·.2)).foldl Driver.callback { d with
          microdelta := (ic * 100).toNat, timeUpd := false, posUpd := false, velUpd := false, baselineUpd := false
          sbp := s }
        let crcError := evs.any (fun e => e.1 == .crcError)
        if crcError then some (d, 3)
        else if d.timeUpd && d.posUpd && d.velUpd && !d.baselineUpd then some (d, 0)
        else if d.timeUpd && d.posUpd && d.velUpd && d.baselineUpd then some (d, 1)
        else some (d, 2)) := by
      unfold Driver.readAll
      rw [if_neg (show ¬ bytes.length > 1024 by omega)]
      exact if_neg h0
    rw [hd] at hr
    dsimp only at hr
    obtain ⟨d0, hd0⟩ : ∃ d0 : Driver, d0 = { d with
          microdelta := (ic * 100).toNat, timeUpd := false, posUpd := false, velUpd := false, baselineUpd := false
          sbp := s } := ⟨_, rfl⟩
    rw [← hd0] at hr
    obtain ⟨d', hd'⟩ : ∃ d' : Driver, d' = (evs.filterMap (·.2)).foldl Driver.callback d0 := ⟨_, rfl⟩
    rw [← hd'] at hr
    have hs : d'.sbp = s := by rw [hd', cb_sbp, hd0]
    have hmd : d'.microdelta = (ic * 100).toNat := by rw [hd', cb_md, hd0]
    have hk1 : Kept d'.timeUpd d'.gpsTime (heard bytes evs).time := by
      rw [hd']
      refine kept_of (dflt := d0.gpsTime) ?_ ?_
      · rw [fold_kept (·.timeUpd) _ _ 0x0100 (fun _ => true)]
        · rw [hd0]
        · intro d m h; simp [Driver.callback, h]
        · intro d m h; simp only [Driver.callback, if_neg h]; repeat' split
          all_goals rfl
      · rw [fold_kept (·.gpsTime) _ _ 0x0100 (fun m => m.buf.take 11)]
        · intro d m h; simp [Driver.callback, h]
        · intro d m h; simp only [Driver.callback, if_neg h]; repeat' split
          all_goals rfl
    have hk2 : Kept d'.posUpd d'.posEcef (heard bytes evs).pos := by
      rw [hd']
      refine kept_of (dflt := d0.posEcef) ?_ ?_
      · rw [fold_kept (·.posUpd) _ _ 0x0200 (fun _ => true)]
        · rw [hd0]
        · intro d m h; simp [Driver.callback, h]
        · intro d m h; simp only [Driver.callback, if_neg h]; repeat' split
          all_goals rfl
      · rw [fold_kept (·.posEcef) _ _ 0x0200 (fun m => m.buf.take 32)]
        · intro d m h; simp [Driver.callback, h]
        · intro d m h; simp only [Driver.callback, if_neg h]; repeat' split
          all_goals rfl
    have hk3 : Kept d'.velUpd d'.velEcef (heard bytes evs).vel := by
      rw [hd']
      refine kept_of (dflt := d0.velEcef) ?_ ?_
      · rw [fold_kept (·.velUpd) _ _ 0x0204 (fun _ => true)]
        · rw [hd0]
        · intro d m h; simp [Driver.callback, h]
        · intro d m h; simp only [Driver.callback, if_neg h]; repeat' split
          all_goals rfl
      · rw [fold_kept (·.velEcef) _ _ 0x0204 (fun m => m.buf.take 20)]
        · intro d m h; simp [Driver.callback, h]
        · intro d m h; simp only [Driver.callback, if_neg h]; repeat' split
          all_goals rfl
    have hk4 : Kept d'.baselineUpd d'.baselineEcef (heard bytes evs).baseline := by
      rw [hd']
      refine kept_of (dflt := d0.baselineEcef) ?_ ?_
      · rw [fold_kept (·.baselineUpd) _ _ 0x0202 (fun _ => true)]
        · rw [hd0]
        · intro d m h; simp [Driver.callback, h]
        · intro d m h; simp only [Driver.callback, if_neg h]; repeat' split
          all_goals rfl
      · rw [fold_kept (·.baselineEcef) _ _ 0x0202 (fun m => m.buf.take 20)]
        · intro d m h; simp [Driver.callback, h]
        · intro d m h; simp only [Driver.callback, if_neg h]; repeat' split
          all_goals rfl
    by_cases hc : evs.any (fun e => e.1 == .crcError) = true
    · rw [if_pos hc] at hr
      exact ⟨d', 3, hd, hr, hs, his, hmd, fun h => absurd hany h, fun _ _ => rfl, fun _ h => absurd (hdm.mpr hc) h⟩
    · rw [if_neg hc] at hr
      refine ⟨d', if d'.timeUpd && d'.posUpd && d'.velUpd then if d'.baselineUpd then 1 else 0 else 2, hd, ?_, hs, his,
        hmd, fun h => absurd hany h, fun _ h => absurd (hdm.mp h) hc, fun _ _ => ⟨hk1, hk2, hk3, hk4, rfl⟩⟩
      rw [hr]
      cases d'.timeUpd <;> cases d'.posUpd <;> cases d'.velUpd <;> cases d'.baselineUpd <;> rfl

end Piksi
end PAN
