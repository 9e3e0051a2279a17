import Verif.Model.EEPROM
import Batteries.Tactic.Init
/-!
Properties C17 (saved fields survive a reboot), C18 (unsaved fields keep their default) and C19 (a reboot never resumes
an active mission state).
-/
namespace PAN
namespace Spec
open EEPROM

/-- The values of a type. -/
def InType : Ty → Int → Prop
  | .uint, v => 0 ≤ v ∧ v < 4294967296
  | .sint, v => -2147483648 ≤ v ∧ v < 2147483648
  | .uchar, v => 0 ≤ v ∧ v < 256
  | .schar, v => -128 ≤ v ∧ v < 128
  | .bool, v => v = 0 ∨ v = 1

/-- Every field has a value of its type. -/
def WellTyped (fields : List SField) (vals : List Int) : Prop :=
  vals.length = fields.length ∧ ∀ (i : Nat) (f : SField) (v : Int), fields[i]? = some f → vals[i]? = some v → InType f.ty v

/-- The value that the cycle saves for field number `i` with save period `period`, if any. -/
def savedBy (period i : Nat) (c : Cycle) : Option Int :=
  if i < c.iters ∧ c.cc % period = 0 then c.vals[i]? else none

/-- The value of field `i` at its most recent save in a history (oldest cycle first), if it was ever saved. -/
def lastSave (period i : Nat) : List Cycle → Option Int
  | [] => none
  | c :: cs =>
    match lastSave period i cs with
    | some v => some v
    | none => savedBy period i c

/-- The value may be restored: the mission state only if it is docking (8) or docked (9). -/
def Restorable (f : SField) (v : Int) : Prop := f.name = "pan.state" → v = 8 ∨ v = 9

end Spec
open Spec EEPROM

namespace EEPROM

theorem restore_repr {t : Ty} {v : Int} (h : InType t v) (old : Int) : t.restore old (t.repr v) = v := by
  cases t
  · have h : 0 ≤ v ∧ v < 4294967296 := h
    show ((v % 2 ^ 32).toNat : Int) = v; omega
  · have h : -2147483648 ≤ v ∧ v < 2147483648 := h
    show (((v % 4294967296).toNat : Int) + 2147483648) % 4294967296 - 2147483648 = v; omega
  · have h : 0 ≤ v ∧ v < 256 := h
    show (if (v % 2 ^ 8).toNat > 255 then old else ((v % 2 ^ 8).toNat : Int)) = v
    rw [if_neg (by omega)]; omega
  · have h : -128 ≤ v ∧ v < 128 := h
    show (if (v % 2 ^ 8).toNat > 255 then old else (((v % 2 ^ 8).toNat : Int) + 2 ^ 7) % 2 ^ 8 - 2 ^ 7) = v
    rw [if_neg (by omega)]; omega
  · have h : v = 0 ∨ v = 1 := h
    show (if (v % 2 ^ 32).toNat > 1 then old else ((v % 2 ^ 32).toNat : Int)) = v
    rw [if_neg (by omega)]; omega

theorem repr_small {t : Ty} {v : Int} (h : InType t v) (x : Nat) (hx : x < 128) : t.repr v = x ↔ v = x := by
  cases t
  · have h : 0 ≤ v ∧ v < 4294967296 := h
    show (v % 2 ^ 32).toNat = x ↔ v = x; omega
  · have h : -2147483648 ≤ v ∧ v < 2147483648 := h
    show (v % 2 ^ 32).toNat = x ↔ v = x; omega
  · have h : 0 ≤ v ∧ v < 256 := h
    show (v % 2 ^ 8).toNat = x ↔ v = x; omega
  · have h : -128 ≤ v ∧ v < 128 := h
    show (v % 2 ^ 8).toNat = x ↔ v = x; omega
  · have h : v = 0 ∨ v = 1 := h
    show (v % 2 ^ 32).toNat = x ↔ v = x; omega

theorem setField_repr {f : SField} {v : Int} (h : InType f.ty v) (old : Int) :
    (Restorable f v → setField f old (f.ty.repr v) = v) ∧ (¬ Restorable f v → setField f old (f.ty.repr v) = old) := by
  have h8 := repr_small h 8 (by omega)
  have h9 := repr_small h 9 (by omega)
  unfold setField Restorable
  constructor
  · intro hr
    rw [if_neg, restore_repr h]
    rintro ⟨hn, a, b⟩
    rcases hr hn with hv | hv
    · exact a (h8.mpr hv)
    · exact b (h9.mpr hv)
  · intro hr
    rw [if_pos]
    refine ⟨Classical.byContradiction fun hn => hr fun e => absurd e hn, ?_, ?_⟩
    · exact fun hc => hr fun _ => Or.inl (h8.mp hc)
    · exact fun hc => hr fun _ => Or.inr (h9.mp hc)

/-! ### Desktop -/

theorem lookup_filter_self (m : Json) (n : String) : (m.filter fun e => decide (e.1 ≠ n)).lookup n = none := by
  induction m with
  | nil => rfl
  | cons a m ih =>
    obtain ⟨k, x⟩ := a
    by_cases h : k = n
    · rw [List.filter_cons_of_neg (by simpa using h)]; exact ih
    · have h2 : (n == k) = false := by simpa using fun e => h e.symm
      simp [h, List.lookup_cons, h2]
      simpa using ih

theorem lookup_filter_ne (m : Json) {n n' : String} (hne : n' ≠ n) :
    (m.filter fun e => decide (e.1 ≠ n)).lookup n' = m.lookup n' := by
  induction m with
  | nil => rfl
  | cons a m ih =>
    obtain ⟨k, x⟩ := a
    by_cases h : k = n
    · subst h
      have h2 : (n' == k) = false := by simpa using hne
      simp [List.lookup_cons, h2]
      simpa using ih
    · simp [h, List.lookup_cons]
      split
      · rfl
      · simpa using ih

/-- The memory cell of field `i` after one execution. -/
theorem json_saveLoop (fields : List SField) (hn : (fields.map (·.name)).Nodup) (cc : Nat) (vals : List Int)
    (hv : vals.length = fields.length) (m : Json) (i : Nat) (f : SField) (hf : fields[i]? = some f) : ∀ k,
    (saveLoop (Json.update fields vals) fields cc m k).lookup f.name =
      match savedBy f.period i ⟨cc, vals, k⟩ with
      | some v => some (f.ty.repr v)
      | none => m.lookup f.name := by
  have hi : i < fields.length := (List.getElem?_eq_some_iff.mp hf).1
  have hvi : vals[i]? = some (vals[i]'(by omega)) := List.getElem?_eq_getElem (by omega)
  intro k
  induction k with
  | zero => simp [saveLoop, savedBy]
  | succ k ih =>
    simp only [saveLoop]
    cases hk : fields[k]? with
    | none =>
      have hkl : fields.length ≤ k := List.getElem?_eq_none_iff.mp hk
      simp only []
      rw [ih]
      have : savedBy f.period i ⟨cc, vals, k + 1⟩ = savedBy f.period i ⟨cc, vals, k⟩ := by
        unfold savedBy; simp only []
        have h1 : i < k + 1 := by omega
        have h2 : i < k := by omega
        simp [h1, h2]
      rw [this]
    | some g =>
      simp only []
      have hkl : k < fields.length := (List.getElem?_eq_some_iff.mp hk).1
      by_cases hki : k = i
      · subst hki
        rw [hf] at hk
        have : f = g := Option.some.inj hk
        subst this
        unfold savedBy at ih ⊢
        simp only [Nat.lt_irrefl, false_and, if_false, Nat.lt_succ_self, true_and] at ih ⊢
        by_cases hc : cc % f.period = 0
        · rw [if_pos hc, if_pos hc]
          unfold Json.update
          rw [hf, hvi]
          simp
        · rw [if_neg hc, if_neg hc]; exact ih
      · have hne : f.name ≠ g.name := by
          intro e
          have h1 : (fields.map (·.name))[i]? = some f.name := by simp [hf]
          have h2 : (fields.map (·.name))[k]? = some g.name := by simp [hk]
          rw [e, ← h2] at h1
          exact hki (((List.getElem?_inj (by simpa using hi) hn).mp h1).symm)
        have : savedBy f.period i ⟨cc, vals, k + 1⟩ = savedBy f.period i ⟨cc, vals, k⟩ := by
          unfold savedBy; simp only []
          have : i < k + 1 ↔ i < k := by omega
          simp [this]
        rw [this, ← ih]
        split
        · unfold Json.update
          have hvk : vals[k]? = some (vals[k]'(by omega)) := List.getElem?_eq_getElem (by omega)
          rw [hk, hvk]
          simp only []
          have h2 : (f.name == g.name) = false := by simpa using hne
          rw [List.lookup_cons, h2]
          simp only []
          exact lookup_filter_ne _ hne
        · rfl

theorem json_run (fields : List SField) (hn : (fields.map (·.name)).Nodup) (i : Nat) (f : SField) (hf : fields[i]? = some f)
    (hist : List Cycle) : ∀ (m : Json), (∀ c ∈ hist, WellTyped fields c.vals) →
    (Json.run fields m hist).lookup f.name =
      match lastSave f.period i hist with
      | some v => some (f.ty.repr v)
      | none => m.lookup f.name := by
  induction hist with
  | nil => intro m _; rfl
  | cons c cs ih =>
    intro m h
    simp only [Json.run]
    rw [ih _ (fun x hx => h x (List.mem_cons_of_mem _ hx)), json_saveLoop fields hn c.cc c.vals (h c List.mem_cons_self).1 m i f hf]
    simp only [lastSave]
    cases lastSave f.period i cs <;> rfl

theorem lastSave_inType (fields : List SField) (i : Nat) (f : SField) (hf : fields[i]? = some f) (hist : List Cycle)
    (h : ∀ c ∈ hist, WellTyped fields c.vals) {v : Int} (hv : lastSave f.period i hist = some v) : InType f.ty v := by
  induction hist with
  | nil => cases hv
  | cons c cs ih =>
    simp only [lastSave] at hv
    cases hl : lastSave f.period i cs with
    | some w =>
      rw [hl] at hv
      exact ih (fun x hx => h x (List.mem_cons_of_mem _ hx)) (by rw [hl]; exact hv)
    | none =>
      rw [hl] at hv
      simp only [savedBy] at hv
      split at hv
      · exact (h c List.mem_cons_self).2 i f v hf hv
      · cases hv

/-! ### Teensy -/

theorem bytes_update_length (fields : List SField) (vals : List Int) (m : Bytes) (i : Nat) :
    (Bytes.update fields vals m i).length = m.length := by
  unfold Bytes.update
  split
  · split
    · simp
    · rfl
  · rfl

theorem bytes_saveLoop_length (fields : List SField) (cc : Nat) (vals : List Int) (m : Bytes) : ∀ k,
    (saveLoop (Bytes.update fields vals) fields cc m k).length = m.length := by
  intro k
  induction k with
  | zero => rfl
  | succ k ih =>
    simp only [saveLoop]
    split
    · exact ih
    · split
      · rw [bytes_update_length, ih]
      · exact ih

/-- The byte at address `5 * i` after one execution. -/
theorem bytes_saveLoop (fields : List SField) (cc : Nat) (vals : List Int) (hv : vals.length = fields.length) (m : Bytes)
    (hm : 5 * fields.length ≤ m.length) (i : Nat) (f : SField) (hf : fields[i]? = some f) : ∀ k,
    (saveLoop (Bytes.update fields vals) fields cc m k).read (5 * i) =
      match savedBy f.period i ⟨cc, vals, k⟩ with
      | some v => BitVec.ofNat 8 (f.ty.repr v)
      | none => m.read (5 * i) := by
  have hi : i < fields.length := (List.getElem?_eq_some_iff.mp hf).1
  have hvi : vals[i]? = some (vals[i]'(by omega)) := List.getElem?_eq_getElem (by omega)
  intro k
  induction k with
  | zero => simp [saveLoop, savedBy]
  | succ k ih =>
    simp only [saveLoop]
    cases hk : fields[k]? with
    | none =>
      have hkl : fields.length ≤ k := List.getElem?_eq_none_iff.mp hk
      simp only []
      rw [ih]
      have : savedBy f.period i ⟨cc, vals, k + 1⟩ = savedBy f.period i ⟨cc, vals, k⟩ := by
        unfold savedBy; simp only []
        have h1 : i < k + 1 := by omega
        have h2 : i < k := by omega
        simp [h1, h2]
      rw [this]
    | some g =>
      simp only []
      have hlen := bytes_saveLoop_length fields cc vals m k
      by_cases hki : k = i
      · subst hki
        rw [hf] at hk
        have : f = g := Option.some.inj hk
        subst this
        unfold savedBy at ih ⊢
        simp only [Nat.lt_irrefl, false_and, if_false, Nat.lt_succ_self, true_and] at ih ⊢
        by_cases hc : cc % f.period = 0
        · rw [if_pos hc, if_pos hc, hvi]
          generalize saveLoop (Bytes.update fields vals) fields cc m k = M at hlen
          unfold Bytes.update
          rw [hf, hvi]
          simp only []
          split
          · show List.getD _ _ _ = _
            rw [List.getD_eq_getElem?_getD, List.getElem?_set_self (by omega)]
            rfl
          · rename_i hne
            rw [ne_eq, Classical.not_not] at hne
            rw [← hne]
            simp
        · rw [if_neg hc, if_neg hc]; exact ih
      · have : savedBy f.period i ⟨cc, vals, k + 1⟩ = savedBy f.period i ⟨cc, vals, k⟩ := by
          unfold savedBy; simp only []
          have : i < k + 1 ↔ i < k := by omega
          simp [this]
        rw [this, ← ih]
        split
        · unfold Bytes.update
          split
          · split
            · unfold Bytes.read
              rw [List.getD_eq_getElem?_getD, List.getElem?_set_ne (by omega), ← List.getD_eq_getElem?_getD]
            · rfl
          · rfl
        · rfl

/-- Addresses that belong to no field are never written. -/
theorem bytes_saveLoop_other (fields : List SField) (cc : Nat) (vals : List Int) (m : Bytes) (a : Nat)
    (ha : ∀ i, i < fields.length → a ≠ 5 * i) : ∀ k,
    (saveLoop (Bytes.update fields vals) fields cc m k)[a]? = m[a]? := by
  intro k
  induction k with
  | zero => rfl
  | succ k ih =>
    simp only [saveLoop]
    cases hk : fields[k]? with
    | none => exact ih
    | some g =>
      simp only []
      have hkl : k < fields.length := (List.getElem?_eq_some_iff.mp hk).1
      split
      · unfold Bytes.update
        split
        · split
          · rw [List.getElem?_set_ne (fun e => ha k hkl e.symm)]; exact ih
          · exact ih
        · exact ih
      · exact ih

theorem bytes_run (fields : List SField) (i : Nat) (f : SField) (hf : fields[i]? = some f)
    (hist : List Cycle) : ∀ (m : Bytes), 5 * fields.length ≤ m.length → (∀ c ∈ hist, WellTyped fields c.vals) →
    (Bytes.run fields m hist).read (5 * i) =
      match lastSave f.period i hist with
      | some v => BitVec.ofNat 8 (f.ty.repr v)
      | none => m.read (5 * i) := by
  induction hist with
  | nil => intro m _ _; rfl
  | cons c cs ih =>
    intro m hm h
    simp only [Bytes.run]
    rw [ih _ (by rw [bytes_saveLoop_length]; exact hm) (fun x hx => h x (List.mem_cons_of_mem _ hx)),
      bytes_saveLoop fields c.cc c.vals (h c List.mem_cons_self).1 m hm i f hf]
    simp only [lastSave]
    cases lastSave f.period i cs <;> rfl

theorem bytes_run_length (fields : List SField) (hist : List Cycle) : ∀ (m : Bytes), (Bytes.run fields m hist).length = m.length := by
  induction hist with
  | nil => intro m; rfl
  | cons c cs ih => intro m; simp only [Bytes.run]; rw [ih, bytes_saveLoop_length]

theorem bytes_run_other (fields : List SField) (a : Nat) (ha : ∀ i, i < fields.length → a ≠ 5 * i) (hist : List Cycle) :
    ∀ (m : Bytes), (Bytes.run fields m hist)[a]? = m[a]? := by
  induction hist with
  | nil => intro m; rfl
  | cons c cs ih => intro m; simp only [Bytes.run]; rw [ih, bytes_saveLoop_other fields c.cc c.vals m a ha]

theorem readFrom_get (m : Bytes) (fields : List SField) : ∀ (j i : Nat), (m.readFrom j fields)[i]? =
    (fields[i]?).map fun f => setField f f.default (m.read (5 * (j + i))).toNat := by
  induction fields with
  | nil => intro j i; simp [Bytes.readFrom]
  | cons f fs ih =>
    intro j i
    simp only [Bytes.readFrom]
    cases i with
    | zero => simp
    | succ i =>
      rw [List.getElem?_cons_succ, ih (j + 1) i, List.getElem?_cons_succ]
      rw [show j + 1 + i = j + (i + 1) by omega]

/-- The erased Teensy EEPROM. -/
def erased : Bytes := List.replicate 4096 255

theorem erased_length : erased.length = 4096 := List.length_replicate

theorem erased_read (a : Nat) : erased.read a = 255 := by
  unfold Bytes.read erased
  rw [List.getD_eq_getElem?_getD]
  by_cases h : a < 4096
  · rw [List.getElem?_replicate_of_lt h]; rfl
  · rw [List.getElem?_eq_none (by rw [List.length_replicate]; omega)]; rfl

end EEPROM

/-! ### C17, C18 on the desktop build -/

/-- C17 and C18, desktop build: after any history of control cycles (over any number of boots, with resets anywhere),
a start-up gives every saved field the value of its most recent save, and a field never saved its default. A mission
state other than docking and docked is not restored. -/
theorem EEPROM.desktop_exact (fields : List SField) (hsize : fields.length ≤ 819) (hn : (fields.map (·.name)).Nodup)
    (hist : List Cycle) (ht : ∀ c ∈ hist, WellTyped fields c.vals) :
    ∃ vals, Json.init fields (Json.run fields [] hist) = some vals ∧ vals.length = fields.length ∧
      ∀ i f, fields[i]? = some f →
        (∀ v, lastSave f.period i hist = some v → Restorable f v → vals[i]? = some v) ∧
        (∀ v, lastSave f.period i hist = some v → ¬ Restorable f v → vals[i]? = some f.default) ∧
        (lastSave f.period i hist = none → vals[i]? = some f.default) := by
  have hval : Json.init fields (Json.run fields [] hist) =
      some (fields.map fun f => (Json.run fields [] hist).readField f f.default) := by
    unfold Json.init
    rw [if_pos (by omega)]
    split
    · rename_i h
      rw [List.eq_nil_of_length_eq_zero h]
      rfl
    · rfl
  refine ⟨_, hval, by simp, ?_⟩
  intro i f hf
  have hl := json_run fields hn i f hf hist [] ht
  have hg : (fields.map fun f => (Json.run fields [] hist).readField f f.default)[i]? =
      some ((Json.run fields [] hist).readField f f.default) := by simp [hf]
  rw [hg]
  unfold Json.readField
  refine ⟨fun v hv hr => ?_, fun v hv hr => ?_, fun hv => ?_⟩
  · rw [hl, hv]; simp only []
    rw [(setField_repr (lastSave_inType fields i f hf hist ht hv) _).1 hr]
  · rw [hl, hv]; simp only []
    rw [(setField_repr (lastSave_inType fields i f hf hist ht hv) _).2 hr]
  · rw [hl, hv]; simp

/-- C17, desktop build: the restored value of a saved field is the value of its most recent save. -/
theorem C17_desktop (fields : List SField) (hsize : fields.length ≤ 819) (hn : (fields.map (·.name)).Nodup)
    (hist : List Cycle) (ht : ∀ c ∈ hist, WellTyped fields c.vals) (i : Nat) (f : SField) (hf : fields[i]? = some f)
    (v : Int) (hv : lastSave f.period i hist = some v) (hr : Restorable f v) :
    ∃ vals, Json.init fields (Json.run fields [] hist) = some vals ∧ vals[i]? = some v := by
  obtain ⟨vals, e, -, h⟩ := EEPROM.desktop_exact fields hsize hn hist ht
  exact ⟨vals, e, (h i f hf).1 v hv hr⟩

/-- C18, desktop build: a field that was never saved, and a mission state other than docking and docked, starts from
its default. -/
theorem C18_desktop (fields : List SField) (hsize : fields.length ≤ 819) (hn : (fields.map (·.name)).Nodup)
    (hist : List Cycle) (ht : ∀ c ∈ hist, WellTyped fields c.vals) (i : Nat) (f : SField) (hf : fields[i]? = some f)
    (hv : lastSave f.period i hist = none ∨ ∃ v, lastSave f.period i hist = some v ∧ ¬ Restorable f v) :
    ∃ vals, Json.init fields (Json.run fields [] hist) = some vals ∧ vals[i]? = some f.default := by
  obtain ⟨vals, e, -, h⟩ := EEPROM.desktop_exact fields hsize hn hist ht
  refine ⟨vals, e, ?_⟩
  rcases hv with hv | ⟨v, hv, hr⟩
  · exact (h i f hf).2.2 hv
  · exact (h i f hf).2.1 v hv hr

/-! ### C17, C18 on the flight computer (Teensy) -/

/-- What a start-up on the flight computer does, exactly: if every saved byte is 255 the defaults are kept; otherwise
every field is set from its byte, the low byte of its last saved representation or 255 if it was never saved. -/
theorem C17_teensy_exact (fields : List SField) (hsize : fields.length ≤ 819)
    (hist : List Cycle) (ht : ∀ c ∈ hist, WellTyped fields c.vals) :
    ∃ vals, Bytes.init fields (Bytes.run fields erased hist) = some vals ∧ vals.length = fields.length ∧
      ∀ i f, fields[i]? = some f →
        let byte := fun (i : Nat) (f : SField) => match lastSave f.period i hist with | some v => f.ty.repr v % 256 | none => 255
        ((∀ j g, fields[j]? = some g → byte j g = 255) → vals[i]? = some f.default) ∧
        (¬ (∀ j g, fields[j]? = some g → byte j g = 255) → vals[i]? = some (setField f f.default (byte i f))) := by
  have hlen : 5 * fields.length ≤ erased.length := by rw [erased_length]; omega
  have hb : ∀ j g, fields[j]? = some g → ((Bytes.run fields erased hist).read (5 * j)).toNat =
      match lastSave g.period j hist with | some v => g.ty.repr v % 256 | none => 255 := by
    intro j g hg
    rw [bytes_run fields j g hg hist erased hlen ht]
    cases lastSave g.period j hist with
    | none => simp only []; rw [erased_read]; rfl
    | some v => simp only [BitVec.toNat_ofNat]
  have hempty : (Bytes.run fields erased hist).empty = true ↔
      ∀ j g, fields[j]? = some g → (match lastSave g.period j hist with | some v => g.ty.repr v % 256 | none => 255) = 255 := by
    have hl := bytes_run_length fields hist erased
    rw [erased_length] at hl
    unfold Bytes.empty
    rw [List.all_eq_true]
    constructor
    · intro h j g hg
      have hj : j < fields.length := (List.getElem?_eq_some_iff.mp hg).1
      rw [← hb j g hg]
      have := h _ (List.getElem_mem (by omega : 5 * j < (Bytes.run fields erased hist).length))
      unfold Bytes.read
      rw [List.getD_eq_getElem?_getD, List.getElem?_eq_getElem (by omega)]
      simp only [decide_eq_true_eq] at this
      simp only [Option.getD_some]
      rw [this]; rfl
    · intro h x hx
      obtain ⟨a, ha, rfl⟩ := List.mem_iff_getElem.mp hx
      simp only [decide_eq_true_eq]
      by_cases hc : ∃ i, i < fields.length ∧ a = 5 * i
      · obtain ⟨i, hi, rfl⟩ := hc
        have h1 := hb i fields[i] (List.getElem?_eq_getElem hi)
        rw [h i _ (List.getElem?_eq_getElem hi)] at h1
        unfold Bytes.read at h1
        rw [List.getD_eq_getElem?_getD, List.getElem?_eq_getElem ha, Option.getD_some] at h1
        apply BitVec.eq_of_toNat_eq
        rw [h1]; rfl
      · have h1 := bytes_run_other fields a (fun i hi e => hc ⟨i, hi, e⟩) hist erased
        rw [List.getElem?_eq_getElem ha] at h1
        unfold erased at h1
        rw [List.getElem?_replicate_of_lt (by omega)] at h1
        exact Option.some.inj h1
  unfold Bytes.init
  rw [if_pos (by omega)]
  by_cases he : (Bytes.run fields erased hist).empty = true
  · rw [if_pos he]
    refine ⟨_, rfl, by simp, ?_⟩
    intro i f hf
    exact ⟨fun _ => by simp [hf], fun hc => absurd (hempty.mp he) hc⟩
  · rw [if_neg he]
    refine ⟨_, rfl, ?_, ?_⟩
    · have h1 : ∀ (fs : List SField) j, ((Bytes.run fields erased hist).readFrom j fs).length = fs.length := by
        intro fs
        induction fs with
        | nil => intro j; rfl
        | cons f fs ih => intro j; simp [Bytes.readFrom, ih]
      exact h1 _ _
    · intro i f hf
      refine ⟨fun hc => absurd (hempty.mpr hc) he, fun _ => ?_⟩
      rw [readFrom_get, hf]
      simp only [Option.map_some]
      rw [Nat.zero_add, hb i f hf]

/-- C17 on the flight computer (partial: one-byte values, and some saved byte differs from 255). A field whose last
saved value fits in a byte comes back with that value. -/
theorem C17_teensy_partial (fields : List SField) (hsize : fields.length ≤ 819)
    (hist : List Cycle) (ht : ∀ c ∈ hist, WellTyped fields c.vals) (i : Nat) (f : SField) (hf : fields[i]? = some f)
    (v : Int) (hv : lastSave f.period i hist = some v) (hbyte : f.ty.repr v < 256) (hr : Restorable f v)
    (j : Nat) (g : SField) (hg : fields[j]? = some g) (w : Int) (hw : lastSave g.period j hist = some w)
    (hw255 : g.ty.repr w % 256 ≠ 255) :
    ∃ vals, Bytes.init fields (Bytes.run fields erased hist) = some vals ∧ vals[i]? = some v := by
  obtain ⟨vals, e, -, h⟩ := C17_teensy_exact fields hsize hist ht
  refine ⟨vals, e, ?_⟩
  have h2 := (h i f hf).2 (by
    intro hc
    have := hc j g hg
    simp only [hw] at this
    exact hw255 this)
  simp only [hv] at h2
  rw [Nat.mod_eq_of_lt hbyte, (setField_repr (lastSave_inType fields i f hf hist ht hv) _).1 hr] at h2
  exact h2

/-- A saved bool field, or a one-byte field, always has a representation below 256: the flight software saves no other
fields. -/
theorem C17_flight_fields_fit (f : SField) (hf : f ∈ flightFields) (v : Int) (hv : InType f.ty v) : f.ty.repr v < 256 := by
  have : f.ty = .uchar ∨ f.ty = .bool := by
    simp only [flightFields, List.mem_cons, List.not_mem_nil, or_false] at hf
    rcases hf with rfl | rfl | rfl | rfl | rfl | rfl | rfl <;> simp
  rcases this with h | h <;> rw [h] at hv ⊢
  · have hv : 0 ≤ v ∧ v < 256 := hv
    show (v % 2 ^ 8).toNat < 256; omega
  · have hv : v = 0 ∨ v = 1 := hv
    show (v % 2 ^ 32).toNat < 256; omega

/-- C17 on the flight computer for the fields of the flight software, after at least one complete cycle: every field
that was saved comes back with its last saved value, and the mission state too if it is docking or docked. -/
theorem C17_teensy_flight (hist : List Cycle) (ht : ∀ c ∈ hist, WellTyped flightFields c.vals)
    (hfull : ∃ c ∈ hist, 7 ≤ c.iters) (i : Nat) (f : SField) (hf : flightFields[i]? = some f)
    (v : Int) (hv : lastSave f.period i hist = some v) (hr : Restorable f v) :
    ∃ vals, Bytes.init flightFields (Bytes.run flightFields erased hist) = some vals ∧ vals[i]? = some v := by
  have key : ∀ (hist : List Cycle), (∀ c ∈ hist, WellTyped flightFields c.vals) → (∃ c ∈ hist, 7 ≤ c.iters) →
      ∃ w, lastSave 1 4 hist = some w := by
    intro hist
    induction hist with
    | nil => rintro _ ⟨c, hc, -⟩; simp at hc
    | cons a as ih =>
      intro ht h
      simp only [lastSave]
      cases hl : lastSave 1 4 as with
      | some w => exact ⟨w, rfl⟩
      | none =>
        obtain ⟨c, hc, hi⟩ := h
        rcases List.mem_cons.mp hc with rfl | hc
        · simp only [savedBy]
          rw [if_pos ⟨by omega, Nat.mod_one _⟩]
          have hlen := (ht c List.mem_cons_self).1
          have : flightFields.length = 7 := rfl
          exact ⟨_, List.getElem?_eq_getElem (by omega)⟩
        · obtain ⟨w, hw⟩ := ih (fun x hx => ht x (List.mem_cons_of_mem _ hx)) ⟨c, hc, hi⟩
          rw [hl] at hw; cases hw
  obtain ⟨w, hw⟩ := key hist ht hfull
  have hg : flightFields[4]? = some ⟨"pan.deployed", .bool, 1, 0⟩ := rfl
  have hwt := lastSave_inType flightFields 4 _ hg hist ht hw
  refine C17_teensy_partial flightFields (by decide) hist ht i f hf v hv
    (C17_flight_fields_fit f (List.mem_of_getElem? hf) v (lastSave_inType flightFields i f hf hist ht hv)) hr 4 _ hg w hw ?_
  have hwt : w = 0 ∨ w = 1 := hwt
  show (w % 2 ^ 32).toNat % 256 ≠ 255
  omega

/-- C17 does not hold on the flight computer for wider fields: an unsigned int 300 comes back as 44. -/
theorem C17_counterexample_teensy_wide :
    ∃ (fields : List SField) (hist : List Cycle), (∀ c ∈ hist, WellTyped fields c.vals) ∧
      lastSave 1 0 hist = some 300 ∧ Bytes.init fields (Bytes.run fields erased hist) = some [44] := by
  refine ⟨[⟨"n", .uint, 1, 0⟩], [⟨1, [300], 1⟩], ?_, rfl, ?_⟩
  · intro c hc
    rw [List.mem_singleton.mp hc]
    refine ⟨rfl, ?_⟩
    intro i f v hf hv
    cases i with
    | zero =>
      simp only [List.getElem?_cons_zero, Option.some.injEq] at hf hv
      subst hf hv
      exact ⟨by decide, by decide⟩
    | succ i => simp at hf
  · have ht : ∀ c ∈ [(⟨1, [300], 1⟩ : Cycle)], WellTyped [⟨"n", .uint, 1, 0⟩] c.vals := by
      intro c hc
      rw [List.mem_singleton.mp hc]
      refine ⟨rfl, ?_⟩
      intro i f v hf hv
      cases i with
      | zero =>
        simp only [List.getElem?_cons_zero, Option.some.injEq] at hf hv
        subst hf hv
        exact ⟨by decide, by decide⟩
      | succ i => simp at hf
    obtain ⟨vals, e, hl, h⟩ := C17_teensy_exact [⟨"n", .uint, 1, 0⟩] (by decide) [⟨1, [300], 1⟩] ht
    have h2 := (h 0 _ rfl).2 (by intro hc; exact absurd (hc 0 _ rfl) (by decide))
    rw [e]
    congr 1
    match vals, hl, h2 with
    | [a], _, h2 =>
      have : a = 44 := by
        simp only [List.getElem?_cons_zero, Option.some.injEq] at h2
        rw [h2]; decide
      rw [this]

/-- C18 on the flight computer (partial): fields that hold a truth value keep their default until their first save. -/
theorem C18_teensy_bool_partial (fields : List SField) (hsize : fields.length ≤ 819)
    (hist : List Cycle) (ht : ∀ c ∈ hist, WellTyped fields c.vals) (i : Nat) (f : SField) (hf : fields[i]? = some f)
    (hb : f.ty = .bool) (hv : lastSave f.period i hist = none) :
    ∃ vals, Bytes.init fields (Bytes.run fields erased hist) = some vals ∧ vals[i]? = some f.default := by
  obtain ⟨vals, e, -, h⟩ := C17_teensy_exact fields hsize hist ht
  refine ⟨vals, e, ?_⟩
  by_cases hc : ∀ j g, fields[j]? = some g → (match lastSave g.period j hist with | some v => g.ty.repr v % 256 | none => 255) = 255
  · exact (h i f hf).1 hc
  · have h2 := (h i f hf).2 hc
    rw [h2]
    simp only [hv]
    congr 1
    unfold setField
    rw [hb]
    split <;> rfl

/-- A first control cycle of the flight software, with all values at their start-up values, cut off after `iters`
iterations of the EEPROM loop. -/
def EEPROM.firstCycle (iters : Nat) : Cycle := ⟨1, [1, 0, 0, 0, 0, 0, 0], iters⟩

theorem EEPROM.firstCycle_typed (iters : Nat) : WellTyped flightFields (firstCycle iters).vals := by
  refine ⟨rfl, ?_⟩
  intro i f v hf hv
  have hi : i < 7 := by
    have := (List.getElem?_eq_some_iff.mp hf).1
    exact this
  have hv' : (firstCycle iters).vals = [1, 0, 0, 0, 0, 0, 0] := rfl
  rw [hv'] at hv
  rcases i with _ | _ | _ | _ | _ | _ | _ | i
  all_goals first
    | omega
    | (simp [flightFields] at hf hv
       subst hf
       subst hv
       simp [InType])

/-- C18 does not hold on the flight computer: after a reboot following the first cycle, the boot count and the kill
switch byte, which are saved every 100 cycles, are 255 instead of 0; the next boot count is 0. -/
theorem C18_counterexample_teensy_erased :
    lastSave 100 0 [firstCycle 7] = none ∧
    ∃ vals, Bytes.init flightFields (Bytes.run flightFields erased [firstCycle 7]) = some vals ∧
      vals[0]? = some 255 ∧ vals[6]? = some 255 ∧ (countBoot vals)[0]? = some 0 := by
  refine ⟨rfl, ?_⟩
  obtain ⟨vals, e, -, h⟩ := C17_teensy_exact flightFields (by decide) [firstCycle 7]
    (by intro c hc; rw [List.mem_singleton.mp hc]; exact firstCycle_typed 7)
  have hne : ¬ ∀ j g, flightFields[j]? = some g →
      (match lastSave g.period j [firstCycle 7] with | some v => g.ty.repr v % 256 | none => 255) = 255 := by
    intro hc; exact absurd (hc 1 _ rfl) (by decide)
  have h0 := (h 0 _ rfl).2 hne
  have h6 := (h 6 _ rfl).2 hne
  refine ⟨vals, e, by rw [h0]; decide, by rw [h6]; decide, ?_⟩
  have h0' : vals[0]? = some 255 := by rw [h0]; decide
  unfold countBoot
  rw [List.getElem?_modify_eq, h0']
  rfl

/-- C18 does not hold on the flight computer: if the first EEPROM save is interrupted by a reset after the first two
fields, the deployment wait counter comes back as 255, which is more than the threshold of 106: the wait is over. -/
theorem C18_counterexample_teensy_deployment :
    lastSave 1 5 [firstCycle 2] = none ∧
    ∃ vals, Bytes.init flightFields (Bytes.run flightFields erased [firstCycle 2]) = some vals ∧
      vals[5]? = some 255 := by
  refine ⟨rfl, ?_⟩
  obtain ⟨vals, e, -, h⟩ := C17_teensy_exact flightFields (by decide) [firstCycle 2]
    (by intro c hc; rw [List.mem_singleton.mp hc]; exact firstCycle_typed 2)
  have hne : ¬ ∀ j g, flightFields[j]? = some g →
      (match lastSave g.period j [firstCycle 2] with | some v => g.ty.repr v % 256 | none => 255) = 255 := by
    intro hc; exact absurd (hc 1 _ rfl) (by decide)
  have h5 := (h 5 _ rfl).2 hne
  exact ⟨vals, e, by rw [h5]; decide⟩

/-- Non-vacuity for the desktop theorem and the flight theorem: a history of two cycles on one boot, the second a save
of everything, with docked as mission state. -/
example : (flightFields.map (·.name)).Nodup ∧ WellTyped flightFields (firstCycle 7).vals ∧
    lastSave 100 0 [firstCycle 7, ⟨100, [1, 0, 1, 9, 1, 106, 0], 7⟩] = some 1 ∧
    Json.init flightFields (Json.run flightFields [] [firstCycle 7, ⟨100, [1, 0, 1, 9, 1, 106, 0], 7⟩]) =
      some [1, 0, 1, 9, 1, 106, 0] :=
  ⟨by decide, firstCycle_typed 7, by decide, by decide⟩

/-! ### C19 -/

/-- C19: whatever the persistent memory holds, after start-up the mission state is its initial value (startup), docking
or docked. On both builds, for any table of saved fields in which the mission state is a one-byte field. -/
theorem C19_no_active_state (fields : List SField) (i : Nat) (f : SField) (hf : fields[i]? = some f)
    (hname : f.name = "pan.state") (hty : f.ty = .uchar) :
    (∀ (m : Json) vals, Json.init fields m = some vals →
      vals[i]? = some f.default ∨ vals[i]? = some 8 ∨ vals[i]? = some 9) ∧
    (∀ (m : Bytes) vals, Bytes.init fields m = some vals →
      vals[i]? = some f.default ∨ vals[i]? = some 8 ∨ vals[i]? = some 9) := by
  have hset : ∀ x, setField f f.default x = f.default ∨ setField f f.default x = 8 ∨ setField f f.default x = 9 := by
    intro x
    unfold setField
    rw [hname, hty]
    by_cases h8 : x = 8
    · subst h8; right; left; rfl
    · by_cases h9 : x = 9
      · subst h9; right; right; rfl
      · left; rw [if_pos ⟨rfl, h8, h9⟩]
  constructor
  · intro m vals h
    unfold Json.init at h
    split at h
    · split at h
      · rw [← Option.some.inj h]; left; simp [hf]
      · rw [← Option.some.inj h]
        have hg : (fields.map fun f => m.readField f f.default)[i]? = some (m.readField f f.default) := by simp [hf]
        rw [hg]
        unfold Json.readField
        split
        · left; rfl
        · rename_i x _
          rcases hset x with e | e | e <;> rw [e] <;> simp
    · cases h
  · intro m vals h
    unfold Bytes.init at h
    split at h
    · split at h
      · rw [← Option.some.inj h]; left; simp [hf]
      · rw [← Option.some.inj h, readFrom_get, hf]
        simp only [Option.map_some]
        rcases hset (m.read (5 * (0 + i))).toNat with e | e | e <;> rw [e] <;> simp
    · cases h

/-- C19 for the flight software: the mission state after start-up is startup (0), docking (8) or docked (9). -/
theorem C19_flight (m : Bytes) (m' : Json) :
    (∃ vals, Bytes.init flightFields m = some vals ∧ (vals[3]? = some 0 ∨ vals[3]? = some 8 ∨ vals[3]? = some 9)) ∧
    (∃ vals, Json.init flightFields m' = some vals ∧ (vals[3]? = some 0 ∨ vals[3]? = some 8 ∨ vals[3]? = some 9)) := by
  have h := C19_no_active_state flightFields 3 ⟨"pan.state", .uchar, 1, 0⟩ rfl rfl rfl
  constructor
  · have hs : ∃ vals, Bytes.init flightFields m = some vals := by
      unfold Bytes.init
      rw [if_pos (by decide)]
      split <;> exact ⟨_, rfl⟩
    obtain ⟨vals, e⟩ := hs
    exact ⟨vals, e, h.2 m vals e⟩
  · have hs : ∃ vals, Json.init flightFields m' = some vals := by
      unfold Json.init
      rw [if_pos (by decide)]
      split <;> exact ⟨_, rfl⟩
    obtain ⟨vals, e⟩ := hs
    exact ⟨vals, e, h.1 m' vals e⟩

/-- Non-vacuity: the saved state docked is restored, detumble is not. -/
example : Bytes.init flightFields ((erased.set 15 9).set 5 0) = some [255, 0, 0, 9, 0, 255, 255] ∧
    Json.init flightFields [("pan.state", 1)] = some [0, 0, 0, 0, 0, 0, 0] := by
  constructor
  · have h1 : Bytes.empty ((erased.set 15 9).set 5 0) = false := by
      unfold Bytes.empty
      rw [List.all_eq_false]
      exact ⟨0, List.mem_set (by rw [List.length_set, erased_length]; omega) _, by decide⟩
    have hr : ∀ a, Bytes.read ((erased.set 15 9).set 5 0) a = if a = 5 then 0 else if a = 15 then 9 else 255 := by
      intro a
      unfold Bytes.read
      rw [List.getD_eq_getElem?_getD]
      by_cases h5 : a = 5
      · subst h5; rw [List.getElem?_set_self (by rw [List.length_set, erased_length]; omega)]; rfl
      · rw [List.getElem?_set_ne (Ne.symm h5), if_neg h5]
        by_cases h15 : a = 15
        · subst h15; rw [List.getElem?_set_self (by rw [erased_length]; omega)]; rfl
        · rw [List.getElem?_set_ne (Ne.symm h15), if_neg h15, ← List.getD_eq_getElem?_getD]
          exact erased_read a
    unfold Bytes.init
    rw [if_pos (by decide), h1]
    simp only [Bool.false_eq_true, if_false, flightFields, Bytes.readFrom, hr]
    decide
  · decide

end PAN
