import Verif.Model.Prop
/-!
Lemmas about the propulsion driver operations and the propulsion controller.
-/
namespace PAN

namespace Driver

/-- No valve of either tank is open. -/
def AllClosed (d : Driver) : Prop := ∀ t j, d.isValveOpen t j = false

/-- Nothing is scheduled. -/
def SchedZero (d : Driver) : Prop := ∀ v ∈ d.tank2, v.sched = 0

/-- Number of valves of a tank. -/
def num (d : Driver) : TankId → Nat
  | .one => d.tank1.length
  | .two => d.tank2.length

theorem setValve_open (d : Driver) (t : TankId) (i : Nat) (b : Bool) (t' : TankId) (j : Nat) :
    (d.setValve t i b).isValveOpen t' j = if t = t' ∧ i = j ∧ i < d.num t then b else d.isValveOpen t' j := by
  cases t <;> cases t' <;> simp only [setValve, isValveOpen, num, reduceCtorEq, false_and, if_false, true_and]
  · rw [List.getD_eq_getElem?_getD, List.getElem?_set]
    by_cases h : i = j
    · subst h
      by_cases h2 : i < d.tank1.length
      · simp [h2]
      · simp [h2]
    · simp [h]
  · rw [List.getElem?_modify]
    by_cases h : i = j
    · subst h
      by_cases h2 : i < d.tank2.length
      · rw [List.getElem?_eq_getElem h2]; simp [h2]
      · rw [List.getElem?_eq_none (by omega)]; simp [h2]
    · simp [h]

theorem setValve_enabled (d : Driver) (t : TankId) (i : Nat) (b : Bool) : (d.setValve t i b).enabled = d.enabled := by
  cases t <;> rfl

theorem setValve_num (d : Driver) (t : TankId) (i : Nat) (b : Bool) (t' : TankId) : (d.setValve t i b).num t' = d.num t' := by
  cases t <;> cases t' <;> simp [setValve, num]

theorem mem_modify {α : Type} (f : α → α) : ∀ (l : List α) (i : Nat) (x : α), x ∈ l.modify i f → ∃ y ∈ l, x = y ∨ x = f y := by
  intro l
  induction l with
  | nil => intro i x h; simp at h
  | cons a l ih =>
    intro i x h
    cases i with
    | zero =>
      rcases List.mem_cons.mp (by simpa using h) with h | h
      · exact ⟨a, List.mem_cons_self, Or.inr h⟩
      · exact ⟨x, List.mem_cons_of_mem _ h, Or.inl rfl⟩
    | succ i =>
      rcases List.mem_cons.mp (by simpa using h) with h | h
      · exact ⟨a, List.mem_cons_self, Or.inl h⟩
      · obtain ⟨y, hy, e⟩ := ih i x h
        exact ⟨y, List.mem_cons_of_mem _ hy, e⟩

/-- A valve operation leaves the schedule as it is. -/
theorem setValve_sched (d : Driver) (t : TankId) (i : Nat) (b : Bool) (P : U32 → Prop)
    (h : ∀ v ∈ d.tank2, P v.sched) : ∀ v ∈ (d.setValve t i b).tank2, P v.sched := by
  cases t
  · exact h
  · intro v hv
    obtain ⟨y, hy, e⟩ := mem_modify _ _ _ _ hv
    rcases e with rfl | rfl
    · exact h _ hy
    · exact h y hy

theorem disable_open1 (d : Driver) (j : Nat) : d.disable.isValveOpen .one j = d.isValveOpen .one j := rfl

theorem disable_open2 (d : Driver) (j : Nat) : d.disable.isValveOpen .two j = false := by
  simp only [disable, isValveOpen, List.getElem?_map]
  cases d.tank2[j]? <;> rfl

theorem disable_enabled (d : Driver) : d.disable.enabled = false := rfl

theorem reset_enabled (d : Driver) : d.reset.enabled = false := rfl

theorem reset_tank1 (d : Driver) : d.reset.tank1 = d.tank1.map fun _ => false := rfl

theorem reset_tank2 (d : Driver) : d.reset.tank2 = d.tank2.map fun _ => ⟨0, false⟩ := by
  show ((d.tank2.map _).map _) = _
  rw [List.map_map]; rfl

theorem reset_closed (d : Driver) : d.reset.AllClosed := by
  intro t j
  cases t
  · simp only [isValveOpen, reset_tank1, List.getD_eq_getElem?_getD, List.getElem?_map]
    cases d.tank1[j]? <;> rfl
  · simp only [isValveOpen, reset_tank2, List.getElem?_map]
    cases d.tank2[j]? <;> rfl

theorem reset_zero (d : Driver) : d.reset.SchedZero := by
  intro v hv
  rw [reset_tank2] at hv
  obtain ⟨_, _, rfl⟩ := List.mem_map.mp hv
  rfl

theorem reset_num (d : Driver) (t : TankId) : d.reset.num t = d.num t := by
  cases t
  · simp [num, reset_tank1]
  · simp [num, reset_tank2]

theorem disable_sched (d : Driver) (P : U32 → Prop) (h : ∀ v ∈ d.tank2, P v.sched) : ∀ v ∈ d.disable.tank2, P v.sched := by
  intro v hv
  obtain ⟨w, hw, rfl⟩ := List.mem_map.mp hv
  exact h w hw

/-! Interrupts. -/

theorem tick_off {d : Driver} (h : d.enabled = false) : d.tick = d := by
  unfold tick; rw [h]; rfl

theorem ticks_off {d : Driver} (h : d.enabled = false) (n : Nat) : d.ticks n = d := by
  induction n with
  | zero => rfl
  | succ n ih => rw [ticks, ih, tick_off h]

theorem tick_open1 (d : Driver) (j : Nat) : d.tick.isValveOpen .one j = d.isValveOpen .one j := by
  unfold tick; split <;> rfl

theorem ticks_open1 (d : Driver) (n j : Nat) : (d.ticks n).isValveOpen .one j = d.isValveOpen .one j := by
  induction n with
  | zero => rfl
  | succ n ih => rw [ticks, tick_open1, ih]

theorem ticks_on (d : Driver) (n : Nat) : (d.ticks n).enabled = d.enabled := by
  induction n with
  | zero => rfl
  | succ n ih =>
    rw [ticks, ← ih]; unfold tick; split <;> rfl

theorem tickValve_lt (did : Bool) (v : Valve) (k : Nat) (h : v.sched.toNat < k) : (tickValve did v).2.sched.toNat < k := by
  obtain ⟨s, o⟩ := v
  have hlt : (s < 3) ↔ s.toNat < 3 := by rw [BitVec.lt_def]; rfl
  unfold tickValve
  simp only [] at h ⊢
  by_cases h3 : s < 3
  · simp only [h3, if_true]
    by_cases h4 : o = true ∨ s ≠ 0
    · rw [if_pos h4]; show (0 : Nat) < k; omega
    · rw [if_neg h4]; exact h
  · have h5 : 3 ≤ s.toNat := Nat.le_of_not_lt fun hc => h3 (hlt.mpr hc)
    have h6 : (s - 3).toNat = s.toNat - 3 := by
      rw [BitVec.toNat_sub_of_le]
      · rfl
      · rw [BitVec.le_def]; exact h5
    simp only [h3, if_false]
    cases o <;> cases did <;> simp only [Bool.false_eq_true, not_false_eq_true, and_self, not_true_eq_false, and_true, and_false,
      if_true, if_false] <;> first | exact h | (show (s - 3).toNat < k; omega)

theorem tickValves_lt (k : Nat) : ∀ (vs : List Valve) (did : Bool), (∀ v ∈ vs, v.sched.toNat < k) →
    ∀ v ∈ tickValves did vs, v.sched.toNat < k := by
  intro vs
  induction vs with
  | nil => intro did _ v hv; simp [tickValves] at hv
  | cons a vs ih =>
    intro did h v hv
    rcases List.mem_cons.mp hv with rfl | hv
    · exact tickValve_lt did a k (h a List.mem_cons_self)
    · exact ih _ (fun x hx => h x (List.mem_cons_of_mem _ hx)) v hv

theorem ticks_lt (d : Driver) (k n : Nat) (h : ∀ v ∈ d.tank2, v.sched.toNat < k) : ∀ v ∈ (d.ticks n).tank2, v.sched.toNat < k := by
  induction n with
  | zero => exact h
  | succ n ih =>
    rw [ticks]; unfold tick; split
    · exact tickValves_lt k _ _ ih
    · exact ih

theorem tickValves_len (vs : List Valve) : ∀ did, (tickValves did vs).length = vs.length := by
  induction vs with
  | nil => intro _; rfl
  | cons v vs ih => intro did; simp [tickValves, ih]

theorem ticks_num (d : Driver) (n : Nat) (t : TankId) : (d.ticks n).num t = d.num t := by
  induction n with
  | zero => rfl
  | succ n ih =>
    rw [ticks, ← ih]
    unfold tick; split
    · cases t
      · rfl
      · simp [num, tickValves_len]
    · rfl

/-! `set_schedule` and `start_firing`. -/

theorem setSchedule_open (d : Driver) (ms : List U32) (hl : d.tank2.length = ms.length) (t : TankId) (j : Nat) :
    (d.setSchedule ms).2.isValveOpen t j = d.isValveOpen t j := by
  unfold setSchedule
  split
  · rfl
  · split
    · rfl
    · cases t
      · rfl
      · simp only [isValveOpen, List.getElem?_zipWith]
        by_cases hj : j < d.tank2.length
        · rw [List.getElem?_eq_getElem hj, List.getElem?_eq_getElem (by omega : j < ms.length)]; rfl
        · rw [List.getElem?_eq_none (by omega), List.getElem?_eq_none (by omega)]

theorem setSchedule_enabled (d : Driver) (ms : List U32) : (d.setSchedule ms).2.enabled = d.enabled := by
  unfold setSchedule
  split
  · rfl
  · split <;> rfl

theorem setSchedule_num (d : Driver) (ms : List U32) (hl : d.tank2.length = ms.length) (t : TankId) :
    (d.setSchedule ms).2.num t = d.num t := by
  unfold setSchedule
  split
  · rfl
  · split
    · rfl
    · cases t
      · rfl
      · simp [num, hl]

theorem usable_lt {x : U32} {k : Nat} (hk : 0 < k) (h : x.toNat < k) : (usable x).toNat < k := by
  unfold usable; split
  · exact h
  · exact hk

theorem setSchedule_lt (d : Driver) (ms : List U32) (h : ∀ v ∈ d.tank2, v.sched.toNat < 1000) :
    ∀ v ∈ (d.setSchedule ms).2.tank2, v.sched.toNat < 1000 := by
  unfold setSchedule
  split
  · exact h
  · split
    · exact h
    · rename_i h1 h2
      intro v hv
      obtain ⟨k, hk, rfl⟩ := List.mem_iff_getElem.mp hv
      simp only [List.getElem_zipWith]
      apply usable_lt (by decide)
      have hk2 : k < ms.length := by
        simp only [List.length_zipWith] at hk; omega
      have h3 : ms[k] ∈ ms := List.getElem_mem _
      rcases Nat.lt_or_ge ms[k].toNat 1000 with h4 | h4
      · exact h4
      · exact absurd (List.any_eq_true.mpr ⟨ms[k], h3, by
          rw [decide_eq_true_eq, ge_iff_le, BitVec.le_def]; exact h4⟩) h2

theorem startFiring_open1 (d : Driver) (j : Nat) : d.startFiring.2.isValveOpen .one j = d.isValveOpen .one j := by
  unfold startFiring; split <;> rfl

theorem startFiring_num (d : Driver) (t : TankId) : d.startFiring.2.num t = d.num t := by
  unfold startFiring
  split
  · cases t <;> simp [num, disable]
  · rfl

theorem sum_zero_of_bounded (vs : List Valve) : ∀ (acc : U32), acc.toNat + 1000 * vs.length < 4294967296 →
    (∀ v ∈ vs, v.sched.toNat < 1000) → ((vs.map (·.sched)).foldl (· + ·) acc = (0 : U32)) →
    acc = 0 ∧ ∀ v ∈ vs, v.sched = 0 := by
  induction vs with
  | nil => intro acc _ _ h; exact ⟨h, by simp⟩
  | cons a vs ih =>
    intro acc hb hv h
    simp only [List.map_cons, List.foldl_cons] at h
    have ha := hv a List.mem_cons_self
    simp only [List.length_cons] at hb
    have hadd : (acc + a.sched).toNat = acc.toNat + a.sched.toNat := by
      rw [BitVec.toNat_add, Nat.mod_eq_of_lt]
      show _ < 4294967296
      omega
    obtain ⟨h1, h2⟩ := ih (acc + a.sched) (by rw [hadd]; omega) (fun v hv' => hv v (List.mem_cons_of_mem _ hv')) h
    have h3 : acc.toNat + a.sched.toNat = 0 := by rw [← hadd, h1]; rfl
    have h4 : acc = 0 := BitVec.eq_of_toNat_eq (by show acc.toNat = 0; omega)
    have h5 : a.sched = 0 := BitVec.eq_of_toNat_eq (by show a.sched.toNat = 0; omega)
    refine ⟨h4, fun v hv' => ?_⟩
    rcases List.mem_cons.mp hv' with rfl | hv'
    · exact h5
    · exact h2 v hv'

end Driver
end PAN
