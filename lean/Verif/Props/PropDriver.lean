import Verif.Model.PropDriver
/-!
Properties C40 (valve open time) and the driver part of C41 (accepted schedules are executed).
-/
namespace PAN
namespace Spec

/-- Valve `i` of tank 2 is open after `k` timer interrupts. -/
def openAfter (d : Driver) (i k : Nat) : Prop := ∃ v, (d.ticks k).tank2[i]? = some v ∧ v.isOpen = true

instance (d : Driver) (i k : Nat) : Decidable (openAfter d i k) :=
  match h : (d.ticks k).tank2[i]? with
  | none => isFalse fun ⟨v, hv, _⟩ => by rw [h] at hv; cases hv
  | some v =>
    if hb : v.isOpen = true then isTrue ⟨v, h, hb⟩
    else isFalse fun ⟨w, hw, hb'⟩ => by rw [h] at hw; cases hw; exact hb hb'

/-- The time, in ms, for which valve `i` was open in the `n` timer periods that follow the first `n` interrupts: every
period after an interrupt lasts 3 ms. -/
def openMs (d : Driver) (i : Nat) : Nat → Nat
  | 0 => 0
  | n + 1 => openMs d i n + if openAfter d i (n + 1) then 3 else 0

end Spec
open Spec

namespace Driver

/-! ### One valve -/

theorem tickValve_cases (did : Bool) (v : Valve) :
    (v.sched.toNat < 3 ∧ tickValve did v = (did, ⟨0, false⟩)) ∨
    (3 ≤ v.sched.toNat ∧ v.isOpen = true ∧ tickValve did v = (did, ⟨v.sched - 3, true⟩)) ∨
    (3 ≤ v.sched.toNat ∧ v.isOpen = false ∧ did = false ∧ tickValve did v = (true, ⟨v.sched - 3, true⟩)) ∨
    (3 ≤ v.sched.toNat ∧ v.isOpen = false ∧ did = true ∧ tickValve did v = (true, v)) := by
  obtain ⟨s, o⟩ := v
  unfold tickValve
  have hlt : (s < 3) ↔ s.toNat < 3 := by rw [BitVec.lt_def]; rfl
  by_cases h : s < 3
  · left
    refine ⟨hlt.mp h, ?_⟩
    simp only [h, if_true]
    by_cases h2 : o = true ∨ s ≠ 0
    · rw [if_pos h2]
    · rw [if_neg h2]
      have h3 : s = 0 := Classical.byContradiction fun hc => h2 (Or.inr hc)
      have h4 : o = false := by
        cases o
        · rfl
        · exact absurd (Or.inl rfl) h2
      rw [h3, h4]
  · right
    have h3 : 3 ≤ s.toNat := by
      rcases Nat.lt_or_ge s.toNat 3 with h5 | h5
      · exact absurd (hlt.mpr h5) h
      · exact h5
    simp only [h, if_false]
    cases o <;> cases did <;> simp [h3]

theorem sub3_toNat {s : U32} (h : 3 ≤ s.toNat) : (s - 3).toNat = s.toNat - 3 := by
  rw [BitVec.toNat_sub_of_le]
  · rfl
  · rw [BitVec.le_def]; exact h

/-! ### All valves -/

theorem tickValves_length (did : Bool) (vs : List Valve) : (tickValves did vs).length = vs.length := by
  induction vs generalizing did with
  | nil => rfl
  | cons v vs ih => simp [tickValves, ih]

/-- The flag seen by valve `i`. -/
def flagAt (did : Bool) : List Valve → Nat → Bool
  | _, 0 => did
  | [], _ => did
  | v :: vs, i + 1 => flagAt (tickValve did v).1 vs i

theorem tickValves_get (did : Bool) (vs : List Valve) (i : Nat) :
    (tickValves did vs)[i]? = (vs[i]?).map fun v => (tickValve (flagAt did vs i) v).2 := by
  induction vs generalizing did i with
  | nil => simp [tickValves]
  | cons v vs ih =>
    cases i with
    | zero => simp [tickValves, flagAt]
    | succ i => simp only [tickValves, List.getElem?_cons_succ, ih, flagAt]

theorem tick_get (d : Driver) (h : d.enabled = true) (i : Nat) :
    d.tick.tank2[i]? = (d.tank2[i]?).map fun v => (tickValve (flagAt false d.tank2 i) v).2 := by
  unfold tick
  rw [if_pos h]
  exact tickValves_get false d.tank2 i

theorem tick_enabled (d : Driver) : d.tick.enabled = d.enabled := by
  unfold tick; split <;> rfl

theorem tick_tank1 (d : Driver) : d.tick.tank1 = d.tank1 := by
  unfold tick; split <;> rfl

theorem tick_length (d : Driver) : d.tick.tank2.length = d.tank2.length := by
  unfold tick
  split
  · exact tickValves_length _ _
  · rfl

theorem ticks_enabled (d : Driver) (n : Nat) : (d.ticks n).enabled = d.enabled := by
  induction n with
  | zero => rfl
  | succ n ih => rw [ticks, tick_enabled, ih]

theorem ticks_tank1 (d : Driver) (n : Nat) : (d.ticks n).tank1 = d.tank1 := by
  induction n with
  | zero => rfl
  | succ n ih => rw [ticks, tick_tank1, ih]

theorem ticks_length (d : Driver) (n : Nat) : (d.ticks n).tank2.length = d.tank2.length := by
  induction n with
  | zero => rfl
  | succ n ih => rw [ticks, tick_length, ih]

theorem ticks_get_some (d : Driver) (n i : Nat) (hi : i < d.tank2.length) : ∃ v, (d.ticks n).tank2[i]? = some v :=
  ⟨_, List.getElem?_eq_getElem (by rw [ticks_length]; exact hi)⟩

theorem ticks_add (d : Driver) (a b : Nat) : d.ticks (a + b) = (d.ticks a).ticks b := by
  induction b with
  | zero => rfl
  | succ b ih => show (d.ticks (a + b)).tick = _; rw [ih]; rfl

/-- One interrupt on valve `i`. -/
theorem ticks_succ_get (d : Driver) (h : d.enabled = true) (n i : Nat) (v : Valve) (hv : (d.ticks n).tank2[i]? = some v) :
    (d.ticks (n + 1)).tank2[i]? = some (tickValve (flagAt false (d.ticks n).tank2 i) v).2 := by
  rw [ticks, tick_get _ (by rw [ticks_enabled]; exact h), hv]; rfl

/-! ### C40 -/

theorem openMs_add (d : Driver) (h : d.enabled = true) (i n : Nat) (v w : Valve) (hv : d.tank2[i]? = some v)
    (hw : (d.ticks n).tank2[i]? = some w) : openMs d i n + w.sched.toNat ≤ v.sched.toNat := by
  induction n generalizing w with
  | zero =>
    have : w = v := Option.some.inj (hw.symm.trans hv)
    subst this; simp [openMs]
  | succ n ih =>
    have hi : i < d.tank2.length := (List.getElem?_eq_some_iff.mp hv).1
    obtain ⟨u, hu⟩ := ticks_get_some d n i hi
    have h1 := ih u hu
    have h2 := ticks_succ_get d h n i u hu
    have hwe : w = (tickValve (flagAt false (d.ticks n).tank2 i) u).2 := Option.some.inj (hw.symm.trans h2)
    have hop : openAfter d i (n + 1) ↔ w.isOpen = true :=
      ⟨fun ⟨x, hx, hb⟩ => by rw [Option.some.inj (hw.symm.trans hx)]; exact hb, fun hb => ⟨w, hw, hb⟩⟩
    simp only [openMs]
    rcases tickValve_cases (flagAt false (d.ticks n).tank2 i) u with ⟨a, e⟩ | ⟨a, b, e⟩ | ⟨a, b, c, e⟩ | ⟨a, b, c, e⟩ <;>
      rw [e] at hwe <;> simp only [] at hwe
    · have : w.isOpen = false := by rw [hwe]
      rw [if_neg (by rw [hop, this]; exact Bool.false_ne_true)]
      have : w.sched.toNat = 0 := by rw [hwe]; rfl
      omega
    · have h3 : w.sched.toNat = u.sched.toNat - 3 := by rw [hwe]; exact sub3_toNat a
      rw [if_pos (by rw [hop, hwe])]
      omega
    · have h3 : w.sched.toNat = u.sched.toNat - 3 := by rw [hwe]; exact sub3_toNat a
      rw [if_pos (by rw [hop, hwe])]
      omega
    · rw [if_neg (by rw [hop, hwe, b]; exact Bool.false_ne_true), hwe]
      omega

/-- A valve that is closed with nothing scheduled stays so. -/
theorem done_stays (d : Driver) (h : d.enabled = true) (i n : Nat) (hd : (d.ticks n).tank2[i]? = some ⟨0, false⟩) :
    ∀ k, (d.ticks (n + k)).tank2[i]? = some ⟨0, false⟩ := by
  intro k
  induction k with
  | zero => exact hd
  | succ k ih =>
    have := ticks_succ_get d h (n + k) i _ ih
    rw [show n + (k + 1) = n + k + 1 by omega, this]
    rcases tickValve_cases (flagAt false (d.ticks (n + k)).tank2 i) ⟨0, false⟩ with ⟨a, e⟩ | ⟨a, b, e⟩ | ⟨a, b, c, e⟩ | ⟨a, b, c, e⟩
    · rw [e]
    · exact absurd a (by decide)
    · exact absurd a (by decide)
    · exact absurd a (by decide)

theorem open_then_closed (d : Driver) (h : d.enabled = true) (i n : Nat) (v : Valve)
    (hv : (d.ticks n).tank2[i]? = some v) (ho : v.isOpen = true) (w : Valve)
    (hw : (d.ticks (n + 1)).tank2[i]? = some w) (hc : w.isOpen = false) : w = ⟨0, false⟩ := by
  have h2 := ticks_succ_get d h n i v hv
  have hwe : w = (tickValve (flagAt false (d.ticks n).tank2 i) v).2 := Option.some.inj (hw.symm.trans h2)
  rcases tickValve_cases (flagAt false (d.ticks n).tank2 i) v with ⟨a, e⟩ | ⟨a, b, e⟩ | ⟨a, b, c, e⟩ | ⟨a, b, c, e⟩ <;>
    rw [e] at hwe <;> simp only [] at hwe
  · exact hwe
  · rw [hwe] at hc; cases hc
  · rw [ho] at b; cases b
  · rw [ho] at b; cases b

/-- Within one interrupt only one valve opens. -/
theorem flagAt_mono (vs : List Valve) : ∀ (i : Nat), flagAt true vs i = true := by
  induction vs with
  | nil => intro i; cases i <;> rfl
  | cons v vs ih =>
    intro i
    cases i with
    | zero => rfl
    | succ i =>
      simp only [flagAt]
      have : (tickValve true v).1 = true := by
        rcases tickValve_cases true v with ⟨a, e⟩ | ⟨a, b, e⟩ | ⟨a, b, c, e⟩ | ⟨a, b, c, e⟩ <;> rw [e]
      rw [this]; exact ih i

/-- If valve `i` opens, later valves see the flag. -/
theorem flag_after_open (vs : List Valve) : ∀ (did : Bool) (i j : Nat) (v : Valve), i < j → vs[i]? = some v →
    v.isOpen = false → (tickValve (flagAt did vs i) v).2.isOpen = true → flagAt did vs j = true := by
  induction vs with
  | nil => intro did i j v _ hv; simp at hv
  | cons a vs ih =>
    intro did i j v hij hv ho hop
    obtain ⟨j, rfl⟩ : ∃ j', j = j' + 1 := ⟨j - 1, by omega⟩
    cases i with
    | zero =>
      simp only [List.getElem?_cons_zero, Option.some.injEq] at hv
      subst hv
      simp only [flagAt] at hop ⊢
      have : (tickValve did a).1 = true := by
        rcases tickValve_cases did a with ⟨x, e⟩ | ⟨x, b, e⟩ | ⟨x, b, c, e⟩ | ⟨x, b, c, e⟩
        · rw [e] at hop; cases hop
        · rw [ho] at b; cases b
        · rw [e]
        · rw [e]
      rw [this]; exact flagAt_mono vs j
    | succ i =>
      simp only [flagAt] at hop ⊢
      exact ih _ i j v (by omega) hv ho hop

theorem not_open_if_flag {did : Bool} {v : Valve} (hd : did = true) (ho : v.isOpen = false) :
    (tickValve did v).2.isOpen = false := by
  rcases tickValve_cases did v with ⟨x, e⟩ | ⟨x, b, e⟩ | ⟨x, b, c, e⟩ | ⟨x, b, c, e⟩
  · rw [e]
  · rw [ho] at b; cases b
  · rw [hd] at c; cases c
  · rw [e]; exact ho

/-! Termination: a measure that drops at every interrupt. -/

/-- Interrupts a valve needs. -/
def need (v : Valve) : Nat := v.sched.toNat / 3 + if v.isOpen ∨ v.sched ≠ 0 then 1 else 0

/-- If some valve still needs interrupts, the first one that does makes progress: at any interrupt with the flag not
yet raised, the total need drops, unless nothing is left. -/
theorem tickValve_need (did : Bool) (v : Valve) : need (tickValve did v).2 ≤ need v ∧
    (did = false → 0 < need v → need (tickValve did v).2 < need v) ∧
    (need v = 0 → (tickValve did v).1 = did) := by
  obtain ⟨s, o⟩ := v
  unfold need
  rcases tickValve_cases did ⟨s, o⟩ with ⟨x, e⟩ | ⟨x, b, e⟩ | ⟨x, b, c, e⟩ | ⟨x, b, c, e⟩ <;> rw [e] <;>
    simp only [] at x ⊢
  · refine ⟨?_, ?_, ?_⟩
    · simp
    · intro _ h; simpa using h
    · intro _; trivial
  · have hs := sub3_toNat x
    have hb : o = true := b
    subst hb
    simp only [hs, true_or, if_true]
    refine ⟨by omega, fun _ _ => by omega, fun h => by omega⟩
  · have hs := sub3_toNat x
    have hz : s ≠ 0 := by rintro rfl; exact absurd x (by decide)
    simp only [hs, true_or, if_true, hz, ne_eq, not_false_eq_true, or_true]
    refine ⟨by omega, fun _ _ => by omega, fun h => by omega⟩
  · subst c
    exact ⟨Nat.le_refl _, (fun h => absurd h (by decide)), fun _ => rfl⟩

def needs (vs : List Valve) : Nat := (vs.map need).sum

theorem tickValves_needs_le (vs : List Valve) : ∀ did, needs (tickValves did vs) ≤ needs vs := by
  induction vs with
  | nil => intro did; exact Nat.le_refl _
  | cons v vs ih =>
    intro did
    have h1 := (tickValve_need did v).1
    have h2 := ih (tickValve did v).1
    simp only [tickValves, needs, List.map_cons, List.sum_cons] at h2 ⊢
    omega

theorem tickValves_needs_lt (vs : List Valve) : 0 < needs vs → needs (tickValves false vs) < needs vs := by
  induction vs with
  | nil => intro h; exact absurd h (by decide)
  | cons v vs ih =>
    intro h
    obtain ⟨h1, h2, h3⟩ := tickValve_need false v
    by_cases hv : need v = 0
    · have e := h3 hv
      simp only [needs, List.map_cons, List.sum_cons] at h
      have := ih (by unfold needs; omega)
      simp only [tickValves, e, needs, List.map_cons, List.sum_cons] at this ⊢
      omega
    · have h4 := h2 rfl (by omega)
      have h5 := tickValves_needs_le vs (tickValve false v).1
      simp only [tickValves, needs, List.map_cons, List.sum_cons] at h5 ⊢
      omega

theorem ticks_needs (d : Driver) (h : d.enabled = true) (n : Nat) : needs (d.ticks n).tank2 ≤ needs d.tank2 - n := by
  induction n with
  | zero => exact Nat.le_refl _
  | succ n ih =>
    have e : (d.ticks (n + 1)).tank2 = tickValves false (d.ticks n).tank2 := by
      rw [ticks]; unfold tick; rw [if_pos (by rw [ticks_enabled]; exact h)]
    rw [e]
    by_cases hz : 0 < needs (d.ticks n).tank2
    · have := tickValves_needs_lt _ hz
      omega
    · have := tickValves_needs_le (d.ticks n).tank2 false
      omega

theorem need_zero {v : Valve} (h : need v = 0) : v = ⟨0, false⟩ := by
  obtain ⟨s, o⟩ := v
  unfold need at h
  by_cases hc : o = true ∨ s ≠ 0
  · rw [if_pos hc] at h; omega
  · have h1 : o = false := by cases o; rfl; exact absurd (Or.inl rfl) hc
    have h2 : s = 0 := Classical.byContradiction fun hs => hc (Or.inr hs)
    rw [h1, h2]

theorem needs_zero (vs : List Valve) (h : needs vs = 0) : ∀ v ∈ vs, v = ⟨0, false⟩ := by
  induction vs with
  | nil => intro v hv; simp at hv
  | cons a vs ih =>
    simp only [needs, List.map_cons, List.sum_cons] at h
    intro v hv
    rcases List.mem_cons.mp hv with rfl | hv
    · exact need_zero (by omega)
    · exact ih (by unfold needs; omega) v hv

/-- A valve that has been scheduled and is not finished has accounted for all time so far. -/
theorem openMs_exact (d : Driver) (h : d.enabled = true) (i n : Nat) (v w : Valve) (hv : d.tank2[i]? = some v)
    (hc : v.isOpen = false) (hw : (d.ticks n).tank2[i]? = some w) :
    (w ≠ ⟨0, false⟩ → openMs d i n + w.sched.toNat = v.sched.toNat) ∧
    v.sched.toNat < openMs d i n + w.sched.toNat + 3 := by
  induction n generalizing w with
  | zero =>
    have : w = v := Option.some.inj (hw.symm.trans hv)
    subst this; simp [openMs]
  | succ n ih =>
    have hi : i < d.tank2.length := (List.getElem?_eq_some_iff.mp hv).1
    obtain ⟨u, hu⟩ := ticks_get_some d n i hi
    have h1 := ih u hu
    have h0 := openMs_add d h i n v u hv hu
    have h2 := ticks_succ_get d h n i u hu
    have hwe : w = (tickValve (flagAt false (d.ticks n).tank2 i) u).2 := Option.some.inj (hw.symm.trans h2)
    have hop : openAfter d i (n + 1) ↔ w.isOpen = true :=
      ⟨fun ⟨x, hx, hb⟩ => by rw [Option.some.inj (hw.symm.trans hx)]; exact hb, fun hb => ⟨w, hw, hb⟩⟩
    simp only [openMs]
    rcases tickValve_cases (flagAt false (d.ticks n).tank2 i) u with ⟨a, e⟩ | ⟨a, b, e⟩ | ⟨a, b, c, e⟩ | ⟨a, b, c, e⟩ <;>
      rw [e] at hwe <;> simp only [] at hwe
    · rw [if_neg (by rw [hop, hwe]; exact Bool.false_ne_true)]
      refine ⟨fun hne => absurd hwe hne, ?_⟩
      have hz : w.sched.toNat = 0 := by rw [hwe]; rfl
      by_cases hu0 : u = ⟨0, false⟩
      · have := h1.2
        rw [hu0] at this
        have hz2 : (⟨0, false⟩ : Valve).sched.toNat = 0 := rfl
        rw [hz2] at this
        omega
      · have := h1.1 hu0; omega
    · have h3 : w.sched.toNat = u.sched.toNat - 3 := by rw [hwe]; exact sub3_toNat a
      have hu0 : u ≠ ⟨0, false⟩ := by rintro rfl; exact absurd a (by decide)
      have := h1.1 hu0
      rw [if_pos (by rw [hop, hwe])]
      exact ⟨fun _ => by omega, by omega⟩
    · have h3 : w.sched.toNat = u.sched.toNat - 3 := by rw [hwe]; exact sub3_toNat a
      have hu0 : u ≠ ⟨0, false⟩ := by rintro rfl; exact absurd a (by decide)
      have := h1.1 hu0
      rw [if_pos (by rw [hop, hwe])]
      exact ⟨fun _ => by omega, by omega⟩
    · have hu0 : u ≠ ⟨0, false⟩ := by rintro rfl; exact absurd a (by decide)
      have := h1.1 hu0
      rw [if_neg (by rw [hop, hwe, b]; exact Bool.false_ne_true), hwe]
      exact ⟨fun _ => by omega, by omega⟩

end Driver
open Driver

/-- C40: while firing, whatever the number of timer interrupts, no valve is open for longer than its scheduled time. -/
theorem C40_open_time (d : Driver) (h : d.enabled = true) (i n : Nat) (v : Valve) (hv : d.tank2[i]? = some v) :
    openMs d i n ≤ v.sched.toNat := by
  obtain ⟨w, hw⟩ := ticks_get_some d n i (List.getElem?_eq_some_iff.mp hv).1
  have := openMs_add d h i n v w hv hw
  omega

/-- C40: a valve that was open and has closed does not open again. -/
theorem C40_never_reopens (d : Driver) (h : d.enabled = true) (i a b c : Nat) (hab : a < b) (hbc : b ≤ c)
    (ha : openAfter d i a) (hb : ¬ openAfter d i b) : ¬ openAfter d i c := by
  have key : ∀ m, openAfter d i (a + m) ∨ (d.ticks (a + m)).tank2[i]? = some ⟨0, false⟩ := by
    intro m
    induction m with
    | zero => exact Or.inl ha
    | succ m ih =>
      rcases ih with ⟨v, hv, ho⟩ | hd
      · obtain ⟨w, hw⟩ : ∃ w, (d.ticks (a + m + 1)).tank2[i]? = some w := ⟨_, ticks_succ_get d h (a + m) i v hv⟩
        cases hwo : w.isOpen with
        | true => exact Or.inl ⟨w, hw, hwo⟩
        | false => right; rw [show a + (m + 1) = a + m + 1 by omega, hw, open_then_closed d h i (a + m) v hv ho w hw hwo]
      · right; exact done_stays d h i (a + m) hd 1
  have hbd : (d.ticks b).tank2[i]? = some ⟨0, false⟩ := by
    rcases key (b - a) with h1 | h1
    · rw [show a + (b - a) = b by omega] at h1; exact absurd h1 hb
    · rw [show a + (b - a) = b by omega] at h1; exact h1
  have := done_stays d h i b hbd (c - b)
  rw [show b + (c - b) = c by omega] at this
  rintro ⟨w, hw, ho⟩
  rw [this] at hw
  cases hw
  cases ho

/-- C40: at most one valve opens per interrupt. -/
theorem C40_one_opens_per_tick (d : Driver) (i j n : Nat) (hi : ¬ openAfter d i n)
    (hi' : openAfter d i (n + 1)) (hj : ¬ openAfter d j n) (hj' : openAfter d j (n + 1)) : i = j := by
  cases he : d.enabled with
  | false =>
    have : (d.ticks (n + 1)) = d.ticks n := by
      rw [ticks]; unfold tick; rw [ticks_enabled, he]; rfl
    unfold openAfter at hi hi'
    rw [this] at hi'
    exact absurd hi' hi
  | true =>
    have main : ∀ i j, i < j → ¬ openAfter d i n → openAfter d i (n + 1) → ¬ openAfter d j n → openAfter d j (n + 1) → False := by
      intro i j hij hi ⟨v, hv, hvo⟩ hj ⟨w, hw, hwo⟩
      have hib : i < d.tank2.length := by rw [← ticks_length d (n + 1)]; exact (List.getElem?_eq_some_iff.mp hv).1
      have hjb : j < d.tank2.length := by rw [← ticks_length d (n + 1)]; exact (List.getElem?_eq_some_iff.mp hw).1
      obtain ⟨v0, hv0⟩ := ticks_get_some d n i hib
      obtain ⟨w0, hw0⟩ := ticks_get_some d n j hjb
      have h1 := ticks_succ_get d he n i v0 hv0
      have h2 := ticks_succ_get d he n j w0 hw0
      have hv0c : v0.isOpen = false := by
        cases hx : v0.isOpen
        · rfl
        · exact absurd ⟨v0, hv0, hx⟩ hi
      have hw0c : w0.isOpen = false := by
        cases hx : w0.isOpen
        · rfl
        · exact absurd ⟨w0, hw0, hx⟩ hj
      rw [Option.some.inj (hv.symm.trans h1)] at hvo
      rw [Option.some.inj (hw.symm.trans h2)] at hwo
      have hf := flag_after_open _ false i j v0 hij hv0 hv0c hvo
      rw [not_open_if_flag hf hw0c] at hwo
      cases hwo
    rcases Nat.lt_trichotomy i j with hlt | heq | hgt
    · exact absurd (main i j hlt hi hi' hj hj') id
    · exact heq
    · exact absurd (main j i hgt hj hj' hi hi') id

/-- C40: firing ends. With four valves scheduled for less than a second each (which is all that the driver accepts),
every valve is closed and the schedule is empty after at most 1336 interrupts (4.008 s), and stays so. -/
theorem C40_terminates (d : Driver) (h : d.enabled = true) (hl : d.tank2.length = 4)
    (hs : ∀ v ∈ d.tank2, v.sched.toNat < 1000) (n : Nat) (hn : 1336 ≤ n) :
    ∀ v ∈ (d.ticks n).tank2, v = ⟨0, false⟩ := by
  apply needs_zero
  have h1 := ticks_needs d h n
  have h2 : ∀ vs : List Valve, (∀ v ∈ vs, v.sched.toNat < 1000) → needs vs ≤ 334 * vs.length := by
    intro vs
    induction vs with
    | nil => intro _; exact Nat.le_refl _
    | cons v vs ih =>
      intro hv
      have h3 := ih fun x hx => hv x (List.mem_cons_of_mem _ hx)
      have h4 := hv v List.mem_cons_self
      have h5 : need v ≤ 334 := by unfold need; split <;> omega
      simp only [needs, List.map_cons, List.sum_cons, List.length_cons] at h3 ⊢
      omega
  have h3 := h2 d.tank2 hs
  rw [hl] at h3
  omega

/-- C40: while firing the schedule can be neither replaced nor cleared. -/
theorem C40_schedule_locked (d : Driver) (h : d.enabled = true) (ms : List U32) :
    d.setSchedule ms = (false, d) ∧ d.clearSchedule = d := by
  unfold setSchedule clearSchedule
  rw [if_pos h, if_pos h]
  exact ⟨rfl, rfl⟩

/-- Non-vacuity: 10 ms and 7 ms on two valves, all closed at the start. -/
example : let d : Driver := { tank1 := [false, false], tank2 := [⟨10, false⟩, ⟨7, false⟩, ⟨0, false⟩, ⟨0, false⟩], enabled := true }
    openMs d 0 10 = 9 ∧ openMs d 1 10 = 6 ∧ (d.ticks 10).tank2 = List.replicate 4 ⟨0, false⟩ ∧
    openAfter d 0 1 ∧ ¬ openAfter d 1 1 ∧ openAfter d 1 2 := by decide

/-! ### C41, driver part -/

/-- C41 (partial: durations below 1000 ms): when the timer is off, the driver accepts the schedule, and if it starts
firing with the valves closed each valve is eventually open for the accepted duration rounded down to a multiple of
3 ms; durations below 10 ms are dropped. -/
theorem C41_driver_executes_partial (d : Driver) (hd : d.enabled = false) (hl : d.tank2.length = 4)
    (hc : ∀ v ∈ d.tank2, v.isOpen = false) (ms : List U32) (hm : ms.length = 4)
    (hlt : ∀ x ∈ ms, x.toNat < 1000) :
    ∃ d1 d2, d.setSchedule ms = (true, d1) ∧ d1.startFiring = (true, d2) ∧
      ∀ i x, ms[i]? = some x → ∀ n, 1336 ≤ n →
        openMs d2 i n = if 10 ≤ x.toNat then x.toNat / 3 * 3 else 0 := by
  have hany : (ms.any fun x => decide (x ≥ 1000)) = false := by
    rw [List.any_eq_false]
    intro x hx
    have := hlt x hx
    simp only [decide_eq_true_eq, ge_iff_le, BitVec.le_def]
    have : (1000 : U32).toNat = 1000 := rfl
    omega
  let d1 : Driver := { d with tank2 := List.zipWith (fun v x => { v with sched := usable x }) d.tank2 ms }
  have he1 : d1.enabled = false := hd
  refine ⟨d1, { d1 with enabled := true }, ?_, ?_, ?_⟩
  · unfold setSchedule
    rw [if_neg (by rw [hd]; exact Bool.false_ne_true), if_neg (by rw [hany]; exact Bool.false_ne_true)]
  · unfold startFiring
    rw [he1]
    rfl
  · intro i x hx n hn
    have hi : i < 4 := by rw [← hm]; exact (List.getElem?_eq_some_iff.mp hx).1
    have hdv : d.tank2[i]? = some (d.tank2[i]'(by omega)) := List.getElem?_eq_getElem (by omega)
    have hv : ({ d1 with enabled := true } : Driver).tank2[i]? =
        some { d.tank2[i]'(by omega) with sched := usable x } := by
      show (List.zipWith _ d.tank2 ms)[i]? = _
      rw [List.getElem?_zipWith, hx, hdv]
    have hus : (usable x).toNat = if 10 ≤ x.toNat then x.toNat else 0 := by
      unfold usable
      by_cases hg : x ≥ 10
      · rw [if_pos hg, if_pos]
        rw [ge_iff_le, BitVec.le_def] at hg; exact hg
      · rw [if_neg hg, if_neg]
        · rfl
        · rw [ge_iff_le, BitVec.le_def] at hg; exact hg
    have hlen : ({ d1 with enabled := true } : Driver).tank2.length = 4 := by
      show (List.zipWith _ d.tank2 ms).length = 4
      rw [List.length_zipWith, hl, hm]; rfl
    have hterm := C40_terminates { d1 with enabled := true } rfl hlen (by
      intro v hv
      obtain ⟨k, hk, rfl⟩ := List.mem_iff_getElem.mp hv
      have hk4 : k < 4 := by rw [← hlen]; exact hk
      have e : ({ d1 with enabled := true } : Driver).tank2[k]'hk =
          { d.tank2[k]'(by omega) with sched := usable (ms[k]'(by omega)) } := by
        show (List.zipWith _ d.tank2 ms)[k]'_ = _
        rw [List.getElem_zipWith]
      rw [e]
      have := hlt _ (List.getElem_mem (by omega : k < ms.length))
      show (usable _).toNat < 1000
      unfold usable
      split
      · exact this
      · decide) n hn
    obtain ⟨w, hw⟩ := ticks_get_some { d1 with enabled := true } n i (by rw [hlen]; exact hi)
    have hw0 := hterm w (List.mem_of_getElem? hw)
    subst hw0
    have hclosed : ({ d.tank2[i]'(by omega) with sched := usable x } : Valve).isOpen = false :=
      hc (d.tank2[i]'(by omega)) (List.getElem_mem _)
    have h1 := openMs_exact { d1 with enabled := true } rfl i n _ _ hv hclosed hw
    have h2 := openMs_add { d1 with enabled := true } rfl i n _ _ hv hw
    have h3 : ∀ m, openMs { d1 with enabled := true } i m % 3 = 0 := by
      intro m
      induction m with
      | zero => rfl
      | succ m ih =>
        simp only [openMs]
        split <;> omega
    have h4 := h3 n
    have h5 := h1.2
    have hz : (⟨0, false⟩ : Valve).sched.toNat = 0 := rfl
    rw [hz] at h2 h5
    have hs : ({ d.tank2[i]'(by omega) with sched := usable x } : Valve).sched.toNat = (usable x).toNat := rfl
    rw [hs, hus] at h2 h5
    split at h2 <;> rename_i hx10
    · rw [if_pos hx10] at h5 ⊢; omega
    · rw [if_neg hx10] at h5 ⊢; omega

/-- Non-vacuity: the initial driver state and a mixed schedule. -/
example : init.enabled = false ∧ init.tank2.length = 4 ∧ (∀ v ∈ init.tank2, v.isOpen = false) ∧
    (init.setSchedule [999, 10, 9, 0]).1 = true ∧
    (init.setSchedule [999, 10, 9, 0]).2.tank2.map (·.sched) = [999, 10, 0, 0] := by decide

end PAN
