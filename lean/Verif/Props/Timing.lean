import Verif.Model.Timing
import Mathlib.Tactic.Linarith
import Mathlib.Tactic.Ring
import Mathlib.Tactic.NormNum
import Mathlib.Tactic.Positivity
import Mathlib.Tactic.FieldSimp
import Mathlib.Algebra.Order.Field.Rat

/-!
C91: control tasks never start before their time, whatever they take and however often the 32-bit clock wraps; cycles are
at least 169.9 ms apart; what is counted as late is late; and when everything is prompt every task starts on time.
-/
namespace PAN
open Tim

namespace Spec
/-- The time set aside for each of the seventeen tasks, in microseconds (src/fsw/FCCode/MainControlLoop.cpp:126-142). -/
def slots : List Nat :=
  [6400, 15000, 28000, 16400, 10000, 5000, 1000, 1000, 1000, 1000, 10000, 5000, 28000, 1000, 30000, 10000, 16600]

/-- When the `k`th task of a cycle that begins at `t0` is to start: 1.1 ms after the beginning, plus the slots of the
tasks before it. -/
def planned (t0 k : Nat) : Nat := t0 + 1100 + (slots.take k).sum

/-- The tasks are prompt: they and the code between them leave `eps` microseconds to spare in each slot, and the readings
of the clock in the waiting loop, with the code around it, are at most `eps` apart. -/
def Prompt (eps before : Nat) (d : Delays) (slot : Nat) : Prop :=
  d.before ≤ before ∧ (∃ g, (∀ x ∈ d.polls, x ≤ g) ∧ d.setup + g + d.launch ≤ eps) ∧ eps + d.exec + before ≤ slot

/-- Each task's count of late arrivals goes up exactly when it is ready after its planned start: the first is ready
`before` after the beginning, the others `before` after the end of the task before. -/
def LatesCounted : Nat → Nat → List Delays → List Nat → List Nat → List Stats → List Stats → Prop
  | plan, t, d :: ds, u :: us, start :: starts, s :: ss, s' :: ss' =>
    (t + d.before < plan + 2 ^ 31 → s'.numLates = if plan < t + d.before then s.numLates + 1 else s.numLates) ∧
      LatesCounted (plan + u) (start + d.exec) ds us starts ss ss'
  | _, _, _, _, _, _, _ => True
end Spec
open Spec

theorem micros_sub {s t : Nat} (h : s ≤ t) : (micros t - micros s).toNat = (t - s) % 2 ^ 32 := by
  unfold micros
  rw [BitVec.toNat_sub, BitVec.toNat_ofNat, BitVec.toNat_ofNat]
  omega

theorem micros_add (t u : Nat) : micros t + BitVec.ofNat 32 u = micros (t + u) := by
  unfold micros
  rw [BitVec.ofNat_add]

theorem poll_ge {s wait t gs t'} (hs : s ≤ t) (h : poll (micros s) wait t gs = some t') :
    t ≤ t' ∧ s + wait.toNat ≤ t' := by
  induction gs generalizing t with
  | nil => cases h
  | cons g gs ih =>
    unfold poll at h
    split at h
    · have := ih (by omega) h
      exact ⟨by omega, this.2⟩
    · rename_i hn
      have ht := Option.some.inj h
      rw [BitVec.lt_def, micros_sub (by omega)] at hn
      have := Nat.mod_le (t + g - s) (2 ^ 32)
      omega

theorem poll_le {s wait t gs t' g} (hs : s ≤ t) (hg : ∀ x ∈ gs, x ≤ g) (h : poll (micros s) wait t gs = some t')
    (ht : t < s + wait.toNat ∨ t = s) (hgb : g < 2 ^ 31) (hwb : wait.toNat < 2 ^ 31) : t' ≤ s + wait.toNat + g := by
  induction gs generalizing t with
  | nil => cases h
  | cons x gs ih =>
    unfold poll at h
    have hx := hg x (by simp)
    split at h
    · rename_i hlt
      rw [BitVec.lt_def, micros_sub (by omega)] at hlt
      rw [Nat.mod_eq_of_lt (by omega)] at hlt
      exact ih (by omega) (fun y hy => hg y (by simp [hy])) h (by omega)
    · have := Option.some.inj h
      omega

theorem delta_early {e now : Nat} (h : now ≤ e) (hb : e - now < 2 ^ 31) : delta (micros e) now = ((e - now : Nat) : Int) := by
  unfold delta
  have := micros_sub h
  rw [Nat.mod_eq_of_lt (by omega)] at this
  rw [BitVec.toInt_eq_toNat_of_lt (by omega), this]

theorem delta_late {e now : Nat} (h : e < now) (hb : now - e ≤ 2 ^ 31) : delta (micros e) now = -((now - e : Nat) : Int) := by
  unfold delta
  have h1 := micros_sub h.le
  rw [Nat.mod_eq_of_lt (by omega)] at h1
  have h2 : (micros e - micros now).toNat = 2 ^ 32 - (now - e) := by
    rw [BitVec.toNat_sub] at h1 ⊢
    have a := (micros e).isLt
    have b := (micros now).isLt
    omega
  rw [BitVec.toInt_eq_toNat_cond, h2]
  split <;> omega

theorem wait_toNat {i : Int} (h : i < 2 ^ 31) : (BitVec.ofInt 32 (max i 0)).toNat = (max i 0).toNat := by
  rw [BitVec.toNat_ofInt]
  have : (0 : Int) ≤ max i 0 := le_max_right _ _
  have h2 : max i 0 < 2 ^ 31 := max_lt h (by norm_num)
  rw [Int.emod_eq_of_lt this (by norm_num at *; omega)]

theorem delta_lt (e : U32) (now : Nat) : delta e now < 2 ^ 31 := by
  unfold delta
  have := BitVec.toInt_lt (x := e - micros now)
  simpa using this

theorem runTask_spec {count d dur s c s' c' t} {e : Nat} (h : runTask count d dur s c = some (s', c', t))
    (he : c.endTime = micros e) (hb : e ≤ c.t + (2 ^ 31 - 1)) :
    e ≤ t ∧ c.t + d.before ≤ t ∧ c'.t = t + d.exec ∧ c'.endTime = micros (e + dur.toNat) ∧
      (c.t + d.before < e + 2 ^ 31 →
        s'.numLates = if e < c.t + d.before then s.numLates + 1 else s.numLates) := by
  unfold runTask at h
  dsimp only at h
  split at h
  · cases h
  · rename_i t3 hp
    have h' := Option.some.inj h
    have e1 := congrArg (·.1) h'
    have e2 := congrArg (·.2.1) h'
    have e3 := congrArg (·.2.2) h'
    dsimp only at e1 e2 e3
    obtain ⟨p1, p2⟩ := poll_ge (le_refl _) hp
    rw [wait_toNat (delta_lt _ _)] at p2
    have hend : c'.endTime = micros (e + dur.toNat) := by
      rw [← e2]
      show c.endTime + dur = _
      rw [he, ← micros_add, BitVec.ofNat_toNat, BitVec.setWidth_eq]
    refine ⟨?_, by omega, by rw [← e2, ← e3], hend, ?_⟩
    · by_cases hlate : e < c.t + d.before
      · omega
      · rw [he, delta_early (by omega) (by omega), max_eq_left (by omega)] at p2
        omega
    · intro hl
      rw [← e1]
      show (if delta c.endTime (c.t + d.before) < 0 then s.numLates + 1 else s.numLates) = _
      rw [he]
      by_cases hlate : e < c.t + d.before
      · rw [if_pos hlate, delta_late hlate (by omega), if_pos (by omega)]
      · rw [if_neg hlate, delta_early (by omega) (by omega), if_neg (by omega)]

theorem runTask_prompt {count d dur s c s' c' t} {e eps before : Nat} (h : runTask count d dur s c = some (s', c', t))
    (he : c.endTime = micros e) (hb : e ≤ c.t + (2 ^ 31 - 1)) (hc : c.t + before ≤ e) (hp : Prompt eps before d dur.toNat)
    (hdur : dur.toNat < 2 ^ 31) : t ≤ e + eps ∧ s'.numLates = s.numLates := by
  obtain ⟨_, _, _, _, hn⟩ := runTask_spec h he hb
  obtain ⟨q1, ⟨g, q2, q3⟩, q4⟩ := hp
  refine ⟨?_, by rw [hn (by omega), if_neg (by omega)]⟩
  unfold runTask at h
  dsimp only at h
  split at h
  · cases h
  · rename_i t3 hp
    have e3 := congrArg (·.2.2) (Option.some.inj h)
    dsimp only at e3
    have hw : (BitVec.ofInt 32 (max (delta c.endTime (c.t + d.before)) 0)).toNat = e - (c.t + d.before) := by
      rw [wait_toNat (delta_lt _ _), he, delta_early (by omega) (by omega)]
      omega
    have := poll_le (le_refl _) q2 hp (Or.inr rfl) (by omega) (by omega)
    rw [hw] at this
    omega

theorem runTasks_spec {count ds us ss c ss' c' ts} {e : Nat} (h : runTasks count ds us ss c = some (ss', c', ts))
    (he : c.endTime = micros e) (hb : e ≤ c.t + (2 ^ 31 - 1)) (hus : ∀ u ∈ us, u.toNat < 2 ^ 31) :
    ts.length = us.length ∧ (∀ k (hk : k < ts.length), e + ((us.map (·.toNat)).take k).sum ≤ ts[k] ∧ ts[k] ≤ c'.t) ∧
      c.t ≤ c'.t ∧ LatesCounted e c.t ds (us.map (·.toNat)) ts ss ss' := by
  induction us generalizing ds ss c ss' c' ts e with
  | nil =>
    unfold runTasks at h
    have h' : some (ss, c, []) = some (ss', c', ts) := by
      revert h
      cases ds <;> exact id
    have := Option.some.inj h'
    have e2 := congrArg (·.2.1) this
    have e3 := congrArg (·.2.2) this
    dsimp only at e2 e3
    subst e2 e3
    refine ⟨rfl, fun k hk => absurd hk (by simp), le_refl _, ?_⟩
    cases ds <;> simp [LatesCounted]
  | cons u us ih =>
    match ds, ss with
    | [], _ => exact absurd h (by unfold runTasks; simp)
    | _ :: _, [] => exact absurd h (by unfold runTasks; simp)
    | d :: ds, s :: ss =>
      unfold runTasks at h
      split at h
      · cases h
      · rename_i s1 c1 t h1
        split at h
        · cases h
        · rename_i ss1 c2 ts1 h2
          have h' := Option.some.inj h
          have e1 := congrArg (·.1) h'
          have e2 := congrArg (·.2.1) h'
          have e3 := congrArg (·.2.2) h'
          dsimp only at e1 e2 e3
          subst e1 e2 e3
          obtain ⟨a1, a2, a3, a4, a5⟩ := runTask_spec h1 he hb
          have hu := hus u (by simp)
          obtain ⟨b1, b2, b3, b4⟩ := ih h2 a4 (by omega) (fun v hv => hus v (by simp [hv]))
          refine ⟨by simp [b1], ?_, by omega, ?_⟩
          · intro k hk
            match k with
            | 0 =>
              simp only [List.take_zero, List.sum_nil, List.getElem_cons_zero]
              omega
            | k + 1 =>
              have := b2 k (by simpa using hk)
              simp only [List.map_cons, List.take_succ_cons, List.sum_cons, List.getElem_cons_succ]
              omega
          · simp only [List.map_cons]
            unfold LatesCounted
            refine ⟨a5, ?_⟩
            rw [← a3]
            exact b4

theorem runTasks_prompt {count ds us ss c ss' c' ts} {e eps before : Nat}
    (h : runTasks count ds us ss c = some (ss', c', ts)) (he : c.endTime = micros e) (hb : e ≤ c.t + (2 ^ 31 - 1))
    (hc : c.t + before ≤ e) (hus : ∀ u ∈ us, u.toNat < 2 ^ 31) (hss : ss.length = us.length)
    (hp : ∀ k (h1 : k < ds.length) (h2 : k < us.length), Prompt eps before ds[k] us[k].toNat) :
    (∀ k (hk : k < ts.length), ts[k] ≤ e + ((us.map (·.toNat)).take k).sum + eps) ∧
      (us ≠ [] → c'.t + before ≤ e + (us.map (·.toNat)).sum) ∧ ss'.map (·.numLates) = ss.map (·.numLates) := by
  induction us generalizing ds ss c ss' c' ts e with
  | nil =>
    unfold runTasks at h
    have h' : some (ss, c, []) = some (ss', c', ts) := by
      revert h
      cases ds <;> exact id
    have := Option.some.inj h'
    have e1 := congrArg (·.1) this
    have e3 := congrArg (·.2.2) this
    dsimp only at e1 e3
    subst e1 e3
    exact ⟨fun k hk => absurd hk (by simp), fun h => absurd rfl h, rfl⟩
  | cons u us ih =>
    match ds, ss with
    | [], _ => exact absurd h (by unfold runTasks; simp)
    | _ :: _, [] => exact absurd h (by unfold runTasks; simp)
    | d :: ds, s :: ss =>
      unfold runTasks at h
      split at h
      · cases h
      · rename_i s1 c1 t h1
        split at h
        · cases h
        · rename_i ss1 c2 ts1 h2
          have h' := Option.some.inj h
          have e1 := congrArg (·.1) h'
          have e2 := congrArg (·.2.1) h'
          have e3 := congrArg (·.2.2) h'
          dsimp only at e1 e2 e3
          subst e1 e2 e3
          obtain ⟨a1, a2, a3, a4, a5⟩ := runTask_spec h1 he hb
          have hu := hus u (by simp)
          have hp0 : Prompt eps before d u.toNat := hp 0 (by simp) (by simp)
          obtain ⟨p1, p2⟩ := runTask_prompt h1 he hb hc hp0 hu
          have hroom : c1.t + before ≤ e + u.toNat := by have := hp0.2.2; omega
          obtain ⟨b1, b2, b3⟩ := ih h2 a4 (by omega) hroom (fun v hv => hus v (by simp [hv])) (by simpa using hss)
            (fun k g1 g2 => hp (k + 1) (by simpa using g1) (by simpa using g2))
          refine ⟨?_, ?_, ?_⟩
          · intro k hk
            match k with
            | 0 =>
              simp only [List.take_zero, List.sum_nil, List.getElem_cons_zero]
              omega
            | k + 1 =>
              have := b1 k (by simpa using hk)
              simp only [List.map_cons, List.take_succ_cons, List.sum_cons, List.getElem_cons_succ]
              omega
          · intro _
            simp only [List.map_cons, List.sum_cons]
            by_cases hnil : us = []
            · subst hnil
              have : c2 = c1 := by
                unfold runTasks at h2
                have h3 : some (ss, c1, []) = some (ss1, c2, ts1) := by
                  revert h2
                  cases ds <;> exact id
                exact (congrArg (·.2.1) (Option.some.inj h3)).symm
              rw [this]
              simpa using hroom
            · have := b2 hnil
              omega
          · simp only [List.map_cons, p2, b3]

theorem slots_eq : durations.map (·.toNat) = slots := rfl

theorem slots_small : ∀ u ∈ durations, u.toNat < 2 ^ 31 := by
  have h : ∀ n ∈ slots, n ≤ 30000 := by decide
  intro u hu
  have := h u.toNat (slots_eq ▸ List.mem_map_of_mem hu)
  omega

theorem cycle_some {l i l' t0 ts} (h : Loop.cycle l i = some (l', t0, ts)) : t0 = l.clock.t + i.pre ∧
    ∃ c, runTasks (l.count + 1) i.tasks durations l.stats { t := t0, endTime := micros (t0 + 1100) } =
      some (l'.stats, c, ts) ∧ l'.clock.t = c.t + i.post ∧ l'.count = l.count + 1 ∧ l'.prev = micros l'.clock.t ∧
      l'.ccDuration = micros l'.clock.t - l.prev := by
  unfold Loop.cycle at h
  dsimp only at h
  split at h
  · cases h
  · rename_i ss c ts' hr
    have h' := Option.some.inj h
    have e1 := congrArg (·.1) h'
    have e2 := congrArg (·.2.1) h'
    have e3 := congrArg (·.2.2) h'
    dsimp only at e1 e2 e3
    refine ⟨e2.symm, c, ?_, ?_⟩
    · rw [← e1, ← e2, ← e3, ← hr, ← micros_add]
      rfl
    · rw [← e1]
      exact ⟨rfl, rfl, rfl, rfl⟩

/-! ### C91 -/

/-- No task starts before its planned time: however long anything takes, however late the cycle is, and wherever the
32-bit microsecond clock wraps. -/
theorem C91_not_early {l i l' t0 ts} (h : Loop.cycle l i = some (l', t0, ts)) :
    ts.length = 17 ∧ ∀ k (hk : k < ts.length), planned t0 k ≤ ts[k] := by
  obtain ⟨_, c, hr, _⟩ := cycle_some h
  obtain ⟨a1, a2, _⟩ := runTasks_spec hr rfl (by show t0 + 1100 ≤ t0 + _; omega) slots_small
  refine ⟨by rw [a1]; rfl, fun k hk => ?_⟩
  have := (a2 k hk).1
  rw [slots_eq] at this
  exact this

theorem cycle_ends {l i l' t0 ts} (h : Loop.cycle l i = some (l', t0, ts)) : t0 + 169900 ≤ l'.clock.t := by
  obtain ⟨_, c, hr, ht, _⟩ := cycle_some h
  obtain ⟨a1, a2, _⟩ := runTasks_spec hr rfl (by show t0 + 1100 ≤ t0 + _; omega) slots_small
  have hl : 16 < ts.length := by rw [a1]; decide
  have := a2 16 hl
  rw [slots_eq] at this
  have hs : (slots.take 16).sum = 168800 := by decide
  rw [hs] at this
  omega

theorem cycles_from {l is l' ts} {p : Nat} (hp : p ≤ 169900) (h : Loop.cycles l is = some (l', ts)) :
    ts.length = is.length ∧ ∀ k (hk : k < ts.length), l.clock.t + p * k ≤ ts[k] := by
  induction is generalizing l l' ts with
  | nil =>
    have := congrArg (·.2) (Option.some.inj h)
    dsimp only at this
    subst this
    exact ⟨rfl, fun k hk => absurd hk (by simp)⟩
  | cons i is ih =>
    unfold Loop.cycles at h
    split at h
    · cases h
    · rename_i l1 t0 ts0 h1
      split at h
      · cases h
      · rename_i l2 ts1 h2
        have := congrArg (·.2) (Option.some.inj h)
        dsimp only at this
        subst this
        obtain ⟨b1, b2⟩ := ih h2
        have he := cycle_ends h1
        have ht := (cycle_some h1).1
        refine ⟨by simp [b1], fun k hk => ?_⟩
        match k with
        | 0 => simp only [List.getElem_cons_zero, Nat.mul_zero]; omega
        | k + 1 =>
          have := b2 k (by simpa using hk)
          simp only [List.getElem_cons_succ, Nat.mul_succ]
          omega

theorem cycles_spaced {l is l' ts} {p : Nat} (hp : p ≤ 169900) (h : Loop.cycles l is = some (l', ts)) (j k : Nat) (hj : j ≤ k) (hk : k < ts.length) :
    ts[j] + p * (k - j) ≤ ts[k] := by
  induction is generalizing l l' ts j k with
  | nil =>
    have := congrArg (·.2) (Option.some.inj h)
    dsimp only at this
    subst this
    exact absurd hk (by simp)
  | cons i is ih =>
    unfold Loop.cycles at h
    split at h
    · cases h
    · rename_i l1 t0 ts0 h1
      split at h
      · cases h
      · rename_i l2 ts1 h2
        have := congrArg (·.2) (Option.some.inj h)
        dsimp only at this
        subst this
        have he := cycle_ends h1
        match j, k with
        | 0, 0 => simp
        | j + 1, 0 => omega
        | 0, k + 1 =>
          have := (cycles_from hp h2).2 k (by simpa using hk)
          simp only [List.getElem_cons_zero, List.getElem_cons_succ, Nat.sub_zero, Nat.mul_succ]
          omega
        | j + 1, k + 1 =>
          have := ih h2 j k (by omega) (by simpa using hk)
          simp only [List.getElem_cons_succ, Nat.add_sub_add_right]
          omega

/-- The cycle counter is never fast: over any number of cycles, the beginnings of two cycles are at least 169.9 ms apart
for each cycle between them. -/
theorem C91_spacing {l is l' ts} (h : Loop.cycles l is = some (l', ts)) (j k : Nat) (hj : j ≤ k) (hk : k < ts.length) :
    ts[j] + 169900 * (k - j) ≤ ts[k] := cycles_spaced (le_refl _) h j k hj hk

/-- What is counted as late is late, and nothing else: every task's count goes up exactly when it is ready after its
planned start (by less than 2^31 microseconds, some 36 minutes). -/
theorem C91_lates {l i l' t0 ts} (h : Loop.cycle l i = some (l', t0, ts)) :
    LatesCounted (t0 + 1100) t0 i.tasks slots ts l.stats l'.stats := by
  obtain ⟨_, c, hr, _⟩ := cycle_some h
  exact (runTasks_spec hr rfl (by show t0 + 1100 ≤ t0 + _; omega) slots_small).2.2.2

/-- When every task is prompt, every task starts within `eps` of its planned time, none is counted as late, and the next
cycle begins at most `186500` microseconds later, plus the code between the cycles. -/
theorem C91_on_time {l i l' t0 ts} (h : Loop.cycle l i = some (l', t0, ts)) (hl : l.stats.length = 17) (eps before : Nat)
    (hb : before ≤ 1100)
    (hp : ∀ k (h1 : k < i.tasks.length) (h2 : k < slots.length), Prompt eps before i.tasks[k] slots[k]) :
    (∀ k (hk : k < ts.length), planned t0 k ≤ ts[k] ∧ ts[k] ≤ planned t0 k + eps) ∧
      l'.stats.map (·.numLates) = l.stats.map (·.numLates) ∧ l'.clock.t + before ≤ t0 + 186500 + i.post := by
  obtain ⟨_, c, hr, ht, _⟩ := cycle_some h
  have hp' : ∀ k (h1 : k < i.tasks.length) (h2 : k < durations.length),
      Prompt eps before i.tasks[k] durations[k].toNat := by
    intro k h1 h2
    have h2' : k < slots.length := h2
    have hk : durations[k].toNat = slots[k] := by
      have : (durations.map (·.toNat))[k]'(by simpa using h2) = slots[k] := rfl
      rw [List.getElem_map] at this
      exact this
    exact (congrArg (Prompt eps before i.tasks[k]) hk).mpr (hp k h1 h2')
  obtain ⟨a1, a2, a3⟩ := runTasks_prompt hr rfl (by show t0 + 1100 ≤ t0 + _; omega) (by show t0 + before ≤ t0 + 1100; omega)
    slots_small hl hp'
  refine ⟨fun k hk => ⟨(C91_not_early h).2 k hk, ?_⟩, a3, ?_⟩
  · have := a1 k hk
    rw [slots_eq] at this
    exact this
  · have := a2 (by decide)
    rw [slots_eq, show slots.sum = 185400 by decide] at this
    omega

/-- The cycle duration that is published is the time from the end of the cycle before to the end of this one (modulo
2^32 microseconds), and the cycle number goes up by one. -/
theorem C91_published {l l1 l2 i1 i2 t1 t2 ts1 ts2} (h1 : Loop.cycle l i1 = some (l1, t1, ts1))
    (h2 : Loop.cycle l1 i2 = some (l2, t2, ts2)) :
    l2.ccDuration.toNat = (l2.clock.t - l1.clock.t) % 2 ^ 32 ∧ l2.count = l1.count + 1 := by
  obtain ⟨_, _, _, _, _, a3, _⟩ := cycle_some h1
  obtain ⟨b0, _, _, _, b2, _, b4⟩ := cycle_some h2
  have := cycle_ends h2
  rw [b4, a3, micros_sub (by omega)]
  exact ⟨rfl, b2⟩

/-- The duration recorded for a task is the time from its start to its end (below 2^32 microseconds, some 71 minutes), without the
time spent waiting for its slot. -/
theorem C91_duration {count d dur s c s' c' t} (h : runTask count d dur s c = some (s', c', t)) :
    t ≤ c'.t ∧ s'.duration.toNat = (c'.t - t) % 2 ^ 32 := by
  unfold runTask at h
  dsimp only at h
  split at h
  · cases h
  · cases h
    exact ⟨Nat.le_add_right _ _, micros_sub (Nat.le_add_right _ _)⟩

/-- A task that is ready 2^31 to 2^32 microseconds after its planned start (36 to 71 minutes) is not counted as late, and
waits until the 32-bit clock has come round again. -/
theorem C91_counterexample_overflow {count d dur s c s' c' t} {e : Nat}
    (h : runTask count d dur s c = some (s', c', t)) (he : c.endTime = micros e) (hl : e + 2 ^ 31 < c.t + d.before)
    (hu : c.t + d.before < e + 2 ^ 32) : s'.numLates = s.numLates ∧ e + 2 ^ 32 ≤ t := by
  have hm : micros e = micros (e + 2 ^ 32) := by
    unfold micros
    apply BitVec.eq_of_toNat_eq
    simp
  rw [hm] at he
  unfold runTask at h
  dsimp only at h
  split at h
  · cases h
  · rename_i t3 hp
    have h' := Option.some.inj h
    have e1 := congrArg (·.1) h'
    have e3 := congrArg (·.2.2) h'
    dsimp only at e1 e3
    obtain ⟨p1, p2⟩ := poll_ge (le_refl _) hp
    rw [wait_toNat (delta_lt _ _), he, delta_early (by omega) (by omega), max_eq_left (by omega)] at p2
    constructor
    · rw [← e1]
      show (if delta c.endTime (c.t + d.before) < 0 then s.numLates + 1 else s.numLates) = _
      rw [he, delta_early (by omega) (by omega), if_neg (by omega)]
    · omega

/-- The statistics of a task after waits of `ds`, the first in cycle 1. -/
def noted : List Int → Stats
  | [] => ⟨0, 0, 0⟩
  | d :: ds => (noted ds).note (BitVec.ofNat 32 (ds.length + 1)) d

/-- The average wait that is published is not the average of the waits: after `n` cycles it is their sum divided by
`n + 1`, although the cycles are counted from one (latest wait first in the list; exact arithmetic). -/
theorem C91_counterexample_average (ds : List Int) (h : ds.length + 2 ≤ 2 ^ 32 - 1) :
    (noted ds).avgWait * (ds.length + 1) = (((ds.map (max · 0)).sum : Int) : ℚ) := by
  induction ds with
  | nil => simp [noted]
  | cons d ds ih =>
    have ih := ih (by simp at h; omega)
    simp only [List.length_cons] at h
    unfold noted Stats.note
    dsimp only
    have e1 : (BitVec.ofNat 32 (ds.length + 1)).toNat = ds.length + 1 := by
      rw [BitVec.toNat_ofNat]
      exact Nat.mod_eq_of_lt (by omega)
    have e2 : (BitVec.ofNat 32 (ds.length + 1) + 1).toNat = ds.length + 2 := by
      rw [BitVec.toNat_add, e1]
      show (ds.length + 1 + 1) % 2 ^ 32 = _
      exact Nat.mod_eq_of_lt (by omega)
    rw [e1, e2]
    simp only [List.length_cons, List.map_cons, List.sum_cons]
    push_cast at ih ⊢
    rw [ih]
    have : (ds.length : ℚ) + 2 ≠ 0 := by positivity
    field_simp
    ring

example : (noted [100, 100, 100]).avgWait = 75 := by decide +kernel

/-- A cycle in which every task takes `x` microseconds, the last one `y`, and the clock is read every ten microseconds. -/
def easy (x y : Nat) : CycleDelays :=
  let d (z : Nat) : Delays := { before := 5, setup := 1, polls := List.replicate 3200 10, launch := 2, exec := z }
  { pre := 20, tasks := List.replicate 16 (d x) ++ [d y], post := 3 }

/-- The clock manager promises that cycles are at least 170 ms apart. They are not: with every task prompt, and the last
one, which is not waited for, taking 40 microseconds, two cycles begin 169.969 ms apart. -/
theorem C91_counterexample_short :
    ((Loop.init 7).cycles [easy 500 40, easy 500 40]).map (·.2) = some [27, 27 + 169969] := by
  decide +kernel

/-- These cycles meet the hypotheses of `C91_on_time` (and the others). -/
example : ∀ k (_ : k < (easy 500 40).tasks.length) (h2 : k < slots.length), Prompt 20 5 (easy 500 40).tasks[k] slots[k] := by
  have h : ∀ z, z ≤ 500 → ∀ u ∈ slots,
      Prompt 20 5 { before := 5, setup := 1, polls := List.replicate 3200 10, launch := 2, exec := z } u := by
    intro z hz u hu
    refine ⟨le_refl _, ⟨10, ?_, by simp⟩, ?_⟩
    · intro x hx
      rw [List.eq_of_mem_replicate hx]
    · have : ∀ u ∈ slots, 1000 ≤ u := by decide
      have := this u hu
      show 20 + z + 5 ≤ u
      omega
  intro k _ h2
  have hm : (easy 500 40).tasks[k] ∈ (easy 500 40).tasks := List.getElem_mem _
  rcases List.mem_append.mp hm with hm | hm
  · rw [List.eq_of_mem_replicate hm]
    exact h 500 (le_refl _) _ (List.getElem_mem _)
  · rw [List.mem_singleton.mp hm]
    exact h 40 (by omega) _ (List.getElem_mem _)

end PAN
