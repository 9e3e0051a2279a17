import Verif.Props.MissionManager
import Verif.Props.Deployment
/-!
Properties C35, C36, C58 (in the whole fault handling), C59, C61 and C62: the mission manager's timers, the kill switch and the radio.
-/
namespace PAN

namespace Spec

/-- The cycles of a history have consecutive numbers, the first one following `c`. -/
def Consecutive : U32 → List MStep → Prop
  | _, [] => True
  | c, x :: xs => x.inp.cc = c + 1 ∧ Consecutive (c + 1) xs

/-- Nothing but the mission manager changes `f`. -/
def Keeps {α : Type} (f : MM → α) (xs : List MStep) : Prop := ∀ x ∈ xs, ∀ s, f (x.others s) = f s

/-- `P` holds at the beginning of every cycle of the history (when the mission manager runs). -/
def Along (P : MM → U32 → Prop) : MM → List MStep → Prop
  | _, [] => True
  | s, x :: xs => P (x.others s) x.inp.cc ∧ ∀ s', (x.others s).execute x.inp = some s' → Along P s' xs

/-- No fault that the mission manager answers. -/
def NoFault (s : MM) (cc : U32) : Prop := ¬ SafeholdFault s cc ∧ ¬ StandbyFault s cc

/-- `n` cycles in which nothing happens. -/
def idle : U32 → Nat → List MStep
  | _, 0 => []
  | c, n + 1 => ⟨id, { idleIn with cc := c + 1 }⟩ :: idle (c + 1) n

end Spec
open Spec

theorem idle_consecutive (c : U32) (n : Nat) : Consecutive c (idle c n) := by
  induction n generalizing c with
  | zero => exact True.intro
  | succ n ih => exact ⟨rfl, ih _⟩

theorem idle_length (c : U32) (n : Nat) : (idle c n).length = n := by
  induction n generalizing c with
  | zero => rfl
  | succ n ih => exact congrArg (· + 1) (ih _)

theorem idle_keeps {α : Type} (f : MM → α) (c : U32) (n : Nat) : Keeps f (idle c n) := by
  induction n generalizing c with
  | zero => exact fun x hx => absurd hx (List.not_mem_nil)
  | succ n ih =>
    intro x hx s
    rcases List.mem_cons.1 hx with rfl | h
    · rfl
    · exact ih _ x h s

theorem mrun_eq (s : MM) (x : MStep) (xs : List MStep) : mrun s (x :: xs) =
    match (x.others s).execute x.inp with | none => none | some s' => mrun s' xs := rfl

theorem mrun_append (s : MM) (xs ys : List MStep) : mrun s (xs ++ ys) = (mrun s xs).bind fun t => mrun t ys := by
  induction xs generalizing s with
  | nil => rfl
  | cons x xs ih =>
    rw [List.cons_append, mrun_eq, mrun_eq]
    cases (x.others s).execute x.inp with
    | none => rfl
    | some s' => exact ih s'

theorem mrun_cons {s s1 : MM} {x : MStep} {xs : List MStep} (h : (x.others s).execute x.inp = some s1) : mrun s (x :: xs) = mrun s1 xs := by
  rw [mrun_eq, h]

theorem Spec.Consecutive.append {c : U32} {xs ys : List MStep} (h : Consecutive c (xs ++ ys)) :
    Consecutive c xs ∧ Consecutive (c + BitVec.ofNat 32 xs.length) ys := by
  induction xs generalizing c with
  | nil => exact ⟨True.intro, by simpa using h⟩
  | cons x xs ih =>
    obtain ⟨h1, h2⟩ := ih h.2
    refine ⟨⟨h.1, h1⟩, ?_⟩
    have : c + BitVec.ofNat 32 (x :: xs).length = c + 1 + BitVec.ofNat 32 xs.length := by
      apply BitVec.eq_of_toNat_eq
      simp only [BitVec.toNat_add, BitVec.toNat_ofNat, List.length_cons]
      have h1 : (1 : U32).toNat = 1 := rfl
      omega
    rw [this]; exact h2

theorem Spec.Along.append {P : MM → U32 → Prop} {s : MM} {xs ys : List MStep} (h : Along P s (xs ++ ys)) :
    Along P s xs ∧ ∀ t, mrun s xs = some t → Along P t ys := by
  induction xs generalizing s with
  | nil => exact ⟨True.intro, fun t ht => by cases ht; exact h⟩
  | cons x xs ih =>
    refine ⟨⟨h.1, fun s' hs => (ih (h.2 s' hs)).1⟩, fun t ht => ?_⟩
    unfold mrun at ht
    split at ht
    · cases ht
    · rename_i s' hs
      exact (ih (h.2 s' hs)).2 t ht

theorem Spec.Keeps.append {α : Type} {f : MM → α} {xs ys : List MStep} (h : Keeps f (xs ++ ys)) : Keeps f xs ∧ Keeps f ys :=
  ⟨fun x hx => h x (List.mem_append_left _ hx), fun x hx => h x (List.mem_append_right _ hx)⟩

/-! ### Frame lemmas -/

theorem MM.hwPolled_frame2 (s : MM) : s.hwPolled.haveSetDocking = s.haveSetDocking ∧ s.hwPolled.enterDocking = s.enterDocking ∧
    s.hwPolled.dockTimeout = s.dockTimeout ∧ s.hwPolled.fh.quake = s.fh.quake := by
  unfold MM.hwPolled
  dsimp only
  split_ifs <;> exact ⟨rfl, rfl, rfl, rfl⟩

/-- The fields of the docking timer. -/
def dockFields (s : MM) : Bool × U32 × U32 := (s.haveSetDocking, s.enterDocking, s.dockTimeout)

theorem dispatchStartup_dock (s s' : MM) (i : MMIn) (he : s.dispatchStartup i = some s') : dockFields s' = dockFields s := by
  unfold MM.dispatchStartup at he
  split at he
  · cases he
  split at he
  · split at he <;> cases he <;> rfl
  · dsimp only at he
    generalize hk : (if s.fh.radio.state = Radio.disabled then _ else _ : MM) = k at he
    have hke : dockFields k = dockFields s := by rw [← hk]; split <;> rfl
    obtain ⟨a, b, c, _⟩ := MM.hwPolled_frame2 k
    rw [← hke]
    split at he <;> cases he <;>
      · show (k.hwPolled.haveSetDocking, k.hwPolled.enterDocking, k.hwPolled.dockTimeout) = _
        rw [a, b, c]; rfl

/-- Outside docking the docking timer is left alone. -/
theorem execute_dock (s s' : MM) (i : MMIn) (hm : s.fh.mission ≠ Mission.docking) (he : s.execute i = some s') : dockFields s' = dockFields s := by
  rcases MM.execute_cases s i with ⟨_, _, _, e⟩ | ⟨_, _, _, _, _, _, _, e⟩ | ⟨_, _, e⟩
  · rw [e] at he; cases he; rfl
  · rw [e] at he; cases he; rfl
  · rw [e] at he
    have hel : dockFields (s.afterFaults i.cc) = dockFields s := rfl
    rw [← hel]
    generalize s.afterFaults i.cc = h at *
    rcases MM.mission_cases s.fh.mission with c | c | c | c | c | c | c | c | c | c | c | c | c
    · rw [c, MM.dispatch_startup] at he; exact dispatchStartup_dock h s' i he
    · rw [c, MM.dispatch_detumble] at he; cases he
      unfold MM.dispatchDetumble; split
      · split <;> rfl
      · rfl
    · rw [c, MM.dispatch_hold] at he; cases he; rfl
    · rw [c, MM.dispatch_standby] at he; cases he
      unfold MM.dispatchStandby; split
      · rfl
      · split <;> rfl
    · rw [c, MM.dispatch_follower] at he; cases he; unfold MM.dispatchFar; split <;> rfl
    · rw [c, MM.dispatch_leader] at he; cases he; unfold MM.dispatchFar; split <;> rfl
    · rw [c, MM.dispatch_followerClose] at he; cases he; unfold MM.dispatchClose; split <;> rfl
    · rw [c, MM.dispatch_leaderClose] at he; cases he; unfold MM.dispatchClose; split <;> rfl
    · exact absurd c hm
    · rw [c, MM.dispatch_docked] at he; cases he; rfl
    · rw [c, MM.dispatch_safehold] at he; cases he; unfold MM.dispatchSafehold; split <;> rfl
    · rw [c, MM.dispatch_manual] at he; cases he; rfl
    · rw [MM.dispatch_undefined _ _ _ c] at he; cases he; rfl

/-! ### C35 -/

/-- In docking, without a fault: the manager's step. -/
theorem execute_docking (s : MM) (i : MMIn) (hm : s.fh.mission = Mission.docking) (hf : NoFault s i.cc) :
    s.execute i = some ((s.afterFaults i.cc).dispatchDocking i) := by
  rw [MM.execute_dispatch s i (Or.inr (Or.inr fun h => hf.1 ((safeholdFault_iff s i.cc).2 h)))
    (Or.inr (Or.inr (Or.inl fun h => hf.2 ((standbyFault_iff s i.cc hf.1).2 h)))), hm, MM.dispatch_docking]

/-- The step while the attempt goes on. -/
theorem docking_goes_on (h : MM) (i : MMIn) (hd : i.docked = false) (hf : h.haveSetDocking = false ∨ ¬ h.dockTimeout < i.cc - h.enterDocking) :
    (h.dispatchDocking i).fh.mission = h.fh.mission ∧ dockFields (h.dispatchDocking i) =
      (true, if h.haveSetDocking = false then i.cc else h.enterDocking, h.dockTimeout) := by
  refine ⟨(dispatchDocking_mission h i).2.2 hd hf, ?_⟩
  unfold MM.dispatchDocking
  dsimp only
  rw [if_neg (show ¬ i.docked = true by rw [hd]; decide)]
  by_cases hs : h.haveSetDocking = false
  · rw [if_pos hs, if_pos hs, if_neg]
    · rfl
    · show ¬ i.cc - i.cc > h.dockTimeout
      rw [gt_iff_lt, BitVec.lt_def, BitVec.sub_self]
      exact Nat.not_lt_zero _
  · rw [if_neg hs, if_neg hs, if_neg (hf.resolve_left hs)]
    show (h.haveSetDocking, _, _) = _
    rw [show h.haveSetDocking = true by simpa using hs]

theorem docking_ends (h : MM) (i : MMIn) (hd : i.docked = false) (hs : h.haveSetDocking = true) (ht : h.dockTimeout < i.cc - h.enterDocking) :
    (h.dispatchDocking i).fh.mission = Mission.standby ∧ (h.dispatchDocking i).adcs = Adcs.pointStandby ∧
      (h.dispatchDocking i).haveSetDocking = false := by
  unfold MM.dispatchDocking
  dsimp only
  rw [if_neg (show ¬ i.docked = true by rw [hd]; decide), if_neg (show ¬ h.haveSetDocking = false by rw [hs]; decide), if_pos ht]
  exact ⟨rfl, rfl, rfl⟩

/-- The fields of an attempt that nobody else may change: the mission state and the docking timer. -/
def attemptFields (s : MM) : U8 × Bool × U32 × U32 := (s.fh.mission, dockFields s)

theorem attempt_later (e : U32) (t : Nat) (xs : List MStep) : ∀ (s : MM) (c : U32), attemptFields s = (Mission.docking, true, e, BitVec.ofNat 32 t) →
    t < 2 ^ 32 → Keeps attemptFields xs → Consecutive c xs → Along NoFault s xs → (∀ x ∈ xs, x.inp.docked = false) →
    (c - e).toNat + xs.length ≤ t → ∃ s', mrun s xs = some s' ∧ attemptFields s' = attemptFields s := by
  induction xs with
  | nil => intro s c h _ _ _ _ _ _; exact ⟨s, rfl, rfl⟩
  | cons x xs ih =>
    intro s c hs ht hk hc ha hd hl
    have hs' := (hk x (List.mem_cons_self ..) s).trans hs
    have hmis : (x.others s).fh.mission = Mission.docking := congrArg Prod.fst hs'
    have hfl : (x.others s).haveSetDocking = true := congrArg (fun p => p.2.1) hs'
    have hen : (x.others s).enterDocking = e := congrArg (fun p => p.2.2.1) hs'
    have hti : (x.others s).dockTimeout = BitVec.ofNat 32 t := congrArg (fun p => p.2.2.2) hs'
    have hex := execute_docking (x.others s) x.inp hmis ha.1
    have hcc : (x.inp.cc - e).toNat = (c - e).toNat + 1 := by
      rw [hc.1]
      simp only [BitVec.toNat_sub, BitVec.toNat_add] at hl ⊢
      have := c.isLt
      have := e.isLt
      have h1 : (1 : U32).toNat = 1 := rfl
      simp only [List.length_cons] at hl
      omega
    simp only [List.length_cons] at hl
    have hle : ¬ ((x.others s).afterFaults x.inp.cc).dockTimeout < x.inp.cc - ((x.others s).afterFaults x.inp.cc).enterDocking := by
      show ¬ (x.others s).dockTimeout < x.inp.cc - (x.others s).enterDocking
      rw [hti, hen, BitVec.lt_def, hcc, BitVec.toNat_ofNat, Nat.mod_eq_of_lt ht]
      omega
    obtain ⟨g1, g2⟩ := docking_goes_on ((x.others s).afterFaults x.inp.cc) x.inp (hd x (List.mem_cons_self ..)) (Or.inr hle)
    have hnew : attemptFields (((x.others s).afterFaults x.inp.cc).dispatchDocking x.inp) = (Mission.docking, true, e, BitVec.ofNat 32 t) := by
      unfold attemptFields
      rw [g1, g2, MM.afterFaults_mission, hmis]
      show (_, true, (if (x.others s).haveSetDocking = false then _ else (x.others s).enterDocking), (x.others s).dockTimeout) = _
      rw [if_neg (by rw [hfl]; decide), hen, hti]
    obtain ⟨s', e1, e2⟩ := ih _ (c + 1) hnew ht (fun y hy => hk y (List.mem_cons_of_mem _ hy)) hc.2 (ha.2 _ hex)
      (fun y hy => hd y (List.mem_cons_of_mem _ hy)) (by rw [← hc.1, hcc]; omega)
    exact ⟨s', (mrun_cons hex).trans e1, e2.trans (hnew.trans hs.symm)⟩

/-- An attempt, from its first cycle in docking on: the state after up to timeout + 1 cycles. -/
theorem attempt_run (s : MM) (hm : s.fh.mission = Mission.docking) (hf : s.haveSetDocking = false) (c : U32) (x : MStep) (xs : List MStep)
    (hk : Keeps attemptFields (x :: xs)) (hc : Consecutive c (x :: xs)) (ha : Along NoFault s (x :: xs))
    (hd : ∀ y ∈ x :: xs, y.inp.docked = false) (hl : xs.length ≤ s.dockTimeout.toNat) :
    ∃ s', mrun s (x :: xs) = some s' ∧ attemptFields s' = (Mission.docking, true, c + 1, s.dockTimeout) := by
  have hs' := hk x (List.mem_cons_self ..) s
  have hmis : (x.others s).fh.mission = Mission.docking := (congrArg Prod.fst hs').trans hm
  have hfl : (x.others s).haveSetDocking = false := (congrArg (fun p => p.2.1) hs').trans hf
  have hti : (x.others s).dockTimeout = s.dockTimeout := congrArg (fun p => p.2.2.2) hs'
  have hex := execute_docking (x.others s) x.inp hmis ha.1
  obtain ⟨g1, g2⟩ := docking_goes_on ((x.others s).afterFaults x.inp.cc) x.inp (hd x (List.mem_cons_self ..)) (Or.inl hfl)
  have hnew : attemptFields (((x.others s).afterFaults x.inp.cc).dispatchDocking x.inp) = (Mission.docking, true, c + 1, s.dockTimeout) := by
    unfold attemptFields
    rw [g1, g2, MM.afterFaults_mission, hmis]
    show (_, true, (if (x.others s).haveSetDocking = false then _ else (x.others s).enterDocking), (x.others s).dockTimeout) = _
    rw [if_pos hfl, hti, hc.1]
  obtain ⟨s', e1, e2⟩ := attempt_later (c + 1) s.dockTimeout.toNat xs _ (c + 1)
    (by rw [hnew, BitVec.ofNat_toNat, BitVec.setWidth_eq]) s.dockTimeout.isLt (fun y hy => hk y (List.mem_cons_of_mem _ hy)) hc.2
    (ha.2 _ hex) (fun y hy => hd y (List.mem_cons_of_mem _ hy)) (by rw [BitVec.sub_self]; show 0 + xs.length ≤ _; omega)
  exact ⟨s', (mrun_cons hex).trans e1, e2.trans hnew⟩

/-- C35 (partial: for an attempt that starts with the entry flag clear, see `C35_flag_clear_partial` and the counterexample). The first
cycle in docking has number `c + 1`. Over consecutive cycles without a fault, without docking and without outside interference: after
each of the first timeout + 1 cycles the spacecraft is still docking; after timeout + 2 cycles it is in standby. -/
theorem C35_attempt_partial (s : MM) (hm : s.fh.mission = Mission.docking) (hf : s.haveSetDocking = false) (c : U32) (xs : List MStep)
    (hk : Keeps attemptFields xs) (hc : Consecutive c xs) (ha : Along NoFault s xs) (hd : ∀ y ∈ xs, y.inp.docked = false) :
    (xs.length ≤ s.dockTimeout.toNat + 1 → ∃ s', mrun s xs = some s' ∧ s'.fh.mission = Mission.docking) ∧
    (xs.length = s.dockTimeout.toNat + 2 → s.dockTimeout.toNat + 2 ≤ 2 ^ 32 →
      ∃ s', mrun s xs = some s' ∧ s'.fh.mission = Mission.standby ∧ s'.adcs = Adcs.pointStandby ∧ s'.haveSetDocking = false) := by
  constructor
  · intro hl
    cases xs with
    | nil => exact ⟨s, rfl, hm⟩
    | cons x xs =>
      obtain ⟨s', e1, e2⟩ := attempt_run s hm hf c x xs hk hc ha hd (by simp only [List.length_cons] at hl; omega)
      exact ⟨s', e1, congrArg Prod.fst e2⟩
  · intro hl hbig
    rcases List.eq_nil_or_concat xs with rfl | ⟨ys, y, rfl⟩
    · simp only [List.length_nil] at hl; omega
    rw [List.concat_eq_append] at *
    simp only [List.length_append, List.length_singleton] at hl
    cases ys with
    | nil => simp only [List.length_nil] at hl; omega
    | cons x xs =>
      simp only [List.length_cons] at hl
      obtain ⟨t, e1, e2⟩ := attempt_run s hm hf c x xs hk.append.1 hc.append.1 ha.append.1
        (fun z hz => hd z (List.mem_append_left _ hz)) (by omega)
      have hy := (hk.append.2 y (List.mem_singleton.2 rfl) t).trans e2
      have hmis : (y.others t).fh.mission = Mission.docking := congrArg Prod.fst hy
      have hfl : (y.others t).haveSetDocking = true := congrArg (fun p => p.2.1) hy
      have hen : (y.others t).enterDocking = c + 1 := congrArg (fun p => p.2.2.1) hy
      have hti : (y.others t).dockTimeout = s.dockTimeout := congrArg (fun p => p.2.2.2) hy
      have hex := execute_docking (y.others t) y.inp hmis (ha.append.2 t e1).1
      have hcc := hc.append.2.1
      obtain ⟨g1, g2, g3⟩ := docking_ends ((y.others t).afterFaults y.inp.cc) y.inp (hd y (List.mem_append_right _ (List.mem_singleton.2 rfl)))
        hfl (by
          show (y.others t).dockTimeout < y.inp.cc - (y.others t).enterDocking
          rw [hen, hti, hcc, BitVec.lt_def]
          simp only [BitVec.toNat_sub, BitVec.toNat_add, BitVec.toNat_ofNat, List.length_cons]
          have := c.isLt
          have h1 : (1 : U32).toNat = 1 := rfl
          omega)
      exact ⟨_, by rw [mrun_append, e1]; show mrun t [y] = _; rw [mrun_cons hex]; rfl, g1, g2, g3⟩

/-- C35: the entry flag is clear whenever the spacecraft is not docking, provided no attempt was interrupted: whenever a cycle begins in
docking, there is no fault and nobody else changes the mission state. So the next attempt starts with the flag clear. -/
theorem C35_flag_clear_partial (xs : List MStep) : ∀ (s : MM), (s.haveSetDocking = true → s.fh.mission = Mission.docking) →
    Keeps dockFields xs → (∀ x ∈ xs, ∀ s, s.fh.mission = Mission.docking → (x.others s).fh.mission = Mission.docking) →
    Along (fun s cc => s.fh.mission = Mission.docking → NoFault s cc) s xs → ∀ s', mrun s xs = some s' →
    (s'.haveSetDocking = true → s'.fh.mission = Mission.docking) ∧
    (∀ (y : MStep) (t : MM), dockFields (y.others s') = dockFields s' → s'.fh.mission ≠ Mission.docking →
      (y.others s').fh.mission ≠ Mission.docking → (y.others s').execute y.inp = some t → t.haveSetDocking = false) := by
  induction xs with
  | nil =>
    intro s h _ _ _ s' hs
    cases hs
    refine ⟨h, fun y t hy hn hm he => ?_⟩
    have h1 : t.haveSetDocking = s.haveSetDocking := congrArg Prod.fst ((execute_dock _ _ _ hm he).trans hy)
    rw [h1]
    cases hc : s.haveSetDocking with
    | false => rfl
    | true => exact absurd (h hc) hn
  | cons x xs ih =>
    intro s h hk hg ha s' hs
    unfold mrun at hs
    split at hs
    · cases hs
    rename_i s1 hs1
    refine ih s1 ?_ (fun y hy => hk y (List.mem_cons_of_mem _ hy)) (fun y hy => hg y (List.mem_cons_of_mem _ hy)) (ha.2 s1 hs1) s' hs
    intro hfl
    have hkx := hk x (List.mem_cons_self ..) s
    have hkf : (x.others s).haveSetDocking = s.haveSetDocking := congrArg Prod.fst hkx
    by_cases hm : (x.others s).fh.mission = Mission.docking
    · have hex := execute_docking (x.others s) x.inp hm (ha.1 hm)
      rw [hex] at hs1
      cases hs1
      generalize hh : (x.others s).afterFaults x.inp.cc = g at hfl ⊢
      have hgm : g.fh.mission = Mission.docking := by rw [← hh, MM.afterFaults_mission]; exact hm
      cases hd : x.inp.docked with
      | true =>
        exfalso
        unfold MM.dispatchDocking at hfl
        dsimp only at hfl
        rw [if_pos hd] at hfl
        exact absurd hfl Bool.false_ne_true
      | false =>
        by_cases ht : g.haveSetDocking = true ∧ g.dockTimeout < x.inp.cc - g.enterDocking
        · rw [(docking_ends g x.inp hd ht.1 ht.2).2.2] at hfl; exact absurd hfl (by decide)
        · rw [(docking_goes_on g x.inp hd (by by_cases hq : g.haveSetDocking = true
                                              · exact Or.inr fun q => ht ⟨hq, q⟩
                                              · exact Or.inl (by simpa using hq))).1]
          exact hgm
    · exfalso
      have h1 : s1.haveSetDocking = (x.others s).haveSetDocking := congrArg Prod.fst (execute_dock _ _ _ hm hs1)
      rw [h1, hkf] at hfl
      exact hm (hg x (List.mem_cons_self ..) s (h hfl))

/-- C35, what goes wrong: the entry cycle of an interrupted attempt is kept over any history that does not touch docking, for any number
of cycles; -/
theorem C35_stale_entry_kept (xs : List MStep) : ∀ (s : MM), Keeps dockFields xs →
    Along (fun s _ => s.fh.mission ≠ Mission.docking) s xs → ∀ s', mrun s xs = some s' → dockFields s' = dockFields s := by
  induction xs with
  | nil => intro s _ _ s' hs; cases hs; rfl
  | cons x xs ih =>
    intro s hk ha s' hs
    rw [mrun_eq] at hs
    split at hs
    · cases hs
    rename_i s1 hs1
    exact (ih s1 (fun y hy => hk y (List.mem_cons_of_mem _ hy)) (ha.2 s1 hs1) s' hs).trans
      ((execute_dock _ _ _ ha.1 hs1).trans (hk x (List.mem_cons_self ..) s))

/-- and the first cycle of a later attempt that begins more than the timeout after the entry of the interrupted one ends it. -/
theorem C35_stale_entry_ends (s : MM) (i : MMIn) (hm : s.fh.mission = Mission.docking) (hf : s.haveSetDocking = true) (hd : i.docked = false)
    (hn : NoFault s i.cc) (ht : s.dockTimeout < i.cc - s.enterDocking) :
    ∃ s', s.execute i = some s' ∧ s'.fh.mission = Mission.standby :=
  ⟨_, execute_docking s i hm hn, (docking_ends (s.afterFaults i.cc) i hd hf ht).1⟩

/-- Ground writes the mission state. -/
def Spec.command (m : U8) (s : MM) : MM := { s with fh := { s.fh with mission := m } }

/-- C35 does not hold: ground shortens the docking timeout to 5 cycles and starts an attempt in cycle 10, takes it back in cycle 11, and
starts another attempt in cycle 17, which is given up in that same cycle. -/
theorem C35_counterexample_interrupted :
    (mrun (MM.init 14 20 20) ([⟨fun s => { command Mission.docking s with dockTimeout := 5 }, { idleIn with cc := 10 }⟩,
      ⟨command Mission.standby, { idleIn with cc := 11 }⟩] ++ idle 11 5 ++ [⟨command Mission.docking, { idleIn with cc := 17 }⟩])).map (·.fh.mission) =
      some Mission.standby ∧
    (mrun (MM.init 14 20 20) (idle 9 7 ++ [⟨fun s => { command Mission.docking s with dockTimeout := 5 }, { idleIn with cc := 17 }⟩])).map (·.fh.mission) =
      some Mission.docking := by decide +kernel

theorem dispatchStartup_enabled (s s' : MM) (i : MMIn) (he : s.dispatchStartup i = some s') : s'.fh.enabled = s.fh.enabled := by
  unfold MM.dispatchStartup at he
  split at he
  · cases he
  split at he
  · split at he <;> cases he <;> rfl
  · dsimp only at he
    generalize hk : (if s.fh.radio.state = Radio.disabled then _ else _ : MM) = k at he
    have hke : k.fh.enabled = s.fh.enabled := by rw [← hk]; split <;> rfl
    have hp : k.hwPolled.fh.enabled = k.fh.enabled := by
      unfold MM.hwPolled
      dsimp only
      split_ifs <;> rfl
    rw [← hke, ← hp]
    split at he <;> cases he <;> rfl

/-- The mission manager does not switch fault handling on or off. -/
theorem execute_enabled (s s' : MM) (i : MMIn) (he : s.execute i = some s') : s'.fh.enabled = s.fh.enabled := by
  have hel : (s.afterFaults i.cc).fh.enabled = s.fh.enabled := FHState.execute_enabled _ _
  rcases MM.execute_cases s i with ⟨_, _, _, e⟩ | ⟨_, _, _, _, _, _, _, e⟩ | ⟨_, _, e⟩
  · rw [e] at he; cases he; exact hel
  · rw [e] at he; cases he; exact hel
  · rw [e] at he
    rw [← hel]
    generalize s.afterFaults i.cc = h at *
    rcases MM.mission_cases s.fh.mission with c | c | c | c | c | c | c | c | c | c | c | c | c
    · rw [c, MM.dispatch_startup] at he; exact dispatchStartup_enabled h s' i he
    · rw [c, MM.dispatch_detumble] at he; cases he
      unfold MM.dispatchDetumble; split
      · split <;> rfl
      · rfl
    · rw [c, MM.dispatch_hold] at he; cases he; rfl
    · rw [c, MM.dispatch_standby] at he; cases he
      unfold MM.dispatchStandby; split
      · rfl
      · split <;> rfl
    · rw [c, MM.dispatch_follower] at he; cases he; unfold MM.dispatchFar; split <;> rfl
    · rw [c, MM.dispatch_leader] at he; cases he; unfold MM.dispatchFar; split <;> rfl
    · rw [c, MM.dispatch_followerClose] at he; cases he; unfold MM.dispatchClose; split <;> rfl
    · rw [c, MM.dispatch_leaderClose] at he; cases he; unfold MM.dispatchClose; split <;> rfl
    · rw [c, MM.dispatch_docking] at he; cases he
      unfold MM.dispatchDocking
      dsimp only
      have hk : (if h.haveSetDocking = false then { h with enterDocking := i.cc, haveSetDocking := true } else h).fh.enabled = h.fh.enabled := by
        split <;> rfl
      rw [← hk]
      generalize (if h.haveSetDocking = false then { h with enterDocking := i.cc, haveSetDocking := true } else h) = k
      split
      · rfl
      · split <;> rfl
    · rw [c, MM.dispatch_docked] at he; cases he; rfl
    · rw [c, MM.dispatch_safehold] at he; cases he; unfold MM.dispatchSafehold; split <;> rfl
    · rw [c, MM.dispatch_manual] at he; cases he; rfl
    · rw [MM.dispatch_undefined _ _ _ c] at he; cases he; rfl

/-- With fault handling switched off no fault is acted upon. -/
theorem noFault_of_disabled (xs : List MStep) : ∀ (s : MM), s.fh.enabled = false → Keeps (·.fh.enabled) xs → Along NoFault s xs := by
  induction xs with
  | nil => intro _ _ _; exact True.intro
  | cons x xs ih =>
    intro s he hk
    have h1 : (x.others s).fh.enabled = false := (hk x (List.mem_cons_self ..) s).trans he
    refine ⟨⟨fun h => ?_, fun h => ?_⟩, fun s' hs => ih s' ((execute_enabled _ _ _ hs).trans h1) fun y hy => hk y (List.mem_cons_of_mem _ hy)⟩
    · exact absurd (h1.symm.trans h.1) (by decide)
    · exact absurd (h1.symm.trans h.1) (by decide)

/-- Non-vacuity of C35_attempt_partial: six and seven cycles in docking with a timeout of 5. -/
example : let s := { inState Mission.docking with dockTimeout := 5, fh := { (inState Mission.docking).fh with enabled := false } }
    s.haveSetDocking = false ∧ Keeps attemptFields (idle 16 7) ∧ Consecutive 16 (idle 16 7) ∧ Along NoFault s (idle 16 7) ∧
    (∀ y ∈ idle 16 7, y.inp.docked = false) ∧
    (mrun s (idle 16 6)).map (·.fh.mission) = some Mission.docking ∧ (mrun s (idle 16 7)).map (·.fh.mission) = some Mission.standby :=
  ⟨rfl, idle_keeps _ _ _, idle_consecutive _ _, noFault_of_disabled _ _ rfl (idle_keeps _ _ _), by decide +kernel, by decide +kernel, by decide +kernel⟩

/-! ### C36 and C59 -/

/-- In safehold without a safehold-level fault: the manager's step. -/
theorem execute_in_safehold (s : MM) (i : MMIn) (hm : s.fh.mission = Mission.safehold) (hf : ¬ SafeholdFault s i.cc) :
    s.execute i = some ((s.afterFaults i.cc).dispatchSafehold i) := by
  rw [MM.execute_dispatch s i (Or.inr (Or.inr fun h => hf ((safeholdFault_iff s i.cc).2 h)))
    (Or.inr (Or.inr (Or.inr (Or.inl hm)))), hm, MM.dispatch_safehold]

/-- The mission state and the beginning of safehold. -/
def safeholdFields (s : MM) : U8 × U32 := (s.fh.mission, s.safeholdBegin)

theorem safehold_run (b : U32) (xs : List MStep) : ∀ (s : MM), safeholdFields s = (Mission.safehold, b) → Keeps safeholdFields xs →
    Along (fun s cc => ¬ SafeholdFault s cc) s xs → ∃ s', mrun s xs = some s' ∧ safeholdFields s' = (Mission.safehold, b) := by
  induction xs with
  | nil => intro s h _ _; exact ⟨s, rfl, h⟩
  | cons x xs ih =>
    intro s h hk ha
    have hs := (hk x (List.mem_cons_self ..) s).trans h
    have hex := execute_in_safehold (x.others s) x.inp (congrArg Prod.fst hs) ha.1
    obtain ⟨s', e1, e2⟩ := ih _ (show safeholdFields (((x.others s).afterFaults x.inp.cc).dispatchSafehold x.inp) = _ by
      have e : safeholdFields ((x.others s).afterFaults x.inp.cc) = safeholdFields (x.others s) := by
        unfold safeholdFields; rw [MM.afterFaults_mission]; rfl
      rw [← hs, ← e]
      unfold MM.dispatchSafehold
      split <;> rfl) (fun y hy => hk y (List.mem_cons_of_mem _ hy)) (ha.2 _ hex)
    exact ⟨s', (mrun_cons hex).trans e1, e2⟩

theorem dispatchSafehold_reset (h : MM) (i : MMIn) :
    (day ≤ (i.cc - h.safeholdBegin).toNat → (h.dispatchSafehold i).reset = true) ∧
    ((i.cc - h.safeholdBegin).toNat < day → (h.dispatchSafehold i).reset = h.reset) := by
  have e : (i.cc - h.safeholdBegin ≥ BitVec.ofNat 32 oneDayCcno) ↔ day ≤ (i.cc - h.safeholdBegin).toNat := by
    rw [ge_iff_le, BitVec.le_def]
    exact Iff.rfl
  unfold MM.dispatchSafehold
  constructor
  · intro hd; rw [if_pos (e.2 hd)]
  · intro hd; rw [if_neg (fun x => absurd (e.1 x) (Nat.not_le.2 hd))]

/-- C36 (partial: no further safehold-level fault after the one that led to safehold, see the counterexample). A safehold-level fault in
cycle `c0` puts the spacecraft into safehold; a day or more of consecutive cycles later, at the end of each cycle, the power system's reset
is commanded. -/
theorem C36_reset_after_a_day_partial (s : MM) (i : MMIn) (h1 : s.fh.mission ≠ Mission.startup) (h2 : s.fh.mission ≠ Mission.manual)
    (hf : SafeholdFault s i.cc) (s1 : MM) (hs1 : s.execute i = some s1) (xs : List MStep) (hk : Keeps safeholdFields xs)
    (hc : Consecutive i.cc xs) (ha : Along (fun s cc => ¬ SafeholdFault s cc) s1 xs) (hl : day ≤ xs.length) (hl' : xs.length < 2 ^ 32) :
    ∃ s', mrun s1 xs = some s' ∧ s'.fh.mission = Mission.safehold ∧ s'.reset = true := by
  rw [MM.execute_safehold s i h1 h2 ((safeholdFault_iff s i.cc).1 hf)] at hs1
  rcases List.eq_nil_or_concat xs with rfl | ⟨ys, y, rfl⟩
  · exact absurd hl (by decide)
  rw [List.concat_eq_append] at *
  have hb : safeholdFields s1 = (Mission.safehold, i.cc) := by cases hs1; rfl
  obtain ⟨t, e1, e2⟩ := safehold_run i.cc ys s1 hb (Spec.Keeps.append hk).1 (Spec.Along.append ha).1
  have hy := ((Spec.Keeps.append hk).2 y (List.mem_singleton.2 rfl) t).trans e2
  have hex := execute_in_safehold (y.others t) y.inp (congrArg Prod.fst hy) ((Spec.Along.append ha).2 t e1).1
  refine ⟨_, by rw [mrun_append, e1]; show mrun t [y] = _; rw [mrun_cons hex]; rfl, ?_, ?_⟩
  · have : (((y.others t).afterFaults y.inp.cc).dispatchSafehold y.inp).fh.mission = ((y.others t).afterFaults y.inp.cc).fh.mission := by
      unfold MM.dispatchSafehold; split <;> rfl
    rw [this, MM.afterFaults_mission]; exact congrArg Prod.fst hy
  · refine (dispatchSafehold_reset _ _).1 ?_
    have hb' : ((y.others t).afterFaults y.inp.cc).safeholdBegin = i.cc := congrArg Prod.snd hy
    rw [hb', (Spec.Consecutive.append hc).2.1]
    simp only [BitVec.toNat_sub, BitVec.toNat_add, BitVec.toNat_ofNat, List.length_append, List.length_singleton] at *
    have := i.cc.isLt
    have hD : day = 508235 := rfl
    have h1 : (1 : U32).toNat = 1 := rfl
    omega

theorem no_reset_run (b : U32) (xs : List MStep) : ∀ (s : MM) (c : U32), safeholdFields s = (Mission.safehold, b) → s.reset = false →
    Keeps safeholdFields xs → Keeps (·.reset) xs → Along (fun s cc => ¬ SafeholdFault s cc) s xs → Consecutive c xs →
    (c - b).toNat + xs.length < day → ∃ s', mrun s xs = some s' ∧ s'.reset = false ∧ s'.fh.mission = Mission.safehold := by
  induction xs with
  | nil => intro s c h hr _ _ _ _ _; exact ⟨s, rfl, hr, congrArg Prod.fst h⟩
  | cons x xs ih =>
    intro s c h hr hk hkr ha hc hl
    have hs := (hk x (List.mem_cons_self ..) s).trans h
    have hr' : (x.others s).reset = false := (hkr x (List.mem_cons_self ..) s).trans hr
    have hex := execute_in_safehold (x.others s) x.inp (congrArg Prod.fst hs) ha.1
    have hD : day = 508235 := rfl
    have hcc : (x.inp.cc - b).toNat = (c - b).toNat + 1 := by
      rw [hc.1]
      simp only [BitVec.toNat_sub, BitVec.toNat_add, List.length_cons] at hl ⊢
      have := c.isLt
      have := b.isLt
      have h1 : (1 : U32).toNat = 1 := rfl
      omega
    simp only [List.length_cons] at hl
    have e : safeholdFields ((x.others s).afterFaults x.inp.cc) = safeholdFields (x.others s) := by
      unfold safeholdFields; rw [MM.afterFaults_mission]; rfl
    have hb : ((x.others s).afterFaults x.inp.cc).safeholdBegin = b := congrArg Prod.snd hs
    obtain ⟨s', e1, e2⟩ := ih _ (c + 1) (show safeholdFields (((x.others s).afterFaults x.inp.cc).dispatchSafehold x.inp) = _ by
      rw [← hs, ← e]
      unfold MM.dispatchSafehold
      split <;> rfl) (by
        rw [(dispatchSafehold_reset _ x.inp).2 (by rw [hb, hcc]; omega)]; exact hr')
      (fun y hy => hk y (List.mem_cons_of_mem _ hy)) (fun y hy => hkr y (List.mem_cons_of_mem _ hy)) (ha.2 _ hex) hc.2
      (by rw [← hc.1, hcc]; omega)
    exact ⟨s', (mrun_cons hex).trans e1, e2⟩

/-- C59 (partial: safehold entered because of a fault). If a safehold-level fault in cycle `c0` puts the spacecraft into safehold, then for
less than a day of consecutive cycles no reset is commanded. -/
theorem C59_no_reset_before_a_day_partial (s : MM) (i : MMIn) (h1 : s.fh.mission ≠ Mission.startup) (h2 : s.fh.mission ≠ Mission.manual)
    (hf : SafeholdFault s i.cc) (hr : s.reset = false) (s1 : MM) (hs1 : s.execute i = some s1) (xs : List MStep) (hk : Keeps safeholdFields xs)
    (hkr : Keeps (·.reset) xs) (hc : Consecutive i.cc xs) (ha : Along (fun s cc => ¬ SafeholdFault s cc) s1 xs) (hl : xs.length < day) :
    ∃ s', mrun s1 xs = some s' ∧ s'.reset = false ∧ s'.fh.mission = Mission.safehold := by
  rw [MM.execute_safehold s i h1 h2 ((safeholdFault_iff s i.cc).1 hf)] at hs1
  have hb : safeholdFields s1 = (Mission.safehold, i.cc) := by cases hs1; rfl
  have hr1 : s1.reset = false := by cases hs1; exact hr
  exact no_reset_run i.cc xs s1 i.cc hb hr1 hk hkr ha hc (by rw [BitVec.sub_self]; show 0 + xs.length < day; omega)

/-- A property every handler preserves is preserved by the main fault handler. -/
theorem MainFH.loop_inv {σ : Type} (P : σ → Prop) (ms : List (σ → Resp × σ)) (h : ∀ m ∈ ms, ∀ s, P s → P (m s).2) :
    ∀ (ret : Resp) (s : σ), P s → P (MainFH.loop ms ret s).2 := by
  induction ms with
  | nil => intro ret s hs; exact hs
  | cons m ms ih =>
    intro ret s hs
    have h1 := h m (List.mem_cons_self ..) s hs
    have h2 := ih (fun m' hm' => h m' (List.mem_cons_of_mem _ hm'))
    unfold MainFH.loop
    rcases hm : m s with ⟨r, s'⟩
    rw [hm] at h1
    cases r
    · exact h2 _ _ h1
    · exact h1
    · exact h2 _ _ h1

/-- The radio handler and the radio after fault handling: only the radio handler changes them. -/
theorem FHState.execute_quake (s : FHState) (cc : U32) (P : QuakeFH → RadioIO → Prop) (h0 : P s.quake s.radio)
    (h : ∀ q r, P q r → P (q.execute r cc).2.1 (q.execute r cc).2.2) : P (s.execute cc).2.quake (s.execute cc).2.radio := by
  unfold FHState.execute MainFH.execute
  split
  · exact h0
  · refine MainFH.loop_inv (fun s : FHState => P s.quake s.radio) _ ?_ _ _ h0
    intro m hm s hs
    simp only [handlers, List.mem_cons, List.not_mem_nil, or_false] at hm
    rcases hm with rfl | rfl | rfl | rfl | rfl | rfl | rfl | rfl | rfl | rfl
    all_goals first | exact hs | exact h _ _ hs

/-- What the radio-silence response depends on. -/
def silenceFields (s : MM) : U8 × Bool × QuakeFH × RadioIO × Bool := (s.fh.mission, s.fh.enabled, s.fh.quake, s.fh.radio, s.reset)

/-- C36 does not hold: if the radio fault handler is in its last step (safehold) and there is no contact, it answers safehold in every cycle,
which restarts the timer; over any number of consecutive cycles (as long as the 32-bit counter still measures the silence) the spacecraft
stays in safehold and no reset is commanded. -/
theorem C36_counterexample_radio_silence (q : QuakeFH) (r : RadioIO) (hq : q.state = Qfh.safehold) (hqe : q.enabled = true)
    (hrs : r.state ≠ Radio.disabled) (xs : List MStep) : ∀ (s : MM) (c : U32), silenceFields s = (Mission.safehold, true, q, r, false) →
    Keeps silenceFields xs → Consecutive c xs → day ≤ sinceContact r c → sinceContact r c + xs.length < 2 ^ 32 →
    ∃ s', mrun s xs = some s' ∧ s'.fh.mission = Mission.safehold ∧ s'.reset = false := by
  induction xs with
  | nil => intro s c h _ _ _ _; exact ⟨s, rfl, congrArg (·.1) h, congrArg (·.2.2.2.2) h⟩
  | cons x xs ih =>
    intro s c h hk hc hd hl
    have hs := (hk x (List.mem_cons_self ..) s).trans h
    have e1 : (x.others s).fh.mission = Mission.safehold := congrArg (·.1) hs
    have e2 : (x.others s).fh.enabled = true := congrArg (·.2.1) hs
    have e3 : (x.others s).fh.quake = q := congrArg (·.2.2.1) hs
    have e4 : (x.others s).fh.radio = r := congrArg (·.2.2.2.1) hs
    have e5 : (x.others s).reset = false := congrArg (·.2.2.2.2) hs
    simp only [List.length_cons] at hl
    have hcc : sinceContact r x.inp.cc = sinceContact r c + 1 := by
      rw [hc.1]
      unfold sinceContact at hl ⊢
      simp only [BitVec.toNat_sub, BitVec.toNat_add] at hl ⊢
      have := c.isLt
      have := r.lastComms.isLt
      have h1 : (1 : U32).toNat = 1 := rfl
      omega
    have hqx : q.execute r x.inp.cc = (.safehold, q, r) := by
      rw [QuakeFH.execute_safehold q r x.inp.cc hqe hq]
      unfold QuakeFH.dispatchSafehold
      rw [if_neg]
      rw [Bool.or_eq_true, not_or, QuakeFH.recent_iff, QuakeFH.radioDisabled, decide_eq_true_iff, hcc]
      exact ⟨hrs, by omega⟩
    have hsf : SafeholdFault (x.others s) x.inp.cc := ⟨e2, Or.inr (Or.inr (Or.inr (by rw [e3, e4, hqx])))⟩
    have hex := MM.execute_safehold (x.others s) x.inp (by rw [e1]; decide) (by rw [e1]; decide) ((safeholdFault_iff _ _).1 hsf)
    have hqr := FHState.execute_quake (x.others s).fh x.inp.cc (fun a b => a = q ∧ b = r) ⟨e3, e4⟩ (by
      rintro a b ⟨rfl, rfl⟩; rw [hqx]; exact ⟨rfl, rfl⟩)
    obtain ⟨s', f1, f2⟩ := ih _ (c + 1) (show silenceFields { (((x.others s).afterFaults x.inp.cc).goto3 x.inp.cc Mission.safehold Adcs.startup Prp.disabled) with
        desig := Desig.undecided } = (Mission.safehold, true, q, r, false) by
      show (Mission.safehold, ((x.others s).fh.execute x.inp.cc).2.enabled, ((x.others s).fh.execute x.inp.cc).2.quake,
        ((x.others s).fh.execute x.inp.cc).2.radio, (x.others s).reset) = _
      rw [hqr.1, hqr.2, FHState.execute_enabled, e2, e5]) (fun y hy => hk y (List.mem_cons_of_mem _ hy)) hc.2
      (by rw [← hc.1, hcc]; omega) (by rw [← hc.1, hcc]; omega)
    exact ⟨s', (mrun_cons hex).trans f1, f2⟩

/-- A spacecraft in safehold whose radio has been silent through the whole ladder. -/
def Spec.silent : MM := { inState Mission.safehold with fh := { (inState Mission.safehold).fh with quake := ⟨Qfh.safehold, 2000000, true⟩, radio := ⟨Radio.wait, 100, false⟩ } }

/-- Non-vacuity: ten years of silence. -/
example : silenceFields silent = (Mission.safehold, true, ⟨Qfh.safehold, 2000000, true⟩, ⟨Radio.wait, 100, false⟩, false) ∧
    Keeps silenceFields (idle 2000001 1855057750) ∧ Consecutive 2000001 (idle 2000001 1855057750) ∧
    day ≤ sinceContact ⟨Radio.wait, 100, false⟩ 2000001 ∧
    sinceContact ⟨Radio.wait, 100, false⟩ 2000001 + (idle 2000001 1855057750).length < 2 ^ 32 :=
  ⟨by decide +kernel, idle_keeps _ _ _, idle_consecutive _ _, by decide, by rw [idle_length]; decide⟩

/-- A spacecraft without fault handling in manual does nothing. -/
theorem idle_manual (n : Nat) : ∀ (s : MM) (c : U32), s.fh.enabled = false → s.fh.mission = Mission.manual → mrun s (idle c n) = some s := by
  induction n with
  | zero => intro s c _ _; rfl
  | succ n ih =>
    intro s c he hm
    have hx : s.execute { idleIn with cc := c + 1 } = some s := by
      rw [MM.execute_dispatch s _ (Or.inr (Or.inl hm)) (Or.inr (Or.inl hm)), hm, MM.dispatch_manual]
      have : s.afterFaults (c + 1) = s := by
        unfold MM.afterFaults FHState.execute MainFH.execute
        rw [if_pos he]
      exact congrArg some this
    exact (mrun_cons (x := ⟨id, { idleIn with cc := c + 1 }⟩) hx).trans (ih s (c + 1) he hm)

/-- C59 does not hold when ground commands safehold: the timer still has the cycle of the last fault (0 if there was none). For every cycle
number `k` after the first day: the spacecraft is in manual (fault handling switched off) from cycle 1 until ground commands safehold before
cycle `k`, and the reset is commanded in cycle `k`. -/
theorem C59_counterexample_ground_safehold (n : Nat) (hn : day ≤ n + 2) (hn' : n + 2 < 2 ^ 32) :
    ∃ s', mrun (MM.init 14 20 20)
      (⟨fun s => command Mission.manual { s with fh := { s.fh with enabled := false } }, { idleIn with cc := 1 }⟩ :: idle 1 n ++
        [⟨command Mission.safehold, { idleIn with cc := BitVec.ofNat 32 (n + 2) }⟩]) = some s' ∧
      s'.fh.mission = Mission.safehold ∧ s'.reset = true := by
  have h1 : ∃ s1, (command Mission.manual { MM.init 14 20 20 with fh := { (MM.init 14 20 20).fh with enabled := false } }).execute { idleIn with cc := 1 } = some s1 ∧
      s1.fh.enabled = false ∧ s1.fh.mission = Mission.manual ∧ s1.safeholdBegin = 0 := ⟨_, rfl, rfl, rfl, rfl⟩
  obtain ⟨s1, e1, e2, e3, e4⟩ := h1
  have hex := execute_in_safehold (command Mission.safehold s1) { idleIn with cc := BitVec.ofNat 32 (n + 2) } rfl
    (fun h => by have := h.1; rw [show (command Mission.safehold s1).fh.enabled = false from e2] at this; exact absurd this (by decide))
  refine ⟨((command Mission.safehold s1).afterFaults (BitVec.ofNat 32 (n + 2))).dispatchSafehold { idleIn with cc := BitVec.ofNat 32 (n + 2) }, ?_, ?_,
    (dispatchSafehold_reset _ _).1 ?_⟩
  · rw [mrun_append, mrun_cons e1, idle_manual n s1 1 e2 e3]
    show mrun s1 [_] = _
    rw [mrun_cons hex]; rfl
  · have : ∀ (h : MM) i, (h.dispatchSafehold i).fh.mission = h.fh.mission := by
      intro h i; unfold MM.dispatchSafehold; split <;> rfl
    rw [this, MM.afterFaults_mission]; rfl
  · show day ≤ (BitVec.ofNat 32 (n + 2) - s1.safeholdBegin).toNat
    rw [e4, show BitVec.ofNat 32 (n + 2) - (0 : U32) = BitVec.ofNat 32 (n + 2) from BitVec.sub_zero _, BitVec.toNat_ofNat, Nat.mod_eq_of_lt hn']; exact hn

/-- Non-vacuity: a day in safehold after a low battery; the faults of `lowBattery` are not acted upon in safehold. -/
example : SafeholdFault (lowBattery (inState Mission.leader)) 5 ∧ Keeps safeholdFields (idle 5 508235) ∧ Consecutive 5 (idle 5 508235) ∧
    day ≤ (idle 5 508235).length := by
  refine ⟨?_, idle_keeps _ _ _, idle_consecutive _ _, by rw [idle_length]; decide⟩
  rw [safeholdFault_iff]; decide +kernel

/-! ### C58 -/

/-- C58 does not hold: in cycle 508245 the radio handler power-cycles the radio; in the next cycle the battery is low, the main fault handler
stops before the radio handler, and the radio is not switched on again, nor in the cycles after. -/
theorem C58_counterexample_low_battery :
    let s : MM := { inState Mission.standby with
      fh := { (inState Mission.standby).fh with quake := ⟨Qfh.forcedStandby, 10, true⟩, radio := ⟨Radio.wait, 0, false⟩ } }
    ((s.execute { idleIn with cc := 508245 }).map fun s => (s.fh.quake.state, s.fh.radio)) = some (Qfh.powercycle1, ⟨Radio.disabled, 0, true⟩) ∧
    ((mrun s [⟨id, { idleIn with cc := 508245 }⟩, ⟨lowBattery, { idleIn with cc := 508246 }⟩]).map fun s => (s.fh.mission, s.fh.radio.state)) =
      some (Mission.safehold, Radio.disabled) ∧
    ((mrun s ([⟨id, { idleIn with cc := 508245 }⟩, ⟨lowBattery, { idleIn with cc := 508246 }⟩] ++ idle 508246 20)).map fun s => s.fh.radio.state) =
      some Radio.disabled := by decide +kernel

/-! ### C61 -/

/-- C61: the mission manager stops the flight computer exactly if the spacecraft is in startup and the kill switch is 127. -/
theorem C61_exactly (s : MM) (i : MMIn) : s.execute i = none ↔ s.fh.mission = Mission.startup ∧ s.killSwitch = 127 := by
  constructor
  · intro h
    rcases MM.execute_cases s i with ⟨_, _, _, e⟩ | ⟨_, _, _, _, _, _, _, e⟩ | ⟨_, _, e⟩
    · rw [e] at h; cases h
    · rw [e] at h; cases h
    · rw [e] at h
      rcases MM.mission_cases s.fh.mission with c | c | c | c | c | c | c | c | c | c | c | c | c
      · refine ⟨c, ?_⟩
        rw [c, MM.dispatch_startup] at h
        by_contra hk
        obtain ⟨d1, d2⟩ := dispatchStartup_cases (s.afterFaults i.cc) i hk
        by_cases h106 : 106 ≤ (s.afterFaults i.cc).elapsed.toNat
        · obtain ⟨s', e', _⟩ := d1 h106
          rw [e'] at h; cases h
        · rw [d2 (by omega)] at h; cases h
      all_goals first
        | (rw [c] at h; cases h)
        | (rw [MM.dispatch_undefined _ _ _ c] at h; cases h)
  · rintro ⟨hm, hk⟩
    rw [MM.execute_dispatch s i (Or.inl hm) (Or.inl hm), hm, MM.dispatch_startup]
    unfold MM.dispatchStartup
    rw [if_pos (show (s.afterFaults i.cc).killSwitch = 127 from hk)]

/-- C61: once stopped, nothing happens any more until the next reboot. -/
theorem C61_stopped (f : Flight) (others : MM → MM) (inp : MMIn) (b m s : Int) (it : Nat) (es : List FEvent) (ha : f.alive = true)
    (hm : (others f.mm).fh.mission = Mission.startup) (hk : (others f.mm).killSwitch = 127)
    (hn : ∀ e ∈ es, ∀ p t2 t1, e ≠ FEvent.reboot p t2 t1) :
    (f.run (.cycle others inp b m s it :: es)).alive = false ∧ (f.run (.cycle others inp b m s it :: es)).mem = f.mem := by
  have h1 := f.step_hang others inp b m s it ha ((C61_exactly _ _).2 ⟨hm, hk⟩)
  have key : ∀ (es : List FEvent) (g : Flight), g.alive = false → (∀ e ∈ es, ∀ p t2 t1, e ≠ FEvent.reboot p t2 t1) → g.run es = g := by
    intro es
    induction es with
    | nil => intro g _ _; rfl
    | cons e es ih =>
      intro g hg hn
      cases e with
      | reboot p t2 t1 => exact absurd rfl (hn _ (List.mem_cons_self ..) p t2 t1)
      | cycle o i b m s it =>
        show (g.step _).run es = g
        rw [g.step_dead o i b m s it hg]
        exact ih g hg fun e he => hn e (List.mem_cons_of_mem _ he)
  show ((f.step _).run es).alive = false ∧ ((f.step _).run es).mem = f.mem
  rw [h1, key es _ rfl hn]
  exact ⟨rfl, rfl⟩

/-- C61 (partial: the saved mission state must not be docking or docked): after a reboot with a saved kill switch of 127, the first cycle
stops the computer again. -/
theorem C61_after_reboot_partial (mem : Mem) (total : Nat) (p t2 t1 : Rat) (vals : List Int) (hv : mem.init = some vals) (h3 : vals[3]? = some 0)
    (h6 : vals[6]? = some 127) (others : MM → MM) (inp : MMIn) (b m s : Int) (it : Nat) (hk : ∀ s, (others s).killSwitch = s.killSwitch)
    (hm : ∀ s, (others s).fh.mission = s.fh.mission) : ((Flight.boot mem total p t2 t1).step (.cycle others inp b m s it)).alive = false := by
  have hb : Flight.boot mem total p t2 t1 = ⟨mem, (MM.init p t2 t1).restored vals, 0, true, total⟩ := by unfold Flight.boot; rw [hv]
  have hm' : ((MM.init p t2 t1).restored vals).fh.mission = Mission.startup := by
    show BitVec.ofInt 8 (vals.getD 3 0) = _
    rw [List.getD_eq_getElem?_getD, h3]; rfl
  have hk' : ((MM.init p t2 t1).restored vals).killSwitch = 127 := by
    show BitVec.ofInt 8 (vals.getD 6 0) = _
    rw [List.getD_eq_getElem?_getD, h6]; rfl
  rw [hb]
  exact (C61_stopped ⟨mem, (MM.init p t2 t1).restored vals, 0, true, total⟩ others inp b m s it [] rfl ((hm _).trans hm') ((hk _).trans hk') (fun e he => absurd he List.not_mem_nil)).1

/-! ### C61: what is kept over a reboot -/


/-- The persistent memory has the size of the device. -/
def Mem.Sized : Mem → Prop
  | .desktop _ => True
  | .teensy b => b.length = 4096

open EEPROM in
/-- The values found at the next start-up after a completed cycle. -/
theorem save_init (m : Mem) (hm : m.Sized) (s : MM) (cc : Nat) (boots mag sun : Int) (iters : Nat) (hi : 7 ≤ iters) :
    ∃ vals, (m.save cc (s.saved boots mag sun) iters).init = some vals ∧
      vals[3]? = some (if s.fh.mission = Mission.docking ∨ s.fh.mission = Mission.docked then (s.fh.mission.toNat : Int) else 0) ∧
      vals[4]? = some (if s.deployed then 1 else 0) ∧ vals[5]? = some (s.elapsed.toNat : Int) ∧
      (cc % 100 = 0 → vals[6]? = some (s.killSwitch.toNat : Int)) := by
  have hrepr : ∀ x : U8, Ty.uchar.repr (x.toNat : Int) = x.toNat := by
    intro x
    have := x.isLt
    show ((x.toNat : Int) % 2 ^ 8).toNat = _
    omega
  have huchar : ∀ (n : String) (k : Nat), n ≠ "pan.state" → ∀ x : U8, setField ⟨n, .uchar, k, 0⟩ 0 x.toNat = x.toNat := by
    intro n k hn x
    have := x.isLt
    unfold setField
    rw [if_neg (fun c => hn c.1)]
    show (if x.toNat > 255 then 0 else (x.toNat : Int)) = _
    rw [if_neg (by omega)]
  have hmis : setField ⟨"pan.state", .uchar, 1, 0⟩ 0 s.fh.mission.toNat =
      if s.fh.mission = Mission.docking ∨ s.fh.mission = Mission.docked then (s.fh.mission.toNat : Int) else 0 := by
    have := s.fh.mission.isLt
    unfold setField
    by_cases h : s.fh.mission = Mission.docking ∨ s.fh.mission = Mission.docked
    · rw [if_pos h, if_neg]
      · show (if s.fh.mission.toNat > 255 then 0 else (s.fh.mission.toNat : Int)) = _
        rw [if_neg (by omega)]
      · rintro ⟨_, h8, h9⟩
        rcases h with h | h <;> rw [h] at h8 h9
        · exact h8 rfl
        · exact h9 rfl
    · rw [if_neg h, if_pos]
      refine ⟨rfl, fun h8 => h (Or.inl ?_), fun h9 => h (Or.inr ?_)⟩
      · exact BitVec.eq_of_toNat_eq h8
      · exact BitVec.eq_of_toNat_eq h9
  have hbool : ∀ d : Bool, setField ⟨"pan.deployed", .bool, 1, 0⟩ 0 (if d then 1 else 0) = if d then 1 else 0 := by decide
  have hboolrepr : ∀ d : Bool, Ty.bool.repr (if d then 1 else 0) = if d then 1 else 0 := by decide
  cases m with
  | desktop j =>
    have g := json_saveLoop flightFields (by decide) cc (s.saved boots mag sun) rfl j
    have g3 := g 3 ⟨"pan.state", .uchar, 1, 0⟩ rfl iters
    have g4 := g 4 ⟨"pan.deployed", .bool, 1, 0⟩ rfl iters
    have g5 := g 5 ⟨"pan.deployment.elapsed", .uchar, 1, 0⟩ rfl iters
    have g6 := g 6 ⟨"pan.kill_switch", .uchar, 100, 0⟩ rfl iters
    clear g
    unfold savedBy at g3 g4 g5 g6
    dsimp only at g3 g4 g5 g6
    rw [if_pos ⟨by omega, Nat.mod_one _⟩] at g3 g4 g5
    simp only [MM.saved, List.getElem?_cons_succ, List.getElem?_cons_zero] at g3 g4 g5 g6
    rw [hrepr] at g3 g5
    rw [hboolrepr] at g4
    show ∃ vals, Json.init flightFields (saveLoop (Json.update flightFields (s.saved boots mag sun)) flightFields cc j iters) = some vals ∧ _
    change List.lookup _ (saveLoop (Json.update flightFields (s.saved boots mag sun)) flightFields cc j iters) = _ at g3 g4 g5 g6
    generalize saveLoop (Json.update flightFields (s.saved boots mag sun)) flightFields cc j iters = j' at *
    unfold Json.init
    rw [if_pos (show flightFields.length ≤ 4096 / 5 by decide), if_neg]
    · refine ⟨_, rfl, ?_, ?_, ?_, fun hcc => ?_⟩
      · show some (j'.readField ⟨"pan.state", .uchar, 1, 0⟩ 0) = _
        unfold Json.readField
        rw [g3]
        exact congrArg some hmis
      · show some (j'.readField ⟨"pan.deployed", .bool, 1, 0⟩ 0) = _
        unfold Json.readField
        rw [g4]
        exact congrArg some (hbool _)
      · show some (j'.readField ⟨"pan.deployment.elapsed", .uchar, 1, 0⟩ 0) = _
        unfold Json.readField
        rw [g5]
        exact congrArg some (huchar _ _ (by decide) _)
      · show some (j'.readField ⟨"pan.kill_switch", .uchar, 100, 0⟩ 0) = _
        rw [if_pos ⟨by omega, hcc⟩] at g6
        simp only at g6
        rw [hrepr] at g6
        unfold Json.readField
        rw [g6]
        exact congrArg some (huchar _ _ (by decide) _)
    · intro h0
      rw [List.length_eq_zero_iff.mp h0] at g3
      cases g3
  | teensy b =>
    have hl : b.length = 4096 := hm
    have g := bytes_saveLoop flightFields cc (s.saved boots mag sun) rfl b (by rw [hl]; decide)
    have g3 := g 3 ⟨"pan.state", .uchar, 1, 0⟩ rfl iters
    have g4 := g 4 ⟨"pan.deployed", .bool, 1, 0⟩ rfl iters
    have g5 := g 5 ⟨"pan.deployment.elapsed", .uchar, 1, 0⟩ rfl iters
    have g6 := g 6 ⟨"pan.kill_switch", .uchar, 100, 0⟩ rfl iters
    clear g
    have hlen := bytes_saveLoop_length flightFields cc (s.saved boots mag sun) b iters
    unfold savedBy at g3 g4 g5 g6
    dsimp only at g3 g4 g5 g6
    rw [if_pos ⟨by omega, Nat.mod_one _⟩] at g3 g4 g5
    simp only [MM.saved, List.getElem?_cons_succ, List.getElem?_cons_zero] at g3 g4 g5 g6
    rw [hrepr] at g3 g5
    rw [hboolrepr] at g4
    have hof : ∀ x : U8, (BitVec.ofNat 8 x.toNat).toNat = x.toNat := fun x => by rw [BitVec.ofNat_toNat, BitVec.setWidth_eq]
    have hofb : ∀ d : Bool, (BitVec.ofNat 8 (if d then 1 else 0)).toNat = if d then 1 else 0 := by decide
    show ∃ vals, Bytes.init flightFields (saveLoop (Bytes.update flightFields (s.saved boots mag sun)) flightFields cc b iters) = some vals ∧ _
    change Bytes.read (saveLoop (Bytes.update flightFields (s.saved boots mag sun)) flightFields cc b iters) _ = _ at g3 g4 g5 g6
    generalize saveLoop (Bytes.update flightFields (s.saved boots mag sun)) flightFields cc b iters = b' at *
    unfold Bytes.init
    rw [if_pos (show flightFields.length ≤ 4096 / 5 by decide), if_neg]
    · refine ⟨_, rfl, ?_, ?_, ?_, fun hcc => ?_⟩
      · show some (setField ⟨"pan.state", .uchar, 1, 0⟩ 0 (b'.read (5 * 3)).toNat) = _
        rw [g3, hof]
        exact congrArg some hmis
      · show some (setField ⟨"pan.deployed", .bool, 1, 0⟩ 0 (b'.read (5 * 4)).toNat) = _
        rw [g4, hofb]
        exact congrArg some (hbool _)
      · show some (setField ⟨"pan.deployment.elapsed", .uchar, 1, 0⟩ 0 (b'.read (5 * 5)).toNat) = _
        rw [g5, hof]
        exact congrArg some (huchar _ _ (by decide) _)
      · show some (setField ⟨"pan.kill_switch", .uchar, 100, 0⟩ 0 (b'.read (5 * 6)).toNat) = _
        rw [if_pos ⟨by omega, hcc⟩] at g6
        simp only at g6
        rw [g6, hrepr, hof]
        exact congrArg some (huchar _ _ (by decide) _)
    · intro h0
      have hall : b'.all (fun x => x = 255) = true := h0
      rw [List.all_eq_true] at hall
      have h20 : 20 < b'.length := by omega
      have h1 := hall b'[20] (List.getElem_mem h20)
      have h2 : b'.read (5 * 4) = b'[20] := by
        show b'.getD 20 255 = _
        rw [List.getD_eq_getElem?_getD, List.getElem?_eq_getElem h20]; rfl
      rw [h2] at g4
      have h3 : b'[20] = 255 := of_decide_eq_true h1
      rw [g4] at h3
      cases hd : s.deployed <;> rw [hd] at h3 <;> exact absurd h3 (by decide)

/-- C61 (partial: a kill switch commanded less than 100 cycles before a reboot may be lost): a reboot after a completed control cycle whose
number is a multiple of 100 keeps the kill switch of that cycle, on both builds. The deployment flag and the deployment timer are kept after
every completed cycle, and the mission state if it is docking or docked; otherwise the spacecraft is in startup. -/
theorem C61_kept_partial (f : Flight) (hmem : f.mem.Sized) (others : MM → MM) (inp : MMIn) (b m s : Int) (it : Nat) (h7 : 7 ≤ it) (p t2 t1 : Rat)
    (hfa : f.alive = true) (ha : (f.step (.cycle others inp b m s it)).alive = true) :
    let f1 := f.step (.cycle others inp b m s it)
    let f2 := f1.step (.reboot p t2 t1)
    (f1.cc.toNat % 100 = 0 → f2.mm.killSwitch = f1.mm.killSwitch) ∧
    (f2.alive = true ∧ f2.mm.deployed = f1.mm.deployed ∧ f2.mm.elapsed = f1.mm.elapsed ∧
      f2.mm.fh.mission = if f1.mm.fh.mission = Mission.docking ∨ f1.mm.fh.mission = Mission.docked then f1.mm.fh.mission else Mission.startup) := by
  intro f1 f2
  have hof : ∀ x : U8, BitVec.ofInt 8 (x.toNat : Int) = x := fun x => by rw [BitVec.ofInt_natCast, BitVec.ofNat_toNat, BitVec.setWidth_eq]
  cases hx : (others f.mm).execute { inp with cc := f.cc + 1 } with
  | none =>
    rw [f.step_hang others inp b m s it hfa hx] at ha
    cases ha
  | some s' =>
    have hs := f.step_some others inp b m s it hfa s' hx
    have hf1 : f1 = _ := hs
    obtain ⟨vals, hv, h3, h4, h5, h6⟩ := save_init f.mem hmem s' (f.cc + 1).toNat b m s it h7
    have hf2 : f2 = ⟨f1.mem, (MM.init p t2 t1).restored vals, 0, true, f.total + 1⟩ := by
      have hv1 : f1.mem.init = some vals := by rw [hf1]; exact hv
      have ht1 : f1.total = f.total + 1 := by rw [hf1]
      show Flight.boot f1.mem f1.total p t2 t1 = _
      unfold Flight.boot
      rw [hv1, ht1]
    clear_value f1 f2
    subst hf1 hf2
    refine ⟨fun hcc => ?_, rfl, ?_, ?_, ?_⟩
    · show BitVec.ofInt 8 (vals.getD 6 0) = s'.killSwitch
      rw [List.getD_eq_getElem?_getD, h6 hcc]; exact hof _
    · show decide (vals.getD 4 0 ≠ 0) = s'.deployed
      rw [List.getD_eq_getElem?_getD, h4]
      cases s'.deployed <;> rfl
    · show BitVec.ofInt 8 (vals.getD 5 0) = s'.elapsed
      rw [List.getD_eq_getElem?_getD, h5]; exact hof _
    · show BitVec.ofInt 8 (vals.getD 3 0) = _
      rw [List.getD_eq_getElem?_getD, h3]
      show BitVec.ofInt 8 (if _ then _ else _) = _
      split
      · exact hof _
      · rfl

/-- C61 (partial, as above): a kill switch commanded by the end of a completed cycle whose number is a multiple of 100 stops the computer in
the first cycle after a reboot, unless the spacecraft was docking or docked. -/
theorem C61_stops_again_partial (f : Flight) (hmem : f.mem.Sized) (others : MM → MM) (inp : MMIn) (b m s : Int) (it : Nat) (h7 : 7 ≤ it) (p t2 t1 : Rat)
    (hfa : f.alive = true) (ha : (f.step (.cycle others inp b m s it)).alive = true)
    (hcc : (f.step (.cycle others inp b m s it)).cc.toNat % 100 = 0) (hk : (f.step (.cycle others inp b m s it)).mm.killSwitch = 127)
    (hd : (f.step (.cycle others inp b m s it)).mm.fh.mission ≠ Mission.docking ∧ (f.step (.cycle others inp b m s it)).mm.fh.mission ≠ Mission.docked)
    (others' : MM → MM) (inp' : MMIn) (b' m' s' : Int) (it' : Nat) (hk' : ∀ s, (others' s).killSwitch = s.killSwitch)
    (hm' : ∀ s, (others' s).fh.mission = s.fh.mission) :
    (f.run [.cycle others inp b m s it, .reboot p t2 t1, .cycle others' inp' b' m' s' it']).alive = false := by
  obtain ⟨h1, h2, _, _, h3⟩ := C61_kept_partial f hmem others inp b m s it h7 p t2 t1 hfa ha
  rw [if_neg (fun h => h.elim hd.1 hd.2)] at h3
  exact (C61_stopped _ others' inp' b' m' s' it' [] h2 ((hm' _).trans h3) ((hk' _).trans ((h1 hcc).trans hk)) (fun e he => absurd he List.not_mem_nil)).1

/-- C61 does not hold for a kill switch commanded less than 100 cycles before a reboot: here it is commanded in cycle 2, in detumble; after a
reboot at the end of cycle 4 the computer runs on. -/
theorem C61_counterexample_period :
    let start := Flight.boot (.desktop [("pan.deployment.elapsed", 106)]) 10600 14 20 20
    let kill : MM → MM := fun s => { s with killSwitch := 127 }
    let f := start.run [.cycle id idleIn 1 0 0 7, .cycle kill idleIn 1 0 0 7, .cycle id idleIn 1 0 0 7, .cycle id idleIn 1 0 0 7]
    f.mm.killSwitch = 127 ∧ f.alive = true ∧ (f.step (.reboot 14 20 20)).mm.killSwitch = 0 ∧
      (f.run [.reboot 14 20 20, .cycle id idleIn 2 0 0 7]).alive = true := by decide +kernel

/-! ### C62 -/

theorem startup_radio (s s' : MM) (i : MMIn) (hm : s.fh.mission = Mission.startup) (he : s.execute i = some s')
    (hn : s'.fh.mission ≠ Mission.startup) : s'.fh.radio.state ≠ Radio.disabled ∧ s'.piksiOff = false := by
  rw [MM.execute_dispatch s i (Or.inl hm) (Or.inl hm), hm, MM.dispatch_startup] at he
  have hmis := (MM.afterFaults_mission s i.cc).trans hm
  generalize s.afterFaults i.cc = h at *
  unfold MM.dispatchStartup at he
  split at he
  · cases he
  split at he
  · split at he <;> cases he <;> exact absurd hmis hn
  dsimp only at he
  generalize hk : (if h.fh.radio.state = Radio.disabled then _ else _ : MM) = k at he
  have hkr : k.fh.radio.state ≠ Radio.disabled ∧ k.piksiOff = false := by
    rw [← hk]
    split
    · exact ⟨show Radio.config ≠ Radio.disabled by decide, rfl⟩
    · rename_i hh; exact ⟨hh, rfl⟩
  obtain ⟨_, _, c, d, _⟩ := MM.hwPolled_frame k
  split at he <;> cases he <;>
    · refine ⟨?_, ?_⟩
      · show k.hwPolled.fh.radio.state ≠ _
        rw [c]; exact hkr.1
      · show k.hwPolled.piksiOff = false
        rw [d]; exact hkr.2

/-- C62 (partial: boots into startup). In the cycle in which the spacecraft leaves startup the radio is enabled and the GPS receiver's
off-command withdrawn. -/
theorem C62_radio_on_after_startup_partial (s s' : MM) (i : MMIn) (hm : s.fh.mission = Mission.startup) (he : s.execute i = some s')
    (hn : s'.fh.mission ≠ Mission.startup) : s'.fh.radio.state ≠ Radio.disabled ∧ s'.piksiOff = false := startup_radio s s' i hm he hn

/-- The radio off and its fault handler content with it. -/
def RadioOff (s : MM) : Prop := s.fh.mission ≠ Mission.startup ∧ s.fh.radio.state = Radio.disabled ∧ s.fh.quake.state = Qfh.unfaulted

theorem quake_radioOff (q : QuakeFH) (r : RadioIO) (cc : U32) (h : q.state = Qfh.unfaulted ∧ r.state = Radio.disabled) :
    (q.execute r cc).2.1.state = Qfh.unfaulted ∧ (q.execute r cc).2.2.state = Radio.disabled := by
  cases he : q.enabled with
  | false =>
    unfold QuakeFH.execute
    rw [if_pos he]; exact h
  | true =>
    rw [QuakeFH.execute_unfaulted q r cc he h.1]
    unfold QuakeFH.dispatchUnfaulted
    rw [if_pos (by rw [QuakeFH.radioDisabled, decide_eq_true h.2]; rfl)]
    exact h

/-- Outside startup the manager itself does not touch the radio, nor does it go back to startup. -/
theorem radioOff_step (s : MM) (i : MMIn) (h : RadioOff s) : ∃ s', s.execute i = some s' ∧ RadioOff s' := by
  obtain ⟨h1, h2, h3⟩ := h
  have hq := FHState.execute_quake s.fh i.cc (fun a b => a.state = Qfh.unfaulted ∧ b.state = Radio.disabled) ⟨h3, h2⟩
    (fun q r => quake_radioOff q r i.cc)
  rcases MM.execute_cases s i with ⟨_, _, _, e⟩ | ⟨_, _, _, _, _, _, _, e⟩ | ⟨_, _, e⟩
  · exact ⟨_, e, show Mission.safehold ≠ Mission.startup by decide, hq.2, hq.1⟩
  · exact ⟨_, e, show Mission.standby ≠ Mission.startup by decide, hq.2, hq.1⟩
  · have hg : RadioOff (s.afterFaults i.cc) := ⟨by rw [MM.afterFaults_mission]; exact h1, hq.2, hq.1⟩
    rw [e]
    generalize s.afterFaults i.cc = g at hg
    have go2 : ∀ m a, m ≠ Mission.startup → RadioOff (g.goto2 i.cc m a) := fun m a hm => ⟨hm, hg.2.1, hg.2.2⟩
    rcases MM.mission_cases s.fh.mission with c | c | c | c | c | c | c | c | c | c | c | c | c
    · exact absurd c h1
    · rw [c, MM.dispatch_detumble]; refine ⟨_, rfl, ?_⟩
      unfold MM.dispatchDetumble; split
      · split
        · exact hg
        · exact go2 _ _ (by decide)
      · exact hg
    · rw [c, MM.dispatch_hold]; exact ⟨_, rfl, hg⟩
    · rw [c, MM.dispatch_standby]; refine ⟨_, rfl, ?_⟩
      unfold MM.dispatchStandby; split
      · exact go2 _ _ (by decide)
      · split
        · exact go2 _ _ (by decide)
        · exact hg
    · rw [c, MM.dispatch_follower]; refine ⟨_, rfl, ?_⟩
      unfold MM.dispatchFar; split
      · exact go2 _ _ (by decide)
      · exact hg
    · rw [c, MM.dispatch_leader]; refine ⟨_, rfl, ?_⟩
      unfold MM.dispatchFar; split
      · exact go2 _ _ (by decide)
      · exact hg
    · rw [c, MM.dispatch_followerClose]; refine ⟨_, rfl, ?_⟩
      unfold MM.dispatchClose; split
      · exact go2 _ _ (by decide)
      · exact hg
    · rw [c, MM.dispatch_leaderClose]; refine ⟨_, rfl, ?_⟩
      unfold MM.dispatchClose; split
      · exact go2 _ _ (by decide)
      · exact hg
    · rw [c, MM.dispatch_docking]; refine ⟨_, rfl, ?_⟩
      unfold MM.dispatchDocking
      dsimp only
      have hk : RadioOff (if g.haveSetDocking = false then { g with enterDocking := i.cc, haveSetDocking := true } else g) := by
        split <;> exact hg
      generalize (if g.haveSetDocking = false then { g with enterDocking := i.cc, haveSetDocking := true } else g) = k at hk
      split
      · exact ⟨show Mission.docked ≠ Mission.startup by decide, hk.2.1, hk.2.2⟩
      · split
        · exact ⟨show Mission.standby ≠ Mission.startup by decide, hk.2.1, hk.2.2⟩
        · exact hk
    · rw [c, MM.dispatch_docked]; exact ⟨_, rfl, hg⟩
    · rw [c, MM.dispatch_safehold]; refine ⟨_, rfl, ?_⟩
      unfold MM.dispatchSafehold; split <;> exact hg
    · rw [c, MM.dispatch_manual]; exact ⟨_, rfl, hg⟩
    · rw [MM.dispatch_undefined _ _ _ c]; exact ⟨_, rfl, go2 _ _ (by decide)⟩

/-- The other tasks leave the radio off (the radio manager does nothing in the disabled state) and nothing comes from the ground. -/
def Spec.NoContact : FEvent → Prop
  | .cycle others .. => ∀ s, (others s).fh.mission = s.fh.mission ∧ (others s).fh.radio.state = s.fh.radio.state ∧
      (others s).fh.quake.state = s.fh.quake.state
  | .reboot .. => False

/-- C62 does not hold after a reboot in docking or docked, and neither does C61: the spacecraft resumes that state, in which nothing switches
the radio on; the radio handler takes a disabled radio for a healthy one. Over any number of cycles, whatever the faults, the radio stays off
(and with it every ground command), and the computer keeps running whatever the saved kill switch. -/
theorem C62_counterexample_docked (mem : Mem) (total : Nat) (p t2 t1 : Rat) (vals : List Int) (hv : mem.init = some vals)
    (h3 : vals[3]? = some 8 ∨ vals[3]? = some 9) (es : List FEvent) (hn : ∀ e ∈ es, NoContact e) :
    ((Flight.boot mem total p t2 t1).run es).alive = true ∧ ((Flight.boot mem total p t2 t1).run es).mm.fh.radio.state = Radio.disabled := by
  have hb : Flight.boot mem total p t2 t1 = ⟨mem, (MM.init p t2 t1).restored vals, 0, true, total⟩ := by unfold Flight.boot; rw [hv]
  have hm : ((MM.init p t2 t1).restored vals).fh.mission ≠ Mission.startup := by
    show BitVec.ofInt 8 (vals.getD 3 0) ≠ _
    rw [List.getD_eq_getElem?_getD]
    rcases h3 with h | h <;> rw [h] <;> decide
  have key : ∀ (es : List FEvent) (f : Flight), f.alive = true → RadioOff f.mm → (∀ e ∈ es, NoContact e) →
      (f.run es).alive = true ∧ (f.run es).mm.fh.radio.state = Radio.disabled := by
    intro es
    induction es with
    | nil => intro f ha h _; exact ⟨ha, h.2.1⟩
    | cons e es ih =>
      intro f ha h hn
      have he := hn e (List.mem_cons_self ..)
      cases e with
      | reboot => exact he.elim
      | cycle o inp b m s it =>
        obtain ⟨q1, q2, q3⟩ := he f.mm
        obtain ⟨s', e1, e2⟩ := radioOff_step (o f.mm) { inp with cc := f.cc + 1 } ⟨by rw [q1]; exact h.1, q2.trans h.2.1, q3.trans h.2.2⟩
        show ((f.step _).run es).alive = true ∧ ((f.step _).run es).mm.fh.radio.state = _
        rw [f.step_some o inp b m s it ha s' e1]
        exact ih _ ha e2 fun e he => hn e (List.mem_cons_of_mem _ he)
  rw [hb]
  exact key es _ rfl ⟨hm, rfl, rfl⟩ hn

/-- C61 does not hold after a reboot in docked with a saved kill switch of 127: the memory after one cycle that saved them. -/
theorem C61_counterexample_docked (n : Nat) :
    let mem := Mem.save 100 [1, 0, 0, 9, 1, 107, 127] 7 (.desktop [])
    (∃ vals, mem.init = some vals ∧ vals[6]? = some 127) ∧
    ((Flight.boot mem 100 14 20 20).run (List.replicate n (.cycle id idleIn 2 0 0 7))).alive = true := by
  refine ⟨⟨[1, 0, 0, 9, 1, 107, 127], by decide +kernel, by decide +kernel⟩, ?_⟩
  refine (C62_counterexample_docked _ _ _ _ _ [1, 0, 0, 9, 1, 107, 127] (by decide +kernel) (Or.inr rfl) _ fun e he => ?_).1
  rw [List.eq_of_mem_replicate he]
  exact fun s => ⟨rfl, rfl, rfl⟩

/-- Non-vacuity of `C61_kept_partial` and `C61_stops_again_partial`: the kill switch is commanded in the saved cycle, on both builds. -/
example : let kill : MM → MM := fun s => { s with killSwitch := 127 }
    let f (mem : Mem) : Flight := { Flight.boot mem 10600 14 20 20 with cc := 99 }
    let m1 : Mem := .desktop [("pan.deployment.elapsed", 106)]
    let s : MM := { MM.init 14 20 20 with elapsed := 106 }
    let m2 : Mem := .teensy (List.replicate 4096 255)
    ((f m1).step (.cycle kill idleIn 1 0 0 7)).alive = false ∧
    (({ f m1 with mm := { s with fh := { s.fh with mission := Mission.standby } } }).run [.cycle kill idleIn 1 0 0 7, .reboot 14 20 20]).mm.killSwitch = 127 ∧
    (({ f m2 with mm := { s with fh := { s.fh with mission := Mission.standby } } }).run [.cycle kill idleIn 1 0 0 7, .reboot 14 20 20]).mm.killSwitch = 127 := by
  decide +kernel

/-- Non-vacuity for the positive parts. -/
example : (MM.execute { MM.init 14 20 20 with killSwitch := 127 } idleIn) = none ∧ ((MM.init 14 20 20).execute idleIn).isSome = true := by decide +kernel
example : let s := { MM.init 14 20 20 with elapsed := 106 }
    (s.execute { idleIn with cc := 10600 }).map (fun s => (s.fh.mission, s.fh.radio.state)) = some (Mission.detumble, Radio.config) := by decide +kernel
example : let mem := Mem.save 100 [1, 0, 0, 3, 1, 107, 127] 7 (.desktop [])
    mem.init = some [1, 0, 0, 0, 1, 107, 127] := by decide +kernel

end PAN
