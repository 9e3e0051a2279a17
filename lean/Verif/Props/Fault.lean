import Verif.Spec.Fault
/-!
Properties C21, C22, C23: faults.
-/
namespace PAN
open Spec

/-! ### Helper lemmas -/

namespace Fault

theorem isFaulted_eq (f : Fault) :
    f.isFaulted = (f.override || (!f.suppress && decide (f.processCommands.num > f.persistence))) := by
  cases h : f.override <;> cases h' : f.suppress <;>
    simp [isFaulted, poll, refresh, processCommands, h, h'] <;> grind

/-- Polling twice is polling once. -/
theorem poll_poll (f : Fault) : f.poll.poll = f.poll := by
  obtain ⟨v, s, o, u, p, l, n, ps, po⟩ := f
  cases s <;> cases o <;> cases u <;> cases ps <;> cases po <;> simp [poll, refresh, processCommands]

theorem isFaulted_poll (f : Fault) : f.poll.isFaulted = f.isFaulted := by
  unfold isFaulted; rw [poll_poll]

/-- No ground command is present or pending. -/
def Quiet (f : Fault) : Prop :=
  f.suppress = false ∧ f.override = false ∧ f.unsig = false

theorem quiet_step {f : Fault} (h : f.Quiet) {op : FaultOp} (ho : isFlightCall op = true) :
    (f.step op).Quiet ∧ (f.step op).persistence = f.persistence := by
  obtain ⟨h1, h2, h3⟩ := h
  cases op with
  | signal cc =>
    simp only [step, signal]; split <;> exact ⟨⟨h1, h2, h3⟩, rfl⟩
  | unsignal => exact ⟨⟨h1, h2, h3⟩, rfl⟩
  | poll =>
    simp [step, Quiet, poll, refresh, processCommands, h1, h2, h3]
  | _ => cases ho

theorem quiet_isFaulted {f : Fault} (h : f.Quiet) :
    f.isFaulted = decide (f.num > f.persistence) := by
  obtain ⟨h1, h2, h3⟩ := h
  rw [isFaulted_eq]
  simp [processCommands, h1, h2, h3]

theorem quiet_poll_num {f : Fault} (h : f.Quiet) :
    f.poll.num = f.num ∧ f.poll.lastFaultTime = f.lastFaultTime := by
  obtain ⟨h1, h2, h3⟩ := h
  simp [poll, refresh, processCommands, h1, h2, h3]

end Fault

/-- Count of distinct cycles on a newest-first history. -/
private def cnt (h : List FaultOp) : Nat :=
  ((signalCycles (h.takeWhile notUnsignal)).filter
    (fun c => decide (∀ d ∈ signalCycles (h.dropWhile notUnsignal), d < c))).dedup.length

private theorem sc_signal (cc : U32) (h) : signalCycles (.signal cc :: h) = cc.toNat :: signalCycles h := rfl
private theorem sc_unsignal (h) : signalCycles (.unsignal :: h) = signalCycles h := rfl
private theorem sc_poll (h) : signalCycles (.poll :: h) = signalCycles h := rfl
private theorem cnt_unsignal (h) : cnt (.unsignal :: h) = 0 := rfl
private theorem cnt_poll (h) : cnt (.poll :: h) = cnt h := rfl

private theorem cnt_reverse (ops : List FaultOp) : cnt ops.reverse = consecutiveCycles ops := rfl

private theorem mem_signalCycles {h : List FaultOp} {d : Nat} :
    d ∈ signalCycles h ↔ ∃ cc : U32, .signal cc ∈ h ∧ cc.toNat = d := by
  simp only [signalCycles, List.mem_filterMap]
  constructor
  · rintro ⟨a, ha, hb⟩
    cases a <;> simp at hb
    exact ⟨_, ha, hb⟩
  · rintro ⟨cc, ha, hb⟩
    exact ⟨_, ha, by simp [hb]⟩

private theorem fault_inv (p : U32) (h : List FaultOp) (hf : ∀ op ∈ h, isFlightCall op = true)
    (hm : (signalCycles h).Pairwise (· ≥ ·)) (hp : ∀ c ∈ signalCycles h, 0 < c) :
    let f := h.foldr (fun op f => Fault.step f op) (Fault.init p)
    f.Quiet ∧ f.persistence = p ∧ f.num.toNat = cnt h ∧ f.num.toNat ≤ f.lastFaultTime.toNat ∧
      (∀ c ∈ signalCycles h, c ≤ f.lastFaultTime.toNat) ∧
      (f.lastFaultTime.toNat = 0 ∨ f.lastFaultTime.toNat ∈ signalCycles h) := by
  induction h with
  | nil => simp [Fault.init, Fault.Quiet, cnt, signalCycles]
  | cons op h ih =>
    have hf' : ∀ op ∈ h, isFlightCall op = true := fun o ho => hf o (List.mem_cons_of_mem _ ho)
    have ho := hf op (List.mem_cons_self ..)
    have hm' : (signalCycles h).Pairwise (· ≥ ·) := by
      cases op <;> simp_all [signalCycles]
    have hp' : ∀ c ∈ signalCycles h, 0 < c := by
      intro c hc; apply hp; rw [mem_signalCycles] at *
      obtain ⟨cc, a, b⟩ := hc; exact ⟨cc, List.mem_cons_of_mem _ a, b⟩
    obtain ⟨iq, ip, inum, ile, iub, ilast⟩ := ih hf' hm' hp'
    simp only [List.foldr_cons]
    generalize hff : h.foldr (fun op f => Fault.step f op) (Fault.init p) = f at *
    have hq := Fault.quiet_step iq ho
    refine ⟨hq.1, hq.2.trans ip, ?_⟩
    cases op with
    | unsignal =>
      refine ⟨?_, ?_, ?_, ?_⟩
      · rw [cnt_unsignal]; rfl
      · simp [Fault.step, Fault.unsignal]
      · simpa [Fault.step, Fault.unsignal, signalCycles] using iub
      · simpa [Fault.step, Fault.unsignal, signalCycles] using ilast
    | poll =>
      have := Fault.quiet_poll_num iq
      simp only [Fault.step, this]
      refine ⟨?_, ile, ?_, ?_⟩
      · rw [inum, cnt_poll]
      · simpa [signalCycles] using iub
      · simpa [signalCycles] using ilast
    | signal cc =>
      have hsc : signalCycles (.signal cc :: h) = cc.toNat :: signalCycles h := by
        rfl
      rw [hsc] at hm hp ⊢
      have hcc : 0 < cc.toNat := hp _ (List.mem_cons_self ..)
      have hge : ∀ d ∈ signalCycles h, d ≤ cc.toNat := (List.pairwise_cons.mp hm).1
      have hsplit : ∀ d ∈ signalCycles h, d ∈ signalCycles (h.takeWhile notUnsignal) ∨
          d ∈ signalCycles (h.dropWhile notUnsignal) := by
        intro d hd
        rw [← List.takeWhile_append_dropWhile (p := notUnsignal) (l := h)] at hd
        simpa only [signalCycles, List.filterMap_append, List.mem_append] using hd
      have hdrop : ∀ d ∈ signalCycles (h.dropWhile notUnsignal), d ∈ signalCycles h := by
        intro d hd
        rw [mem_signalCycles] at *
        obtain ⟨c, a, b⟩ := hd
        exact ⟨c, (List.dropWhile_sublist _).subset a, b⟩
      have htake : ∀ d ∈ signalCycles (h.takeWhile notUnsignal), d ∈ signalCycles h := by
        intro d hd
        rw [mem_signalCycles] at *
        obtain ⟨c, a, b⟩ := hd
        exact ⟨c, (List.takeWhile_sublist _).subset a, b⟩
      have hcnt : cnt (.signal cc :: h) =
          ((cc.toNat :: signalCycles (h.takeWhile notUnsignal)).filter
            (fun c => decide (∀ d ∈ signalCycles (h.dropWhile notUnsignal), d < c))).dedup.length := by
        rfl
      by_cases hlt : cc > f.lastFaultTime
      · -- a new cycle
        have hlt' : f.lastFaultTime.toNat < cc.toNat := by bv_omega
        have hstep : f.step (.signal cc) =
            ({ f with num := f.num + 1, lastFaultTime := cc } : Fault).refresh := by
          simp [Fault.step, Fault.signal, hlt]
        have hnum : (f.num + 1).toNat = f.num.toNat + 1 := by
          have := cc.isLt
          simp only [BitVec.toNat_add]; rw [Nat.mod_eq_of_lt]
          · rfl
          · have : (1 : U32).toNat = 1 := rfl
            omega
        have hnew : ∀ d ∈ signalCycles h, d < cc.toNat := fun d hd =>
          Nat.lt_of_le_of_lt (iub d hd) hlt'
        rw [hstep]
        refine ⟨?_, ?_, ?_, ?_⟩
        · show (f.num + 1).toNat = _
          rw [hnum, hcnt, List.filter_cons_of_pos, List.dedup_cons_of_notMem, List.length_cons, inum]
          · rfl
          · intro hmem
            have := htake _ (List.mem_of_mem_filter hmem)
            exact absurd (hnew _ this) (Nat.lt_irrefl _)
          · simp only [decide_eq_true_eq]
            intro d hd; exact hnew d (hdrop d hd)
        · show (f.num + 1).toNat ≤ cc.toNat
          omega
        · intro c hc
          show c ≤ cc.toNat
          rcases List.mem_cons.mp hc with rfl | hc
          · exact Nat.le_refl _
          · exact hge c hc
        · right; exact List.mem_cons_self ..
      · -- already signalled in this cycle
        have hle : cc.toNat ≤ f.lastFaultTime.toNat := by bv_omega
        have hne : ¬ (cc > f.lastFaultTime ∨ cc = 0) := by
          rintro (h1 | h1)
          · exact hlt h1
          · subst h1; simp at hcc
        have hstep : f.step (.signal cc) = f.refresh := by
          simp only [Fault.step, Fault.signal, if_neg hne]
        have hmem : f.lastFaultTime.toNat ∈ signalCycles h := by
          rcases ilast with h0 | h0
          · omega
          · exact h0
        have heq : cc.toNat = f.lastFaultTime.toNat := Nat.le_antisymm hle (hge _ hmem)
        rw [hstep]
        refine ⟨?_, ile, ?_, ?_⟩
        · show f.num.toNat = _
          rw [inum, hcnt]
          by_cases hpass : ∀ d ∈ signalCycles (h.dropWhile notUnsignal), d < cc.toNat
          · rw [List.filter_cons_of_pos (by simpa using hpass), List.dedup_cons_of_mem]
            · rfl
            · rw [List.mem_filter]
              refine ⟨?_, by simpa using hpass⟩
              rcases hsplit _ hmem with h1 | h1
              · rw [heq]; exact h1
              · have := hpass _ h1; omega
          · rw [List.filter_cons_of_neg (by simpa using hpass)]; rfl
        · intro c hc
          rcases List.mem_cons.mp hc with rfl | hc
          · exact hle
          · exact iub c hc
        · right; exact List.mem_cons_of_mem _ hmem
    | _ => cases ho

/-! ### C21 -/

/-- **C21.** For every history of `signal`/`unsignal`/`is_faulted` calls whose control cycle numbers are
positive and never decrease, a fault with persistence `p` reports faulted exactly when it has been
signalled on more than `p` distinct control cycles since it was last unsignalled. -/
theorem C21_fault_trips_after_persistence (p : U32) (ops : List FaultOp)
    (hflight : ∀ op ∈ ops, isFlightCall op = true)
    (hmono : (signalCycles ops).Pairwise (· ≤ ·))
    (hpos : ∀ c ∈ signalCycles ops, 0 < c) :
    ((Fault.init p).run ops).isFaulted = decide (consecutiveCycles ops > p.toNat) := by
  have hinv := fault_inv p ops.reverse (by simpa using hflight)
    (by simp only [signalCycles, List.filterMap_reverse, List.pairwise_reverse] at *; simpa using hmono)
    (by intro c hc; apply hpos; simpa [signalCycles, List.filterMap_reverse] using hc)
  simp only [List.foldr_reverse] at hinv
  obtain ⟨hq, hper, hnum, -⟩ := hinv
  have hrun : (Fault.init p).run ops = ops.foldl (fun f op => f.step op) (Fault.init p) := rfl
  rw [hrun, Fault.quiet_isFaulted hq, hper, ← cnt_reverse, ← hnum]
  simp only [gt_iff_lt, BitVec.lt_def]

/-- The hypotheses are met by a history with repeated signals, an unsignal and polls, on both sides of
the threshold. -/
example :
    let ops := [FaultOp.signal 3, .signal 3, .poll, .unsignal, .signal 4, .signal 5, .signal 5, .poll, .signal 6]
    (∀ op ∈ ops, isFlightCall op = true) ∧ (signalCycles ops).Pairwise (· ≤ ·) ∧
      (∀ c ∈ signalCycles ops, 0 < c) ∧ consecutiveCycles ops = 3 ∧
      ((Fault.init 2).run ops).isFaulted = true ∧ ((Fault.init 3).run ops).isFaulted = false := by
  decide

private theorem evals_inv (p : U32) (h : List (U32 × Bool))
    (hm : (h.map (·.1.toNat)).Pairwise (· > ·)) (hp : ∀ e ∈ h, 0 < e.1.toNat) :
    let f := h.foldr (fun e f => Fault.evaluate f e.1 e.2) (Fault.init p)
    f.Quiet ∧ f.persistence = p ∧ f.num.toNat = ((h.map (·.2)).takeWhile id).length ∧
      f.num.toNat ≤ f.lastFaultTime.toNat ∧
      (f.lastFaultTime.toNat = 0 ∨ ∃ e ∈ h, f.lastFaultTime = e.1) := by
  induction h with
  | nil => simp [Fault.init, Fault.Quiet]
  | cons e h ih =>
    rw [List.map_cons, List.pairwise_cons] at hm
    obtain ⟨iq, ip, inum, ile, ilast⟩ := ih hm.2 (fun e he => hp e (List.mem_cons_of_mem _ he))
    simp only [List.foldr_cons]
    generalize h.foldr (fun e f => Fault.evaluate f e.1 e.2) (Fault.init p) = f at *
    obtain ⟨cc, b⟩ := e
    cases b with
    | false =>
      obtain ⟨q1, q2, q3⟩ := iq
      refine ⟨⟨q1, q2, q3⟩, ip, ?_, ?_, ?_⟩
      · simp [Fault.evaluate, Fault.unsignal]
      · simp [Fault.evaluate, Fault.unsignal]
      · rcases ilast with h0 | ⟨e, he, h0⟩
        · exact Or.inl h0
        · exact Or.inr ⟨e, List.mem_cons_of_mem _ he, h0⟩
    | true =>
      have hcc := hp (cc, true) (List.mem_cons_self ..)
      have hlt : cc > f.lastFaultTime := by
        rcases ilast with h0 | ⟨e, he, h0⟩
        · simp only at hcc; bv_omega
        · have := hm.1 e.1.toNat (List.mem_map_of_mem (f := fun e : U32 × Bool => e.1.toNat) he)
          rw [h0]; simp only at this; bv_omega
      have hst : f.evaluate cc true =
          ({ f with num := f.num + 1, lastFaultTime := cc } : Fault).refresh := by
        simp [Fault.evaluate, Fault.signal, hlt]
      have hnum : (f.num + 1).toNat = f.num.toNat + 1 := by
        have := cc.isLt
        have h1 : (1 : U32).toNat = 1 := rfl
        have : f.lastFaultTime.toNat < cc.toNat := by bv_omega
        simp only [BitVec.toNat_add]; rw [Nat.mod_eq_of_lt] <;> omega
      have hl2 : f.lastFaultTime.toNat < cc.toNat := by bv_omega
      simp only [hst]
      obtain ⟨q1, q2, q3⟩ := iq
      refine ⟨⟨q1, q2, q3⟩, ip, ?_, ?_, ?_⟩
      · show (f.num + 1).toNat = _
        rw [hnum, inum]; simp
      · show (f.num + 1).toNat ≤ cc.toNat
        omega
      · exact Or.inr ⟨_, List.mem_cons_self .., rfl⟩

/-- **C21, one evaluation per cycle.** When the condition is evaluated once per control cycle (strictly
increasing positive cycle numbers, as the control tasks do), the fault reports faulted exactly when the
condition has been true on the last `p+1` evaluations or more. -/
theorem C21_fault_trips_on_consecutive_evaluations (p : U32) (evals : List (U32 × Bool))
    (hmono : (evals.map (·.1.toNat)).Pairwise (· < ·)) (hpos : ∀ e ∈ evals, 0 < e.1.toNat) :
    (evals.foldl (fun f e => f.evaluate e.1 e.2) (Fault.init p)).isFaulted
      = decide (trailingTrue (evals.map (·.2)) > p.toNat) := by
  have hinv := evals_inv p evals.reverse
    (by rw [List.map_reverse, List.pairwise_reverse]; simpa using hmono)
    (by simpa using hpos)
  simp only [List.foldr_reverse] at hinv
  obtain ⟨hq, hper, hnum, -⟩ := hinv
  rw [Fault.quiet_isFaulted hq, hper, trailingTrue, ← List.map_reverse, ← hnum]
  simp only [gt_iff_lt, BitVec.lt_def]

example :
    let evals : List (U32 × Bool) := [(1, true), (2, false), (3, true), (7, true), (8, true)]
    (evals.map (·.1.toNat)).Pairwise (· < ·) ∧ (∀ e ∈ evals, 0 < e.1.toNat) ∧
      (evals.foldl (fun f e => f.evaluate e.1 e.2) (Fault.init 2)).isFaulted = true ∧
      (evals.foldl (fun f e => f.evaluate e.1 e.2) (Fault.init 3)).isFaulted = false := by
  decide

/-! ### C22 -/

/-- **C22 (override).** While override is set the fault reports faulted, whatever its history. -/
theorem C22_override_forces_fault (f : Fault) (h : f.override = true) : f.isFaulted = true := by
  rw [Fault.isFaulted_eq, h]; rfl

/-- **C22 (suppress).** While suppress is set and override is not, it reports not faulted. -/
theorem C22_suppress_masks_fault (f : Fault) (h : f.override = false) (h' : f.suppress = true) :
    f.isFaulted = false := by
  rw [Fault.isFaulted_eq, h, h']; rfl

/-- The three ground commands that restart the count, written in the order in which the spacecraft sees
them: the command is uplinked while the corresponding flag was low at the last poll. -/
def Restarting (f : Fault) : Prop :=
  (f.override = true ∧ f.prevOverride = false) ∨ (f.suppress = true ∧ f.prevSuppress = false) ∨
    f.unsig = true

/-- **C22 (restart).** When the ground sets override or suppress anew, or commands unsignal, the next
query forgets all earlier signals: for every later list of evaluations on strictly increasing cycles
after the command has been processed and the flags cleared, the fault trips exactly when the trailing run
of true evaluations since the command exceeds the persistence. -/
theorem C22_command_restarts_count (f : Fault) (hr : Restarting f) (evals : List (U32 × Bool))
    (hmono : (evals.map (·.1.toNat)).Pairwise (· < ·))
    (hafter : ∀ e ∈ evals, f.lastFaultTime.toNat < e.1.toNat) :
    let cleared := { f.poll with override := false, suppress := false }
    (evals.foldl (fun f e => f.evaluate e.1 e.2) cleared).isFaulted
      = decide (trailingTrue (evals.map (·.2)) > f.persistence.toNat) := by
  have hnum0 : f.poll.num = 0 := by
    unfold Restarting at hr
    simp only [Fault.poll, Fault.refresh, Fault.processCommands]; grind
  have hun : f.poll.unsig = false := by
    simp only [Fault.poll, Fault.refresh, Fault.processCommands]; grind
  have hlast : f.poll.lastFaultTime = f.lastFaultTime := by
    simp only [Fault.poll, Fault.refresh, Fault.processCommands]; grind
  have hper : f.poll.persistence = f.persistence := by
    simp only [Fault.poll, Fault.refresh, Fault.processCommands]; grind
  -- invariant for an arbitrary quiet start
  have key : ∀ (h : List (U32 × Bool)) (g : Fault), g.Quiet → g.num = 0 →
      (h.map (·.1.toNat)).Pairwise (· > ·) → (∀ e ∈ h, g.lastFaultTime.toNat < e.1.toNat) →
      let r := h.foldr (fun e f => Fault.evaluate f e.1 e.2) g
      r.Quiet ∧ r.persistence = g.persistence ∧
        r.num.toNat = ((h.map (·.2)).takeWhile id).length ∧
        r.num.toNat ≤ r.lastFaultTime.toNat ∧
        (r.lastFaultTime = g.lastFaultTime ∨ ∃ e ∈ h, r.lastFaultTime = e.1) := by
    intro h g hq hg0
    induction h with
    | nil => intro _ _; simp [hq, hg0]
    | cons e h ih =>
      intro hm hp
      rw [List.map_cons, List.pairwise_cons] at hm
      obtain ⟨iq, ip, inum, ile, ilast⟩ := ih hm.2 (fun e he => hp e (List.mem_cons_of_mem _ he))
      simp only [List.foldr_cons]
      generalize h.foldr (fun e f => Fault.evaluate f e.1 e.2) g = r at *
      obtain ⟨cc, b⟩ := e
      cases b with
      | false =>
        obtain ⟨q1, q2, q3⟩ := iq
        refine ⟨⟨q1, q2, q3⟩, ip, ?_, ?_, ?_⟩
        · simp [Fault.evaluate, Fault.unsignal]
        · simp [Fault.evaluate, Fault.unsignal]
        · rcases ilast with h0 | ⟨e, he, h0⟩
          · exact Or.inl h0
          · exact Or.inr ⟨e, List.mem_cons_of_mem _ he, h0⟩
      | true =>
        have hcc := hp (cc, true) (List.mem_cons_self ..)
        have hlt : cc > r.lastFaultTime := by
          rcases ilast with h0 | ⟨e, he, h0⟩
          · rw [h0]; simp only at hcc; bv_omega
          · have := hm.1 e.1.toNat (List.mem_map_of_mem (f := fun e : U32 × Bool => e.1.toNat) he)
            rw [h0]; simp only at this; bv_omega
        have hst : r.evaluate cc true =
            ({ r with num := r.num + 1, lastFaultTime := cc } : Fault).refresh := by
          simp [Fault.evaluate, Fault.signal, hlt]
        have hl2 : r.lastFaultTime.toNat < cc.toNat := by bv_omega
        have hnum : (r.num + 1).toNat = r.num.toNat + 1 := by
          have := cc.isLt
          have h1 : (1 : U32).toNat = 1 := rfl
          simp only [BitVec.toNat_add]; rw [Nat.mod_eq_of_lt] <;> omega
        simp only [hst]
        obtain ⟨q1, q2, q3⟩ := iq
        refine ⟨⟨q1, q2, q3⟩, ip, ?_, ?_, ?_⟩
        · show (r.num + 1).toNat = _
          rw [hnum, inum]; simp
        · show (r.num + 1).toNat ≤ cc.toNat
          omega
        · exact Or.inr ⟨_, List.mem_cons_self .., rfl⟩
  intro cleared
  have := key evals.reverse cleared ⟨rfl, rfl, hun⟩ hnum0
    (by rw [List.map_reverse, List.pairwise_reverse]; simpa using hmono)
    (by intro e he; show f.poll.lastFaultTime.toNat < _; rw [hlast]; exact hafter e (by simpa using he))
  simp only [List.foldr_reverse] at this
  obtain ⟨hq, hpp, hnum, -⟩ := this
  rw [Fault.quiet_isFaulted hq, hpp, trailingTrue, ← List.map_reverse, ← hnum]
  show decide (_ > f.poll.persistence) = _
  rw [hper]
  simp only [gt_iff_lt, BitVec.lt_def]

example :
    let f : Fault := { (Fault.init 1).run [.signal 1, .signal 2, .signal 3] with suppress := true }
    Restarting f ∧ f.num = 3 ∧
      (∀ e ∈ [((4 : U32), true), (5, true)], f.lastFaultTime.toNat < e.1.toNat) := by
  refine ⟨Or.inr (Or.inl (by decide)), by decide, by decide⟩

/-- **C22 (no commands).** With no override and no suppress, and nothing pending, the answer is the bare
comparison of the signal count with the persistence threshold. -/
theorem C22_no_command_answer (f : Fault) (h1 : f.override = false) (h2 : f.suppress = false)
    (h3 : f.unsig = false) : f.isFaulted = decide (f.num.toNat > f.persistence.toNat) := by
  rw [Fault.quiet_isFaulted ⟨h2, h1, h3⟩]; simp only [gt_iff_lt, BitVec.lt_def]

/-! ### C23 -/

/-- **C23 (partial).** In every control cycle except cycle 0, signalling again changes nothing at all.
The full claim (every cycle) is refuted by `C23_counterexample_cycle_zero`. -/
theorem C23_one_count_per_cycle_partial (f : Fault) (cc : U32) (h : cc ≠ 0) (n : Nat) :
    (f.signal cc).run (List.replicate n (.signal cc)) = f.signal cc := by
  have hone : (f.signal cc).signal cc = f.signal cc := by
    have hirr : ¬ (cc > cc) := by bv_omega
    have hirr0 : ¬ (cc > cc ∨ cc = 0) := by simp only [hirr, h, or_self, not_false_eq_true]
    by_cases h1 : cc > f.lastFaultTime ∨ cc = 0
    · simp only [Fault.signal, Fault.refresh, if_pos h1, if_neg hirr0]
    · simp only [Fault.signal, Fault.refresh, if_neg h1]
  induction n with
  | zero => rfl
  | succ n ih =>
    rw [List.replicate_succ]
    show ((f.signal cc).signal cc).run (List.replicate n (.signal cc)) = _
    rw [hone, ih]

/-- **C23 refuted at cycle 0.** A fault with persistence 2 signalled three times within control cycle 0
trips, although it has been signalled in only one cycle. -/
theorem C23_counterexample_cycle_zero :
    ((Fault.init 2).run [.signal 0, .signal 0, .signal 0]).isFaulted = true ∧
      ((Fault.init 2).run [.signal 1, .signal 1, .signal 1]).isFaulted = false := by
  decide

end PAN
