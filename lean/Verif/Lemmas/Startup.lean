import Verif.Spec.Startup
import Verif.Props.Registry
import Mathlib.Data.List.Basic
/-!
Lemmas for C116: the registry's lists are determined by the objects registered so far.
-/
namespace PAN
namespace Startup
open Spec Registry

/-- The registry entries of the objects whose class satisfies `p`, numbered from `i`. -/
def fieldsFrom (p : Kind → Bool) (i : Nat) (objs : List Decl) : List Field :=
  ((objs.zipIdx i).filter fun x => p x.1.kind).map fun x => ⟨x.2, x.1.name, x.1.period⟩

theorem fieldsFrom_append (p : Kind → Bool) (i : Nat) (a b : List Decl) :
    fieldsFrom p i (a ++ b) = fieldsFrom p i a ++ fieldsFrom p (i + a.length) b := by
  simp [fieldsFrom, List.zipIdx_append]

theorem mem_fieldsFrom {p : Kind → Bool} {objs : List Decl} {f : Field} :
    f ∈ fieldsFrom p 0 objs ↔ ∃ d, objs[f.addr]? = some d ∧ p d.kind = true ∧ f.name = d.name ∧ f.period = d.period := by
  simp only [fieldsFrom, List.mem_map, List.mem_filter, Prod.exists, List.mem_zipIdx_iff_getElem?]
  constructor
  · rintro ⟨d, i, ⟨h1, h2⟩, rfl⟩; exact ⟨d, h1, h2, rfl, rfl⟩
  · rintro ⟨d, h1, h2, h3, h4⟩; exact ⟨d, f.addr, ⟨h1, h2⟩, by cases f; simp_all⟩

theorem mem_names_fieldsFrom {p : Kind → Bool} {objs : List Decl} {n : String} :
    n ∈ names (fieldsFrom p 0 objs) ↔ ∃ d ∈ objs, p d.kind = true ∧ d.name = n := by
  unfold names
  rw [List.mem_map]
  constructor
  · rintro ⟨f, hf, rfl⟩
    obtain ⟨d, h1, h2, h3, -⟩ := mem_fieldsFrom.mp hf
    exact ⟨d, List.mem_of_getElem? h1, h2, h3.symm⟩
  · rintro ⟨d, hd, h2, rfl⟩
    obtain ⟨i, hi⟩ := List.getElem?_of_mem hd
    exact ⟨⟨i, d.name, d.period⟩, mem_fieldsFrom.mpr ⟨d, hi, h2, rfl, rfl⟩, rfl⟩

/-- Which classes are in which list. -/
def inList : Kind → Kind → Bool
  | .internal, k => k = .internal
  | .readable, k => k ≠ .internal
  | .writable, k => k = .writable

/-- The state reached after the calls `pre`. -/
structure After (pre : List Call) (s : St) : Prop where
  inv : Inv s.reg
  objs : s.objs = declared pre
  lists : ∀ k, listOf s.reg k = fieldsFrom (inList k) 0 s.objs
  faults : s.reg.faults.map (·.base.name) = pre.filterMap fun c => match c with | .fault n => some (n ++ ".base") | _ => none
  events : s.reg.events = []

theorem after_nil : After [] .empty :=
  ⟨inv_empty, rfl, by intro k; cases k <;> rfl, rfl, rfl⟩

theorem declared_append (a b : List Call) : declared (a ++ b) = declared a ++ declared b := by
  simp [declared]

theorem declared_snoc (a : List Call) (c : Call) : declared (a ++ [c]) = declared a ++ Declares c := by
  simp [declared]

theorem eeprom_length {pre : List Call} {s : St} (h : After pre s) :
    s.reg.eeprom.length = ((declared pre).filter fun e => decide (e.kind ≠ .internal ∧ 0 < e.period)).length := by
  have h1 : s.reg.readable = fieldsFrom (inList .readable) 0 s.objs := h.lists .readable
  rw [h.inv.eeprom, h1, h.objs]
  generalize declared pre = l
  unfold fieldsFrom
  rw [List.filter_map, List.length_map, List.filter_filter]
  have : ∀ i, ((l.zipIdx i).filter fun a => (fun f : Field => decide (f.period > 0)) ((fun x : Decl × Nat => (⟨x.2, x.1.name, x.1.period⟩ : Field)) a)
      && inList .readable a.1.kind).length = (l.filter fun e => decide (e.kind ≠ .internal ∧ 0 < e.period)).length := by
    induction l with
    | nil => intro i; rfl
    | cons d l ih =>
      intro i
      rw [List.zipIdx_cons, List.filter_cons, List.filter_cons]
      have e : ((fun f : Field => decide (f.period > 0)) (⟨i, d.name, d.period⟩ : Field) && inList .readable d.kind)
          = decide (d.kind ≠ .internal ∧ 0 < d.period) := by
        simp only [inList, gt_iff_lt]
        by_cases h1 : 0 < d.period <;> by_cases h2 : d.kind = .internal <;> simp [h1, h2]
      simp only [e]
      split
      · simp [ih]
      · exact ih _
  exact this 0

theorem faultDecls_eq (n : String) : faultDecls n = Declares (.fault n) := rfl

/-- One call: it succeeds exactly if it has what it needs, and then the state is the one after it. -/
theorem step_after {pre : List Call} {s : St} (h : After pre s) (c : Call) :
    (CallOk pre c → ∃ s', step s c = some s' ∧ After (pre ++ [c]) s') ∧ (¬ CallOk pre c → step s c = none) := by
  have hI : s.reg.internal = fieldsFrom (inList .internal) 0 s.objs := h.lists .internal
  have hR : s.reg.readable = fieldsFrom (inList .readable) 0 s.objs := h.lists .readable
  have hW : s.reg.writable = fieldsFrom (inList .writable) 0 s.objs := h.lists .writable
  cases c with
  | add d =>
    obtain ⟨k, n, t, sr, p⟩ := d
    cases k with
    | internal =>
      have hnew : CallOk pre (.add ⟨.internal, n, t, sr, p⟩) ↔ n ∉ names s.reg.internal := by
        rw [hI, mem_names_fieldsFrom, h.objs]
        simp [CallOk, SameNamespace, inList]
      have hs : step s (.add ⟨.internal, n, t, sr, p⟩) = if n ∈ names s.reg.internal then none else
          some { reg := { s.reg with internal := s.reg.internal ++ [⟨s.objs.length, n, p⟩] }
                 objs := s.objs ++ [⟨.internal, n, t, sr, p⟩] } := by
        simp only [step, addDecl, addInternal, find_isSome]
        by_cases hc : n ∈ names s.reg.internal
        · simp [hc]
        · simp [hc]
      rw [hs, hnew]
      refine ⟨fun hn => ?_, fun hn => by rw [if_pos (Classical.not_not.mp hn)]⟩
      rw [if_neg hn]
      refine ⟨_, rfl, ?_, ?_, ?_, ?_, h.events⟩
      · exact { h.inv with internal := nodup_snoc h.inv.internal hn }
      · simp only [declared_snoc, h.objs]; rfl
      · intro k; cases k
        · simp only [listOf, fieldsFrom_append, hI]; simp [fieldsFrom, inList]
        · simp only [listOf, fieldsFrom_append, hR]; simp [fieldsFrom, inList]
        · simp only [listOf, fieldsFrom_append, hW]; simp [fieldsFrom, inList]
      · simp only [List.filterMap_append, h.faults]; simp
    | readable =>
      have hnew : CallOk pre (.add ⟨.readable, n, t, sr, p⟩) ↔ n ∉ names s.reg.readable := by
        rw [hR, mem_names_fieldsFrom, h.objs]
        simp [CallOk, SameNamespace, inList]
      have hinv := addReadable_inv h.inv ⟨s.objs.length, n, p⟩
      have hs := addReadable_eq h.inv ⟨s.objs.length, n, p⟩
      rw [hnew]
      simp only [step, addDecl]
      rw [hs] at hinv ⊢
      refine ⟨fun hn => ?_, fun hn => by rw [if_pos (Classical.not_not.mp hn)]⟩
      rw [if_neg hn] at hinv ⊢
      refine ⟨_, rfl, hinv, ?_, ?_, ?_, h.events⟩
      · simp only [declared_snoc, h.objs]; rfl
      · intro k; cases k
        · simp only [listOf, fieldsFrom_append, hI]; simp [fieldsFrom, inList]
        · simp only [listOf, fieldsFrom_append, hR]; simp [fieldsFrom, inList]
        · simp only [listOf, fieldsFrom_append, hW]; simp [fieldsFrom, inList]
      · simp only [List.filterMap_append, h.faults]; simp
    | writable =>
      have hnew : CallOk pre (.add ⟨.writable, n, t, sr, p⟩) ↔ n ∉ names s.reg.readable := by
        rw [hR, mem_names_fieldsFrom, h.objs]
        simp [CallOk, SameNamespace, inList]
      have hinv := addWritable_inv h.inv ⟨s.objs.length, n, p⟩
      have hs := addWritable_eq h.inv ⟨s.objs.length, n, p⟩
      rw [hnew]
      simp only [step, addDecl]
      rw [hs] at hinv ⊢
      refine ⟨fun hn => ?_, fun hn => by rw [if_pos (Classical.not_not.mp hn)]⟩
      rw [if_neg hn] at hinv ⊢
      refine ⟨_, rfl, hinv, ?_, ?_, ?_, h.events⟩
      · simp only [declared_snoc, h.objs]; rfl
      · intro k; cases k
        · simp only [listOf, fieldsFrom_append, hI]; simp [fieldsFrom, inList]
        · simp only [listOf, fieldsFrom_append, hR]; simp [fieldsFrom, inList]
        · simp only [listOf, fieldsFrom_append, hW]; simp [fieldsFrom, inList]
      · simp only [List.filterMap_append, h.faults]; simp
  | fault n =>
    obtain ⟨k, e1, e2, e3, e4, e5, e6, e7, e8, e9⟩ := addFault_spec h.inv s.objs.length n
    have hnew : CallOk pre (.fault n) ↔ ∀ f ∈ faultFields s.objs.length n, f.name ∉ names s.reg.readable := by
      rw [hR]
      simp only [mem_names_fieldsFrom, h.objs, CallOk, Declares, faultFields, inList]
      simp only [List.mem_cons, List.not_mem_nil, or_false, forall_eq_or_imp, forall_eq, decide_eq_true_eq]
      constructor
      · intro hh
        refine ⟨?_, ?_, ?_, ?_, ?_⟩ <;> rintro ⟨d, hd, hk, hn⟩
        · exact (hh d hd hk).1 hn
        · exact (hh d hd hk).2.1 hn
        · exact (hh d hd hk).2.2.1 hn
        · exact (hh d hd hk).2.2.2.1 hn
        · exact (hh d hd hk).2.2.2.2 hn
      · rintro ⟨h1, h2, h3, h4, h5⟩ d hd hk
        exact ⟨fun hn => h1 ⟨d, hd, hk, hn⟩, fun hn => h2 ⟨d, hd, hk, hn⟩, fun hn => h3 ⟨d, hd, hk, hn⟩,
          fun hn => h4 ⟨d, hd, hk, hn⟩, fun hn => h5 ⟨d, hd, hk, hn⟩⟩
    rw [hnew, ← e7]
    simp only [step]
    generalize addFault s.reg (FaultObj.make s.objs.length n) = q at e1 e2 e3 e4 e5 e6 e7 e8 e9 ⊢
    obtain ⟨b, r⟩ := q
    dsimp only at e1 e2 e3 e4 e5 e6 e7 e8 e9 ⊢
    cases b with
    | false => simp
    | true =>
      refine ⟨fun _ => ⟨_, rfl, e9, ?_, ?_, ?_, by rw [e5, h.events]⟩, fun hc => absurd rfl hc⟩
      · simp only [declared_snoc, h.objs]; rfl
      · rw [e8 rfl] at e1 e2
        intro k; cases k
        · simp only [listOf, e3, fieldsFrom_append, hI]; simp [fieldsFrom, inList, faultDecls]
        · simp only [listOf, e1, fieldsFrom_append, hR]; simp [fieldsFrom, inList, faultDecls, faultFields]
        · simp only [listOf, e2, fieldsFrom_append, hW]; simp [fieldsFrom, inList, faultDecls, faultFields]
      · simp only [e6, List.map_append, List.filterMap_append, h.faults]
        simp [FaultObj.make]
  | find k n t =>
    have hnd : (names (listOf s.reg k)).Nodup := by
      cases k
      · exact h.inv.internal
      · exact h.inv.readable
      · exact (names_sublist h.inv.writable).nodup h.inv.readable
    have hin : inList k k = true := by cases k <;> rfl
    have hafter : After (pre ++ [.find k n t]) s :=
      ⟨h.inv, by rw [declared_snoc, h.objs]; simp [Declares], h.lists, by rw [h.faults]; simp, h.events⟩
    constructor
    · rintro ⟨e, he, hk, hn, ht⟩
      rw [← h.objs] at he
      obtain ⟨i, hi⟩ := List.getElem?_of_mem he
      have hf : find (listOf s.reg k) n = some ⟨i, e.name, e.period⟩ :=
        (find_some hnd).mpr ⟨by rw [h.lists]; exact mem_fieldsFrom.mpr ⟨e, hi, by rw [hk]; exact hin, rfl, rfl⟩, hn⟩
      exact ⟨s, by simp only [step, hf, hi]; rw [if_pos ⟨hk, ht⟩], hafter⟩
    · intro hno
      simp only [step]
      cases hf : find (listOf s.reg k) n with
      | none => rfl
      | some f =>
        have hm := (find_some hnd).mp hf
        rw [h.lists] at hm
        obtain ⟨d, h1, h2, h3, h4⟩ := mem_fieldsFrom.mp hm.1
        simp only [h1]
        rw [if_neg]
        rintro ⟨hk, ht⟩
        exact hno ⟨d, by rw [← h.objs]; exact List.mem_of_getElem? h1, hk, by rw [← h3]; exact hm.2, ht⟩
  | findFault n =>
    have hafter : After (pre ++ [.findFault n]) s :=
      ⟨h.inv, by rw [declared_snoc, h.objs]; simp [Declares], h.lists, by rw [h.faults]; simp, h.events⟩
    have hnew : CallOk pre (.findFault n) ↔ (findFault s.reg.faults n).isSome = true := by
      rw [findFault_isSome]
      have : names (s.reg.faults.map (·.base)) = s.reg.faults.map (·.base.name) := by simp [names]
      rw [this, h.faults, List.mem_filterMap]
      constructor
      · rintro ⟨m, hm, rfl⟩; exact ⟨_, hm, rfl⟩
      · rintro ⟨c, hc, e⟩
        cases c with
        | fault m => exact ⟨m, hc, by simpa using e.symm⟩
        | _ => simp at e
    rw [hnew]
    simp only [step]
    cases findFault s.reg.faults n with
    | none => simp
    | some f => exact ⟨fun _ => ⟨s, rfl, hafter⟩, fun hc => absurd rfl hc⟩
  | eepromInit =>
    have hafter : After (pre ++ [.eepromInit]) s :=
      ⟨h.inv, by rw [declared_snoc, h.objs]; simp [Declares], h.lists, by rw [h.faults]; simp, h.events⟩
    simp only [step, CallOk]
    rw [eeprom_length h]
    constructor
    · intro hc; exact ⟨s, by rw [if_pos (by omega)], hafter⟩
    · intro hc; rw [if_neg (by omega)]

theorem run_after {pre : List Call} {s : St} (h : After pre s) (cs : List Call) :
    ((∀ p c q, cs = p ++ c :: q → CallOk (pre ++ p) c) → ∃ s', run s cs = some s' ∧ After (pre ++ cs) s') ∧
    (¬ (∀ p c q, cs = p ++ c :: q → CallOk (pre ++ p) c) → run s cs = none) := by
  induction cs generalizing pre s with
  | nil =>
    refine ⟨fun _ => ⟨s, rfl, by simpa using h⟩, fun hc => absurd ?_ hc⟩
    intro p c q e; simp at e
  | cons c cs ih =>
    have hsplit : (∀ p d q, c :: cs = p ++ d :: q → CallOk (pre ++ p) d) ↔
        CallOk pre c ∧ ∀ p d q, cs = p ++ d :: q → CallOk (pre ++ [c] ++ p) d := by
      constructor
      · intro hh
        refine ⟨by simpa using hh [] c cs rfl, fun p d q e => ?_⟩
        have := hh (c :: p) d q (by rw [e]; rfl)
        simpa using this
      · rintro ⟨h1, h2⟩ p d q e
        cases p with
        | nil => simp only [List.nil_append, List.cons.injEq] at e; simpa [e.1] using h1
        | cons x p =>
          simp only [List.cons_append, List.cons.injEq] at e
          have := h2 p d q e.2
          simpa [e.1] using this
    rw [hsplit]
    obtain ⟨hy, hn⟩ := step_after h c
    by_cases hc : CallOk pre c
    · obtain ⟨s1, e1, h1⟩ := hy hc
      obtain ⟨iy, in'⟩ := ih h1
      simp only [run, e1]
      refine ⟨fun hh => ?_, fun hh => in' fun h3 => hh ⟨hc, h3⟩⟩
      obtain ⟨s2, e2, h2⟩ := iy hh.2
      exact ⟨s2, e2, by simpa using h2⟩
    · simp only [run, hn hc]
      exact ⟨fun hh => absurd hh.1 hc, fun _ => trivial⟩

theorem start_after {cs : List Call} {s : St} (h : start cs = some s) : WellWired cs ∧ After cs s := by
  obtain ⟨hy, hn⟩ := run_after after_nil cs
  by_cases hw : ∀ p c q, cs = p ++ c :: q → CallOk ([] ++ p) c
  · obtain ⟨s', e, h'⟩ := hy hw
    rw [start, e] at h
    cases h
    exact ⟨fun p c q e => by simpa using hw p c q e, by simpa using h'⟩
  · rw [start, hn hw] at h; exact absurd h (by simp)

theorem start_of_wired {cs : List Call} (h : WellWired cs) : ∃ s, start cs = some s ∧ After cs s := by
  obtain ⟨s, e, h'⟩ := (run_after after_nil cs).1 (fun p c q e => by simpa using h p c q e)
  exact ⟨s, e, by simpa using h'⟩

end Startup
end PAN
