import Verif.Model.Registry
import Batteries.Tactic.Init
/-!
Property C20: registry names are unique and lookups are exact.
-/
namespace PAN
namespace Spec
open Registry

/-- The names in a list of fields. -/
def names (l : List Field) : List String := l.map (·.name)

/-- The registry after some sequence of registration calls on an empty one. -/
def ReachableReg (r : Reg) : Prop := ∃ ops, r = run empty ops

/-- The five fields of the fault called `n`. -/
def faultFields (a : Nat) (n : String) : List Field :=
  [⟨a, n ++ ".base", 0⟩, ⟨a + 1, n ++ ".suppress", 0⟩, ⟨a + 2, n ++ ".override", 0⟩, ⟨a + 3, n ++ ".unsignal", 0⟩,
   ⟨a + 4, n ++ ".persistence", 0⟩]

end Spec
open Spec Registry

namespace Registry

theorem find_none {l : List Field} {n : String} : find l n = none ↔ n ∉ names l := by
  induction l with
  | nil => simp [find, names]
  | cons f fs ih =>
    simp only [find, names, List.map_cons, List.mem_cons, not_or]
    split
    · rename_i h; simp [h]
    · rename_i h; rw [ih]; exact ⟨fun x => ⟨h, x⟩, fun x => x.2⟩

theorem find_isSome {l : List Field} {n : String} : (find l n).isSome = true ↔ n ∈ names l := by
  rw [Option.isSome_iff_ne_none, ne_eq, find_none, Classical.not_not]

theorem find_some {l : List Field} {n : String} {f : Field} (hn : (names l).Nodup) :
    find l n = some f ↔ f ∈ l ∧ f.name = n := by
  induction l with
  | nil => simp [find]
  | cons g fs ih =>
    unfold names at hn
    rw [List.map_cons, List.nodup_cons] at hn
    simp only [find]
    by_cases h : n = g.name
    · rw [if_pos h]
      constructor
      · intro e; rw [Option.some.injEq] at e; subst e; exact ⟨List.mem_cons_self, h.symm⟩
      · rintro ⟨hm, he⟩
        rcases List.mem_cons.mp hm with rfl | hm
        · rfl
        · have h3 : f.name ∈ fs.map (·.name) := List.mem_map_of_mem hm
          rw [he, h] at h3
          exact absurd h3 hn.1
    · rw [if_neg h, ih hn.2]
      constructor
      · rintro ⟨a, b⟩; exact ⟨List.mem_cons_of_mem _ a, b⟩
      · rintro ⟨a, b⟩
        rcases List.mem_cons.mp a with rfl | a
        · exact absurd b.symm h
        · exact ⟨a, b⟩

theorem findFault_isSome {l : List FaultObj} {n : String} :
    (findFault l n).isSome = true ↔ n ∈ names (l.map (·.base)) := by
  induction l with
  | nil => simp [findFault, names]
  | cons f fs ih =>
    simp only [findFault, names, List.map_cons, List.mem_cons]
    split
    · rename_i h; simp [h]
    · rename_i h; rw [ih]; simp [h, names]

theorem nodup_snoc {l : List Field} {f : Field} (h : (names l).Nodup) (hf : f.name ∉ names l) :
    (names (l ++ [f])).Nodup := by
  unfold names at *
  rw [List.map_append, List.nodup_append]
  refine ⟨h, by simp, ?_⟩
  intro a ha b hb
  simp only [List.map_cons, List.map_nil, List.mem_singleton] at hb
  intro e
  rw [hb] at e
  rw [e] at ha
  exact hf ha

/-- Invariant of every registry. -/
structure Inv (r : Reg) : Prop where
  internal : (names r.internal).Nodup
  readable : (names r.readable).Nodup
  writable : r.writable.Sublist r.readable
  eeprom : r.eeprom = r.readable.filter fun f => decide (f.period > 0)
  events : (names r.events).Nodup
  faults : (names (r.faults.map (·.base))).Nodup
  faultsIn : ∀ x ∈ r.faults, ∀ f ∈ [x.base, x.suppress, x.override, x.unsignal, x.persistence], f ∈ r.writable

theorem names_sublist {a b : List Field} (h : a.Sublist b) : (names a).Sublist (names b) := h.map _

theorem inv_empty : Inv empty :=
  ⟨List.nodup_nil, List.nodup_nil, List.Sublist.refl _, rfl, List.nodup_nil, List.nodup_nil, by simp [empty]⟩

theorem addReadable_eq {r : Reg} (hi : Inv r) (f : Field) :
    addReadable r f = if f.name ∈ names r.readable then (false, r)
      else (true, { r with readable := r.readable ++ [f]
                           eeprom := r.eeprom ++ if f.period > 0 then [f] else [] }) := by
  unfold addReadable
  by_cases h : f.name ∈ names r.readable
  · rw [if_pos (find_isSome.mpr h), if_pos h]
  · rw [if_neg (by rw [find_isSome]; exact h), if_neg h]
    split
    · have : f.name ∉ names r.eeprom := fun hc => h ((names_sublist (by rw [hi.eeprom]; exact List.filter_sublist)).mem hc)
      rw [if_neg (by rw [find_isSome]; exact this)]
    · simp

theorem addReadable_inv {r : Reg} (hi : Inv r) (f : Field) : Inv (addReadable r f).2 := by
  rw [addReadable_eq hi]
  split
  · exact hi
  · rename_i h
    exact
      { internal := hi.internal
        readable := nodup_snoc hi.readable h
        writable := hi.writable.trans (List.sublist_append_left _ _)
        eeprom := by
          simp only [List.filter_append, hi.eeprom]
          congr 1
          by_cases hp : f.period > 0 <;> simp [hp]
        events := hi.events
        faults := hi.faults
        faultsIn := hi.faultsIn }

theorem addWritable_eq {r : Reg} (hi : Inv r) (f : Field) :
    addWritable r f = if f.name ∈ names r.readable then (false, r)
      else (true, { r with readable := r.readable ++ [f]
                           eeprom := r.eeprom ++ if f.period > 0 then [f] else []
                           writable := r.writable ++ [f] }) := by
  unfold addWritable
  rw [addReadable_eq hi]
  by_cases h : f.name ∈ names r.readable
  · rw [if_pos h, if_pos h]
  · rw [if_neg h, if_neg h]
    have : f.name ∉ names r.writable := fun hc => h ((names_sublist hi.writable).mem hc)
    simp only []
    rw [if_neg (by rw [find_isSome]; exact this)]

theorem addWritable_inv {r : Reg} (hi : Inv r) (f : Field) : Inv (addWritable r f).2 := by
  rw [addWritable_eq hi]
  split
  · exact hi
  · rename_i h
    exact
      { internal := hi.internal
        readable := nodup_snoc hi.readable h
        writable := hi.writable.append (List.Sublist.refl _)
        eeprom := by
          simp only [List.filter_append, hi.eeprom]
          congr 1
          by_cases hp : f.period > 0 <;> simp [hp]
        events := hi.events
        faults := hi.faults
        faultsIn := fun x hx g hg => List.mem_append_left _ (hi.faultsIn x hx g hg) }

theorem addAllWritable_inv (fs : List Field) : ∀ {r : Reg}, Inv r → Inv (addAllWritable r fs).2 := by
  induction fs with
  | nil => intro r hi; exact hi
  | cons f fs ih =>
    intro r hi
    have h1 := addWritable_inv hi f
    simp only [addAllWritable]
    split
    · rename_i r' e; rw [e] at h1; exact h1
    · rename_i r' e; rw [e] at h1; exact ih h1

/-- What `addAllWritable` does: it adds the longest prefix of acceptable fields. -/
theorem addAllWritable_spec (fs : List Field) (hp : ∀ f ∈ fs, f.period = 0) (hd : (names fs).Nodup) : ∀ {r : Reg}, Inv r →
    ∃ k, k ≤ fs.length ∧
      (addAllWritable r fs) = (decide (∀ f ∈ fs, f.name ∉ names r.readable),
        { r with readable := r.readable ++ fs.take k, writable := r.writable ++ fs.take k }) ∧
      ((∀ f ∈ fs, f.name ∉ names r.readable) → k = fs.length) := by
  induction fs with
  | nil => intro r _; exact ⟨0, Nat.le_refl _, by simp [addAllWritable], fun _ => rfl⟩
  | cons f fs ih =>
    intro r hi
    unfold names at hd
    rw [List.map_cons, List.nodup_cons] at hd
    have h1 := addWritable_inv hi f
    rw [addWritable_eq hi] at h1
    simp only [addAllWritable]
    rw [addWritable_eq hi]
    by_cases h : f.name ∈ names r.readable
    · rw [if_pos h]
      refine ⟨0, Nat.zero_le _, ?_, fun hc => absurd h (hc f List.mem_cons_self)⟩
      have : ¬ ∀ g ∈ f :: fs, g.name ∉ names r.readable := fun hc => hc f List.mem_cons_self h
      rw [decide_eq_false this]
      simp
    · rw [if_neg h] at h1 ⊢
      simp only []
      obtain ⟨k, hk, e, hall⟩ := ih (fun g hg => hp g (List.mem_cons_of_mem _ hg)) hd.2 h1
      have hiff : (∀ g ∈ fs, g.name ∉ names (r.readable ++ [f])) ↔ ∀ g ∈ f :: fs, g.name ∉ names r.readable := by
        constructor
        · intro hc g hg
          rcases List.mem_cons.mp hg with rfl | hg
          · exact h
          · intro hm; exact hc g hg (by unfold names at *; rw [List.map_append]; exact List.mem_append_left _ hm)
        · intro hc g hg hm
          unfold names at hm
          rw [List.map_append] at hm
          rcases List.mem_append.mp hm with hm | hm
          · exact hc g (List.mem_cons_of_mem _ hg) hm
          · simp only [List.map_cons, List.map_nil, List.mem_singleton] at hm
            exact hd.1 (by rw [← hm]; exact List.mem_map_of_mem hg)
      refine ⟨k + 1, by simpa using hk, ?_, fun hc => ?_⟩
      · rw [e]
        have hp0 : f.period = 0 := hp f List.mem_cons_self
        simp only [hiff, Prod.mk.injEq, true_and]
        simp [hp0]
      · rw [hall (hiff.mpr hc)]; rfl

theorem faultFields_names (a : Nat) (n : String) : (names (faultFields a n)).Nodup := by
  have h : ∀ s t : String, n ++ s = n ++ t → s = t := by
    intro s t e
    exact (String.append_right_inj n).mp e
  simp only [names, faultFields, List.map_cons, List.map_nil, List.nodup_cons, List.mem_cons, List.not_mem_nil, or_false, not_or,
    not_false_eq_true, List.nodup_nil, and_true]
  refine ⟨⟨?_, ?_, ?_, ?_⟩, ⟨?_, ?_, ?_⟩, ⟨?_, ?_⟩, ?_⟩ <;> intro e <;> have := h _ _ e <;> revert this <;> decide

/-- `addFault` on a reachable registry. -/
theorem addFault_spec {r : Reg} (hi : Inv r) (a : Nat) (n : String) :
    ∃ k, (addFault r (FaultObj.make a n)).2.readable = r.readable ++ (faultFields a n).take k ∧
      (addFault r (FaultObj.make a n)).2.writable = r.writable ++ (faultFields a n).take k ∧
      (addFault r (FaultObj.make a n)).2.internal = r.internal ∧
      (addFault r (FaultObj.make a n)).2.eeprom = r.eeprom ∧
      (addFault r (FaultObj.make a n)).2.events = r.events ∧
      (addFault r (FaultObj.make a n)).2.faults =
        r.faults ++ (if (addFault r (FaultObj.make a n)).1 then [FaultObj.make a n] else []) ∧
      ((addFault r (FaultObj.make a n)).1 = true ↔ ∀ f ∈ faultFields a n, f.name ∉ names r.readable) ∧
      ((addFault r (FaultObj.make a n)).1 = true → k = 5) ∧ Inv (addFault r (FaultObj.make a n)).2 := by
  unfold addFault
  by_cases hf : (findFault r.faults (FaultObj.make a n).base.name).isSome = true
  · rw [if_pos hf]
    have hm := findFault_isSome.mp hf
    refine ⟨0, by simp, by simp, rfl, rfl, rfl, by simp, ?_, by simp, hi⟩
    simp only [Bool.false_eq_true, false_iff]
    intro hc
    unfold names at hm
    rw [List.map_map, List.mem_map] at hm
    obtain ⟨x, hx, hx2⟩ := hm
    have h1 := hi.faultsIn x hx x.base (by simp)
    refine hc ⟨a, n ++ ".base", 0⟩ (by simp [faultFields]) ?_
    have : x.base.name = n ++ ".base" := hx2
    have h3 : x.base.name ∈ names r.readable := List.mem_map_of_mem (hi.writable.mem h1)
    rw [this] at h3
    exact h3
  · rw [if_neg hf]
    have hfields : [(FaultObj.make a n).base, (FaultObj.make a n).suppress, (FaultObj.make a n).override,
        (FaultObj.make a n).unsignal, (FaultObj.make a n).persistence] = faultFields a n := rfl
    rw [hfields]
    obtain ⟨k, hk, e, hall⟩ := addAllWritable_spec (faultFields a n) (by simp [faultFields]) (faultFields_names a n) hi
    have hinv := addAllWritable_inv (faultFields a n) hi
    rw [e] at hinv ⊢
    by_cases hc : ∀ f ∈ faultFields a n, f.name ∉ names r.readable
    · have hk5 : k = 5 := hall hc
      rw [decide_eq_true hc] at hinv ⊢
      simp only [] at hinv
      refine ⟨5, by rw [hk5], by rw [hk5], rfl, rfl, rfl, by simp, ⟨fun _ => hc, fun _ => rfl⟩, fun _ => rfl, ?_⟩
      refine { hinv with faults := ?_, faultsIn := ?_ }
      · simp only [List.map_append, List.map_cons, List.map_nil]
        refine nodup_snoc hinv.faults ?_
        rw [← findFault_isSome]; exact hf
      · intro x hx f hm
        rcases List.mem_append.mp hx with hx | hx
        · exact hinv.faultsIn x hx f hm
        · have : x = FaultObj.make a n := by simpa using hx
          subst this
          rw [hfields] at hm
          rw [hk5]
          exact List.mem_append_right _ hm
    · rw [decide_eq_false hc] at hinv ⊢
      simp only [] at hinv
      exact ⟨k, rfl, rfl, rfl, rfl, rfl, by simp, ⟨fun h => Bool.noConfusion h, fun h => absurd h hc⟩, fun h => Bool.noConfusion h, hinv⟩

theorem step_inv {r : Reg} (hi : Inv r) (o : Op) : Inv (step r o).2 := by
  cases o with
  | internal f =>
    simp only [step, addInternal]
    split
    · exact hi
    · rename_i h
      rw [find_isSome] at h
      exact { hi with internal := nodup_snoc hi.internal h }
  | readable f => exact addReadable_inv hi f
  | writable f => exact addWritable_inv hi f
  | event f =>
    simp only [step, addEvent]
    split
    · exact hi
    · rename_i h
      rw [find_isSome] at h
      exact { hi with events := nodup_snoc hi.events h }
  | fault a n => exact (addFault_spec hi a n).choose_spec.2.2.2.2.2.2.2.2

theorem run_inv (ops : List Op) : ∀ {r : Reg}, Inv r → Inv (run r ops) := by
  induction ops with
  | nil => intro r h; exact h
  | cons o os ih => intro r h; exact ih (step_inv h o)

theorem reachable_inv {r : Reg} (h : ReachableReg r) : Inv r := by
  obtain ⟨ops, rfl⟩ := h; exact run_inv ops inv_empty

/-- No list ever loses an element. -/
theorem step_mono {r : Reg} (hi : Inv r) (o : Op) :
    r.internal <+: (step r o).2.internal ∧ r.readable <+: (step r o).2.readable ∧ r.writable <+: (step r o).2.writable ∧
    r.events <+: (step r o).2.events := by
  cases o with
  | internal f =>
    simp only [step, addInternal]
    split <;> exact ⟨by simp, by simp, by simp, by simp⟩
  | readable f =>
    simp only [step]; rw [addReadable_eq hi]
    split <;> exact ⟨by simp, by simp, by simp, by simp⟩
  | writable f =>
    simp only [step]; rw [addWritable_eq hi]
    split <;> exact ⟨by simp, by simp, by simp, by simp⟩
  | event f =>
    simp only [step, addEvent]
    split <;> exact ⟨by simp, by simp, by simp, by simp⟩
  | fault a n =>
    obtain ⟨k, e1, e2, e3, e4, e5, -⟩ := addFault_spec hi a n
    simp only [step]
    rw [e1, e2, e3, e5]
    exact ⟨by simp, by simp, by simp, by simp⟩

theorem run_mono (ops : List Op) : ∀ {r : Reg}, Inv r →
    r.internal <+: (run r ops).internal ∧ r.readable <+: (run r ops).readable ∧ r.writable <+: (run r ops).writable ∧
    r.events <+: (run r ops).events := by
  induction ops with
  | nil => intro r _; exact ⟨by simp [run], by simp [run], by simp [run], by simp [run]⟩
  | cons o os ih =>
    intro r hi
    obtain ⟨a1, a2, a3, a4⟩ := step_mono hi o
    obtain ⟨b1, b2, b3, b4⟩ := ih (step_inv hi o)
    exact ⟨a1.trans b1, a2.trans b2, a3.trans b3, a4.trans b4⟩

end Registry

/-- C20: however fields, events and faults are registered, no two entries of a list share a name; every writable field
is a readable field; the saved fields are exactly the readable ones with a save period, in the same order; and the
fields of every registered fault are writable fields. -/
theorem C20_unique (r : Reg) (h : ReachableReg r) :
    (names r.internal).Nodup ∧ (names r.readable).Nodup ∧ (names r.writable).Nodup ∧ (names r.eeprom).Nodup ∧
    (names r.events).Nodup ∧ (names (r.faults.map (·.base))).Nodup ∧
    r.writable.Sublist r.readable ∧ (r.eeprom = r.readable.filter fun f => decide (f.period > 0)) ∧
    (∀ x ∈ r.faults, ∀ f ∈ [x.base, x.suppress, x.override, x.unsignal, x.persistence], f ∈ r.writable) := by
  have hi := reachable_inv h
  refine ⟨hi.internal, hi.readable, hi.readable.sublist (names_sublist hi.writable), ?_, hi.events, hi.faults, hi.writable,
    hi.eeprom, hi.faultsIn⟩
  rw [hi.eeprom]
  exact hi.readable.sublist (names_sublist List.filter_sublist)

/-- C20: a registration is refused exactly when the name is taken, and then nothing changes; otherwise the field is
appended to its list(s) and nothing else changes. (Readable and writable fields share their names.) -/
theorem C20_refused_iff_taken (r : Reg) (h : ReachableReg r) (f : Field) :
    (step r (.internal f) = if f.name ∈ names r.internal then (false, r) else (true, { r with internal := r.internal ++ [f] })) ∧
    (step r (.event f) = if f.name ∈ names r.events then (false, r) else (true, { r with events := r.events ++ [f] })) ∧
    (step r (.readable f) = if f.name ∈ names r.readable then (false, r) else
      (true, { r with readable := r.readable ++ [f], eeprom := r.eeprom ++ if f.period > 0 then [f] else [] })) ∧
    (step r (.writable f) = if f.name ∈ names r.readable then (false, r) else
      (true, { r with readable := r.readable ++ [f], eeprom := r.eeprom ++ if f.period > 0 then [f] else [],
                      writable := r.writable ++ [f] })) := by
  have hi := reachable_inv h
  refine ⟨?_, ?_, addReadable_eq hi f, addWritable_eq hi f⟩
  · simp only [step, addInternal, find_isSome]
  · simp only [step, addEvent, find_isSome]

/-- C20: a fault is accepted exactly when none of its five names is taken; then exactly its five fields are appended to
the readable and writable fields. If it is refused, the fault list is unchanged (and a prefix of its fields may have
been registered). -/
theorem C20_fault_registration (r : Reg) (h : ReachableReg r) (a : Nat) (n : String) :
    ((step r (.fault a n)).1 = true ↔ ∀ f ∈ faultFields a n, f.name ∉ names r.readable) ∧
    ((step r (.fault a n)).1 = true →
      (step r (.fault a n)).2 = { r with readable := r.readable ++ faultFields a n, writable := r.writable ++ faultFields a n,
                                         faults := r.faults ++ [FaultObj.make a n] }) ∧
    ((step r (.fault a n)).1 = false → ∃ k,
      (step r (.fault a n)).2 = { r with readable := r.readable ++ (faultFields a n).take k,
                                         writable := r.writable ++ (faultFields a n).take k }) := by
  obtain ⟨k, e1, e2, e3, e4, e5, e6, e7, e8, -⟩ := addFault_spec (reachable_inv h) a n
  simp only [step]
  refine ⟨e7, fun ht => ?_, fun hf => ⟨k, ?_⟩⟩
  · rw [e8 ht] at e1 e2
    rw [ht, if_pos rfl] at e6
    revert e1 e2 e3 e4 e5 e6
    generalize (addFault r (FaultObj.make a n)).2 = r'
    obtain ⟨i, rd, w, ee, ev, fa⟩ := r'
    rintro rfl rfl rfl rfl rfl rfl
    rfl
  · rw [hf] at e6
    simp only [Bool.false_eq_true, if_false, List.append_nil] at e6
    revert e1 e2 e3 e4 e5 e6
    generalize (addFault r (FaultObj.make a n)).2 = r'
    obtain ⟨i, rd, w, ee, ev, fa⟩ := r'
    rintro rfl rfl rfl rfl rfl rfl
    rfl

/-- C20: looking up a name returns a field exactly if it is the one registered under that name. -/
theorem C20_lookup_exact (r : Reg) (h : ReachableReg r) (n : String) (f : Field) :
    (find r.internal n = some f ↔ f ∈ r.internal ∧ f.name = n) ∧
    (find r.readable n = some f ↔ f ∈ r.readable ∧ f.name = n) ∧
    (find r.writable n = some f ↔ f ∈ r.writable ∧ f.name = n) ∧
    (find r.eeprom n = some f ↔ f ∈ r.eeprom ∧ f.name = n) ∧
    (find r.events n = some f ↔ f ∈ r.events ∧ f.name = n) := by
  have hu := C20_unique r h
  exact ⟨find_some hu.1, find_some hu.2.1, find_some hu.2.2.1, find_some hu.2.2.2.1, find_some hu.2.2.2.2.1⟩

/-- C20: once a field is registered, looking up its name returns that field, whatever is registered afterwards. -/
theorem C20_lookup_stable (r : Reg) (h : ReachableReg r) (f : Field) (ops : List Op) :
    ((step r (.internal f)).1 = true → find (run (step r (.internal f)).2 ops).internal f.name = some f) ∧
    ((step r (.readable f)).1 = true → find (run (step r (.readable f)).2 ops).readable f.name = some f) ∧
    ((step r (.writable f)).1 = true → find (run (step r (.writable f)).2 ops).writable f.name = some f ∧
      find (run (step r (.writable f)).2 ops).readable f.name = some f) ∧
    ((step r (.event f)).1 = true → find (run (step r (.event f)).2 ops).events f.name = some f) := by
  have hi := reachable_inv h
  obtain ⟨c1, c2, c3, c4⟩ := C20_refused_iff_taken r h f
  have key : ∀ o, Registry.Inv (step r o).2 ∧ Registry.Inv (run (step r o).2 ops) := fun o => ⟨step_inv hi o, run_inv ops (step_inv hi o)⟩
  refine ⟨fun ht => ?_, fun ht => ?_, fun ht => ?_, fun ht => ?_⟩
  · have m := (run_mono ops (key (.internal f)).1).1
    refine (find_some (key (.internal f)).2.internal).mpr ⟨m.mem ?_, rfl⟩
    rw [c1] at ht ⊢
    split at ht
    · cases ht
    · rename_i hn; rw [if_neg hn]; simp
  · have m := (run_mono ops (key (.readable f)).1).2.1
    refine (find_some (key (.readable f)).2.readable).mpr ⟨m.mem ?_, rfl⟩
    rw [c3] at ht ⊢
    split at ht
    · cases ht
    · rename_i hn; rw [if_neg hn]; simp
  · have m := (run_mono ops (key (.writable f)).1).2.2.1
    have hk := (key (.writable f)).2
    have hmem : f ∈ (run (step r (.writable f)).2 ops).writable := by
      refine m.mem ?_
      rw [c4] at ht ⊢
      split at ht
      · cases ht
      · rename_i hn; rw [if_neg hn]; simp
    exact ⟨(find_some (hk.readable.sublist (names_sublist hk.writable))).mpr ⟨hmem, rfl⟩,
      (find_some hk.readable).mpr ⟨hk.writable.mem hmem, rfl⟩⟩
  · have m := (run_mono ops (key (.event f)).1).2.2.2
    refine (find_some (key (.event f)).2.events).mpr ⟨m.mem ?_, rfl⟩
    rw [c2] at ht ⊢
    split at ht
    · cases ht
    · rename_i hn; rw [if_neg hn]; simp

/-- Non-vacuity: a registry with fields, a fault, and a refused registration. -/
example : (step (run empty [.readable ⟨1, "a", 1⟩, .fault 10 "low"]) (.writable ⟨2, "a", 0⟩)).1 = false ∧
    (run empty [.readable ⟨1, "a", 1⟩, .fault 10 "low"]).writable.length = 5 ∧
    ReachableReg (run empty [.readable ⟨1, "a", 1⟩, .fault 10 "low"]) :=
  ⟨by decide, by decide, ⟨_, rfl⟩⟩

/-- A refused fault may leave fields behind: if "low.override" is taken, "low.base" and "low.suppress" are registered
although the fault is refused. -/
theorem C20_fault_refused_leaves_fields :
    ∃ r, ReachableReg r ∧ (step r (.fault 10 "low")).1 = false ∧ (step r (.fault 10 "low")).2.writable.length = 3 :=
  ⟨run empty [.writable ⟨1, "low.override", 0⟩], ⟨_, rfl⟩, by decide, by decide⟩

end PAN
