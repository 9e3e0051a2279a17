import Verif.Spec.TelemInfo
import Verif.Props.Startup
import Verif.Lemmas.Float64
/-!
C121: the description of the telemetry that is generated for the ground.
-/
namespace PAN
open Spec Startup TelemInfo Registry

namespace TelemInfo

theorem get_append {α : Type} (m : Map α) (n k : String) (a : α) :
    get (m ++ [(n, a)]) k = match get m k with | some x => some x | none => if n = k then some a else none := by
  unfold get
  rw [List.find?_append]
  cases h : m.find? fun p => decide (p.1 = k) with
  | some x => simp
  | none => by_cases hk : n = k <;> simp [hk]

theorem get_insert {α : Type} (m : Map α) (n k : String) (a : α) :
    get (TelemInfo.insert m n a) k = if k = n then some ((get m n).getD a) else get m k := by
  unfold TelemInfo.insert
  by_cases hk : k = n
  · subst hk
    rw [if_pos rfl]
    cases h : get m k with
    | some x => simp [h]
    | none => simp [h, get_append]
  · rw [if_neg hk]
    cases h : get m n with
    | some x => simp
    | none =>
      simp only [Option.isSome_none, Bool.false_eq_true, if_false, get_append]
      cases get m k with
      | some x => rfl
      | none => simp [Ne.symm hk]

theorem get_put {α : Type} (m : Map α) (n k : String) (a : α) :
    get (put m n a) k = if k = n then some a else get m k := by
  unfold put
  cases h : get m n with
  | none =>
    simp only [Option.isSome_none, Bool.false_eq_true, if_false, get_append]
    by_cases hk : k = n
    · subst hk; simp [h]
    · rw [if_neg hk]
      cases get m k with
      | some x => rfl
      | none => simp [Ne.symm hk]
  | some x =>
    simp only [Option.isSome_some, if_true]
    have key : ∀ m : Map α, (m.map fun p => if p.1 = n then (n, a) else p).find? (fun p => decide (p.1 = k)) =
        (m.find? fun p => decide (p.1 = k)).map fun p => if p.1 = n then (n, a) else p := by
      intro m
      induction m with
      | nil => rfl
      | cons p m ih =>
        rw [List.map_cons, List.find?_cons, List.find?_cons]
        by_cases hp : p.1 = n
        · rw [if_pos hp, hp]
          by_cases hn : n = k <;> simp [hn, hp, ih]
        · rw [if_neg hp]
          by_cases hn : p.1 = k
          · have : k ≠ n := hn ▸ hp
            simp [hn, this]
          · simp [hn, ih]
    unfold get at h ⊢
    rw [key]
    obtain ⟨p, hp, -⟩ := Option.map_eq_some_iff.mp h
    by_cases hk : k = n
    · subst hk
      have := List.find?_some hp
      simp only [decide_eq_true_eq] at this
      rw [hp, if_pos rfl]
      simp [this]
    · rw [if_neg hk]
      cases hf : m.find? fun p => decide (p.1 = k) with
      | none => rfl
      | some q =>
        have := List.find?_some hf
        simp only [decide_eq_true_eq] at this
        have hq : q.1 ≠ n := this ▸ hk
        simp [hq]

theorem addWritables_some (s : St) (fs : List Field) (a : Acc) :
    (addWritables s fs a).isSome = true ↔ ∀ f ∈ fs, (collect s .writable f).isSome = true := by
  induction fs generalizing a with
  | nil => simp [addWritables]
  | cons f fs ih =>
    unfold addWritables
    cases h : collect s .writable f with
    | none => simp [h]
    | some d => simp only [ih, List.forall_mem_cons, h, Option.isSome_some, true_and]

theorem addWritables_get {s : St} {fs : List Field} {a a' : Acc} (h : addWritables s fs a = some a') (hn : (names fs).Nodup)
    (hm : ∀ f ∈ fs, get a.fields f.name = none) (he : ∀ f ∈ fs, get a.eeprom f.name = none) :
    (∀ f ∈ fs, get a'.fields f.name = collect s .writable f ∧ get a'.eeprom f.name = if f.period > 0 then some f.period else none) ∧
      ∀ n, n ∉ names fs → get a'.fields n = get a.fields n ∧ get a'.eeprom n = get a.eeprom n := by
  induction fs generalizing a with
  | nil => cases h; simp
  | cons f fs ih =>
    unfold addWritables at h
    cases hc : collect s .writable f with
    | none => rw [hc] at h; cases h
    | some d =>
      rw [hc] at h
      dsimp only at h
      have hn' : f.name ∉ names fs ∧ (names fs).Nodup := List.nodup_cons.mp hn
      have hne : ∀ g ∈ fs, g.name ≠ f.name := fun g hg e => hn'.1 (e ▸ List.mem_map_of_mem hg)
      have hep : ∀ n, n ≠ f.name → get (if f.period > 0 then put a.eeprom f.name f.period else a.eeprom) n = get a.eeprom n := by
        intro n hn; split_ifs
        · rw [get_put, if_neg hn]
        · rfl
      obtain ⟨h1, h2⟩ := ih h hn'.2
        (fun g hg => by rw [get_insert, if_neg (hne g hg)]; exact hm g (by simp [hg]))
        (fun g hg => by rw [hep _ (hne g hg)]; exact he g (by simp [hg]))
      refine ⟨?_, ?_⟩
      · intro g hg
        rcases List.mem_cons.mp hg with rfl | hg
        · obtain ⟨h3, h4⟩ := h2 g.name hn'.1
          rw [h3, h4, get_insert, if_pos rfl, hm g (by simp), hc]
          refine ⟨rfl, ?_⟩
          split_ifs
          · rw [get_put, if_pos rfl]
          · exact he g (by simp)
        · exact h1 g hg
      · intro n hn''
        have hnf : n ≠ f.name ∧ n ∉ names fs := by simpa [names] using hn''
        obtain ⟨h3, h4⟩ := h2 n hnf.2
        rw [h3, h4, get_insert, if_neg hnf.1, hep n hnf.1]
        exact ⟨rfl, rfl⟩

theorem addReadables_some {s : St} {fs : List Field} {a : Acc} (hn : (names fs).Nodup) :
    (addReadables s fs a).isSome = true ↔ ∀ f ∈ fs, get a.fields f.name = none → (collect s .readable f).isSome = true := by
  induction fs generalizing a with
  | nil => simp [addReadables]
  | cons f fs ih =>
    have hn' : f.name ∉ names fs ∧ (names fs).Nodup := List.nodup_cons.mp hn
    have hne : ∀ g ∈ fs, g.name ≠ f.name := fun g hg e => hn'.1 (e ▸ List.mem_map_of_mem hg)
    unfold addReadables
    cases hg : get a.fields f.name with
    | some x => simp [hg, ih hn'.2]
    | none =>
      simp only [Option.isSome_none, Bool.false_eq_true, if_false]
      cases h : collect s .readable f with
      | none => simp [h, hg]
      | some d =>
        simp only [ih hn'.2, List.forall_mem_cons, h, hg, Option.isSome_some, implies_true, true_and]
        refine forall₂_congr fun g hg => ?_
        rw [get_insert, if_neg (hne g hg)]

theorem addReadables_get {s : St} {fs : List Field} {a a' : Acc} (h : addReadables s fs a = some a') (hn : (names fs).Nodup)
    (he : ∀ f ∈ fs, get a.fields f.name = none → get a.eeprom f.name = none) :
    (∀ f ∈ fs, (get a.fields f.name = none → get a'.fields f.name = collect s .readable f ∧
        get a'.eeprom f.name = if f.period > 0 then some f.period else none) ∧
        ∀ x, get a.fields f.name = some x → get a'.fields f.name = some x ∧ get a'.eeprom f.name = get a.eeprom f.name) ∧
      ∀ n, n ∉ names fs → get a'.fields n = get a.fields n ∧ get a'.eeprom n = get a.eeprom n := by
  induction fs generalizing a with
  | nil => cases h; simp
  | cons f fs ih =>
    have hn' : f.name ∉ names fs ∧ (names fs).Nodup := List.nodup_cons.mp hn
    have hne : ∀ g ∈ fs, g.name ≠ f.name := fun g hg e => hn'.1 (e ▸ List.mem_map_of_mem hg)
    unfold addReadables at h
    cases hg : get a.fields f.name with
    | some x =>
      simp only [hg, Option.isSome_some, if_true] at h
      obtain ⟨h1, h2⟩ := ih h hn'.2 (fun g hg => he g (by simp [hg]))
      refine ⟨?_, ?_⟩
      · intro g hg'
        rcases List.mem_cons.mp hg' with rfl | hg'
        · obtain ⟨h3, h4⟩ := h2 g.name hn'.1
          rw [h3, h4, hg]
          refine ⟨fun h => ?_, fun y hy => ⟨hy, rfl⟩⟩
          cases h
        · exact h1 g hg'
      · intro n hn''
        exact h2 n (fun hc => hn'' (by simp only [names, List.map_cons, List.mem_cons]; exact Or.inr hc))
    | none =>
      simp only [hg, Option.isSome_none, Bool.false_eq_true, if_false] at h
      cases hc : collect s .readable f with
      | none => rw [hc] at h; cases h
      | some d =>
        rw [hc] at h
        dsimp only at h
        have hep : ∀ n, n ≠ f.name → get (if f.period > 0 then put a.eeprom f.name f.period else a.eeprom) n = get a.eeprom n := by
          intro n hn; split_ifs
          · rw [get_put, if_neg hn]
          · rfl
        obtain ⟨h1, h2⟩ := ih h hn'.2 (fun g hg => by
          rw [get_insert, if_neg (hne g hg), hep _ (hne g hg)]; exact he g (by simp [hg]))
        refine ⟨?_, ?_⟩
        · intro g hg'
          rcases List.mem_cons.mp hg' with rfl | hg'
          · obtain ⟨h3, h4⟩ := h2 g.name hn'.1
            rw [h3, h4, hg]
            refine ⟨fun _ => ?_, fun x hx => by cases hx⟩
            rw [get_insert, if_pos rfl, hg, hc]
            refine ⟨rfl, ?_⟩
            split_ifs
            · rw [get_put, if_pos rfl]
            · exact he g (by simp) hg
          · obtain ⟨h3, h4⟩ := h1 g hg'
            rw [get_insert, if_neg (hne g hg')] at h3 h4
            rw [hep _ (hne g hg')] at h4
            exact ⟨h3, h4⟩
        · intro n hn''
          have hnf : n ≠ f.name ∧ n ∉ names fs := by simpa [names] using hn''
          obtain ⟨h3, h4⟩ := h2 n hnf.2
          rw [h3, h4, get_insert, if_neg hnf.1, hep n hnf.1]
          exact ⟨rfl, rfl⟩

theorem setFlow_get (m : Map Desc) (n k : String) (id : Nat) :
    get (setFlow m n id) k = if k = n then some { (get m n).getD {} with flowId := id } else get m k := get_put _ _ _ _

theorem setFlow_fold (ns : List String) (id : Nat) (m : Map Desc) (k : String) :
    get (ns.foldl (fun m n => setFlow m n id) m) k = if k ∈ ns then some { (get m k).getD {} with flowId := id } else get m k := by
  induction ns generalizing m with
  | nil => simp
  | cons n ns ih =>
    rw [List.foldl_cons, ih, setFlow_get]
    by_cases hk : k = n
    · subst hk
      by_cases h2 : k ∈ ns <;> simp [h2]
    · by_cases h2 : k ∈ ns <;> simp [h2, hk]

/-- The last flow of a name. -/
def lastFlow (n : String) : List NamedFlow → Option Nat
  | [] => none
  | f :: fs => match lastFlow n fs with | some i => some i | none => if n ∈ f.fields then some f.id else none

theorem setFlows_get (flows : List NamedFlow) (m : Map Desc) (k : String) :
    get (setFlows m flows) k = match lastFlow k flows with
      | some i => some { (get m k).getD {} with flowId := i }
      | none => get m k := by
  induction flows generalizing m with
  | nil => rfl
  | cons f fs ih =>
    have : setFlows m (f :: fs) = setFlows (f.fields.foldl (fun m n => setFlow m n f.id) m) fs := rfl
    rw [this, ih, setFlow_fold, lastFlow]
    cases lastFlow k fs with
    | some i => by_cases h : k ∈ f.fields <;> simp [h]
    | none => by_cases h : k ∈ f.fields <;> simp [h]

theorem lastFlow_none {n : String} {flows : List NamedFlow} : lastFlow n flows = none ↔ ∀ f ∈ flows, n ∉ f.fields := by
  induction flows with
  | nil => simp [lastFlow]
  | cons f fs ih =>
    rw [lastFlow, List.forall_mem_cons, ← ih]
    cases lastFlow n fs with
    | some i => simp
    | none => by_cases h : n ∈ f.fields <;> simp [h]

theorem lastFlow_some {n : String} {flows : List NamedFlow} {i : Nat} (h : lastFlow n flows = some i) :
    ∃ pre f post, flows = pre ++ f :: post ∧ n ∈ f.fields ∧ (∀ g ∈ post, n ∉ g.fields) ∧ i = f.id := by
  induction flows with
  | nil => simp [lastFlow] at h
  | cons f fs ih =>
    rw [lastFlow] at h
    cases hl : lastFlow n fs with
    | some j =>
      rw [hl] at h
      cases h
      obtain ⟨pre, g, post, h1, h2⟩ := ih hl
      exact ⟨f :: pre, g, post, by rw [h1]; rfl, h2⟩
    | none =>
      rw [hl] at h
      dsimp only at h
      split_ifs at h with hf
      cases h
      exact ⟨[], f, fs, rfl, hf, lastFlow_none.mp hl, rfl⟩

theorem describe_eq {s : St} {flows : List NamedFlow} {t : Info} (h : describe s flows = some t) :
    ∃ a a', addWritables s s.reg.writable ⟨[], []⟩ = some a ∧ addReadables s s.reg.readable a = some a' ∧
      t = ⟨a'.eeprom, setFlows a'.fields flows, flows⟩ := by
  unfold describe at h
  cases h1 : addWritables s s.reg.writable ⟨[], []⟩ with
  | none => rw [h1] at h; cases h
  | some a =>
    rw [h1] at h
    dsimp only at h
    cases h2 : addReadables s s.reg.readable a with
    | none => rw [h2] at h; cases h
    | some a' =>
      rw [h2] at h
      exact ⟨a, a', rfl, h2, (Option.some.inj h).symm⟩

/-- What the loops over the fields leave behind. -/
theorem registered {cs : List Call} {s : St} (hs : After cs s) {a a' : Acc} (h1 : addWritables s s.reg.writable ⟨[], []⟩ = some a)
    (h2 : addReadables s s.reg.readable a = some a') :
    (∀ f d, s.objs[f.addr]? = some d → d.kind ≠ .internal → f.name = d.name → f.period = d.period →
      get a'.fields d.name = collect s d.kind f ∧ get a'.eeprom d.name = if d.period > 0 then some d.period else none) ∧
    ∀ n, (∀ d ∈ s.objs, d.kind ≠ .internal → d.name ≠ n) → get a'.fields n = none ∧ get a'.eeprom n = none := by
  have hr : s.reg.readable = fieldsFrom (inList .readable) 0 s.objs := hs.lists .readable
  have hw : s.reg.writable = fieldsFrom (inList .writable) 0 s.objs := hs.lists .writable
  have nr : (names s.reg.readable).Nodup := hs.inv.readable
  have nw : (names s.reg.writable).Nodup := nr.sublist (names_sublist hs.inv.writable)
  obtain ⟨w1, w2⟩ := addWritables_get h1 nw (fun _ _ => rfl) (fun _ _ => rfl)
  have hmem : ∀ f d, s.objs[f.addr]? = some d → d.kind ≠ .internal → f.name = d.name → f.period = d.period → f ∈ s.reg.readable := by
    intro f d hd hk hn hp
    rw [hr]
    exact mem_fieldsFrom.mpr ⟨d, hd, by cases hk' : d.kind <;> simp_all [inList], hn, hp⟩
  -- a name of a writable field is not that of another
  have huniq : ∀ f ∈ s.reg.readable, ∀ g ∈ s.reg.readable, f.name = g.name → f = g := by
    intro f hf g hg e
    have h3 := (find_some nr).mpr ⟨hf, rfl⟩
    have h4 := (find_some nr).mpr ⟨hg, rfl⟩
    rw [e, h4] at h3
    exact (Option.some.inj h3).symm
  have hsub : ∀ f ∈ s.reg.writable, f ∈ s.reg.readable := fun f hf => hs.inv.writable.subset hf
  have hnw : ∀ f ∈ s.reg.readable, f ∉ s.reg.writable → f.name ∉ names s.reg.writable := by
    intro f hf hfw hc
    obtain ⟨g, hg, e⟩ := List.mem_map.mp hc
    have := huniq g (hsub g hg) f hf e
    exact hfw (this ▸ hg)
  obtain ⟨r1, r2⟩ := addReadables_get h2 nr (by
    intro f hf hg
    by_cases hfw : f ∈ s.reg.writable
    · obtain ⟨h3, -⟩ := w1 f hfw
      rw [hg] at h3
      have := (addWritables_some s s.reg.writable ⟨[], []⟩).mp (by rw [h1]; rfl) f hfw
      rw [← h3] at this
      cases this
    · exact (w2 f.name (hnw f hf hfw)).2)
  refine ⟨?_, ?_⟩
  · intro f d hd hk hn hp
    have hf := hmem f d hd hk hn hp
    rw [← hn, ← hp]
    by_cases hkw : d.kind = .writable
    · have hfw : f ∈ s.reg.writable := by
        rw [hw]; exact mem_fieldsFrom.mpr ⟨d, hd, by rw [hkw]; rfl, hn, hp⟩
      obtain ⟨h3, h4⟩ := w1 f hfw
      obtain ⟨x, hx⟩ := Option.isSome_iff_exists.mp ((addWritables_some s s.reg.writable ⟨[], []⟩).mp (by rw [h1]; rfl) f hfw)
      obtain ⟨h5, h6⟩ := (r1 f hf).2 x (by rw [h3, hx])
      rw [h5, h6, hkw, hx, h4]
      exact ⟨rfl, rfl⟩
    · have hkr : d.kind = .readable := by cases hk' : d.kind <;> simp_all
      have hfw : f ∉ s.reg.writable := by
        rw [hw]; intro hc
        obtain ⟨d', hd', hp', -⟩ := mem_fieldsFrom.mp hc
        rw [hd] at hd'; cases hd'
        rw [hkr] at hp'; cases hp'
      rw [hkr]
      exact (r1 f hf).1 (w2 f.name (hnw f hf hfw)).1
  · intro n hn
    have hnr : n ∉ names s.reg.readable := by
      rw [hr]; intro hc
      obtain ⟨d, hd, hp, e⟩ := mem_names_fieldsFrom.mp hc
      exact hn d hd (by rintro hk; rw [hk] at hp; cases hp) e
    have hnw' : n ∉ names s.reg.writable := fun hc => hnr ((names_sublist hs.inv.writable).subset hc)
    obtain ⟨h3, h4⟩ := r2 n hnr
    obtain ⟨h5, h6⟩ := w2 n hnw'
    rw [h3, h4, h5, h6]
    exact ⟨rfl, rfl⟩

theorem typeCalled_iff (t : Ty) (n : String) : typeName t = some n ↔ TypeCalled t n := by
  cases t <;> simp [typeName, TypeCalled, eq_comm]

theorem limits_ok (o : Option Ser) : IntLimits o (limitsOf o) := by
  match o with
  | none => rfl
  | some (.int _ _ _) => rfl
  | some (.sized _ _ _ _) => rfl
  | some .bool | some (.real _ _ _) | some (.vec _ _ _) | some .quat | some .gps => rfl

theorem resolveField_mem {r : Reg} (he : r.events = []) {n : String} {a : Nat} (h : resolveField r n = some a) : n ∈ names r.readable := by
  unfold resolveField at h
  rw [he] at h
  cases hf : Registry.find r.readable n with
  | none => rw [hf] at h; simp [Registry.find] at h
  | some f => exact find_isSome.mp (by rw [hf]; rfl)

theorem resolveFields_mem {r : Reg} (he : r.events = []) : ∀ {ns : List String} {as : List Nat}, resolveFields r ns = some as →
    ∀ n ∈ ns, n ∈ names r.readable
  | [], _, _ => by simp
  | n :: ns, as, h => by
    unfold resolveFields at h
    cases h1 : resolveField r n with
    | none => rw [h1] at h; cases h
    | some a =>
      cases h2 : resolveFields r ns with
      | none => rw [h1, h2] at h; cases h
      | some as' =>
        intro k hk
        rcases List.mem_cons.mp hk with rfl | hk
        · exact resolveField_mem he h1
        · exact resolveFields_mem he h2 k hk

theorem resolveFlows_mem {r : Reg} (he : r.events = []) : ∀ {fs : List NamedFlow} {ds : List Downlink.FlowData}, resolveFlows r fs = some ds →
    ∀ f ∈ fs, ∀ n ∈ f.fields, n ∈ names r.readable
  | [], _, _ => by simp
  | f :: fs, ds, h => by
    unfold resolveFlows at h
    cases h1 : resolveFields r f.fields with
    | none => rw [h1] at h; cases h
    | some a =>
      cases h2 : resolveFlows r fs with
      | none => rw [h1, h2] at h; cases h
      | some as' =>
        intro g hg
        rcases List.mem_cons.mp hg with rfl | hg
        · exact resolveFields_mem he h1
        · exact resolveFlows_mem he h2 g hg

end TelemInfo

/-- C121. However the control tasks are wired and whatever the table of flows: a description is generated exactly if every field
that can be read or commanded is of a type the ground has a name for. -/
theorem C121_generated (cs : List Call) (s : St) (h : start cs = some s) (flows : List NamedFlow) :
    (describe s flows).isSome = true ↔ ∀ d ∈ declared cs, d.kind ≠ .internal → ∃ n, TypeCalled d.ty n := by
  obtain ⟨-, hs⟩ := start_after h
  have hr : s.reg.readable = fieldsFrom (inList .readable) 0 s.objs := hs.lists .readable
  have hw : s.reg.writable = fieldsFrom (inList .writable) 0 s.objs := hs.lists .writable
  have nr : (names s.reg.readable).Nodup := hs.inv.readable
  have nw : (names s.reg.writable).Nodup := nr.sublist (names_sublist hs.inv.writable)
  have hcol : ∀ (f : Field) (d : Decl) (k : Kind), s.objs[f.addr]? = some d → d.kind = k →
      ((collect s k f).isSome = true ↔ ∃ n, TypeCalled d.ty n) := by
    intro f d k hd hk
    unfold collect
    rw [hd]
    dsimp only
    rw [if_pos hk]
    cases ht : typeName d.ty with
    | none =>
      simp only [Option.isSome_none, Bool.false_eq_true, false_iff, not_exists]
      intro n hn
      rw [(typeCalled_iff _ _).mpr hn] at ht
      cases ht
    | some t => simp only [Option.isSome_some, true_iff]; exact ⟨t, (typeCalled_iff _ _).mp ht⟩
  constructor
  · intro hsome d hd hk
    obtain ⟨t, ht⟩ := Option.isSome_iff_exists.mp hsome
    obtain ⟨a, a', h1, h2, -⟩ := describe_eq ht
    rw [← hs.objs] at hd
    obtain ⟨i, hi, rfl⟩ := List.getElem_of_mem hd
    have hget : s.objs[i]? = some s.objs[i] := List.getElem?_eq_getElem hi
    obtain ⟨h3, -⟩ := (registered hs h1 h2).1 ⟨i, s.objs[i].name, s.objs[i].period⟩ _ hget hk rfl rfl
    by_cases hkw : s.objs[i].kind = .writable
    · have hm : (⟨i, s.objs[i].name, s.objs[i].period⟩ : Field) ∈ s.reg.writable := by
        rw [hw]; exact mem_fieldsFrom.mpr ⟨_, hget, by rw [hkw]; rfl, rfl, rfl⟩
      exact (hcol _ _ _ hget hkw).mp ((addWritables_some s s.reg.writable ⟨[], []⟩).mp (by rw [h1]; rfl) _ hm)
    · have hkr : s.objs[i].kind = .readable := by cases hk' : s.objs[i].kind <;> simp_all
      have hm : (⟨i, s.objs[i].name, s.objs[i].period⟩ : Field) ∈ s.reg.readable := by
        rw [hr]; exact mem_fieldsFrom.mpr ⟨_, hget, by rw [hkr]; rfl, rfl, rfl⟩
      cases hg : get a.fields s.objs[i].name with
      | none => exact (hcol _ _ _ hget hkr).mp ((addReadables_some nr).mp (by rw [h2]; rfl) _ hm hg)
      | some x =>
        obtain ⟨-, r1⟩ := addReadables_get h2 nr (by
          intro f hf hgf
          by_cases hfw : f.name ∈ names s.reg.writable
          · obtain ⟨g, hg', e⟩ := List.mem_map.mp hfw
            have h5 := (addWritables_get h1 nw (fun _ _ => rfl) (fun _ _ => rfl)).1 g hg'
            have h6 := (addWritables_some s s.reg.writable ⟨[], []⟩).mp (by rw [h1]; rfl) g hg'
            rw [← h5.1, e, hgf] at h6
            cases h6
          · exact ((addWritables_get h1 nw (fun _ _ => rfl) (fun _ _ => rfl)).2 _ hfw).2)
        -- a readable field is not described as writable
        have hnw : s.objs[i].name ∉ names s.reg.writable := by
          intro hc
          obtain ⟨g, hg', e⟩ := List.mem_map.mp hc
          have h5 := (find_some nr).mpr ⟨hs.inv.writable.subset hg', rfl⟩
          have h6 := (find_some nr).mpr ⟨hm, rfl⟩
          rw [e, h6] at h5
          have h7 := Option.some.inj h5
          rw [← h7, hw] at hg'
          obtain ⟨d', hd', hp', -⟩ := mem_fieldsFrom.mp hg'
          rw [hget] at hd'; cases hd'
          rw [hkr] at hp'; cases hp'
        have := ((addWritables_get h1 nw (fun _ _ => rfl) (fun _ _ => rfl)).2 _ hnw).1
        rw [hg] at this
        cases this
  · intro hty
    have hty' : ∀ (f : Field) (d : Decl), s.objs[f.addr]? = some d → d.kind ≠ .internal → (collect s d.kind f).isSome = true := by
      intro f d hd hk
      exact (hcol f d _ hd rfl).mpr (hty d (by rw [← hs.objs]; exact List.mem_of_getElem? hd) hk)
    have h1 : (addWritables s s.reg.writable ⟨[], []⟩).isSome = true := by
      rw [addWritables_some, hw]
      intro f hf
      obtain ⟨d, hd, hp, -⟩ := mem_fieldsFrom.mp hf
      have hk : d.kind = .writable := by cases hk' : d.kind <;> simp_all [inList]
      have := hty' f d hd (by rw [hk]; decide)
      rwa [hk] at this
    obtain ⟨a, ha⟩ := Option.isSome_iff_exists.mp h1
    have h2 : (addReadables s s.reg.readable a).isSome = true := by
      rw [addReadables_some nr]
      intro f hf hg
      have hf' := hf
      rw [hr] at hf'
      obtain ⟨d, hd, hp, hn, hpe⟩ := mem_fieldsFrom.mp hf'
      have hk : d.kind ≠ .internal := by rintro hk; rw [hk] at hp; cases hp
      have hkr : d.kind = .readable := by
        by_contra hne
        have hkw : d.kind = .writable := by cases hk' : d.kind <;> simp_all
        have hfw : f ∈ s.reg.writable := by rw [hw]; exact mem_fieldsFrom.mpr ⟨d, hd, by rw [hkw]; rfl, hn, hpe⟩
        have h5 := (addWritables_get ha nw (fun _ _ => rfl) (fun _ _ => rfl)).1 f hfw
        have h6 := hty' f d hd hk
        rw [hkw, ← h5.1, hg] at h6
        cases h6
      have := hty' f d hd hk
      rwa [hkr] at this
    obtain ⟨a', ha'⟩ := Option.isSome_iff_exists.mp h2
    unfold describe
    rw [ha]
    dsimp only
    rw [ha']
    rfl

/-- What is described of a declared field. -/
theorem TelemInfo.described {cs : List Call} {s : St} (h : start cs = some s) {flows : List NamedFlow} {t : Info}
    (ht : describe s flows = some t) {a : Nat} {d : Decl} (ha : (declared cs)[a]? = some d) (hk : d.kind ≠ .internal) :
    ∃ D, get t.fields d.name = some D ∧ TypeCalled d.ty D.type ∧ (D.writable = true ↔ d.kind = .writable) ∧
      D.bitsize = widthAt (declared cs) a ∧ IntLimits d.ser D.limits ∧
      (lastFlow d.name flows).getD 0 = D.flowId ∧
      (get t.eeprom d.name = if 0 < d.period then some d.period else none) ∧
      D.limits = limitsOf d.ser ∧ D.range = rangeOf d.ty d.ser := by
  obtain ⟨-, hs⟩ := start_after h
  obtain ⟨acc, acc', h1, h2, rfl⟩ := describe_eq ht
  have hd : s.objs[a]? = some d := by rw [hs.objs]; exact ha
  obtain ⟨h3, h4⟩ := (registered hs h1 h2).1 ⟨a, d.name, d.period⟩ d hd hk rfl rfl
  have hty := (C121_generated cs s h flows).mp (by rw [ht]; rfl) d (List.mem_of_getElem? ha) hk
  obtain ⟨n, hn⟩ := hty
  have hc : collect s d.kind ⟨a, d.name, d.period⟩ =
      some { type := n, writable := decide (d.kind = .writable), limits := limitsOf d.ser, range := rangeOf d.ty d.ser,
             bitsize := (d.ser.map Ser.width).getD 0 } := by
    unfold collect
    dsimp only
    rw [hd]
    dsimp only
    rw [if_pos rfl, (typeCalled_iff _ _).mpr hn]
  have hw : widthAt (declared cs) a = (d.ser.map Ser.width).getD 0 := by
    unfold widthAt; rw [ha]
  rw [hc] at h3
  have hg := setFlows_get flows acc'.fields d.name
  rw [h3] at hg
  cases hl : lastFlow d.name flows with
  | none =>
    rw [hl] at hg
    exact ⟨_, hg, hn, by simp, hw.symm, limits_ok _, rfl, h4, rfl, rfl⟩
  | some i =>
    rw [hl] at hg
    exact ⟨_, hg, hn, by simp, hw.symm, limits_ok _, rfl, h4, rfl, rfl⟩

/-- C121. Every field that can be read or commanded is described under its name: with the name of its type, as writable exactly
if it can be commanded, with the number of bits it has in the telemetry and with the limits of its serializer; and it is listed as
saved to the EEPROM, with its period, exactly if it has one. -/
theorem C121_field (cs : List Call) (s : St) (h : start cs = some s) (flows : List NamedFlow) (t : Info)
    (ht : describe s flows = some t) (a : Nat) (d : Decl) (ha : (declared cs)[a]? = some d) (hk : d.kind ≠ .internal) :
    ∃ D, get t.fields d.name = some D ∧ TypeCalled d.ty D.type ∧ (D.writable = true ↔ d.kind = .writable) ∧
      D.bitsize = widthAt (declared cs) a ∧ IntLimits d.ser D.limits ∧
      get t.eeprom d.name = if 0 < d.period then some d.period else none := by
  obtain ⟨D, h1, h2, h3, h4, h5, -, h6, -⟩ := described h ht ha hk
  exact ⟨D, h1, h2, h3, h4, h5, h6⟩

theorem TelemInfo.shown_near (x : ℚ) : |shown x - x| ≤ 6 / 10 ^ 16 + |x| / 2 ^ 52 := by
  have h1 := rne_err (x * 10 ^ 15)
  have h2 : |(rne (x * 10 ^ 15) : ℚ) / 10 ^ 15 - x| ≤ 1 / (2 * 10 ^ 15) := by
    have e : (rne (x * 10 ^ 15) : ℚ) / 10 ^ 15 - x = ((rne (x * 10 ^ 15) : ℚ) - x * 10 ^ 15) / 10 ^ 15 := by ring
    rw [e, abs_div, abs_of_pos (by norm_num : (0 : ℚ) < 10 ^ 15), div_le_iff₀ (by norm_num)]
    calc _ ≤ (1 : ℚ) / 2 := h1
      _ = _ := by norm_num
  have h3 := f64_err_abs ((rne (x * 10 ^ 15) : ℚ) / 10 ^ 15)
  unfold shown
  generalize (rne (x * 10 ^ 15) : ℚ) / 10 ^ 15 = y at h2 h3 ⊢
  have h4 : |y| ≤ |y - x| + |x| := by
    calc |y| = |(y - x) + x| := by ring_nf
      _ ≤ _ := abs_add_le _ _
  have h5 : |f64 y - x| ≤ |f64 y - y| + |y - x| := by
    calc |f64 y - x| = |(f64 y - y) + (y - x)| := by ring_nf
      _ ≤ _ := abs_add_le _ _
  have h6 : (1 : ℚ) / 2 ^ 1075 ≤ 1 / 2 ^ 60 :=
    one_div_le_one_div_of_le (by norm_num) (pow_le_pow_right₀ (by norm_num) (by norm_num))
  have h7 := abs_nonneg x
  generalize (1 : ℚ) / 2 ^ 1075 = z at h3 h6
  norm_num at h2 h3 h6 ⊢
  linarith

theorem TelemInfo.near_of {x r e : ℚ} {d : Bool} (h : |r - x| ≤ |x| * e + 1 / 10 ^ 17) (he : e + 1 / 2 ^ 52 + e / 2 ^ 52 ≤ if d then 1 / 2 ^ 51 else 1 / 2 ^ 23) :
    Near d x (shown r) := by
  have h1 := shown_near r
  have h2 : |r| ≤ |r - x| + |x| := by
    calc |r| = |(r - x) + x| := by ring_nf
      _ ≤ _ := abs_add_le _ _
  have h3 : |shown r - x| ≤ |shown r - r| + |r - x| := by
    calc |shown r - x| = |(shown r - r) + (r - x)| := by ring_nf
      _ ≤ _ := abs_add_le _ _
  have h4 := mul_le_mul_of_nonneg_left he (abs_nonneg x)
  unfold Near
  generalize (if d = true then (1 : ℚ) / 2 ^ 51 else 1 / 2 ^ 23) = c at h4 ⊢
  have h5 : |x| * (e + 1 / 2 ^ 52 + e / 2 ^ 52) = |x| * e + |x| / 2 ^ 52 + |x| * e / 2 ^ 52 := by ring
  rw [h5] at h4
  norm_num at h h1 h4 ⊢
  linarith

theorem TelemInfo.near_f32 (x : ℚ) : Near false x (shown (f32 x)) := by
  have h := f32_err_abs x
  have h6 : (1 : ℚ) / 2 ^ 150 ≤ 1 / 10 ^ 17 := by norm_num
  refine near_of (e := 1 / 2 ^ 24) ?_ (by norm_num)
  rw [mul_one_div]
  linarith

theorem TelemInfo.near_f64 (x : ℚ) : Near true x (shown (f64 x)) := by
  have h := f64_err_abs x
  have h6 : (1 : ℚ) / 2 ^ 1075 ≤ 1 / 2 ^ 60 :=
    one_div_le_one_div_of_le (by norm_num) (pow_le_pow_right₀ (by norm_num) (by norm_num))
  have h8 : (1 : ℚ) / 2 ^ 60 ≤ 1 / 10 ^ 17 := by norm_num
  refine near_of (e := 1 / 2 ^ 53) ?_ (by norm_num)
  rw [mul_one_div]
  linarith

/-- C121. The ground is told between which limits a floating-point number, or the length of a vector, lies in the telemetry: to 15
decimals, and the precision of the numbers. -/
theorem C121_range (cs : List Call) (s : St) (h : start cs = some s) (flows : List NamedFlow) (t : Info)
    (ht : describe s flows = some t) (d : Decl) (hd : d ∈ declared cs) (hk : d.kind ≠ .internal) (dbl : Bool) (lo hi : ℚ)
    (hr : Ranges dbl d lo hi) :
    ∃ D lo' hi', get t.fields d.name = some D ∧ D.toJson.key "min" = some (.real lo') ∧
      D.toJson.key "max" = some (.real hi') ∧ Near dbl lo lo' ∧ Near dbl hi hi' := by
  obtain ⟨a, ha⟩ := List.getElem?_of_mem hd
  obtain ⟨D, h1, -, -, -, -, -, -, h2, h3⟩ := described h ht ha hk
  have key : ∀ x y : ℚ, D.limits = none → D.range = some (x, y) →
      D.toJson.key "min" = some (.real x) ∧ D.toJson.key "max" = some (.real y) := by
    intro x y hl hr
    have e : D.toJson = .obj ([("type", .str D.type), ("writable", .bool D.writable), ("bitsize", .num D.bitsize),
        ("flow_id", if D.flowId > 0 then .num D.flowId else .str "undefined")] ++ [("min", .real x), ("max", .real y)]) := by
      unfold Desc.toJson
      rw [hl, hr]
    rw [e]
    exact ⟨rfl, rfl⟩
  cases hr with
  | float => exact ⟨D, _, _, h1, (key _ _ h2 h3).1, (key _ _ h2 h3).2, near_f32 lo, near_f32 hi⟩
  | double => exact ⟨D, _, _, h1, (key _ _ h2 h3).1, (key _ _ h2 h3).2, near_f64 lo, near_f64 hi⟩
  | arr3f => exact ⟨D, _, _, h1, (key _ _ h2 h3).1, (key _ _ h2 h3).2, near_f32 lo, near_f32 hi⟩
  | vec3f => exact ⟨D, _, _, h1, (key _ _ h2 h3).1, (key _ _ h2 h3).2, near_f32 lo, near_f32 hi⟩
  | vec3d => exact ⟨D, _, _, h1, (key _ _ h2 h3).1, (key _ _ h2 h3).2, near_f64 lo, near_f64 hi⟩

/-- The orbit's position and the tank's pressure are such fields. -/
example : (∃ d ∈ declared Table.flight, d.kind ≠ .internal ∧ d.name = "orbit.pos" ∧ Ranges true d 6771000 6921000) ∧
    ∃ d ∈ declared Table.flight, d.kind ≠ .internal ∧ d.name = "prop.tank2.pressure" ∧ Ranges false d 0 150 :=
  ⟨⟨⟨.readable, "orbit.pos", .vec3d, some (.vec 6771000 6921000 28), 0⟩, by rw [Flight.declared_eq]; decide +kernel, by decide, rfl,
      .vec3d _ _ _ _ _ _⟩,
    ⟨.readable, "prop.tank2.pressure", .float, some (.real 0 150 8), 0⟩, by rw [Flight.declared_eq]; decide +kernel, by decide, rfl,
      .float _ _ _ _ _ _⟩

/-- Every field of the flight software of these types is one: a floating-point number or vector without limits does not occur. -/
theorem C121_flight_ranges (d : Decl) (hd : d ∈ declared Table.flight) (hk : d.kind ≠ .internal)
    (ht : d.ty = .float ∨ d.ty = .double ∨ d.ty = .arr3f ∨ d.ty = .vec3f ∨ d.ty = .vec3d) :
    ∃ dbl lo hi, Ranges dbl d lo hi ∧ lo < hi := by
  rw [Flight.declared_eq] at hd
  have hall : Flight.decls.all fun d => decide (d.kind = .internal) || (match d.ty, d.ser with
      | .float, some (.real lo hi _) => decide (lo < hi)
      | .double, some (.real lo hi _) => decide (lo < hi)
      | .arr3f, some (.vec lo hi _) => decide (lo < hi)
      | .vec3f, some (.vec lo hi _) => decide (lo < hi)
      | .vec3d, some (.vec lo hi _) => decide (lo < hi)
      | .float, _ => false
      | .double, _ => false
      | .arr3f, _ => false
      | .vec3f, _ => false
      | .vec3d, _ => false
      | _, _ => true) := by decide +kernel
  have := List.all_eq_true.mp hall d hd
  obtain ⟨k, n, ty, ser, p⟩ := d
  dsimp only at hk ht this
  rw [decide_eq_false hk, Bool.false_or] at this
  rcases ht with rfl | rfl | rfl | rfl | rfl <;> rcases ser with _ | ser <;> try (exact absurd this Bool.false_ne_true)
  all_goals cases ser <;> try (exact absurd this Bool.false_ne_true)
  · exact ⟨_, _, _, .float _ _ _ _ _ _, of_decide_eq_true this⟩
  · exact ⟨_, _, _, .double _ _ _ _ _ _, of_decide_eq_true this⟩
  · exact ⟨_, _, _, .arr3f _ _ _ _ _ _, of_decide_eq_true this⟩
  · exact ⟨_, _, _, .vec3f _ _ _ _ _ _, of_decide_eq_true this⟩
  · exact ⟨_, _, _, .vec3d _ _ _ _ _ _, of_decide_eq_true this⟩

/-- C121. The description says of a field that it is in the last flow of the table that lists it, or in none. -/
theorem C121_flow (cs : List Call) (s : St) (h : start cs = some s) (flows : List NamedFlow) (hid : ∀ f ∈ flows, 0 < f.id)
    (t : Info) (ht : describe s flows = some t) (d : Decl) (hd : d ∈ declared cs) (hk : d.kind ≠ .internal) :
    ∃ D, get t.fields d.name = some D ∧ FlowShown flows d.name (if 0 < D.flowId then some D.flowId else none) := by
  obtain ⟨a, ha⟩ := List.getElem?_of_mem hd
  obtain ⟨D, h1, -, -, -, -, h2, -⟩ := described h ht ha hk
  refine ⟨D, h1, ?_⟩
  cases hl : lastFlow d.name flows with
  | none =>
    rw [hl] at h2
    have h3 : D.flowId = 0 := h2.symm
    rw [h3]
    exact Or.inl ⟨lastFlow_none.mp hl, rfl⟩
  | some i =>
    rw [hl] at h2
    have h3 : D.flowId = i := h2.symm
    obtain ⟨pre, f, post, e, m, l, hi⟩ := lastFlow_some hl
    have := hid f (by rw [e]; simp)
    rw [h3, hi, if_pos this]
    exact Or.inr ⟨pre, f, post, e, m, l, rfl⟩

/-- C121. If every name in the flows is that of a field, nothing else is described: neither internal fields nor names that are
no field's. Nor is anything else listed as saved to the EEPROM. -/
theorem C121_only (cs : List Call) (s : St) (h : start cs = some s) (flows : List NamedFlow) (fd : List Downlink.FlowData)
    (hf : resolveFlows s.reg flows = some fd) (t : Info) (ht : describe s flows = some t) (n : String)
    (hn : ∀ d ∈ declared cs, d.kind ≠ .internal → d.name ≠ n) : get t.fields n = none ∧ get t.eeprom n = none := by
  obtain ⟨-, hs⟩ := start_after h
  obtain ⟨acc, acc', h1, h2, rfl⟩ := describe_eq ht
  obtain ⟨h3, h4⟩ := (registered hs h1 h2).2 n (by rw [hs.objs]; exact hn)
  refine ⟨?_, h4⟩
  have hl : lastFlow n flows = none := by
    rw [lastFlow_none]
    intro f hff hc
    have hm := resolveFlows_mem hs.events hf f hff n hc
    have hr : s.reg.readable = fieldsFrom (inList .readable) 0 s.objs := hs.lists .readable
    rw [hr] at hm
    obtain ⟨d, hd, hp, e⟩ := mem_names_fieldsFrom.mp hm
    rw [hs.objs] at hd
    exact hn d hd (by rintro hk; rw [hk] at hp; cases hp) e
  show get (setFlows acc'.fields flows) n = none
  rw [setFlows_get, hl]
  exact h3

/-- C121. But a name in a flow that is no field's, such as an event's, gets a description all the same: of no type and
no bits. -/
theorem C121_counterexample_not_a_field (cs : List Call) (s : St) (h : start cs = some s) (flows : List NamedFlow) (t : Info)
    (ht : describe s flows = some t) (n : String) (hn : ∀ d ∈ declared cs, d.kind ≠ .internal → d.name ≠ n)
    (f : NamedFlow) (hf : f ∈ flows) (hm : n ∈ f.fields) :
    ∃ D, get t.fields n = some D ∧ D.type = "" ∧ D.bitsize = 0 ∧ D.limits = none := by
  obtain ⟨-, hs⟩ := start_after h
  obtain ⟨acc, acc', h1, h2, rfl⟩ := describe_eq ht
  obtain ⟨h3, -⟩ := (registered hs h1 h2).2 n (by rw [hs.objs]; exact hn)
  have hg := setFlows_get flows acc'.fields n
  cases hl : lastFlow n flows with
  | none => exact absurd hm (lastFlow_none.mp hl f hf)
  | some i =>
    rw [hl, h3] at hg
    exact ⟨_, hg, rfl, rfl, rfl⟩

/-- C121. Of a field listed in several flows only the last shows: no flow but that is the field's, as the description has it. -/
theorem C121_counterexample_two_flows (cs : List Call) (s : St) (h : start cs = some s) (pre mid post : List NamedFlow)
    (f g : NamedFlow) (hid : f.id ≠ g.id) (t : Info) (ht : describe s (pre ++ f :: mid ++ g :: post) = some t) (d : Decl)
    (hd : d ∈ declared cs) (hk : d.kind ≠ .internal) (hf : d.name ∈ f.fields) (hg : d.name ∈ g.fields)
    (hp : ∀ x ∈ post, d.name ∉ x.fields) :
    f ∈ t.flows ∧ d.name ∈ f.fields ∧ ∃ D, get t.fields d.name = some D ∧ D.flowId = g.id ∧ D.flowId ≠ f.id := by
  obtain ⟨a, ha⟩ := List.getElem?_of_mem hd
  obtain ⟨D, h1, -, -, -, -, h2, -⟩ := described h ht ha hk
  have hl : ∀ l : List NamedFlow, lastFlow d.name (l ++ g :: post) = some g.id := by
    intro l
    induction l with
    | nil => rw [List.nil_append, lastFlow, lastFlow_none.mpr hp]; simp [hg]
    | cons x l ih => rw [List.cons_append, lastFlow, ih]
  rw [hl] at h2
  have h3 : g.id = D.flowId := h2
  obtain ⟨acc, acc', -, -, rfl⟩ := describe_eq ht
  exact ⟨by simp, hf, D, h1, h3.symm, h3 ▸ hid.symm⟩

/-- C121. The flight software's description is generated, and describes 403 fields, 196 of which can be commanded. The command of
the battery heater is in flows 35 and 37 of the table; the description puts it in 37 alone. -/
theorem C121_flight (s : St) (h : start Table.flight = some s) :
    ∃ t, describe s Table.flows = some t ∧ t.flows = Table.flows ∧
      (∀ n, (get t.fields n).isSome = true ↔ ∃ d ∈ declared Table.flight, d.kind ≠ .internal ∧ d.name = n) ∧
      ((declared Table.flight).countP fun d => decide (d.kind ≠ .internal)) = 403 ∧
      ((declared Table.flight).countP fun d => decide (d.kind = .writable)) = 196 ∧
      (∃ f ∈ t.flows, f.id = 35 ∧ "gomspace.heater_cmd" ∈ f.fields) ∧ (∃ f ∈ t.flows, f.id = 37 ∧ "gomspace.heater_cmd" ∈ f.fields) ∧
      ∃ D, get t.fields "gomspace.heater_cmd" = some D ∧ D.flowId = 37 := by
  have hsome : (describe s Table.flows).isSome = true := by
    rw [C121_generated _ s h, Flight.declared_eq]
    have : Flight.decls.all fun d => decide (d.kind = .internal) || (typeName d.ty).isSome := by decide +kernel
    intro d hd hk
    have := List.all_eq_true.mp this d hd
    simp only [Bool.or_eq_true, decide_eq_true_eq, hk, false_or] at this
    obtain ⟨n, hn⟩ := Option.isSome_iff_exists.mp this
    exact ⟨n, (typeCalled_iff _ _).mp hn⟩
  obtain ⟨t, ht⟩ := Option.isSome_iff_exists.mp hsome
  have hfl : t.flows = Table.flows := by obtain ⟨_, _, -, -, rfl⟩ := describe_eq ht; rfl
  refine ⟨t, ht, hfl, ?_, by rw [Flight.declared_eq]; decide +kernel, by rw [Flight.declared_eq]; decide +kernel, ?_, ?_, ?_⟩
  · intro n
    constructor
    · intro hs
      by_contra hc
      have := (C121_only _ s h _ _ (Flight.resolved h) t ht n (fun d hd hk e => hc ⟨d, hd, hk, e⟩)).1
      rw [this] at hs
      cases hs
    · rintro ⟨d, hd, hk, rfl⟩
      obtain ⟨D, h1, -⟩ := C121_flow _ s h Table.flows (by decide +kernel) t ht d hd hk
      rw [h1]; rfl
  · rw [hfl]; decide +kernel
  · rw [hfl]; decide +kernel
  · have hd : ∃ d ∈ declared Table.flight, d.kind ≠ .internal ∧ d.name = "gomspace.heater_cmd" := by
      rw [Flight.declared_eq]; decide +kernel
    obtain ⟨d, hd, hk, hn⟩ := hd
    obtain ⟨a, ha⟩ := List.getElem?_of_mem hd
    obtain ⟨D, h1, -, -, -, -, h2, -⟩ := described h ht ha hk
    rw [hn] at h1 h2
    refine ⟨D, h1, ?_⟩
    rw [← h2]
    decide +kernel

/-- The flight software starts, so the theorems above speak of something. -/
example : ∃ s, start Table.flight = some s := ⟨_, C116_flight_starts.choose_spec.1⟩

/-- C121. The priority the ground is given for a flow, its identifier less one, is its place among the flows exactly if the
identifiers count up from one in the order of the table. -/
theorem C121_priority (flows : List NamedFlow) :
    (∀ (i : Nat) (f : NamedFlow), flows[i]? = some f → (flowToJson f).key "priority" = some (.num i)) ↔
      flows.map (·.id) = (List.range flows.length).map (· + 1) := by
  have hp : ∀ f : NamedFlow, (flowToJson f).key "priority" = some (.num ((f.id : Int) - 1)) := fun f => rfl
  simp only [hp]
  constructor
  · intro h
    apply List.ext_getElem (by simp)
    intro i h1 h2
    have hi : i < flows.length := by simpa using h1
    have := h i flows[i] (List.getElem?_eq_getElem hi)
    simp only [Option.some.injEq, Json.num.injEq] at this
    simp only [List.getElem_map, List.getElem_range]
    omega
  · intro h i f hf
    have h1 : (flows.map (·.id))[i]? = some f.id := by rw [List.getElem?_map, hf]; rfl
    have hi : i < flows.length := (List.getElem?_eq_some_iff.mp hf).1
    rw [h] at h1
    simp only [List.getElem?_map, List.getElem?_range hi, Option.map_some, Option.some.injEq] at h1
    rw [← h1]
    congr 2
    push_cast
    ring

/-- The flight software's table is in this order. -/
example : Table.flows.map (·.id) = (List.range Table.flows.length).map (· + 1) := by decide +kernel

/-- C121. A flow that was written is read back as it was. -/
theorem C121_flow_readback (f : NamedFlow) : flowFromJson (flowToJson f) = some f := by
  have hm : ∀ l : List String, (l.map Json.str).mapM Json.asStr = some l := by
    intro l
    induction l with
    | nil => rfl
    | cons x l ih => rw [List.map_cons, List.mapM_cons, ih]; rfl
  have hk : (flowToJson f).key "active" = some (.bool f.active) ∧ (flowToJson f).key "fields" = some (.arr (f.fields.map .str)) ∧
      (flowToJson f).key "id" = some (.num f.id) := ⟨rfl, rfl, rfl⟩
  unfold flowFromJson
  rw [hk.1, hk.2.1, hk.2.2]
  simp [Json.asBool, Json.asNat, hm]

/-- C121. The description of a field is not: whatever the field, reading what was written fails, as the size is read as a truth
value. -/
theorem C121_counterexample_field_readback (d : Desc) : descFromJson d.toJson = none := by
  have hb : d.toJson.key "bitsize" = some (.num d.bitsize) := rfl
  unfold descFromJson
  rw [hb]
  cases d.toJson.key "type" <;> [rfl; skip]
  rename_i a
  cases ha : a.asStr <;> [simp [ha]; skip]
  cases d.toJson.key "flow_id" <;> [simp [ha]; skip]
  rename_i b
  cases hb : b.asNat <;> [simp [ha, hb]; skip]
  cases d.toJson.key "writable" <;> [simp [ha, hb]; skip]
  rename_i c
  cases hc : c.asBool <;> simp [ha, hb, hc, Json.asBool]

/-- C121. Nor is a description as a whole: it is written with the fields under one name and read with them under another. -/
theorem C121_counterexample_readback (t : Info) : infoFromJson t.toJson = none := by
  have h : t.toJson.key "field_data" = none := rfl
  unfold infoFromJson
  rw [h]
  cases t.toJson.key "eeprom_saved_fields" <;> [rfl; skip]
  rename_i a
  cases ha : a.items <;> [simp [ha]; skip]
  rename_i l
  simp [ha]

end PAN
