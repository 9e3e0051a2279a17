import Verif.Lemmas.StartupFlight
/-!
A checker for `WellWired` that the kernel can run, and its run on `Table.flight`.
-/
namespace PAN
namespace Startup
open Spec Registry

/-- A number for a name. Different numbers mean different names. -/
def code (s : String) : Nat :=
  @List.rec UInt8 (fun _ => Nat → Nat) (fun a => a) (fun c _ ih a => ih (a * 256 + c.toNat)) s.toByteArray.data.toList 0

/-- `a` is not in the list. -/
def notIn (a : Nat) (l : List Nat) : Bool :=
  @List.rec Nat (fun _ => Bool) true (fun b _ ih => @Bool.rec (fun _ => Bool) ih false (Nat.beq a b)) l

/-- No number occurs twice. -/
def nodupB (l : List Nat) : Bool :=
  @List.rec Nat (fun _ => Bool) true (fun a l ih => @Bool.rec (fun _ => Bool) false ih (notIn a l)) l

theorem notIn_spec {a : Nat} : ∀ {l : List Nat}, notIn a l = true → a ∉ l
  | [], _ => by simp
  | b :: l, h => by
    have h : @Bool.rec (fun _ => Bool) (notIn a l) false (Nat.beq a b) = true := h
    cases hb : Nat.beq a b with
    | true => rw [hb] at h; exact absurd h (by simp)
    | false =>
      rw [hb] at h
      have := notIn_spec (l := l) h
      rw [List.mem_cons, not_or]
      exact ⟨fun e => by rw [e, Nat.beq_refl] at hb; exact absurd hb (by simp), this⟩

theorem nodupB_spec : ∀ {l : List Nat}, nodupB l = true → l.Nodup
  | [], _ => List.nodup_nil
  | a :: l, h => by
    have h : @Bool.rec (fun _ => Bool) false (nodupB l) (notIn a l) = true := h
    cases hb : notIn a l with
    | true => rw [hb] at h; exact List.nodup_cons.mpr ⟨notIn_spec hb, nodupB_spec h⟩
    | false => rw [hb] at h; exact absurd h (by simp)

/-- The lookups, each with the place of what it finds. -/
def checkFinds (D : List Decl) (F : List String) : Nat → Nat → List Call → List Nat → Bool
  | _, _, [], _ => true
  | n, f, .add _ :: cs, w => checkFinds D F (n + 1) f cs w
  | n, f, .fault _ :: cs, w => checkFinds D F (n + 5) (f + 1) cs w
  | n, f, .eepromInit :: cs, w => checkFinds D F n f cs w
  | n, f, .find k nm t :: cs, j :: w =>
    (decide (j < n) && match D[j]? with
      | some e => decide (e.kind = k) && decide (e.name = nm) && decide (e.ty = t)
      | none => false) && checkFinds D F n f cs w
  | n, f, .findFault nm :: cs, j :: w =>
    (decide (j < f) && match F[j]? with
      | some m => decide (nm = m ++ ".base")
      | none => false) && checkFinds D F n f cs w
  | _, _, .find _ _ _ :: _, [] => false
  | _, _, .findFault _ :: _, [] => false

/-- The faults registered by a sequence of calls. -/
def faultNames (cs : List Call) : List String := cs.filterMap fun c => match c with | .fault n => some n | _ => none

theorem mem_faultNames {cs : List Call} {n : String} : n ∈ faultNames cs ↔ Call.fault n ∈ cs := by
  unfold faultNames
  rw [List.mem_filterMap]
  constructor
  · rintro ⟨c, hc, e⟩; cases c <;> simp_all
  · intro h; exact ⟨_, h, rfl⟩

/-- `CallOk`, for lookups only. -/
def LookupOk (pre : List Call) : Call → Prop
  | .find k n t => CallOk pre (.find k n t)
  | .findFault n => CallOk pre (.findFault n)
  | _ => True

/-- Lookups that were checked have what they need. -/
theorem checkFinds_spec {D : List Decl} {F : List String} : ∀ {cs : List Call} {w : List Nat} {pre : List Call},
    D = declared (pre ++ cs) → F = faultNames (pre ++ cs) →
    checkFinds D F (declared pre).length (faultNames pre).length cs w = true →
    ∀ p c q, cs = p ++ c :: q → LookupOk (pre ++ p) c
  | [], w, pre, _, _, _ => by intro p c q e; simp at e
  | c :: cs, w, pre, hD, hF, h => by
    have hD' : D = declared ((pre ++ [c]) ++ cs) := by rw [hD]; simp
    have hF' : F = faultNames ((pre ++ [c]) ++ cs) := by rw [hF]; simp
    have hrest : ∀ w', checkFinds D F (declared (pre ++ [c])).length (faultNames (pre ++ [c])).length cs w' = true →
        LookupOk pre c → ∀ p d q, c :: cs = p ++ d :: q → LookupOk (pre ++ p) d := by
      intro w' hw hc p d q e
      cases p with
      | nil =>
        have e := List.cons.inj e
        rw [← e.1, List.append_nil]
        exact hc
      | cons x p =>
        have e := List.cons.inj e
        have := checkFinds_spec (pre := pre ++ [c]) hD' hF' hw p d q e.2
        have ha : pre ++ x :: p = pre ++ [c] ++ p := by simp [e.1]
        rw [ha]; exact this
    have hlen : (declared (pre ++ [c])).length = (declared pre).length + (Declares c).length := by
      rw [declared_snoc, List.length_append]
    have hfl : faultNames (pre ++ [c]) = faultNames pre ++ faultNames [c] := by simp [faultNames]
    rw [hlen, hfl] at hrest
    cases c with
    | add d => exact hrest w (by simpa [checkFinds, Declares, faultNames] using h) trivial
    | fault n => exact hrest w (by simpa [checkFinds, Declares, faultNames] using h) trivial
    | eepromInit => exact hrest w (by simpa [checkFinds, Declares, faultNames] using h) trivial
    | find k n t =>
      cases w with
      | nil => simp [checkFinds] at h
      | cons j w =>
        simp only [checkFinds, Bool.and_eq_true, decide_eq_true_eq] at h
        obtain ⟨⟨hj, hm⟩, h⟩ := h
        refine hrest w (by simpa [Declares, faultNames] using h) ?_
        rw [hD, declared_append, List.getElem?_append_left hj] at hm
        cases he : (declared pre)[j]? with
        | none => rw [he] at hm; simp at hm
        | some e =>
          rw [he] at hm
          simp only [Bool.and_eq_true, decide_eq_true_eq] at hm
          exact ⟨e, List.mem_of_getElem? he, hm.1.1, hm.1.2, hm.2⟩
    | findFault n =>
      cases w with
      | nil => simp [checkFinds] at h
      | cons j w =>
        simp only [checkFinds, Bool.and_eq_true, decide_eq_true_eq] at h
        obtain ⟨⟨hj, hm⟩, h⟩ := h
        refine hrest w (by simpa [Declares, faultNames] using h) ?_
        have : faultNames (pre ++ Call.findFault n :: cs) = faultNames pre ++ faultNames (Call.findFault n :: cs) := by
          simp [faultNames]
        rw [hF, this, List.getElem?_append_left hj] at hm
        cases he : (faultNames pre)[j]? with
        | none => rw [he] at hm; simp at hm
        | some m =>
          rw [he] at hm
          simp only [decide_eq_true_eq] at hm
          exact ⟨m, mem_faultNames.mp (List.mem_of_getElem? he), hm⟩

/-- If two parts of a list with distinct names in a namespace both have a field, the names differ. -/
theorem name_ne {p : Kind → Bool} {a b : List Decl} (h : (((a ++ b).filter fun d => p d.kind).map (·.name)).Nodup)
    {e d : Decl} (he : e ∈ a) (hd : d ∈ b) (hpe : p e.kind = true) (hpd : p d.kind = true) : e.name ≠ d.name := by
  rw [List.filter_append, List.map_append, List.nodup_append] at h
  exact h.2.2 _ (List.mem_map_of_mem (List.mem_filter.mpr ⟨he, hpe⟩)) _ (List.mem_map_of_mem (List.mem_filter.mpr ⟨hd, hpd⟩))

theorem wellWired_of {cs : List Call} {w : List Nat}
    (hR : (((declared cs).filter fun d => decide (d.kind ≠ .internal)).map (·.name)).Nodup)
    (hI : (((declared cs).filter fun d => decide (d.kind = .internal)).map (·.name)).Nodup)
    (hF : checkFinds (declared cs) (faultNames cs) 0 0 cs w = true)
    (hE : 5 * ((declared cs).filter fun e => decide (e.kind ≠ .internal ∧ 0 < e.period)).length ≤ 4096) :
    WellWired cs := by
  intro pre c post e
  have hfind := checkFinds_spec (pre := []) (D := declared cs) (F := faultNames cs) rfl rfl hF pre c post e
  have hd : declared cs = declared pre ++ (Declares c ++ declared post) := by
    rw [e, declared_append]; simp [declared]
  rw [hd] at hR hI hE
  cases c with
  | find => exact hfind
  | findFault => exact hfind
  | add d =>
    intro x hx hk
    have hmem : d ∈ Declares (.add d) ++ declared post := by simp [Declares]
    by_cases hki : d.kind = .internal
    · exact name_ne (p := fun k => decide (k = .internal)) hI hx hmem (by simpa using hk.mpr hki) (by simpa using hki)
    · exact name_ne (p := fun k => decide (k ≠ .internal)) hR hx hmem
        (by simpa using fun h => hki (hk.mp h)) (by simpa using hki)
  | fault n =>
    intro x hx hk d hdm
    refine name_ne (p := fun k => decide (k ≠ .internal)) hR hx (List.mem_append_left _ hdm) (by simpa using hk) ?_
    simp only [Declares, List.mem_cons, List.not_mem_nil, or_false] at hdm
    rcases hdm with rfl | rfl | rfl | rfl | rfl <;> rfl
  | eepromInit =>
    simp only [CallOk]
    rw [List.filter_append, List.length_append] at hE
    omega

namespace Flight

theorem declared_eq : declared Table.flight = decls := by decide +kernel

theorem codes_eq : (decls.filter fun d => decide (d.kind ≠ .internal)).map (fun d => code d.name) = codes := by
  decide +kernel

theorem codesI_eq : (decls.filter fun d => decide (d.kind = .internal)).map (fun d => code d.name) = codesI := by
  decide +kernel

theorem faults_eq : faultNames Table.flight = faults := by decide +kernel

theorem finds_ok : checkFinds decls faults 0 0 Table.flight wits = true := by decide +kernel

theorem eeprom_ok :
    5 * (decls.filter fun e => decide (e.kind ≠ .internal ∧ 0 < e.period)).length ≤ 4096 := by decide +kernel

theorem names_nodup : ((decls.filter fun d => decide (d.kind ≠ .internal)).map (·.name)).Nodup := by
  have h : codes.Nodup := nodupB_spec (by decide +kernel)
  rw [← codes_eq] at h
  have h2 : (((decls.filter fun d => decide (d.kind ≠ .internal)).map (·.name)).map code).Nodup := by
    rw [List.map_map]; exact h
  exact List.Nodup.of_map _ h2

theorem namesI_nodup : ((decls.filter fun d => decide (d.kind = .internal)).map (·.name)).Nodup := by
  have h : codesI.Nodup := nodupB_spec (by decide +kernel)
  rw [← codesI_eq] at h
  have h2 : (((decls.filter fun d => decide (d.kind = .internal)).map (·.name)).map code).Nodup := by
    rw [List.map_map]; exact h
  exact List.Nodup.of_map _ h2

theorem wired : WellWired Table.flight := by
  refine wellWired_of (w := wits) ?_ ?_ ?_ ?_
  · rw [declared_eq]; exact names_nodup
  · rw [declared_eq]; exact namesI_nodup
  · rw [declared_eq, faults_eq]; exact finds_ok
  · rw [declared_eq]; exact eeprom_ok

end Flight
end Startup
end PAN
