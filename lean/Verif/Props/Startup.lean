import Verif.Lemmas.StartupWidths
import Verif.Model.Uplink
/-!
C116: the flight software starts. Every control task finds each field it looks up, registered before it with the class
and type it expects, no field is registered twice, and the fields to be saved fit the EEPROM.
-/
namespace PAN
open Spec Startup Registry

/-- C116. For any sequence of registrations and lookups: no assertion fails exactly if every field's name is new, every
lookup is for a field already registered with that class and type, and the fields to be saved fit. -/
theorem C116_starts_iff (cs : List Call) : (start cs).isSome = true ↔ WellWired cs := by
  constructor
  · intro h
    obtain ⟨s, hs⟩ := Option.isSome_iff_exists.mp h
    exact (start_after hs).1
  · intro h
    obtain ⟨s, hs, -⟩ := start_of_wired h
    rw [hs]; rfl

/-- The condition is met by a field registered and looked up, and broken by each kind of mistake: the same name twice,
a lookup before the registration, with another class, or with another type. -/
example :
    (start [W "a.b" .bool .bool, .find .writable "a.b" .bool]).isSome = true ∧
    (start [I "a.b" .bool, R "a.b" .bool .bool]).isSome = true ∧
    (start [R "a.b" .bool .bool, W "a.b" .bool .bool]).isSome = false ∧
    (start [.find .writable "a.b" .bool, W "a.b" .bool .bool]).isSome = false ∧
    (start [W "a.b" .bool .bool, .find .readable "a.b" .bool]).isSome = false ∧
    (start [W "a.b" .bool .bool, .find .writable "a.b" .uint]).isSome = false ∧
    (start [.fault "f", W "f.suppress" .bool .bool]).isSome = false ∧
    (start [.fault "f", .findFault "f.base"]).isSome = true := by decide +kernel

/-- C116. After start-up the objects are exactly those declared, in order, and a name finds the object declared with it:
`internal` names among internal fields, `readable` among readable and writable ones, `writable` among writable ones.
A name that was not declared finds nothing. -/
theorem C116_lookup (cs : List Call) (s : St) (h : start cs = some s) :
    s.objs = declared cs ∧
    ∀ k n a, (Registry.find (listOf s.reg k) n).map (·.addr) = some a ↔
      ∃ d, (declared cs)[a]? = some d ∧ d.name = n ∧ FoundAs k d.kind := by
  obtain ⟨-, ha⟩ := start_after h
  refine ⟨ha.objs, fun k n a => ?_⟩
  have hn : (names (listOf s.reg k)).Nodup := by
    cases k with
    | internal => exact ha.inv.internal
    | readable => exact ha.inv.readable
    | writable => exact ha.inv.readable.sublist (names_sublist ha.inv.writable)
  have hk : ∀ d : Decl, inList k d.kind = true ↔ FoundAs k d.kind := by
    intro d; cases k <;> cases hd : d.kind <;> simp [inList, FoundAs]
  constructor
  · intro hf
    obtain ⟨f, hf', rfl⟩ := Option.map_eq_some_iff.mp hf
    obtain ⟨hm, rfl⟩ := (find_some hn).mp hf'
    rw [ha.lists k, mem_fieldsFrom] at hm
    obtain ⟨d, h1, h2, h3, -⟩ := hm
    exact ⟨d, by rw [← ha.objs]; exact h1, h3.symm, (hk d).mp h2⟩
  · rintro ⟨d, h1, rfl, h3⟩
    have : Registry.find (listOf s.reg k) d.name = some ⟨a, d.name, d.period⟩ :=
      (find_some hn).mpr ⟨by rw [ha.lists k]; exact mem_fieldsFrom.mpr ⟨d, by rw [ha.objs]; exact h1, (hk d).mpr h3, rfl, rfl⟩, rfl⟩
    rw [this]; rfl

/-- C116. The flight software starts: in the order in which the control tasks are constructed, no registration or lookup
fails an assertion, and every name in the table of downlink flows is that of a readable field. -/
theorem C116_flight_starts : ∃ s, start Table.flight = some s ∧ ∃ fd, resolveFlows s.reg Table.flows = some fd := by
  obtain ⟨s, hs, -⟩ := start_of_wired Flight.wired
  exact ⟨s, hs, _, Flight.resolved hs⟩

/-- The names of the fields in the order in which they are saved to the EEPROM. -/
theorem Startup.eeprom_names {cs : List Call} {s : St} (h : After cs s) :
    names s.reg.eeprom = ((declared cs).filter fun e => decide (e.kind ≠ .internal ∧ 0 < e.period)).map (·.name) := by
  have h1 : s.reg.readable = fieldsFrom (inList .readable) 0 s.objs := h.lists .readable
  rw [h.inv.eeprom, h1, h.objs]
  generalize declared cs = l
  unfold fieldsFrom names
  have : ∀ i, ((((l.zipIdx i).filter fun x => inList .readable x.1.kind).map
      fun x => (⟨x.2, x.1.name, x.1.period⟩ : Field)).filter fun f => decide (f.period > 0)).map (·.name) =
      (l.filter fun e => decide (e.kind ≠ .internal ∧ 0 < e.period)).map (·.name) := by
    induction l with
    | nil => intro i; rfl
    | cons d l ih =>
      intro i
      rw [List.zipIdx_cons, List.filter_cons, List.filter_cons]
      have ih := ih (i + 1)
      by_cases h2 : d.kind = .internal
      · simpa [inList, h2] using ih
      · by_cases h3 : 0 < d.period
        · simpa [inList, h2, h3] using ih
        · simpa [inList, h2, h3] using ih
  exact this 0

/-- C116. The fields that survive a reboot of the flight software, in the order of their slots in the EEPROM: nine,
so 45 of its 4096 bytes are used. -/
theorem C116_flight_eeprom (s : St) (h : start Table.flight = some s) :
    names s.reg.eeprom = ["pan.bootcount", "cycle.start", "cycle.auto", "attitude_estimator.mag_flag",
      "attitude_estimator.ignore_sun_vectors", "pan.state", "pan.deployed", "pan.deployment.elapsed", "pan.kill_switch"] := by
  obtain ⟨-, ha⟩ := Flight.state h
  rw [eeprom_names ha, Flight.declared_eq]
  decide +kernel

/-- C116. The flight software has 196 fields that can be commanded, so that an index in an uplink is eight bits long
and (as indices count from one) 59 of the values it can take are not those of any field. -/
theorem C116_flight_writable (s : St) (h : start Table.flight = some s) :
    s.reg.writable.length = 196 ∧ Uplink.indexSize s.reg.writable.length = 8 ∧
    s.reg.readable.length = 403 ∧ s.reg.internal.length = 13 := by
  obtain ⟨ho, ha⟩ := Flight.state h
  have hw : s.reg.writable = fieldsFrom (inList .writable) 0 s.objs := ha.lists .writable
  have hr : s.reg.readable = fieldsFrom (inList .readable) 0 s.objs := ha.lists .readable
  have hi : s.reg.internal = fieldsFrom (inList .internal) 0 s.objs := ha.lists .internal
  have l1 : s.reg.writable.length = 196 := by rw [hw, ho]; decide +kernel
  refine ⟨l1, ?_, by rw [hr, ho]; decide +kernel, by rw [hi, ho]; decide +kernel⟩
  rw [l1]; decide +kernel

end PAN
