import Verif.Model.Startup
/-!
Specification for C116: what the registrations and lookups made at start-up have to look like. Nothing here refers to
the registry.
-/
namespace PAN
namespace Spec
open Startup

/-- The state fields that a call makes available: the one registered, or the five of a fault. -/
def Declares : Call → List Decl
  | .add d => [d]
  | .fault n =>
    [⟨.writable, n ++ ".base", .bool, some .bool, 0⟩, ⟨.writable, n ++ ".suppress", .bool, some .bool, 0⟩,
     ⟨.writable, n ++ ".override", .bool, some .bool, 0⟩, ⟨.writable, n ++ ".unsignal", .bool, some .bool, 0⟩,
     ⟨.writable, n ++ ".persistence", .uint, some (.int .uint 0 1048575), 0⟩]
  | _ => []

/-- The state fields made available by a sequence of calls, in order. -/
def declared (cs : List Call) : List Decl := cs.flatMap Declares

/-- Internal fields have names of their own; readable and writable fields share theirs. -/
def SameNamespace (a b : Kind) : Prop := a = .internal ↔ b = .internal

/-- Among which names a lookup for class `k` searches: a writable field can also be read. -/
def FoundAs : Kind → Kind → Prop
  | .internal, k => k = .internal
  | .readable, k => k = .readable ∨ k = .writable
  | .writable, k => k = .writable

/-- What a call needs of the calls `pre` before it.
* A field must have a name that no earlier field of its namespace has; so must each of the five fields of a fault.
* A lookup must be for a field that was registered before with exactly this class, name and value type.
* A lookup of a fault must be for one that was registered before.
* When the EEPROM is read, the fields to be saved must fit: five bytes each, 4096 in all. -/
def CallOk (pre : List Call) : Call → Prop
  | .add d => ∀ e ∈ declared pre, SameNamespace e.kind d.kind → e.name ≠ d.name
  | .fault n => ∀ e ∈ declared pre, e.kind ≠ .internal → ∀ d ∈ Declares (.fault n), e.name ≠ d.name
  | .find k n t => ∃ e ∈ declared pre, e.kind = k ∧ e.name = n ∧ e.ty = t
  | .findFault n => ∃ m, .fault m ∈ pre ∧ n = m ++ ".base"
  | .eepromInit => 5 * ((declared pre).filter fun e => decide (e.kind ≠ .internal ∧ 0 < e.period)).length ≤ 4096

/-- Every call of the sequence has what it needs from those before it. -/
def WellWired (cs : List Call) : Prop := ∀ pre c post, cs = pre ++ c :: post → CallOk pre c

end Spec
end PAN
