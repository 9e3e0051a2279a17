import Verif.Lemmas.StartupCheck
import Verif.Props.Downlink
import Mathlib.Analysis.SpecialFunctions.Log.Base
/-!
The widths of the flight software's fields and the flow table with its names resolved.
-/
namespace PAN
namespace Startup
open Spec Registry

/-- A check that a serializer is `w` bits wide. -/
def widthIs : Ser → Nat → Bool
  | .bool, w => w == 1
  | .int _ min max, w => w == (if ((max - min) % 2 ^ 32).toNat = 0 then 0 else Nat.log2 ((max - min) % 2 ^ 32).toNat + 1)
  | .sized k _ _ size, w => w == Nat.min size k.bits
  | .real _ _ size, w => w == size
  | .vec min max p, w =>
    let c := (w - 3 - p) / 2 - p
    w == 3 + p + 2 * (c + p) && 1 ≤ c && decide (((2 ^ (c - 1) : Nat) : ℚ) < 3 * max / (max - min)) &&
      decide (3 * max / (max - min) ≤ ((2 ^ c : Nat) : ℚ))
  | .quat, w => w == 32
  | .gps, w => w == 62

theorem log2i_pos (n : Nat) (h : n ≠ 0) : IntSer.log2i n = Nat.log2 n + 1 := by
  rw [log2i_eq n (by omega)]; rfl

theorem ceil_log (q : ℝ) (c : Nat) (hc : 1 ≤ c) (h1 : ((2 ^ (c - 1) : Nat) : ℝ) < q) (h2 : q ≤ ((2 ^ c : Nat) : ℝ)) :
    ⌈Real.log q / Real.log 2⌉ = (c : ℤ) := by
  have hl2 : 0 < Real.log 2 := Real.log_pos (by norm_num)
  have hq : 0 < q := lt_of_le_of_lt (Nat.cast_nonneg _) h1
  rw [Int.ceil_eq_iff]
  push_cast at h1 h2 ⊢
  constructor
  · rw [lt_div_iff₀ hl2]
    have h3 : Real.log ((2 : ℝ) ^ (c - 1)) < Real.log q := Real.log_lt_log (by positivity) h1
    rw [Real.log_pow] at h3
    have : ((c - 1 : Nat) : ℝ) = (c : ℝ) - 1 := by rw [Nat.cast_sub hc]; simp
    rw [this] at h3; exact h3
  · rw [div_le_iff₀ hl2]
    have h3 : Real.log q ≤ Real.log ((2 : ℝ) ^ c) := Real.log_le_log hq h2
    rw [Real.log_pow] at h3; exact h3

theorem gps_width : GpsSer.new.bits.length = 62 := by
  simp [GpsSer.new, IntSer.mkRange, IntSer.log2i]

theorem widthIs_spec {s : Ser} {w : Nat} (h : widthIs s w = true) : s.width = w := by
  cases s with
  | bool => simp [widthIs] at h; simp [Ser.width, h]
  | int k mn mx =>
    simp only [widthIs, beq_iff_eq] at h
    simp only [Ser.width, IntSer.mkRange, List.length_replicate]
    rw [h]
    split
    · rename_i h0; rw [h0]; simp [IntSer.log2i]
    · rename_i h0; exact log2i_pos _ h0
  | sized k mn mx size => simp [widthIs] at h; simp [Ser.width, IntSer.mkSized, h]
  | real size => simp [widthIs] at h; simp [Ser.width, h]
  | vec mn mx p =>
    simp only [widthIs, Bool.and_eq_true, beq_iff_eq, decide_eq_true_eq] at h
    obtain ⟨⟨⟨h0, h1⟩, h2⟩, h3⟩ := h
    generalize (w - 3 - p) / 2 - p = c at *
    have e : ((3 * mx / (mx - mn) : ℚ) : ℝ) = 3 * (mx : ℝ) / ((mx : ℝ) - (mn : ℝ)) := by push_cast; ring
    have h2' : ((2 ^ (c - 1) : Nat) : ℝ) < 3 * (mx : ℝ) / ((mx : ℝ) - (mn : ℝ)) := by
      rw [← e]
      have : (((2 ^ (c - 1) : Nat) : ℚ) : ℝ) < ((3 * mx / (mx - mn) : ℚ) : ℝ) := Rat.cast_lt.mpr h2
      simpa using this
    have h3' : 3 * (mx : ℝ) / ((mx : ℝ) - (mn : ℝ)) ≤ ((2 ^ c : Nat) : ℝ) := by
      rw [← e]
      have : ((3 * mx / (mx - mn) : ℚ) : ℝ) ≤ (((2 ^ c : Nat) : ℚ) : ℝ) := Rat.cast_le.mpr h3
      simpa using this
    simp only [Ser.width, VecSer.totalSize, VecSer.b1, VecSer.b2]
    rw [ceil_log _ c h1 h2' h3']
    omega
  | quat => simp [widthIs] at h; simp [Ser.width, QuatSer.componentSize, h]
  | gps => simp [widthIs] at h; simp [Ser.width, h, gps_width]

/-- A check of the widths of a list of fields. -/
def widthsAre : List Decl → List Nat → Bool
  | [], [] => true
  | d :: ds, w :: ws => (match d.ser with | some s => widthIs s w | none => w == 0) && widthsAre ds ws
  | _, _ => false

theorem widthsAre_spec : ∀ {ds : List Decl} {ws : List Nat}, widthsAre ds ws = true → ∀ a, widthAt ds a = ws.getD a 0
  | [], [], _, a => by simp [widthAt]
  | [], _ :: _, h, _ => by simp [widthsAre] at h
  | _ :: _, [], h, _ => by simp [widthsAre] at h
  | d :: ds, w :: ws, h, a => by
    simp only [widthsAre, Bool.and_eq_true] at h
    obtain ⟨h1, h2⟩ := h
    have ih := widthsAre_spec h2
    cases a with
    | zero =>
      simp only [widthAt, List.getElem?_cons_zero, List.getD_cons_zero]
      cases hs : d.ser with
      | none => rw [hs] at h1; simp at h1; simp [h1]
      | some s => rw [hs] at h1; simp [widthIs_spec h1]
    | succ a =>
      have := ih a
      simp only [widthAt, List.getElem?_cons_succ, List.getD_cons_succ] at this ⊢
      exact this

/-- A check that a name stands for the field at a place. -/
def fieldIs (D : List Decl) (n : String) (j : Nat) : Bool :=
  match D[j]? with
  | some e => decide (e.kind ≠ .internal) && decide (e.name = n)
  | none => false

/-- A check of the names of a flow. -/
def fieldsAre (D : List Decl) : List String → List Nat → Bool
  | [], [] => true
  | n :: ns, j :: js => fieldIs D n j && fieldsAre D ns js
  | _, _ => false

/-- A check of a flow table. -/
def flowsAre (D : List Decl) : List NamedFlow → List Downlink.FlowData → Bool
  | [], [] => true
  | f :: fs, d :: ds => decide (f.id = d.id) && (f.active == d.active) && fieldsAre D f.fields d.fields && flowsAre D fs ds
  | _, _ => false

theorem fieldIs_spec {cs : List Call} {s : St} (h : After cs s) {n : String} {j : Nat} (hj : fieldIs s.objs n j = true) :
    resolveField s.reg n = some j := by
  unfold fieldIs at hj
  cases he : s.objs[j]? with
  | none => rw [he] at hj; simp at hj
  | some e =>
    rw [he] at hj
    simp only [Bool.and_eq_true, decide_eq_true_eq] at hj
    have hR : s.reg.readable = fieldsFrom (inList .readable) 0 s.objs := h.lists .readable
    have hf : find s.reg.readable n = some ⟨j, e.name, e.period⟩ :=
      (find_some h.inv.readable).mpr ⟨by rw [hR]; exact mem_fieldsFrom.mpr ⟨e, he, by simpa [inList] using hj.1, rfl, rfl⟩, hj.2⟩
    simp [resolveField, hf, h.events, find]

theorem fieldsAre_spec {cs : List Call} {s : St} (h : After cs s) : ∀ {ns : List String} {js : List Nat},
    fieldsAre s.objs ns js = true → resolveFields s.reg ns = some js
  | [], [], _ => rfl
  | [], _ :: _, hj => by simp [fieldsAre] at hj
  | _ :: _, [], hj => by simp [fieldsAre] at hj
  | n :: ns, j :: js, hj => by
    simp only [fieldsAre, Bool.and_eq_true] at hj
    simp only [resolveFields, fieldIs_spec h hj.1, fieldsAre_spec h hj.2]

theorem flowsAre_spec {cs : List Call} {s : St} (h : After cs s) : ∀ {fs : List NamedFlow} {ds : List Downlink.FlowData},
    flowsAre s.objs fs ds = true → resolveFlows s.reg fs = some ds
  | [], [], _ => rfl
  | [], _ :: _, hj => by simp [flowsAre] at hj
  | _ :: _, [], hj => by simp [flowsAre] at hj
  | f :: fs, d :: ds, hj => by
    simp only [flowsAre, Bool.and_eq_true, decide_eq_true_eq, beq_iff_eq] at hj
    obtain ⟨⟨⟨h1, h2⟩, h3⟩, h4⟩ := hj
    simp only [resolveFlows, fieldsAre_spec h h3, flowsAre_spec h h4, h1, h2]

namespace Flight

theorem flows_ok : flowsAre decls Table.flows flowData = true := by decide +kernel

theorem widths_ok : widthsAre decls widths = true := by decide +kernel

theorem width_eq : widthAt decls = fun a => widths.getD a 0 := funext (widthsAre_spec widths_ok)

/-- The state after start-up. -/
theorem state {s : St} (h : start Table.flight = some s) : s.objs = decls ∧ After Table.flight s := by
  have ha := (start_after h).2
  exact ⟨by rw [ha.objs, declared_eq], ha⟩

theorem resolved {s : St} (h : start Table.flight = some s) : resolveFlows s.reg Table.flows = some flowData := by
  obtain ⟨h1, h2⟩ := state h
  exact flowsAre_spec h2 (by rw [h1]; exact flows_ok)

theorem length_eq : flowData.length = 43 := by decide +kernel

/-- Everything that is decided about the numbers of the flow table. -/
theorem okB : (flowData.all fun d => decide (0 < d.id) && decide (d.id ≤ 43) &&
    decide (6 + (d.fields.map fun a => widths.getD a 0).sum ≤ 527)) = true := by decide +kernel

theorem ok : Downlink.OkData (widthAt decls) flowData.length flowData := by
  intro d hd
  have h := List.all_eq_true.mp okB d hd
  simp only [Bool.and_eq_true, decide_eq_true_eq] at h
  rw [length_eq, width_eq]
  exact ⟨h.1.1, h.1.2, h.2⟩

theorem distinct : DistinctIds flowData := by unfold DistinctIds; decide +kernel

theorem max_eq : maxPayload (widthAt decls) flowData = 4417 := by
  unfold maxPayload; rw [width_eq, length_eq]; decide +kernel

end Flight
end Startup
end PAN
