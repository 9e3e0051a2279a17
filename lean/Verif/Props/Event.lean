import Verif.Model.Event
import Batteries.Tactic.Init
/-!
Property C24: event records round trip and ring buffering.
-/
namespace PAN
namespace Spec

/-- An event record: the cycle number and the bits of each data field. -/
abbrev Record := U32 × List (List Bool)

/-- The record has the shape of the event: one bit array per data field, of that field's size. -/
def Shape (widths : List Nat) (r : Record) : Prop := r.2.map List.length = widths

/-- The bit array of an event holding the record: the cycle number, least significant bit first, then the fields. -/
def recordBits (r : Record) : List Bool := ((List.range 32).map fun i => r.1.getLsbD i) ++ r.2.flatten

/-- The event holds the record: that is what reading it back gives. -/
def Holds (e : Event) (r : Record) : Prop := e.deserialize = some r

end Spec
open Spec

namespace Event

theorem writeBits_spec (data : List Bool) (p : Nat) (bits : List Bool) : ∀ n, n ≤ bits.length → p + n ≤ data.length →
    writeBits data p bits n = some (data.take p ++ bits.take n ++ data.drop (p + n)) := by
  intro n
  induction n with
  | zero => intro _ _; simp [writeBits]
  | succ n ih =>
    intro h1 h2
    simp only [writeBits]
    rw [ih (by omega) (by omega)]
    simp only []
    rw [List.getElem?_eq_getElem (by omega : n < bits.length)]
    simp only []
    have hlen : (data.take p ++ bits.take n ++ data.drop (p + n)).length = data.length := by
      simp only [List.length_append, List.length_take, List.length_drop]; omega
    rw [if_pos (by omega)]
    congr 1
    have hpre : (data.take p ++ bits.take n).length = p + n := by
      simp only [List.length_append, List.length_take]; omega
    rw [List.set_append_right _ _ (by omega), hpre, Nat.sub_self]
    have hdrop : data.drop (p + n) = data[p + n] :: data.drop (p + (n + 1)) := by
      rw [show p + (n + 1) = p + n + 1 by omega]; exact List.drop_eq_getElem_cons (by omega)
    rw [hdrop, List.set_cons_zero, List.take_succ_eq_append_getElem (by omega : n < bits.length)]
    simp only [List.append_assoc, List.cons_append, List.nil_append]

theorem writeFields_spec (ws : List Nat) : ∀ (fs : List (List Bool)) (data : List Bool) (p : Nat), fs.map List.length = ws →
    p + ws.sum ≤ data.length →
    writeFields data p ws fs = some (data.take p ++ fs.flatten ++ data.drop (p + ws.sum)) := by
  induction ws with
  | nil =>
    intro fs data p h _
    have : fs = [] := by simpa using h
    subst this
    simp [writeFields]
  | cons w ws ih =>
    intro fs data p h hle
    cases fs with
    | nil => simp at h
    | cons f fs =>
      simp only [List.map_cons, List.cons.injEq] at h
      obtain ⟨hw, hws⟩ := h
      rw [List.sum_cons] at hle
      simp only [writeFields]
      rw [writeBits_spec data p f w (by omega) (by omega)]
      simp only []
      have hft : f.take w = f := List.take_of_length_le (by omega)
      rw [hft]
      have hl : (data.take p ++ f).length = p + w := by simp only [List.length_append, List.length_take]; omega
      rw [ih fs _ (p + w) hws (by simp only [List.length_append, List.length_take, List.length_drop]; omega)]
      congr 1
      rw [List.take_append_of_le_length (by omega), List.take_of_length_le (by omega), List.drop_append, hl,
        List.drop_of_length_le (by omega), List.nil_append, List.drop_drop, List.flatten_cons, List.sum_cons]
      rw [show p + w + (p + w + ws.sum - (p + w)) = p + (w + ws.sum) by omega]
      simp

/-- Signalling overwrites the whole bit array with the record. -/
theorem signal_spec (e : Event) (he : e.data.length = 32 + e.widths.sum) (r : Record) (hr : Shape e.widths r) :
    e.signal r.1 r.2 = some { e with data := recordBits r } := by
  unfold signal
  have hcc : ((List.range 32).map fun i => r.1.getLsbD i).length = 32 := by simp
  rw [writeBits_spec _ 0 _ 32 (by omega) (by omega)]
  simp only []
  rw [writeFields_spec e.widths r.2 _ 32 hr (by simp only [List.length_append, List.length_take, List.length_drop]; omega)]
  simp only []
  congr 2
  unfold recordBits
  generalize hc : (List.range 32).map (fun i => r.1.getLsbD i) = c at *
  simp only [List.take_zero, List.nil_append, Nat.zero_add]
  rw [List.take_of_length_le (by omega : c.length ≤ 32), List.take_append_of_le_length (by omega),
    List.take_of_length_le (by omega : c.length ≤ 32)]
  rw [List.drop_of_length_le (by simp only [List.length_append, List.length_drop]; omega), List.append_nil]

theorem readBits_spec (data : List Bool) (p : Nat) : ∀ n, p + n ≤ data.length →
    readBits data p n = some ((data.drop p).take n) := by
  intro n
  induction n with
  | zero => intro _; simp [readBits]
  | succ n ih =>
    intro h
    simp only [readBits]
    rw [ih (by omega)]
    simp only []
    rw [List.getElem?_eq_getElem (by omega : p + n < data.length)]
    simp only []
    congr 1
    rw [List.take_succ_eq_append_getElem (by simp only [List.length_drop]; omega)]
    simp

theorem readFields_spec (ws : List Nat) : ∀ (fs : List (List Bool)) (pre : List Bool), fs.map List.length = ws →
    readFields (pre ++ fs.flatten) pre.length ws = some fs := by
  induction ws with
  | nil =>
    intro fs pre h
    have : fs = [] := by simpa using h
    subst this; rfl
  | cons w ws ih =>
    intro fs pre h
    cases fs with
    | nil => simp at h
    | cons f fs =>
      simp only [List.map_cons, List.cons.injEq] at h
      obtain ⟨hw, hws⟩ := h
      simp only [readFields]
      rw [readBits_spec _ _ _ (by simp only [List.length_append, List.flatten_cons]; omega)]
      simp only []
      have h2 := ih fs (pre ++ f) hws
      rw [List.length_append, hw, List.append_assoc, ← List.flatten_cons] at h2
      rw [h2]
      simp only []
      congr 2
      rw [List.drop_append_of_le_length (Nat.le_refl _), List.drop_length, List.nil_append, List.flatten_cons,
        List.take_append_of_le_length (by omega), List.take_of_length_le (by omega)]

theorem toNat_lt (bs : List Bool) : toNat bs < 2 ^ bs.length := by
  induction bs with
  | nil => simp [toNat]
  | cons b bs ih =>
    simp only [toNat, List.length_cons]
    have : b.toNat ≤ 1 := Bool.toNat_le b
    rw [Nat.pow_succ]; omega

theorem toNat_testBit (bs : List Bool) : ∀ i, (toNat bs).testBit i = (bs[i]?).getD false := by
  induction bs with
  | nil => intro i; simp [toNat]
  | cons b bs ih =>
    intro i
    cases i with
    | zero =>
      simp only [toNat, List.getElem?_cons_zero, Option.getD_some, Nat.testBit_zero]
      cases b <;> simp <;> omega
    | succ i =>
      simp only [toNat, List.getElem?_cons_succ]
      rw [← ih i, Nat.testBit_succ]
      congr 1
      have : b.toNat ≤ 1 := Bool.toNat_le b
      omega

theorem cc_roundtrip (cc : U32) : BitVec.ofNat 32 (toNat ((List.range 32).map fun i => cc.getLsbD i)) = cc := by
  apply BitVec.eq_of_getLsbD_eq
  intro i hi
  rw [BitVec.getLsbD_ofNat, toNat_testBit]
  simp [hi]

theorem recordBits_deserialize (e : Event) (r : Record) (hr : Shape e.widths r) (hd : e.data = recordBits r) :
    e.deserialize = some r := by
  unfold deserialize
  rw [hd]
  unfold recordBits
  have hcc : ((List.range 32).map fun i => r.1.getLsbD i).length = 32 := by simp
  have h1 := cc_roundtrip r.1
  generalize (List.range 32).map (fun i => r.1.getLsbD i) = c at *
  rw [readBits_spec _ _ _ (by simp only [List.length_append]; omega)]
  simp only []
  have h2 := readFields_spec e.widths r.2 c hr
  rw [hcc] at h2
  rw [h2]
  simp only []
  rw [List.drop_zero, List.take_append_of_le_length (by omega), List.take_of_length_le (by omega), h1]

end Event

/-! ### C24 -/

/-- C24: signalling an event, whatever it held before, never accesses memory out of bounds, and reading it back gives
the cycle number and the fields' bits at the time of the signal. Earlier signals leave no trace. -/
theorem C24_event_roundtrip (widths : List Nat) (before : List Record) (hb : ∀ r ∈ before, Shape widths r)
    (r : Record) (hr : Shape widths r) :
    ∃ e e', before.foldlM (fun (e : Event) r => e.signal r.1 r.2) (Event.init widths) = some e ∧
      e.signal r.1 r.2 = some e' ∧ Holds e' r ∧ e'.data = recordBits r := by
  have key : ∀ (before : List Record) (e0 : Event), e0.widths = widths → e0.data.length = 32 + widths.sum →
      (∀ r ∈ before, Shape widths r) →
      ∃ e, before.foldlM (fun (e : Event) r => e.signal r.1 r.2) e0 = some e ∧ e.widths = widths ∧
        e.data.length = 32 + widths.sum := by
    intro before
    induction before with
    | nil => intro e0 h1 h2 _; exact ⟨e0, rfl, h1, h2⟩
    | cons a as ih =>
      intro e0 h1 h2 h3
      have ha := h3 a List.mem_cons_self
      have hs := Event.signal_spec e0 (by rw [h1]; exact h2) a (by rw [h1]; exact ha)
      have hlen : (recordBits a).length = 32 + widths.sum := by
        unfold recordBits Shape at *
        rw [List.length_append, List.length_flatten, ha]; simp
      obtain ⟨e, he, h4, h5⟩ := ih { e0 with data := recordBits a } h1 hlen (fun r hr => h3 r (List.mem_cons_of_mem _ hr))
      refine ⟨e, ?_, h4, h5⟩
      rw [List.foldlM_cons]
      show (e0.signal a.1 a.2).bind _ = _
      rw [hs]; exact he
  obtain ⟨e, he, h1, h2⟩ := key before (Event.init widths) rfl (by simp [Event.init]) hb
  have hs := Event.signal_spec e (by rw [h1]; exact h2) r (by rw [h1]; exact hr)
  exact ⟨e, _, he, hs, Event.recordBits_deserialize _ r (by rw [h1]; exact hr) rfl, rfl⟩

/-- C24: the ground, receiving the bits of an event into its own event object, reads the same record. -/
theorem C24_ground_reads_record (widths : List Nat) (r : Record) (hr : Shape widths r) :
    ∃ e, (Event.init widths).setBits (recordBits r) = some e ∧ Holds e r := by
  have hlen : (recordBits r).length = 32 + widths.sum := by
    unfold recordBits Shape at *
    rw [List.length_append, List.length_flatten, hr]; simp
  refine ⟨{ widths, data := recordBits r }, ?_, Event.recordBits_deserialize _ r hr rfl⟩
  unfold Event.setBits Event.init
  simp only [List.length_replicate]
  rw [if_pos hlen]

namespace EventStorage

/-- The state of the storage after the records `rs` have been signalled. -/
def State (n : Nat) (widths : List Nat) (rs : List Record) (s : EventStorage) : Prop :=
  s.events.length = n ∧ s.ptr = rs.length % n ∧
  (∀ k (hk : k < rs.length), rs.length ≤ k + n → s.events[k % n]? = some { widths, data := recordBits rs[k] }) ∧
  (∀ i, rs.length ≤ i → i < n → s.events[i]? = some (Event.init widths))

theorem state_event {n : Nat} {widths : List Nat} {rs : List Record} {s : EventStorage} (h : State n widths rs s) (hn : 0 < n)
    (hrs : ∀ r ∈ rs, Shape widths r) :
    ∃ e, s.events[s.ptr]? = some e ∧ e.widths = widths ∧ e.data.length = 32 + widths.sum := by
  obtain ⟨hl, hp, h1, h2⟩ := h
  rw [hp]
  by_cases hc : rs.length < n
  · rw [Nat.mod_eq_of_lt hc]
    exact ⟨_, h2 rs.length (Nat.le_refl _) hc, rfl, by simp [Event.init]⟩
  · have := h1 (rs.length - n) (by omega) (by omega)
    rw [← Nat.mod_eq_sub_mod (by omega)] at this
    refine ⟨_, this, rfl, ?_⟩
    have hs : Shape widths rs[rs.length - n] := hrs _ (List.getElem_mem _)
    unfold recordBits Shape at *
    simp only []
    rw [List.length_append, List.length_flatten, hs]; simp

theorem state_signal {n : Nat} {widths : List Nat} {rs : List Record} {s : EventStorage} (h : State n widths rs s) (hn : 0 < n)
    (hrs : ∀ r ∈ rs, Shape widths r) (r : Record) (hr : Shape widths r) :
    ∃ s', s.signal r.1 r.2 = some s' ∧ State n widths (rs ++ [r]) s' := by
  obtain ⟨e, he, hw, hd⟩ := state_event h hn hrs
  obtain ⟨hl, hp, h1, h2⟩ := h
  have hs := Event.signal_spec e (by rw [hw]; exact hd) r (by rw [hw]; exact hr)
  unfold signal
  rw [he]
  simp only []
  rw [hs]
  simp only []
  refine ⟨_, rfl, ?_⟩
  have hptr : s.ptr < n := by rw [hp]; exact Nat.mod_lt _ hn
  have hlen : (rs ++ [r]).length = rs.length + 1 := by simp
  refine ⟨by simp [hl], ?_, ?_, ?_⟩
  · show (if s.ptr + 1 = s.events.length then 0 else s.ptr + 1) = _
    rw [hl, hlen, Nat.add_mod, ← hp]
    split
    · rename_i hc
      by_cases h1n : n = 1
      · subst h1n; omega
      · rw [Nat.mod_eq_of_lt (by omega : 1 < n), hc, Nat.mod_self]
    · by_cases h1n : n = 1
      · subst h1n; omega
      · rw [Nat.mod_eq_of_lt (by omega : 1 < n), Nat.mod_eq_of_lt (by omega)]
  · intro k hk hkn
    rw [hlen] at hk hkn
    show (s.events.set s.ptr _)[k % n]? = _
    by_cases hlast : k = rs.length
    · subst hlast
      rw [← hp, List.getElem?_set_self (by omega)]
      simp [hw]
    · rw [List.getElem?_set_ne, h1 k (by omega) (by omega)]
      · simp [List.getElem_append_left (by omega : k < rs.length)]
      · rw [hp]
        intro hc
        have e1 := Nat.div_add_mod k n
        have e2 := Nat.div_add_mod rs.length n
        have hkr : k < rs.length := by omega
        have : rs.length < k + n := by omega
        have h3 : n * (rs.length / n) = n * (k / n) + (rs.length - k) := by omega
        have h4 : n * (rs.length / n - k / n) = rs.length - k := by rw [Nat.mul_sub]; omega
        generalize rs.length / n - k / n = q at h4
        cases q with
        | zero => omega
        | succ q =>
          rw [Nat.mul_succ] at h4
          omega
  · intro i hi1 hi2
    rw [hlen] at hi1
    show (s.events.set s.ptr _)[i]? = _
    have : s.ptr = rs.length := by rw [hp, Nat.mod_eq_of_lt (by omega)]
    rw [List.getElem?_set_ne (by omega)]
    exact h2 i (by omega) hi2

theorem state_run {n : Nat} {widths : List Nat} (hn : 0 < n) (rest : List Record) : ∀ {rs : List Record} {s : EventStorage},
    State n widths rs s → (∀ r ∈ rs, Shape widths r) → (∀ r ∈ rest, Shape widths r) →
    ∃ s', run s rest = some s' ∧ State n widths (rs ++ rest) s' := by
  induction rest with
  | nil => intro rs s h _ _; exact ⟨s, rfl, by simpa using h⟩
  | cons r rest ih =>
    intro rs s h h1 h2
    obtain ⟨s1, e1, h3⟩ := state_signal h hn h1 r (h2 r List.mem_cons_self)
    obtain ⟨s2, e2, h4⟩ := ih h3 (by
      intro x hx
      rcases List.mem_append.mp hx with hx | hx
      · exact h1 x hx
      · rw [List.mem_singleton.mp hx]; exact h2 r List.mem_cons_self) (fun x hx => h2 x (List.mem_cons_of_mem _ hx))
    refine ⟨s2, ?_, by simpa using h4⟩
    simp only [run]
    rw [e1]; exact e2

end EventStorage

/-- C24: an event storage of `n > 0` records, after any history of signals, holds exactly the last `n` records: the
`k`-th record signalled (counting from 0) is in slot `k mod n` as long as fewer than `n` records followed it; slots not
yet used are blank; and the next record goes to the slot of the oldest one. -/
theorem C24_ring_holds_last (n : Nat) (hn : 0 < n) (h99 : n ≤ 99) (widths : List Nat) (rs : List Record)
    (hrs : ∀ r ∈ rs, Shape widths r) :
    ∃ s0 s, EventStorage.init n widths = some s0 ∧ s0.run rs = some s ∧ s.events.length = n ∧
      s.ptr = rs.length % n ∧
      (∀ k (hk : k < rs.length), rs.length ≤ k + n → ∃ e, s.events[k % n]? = some e ∧ Holds e rs[k]) ∧
      (∀ i, rs.length ≤ i → i < n → s.events[i]? = some (Event.init widths)) := by
  have h0 : EventStorage.State n widths [] ⟨List.replicate n (Event.init widths), 0⟩ := by
    refine ⟨by simp, by simp, by intro k hk; simp at hk, ?_⟩
    intro i _ hi
    simp [hi]
  obtain ⟨s, e, h1, h2, h3, h4⟩ := EventStorage.state_run hn rs h0 (by simp) hrs
  refine ⟨_, s, by unfold EventStorage.init; rw [if_pos h99], e, h1, by simpa using h2, ?_, by simpa using h4⟩
  intro k hk hkn
  have h5 := h3 k (by simpa using hk) (by simpa using hkn)
  simp only [List.nil_append] at h5
  exact ⟨_, h5, Event.recordBits_deserialize _ _ (hrs _ (List.getElem_mem _)) rfl⟩

/-- A storage of no records passes the constructor's assertion, but signalling it accesses an element that does not
exist. -/
theorem C24_empty_storage_out_of_bounds (widths : List Nat) (cc : U32) (fields : List (List Bool)) :
    ∃ s, EventStorage.init 0 widths = some s ∧ s.signal cc fields = none :=
  ⟨_, rfl, rfl⟩

/-- Non-vacuity: three records in a storage of two. -/
example : Shape [2, 1] (5#32, [[true, false], [true]]) ∧
    ((EventStorage.init 2 [2, 1]).bind fun s => s.run [(5#32, [[true, false], [true]]), (6#32, [[false, false], [true]]),
      (7#32, [[true, true], [false]])]).map (fun s => (s.ptr, s.events.map (·.deserialize))) =
      some (1, [some (7#32, [[true, true], [false]]), some (6#32, [[false, false], [true]])]) :=
  ⟨rfl, rfl⟩

end PAN
