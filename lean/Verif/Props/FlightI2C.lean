import Verif.Spec.FlightI2C
import Verif.Props.Power
import Mathlib.Data.List.Induction
/-!
C110: what the flight computer knows about the devices on its bus.
-/
namespace PAN
open Spec

theorem err_iff (c : BusCall) : c.err = true ↔ CallFailed c := by
  cases c <;> simp [BusCall.err, CallFailed, Option.isNone_iff_eq_none]

namespace I2CDev

theorem calls_eq (cs : List BusCall) (d : I2CDev) :
    d.calls cs = { d with recent := d.recent || cs.any (·.err) } := by
  induction cs generalizing d with
  | nil => simp [calls]
  | cons c cs ih =>
    have : d.calls (c :: cs) = (d.call c).calls cs := rfl
    rw [this, ih]
    simp [call, Bool.or_assoc]

/-- What a setup leaves behind. -/
theorem setup_eq (d : I2CDev) (p : Nat → Ping) :
    d.setup p = ({ timeout := d.timeout, count := d.count + BitVec.ofNat 32 (vain p),
                   recent := d.recent || (p 0).calls.any (·.err) || (!(p 0).ok && (p 1).calls.any (·.err))
                     || (!(p 0).ok && !(p 1).ok && (p 2).calls.any (·.err)) },
                 (p 0).ok || (p 1).ok || (p 2).ok) := by
  unfold setup vain
  simp only [setupLoop, calls_eq]
  cases (p 0).ok <;> cases (p 1).ok <;> cases (p 2).ok <;> simp [BitVec.add_assoc]

theorem run_append (d : I2CDev) (a b : List DevEv) : d.run (a ++ b) = (d.run a).run b := by
  simp [run]

theorem fails_setup (p : Nat → Ping) : Fails (.setup p) ↔
    ((p 0).calls.any (·.err) || (!(p 0).ok && (p 1).calls.any (·.err))
      || (!(p 0).ok && !(p 1).ok && (p 2).calls.any (·.err))) = true := by
  simp only [Fails, ← err_iff, Bool.or_eq_true, Bool.and_eq_true, List.any_eq_true, Bool.not_eq_true']
  constructor
  · rintro ⟨i, hi, hj, hc⟩
    interval_cases i
    · exact Or.inl (Or.inl hc)
    · exact Or.inl (Or.inr ⟨hj 0 (by omega), hc⟩)
    · exact Or.inr ⟨⟨hj 0 (by omega), hj 1 (by omega)⟩, hc⟩
  · rintro ((h | ⟨h0, h⟩) | ⟨⟨h0, h1⟩, h⟩)
    · exact ⟨0, by omega, by simp, h⟩
    · exact ⟨1, by omega, fun j hj => by interval_cases j; exact h0, h⟩
    · exact ⟨2, by omega, fun j hj => by interval_cases j <;> assumption, h⟩

theorem step_recent (d : I2CDev) (e : DevEv) :
    (d.step e).recent = true ↔ Fails e ∨ (¬ Clears e ∧ d.recent = true) := by
  cases e with
  | call c => simp [step, call, Fails, ← err_iff, Clears, or_comm]
  | pop => simp [step, pop, Fails, Clears]
  | reset => simp [step, reset, Fails, Clears]
  | disable => simp [step, disable, Fails]
  | setup p =>
    rw [fails_setup]
    simp only [step, setup_eq, Clears, not_false_eq_true, true_and, Bool.or_eq_true]
    tauto

theorem run_recent (d : I2CDev) (evs : List DevEv) :
    (d.run evs).recent = true ↔ FailedSince evs ∨ ((∀ e ∈ evs, ¬ Clears e) ∧ d.recent = true) := by
  induction evs using List.reverseRecOn with
  | nil => simp [run, FailedSince]
  | append_singleton evs e ih =>
    have hr : d.run (evs ++ [e]) = (d.run evs).step e := by rw [run_append]; rfl
    rw [hr, step_recent, ih]
    have key : FailedSince (evs ++ [e]) ↔ Fails e ∨ (¬ Clears e ∧ FailedSince evs) := by
      constructor
      · rintro ⟨pre, x, post, h, hx, hp⟩
        rcases List.eq_nil_or_concat post with rfl | ⟨post', y, rfl⟩
        · have h' : evs ++ [e] = pre ++ [x] := h
          have := List.append_inj' h' rfl
          simp at this
          exact Or.inl (this.2 ▸ hx)
        · have h' : evs ++ [e] = (pre ++ x :: post') ++ [y] := by rw [h]; simp
          have := List.append_inj' h' rfl
          simp at this
          obtain ⟨h1, h2⟩ := this
          refine Or.inr ⟨h2 ▸ hp y (by simp), pre, x, post', h1, hx, fun e' he' => hp e' (by simp [he'])⟩
      · rintro (h | ⟨h, pre, x, post, rfl, hx, hp⟩)
        · exact ⟨evs, e, [], rfl, h, by simp⟩
        · refine ⟨pre, x, post ++ [e], by simp, hx, ?_⟩
          intro e' he'
          rcases List.mem_append.1 he' with h1 | h1
          · exact hp e' h1
          · simp at h1; exact h1 ▸ h
    rw [key]
    constructor
    · rintro (h | ⟨h, h1 | ⟨h1, h2⟩⟩)
      · exact Or.inl (Or.inl h)
      · exact Or.inl (Or.inr ⟨h, h1⟩)
      · refine Or.inr ⟨?_, h2⟩
        intro e' he'
        rcases List.mem_append.1 he' with h3 | h3
        · exact h1 e' h3
        · simp at h3; exact h3 ▸ h
    · rintro ((h | ⟨h, h1⟩) | ⟨h1, h2⟩)
      · exact Or.inl h
      · exact Or.inr ⟨h, Or.inl h1⟩
      · exact Or.inr ⟨h1 e (by simp), Or.inr ⟨fun e' he' => h1 e' (by simp [he']), h2⟩⟩

theorem vain_le (p : Nat → Ping) : vain p ≤ 3 := by
  unfold vain; split_ifs <;> omega

/-- The count is the number accumulated, as a 32-bit number. -/
theorem run_count (evs : List DevEv) (d : I2CDev) (k : Nat) (hd : d.count = BitVec.ofNat 32 k) :
    (d.run evs).count = BitVec.ofNat 32 (accumulated k evs) := by
  induction evs generalizing d k with
  | nil => simpa [run, accumulated] using hd
  | cons e evs ih =>
    have hr : d.run (e :: evs) = (d.step e).run evs := rfl
    rw [hr]
    cases e with
    | call c => exact ih _ k hd
    | pop => exact ih _ k hd
    | reset => exact ih _ 0 rfl
    | disable => exact ih _ 3 rfl
    | setup p =>
      refine ih _ (k + vain p) ?_
      simp only [step, setup_eq, hd]
      rw [← BitVec.ofNat_add]

theorem accumulated_le (evs : List DevEv) (k : Nat) : accumulated k evs ≤ max k 3 + 3 * evs.length := by
  induction evs generalizing k with
  | nil => simp [accumulated]
  | cons e evs ih =>
    cases e with
    | call c => simp only [accumulated, List.length_cons]; have := ih k; omega
    | pop => simp only [accumulated, List.length_cons]; have := ih k; omega
    | reset => simp only [accumulated, List.length_cons]; have := ih 0; omega
    | disable => simp only [accumulated, List.length_cons]; have := ih 3; omega
    | setup p => simp only [accumulated, List.length_cons]; have := ih (k + vain p); have := vain_le p; omega

end I2CDev

/-- **C110.** The record of recent errors says, after every history, exactly whether something failed since it was last read or
the device was last reset. -/
theorem C110_recent_errors (t : U32) (evs : List DevEv) :
    ((I2CDev.new t).run evs).peekErrors = true ↔ FailedSince evs := by
  have := I2CDev.run_recent (I2CDev.new t) evs
  simp only [I2CDev.new, Bool.false_eq_true, and_false, or_false] at this
  exact this

example : FailedSince [.call (.endTx 2), .pop, .call (.readN 4 1), .call (.request 3)] :=
  ⟨[.call (.endTx 2), .pop], .call (.readN 4 1), [.call (.request 3)], rfl, by simp [Fails, CallFailed],
    by simp [Clears]⟩

/-- **C110.** Reading the record returns it and clears it. -/
theorem C110_pop (t : U32) (evs : List DevEv) :
    (((I2CDev.new t).run evs).pop.2 = true ↔ FailedSince evs) ∧
      ((I2CDev.new t).run (evs ++ [.pop])).peekErrors = false := by
  refine ⟨C110_recent_errors t evs, ?_⟩
  rw [I2CDev.run_append]
  rfl

/-- **C110.** Setting a device up succeeds exactly if one of at most three questions is answered, and asks no more of them:
what later questions would have brought has no effect. -/
theorem C110_setup (d : I2CDev) (p : Nat → Ping) :
    ((d.setup p).2 = true ↔ ∃ i < 3, (p i).ok = true) ∧
      ∀ q : Nat → Ping, (∀ i < 3, (∀ j < i, (p j).ok = false) → q i = p i) → d.setup q = d.setup p := by
  constructor
  · rw [I2CDev.setup_eq]
    simp only [Bool.or_eq_true]
    constructor
    · rintro ((h | h) | h)
      · exact ⟨0, by omega, h⟩
      · exact ⟨1, by omega, h⟩
      · exact ⟨2, by omega, h⟩
    · rintro ⟨i, hi, h⟩
      interval_cases i <;> simp [h]
  · intro q hq
    have h0 := hq 0 (by omega) (by simp)
    have h1 : (p 0).ok = false → q 1 = p 1 := fun h => hq 1 (by omega) (fun j hj => by interval_cases j; exact h)
    have h2 : (p 0).ok = false → (p 1).ok = false → q 2 = p 2 := fun h h' =>
      hq 2 (by omega) (fun j hj => by interval_cases j <;> assumption)
    simp only [I2CDev.setup, I2CDev.setupLoop, h0]
    cases hp0 : (p 0).ok
    · rw [h1 hp0]
      cases hp1 : (p 1).ok
      · rw [h2 hp0 hp1]
      · simp
    · simp

/-- **C110.** A new device is held to work after its setup exactly if the setup succeeded, and its data are held to be valid
exactly if the first question was answered. -/
theorem C110_after_setup (t : U32) (p : Nat → Ping) :
    (((I2CDev.new t).setup p).1.functional = ((I2CDev.new t).setup p).2) ∧
      (((I2CDev.new t).setup p).1.dataValid = (p 0).ok) := by
  rw [I2CDev.setup_eq]
  simp only [I2CDev.functional, I2CDev.dataValid, I2CDev.new, vain]
  rcases Bool.eq_false_or_eq_true (p 0).ok with h0 | h0 <;> rcases Bool.eq_false_or_eq_true (p 1).ok with h1 | h1 <;>
    rcases Bool.eq_false_or_eq_true (p 2).ok with h2 | h2 <;> simp [h0, h1, h2]

/-- **C110, partial.** After every history of fewer than a thousand million events a device is held to work exactly if fewer than
three questions asked at its setups were in vain since it was last reset, and it was not declared broken since; its data are held
to be valid exactly if there were none. Missing: this counts the questions of the setups only, and never starts afresh after one
that was answered (see the counterexamples). -/
theorem C110_functional_partial (t : U32) (evs : List DevEv) (hl : evs.length < 10 ^ 9) :
    (((I2CDev.new t).run evs).functional = true ↔ accumulated 0 evs < 3) ∧
      (((I2CDev.new t).run evs).dataValid = true ↔ accumulated 0 evs = 0) := by
  have h := I2CDev.run_count evs (I2CDev.new t) 0 rfl
  have hb := I2CDev.accumulated_le evs 0
  have hb' : accumulated 0 evs < 2 ^ 32 := by omega
  simp only [I2CDev.functional, I2CDev.dataValid, h, decide_eq_true_eq, beq_iff_eq]
  constructor
  · rw [BitVec.lt_def]; simp only [BitVec.toNat_ofNat]
    rw [Nat.mod_eq_of_lt hb']; simp
  · rw [← BitVec.toNat_inj]; simp only [BitVec.toNat_ofNat]
    rw [Nat.mod_eq_of_lt hb']; simp

example : accumulated 0 [.setup (fun i => ⟨[], i == 1⟩), .call (.endTx 4), .pop, .setup (fun i => ⟨[], i == 2⟩)] = 3 := by decide

/-- **C110, counterexample.** The documentation holds a device to be working "if less than three errors have occurred in a row",
and has the reading of the errors count them. No exchange after the setup, however many fail and however often the errors are
read, changes whether the device is held to work or its data to be valid. -/
theorem C110_counterexample_never_counted (d : I2CDev) (evs : List DevEv) (h : ∀ e ∈ evs, Exchange e) :
    (d.run evs).functional = d.functional ∧ (d.run evs).dataValid = d.dataValid := by
  have : (d.run evs).count = d.count := by
    induction evs generalizing d with
    | nil => rfl
    | cons e evs ih =>
      have hr : d.run (e :: evs) = (d.step e).run evs := rfl
      rw [hr, ih _ (fun e' he' => h e' (by simp [he']))]
      have he := h e (by simp)
      cases e <;> first | rfl | exact absurd he (by simp [Exchange])
  simp [I2CDev.functional, I2CDev.dataValid, this]

example : ∃ evs : List DevEv, evs.length = 2000 ∧ (∀ e ∈ evs, Exchange e) ∧ (∀ n < 1000, evs[2 * n]? = some (.call (.endTx 4))) ∧
    ((I2CDev.new 1000).run evs).functional = true := by
  refine ⟨(List.range 2000).map fun i => if i % 2 = 0 then .call (.endTx 4) else .pop, by simp, ?_, ?_, ?_⟩
  · intro e he
    obtain ⟨i, -, rfl⟩ := List.mem_map.1 he
    split <;> trivial
  · intro n hn
    rw [List.getElem?_map, List.getElem?_range (by omega)]
    simp
  · rw [(C110_counterexample_never_counted _ _ _).1]
    · decide
    · intro e he
      obtain ⟨i, -, rfl⟩ := List.mem_map.1 he
      split <;> trivial

/-- **C110, counterexample.** Nor need the three be in a row: a device whose three setups each needed a second question, and each
succeeded, is held not to work. -/
theorem C110_counterexample_in_a_row (t : U32) (p : Nat → Ping) (h0 : (p 0).ok = false) (h1 : (p 1).ok = true) :
    (∀ d : I2CDev, (d.setup p).2 = true) ∧
      ((I2CDev.new t).run [.setup p, .setup p, .setup p]).functional = false := by
  refine ⟨fun d => (C110_setup d p).1.2 ⟨1, by omega, h1⟩, ?_⟩
  have hv : vain p = 1 := by simp [vain, h0, h1]
  have := (C110_functional_partial t [.setup p, .setup p, .setup p] (by simp)).1
  rw [Bool.eq_false_iff]
  intro hf
  have := this.1 hf
  simp [accumulated, hv] at this

/-- **C110.** The wait set for a device is the one reported, if it is below 4294968 milliseconds. -/
theorem C110_timeout (d : I2CDev) (ms : U32) (h : ms.toNat < 4294968) : (d.setTimeout ms).getTimeout = ms := by
  apply BitVec.eq_of_toNat_eq
  simp only [I2CDev.setTimeout, I2CDev.getTimeout, BitVec.toNat_udiv, BitVec.toNat_mul]
  have : (1000 : U32).toNat = 1000 := rfl
  rw [this, Nat.mod_eq_of_lt (by omega)]
  omega

/-- **C110, counterexample.** The wait with which a device is built is a thousand times shorter than the same number set later:
the attitude box is built with 1000, and reports one millisecond. -/
theorem C110_counterexample_timeout (t : U32) : (I2CDev.new t).getTimeout = t / 1000 ∧ (I2CDev.new 1000).getTimeout = 1 :=
  ⟨rfl, by decide⟩

/-- **C110.** The attitude box is held to be there exactly if the byte that arrived is the agreed one; silence is not an answer. -/
theorem C110_attitude_box (w1 w2 : Nat) (e : U8) (n : Nat) (arrived : List U8) :
    (adcsPing w1 w2 e n arrived).ok = true ↔ arrived.head? = some 0x0F := by
  cases arrived with
  | nil => simp [adcsPing, bulkRead]
  | cons a as => simp [adcsPing, bulkRead]

/-- **C110, partial.** If the power supply's whole answer arrived, it is held to be there exactly if the answer carries no error
and the value it was sent, and a command is held to be accepted exactly if its port and no error come back. Missing: what happens
when fewer bytes arrive. -/
theorem C110_power_supply_partial (value port : U8) (w : Nat) (e : U8) (n : Nat) (stack : Bytes) (a b c : U8) (rest : List U8) :
    ((gomPing value w e n stack (a :: b :: c :: rest)).ok = true ↔ b = 0 ∧ c = value) ∧
      (gomCheck port stack (a :: b :: c :: rest) = true ↔ a = port ∧ b = 0) := by
  constructor
  · simp [gomPing, bulkRead]
    intro _
    exact eq_comm
  · simp [gomCheck, bulkRead]

/-- **C110, counterexample.** If the supply does not answer at all, what an earlier exchange left on the stack is taken for the
answer: the supply is held to be there, and a command to be accepted, if those bytes are right. -/
theorem C110_counterexample_silence (value port : U8) (w : Nat) (e : U8) (n : Nat) :
    (∃ stack : Bytes, (gomPing value w e n stack []).ok = true) ∧ (∃ stack : Bytes, gomCheck port stack [] = true) ∧
      ∃ stack : Bytes, (gomPing value w e n stack []).ok = false := by
  refine ⟨⟨fun j => if j = 2 then value else 0, ?_⟩, ⟨fun j => if j = 0 then port else 0, ?_⟩, ⟨fun _ => 1, ?_⟩⟩
  · simp [gomPing, bulkRead]
  · simp [gomCheck, bulkRead]
  · simp [gomPing, bulkRead]

/-- **C110, counterexample.** The same holds for the housekeeping data: with a former answer still on the stack, silence is taken
for that answer again. -/
theorem C110_counterexample_stale_answer (m stack : Bytes) (answer : List U8) :
    gomGetHk m (bulkRead stack (Gomspace.Off.size + 2) answer) [] = gomGetHk m stack answer := by
  unfold gomGetHk
  congr 1
  funext j
  simp [bulkRead]

example : (gomGetHk (fun _ => 0) (bulkRead (fun _ => 7) 133 (0x08 :: 0 :: List.replicate 131 1)) []).1 = true := by decide

/-- **C110.** The setup of the attitude box succeeds exactly if one of the first three answers is the agreed one. -/
theorem C110_attitude_box_setup (t : U32) (w1 w2 : Nat → Nat) (e : Nat → U8) (n : Nat → Nat) (arrived : Nat → List U8) :
    ((I2CDev.new t).setup fun i => adcsPing (w1 i) (w2 i) (e i) (n i) (arrived i)).1.functional = true ↔
      ∃ i < 3, (arrived i).head? = some 0x0F := by
  rw [(C110_after_setup t _).1, (C110_setup _ _).1]
  simp only [C110_attitude_box]

/-- **C110, counterexample.** A received message is delivered only if no earlier error is still recorded: after an error that was
not read, a message that arrives whole is dropped, and the buffer keeps what it held. -/
theorem C110_counterexample_receive (d : I2CDev) (h : d.peekErrors = true) (buf : Bytes) (len n : Nat) (r : Nat → Option U8) :
    (d.receiveData buf len n r).2 = buf := by
  have hr : d.recent = true := h
  simp [I2CDev.receiveData, I2CDev.call, hr]

/-- **C110, partial.** With no error recorded, a message that arrives whole is delivered and no error is recorded. -/
theorem C110_receive_partial (d : I2CDev) (h : d.peekErrors = false) (buf : Bytes) (len n : Nat) (hn : n ≠ 0)
    (msg : Nat → U8) :
    (∀ j < len, (d.receiveData buf len n fun i => some (msg i)).2 j = msg j) ∧
      (∀ j, len ≤ j → (d.receiveData buf len n fun i => some (msg i)).2 j = buf j) ∧
        (d.receiveData buf len n fun i => some (msg i)).1.peekErrors = false := by
  have hr : d.recent = false := h
  have hc : (d.call (.request n)).recent = false := by simp [I2CDev.call, hr, BusCall.err, hn]
  refine ⟨fun j hj => ?_, fun j hj => ?_, ?_⟩
  · simp [I2CDev.receiveData, hc, hj]
  · simp [I2CDev.receiveData, hc, Nat.not_lt.2 hj]
  · simp only [I2CDev.receiveData, hc, I2CDev.calls_eq, I2CDev.peekErrors, Bool.false_eq_true, if_false, Bool.false_or]
    simp [BusCall.err]

end PAN
