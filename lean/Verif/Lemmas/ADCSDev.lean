import Verif.Model.ADCSDev
import Mathlib.Data.List.Infix
/-! Auxiliary lemmas about the bus devices of the attitude control box. -/
namespace PAN.BusDev

theorem Dev.bus_eq (d : Dev) (calls : List Bool) :
    d.bus calls = { d with errorAcc := d.errorAcc || !calls.all id } := by
  induction calls generalizing d with
  | nil => simp [Dev.bus]
  | cons a l ih =>
    have : d.bus (a :: l) = ({ d with errorAcc := d.errorAcc || !a } : Dev).bus l := rfl
    rw [this, ih]
    cases a <;> simp

/-- An exchange and the test after it. -/
theorem Dev.exchange (d : Dev) (calls : List Bool) (h : d.errorAcc = false) :
    (d.bus calls).popErrors = (!calls.all id,
      { functional := d.functional && (calls.all id || decide (d.errorCount + 1 < 3)),
        errorCount := if calls.all id then 0 else d.errorCount + 1, errorAcc := false }) := by
  rw [Dev.bus_eq]
  rcases d with ⟨f, c, a⟩
  cases hc : calls.all id
  · by_cases h3 : 3 ≤ c + 1
    · simp [Dev.popErrors, Dev.disable, h3, maxErrors]
    · have : c + 1 < 3 := by omega
      simp [Dev.popErrors, h3, maxErrors, this]
  · simp only at h
    simp [Dev.popErrors, h]

theorem not_infix_nil : ¬ [true, true, true] <:+: ([] : List Bool) := by simp

theorem infix_false_cons (l : List Bool) :
    [true, true, true] <:+: false :: l ↔ [true, true, true] <:+: l := by
  rw [List.infix_cons_iff]
  simp

theorem infix_run (c : Nat) (hc : c < 3) (l : List Bool) :
    [true, true, true] <:+: List.replicate c true ++ false :: l ↔ [true, true, true] <:+: l := by
  have : c = 0 ∨ c = 1 ∨ c = 2 := by omega
  rcases this with rfl | rfl | rfl
  · simpa using infix_false_cons l
  · simp [List.replicate, List.infix_cons_iff]
  · simp [List.replicate, List.infix_cons_iff]

/-- The device after a list of exchanges. -/
def Dev.runs (d : Dev) (ts : List (List Bool)) : Dev := ts.foldl (fun d c => (d.bus c).popErrors.2) d

theorem Dev.runs_acc (ts : List (List Bool)) (d : Dev) (h : d.errorAcc = false) : (d.runs ts).errorAcc = false := by
  induction ts generalizing d with
  | nil => exact h
  | cons t ts ih =>
    refine ih _ ?_
    simp [Dev.exchange d t h]

theorem Dev.runs_off (ts : List (List Bool)) (d : Dev) (h : d.functional = false) : (d.runs ts).functional = false := by
  induction ts generalizing d with
  | nil => exact h
  | cons t ts ih =>
    refine ih _ ?_
    dsimp only
    rw [Dev.bus_eq]
    rcases d with ⟨f, c, a⟩
    simp only at h
    subst h
    simp only [Dev.popErrors, Dev.disable]
    split_ifs <;> rfl

theorem Dev.runs_functional (ts : List (List Bool)) (d : Dev) (h : d.errorAcc = false) (hc : d.errorCount < 3) (hf : d.functional = true) :
    (d.runs ts).functional = true ↔
      ¬ [true, true, true] <:+: List.replicate d.errorCount true ++ ts.map (fun c => !c.all id) := by
  induction ts generalizing d with
  | nil =>
    have hn : ¬ [true, true, true] <:+: List.replicate d.errorCount true := fun hi => by
      have := hi.length_le
      simp at this
      omega
    simpa [Dev.runs, hf] using hn
  | cons t ts ih =>
    have hr : d.runs (t :: ts) = Dev.runs (d.bus t).popErrors.2 ts := rfl
    rw [hr, Dev.exchange d t h]
    cases ht : t.all id
    · by_cases h3 : d.errorCount + 1 < 3
      · rw [ih _ rfl (by simpa using h3) (by simp [hf, h3])]
        simp [ht, List.replicate_succ', List.append_assoc]
      · have h2 : d.errorCount = 2 := by omega
        rw [← Bool.not_eq_false]
        simp only [h2]
        constructor
        · intro hx
          exact absurd (Dev.runs_off ts _ (by simp)) hx
        · intro hx
          exfalso
          apply hx
          refine ⟨[], ts.map (fun c => !c.all id), ?_⟩
          simp [ht, List.replicate]
    · rw [ih _ rfl (by simp) (by simp [hf])]
      simp only [if_true, List.replicate_zero, List.nil_append, List.map_cons, ht, Bool.not_true]
      rw [infix_run _ hc]

/-- The loop of a reset. -/
theorem Dev.resetLoop_three (attempts : Nat → List Bool) (d : Dev) :
    Dev.resetLoop 3 attempts 0 d.reset =
      if (attempts 0).all id || (attempts 1).all id || (attempts 2).all id then some (true, ⟨true, 0, false⟩)
      else some (false, ⟨false, 3, false⟩) := by
  cases h0 : (attempts 0).all id <;> cases h1 : (attempts 1).all id <;> cases h2 : (attempts 2).all id <;>
    simp [Dev.resetLoop, Dev.reset, Dev.exchange, h0, h1, h2]

theorem some_attempt (attempts : Nat → List Bool) :
    (∃ i < 3, ∀ c ∈ attempts i, c = true) ↔
      ((attempts 0).all id || (attempts 1).all id || (attempts 2).all id) = true := by
  simp only [Bool.or_eq_true, List.all_eq_true, id]
  constructor
  · rintro ⟨i, hi, h⟩
    have : i = 0 ∨ i = 1 ∨ i = 2 := by omega
    rcases this with rfl | rfl | rfl
    exacts [Or.inl (Or.inl h), Or.inl (Or.inr h), Or.inr h]
  · rintro ((h | h) | h)
    exacts [⟨0, by omega, h⟩, ⟨1, by omega, h⟩, ⟨2, by omega, h⟩]

/-! ### Sensors -/
namespace Sensor

/-- The bus calls of a use. -/
def Tx.results : Tx → List Bool
  | .ready _ c _ => c
  | .read c _ => c

theorem step_dev (s : Sensor) (t : Tx) : (s.step t).dev = (s.dev.bus t.results).popErrors.2 := by
  cases t with
  | ready m c st => rfl
  | read c b =>
    simp only [step, read, Tx.results]
    split <;> rfl

theorem foldl_dev (ts : List Tx) (s : Sensor) : (ts.foldl step s).dev = s.dev.runs (ts.map Tx.results) := by
  induction ts generalizing s with
  | nil => rfl
  | cons t ts ih =>
    rw [List.foldl_cons, ih, step_dev]
    rfl

theorem reset_cases (s s' : Sensor) (attempts : Nat → List Bool) (last : List Bool) (r : Bool)
    (h : s.reset attempts last = some (r, s')) :
    s'.data = s.data ∧ (r = true ↔ ∃ i < 3, ∀ c ∈ attempts i, c = true) ∧
      (r = true → s'.dev = ⟨true, 0, false⟩) ∧ (r = false → s'.dev.functional = false) := by
  rw [some_attempt]
  unfold reset at h
  rw [Dev.resetLoop_three] at h
  cases hx : ((attempts 0).all id || (attempts 1).all id || (attempts 2).all id)
  · simp [hx] at h
    rcases h with ⟨rfl, rfl⟩
    simp [Dev.bus_eq, Dev.disable]
  · simp [hx] at h
    rcases h with ⟨rfl, rfl⟩
    simp

end Sensor

/-! ### The second magnetometer -/
namespace Mag2

/-- The bus calls of a use. -/
def Tx.results : Tx → List Bool
  | .ready c _ => c
  | .read c _ => c

theorem step_dev (m : Mag2) (t : Tx) : (m.step t).dev = (m.dev.bus t.results).popErrors.2 := by
  cases t with
  | ready c st => rfl
  | read c b =>
    cases h : ({ m with dev := m.dev.bus c } : Mag2).pop.1 <;> simp only [step, read, h] <;> rfl

theorem step_ctrl0 (m : Mag2) (t : Tx) : (m.step t).ctrl0 = m.ctrl0 := by
  cases t with
  | ready c st => rfl
  | read c b =>
    cases h : ({ m with dev := m.dev.bus c } : Mag2).pop.1 <;> simp only [step, read, h] <;> rfl

theorem step_offset (m : Mag2) (t : Tx) : (m.step t).offset = m.offset := by
  cases t with
  | ready c st => rfl
  | read c b =>
    cases h : ({ m with dev := m.dev.bus c } : Mag2).pop.1 <;> simp only [step, read, h] <;> rfl

theorem foldl_dev (ts : List Tx) (m : Mag2) : (ts.foldl step m).dev = m.dev.runs (ts.map Tx.results) := by
  induction ts generalizing m with
  | nil => rfl
  | cons t ts ih =>
    rw [List.foldl_cons, ih, step_dev]
    rfl

theorem foldl_ctrl0 (ts : List Tx) (m : Mag2) : (ts.foldl step m).ctrl0 = m.ctrl0 := by
  induction ts generalizing m with
  | nil => rfl
  | cons t ts ih => rw [List.foldl_cons, ih, step_ctrl0]

theorem foldl_offset (ts : List Tx) (m : Mag2) : (ts.foldl step m).offset = m.offset := by
  induction ts generalizing m with
  | nil => rfl
  | cons t ts ih => rw [List.foldl_cons, ih, step_offset]

theorem reset_eq (m : Mag2) (attempts : Nat → List Bool) :
    m.reset attempts =
      if (attempts 0).all id || (attempts 1).all id || (attempts 2).all id then
        some (true, { m with dev := ⟨true, 0, false⟩, ctrl0 := continuous })
      else some (false, { m with dev := ⟨false, 3, false⟩ }) := by
  cases h0 : (attempts 0).all id <;> cases h1 : (attempts 1).all id <;> cases h2 : (attempts 2).all id <;>
    simp [reset, resetLoop, Dev.reset, Dev.exchange, write, pop, h0, h1, h2]

theorem cmd_eq (m : Mag2) (v : U8) (calls : List Bool) (h : m.dev.errorAcc = false) :
    (m.cmd v calls).1 = !calls.all id ∧ (m.cmd v calls).2.dev.errorAcc = false ∧
      (m.cmd v calls).2.b = m.b ∧ (m.cmd v calls).2.offset = m.offset ∧
      ((m.cmd v calls).2.ctrl0 = if calls.all id then v else m.ctrl0) := by
  simp [cmd, pop, write, Dev.exchange m.dev calls h]

theorem pop_acc (m : Mag2) : m.pop.2.dev.errorAcc = false := by
  simp [pop, Dev.popErrors]

theorem isReady_fields (m : Mag2) (c : List Bool) (st : U8) :
    (m.isReady c st).2.dev.errorAcc = false ∧ (m.isReady c st).2.ctrl0 = m.ctrl0 ∧ (m.isReady c st).2.offset = m.offset := by
  refine ⟨pop_acc _, rfl, rfl⟩

theorem wait_fields (polls : List (List Bool × U8)) (m m' : Mag2) (r : Bool) (h : m.wait polls = some (r, m')) :
    m'.dev.errorAcc = false ∧ m'.ctrl0 = m.ctrl0 ∧ m'.offset = m.offset := by
  induction polls generalizing m with
  | nil => simp [wait] at h
  | cons p ps ih =>
    obtain ⟨c, st⟩ := p
    unfold wait at h
    dsimp only at h
    have hf := isReady_fields m c st
    split at h
    · simp only [Option.some.injEq, Prod.mk.injEq] at h
      rw [← h.2]
      exact hf
    · split at h
      · simp only [Option.some.injEq, Prod.mk.injEq] at h
        rw [← h.2]
        exact hf
      · have := ih _ h
        exact ⟨this.1, this.2.1.trans hf.2.1, this.2.2.trans hf.2.2⟩

theorem read_fields (m : Mag2) (c : List Bool) (v : Fin 3 → U16) :
    (m.read c v).2.dev.errorAcc = false ∧ (m.read c v).2.ctrl0 = m.ctrl0 ∧ (m.read c v).2.offset = m.offset ∧
      ((m.read c v).1 = true → (m.read c v).2.b = v) := by
  unfold read
  dsimp only
  split
  · exact ⟨pop_acc _, rfl, rfl, fun h => by simp at h⟩
  · exact ⟨pop_acc _, rfl, rfl, fun _ => rfl⟩

theorem singleRead_fields (m m' : Mag2) (x : Single) (h : m.singleRead x = some (true, m')) :
    m'.dev.errorAcc = false ∧ m'.offset = m.offset ∧ m'.b = x.value := by
  unfold singleRead at h
  split at h
  · rename_i m1 hw
    have h1 := wait_fields _ _ _ _ hw
    have h2 := read_fields m1 x.calls x.value
    simp only [Option.some.injEq] at h
    rw [h] at h2
    exact ⟨h2.1, h2.2.2.1.trans (h1.2.2.trans rfl), h2.2.2.2 rfl⟩
  · rename_i hn
    exact absurd h (hn m')

theorem calibrate_true (m m' : Mag2) (x : CalIn) (h : m.calibrate x = some (true, m')) :
    m'.dev.errorAcc = false ∧ m'.ctrl0 = continuous ∧
      ∀ i, (m'.offset i).toNat = ((x.r2.value i).toNat + (x.r3.value i).toNat) / 2 := by
  unfold calibrate at h
  dsimp only at h
  split at h
  · simp at h
  split at h
  · simp at h
  split at h
  · rename_i m1 h1
    split at h
    · rename_i m2 h2
      have f2 := singleRead_fields _ _ _ h2
      split at h
      · simp at h
      split at h
      · simp at h
      split at h
      · simp at h
      split at h
      · rename_i m3 h3
        have f3 := singleRead_fields _ _ _ h3
        split at h
        · simp at h
        split at h
        · simp at h
        rename_i he
        simp only [Option.some.injEq, Prod.mk.injEq, true_and] at h
        have hc := cmd_eq { m3.pop.2 with offset := fun i => BitVec.ofNat 16 (((m2.b i).toNat + (m3.pop.2.b i).toNat) / 2) }
          continuous x.cont (pop_acc m3)
        rw [h] at hc
        have hall : x.cont.all id = true := by
          rcases hb : x.cont.all id with _ | _
          · rw [hb] at hc
            exact absurd hc.1 he
          · rfl
        refine ⟨hc.2.1, by rw [hc.2.2.2.2, if_pos hall], fun i => ?_⟩
        rw [hc.2.2.2.1]
        have e : m3.pop.2.b = m3.b := rfl
        simp only [e, f2.2.2, f3.2.2, BitVec.toNat_ofNat]
        have := (x.r2.value i).isLt
        have := (x.r3.value i).isLt
        omega
      · rename_i hn
        exact absurd h (hn m')
    · rename_i hn
      exact absurd h (hn m')
  · rename_i hn
    exact absurd h (hn m')

theorem wait_ready (polls : List (List Bool × U8)) (m : Mag2)
    (hr : ∃ p ∈ polls, p.1.all id = true ∧ p.2 &&& 1 ≠ 0) (ha : m.dev.errorAcc = false ∨ ∃ c st rest, polls = (c, st) :: rest ∧
      ∃ p ∈ rest, p.1.all id = true ∧ p.2 &&& 1 ≠ 0) : ∃ r, m.wait polls = some r := by
  induction polls generalizing m with
  | nil => simp at hr
  | cons p ps ih =>
    obtain ⟨c, st⟩ := p
    unfold wait
    dsimp only
    split
    · exact ⟨_, rfl⟩
    · rename_i hnr
      split
      · exact ⟨_, rfl⟩
      · have hp : ∃ p ∈ ps, p.1.all id = true ∧ p.2 &&& 1 ≠ 0 := by
          rcases ha with ha | ⟨c', st', rest, he, hrest⟩
          · obtain ⟨q, hq, hok, hst⟩ := hr
            rcases List.mem_cons.mp hq with rfl | hq
            · exfalso
              apply hnr
              simp only at hok hst
              simp only [isReady, pop, Dev.exchange _ c ha, hok, Bool.not_true, Bool.not_false, Bool.true_and, bne_iff_ne]
              exact hst
            · exact ⟨q, hq, hok, hst⟩
          · simp only [List.cons.injEq] at he
            rw [he.2]
            exact hrest
        exact ih _ hp (Or.inl (isReady_fields m c st).1)

end Mag2
end PAN.BusDev
