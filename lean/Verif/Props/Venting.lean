import Verif.Props.WatchSys
import Verif.Props.PropFH

/-!
C130: a tank that stays over its pressure or too hot is vented: through the fault counters, fault handling and the venting cycles,
after any history of the propulsion controller; and not at all while propulsion is disabled.
-/
namespace PAN
namespace Spec

/-- What can be wrong with the tanks: tank 2 over its pressure, tank 2 too hot, tank 1 too hot. -/
inductive TankTrouble | over | hot2 | hot1
  deriving DecidableEq, Repr

/-- The readings that show it: more than 75 psi, more than 49 degrees. -/
def TankTrouble.shows : TankTrouble → PropEnv → Prop
  | .over, e => e.pressure > 75
  | .hot2, e => e.temp2 > 49
  | .hot1, e => e.temp1 > 49

/-- The tank that has to be vented. -/
def TankTrouble.tank : TankTrouble → TankId
  | .over => .two
  | .hot2 => .two
  | .hot1 => .one

/-- The cycles are numbered `n`, `n + 1`, … -/
def Numbered : Nat → List PropCycle → Prop
  | _, [] => True
  | n, y :: ys => y.env.cc = BitVec.ofNat 32 n ∧ Numbered (n + 1) ys

/-- Nobody commands the three faults of the tanks (they may be asked for). -/
def LeavesTankFaults (y : PropCycle) : Prop := ∀ i op, PropWrite.fault i op ∈ y.writes → i = .press ∨ op = .poll

/-- The propulsion controller is at work on something other than a fault: waiting, filling or firing (in the last cycles before the
firing time a filling attempt is abandoned first). -/
def AtWork (c : Ctl) : Prop := c.state = Prp.idle ∨ c.state = Prp.awaitPressurizing ∨ c.state = Prp.awaitFiring ∨ c.state = Prp.firing ∨
  (c.state = Prp.pressurizing ∧ 2 < c.countdown.toNat)

end Spec
open Spec Ctl

namespace Fault

/-- What is known of a fault that is only evaluated and asked for, before cycle `c`. -/
def Counts (p : U32) (f : Fault) (c m : Nat) : Prop :=
  f.Quiet ∧ f.persistence = p ∧ f.lastFaultTime.toNat < c ∧ f.num.toNat ≤ m

theorem Asked.trans {f g h : Fault} (a : f.Asked g) (b : g.Asked h) : f.Asked h := by
  obtain ⟨k, rfl⟩ := a
  obtain ⟨l, rfl⟩ := b
  exact ⟨l + k, (Function.iterate_add_apply _ _ _ _).symm⟩

theorem Asked.polled (f : Fault) : f.Asked f.poll := ⟨1, rfl⟩

theorem Asked.counts {p : U32} {f g : Fault} {c m : Nat} (h : f.Asked g) (hi : f.Counts p c m) : g.Counts p c m ∧ g.num = f.num := by
  obtain ⟨k, rfl⟩ := h
  induction k with
  | zero => exact ⟨hi, rfl⟩
  | succ k ih =>
    obtain ⟨⟨q, p, l, n⟩, e⟩ := ih
    rw [Function.iterate_succ_apply']
    obtain ⟨h1, h2⟩ := quiet_poll_num q
    obtain ⟨h3, h4⟩ := quiet_step q (op := .poll) rfl
    exact ⟨⟨h3, h4.trans p, by rw [h2]; exact l, by rw [h1]; exact n⟩, h1.trans e⟩

theorem Counts.step {p : U32} {f : Fault} {c m : Nat} (hf : f.Counts p c m) (flag : Bool) (hc : c < 2 ^ 32) (hm : m < 2 ^ 32 - 1) :
    (f.evaluate (BitVec.ofNat 32 c) flag).Counts p (c + 1) (m + 1) ∧
      (f.evaluate (BitVec.ofNat 32 c) flag).num.toNat = (if flag then f.num.toNat + 1 else 0) := by
  obtain ⟨q, p, l, nn⟩ := hf
  unfold evaluate
  cases flag with
  | false =>
    simp only [Bool.false_eq_true, if_false]
    exact ⟨⟨q, p, by show f.lastFaultTime.toNat < c + 1; omega, by simp [unsignal]⟩, by simp [unsignal]⟩
  | true =>
    simp only [if_true]
    have hgt : (BitVec.ofNat 32 c : U32) > f.lastFaultTime ∨ (BitVec.ofNat 32 c : U32) = 0 := by
      left; show f.lastFaultTime < _
      rw [BitVec.lt_def, BitVec.toNat_ofNat, Nat.mod_eq_of_lt hc]; exact l
    have hnum : (f.num + 1).toNat = f.num.toNat + 1 := by
      rw [BitVec.toNat_add]; show (f.num.toNat + 1) % 2 ^ 32 = _
      rw [Nat.mod_eq_of_lt (by omega)]
    unfold signal refresh
    simp only [if_pos hgt]
    refine ⟨⟨q, p, ?_, ?_⟩, hnum⟩
    · show (BitVec.ofNat 32 c : U32).toNat < c + 1
      rw [BitVec.toNat_ofNat, Nat.mod_eq_of_lt hc]; omega
    · show (f.num + 1).toNat ≤ m + 1
      rw [hnum]; omega

theorem Counts.faulted {p : U32} {f : Fault} {c m : Nat} (hf : f.Counts p c m) : f.isFaulted = true ↔ p.toNat < f.num.toNat := by
  obtain ⟨q, rfl, -, -⟩ := hf
  rw [quiet_isFaulted q, decide_eq_true_iff]
  exact BitVec.lt_def

end Fault

namespace PropFaults

/-- The three faults of the tanks, asked for any number of times. -/
def AskedFrom (f g : PropFaults) : Prop := f.over.Asked g.over ∧ f.temp2.Asked g.temp2 ∧ f.temp1.Asked g.temp1

theorem AskedFrom.refl (f : PropFaults) : f.AskedFrom f := ⟨.rfl' _, .rfl' _, .rfl' _⟩

theorem AskedFrom.trans {f g h : PropFaults} (a : f.AskedFrom g) (b : g.AskedFrom h) : f.AskedFrom h :=
  ⟨a.1.trans b.1, a.2.1.trans b.2.1, a.2.2.trans b.2.2⟩

theorem asked_wants1 (f : PropFaults) : f.AskedFrom f.wants1.2 := ⟨.rfl' _, .rfl' _, .polled _⟩

theorem asked_wants2 (f : PropFaults) : f.AskedFrom f.wants2.2 := by
  unfold wants2
  split
  · exact ⟨.rfl' _, .polled _, .rfl' _⟩
  · exact ⟨.polled _, .polled _, .rfl' _⟩

theorem asked_choose (f : PropFaults) (t : TankId) : f.AskedFrom (f.chooseTank t).2 := by
  have h1 := asked_wants1 f
  have h2 : f.wants1.2.AskedFrom (if f.wants1.1 then f.wants1.2.wants2 else (false, f.wants1.2)).2 := by
    split
    · exact asked_wants2 _
    · exact .refl _
  unfold chooseTank
  dsimp only
  generalize (if f.wants1.1 = true then f.wants1.2.wants2 else (false, f.wants1.2)) = q at h2
  split
  · exact h1.trans h2
  · exact (h1.trans h2).trans (asked_wants1 _)

end PropFaults

namespace Ctl
open PropFaults

theorem canEnter_asked (c : Ctl) (e : PropEnv) (s : U32) : c.faults.AskedFrom (c.canEnter e s).2.faults := by
  unfold canEnter
  split
  · exact .refl _
  split
  · exact .refl _
  split
  · exact .refl _
  split
  · exact .refl _
  split
  · exact .refl _
  split
  · exact ⟨.polled _, .polled _, .polled _⟩
  split
  · split
    · exact .refl _
    · exact ⟨.polled _, .polled _, .polled _⟩
  · exact .refl _

theorem enter_asked (c : Ctl) (s : U32) : c.faults.AskedFrom (c.enter s).faults := by
  unfold enter
  split
  · exact .refl _
  split
  · exact .refl _
  split
  · exact .refl _
  split
  · exact .refl _
  split
  · exact .refl _
  split
  · exact asked_choose _ _
  split
  · exact .refl _
  · exact .refl _

theorem transition_asked (c : Ctl) (e : PropEnv) (s : U32) : c.faults.AskedFrom (c.transition e s).faults := by
  unfold transition
  split
  · exact .refl _
  · have h := canEnter_asked c e s
    generalize c.canEnter e s = q at h ⊢
    obtain ⟨b, c'⟩ := q
    dsimp only at h ⊢
    split
    · exact h.trans (enter_asked _ _)
    · exact h

theorem evaluate_asked (c : Ctl) (e : PropEnv) : c.faults.AskedFrom (c.evaluate e).2.faults := by
  unfold evaluate
  have hh := canEnter_asked c e Prp.handlingFault
  split
  · unfold evalIdle
    generalize c.canEnter e Prp.handlingFault = q at hh ⊢
    obtain ⟨b, c'⟩ := q
    dsimp only at hh ⊢
    split_ifs <;> exact hh
  split
  · unfold evalAwaitPressurizing
    generalize c.canEnter e Prp.handlingFault = q at hh ⊢
    obtain ⟨b, c'⟩ := q
    dsimp only at hh ⊢
    split_ifs <;> exact hh
  split
  · unfold evalPressurizing
    split
    · exact .refl _
    generalize c.canEnter e Prp.handlingFault = q at hh ⊢
    obtain ⟨b, c'⟩ := q
    dsimp only at hh ⊢
    split
    · exact hh
    split
    · exact hh
    · exact hh
    · exact hh
    · exact hh
    · unfold pressOutOfCycles
      dsimp only
      split <;> exact hh
  split
  · unfold evalAwaitFiring
    generalize c.canEnter e Prp.handlingFault = q at hh ⊢
    obtain ⟨b, c'⟩ := q
    dsimp only at hh ⊢
    split_ifs <;> exact hh
  split
  · unfold evalFiring
    generalize c.canEnter e Prp.handlingFault = q at hh ⊢
    obtain ⟨b, c'⟩ := q
    dsimp only at hh ⊢
    split_ifs <;> exact hh
  split
  · have hs : c.faults.AskedFrom c.ventSucceeded.2 := by
      unfold ventSucceeded
      split
      · exact asked_wants1 _
      · exact asked_wants2 _
    obtain ⟨r, a, d, hr, hc⟩ := evalVenting_cases c
    rcases hc with ⟨_, he⟩ | ⟨_, he⟩ | ⟨_, he⟩ | ⟨_, he⟩ <;> rw [he]
    · exact hs
    · exact hs
    · exact hs
    · unfold ventOutOfCycles
      dsimp only
      split
      · exact hs
      · refine hs.trans ?_
        split
        · exact asked_wants2 _
        · exact asked_wants1 _
  split
  · unfold evalHandlingFault
    have h1 := canEnter_asked c e Prp.venting
    generalize c.canEnter e Prp.venting = q at h1 ⊢
    obtain ⟨b, c'⟩ := q
    dsimp only at h1 ⊢
    split
    · exact h1
    · have h2 := canEnter_asked c' e Prp.handlingFault
      generalize c'.canEnter e Prp.handlingFault = q at h2 ⊢
      obtain ⟨b, c''⟩ := q
      dsimp only at h2 ⊢
      split_ifs <;> exact h1.trans h2
  split
  · exact .refl _
  · exact .refl _

theorem execute_asked (c : Ctl) (e : PropEnv) : (c.checkFaults e.cc).faults.AskedFrom (c.execute e).faults := by
  obtain ⟨f, k, hf, -, he⟩ := execute_eq c e
  rw [he, ← hf]
  exact (evaluate_asked { c with faults := f, countdown := k } e).trans (transition_asked _ _ _)

theorem writes_asked (ws : List PropWrite) : ∀ (c : Ctl), (∀ i op, PropWrite.fault i op ∈ ws → i = .press ∨ op = .poll) →
    c.faults.AskedFrom (c.writes ws).faults ∧ (c.writes ws).pressure = c.pressure ∧ (c.writes ws).temp2 = c.temp2 ∧
      (c.writes ws).temp1 = c.temp1 := by
  induction ws with
  | nil => intro c _; exact ⟨.refl _, rfl, rfl, rfl⟩
  | cons w ws ih =>
    intro c h
    obtain ⟨h1, h2, h3, h4⟩ := ih (c.write w) (fun i op hm => h i op (List.mem_cons_of_mem _ hm))
    have hw : c.faults.AskedFrom (c.write w).faults ∧ (c.write w).pressure = c.pressure ∧ (c.write w).temp2 = c.temp2 ∧
        (c.write w).temp1 = c.temp1 := by
      cases w with
      | fault i op =>
        have := h i op List.mem_cons_self
        cases i with
        | press => exact ⟨.refl _, rfl, rfl, rfl⟩
        | over => rcases this with h | rfl <;> [cases h; exact ⟨⟨.polled _, .rfl' _, .rfl' _⟩, rfl, rfl, rfl⟩]
        | temp2 => rcases this with h | rfl <;> [cases h; exact ⟨⟨.rfl' _, .polled _, .rfl' _⟩, rfl, rfl, rfl⟩]
        | temp1 => rcases this with h | rfl <;> [cases h; exact ⟨⟨.rfl' _, .rfl' _, .polled _⟩, rfl, rfl, rfl⟩]
      | _ => exact ⟨.refl _, rfl, rfl, rfl⟩
    exact ⟨hw.1.trans h1, h2.trans hw.2.1, h3.trans hw.2.2.1, h4.trans hw.2.2.2⟩

end Ctl

namespace Spec.TankTrouble

/-- The fault that counts the cycles with this trouble. -/
def fault (t : TankTrouble) (f : PropFaults) : Fault :=
  match t with
  | .over => f.over
  | .hot2 => f.temp2
  | .hot1 => f.temp1

/-- Whether the readings the controller has stored show it. -/
def stored (t : TankTrouble) (c : Ctl) : Bool :=
  match t with
  | .over => decide (c.pressure > 75)
  | .hot2 => decide (c.temp2 > 49)
  | .hot1 => decide (c.temp1 > 49)

theorem fault_asked (t : TankTrouble) {f g : PropFaults} (h : f.AskedFrom g) : (t.fault f).Asked (t.fault g) := by
  cases t
  · exact h.1
  · exact h.2.1
  · exact h.2.2

theorem fault_check (t : TankTrouble) (c : Ctl) (cc : U32) :
    t.fault (c.checkFaults cc).faults = (t.fault c.faults).evaluate cc (t.stored c) := by
  cases t <;> rfl

theorem stored_execute (t : TankTrouble) (c : Ctl) (e : PropEnv) : t.stored (c.execute e) = true ↔ t.shows e := by
  obtain ⟨f, k, -, -, he⟩ := execute_eq c e
  rw [he]
  cases t <;> exact decide_eq_true_iff

theorem faulted_tank (t : TankTrouble) (f : PropFaults) (h : (t.fault f).isFaulted = true) :
    SomeFault f ∧ (Tank1Faulted f ∨ Tank2Faulted f) ∧ (t.tank = .one → Tank1Faulted f) ∧ (t.tank = .two → Tank2Faulted f) := by
  cases t
  · exact ⟨Or.inr (Or.inl h), Or.inr (Or.inr h), nofun, fun _ => Or.inr h⟩
  · exact ⟨Or.inr (Or.inr (Or.inl h)), Or.inr (Or.inl h), nofun, fun _ => Or.inl h⟩
  · exact ⟨Or.inr (Or.inr (Or.inr h)), Or.inl h, fun _ => h, nofun⟩

/-- One cycle: what the fault counts when the controller evaluates it, and afterwards. -/
theorem cycle_counts (t : TankTrouble) (c : Ctl) (y : PropCycle) {n m : Nat} (hn : n < 2 ^ 32) (hm : m < 2 ^ 32 - 1)
    (hcc : y.env.cc = BitVec.ofNat 32 n) (hy : LeavesTankFaults y) (hi : (t.fault c.faults).Counts 10 n m) :
    ((t.fault ((c.beforeExecute y).checkFaults y.env.cc).faults).Counts 10 (n + 1) (m + 1) ∧
      (t.fault ((c.beforeExecute y).checkFaults y.env.cc).faults).num.toNat = if t.stored c then (t.fault c.faults).num.toNat + 1 else 0) ∧
    (t.fault (c.cycle y).faults).Counts 10 (n + 1) (m + 1) ∧
      (t.fault (c.cycle y).faults).num.toNat = (if t.stored c then (t.fault c.faults).num.toNat + 1 else 0) := by
  obtain ⟨w1, w2, w3, w4⟩ := writes_asked y.writes (c.interrupts y.ticks1) hy
  have hst : t.stored (c.beforeExecute y) = t.stored c := by
    have a : (c.beforeExecute y).pressure = c.pressure := w2
    have b : (c.beforeExecute y).temp2 = c.temp2 := w3
    have d : (c.beforeExecute y).temp1 = c.temp1 := w4
    cases t
    · exact congrArg (fun p : Rat => decide (p > 75)) a
    · exact congrArg (fun p : Rat => decide (p > 49)) b
    · exact congrArg (fun p : Rat => decide (p > 49)) d
  have hb : (t.fault c.faults).Asked (t.fault (c.beforeExecute y).faults) := t.fault_asked w1
  obtain ⟨i1, e1⟩ := hb.counts hi
  obtain ⟨i2, e2⟩ := i1.step (t.stored (c.beforeExecute y)) hn hm
  rw [hst, e1] at e2
  rw [hst] at i2
  have hk := t.fault_check (c.beforeExecute y) y.env.cc
  rw [hcc, hst] at hk
  have ha := t.fault_asked (execute_asked (c.beforeExecute y) y.env)
  rw [hcc] at ha ⊢
  rw [hk] at ha ⊢
  obtain ⟨i3, e3⟩ := ha.counts i2
  exact ⟨⟨i2, e2⟩, i3, by rw [show (c.cycle y).faults = ((c.beforeExecute y).execute y.env).faults from rfl, e3]; exact e2⟩

theorem run_counts (t : TankTrouble) (ys : List PropCycle) : ∀ (c : Ctl) (n m : Nat), n + ys.length ≤ 2 ^ 32 → m + ys.length < 2 ^ 32 →
    Numbered n ys → (∀ y ∈ ys, LeavesTankFaults y) → (t.fault c.faults).Counts 10 n m →
    (t.fault (c.run ys).faults).Counts 10 (n + ys.length) (m + ys.length) := by
  induction ys with
  | nil => intro c n m _ _ _ _ h; exact h
  | cons y ys ih =>
    intro c n m hn hm hN hy hi
    rw [List.length_cons] at hn hm ⊢
    obtain ⟨-, i, -⟩ := t.cycle_counts c y (by omega) (by omega) hN.1 (hy y (by simp)) hi
    have := ih (c.cycle y) (n + 1) (m + 1) (by omega) (by omega) hN.2 (fun z hz => hy z (by simp [hz])) i
    rw [show n + (ys.length + 1) = n + 1 + ys.length by omega, show m + (ys.length + 1) = m + 1 + ys.length by omega]
    exact this

theorem run_bad (t : TankTrouble) (ys : List PropCycle) : ∀ (c : Ctl) (n m : Nat), n + ys.length ≤ 2 ^ 32 → m + ys.length < 2 ^ 32 →
    Numbered n ys → (∀ y ∈ ys, LeavesTankFaults y) → (∀ y ∈ ys, t.shows y.env) → t.stored c = true → (t.fault c.faults).Counts 10 n m →
    ys.length ≤ (t.fault (c.run ys).faults).num.toNat ∧ t.stored (c.run ys) = true := by
  intro c n m hn hm hN hy hs hst hi
  have key : ∀ (ys : List PropCycle) (c : Ctl) (n m k : Nat), n + ys.length ≤ 2 ^ 32 → m + ys.length < 2 ^ 32 →
    Numbered n ys → (∀ y ∈ ys, LeavesTankFaults y) → (∀ y ∈ ys, t.shows y.env) → t.stored c = true → (t.fault c.faults).Counts 10 n m →
    k ≤ (t.fault c.faults).num.toNat →
    k + ys.length ≤ (t.fault (c.run ys).faults).num.toNat ∧ t.stored (c.run ys) = true := by
    intro ys
    induction ys with
    | nil => intro c n m k _ _ _ _ _ hst _ hk; exact ⟨hk, hst⟩
    | cons y ys ih =>
      intro c n m k hn hm hN hy hs hst hi hk
      rw [List.length_cons] at hn hm ⊢
      obtain ⟨-, i, e⟩ := t.cycle_counts c y (by omega) (by omega) hN.1 (hy y (by simp)) hi
      rw [if_pos hst] at e
      have := ih (c.cycle y) (n + 1) (m + 1) (k + 1) (by omega) (by omega) hN.2 (fun z hz => hy z (by simp [hz]))
        (fun z hz => hs z (by simp [hz])) ((t.stored_execute _ _).2 (hs y (by simp))) i (by omega)
      rw [show k + (ys.length + 1) = k + 1 + ys.length by omega]
      exact this
  have := key ys c n m 0 hn hm hN hy hs hst hi (Nat.zero_le _)
  rw [Nat.zero_add] at this
  exact this

end Spec.TankTrouble

theorem numbered_append (ys zs : List PropCycle) : ∀ n, Numbered n (ys ++ zs) → Numbered n ys ∧ Numbered (n + ys.length) zs := by
  induction ys with
  | nil => intro n h; exact ⟨trivial, h⟩
  | cons y ys ih =>
    intro n h
    obtain ⟨h1, h2⟩ := ih (n + 1) h.2
    rw [List.length_cons, show n + (ys.length + 1) = n + 1 + ys.length by omega]
    exact ⟨⟨h.1, h1⟩, h2⟩

/-! ### C130 -/

/-- After eleven readings in a row that show the trouble, at the end of any history since the computer started: the fault is
raised when the controller checks its faults in the next cycle. -/
theorem trouble_raised (t : TankTrouble) (p t2 t1 : Rat) (n0 : Nat) (ys zs : List PropCycle) (y : PropCycle) (hn0 : 1 ≤ n0)
    (hN : Numbered n0 (ys ++ zs ++ [y])) (hn : n0 + (ys ++ zs ++ [y]).length < 2 ^ 32)
    (hl : ∀ z ∈ ys ++ zs ++ [y], LeavesTankFaults z) (hz : 11 ≤ zs.length) (hs : ∀ z ∈ zs, t.shows z.env) :
    (t.fault ((((Ctl.init p t2 t1).run (ys ++ zs)).beforeExecute y).checkFaults y.env.cc).faults).isFaulted = true := by
  obtain ⟨z, zs, rfl⟩ : ∃ z zs', zs = z :: zs' := by
    cases zs with
    | nil => simp at hz
    | cons z zs => exact ⟨z, zs, rfl⟩
  simp only [List.length_append, List.length_cons, List.length_nil] at hn hz
  obtain ⟨hA, hy⟩ := numbered_append _ _ _ hN
  obtain ⟨h1, h2⟩ := numbered_append _ _ _ hA
  have i0 : (t.fault (Ctl.init p t2 t1).faults).Counts 10 n0 0 := by
    cases t <;> exact ⟨⟨rfl, rfl, rfl⟩, rfl, by show 0 < n0; omega, Nat.le_refl _⟩
  have i1 := t.run_counts ys _ n0 0 (by omega) (by omega) h1 (fun x hx => hl x (by simp [hx])) i0
  obtain ⟨-, i2, -⟩ := t.cycle_counts _ z (by omega) (by omega) h2.1 (hl z (by simp)) i1
  have st := (t.stored_execute (((Ctl.init p t2 t1).run ys).beforeExecute z) z.env).2 (hs z (by simp))
  have hl' : ∀ x ∈ zs, LeavesTankFaults x := fun x hx => hl x (by simp [hx])
  obtain ⟨b1, b2⟩ := t.run_bad zs _ (n0 + ys.length + 1) (0 + ys.length + 1) (by omega) (by omega) h2.2 hl'
    (fun x hx => hs x (by simp [hx])) st i2
  have i3 := t.run_counts zs _ (n0 + ys.length + 1) (0 + ys.length + 1) (by omega) (by omega) h2.2 hl' i2
  have er : (Ctl.init p t2 t1).run (ys ++ z :: zs) = (((Ctl.init p t2 t1).run ys).cycle z).run zs := by
    unfold Ctl.run
    rw [List.foldl_append, List.foldl_cons]
  rw [er]
  have hcc := hy.1
  rw [List.length_append, List.length_cons] at hcc
  obtain ⟨⟨i4, e4⟩, -⟩ := t.cycle_counts _ y (n := n0 + ys.length + 1 + zs.length) (by omega) (by omega)
    (by rw [hcc]; congr 1; omega) (hl y (by simp)) i3
  rw [if_pos (show t.stored ((((Ctl.init p t2 t1).run ys).cycle z).run zs) = true from b2)] at e4
  rw [i4.faulted]
  have b1' : zs.length ≤ (t.fault ((((Ctl.init p t2 t1).run ys).cycle z).run zs).faults).num.toNat := b1
  show 10 < _
  omega

/-- C130. Eleven readings in a row, after any history since the computer started, and the next cycle goes over to fault handling if
propulsion is at work and has power. -/
theorem C130_handled (t : TankTrouble) (p t2 t1 : Rat) (n0 : Nat) (ys zs : List PropCycle) (y : PropCycle) (hn0 : 1 ≤ n0)
    (hN : Numbered n0 (ys ++ zs ++ [y])) (hn : n0 + (ys ++ zs ++ [y]).length < 2 ^ 32)
    (hl : ∀ z ∈ ys ++ zs ++ [y], LeavesTankFaults z) (hz : 11 ≤ zs.length) (hs : ∀ z ∈ zs, t.shows z.env)
    (hw : AtWork (((Ctl.init p t2 t1).run (ys ++ zs)).beforeExecute y)) (hf : y.env.functional = true) :
    ((Ctl.init p t2 t1).run (ys ++ zs ++ [y])).state = Prp.handlingFault := by
  have h := trouble_raised t p t2 t1 n0 ys zs y hn0 hN hn hl hz hs
  have e : (Ctl.init p t2 t1).run (ys ++ zs ++ [y]) = (((Ctl.init p t2 t1).run (ys ++ zs)).beforeExecute y).execute y.env := by
    unfold Ctl.run
    rw [List.foldl_append]
    rfl
  rw [e]
  exact C30_fault_detected _ _ hf (t.faulted_tank _ h).1 hw

theorem Ctl.run_snoc (c : Ctl) (ys : List PropCycle) (y : PropCycle) : c.run (ys ++ [y]) = (c.run ys).cycle y := by
  unfold Ctl.run
  rw [List.foldl_append]
  rfl

theorem Ctl.beforeExecute_state (c : Ctl) (y : PropCycle) (h : NoStateWrite y) : (c.beforeExecute y).state = c.state := by
  obtain ⟨-, -, -, -, h5⟩ := beforeExecute_frame c y
  exact h5.elim id fun ⟨x, hx, _⟩ => absurd hx (h x)

/-- C130. One cycle later it is vented, if the trouble goes on, propulsion still has power and nobody has moved it out of fault
handling: the tank that needs it, unless the other tank has a fault as well. -/
theorem C130_vented (t : TankTrouble) (p t2 t1 : Rat) (n0 : Nat) (ys zs : List PropCycle) (y y2 : PropCycle) (hn0 : 1 ≤ n0)
    (hN : Numbered n0 (ys ++ zs ++ [y] ++ [y2])) (hn : n0 + (ys ++ zs ++ [y] ++ [y2]).length < 2 ^ 32)
    (hl : ∀ z ∈ ys ++ zs ++ [y] ++ [y2], LeavesTankFaults z) (hz : 11 ≤ zs.length) (hs : ∀ z ∈ zs ++ [y], t.shows z.env)
    (hw : AtWork (((Ctl.init p t2 t1).run (ys ++ zs)).beforeExecute y)) (hf : y.env.functional = true)
    (hy2 : NoStateWrite y2) (hf2 : y2.env.functional = true) :
    ((Ctl.init p t2 t1).run (ys ++ zs ++ [y] ++ [y2])).state = Prp.venting ∧
    ((t.tank = .one → ¬ Tank2Faulted ((Ctl.init p t2 t1).run (ys ++ zs ++ [y] ++ [y2])).faults) →
     (t.tank = .two → ¬ Tank1Faulted ((Ctl.init p t2 t1).run (ys ++ zs ++ [y] ++ [y2])).faults) →
      ((Ctl.init p t2 t1).run (ys ++ zs ++ [y] ++ [y2])).choice = t.tank) := by
  have h1 := C130_handled t p t2 t1 n0 ys zs y hn0 (numbered_append _ _ _ hN).1
    (by simp only [List.length_append, List.length_cons, List.length_nil] at hn ⊢; omega)
    (fun z hz => hl z (List.mem_append_left _ hz)) hz (fun z hz => hs z (List.mem_append_left _ hz)) hw hf
  have ea : ys ++ zs ++ [y] = ys ++ (zs ++ [y]) := List.append_assoc _ _ _
  rw [ea] at hN hn hl h1 ⊢
  have h2 := trouble_raised t p t2 t1 n0 ys (zs ++ [y]) y2 hn0 hN hn hl (by rw [List.length_append]; omega) hs
  rw [run_snoc]
  obtain ⟨c, hc⟩ : ∃ c, c = (Ctl.init p t2 t1).run (ys ++ (zs ++ [y])) := ⟨_, rfl⟩
  rw [← hc] at h1 h2 ⊢
  have hst : (c.beforeExecute y2).state = Prp.handlingFault := (beforeExecute_state c y2 hy2).trans h1
  have hv := (C30_handling_fault _ y2.env hst).1 hf2 (t.faulted_tank _ h2).2.1
  refine ⟨hv, fun n1 n2 => ?_⟩
  obtain ⟨-, g1, g2, -⟩ := C30_vents_right_tank _ y2.env (by rw [hst]; decide) hv
  have h3 : (t.fault ((c.beforeExecute y2).execute y2.env).faults).isFaulted = true := by
    obtain ⟨k, hk⟩ := t.fault_asked (execute_asked (c.beforeExecute y2) y2.env)
    rw [hk]
    clear hk
    induction k with
    | zero => exact h2
    | succ k ih => rw [Function.iterate_succ_apply', Fault.isFaulted_poll]; exact ih
  obtain ⟨-, -, k1, k2⟩ := t.faulted_tank _ h3
  cases ht : t.tank with
  | one => exact g1 (k1 ht) (n1 ht)
  | two => exact g2 (k2 ht) (n2 ht)

/-- Going from fault handling to venting moves no valve and starts the venting cycles afresh. -/
theorem Ctl.enter_venting (c : Ctl) (e : PropEnv) (hs : c.state = Prp.handlingFault) (hv : (c.execute e).state = Prp.venting) :
    (c.execute e).drv = c.drv ∧ (c.execute e).vent.count = 0 ∧ (c.execute e).vent.timer = 0 := by
  obtain ⟨f, k, -, -, he⟩ := execute_eq c e
  rw [he] at hv ⊢
  have hev : ({ c with faults := f, countdown := k } : Ctl).evaluate e = ({ c with faults := f, countdown := k } : Ctl).evalHandlingFault e := by
    unfold evaluate
    dsimp only
    rw [hs]
    rfl
  rw [hev] at hv ⊢
  obtain ⟨g, n, hg, -⟩ := evalHandlingFault_frame { c with faults := f, countdown := k } e
  rw [hg] at hv ⊢
  dsimp only at hv ⊢
  have hv' : (Ctl.transition { c with faults := g, countdown := k } e n).state = Prp.venting := hv
  show (Ctl.transition { c with faults := g, countdown := k } e n).drv = c.drv ∧
    (Ctl.transition { c with faults := g, countdown := k } e n).vent.count = 0 ∧
    (Ctl.transition { c with faults := g, countdown := k } e n).vent.timer = 0
  have hn : n = Prp.venting := by
    rcases transition_state { c with faults := g, countdown := k } e n with h | h
    · rw [← h]; exact hv'
    · exact absurd (h.symm.trans hv') (by decide)
  subst hn
  rcases transition_cases { c with faults := g, countdown := k } e Prp.venting with ⟨h1, -⟩ | ⟨-, f', -, h2⟩ | ⟨-, f', -, h2⟩
  · exact absurd (h1.trans hs) (by decide)
  · rw [h2] at hv'
    exact absurd hv' (by show Prp.disabled ≠ Prp.venting; decide)
  · rw [h2]
    unfold enter
    rw [if_neg (by decide), if_neg (by decide), if_neg (by decide), if_neg (by decide), if_neg (by decide), if_pos rfl]
    dsimp only
    refine ⟨rfl, ?_, ?_⟩ <;> split <;> rfl

/-- The first cycle of venting opens the valve that is up. -/
theorem Ctl.venting_opens (c : Ctl) (e : PropEnv) (hs : c.state = Prp.venting) (hc : ∀ j, c.drv.isValveOpen c.choice j = false)
    (h0 : c.vent.count = 0) (ht : c.vent.timer = 0) (hb : Base c.drv) (hm : c.maxVent ≠ 0)
    (hf : c.choice = .one → Tank1Faulted (c.checkFaults e.cc).faults) (hf2 : c.choice = .two → Tank2Faulted (c.checkFaults e.cc).faults)
    (h1 : c.choice = .one → c.tank1Valve.toNat < 2) :
    (c.execute e).state = Prp.venting ∧ (c.execute e).choice = c.choice ∧
      ValveOpen (c.execute e) c.choice (if c.choice = .one then c.tank1Valve.toNat else c.saved.toNat % 4) := by
  obtain ⟨f, k, hff, -, he⟩ := execute_eq c e
  rw [← hff] at hf hf2
  have hev : ({ c with faults := f, countdown := k } : Ctl).evaluate e = ({ c with faults := f, countdown := k } : Ctl).evalVenting := by
    unfold evaluate
    dsimp only
    rw [hs]
    rfl
  have hsucc : ({ c with faults := f, countdown := k } : Ctl).ventSucceeded.1 = false := by
    unfold ventSucceeded
    dsimp only
    split
    · rename_i h
      rw [(PropFH.wants1_eq f).2 (hf h)]; rfl
    · rename_i h
      rw [(PropFH.wants2_eq f).2 (hf2 (by cases hch : c.choice <;> [exact absurd hch h; rfl]))]; rfl
  obtain ⟨r, a, d, hr, hcase⟩ := evalVenting_cases { c with faults := f, countdown := k }
  rw [hsucc] at hr
  dsimp only at hr
  obtain ⟨sel, hsel⟩ : ∃ sel, sel = (if c.choice = .one then c.tank1Valve.toNat else c.saved.toNat % 4) := ⟨_, rfl⟩
  have hnum : sel < c.drv.num c.choice := by
    rw [hsel]
    cases hch : c.choice with
    | one => rw [if_pos rfl, hb.1]; exact h1 hch
    | two => rw [if_neg (by decide), hb.2.1]; omega
  have hmax : ¬ (0 ≥ c.maxVent.toNat) := by
    intro h
    exact hm (BitVec.eq_of_toNat_eq (by show c.maxVent.toNat = 0; omega))
  have hr' : c.vent.evaluate c.drv c.choice false false c.maxVent.toNat c.fill.toNat c.closePeriod.toNat sel =
      (.started, { count := 0 + 1, cur := sel, timer := c.fill.toNat }, c.drv.setValve c.choice sel true) := by
    unfold ActionCycle.evaluate
    dsimp only
    rw [hc, ht, h0]
    rw [if_neg (by decide), if_neg (by decide), if_neg (by decide), if_pos rfl, if_neg hmax]
  rw [← hsel, hr'] at hr
  injection hr with hr1 hr2
  injection hr2 with hr2 hr3
  subst hr1 hr2 hr3
  rcases hcase with ⟨h, _⟩ | ⟨h, _⟩ | ⟨_, hcase⟩ | ⟨h, _⟩
  · cases h
  · cases h
  · rw [he, hev, hcase]
    dsimp only
    unfold transition
    rw [if_pos (show Prp.venting = c.state from hs.symm), ← hsel]
    refine ⟨hs, rfl, ?_⟩
    show (c.drv.setValve c.choice sel true).isValveOpen c.choice sel = true
    rw [Driver.setValve_open, if_pos ⟨rfl, rfl, hnum⟩]
  · cases h

theorem disciplinedRun_append (ys zs : List PropCycle) : ∀ (c : Ctl), DisciplinedRun c (ys ++ zs) →
    DisciplinedRun c ys ∧ DisciplinedRun (c.run ys) zs := by
  induction ys with
  | nil => intro c h; exact ⟨trivial, h⟩
  | cons y ys ih =>
    intro c h
    obtain ⟨h1, h2⟩ := ih (c.cycle y) h.2
    exact ⟨⟨h.1, h1⟩, h2⟩

/-- C130. And another cycle later a valve of that tank is open: thirteen cycles after the first of the bad readings were taken in.
(Venting has to be allowed at least one opening, and for tank 1 one of its two valves has to be selected.) -/
theorem C130_opened (t : TankTrouble) (p t2 t1 : Rat) (n0 : Nat) (ys zs : List PropCycle) (y y2 y3 : PropCycle) (hn0 : 1 ≤ n0)
    (hN : Numbered n0 (ys ++ zs ++ [y] ++ [y2] ++ [y3])) (hn : n0 + (ys ++ zs ++ [y] ++ [y2] ++ [y3]).length < 2 ^ 32)
    (hl : ∀ z ∈ ys ++ zs ++ [y] ++ [y2] ++ [y3], LeavesTankFaults z) (hz : 11 ≤ zs.length)
    (hs : ∀ z ∈ zs ++ [y] ++ [y2], t.shows z.env) (hd : DisciplinedRun (Ctl.init p t2 t1) (ys ++ zs ++ [y]))
    (hw : AtWork (((Ctl.init p t2 t1).run (ys ++ zs)).beforeExecute y)) (hf : y.env.functional = true)
    (hy2 : NoStateWrite y2) (hf2 : y2.env.functional = true) (hy3 : NoStateWrite y3)
    (h1 : t.tank = .one → ¬ Tank2Faulted ((Ctl.init p t2 t1).run (ys ++ zs ++ [y] ++ [y2])).faults)
    (h2 : t.tank = .two → ¬ Tank1Faulted ((Ctl.init p t2 t1).run (ys ++ zs ++ [y] ++ [y2])).faults)
    (hm : (((Ctl.init p t2 t1).run (ys ++ zs ++ [y] ++ [y2])).beforeExecute y3).maxVent ≠ 0)
    (hv : t.tank = .one → (((Ctl.init p t2 t1).run (ys ++ zs ++ [y] ++ [y2])).beforeExecute y3).tank1Valve.toNat < 2) :
    ((Ctl.init p t2 t1).run (ys ++ zs ++ [y] ++ [y2] ++ [y3])).state = Prp.venting ∧
    ∃ j, ValveOpen ((Ctl.init p t2 t1).run (ys ++ zs ++ [y] ++ [y2] ++ [y3])) t.tank j := by
  obtain ⟨v1, v2⟩ := C130_vented t p t2 t1 n0 ys zs y y2 hn0 (numbered_append _ _ _ hN).1
    (by simp only [List.length_append, List.length_cons, List.length_nil] at hn ⊢; omega)
    (fun z hz => hl z (List.mem_append_left _ hz)) hz (fun z hz => hs z (List.mem_append_left _ hz)) hw hf hy2 hf2
  have v3 := v2 h1 h2
  have hh := C130_handled t p t2 t1 n0 ys zs y hn0 (numbered_append _ _ _ (numbered_append _ _ _ hN).1).1
    (by simp only [List.length_append, List.length_cons, List.length_nil] at hn ⊢; omega)
    (fun z hz => hl z (List.mem_append_left _ (List.mem_append_left _ hz))) hz
    (fun z hz => hs z (List.mem_append_left _ (List.mem_append_left _ hz))) hw hf
  have hI := run_inv _ _ (init_inv p t2 t1) hd
  have ea : ys ++ zs ++ [y] ++ [y2] = ys ++ (zs ++ [y] ++ [y2]) := by simp only [List.append_assoc]
  have hr := trouble_raised t p t2 t1 n0 ys (zs ++ [y] ++ [y2]) y3 hn0 (ea ▸ hN) (ea ▸ hn) (ea ▸ hl)
    (by simp only [List.length_append]; omega) hs
  rw [← ea] at hr
  rw [run_snoc _ (ys ++ zs ++ [y] ++ [y2]) y3]
  obtain ⟨b, hb⟩ : ∃ b, b = (Ctl.init p t2 t1).run (ys ++ zs ++ [y]) := ⟨_, rfl⟩
  obtain ⟨c, hc⟩ : ∃ c, c = (Ctl.init p t2 t1).run (ys ++ zs ++ [y] ++ [y2]) := ⟨_, rfl⟩
  have hcb : c = (b.beforeExecute y2).execute y2.env := by rw [hc, run_snoc, ← hb]; rfl
  rw [← hc] at v1 v3 hr hm hv ⊢
  rw [← hb] at hh hI
  have hst2 : (b.beforeExecute y2).state = Prp.handlingFault := (beforeExecute_state b y2 hy2).trans hh
  obtain ⟨e1, e2, e3⟩ := enter_venting (b.beforeExecute y2) y2.env hst2 (by rw [← hcb]; exact v1)
  rw [← hcb] at e1 e2 e3
  have off : b.drv.enabled = false := off_of_inv hI (by rw [hh]; decide)
  have hdb : (b.beforeExecute y2).drv = b.drv := by
    rw [(beforeExecute_frame b y2).1, Driver.ticks_off off]
  obtain ⟨f1, -, f3, f4, -⟩ := beforeExecute_frame c y3
  have hdc : (c.beforeExecute y3).drv = b.drv := by
    rw [f1, e1, hdb, Driver.ticks_off off]
  have closed : ∀ tk j, b.drv.isValveOpen tk j = false := by
    intro tk j
    cases ho : b.drv.isValveOpen tk j with
    | false => rfl
    | true => rcases hI.2.2.2 tk j ho with ⟨g, _⟩ | ⟨g, _⟩ | g | ⟨g, _⟩ <;> rw [hh] at g <;> exact absurd g (by decide)
  have hch : (c.beforeExecute y3).choice = t.tank := f4.trans v3
  obtain ⟨-, -, k1, k2⟩ := t.faulted_tank _ hr
  have := venting_opens (c.beforeExecute y3) y3.env ((beforeExecute_state c y3 hy3).trans v1)
    (fun j => by rw [hdc]; exact closed _ j) (by rw [f3]; exact e2) (by rw [f3]; exact e3) (by rw [hdc]; exact hI.1) hm
    (fun h => k1 (hch.symm.trans h)) (fun h => k2 (hch.symm.trans h)) (fun h => hv (hch.symm.trans h))
  rw [hch] at this
  exact ⟨this.1, _, this.2.2⟩

/-- C130. While propulsion is disabled, as it is at startup and in safehold, nothing is vented, whatever the pressure and the temperatures
and however long they stay: the valves stay closed until somebody writes the propulsion state. -/
theorem C130_counterexample_disabled (ys : List PropCycle) : ∀ (c : Ctl), c.state = Prp.disabled → ys ≠ [] → (∀ y ∈ ys, NoStateWrite y) →
    (c.run ys).state = Prp.disabled ∧ Shut (c.run ys) := by
  induction ys with
  | nil => intro c _ h; exact absurd rfl h
  | cons y ys ih =>
    intro c hc _ hy
    have hb : (c.beforeExecute y).state = Prp.disabled := (beforeExecute_state c y (hy y (by simp))).trans hc
    obtain ⟨h1, h2, -⟩ := C39_disabled (c.beforeExecute y) y.env (Or.inl hb)
    cases ys with
    | nil => exact ⟨h1, h2⟩
    | cons z zs => exact ih (c.cycle y) h1 (by simp) (fun w hw => hy w (by simp [hw]))

/-! ### A case -/

namespace VentCase

/-- A cycle with the given number, pressure and writes. -/
def cyc (n : Nat) (w : List PropWrite) (p : Rat) : PropCycle := ⟨0, w, 0, ⟨BitVec.ofNat 32 n, true, p, 20, 20⟩⟩

/-- Propulsion is switched on in the first cycle. -/
def ys : List PropCycle := [cyc 1 [.state Prp.idle] 20, cyc 2 [] 20]

/-- Eleven cycles at 80 psi. -/
def zs : List PropCycle := (List.range 11).map fun i => cyc (3 + i) [] 80

example : ((Ctl.init 0 0 0).run (ys ++ zs ++ [cyc 14 [] 80] ++ [cyc 15 [] 80] ++ [cyc 16 [] 80])).state = Prp.venting ∧
    ∃ j, ValveOpen ((Ctl.init 0 0 0).run (ys ++ zs ++ [cyc 14 [] 80] ++ [cyc 15 [] 80] ++ [cyc 16 [] 80])) .two j :=
  C130_opened .over 0 0 0 1 ys zs (cyc 14 [] 80) (cyc 15 [] 80) (cyc 16 [] 80) (by decide)
    (by simp only [ys, zs, List.range, List.range.loop, List.map, List.cons_append, List.nil_append, Numbered]; decide)
    (by decide +kernel)
    (by
      intro z hz i op hm
      simp only [ys, zs, List.range, List.range.loop, List.map, List.cons_append, List.nil_append, List.mem_cons, List.not_mem_nil, or_false] at hz
      rcases hz with rfl | rfl | rfl | rfl | rfl | rfl | rfl | rfl | rfl | rfl | rfl | rfl | rfl | rfl | rfl | rfl <;> simp [cyc] at hm)
    (by decide)
    (by
      intro z hz
      simp only [zs, List.range, List.range.loop, List.map, List.cons_append, List.nil_append, List.mem_cons, List.not_mem_nil, or_false] at hz
      have h : (80 : Rat) > 75 := by decide +kernel
      rcases hz with rfl | rfl | rfl | rfl | rfl | rfl | rfl | rfl | rfl | rfl | rfl | rfl | rfl <;> exact h)
    (by
      refine ⟨fun x _ => Or.inr ⟨?_, ?_⟩, ?_⟩
      · show Quiet Prp.disabled; decide
      · show ∀ v ∈ Driver.init.tank2, v.sched = 0; decide
      · simp only [zs, List.range, List.range.loop, List.map]
        refine ⟨?_, ?_, ?_, ?_, ?_, ?_, ?_, ?_, ?_, ?_, ?_, ?_, ?_, trivial⟩ <;> (intro x hx; simp [cyc] at hx))
    (Or.inl (by decide +kernel)) rfl (by intro x hx; simp [cyc] at hx) rfl (by intro x hx; simp [cyc] at hx) nofun
    (fun _ => by decide +kernel) (by decide +kernel) nofun

example : ((Ctl.init 0 0 0).run (zs ++ zs)).state = Prp.disabled ∧ Shut ((Ctl.init 0 0 0).run (zs ++ zs)) :=
  C130_counterexample_disabled _ _ rfl (by decide) (by
    intro y hy x hx
    simp only [zs, List.mem_append, List.mem_map, or_self] at hy
    obtain ⟨i, -, rfl⟩ := hy
    simp [cyc] at hx)

end VentCase

end PAN
