import Verif.Lemmas.FaultHandlers
import Verif.Props.Fault
import Verif.Props.QuakeFH
import Mathlib.Tactic.SplitIfs
/-!
Properties C25, C26 and C29: main fault handler, simple fault handlers, GPS fault handler (and C58: interaction with the radio
fault handler).
-/
namespace PAN

namespace Spec

/-- The answers of handlers called one after the other, each on the state its predecessors left, and the states they leave. -/
def answers {σ : Type} : List (σ → Resp × σ) → σ → List (Resp × σ)
  | [], _ => []
  | m :: ms, s => m s :: answers ms (m s).2

/-- The state after the last of a list of calls. -/
def lastState {σ : Type} (s : σ) (as : List (Resp × σ)) : σ := (as.getLast?.map (·.2)).getD s

/-- The calls up to and including the first that asks for safehold. -/
def throughSafehold {σ : Type} : List (Resp × σ) → List (Resp × σ)
  | [] => []
  | a :: as => a :: if a.1 = .safehold then [] else throughSafehold as

end Spec
open Spec

namespace MainFH

theorem loop_spec {σ : Type} (ms : List (σ → Resp × σ)) : ∀ (ret : Resp) (s : σ), ret ≠ .safehold →
    (loop ms ret s).1 = (if .safehold ∈ (answers ms s).map (·.1) then .safehold
      else if .standby ∈ (answers ms s).map (·.1) then .standby else ret) ∧
    (loop ms ret s).2 = lastState s (throughSafehold (answers ms s)) := by
  induction ms with
  | nil => intro ret s _; exact ⟨rfl, rfl⟩
  | cons m ms ih =>
    intro ret s hret
    have hlast : ∀ (a : Resp × σ) (as : List (Resp × σ)), lastState s (a :: as) = lastState a.2 as := by
      intro a as
      unfold lastState
      cases as with
      | nil => rfl
      | cons b bs =>
        rw [List.getLast?_cons_cons]
        cases h : (b :: bs).getLast? with
        | none => rw [List.getLast?_eq_none_iff] at h; exact absurd h (List.cons_ne_nil _ _)
        | some x => rfl
    rcases hm : m s with ⟨r, s'⟩
    have ha : answers (m :: ms) s = (r, s') :: answers ms s' := by show m s :: _ = _; rw [hm]
    rw [ha]
    unfold loop
    rw [hm]
    have hmem : ∀ x : Resp, x ∈ (((r, s') :: answers ms s').map (·.1)) ↔ x = r ∨ x ∈ (answers ms s').map (·.1) := fun x => List.mem_cons
    by_cases hr : r = .safehold
    · subst hr
      rw [if_pos ((hmem _).2 (Or.inl rfl))]
      refine ⟨rfl, ?_⟩
      show s' = lastState s ((Resp.safehold, s') :: if Resp.safehold = .safehold then [] else _)
      rw [hlast, if_pos rfl]; rfl
    · have hth : lastState s (throughSafehold ((r, s') :: answers ms s')) = lastState s' (throughSafehold (answers ms s')) := by
        show lastState s ((r, s') :: if r = .safehold then [] else throughSafehold (answers ms s')) = _
        rw [hlast, if_neg hr]
      have hsf : Resp.safehold ∈ (((r, s') :: answers ms s').map (·.1)) ↔ Resp.safehold ∈ (answers ms s').map (·.1) :=
        (hmem _).trans ⟨fun h => h.elim (fun e => absurd e.symm hr) id, Or.inr⟩
      rw [hth]
      cases r with
      | safehold => exact absurd rfl hr
      | none =>
        obtain ⟨h1, h2⟩ := ih ret s' hret
        refine ⟨h1.trans ?_, h2⟩
        have hst : Resp.standby ∈ (((Resp.none, s') :: answers ms s').map (·.1)) ↔ Resp.standby ∈ (answers ms s').map (·.1) :=
          (hmem _).trans ⟨fun h => h.elim (fun e => nomatch e) id, Or.inr⟩
        by_cases a : Resp.safehold ∈ (answers ms s').map (·.1)
        · rw [if_pos a, if_pos (hsf.2 a)]
        · rw [if_neg a, if_neg (fun h => a (hsf.1 h))]
          by_cases b : Resp.standby ∈ (answers ms s').map (·.1)
          · rw [if_pos b, if_pos (hst.2 b)]
          · rw [if_neg b, if_neg (fun h => b (hst.1 h))]
      | standby =>
        obtain ⟨h1, h2⟩ := ih .standby s' (by decide)
        refine ⟨h1.trans ?_, h2⟩
        by_cases a : Resp.safehold ∈ (answers ms s').map (·.1)
        · rw [if_pos a, if_pos (hsf.2 a)]
        · rw [if_neg a, if_neg (fun h => a (hsf.1 h)), if_pos ((hmem _).2 (Or.inl rfl)), ite_self]

end MainFH

/-- C25: for every list of handlers (arbitrary functions on a shared state) and every state: with fault handling enabled the response
is safehold exactly if some handler answers safehold, else standby exactly if some handler answers standby, else none; the
handlers that run are those up to and including the first that answers safehold. -/
theorem C25_most_severe {σ : Type} (ms : List (σ → Resp × σ)) (s : σ) :
    (MainFH.execute true ms s).1 = (if .safehold ∈ (answers ms s).map (·.1) then .safehold
      else if .standby ∈ (answers ms s).map (·.1) then .standby else .none) ∧
    (MainFH.execute true ms s).2 = lastState s (throughSafehold (answers ms s)) := MainFH.loop_spec ms .none s (by decide)

/-- C25: with fault handling disabled the response is none and no handler runs. -/
theorem C25_disabled {σ : Type} (ms : List (σ → Resp × σ)) (s : σ) : MainFH.execute false ms s = (.none, s) := rfl

example : MainFH.execute true [fun n => (.standby, n + 1), fun n => (.safehold, n + 10), fun n => (.standby, n + 100)] 0 = (.safehold, 11) ∧
    MainFH.execute true [fun n => (.none, n + 1), fun n => (.standby, n + 10), fun n => (.none, n + 100)] 0 = (.standby, 111) := by decide

namespace Spec

/-- Mission states in which a fault of severity 0 (low battery) to 3 (attitude estimator) is acted upon: the defined states
other than startup, docking, safehold and manual, except that initialization hold drops out from severity 1 on, detumble from
severity 2 on and docked at severity 3. -/
def Active (severity : Nat) (m : U8) : Prop :=
  m.toNat < 12 ∧ m ≠ Mission.startup ∧ m ≠ Mission.docking ∧ m ≠ Mission.safehold ∧ m ≠ Mission.manual ∧
  (1 ≤ severity → m ≠ Mission.initializationHold) ∧ (2 ≤ severity → m ≠ Mission.detumble) ∧ (3 ≤ severity → m ≠ Mission.docked)

end Spec

theorem active_iff (k : Nat) (hk : k < 4) (m : U8) : m ∈ SimpleFH.activeStates k ↔ Active k m := by
  have h : ∀ k : Fin 4, ∀ m : Fin 256, (BitVec.ofFin (w := 8) m) ∈ SimpleFH.activeStates k.val ↔ Active k.val (BitVec.ofFin (w := 8) m) := by
    unfold Active; decide +kernel
  exact h ⟨k, hk⟩ m.toFin

/-- C26: a simple handler gives its response exactly if the fault is tripped (as defined by C21, C22) and the mission state is active
for its severity; otherwise none. Outside the active states it does not touch the fault. -/
theorem C26_simple (severity : Nat) (hs : severity < 4) (resp : Resp) (hr : resp ≠ .none) (m : U8) (f : Fault) :
    ((SimpleFH.execute severity resp m f).1 = resp ↔ Active severity m ∧ f.isFaulted = true) ∧
    ((SimpleFH.execute severity resp m f).1 = .none ↔ ¬ (Active severity m ∧ f.isFaulted = true)) ∧
    (SimpleFH.execute severity resp m f).2.isFaulted = f.isFaulted ∧
    (¬ Active severity m → (SimpleFH.execute severity resp m f).2 = f) := by
  unfold SimpleFH.execute
  by_cases ha : m ∈ SimpleFH.activeStates severity
  · have ha' := (active_iff severity hs m).1 ha
    rw [if_pos ha]
    dsimp only
    refine ⟨?_, ?_, Fault.isFaulted_poll f, fun h => absurd ha' h⟩ <;> cases hf : f.isFaulted
    · simp [hr.symm]
    · simp [ha']
    · simp
    · simp [ha', hr]
  · have ha' := fun h => ha ((active_iff severity hs m).2 h)
    rw [if_neg ha]
    exact ⟨⟨fun h => absurd h.symm hr, fun h => absurd h.1 ha'⟩, ⟨fun _ h => ha' h.1, fun _ => rfl⟩, rfl, fun _ => rfl⟩

example : SimpleFH.execute 0 .safehold Mission.standby { Fault.init 0 with num := 1 } =
    (.safehold, { Fault.init 0 with num := 1, value := true }) ∧
    (SimpleFH.execute 0 .safehold Mission.docking { Fault.init 0 with num := 1 }).1 = .none := by decide

/-- The ten handlers of the flight software, one after the other. -/
theorem FHState.answers_eq (s : FHState) (cc : U32) : (answers (FHState.handlers cc) s).map (·.1) =
    [(SimpleFH.execute 0 .safehold s.mission s.lowBatt).1, (SimpleFH.execute 1 .safehold s.mission s.wheel1).1,
     (SimpleFH.execute 1 .safehold s.mission s.wheel2).1, (SimpleFH.execute 1 .safehold s.mission s.wheel3).1,
     (SimpleFH.execute 1 .safehold s.mission s.wheelPot).1, (SimpleFH.execute 2 .standby s.mission s.ctl.faults.press).1,
     (SimpleFH.execute 3 .safehold s.mission s.attEst).1, (s.quake.execute s.radio cc).1,
     (s.piksi.execute s.mission s.piksiState s.enterClose cc).1,
     (s.prop.execute { s.ctl with faults := { s.ctl.faults with press := (SimpleFH.execute 2 .standby s.mission s.ctl.faults.press).2 } }).1] := by
  have e1 : ∀ s, (lowBattH s).1 = (SimpleFH.execute 0 .safehold s.mission s.lowBatt).1 := fun _ => rfl
  have e2 : ∀ s, (wheel1H s).1 = (SimpleFH.execute 1 .safehold s.mission s.wheel1).1 := fun _ => rfl
  have e3 : ∀ s, (wheel2H s).1 = (SimpleFH.execute 1 .safehold s.mission s.wheel2).1 := fun _ => rfl
  have e4 : ∀ s, (wheel3H s).1 = (SimpleFH.execute 1 .safehold s.mission s.wheel3).1 := fun _ => rfl
  have e5 : ∀ s, (wheelPotH s).1 = (SimpleFH.execute 1 .safehold s.mission s.wheelPot).1 := fun _ => rfl
  have e6 : ∀ s, (pressFailH s).1 = (SimpleFH.execute 2 .standby s.mission s.ctl.faults.press).1 := fun _ => rfl
  have e7 : ∀ s, (attEstH s).1 = (SimpleFH.execute 3 .safehold s.mission s.attEst).1 := fun _ => rfl
  have e8 : ∀ s, (quakeH cc s).1 = (s.quake.execute s.radio cc).1 := fun _ => rfl
  have e9 : ∀ s, (piksiH cc s).1 = (s.piksi.execute s.mission s.piksiState s.enterClose cc).1 := fun _ => rfl
  have e10 : ∀ s, (propH s).1 = (s.prop.execute s.ctl).1 := fun _ => rfl
  have e11 : ∀ s, (pressFailH s).2.ctl =
    { s.ctl with faults := { s.ctl.faults with press := (SimpleFH.execute 2 .standby s.mission s.ctl.faults.press).2 } } := fun _ => rfl
  simp only [answers, handlers, List.map_cons, List.map_nil, e1, e2, e3, e4, e5, e6, e7, e8, e9, e10]
  fh_frames
  simp only [e11]
  fh_frames

theorem PropFH.execute_resp (h : PropFH) (c : Ctl) :
    (h.execute c).1 = if c.state = Prp.handlingFault ∨ c.state = Prp.venting then .standby else .none := by
  unfold PropFH.execute
  dsimp only
  generalize (if h.notInit = true then _ else h : PropFH) = h'
  by_cases hc : c.state ≠ Prp.handlingFault ∧ c.state ≠ Prp.venting
  · rw [if_pos hc, if_neg (fun x => x.elim hc.1 hc.2)]
  · rw [if_neg hc, if_pos (c := c.state = Prp.handlingFault ∨ c.state = Prp.venting) (by
      by_cases h1 : c.state = Prp.handlingFault
      · exact Or.inl h1
      · exact Or.inr (Classical.byContradiction fun h2 => hc ⟨h1, h2⟩))]

theorem PiksiFH.never_safehold (h : PiksiFH) (m p : U8) (ec cc : U32) : (h.execute m p ec cc).1 ≠ .safehold := by
  have hc : ∀ h : PiksiFH, h.checkCdgps ec cc ≠ .safehold := by
    intro h; unfold PiksiFH.checkCdgps; dsimp only
    split
    · decide
    · split <;> decide
  unfold PiksiFH.execute
  dsimp only
  split
  · exact nofun
  split
  · exact nofun
  generalize (if p = PiksiMode.fixedRtk then _ else _ : PiksiFH) = h'
  split
  · exact hc _
  · exact nofun

theorem PropFH.never_safehold (h : PropFH) (c : Ctl) : (h.execute c).1 ≠ .safehold := by
  rw [PropFH.execute_resp]; split <;> decide

theorem SimpleFH.safehold_iff {k : Nat} {m : U8} {f : Fault} (hk : k < 4) :
    (SimpleFH.execute k .safehold m f).1 = .safehold ↔ Active k m ∧ f.isFaulted = true := (C26_simple k hk .safehold (by decide) m f).1

theorem SimpleFH.not_standby {k : Nat} {m : U8} {f : Fault} : (SimpleFH.execute k .safehold m f).1 ≠ .standby := by
  unfold SimpleFH.execute; split
  · dsimp only; split <;> decide
  · exact nofun

theorem SimpleFH.not_safehold {k : Nat} {m : U8} {f : Fault} : (SimpleFH.execute k .standby m f).1 ≠ .safehold := by
  unfold SimpleFH.execute; split
  · dsimp only; split <;> decide
  · exact nofun

/-- C25, C26 for the flight software's handlers: the response is safehold exactly if fault handling is enabled and, in a mission state
active for it, low battery, one of the four reaction wheel faults or the attitude estimator fault is tripped, or the radio fault
handler asks for safehold. -/
theorem C25_flight_safehold (s : FHState) (cc : U32) : (s.execute cc).1 = .safehold ↔ s.enabled = true ∧
    ((Active 0 s.mission ∧ s.lowBatt.isFaulted = true) ∨
     (Active 1 s.mission ∧ (s.wheel1.isFaulted = true ∨ s.wheel2.isFaulted = true ∨ s.wheel3.isFaulted = true ∨ s.wheelPot.isFaulted = true)) ∨
     (Active 3 s.mission ∧ s.attEst.isFaulted = true) ∨ (s.quake.execute s.radio cc).1 = .safehold) := by
  unfold FHState.execute
  cases he : s.enabled with
  | false => rw [C25_disabled]; simp
  | true =>
    rw [(C25_most_severe _ _).1, FHState.answers_eq]
    generalize hL : [(SimpleFH.execute 0 .safehold s.mission s.lowBatt).1, _, _, _, _, _, _, _, _, _] = L
    have hm : Resp.safehold ∈ L ↔ ((Active 0 s.mission ∧ s.lowBatt.isFaulted = true) ∨
        (Active 1 s.mission ∧ (s.wheel1.isFaulted = true ∨ s.wheel2.isFaulted = true ∨ s.wheel3.isFaulted = true ∨ s.wheelPot.isFaulted = true)) ∨
        (Active 3 s.mission ∧ s.attEst.isFaulted = true) ∨ (s.quake.execute s.radio cc).1 = .safehold) := by
      rw [← hL]
      simp only [List.mem_cons, List.not_mem_nil, or_false]
      have e (r : Resp) : (Resp.safehold = r) = (r = Resp.safehold) := propext eq_comm
      simp only [e, SimpleFH.safehold_iff (show 0 < 4 by decide), SimpleFH.safehold_iff (show 1 < 4 by decide),
        SimpleFH.safehold_iff (show 3 < 4 by decide), SimpleFH.not_safehold, PiksiFH.never_safehold, PropFH.never_safehold, or_false, false_or,
        and_or_left, or_assoc]
    rw [← hm]
    by_cases h1 : Resp.safehold ∈ L
    · rw [if_pos h1]; simp [h1]
    · rw [if_neg h1]
      by_cases h2 : Resp.standby ∈ L
      · rw [if_pos h2]; simp [h1]
      · rw [if_neg h2]; simp [h1]

/-- C25, C26 for the flight software's handlers: the response is standby exactly if it is not safehold, fault handling is enabled and
pressurising has failed in a mission state active for it, or the radio or GPS fault handler asks for standby, or the propulsion
controller is dealing with a tank fault. -/
theorem C25_flight_standby (s : FHState) (cc : U32) : (s.execute cc).1 = .standby ↔ (s.execute cc).1 ≠ .safehold ∧ s.enabled = true ∧
    ((Active 2 s.mission ∧ s.ctl.faults.press.isFaulted = true) ∨ (s.quake.execute s.radio cc).1 = .standby ∨
     (s.piksi.execute s.mission s.piksiState s.enterClose cc).1 = .standby ∨
     s.ctl.state = Prp.handlingFault ∨ s.ctl.state = Prp.venting) := by
  unfold FHState.execute
  cases he : s.enabled with
  | false => rw [C25_disabled]; simp
  | true =>
    rw [(C25_most_severe _ _).1, FHState.answers_eq]
    have hp := PropFH.execute_resp s.prop { s.ctl with faults := { s.ctl.faults with press := (SimpleFH.execute 2 .standby s.mission s.ctl.faults.press).2 } }
    have hps : (s.prop.execute { s.ctl with faults := { s.ctl.faults with press := (SimpleFH.execute 2 .standby s.mission s.ctl.faults.press).2 } }).1 = .standby ↔
        s.ctl.state = Prp.handlingFault ∨ s.ctl.state = Prp.venting := by
      rw [hp]; dsimp only
      constructor
      · intro h; by_contra hc; rw [if_neg hc] at h; exact absurd h (by decide)
      · intro h; rw [if_pos h]
    have hst := (C26_simple 2 (by decide) .standby (by decide) s.mission s.ctl.faults.press).1
    generalize hL : [(SimpleFH.execute 0 .safehold s.mission s.lowBatt).1, _, _, _, _, _, _, _, _, _] = L
    have hm : Resp.standby ∈ L ↔ ((Active 2 s.mission ∧ s.ctl.faults.press.isFaulted = true) ∨ (s.quake.execute s.radio cc).1 = .standby ∨
        (s.piksi.execute s.mission s.piksiState s.enterClose cc).1 = .standby ∨ s.ctl.state = Prp.handlingFault ∨ s.ctl.state = Prp.venting) := by
      rw [← hL, ← hst, ← hps]
      simp only [List.mem_cons, List.not_mem_nil, or_false]
      have e (r : Resp) : (Resp.standby = r) = (r = Resp.standby) := propext eq_comm
      simp only [e, SimpleFH.not_standby, false_or]
    rw [← hm]
    by_cases h1 : Resp.safehold ∈ L
    · rw [if_pos h1]; simp
    · rw [if_neg h1]
      by_cases h2 : Resp.standby ∈ L
      · rw [if_pos h2]; simp [h2]
      · rw [if_neg h2]; simp [h2]

/-- C26 (finding): in the docking state no hardware fault is acted upon: neither low battery nor a wheel, pressurise or
attitude-estimator fault gives any response, whatever the faults' state. -/
theorem C26_nothing_in_docking (severity : Nat) (hs : severity < 4) (resp : Resp) (f : Fault) :
    SimpleFH.execute severity resp Mission.docking f = (.none, f) := by
  unfold SimpleFH.execute
  rw [if_neg]
  rw [active_iff severity hs]
  exact fun h => h.2.2.1 rfl

theorem throughSafehold_all {σ : Type} : ∀ as : List (Resp × σ), Resp.safehold ∉ as.map (·.1) → throughSafehold as = as := by
  intro as
  induction as with
  | nil => intro _; rfl
  | cons a as ih =>
    intro h
    rw [List.map_cons, List.mem_cons, not_or] at h
    unfold throughSafehold
    rw [if_neg (fun e => h.1 e.symm), ih h.2]

theorem SimpleFH.execute_fault (k : Nat) (hk : k < 4) (r : Resp) (m : U8) (f : Fault) :
    (Active k m → (SimpleFH.execute k r m f).2 = f.poll) ∧ (¬ Active k m → (SimpleFH.execute k r m f).2 = f) := by
  unfold SimpleFH.execute
  by_cases ha : m ∈ SimpleFH.activeStates k
  · rw [if_pos ha]
    exact ⟨fun _ => rfl, fun h => absurd ((active_iff k hk m).1 ha) h⟩
  · rw [if_neg ha]
    exact ⟨fun h => absurd ((active_iff k hk m).2 h) ha, fun _ => rfl⟩

/-- C26: in every cycle in which fault handling is enabled and does not end early with safehold, the faults of the simple
handlers are polled, so that ground's commands to them take effect (C21, C22), exactly in the mission states active for
them; otherwise they are left as they are. -/
theorem C26_polled (s : FHState) (cc : U32) (he : s.enabled = true) (h : (s.execute cc).1 ≠ .safehold) :
    ((Active 0 s.mission → (s.execute cc).2.lowBatt = s.lowBatt.poll) ∧ (¬ Active 0 s.mission → (s.execute cc).2.lowBatt = s.lowBatt)) ∧
    ((Active 1 s.mission → (s.execute cc).2.wheel1 = s.wheel1.poll ∧ (s.execute cc).2.wheel2 = s.wheel2.poll ∧
      (s.execute cc).2.wheel3 = s.wheel3.poll ∧ (s.execute cc).2.wheelPot = s.wheelPot.poll) ∧
     (¬ Active 1 s.mission → (s.execute cc).2.wheel1 = s.wheel1 ∧ (s.execute cc).2.wheel2 = s.wheel2 ∧
      (s.execute cc).2.wheel3 = s.wheel3 ∧ (s.execute cc).2.wheelPot = s.wheelPot)) ∧
    ((Active 3 s.mission → (s.execute cc).2.attEst = s.attEst.poll) ∧ (¬ Active 3 s.mission → (s.execute cc).2.attEst = s.attEst)) := by
  unfold FHState.execute at h ⊢
  rw [he] at h ⊢
  obtain ⟨h1, h2⟩ := C25_most_severe (FHState.handlers cc) s
  rw [h1] at h
  have hno : Resp.safehold ∉ (answers (FHState.handlers cc) s).map (·.1) := by
    intro hm
    rw [if_pos hm] at h
    exact h rfl
  rw [h2, throughSafehold_all _ hno]
  have hl : lastState s (answers (FHState.handlers cc) s) =
      (FHState.propH (FHState.piksiH cc (FHState.quakeH cc (FHState.attEstH (FHState.pressFailH (FHState.wheelPotH (FHState.wheel3H
        (FHState.wheel2H (FHState.wheel1H (FHState.lowBattH s).2).2).2).2).2).2).2).2).2).2 := rfl
  rw [hl]
  have f0 : (lastState s (answers (FHState.handlers cc) s)).lowBatt = (SimpleFH.execute 0 .safehold s.mission s.lowBatt).2 := rfl
  have f1 : (lastState s (answers (FHState.handlers cc) s)).wheel1 = (SimpleFH.execute 1 .safehold s.mission s.wheel1).2 := rfl
  have f2 : (lastState s (answers (FHState.handlers cc) s)).wheel2 = (SimpleFH.execute 1 .safehold s.mission s.wheel2).2 := rfl
  have f3 : (lastState s (answers (FHState.handlers cc) s)).wheel3 = (SimpleFH.execute 1 .safehold s.mission s.wheel3).2 := rfl
  have f4 : (lastState s (answers (FHState.handlers cc) s)).wheelPot = (SimpleFH.execute 1 .safehold s.mission s.wheelPot).2 := rfl
  have f5 : (lastState s (answers (FHState.handlers cc) s)).attEst = (SimpleFH.execute 3 .safehold s.mission s.attEst).2 := rfl
  rw [← hl, f0, f1, f2, f3, f4, f5]
  have g := fun f => SimpleFH.execute_fault 1 (by decide) .safehold s.mission f
  exact ⟨SimpleFH.execute_fault 0 (by decide) .safehold s.mission s.lowBatt,
    ⟨fun a => ⟨(g _).1 a, (g _).1 a, (g _).1 a, (g _).1 a⟩, fun a => ⟨(g _).2 a, (g _).2 a, (g _).2 a, (g _).2 a⟩⟩,
    SimpleFH.execute_fault 3 (by decide) .safehold s.mission s.attEst⟩

-- a fault ground has commanded to be cleared: cleared in standby, still there in startup
example : (SimpleFH.execute 1 .safehold Mission.standby { Fault.init 0 with num := 1, value := true, unsig := true }).2.value = false ∧
    (SimpleFH.execute 1 .safehold Mission.startup { Fault.init 0 with num := 1, value := true, unsig := true }).2.value = true := by decide

end PAN
