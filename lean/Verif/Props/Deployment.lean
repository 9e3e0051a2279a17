import Verif.Model.Boot
import Verif.Lemmas.MissionManager
import Verif.Props.MissionManager
import Verif.Props.EEPROM
/-!
Property C34: the deployment wait is honoured across reboots.
-/
namespace PAN
open EEPROM

namespace Spec

/-- Nobody but the mission manager writes the deployment counter (it is not a ground-writable field). -/
def ElapsedUntouched : FEvent → Prop
  | .cycle others .. => ∀ s, (others s).elapsed = s.elapsed
  | .reboot .. => True

/-- The cycle `e` is one in which the mission manager takes the spacecraft out of startup. -/
def LeavesStartup (f : Flight) : FEvent → Prop
  | .cycle others inp boots mag sun iters => f.alive = true ∧ (others f.mm).fh.mission = Mission.startup ∧
      (f.step (.cycle others inp boots mag sun iters)).alive = true ∧
      (f.step (.cycle others inp boots mag sun iters)).mm.fh.mission ≠ Mission.startup
  | .reboot .. => False

end Spec
open Spec

/-- `n` batches do not exceed what `total` control cycles allow. -/
def Earned (n total : Nat) : Prop := n * 100 ≤ total ∨ 10600 ≤ total

theorem dispatchDetumble_elapsed (s : MM) (i : MMIn) : (s.dispatchDetumble i).elapsed = s.elapsed := by
  unfold MM.dispatchDetumble; split
  · split <;> rfl
  · rfl
theorem dispatchStandby_elapsed (s : MM) (i : MMIn) : (s.dispatchStandby i).elapsed = s.elapsed := by
  unfold MM.dispatchStandby; split
  · rfl
  · split <;> rfl
theorem dispatchFar_elapsed (s : MM) (i : MMIn) (m : U8) : (s.dispatchFar i m).elapsed = s.elapsed := by unfold MM.dispatchFar; split <;> rfl
theorem dispatchClose_elapsed (s : MM) (i : MMIn) : (s.dispatchClose i).elapsed = s.elapsed := by unfold MM.dispatchClose; split <;> rfl
theorem dispatchDocking_elapsed (s : MM) (i : MMIn) : (s.dispatchDocking i).elapsed = s.elapsed := by
  have h : ∀ s : MM, (if s.haveSetDocking = false then { s with enterDocking := i.cc, haveSetDocking := true } else s).elapsed = s.elapsed := by
    intro s; split <;> rfl
  rw [← h s]
  unfold MM.dispatchDocking
  dsimp only
  generalize (if s.haveSetDocking = false then { s with enterDocking := i.cc, haveSetDocking := true } else s) = k
  split
  · rfl
  · split <;> rfl
theorem dispatchSafehold_elapsed (s : MM) (i : MMIn) : (s.dispatchSafehold i).elapsed = s.elapsed := by unfold MM.dispatchSafehold; split <;> rfl

/-- The deployment counter in startup. -/
theorem dispatchStartup_elapsed (s s' : MM) (i : MMIn) (he : s.dispatchStartup i = some s') :
    (s'.elapsed = s.elapsed ∨ (s'.elapsed = s.elapsed + 1 ∧ i.cc % 100 = 0 ∧ s.elapsed.toNat < 106)) ∧
    (s'.fh.mission ≠ s.fh.mission → 106 ≤ s.elapsed.toNat) := by
  unfold MM.dispatchStartup at he
  split at he
  · cases he
  split at he
  · rename_i hel
    split at he
    · rename_i hc
      cases he
      exact ⟨Or.inr ⟨rfl, hc, hel⟩, fun h => absurd rfl h⟩
    · cases he; exact ⟨Or.inl rfl, fun h => absurd rfl h⟩
  · rename_i hel
    refine ⟨Or.inl ?_, fun _ => Nat.le_of_not_lt hel⟩
    dsimp only at he
    generalize hk : (if s.fh.radio.state = Radio.disabled then _ else _ : MM) = k at he
    have hke : k.elapsed = s.elapsed := by rw [← hk]; split <;> rfl
    split at he <;> cases he <;> exact (MM.hwPolled_frame k).2.1.trans hke

/-- One execution of the mission manager changes the deployment counter only in startup, by one, in a cycle whose number is a multiple of
100, and leaves startup only when the counter is at least 106. -/
theorem startup_elapsed (s s' : MM) (i : MMIn) (he : s.execute i = some s') :
    (s'.elapsed = s.elapsed ∨ (s'.elapsed = s.elapsed + 1 ∧ i.cc % 100 = 0 ∧ s.elapsed.toNat < 106)) ∧
    (s.fh.mission = Mission.startup → s'.fh.mission ≠ Mission.startup → 106 ≤ s.elapsed.toNat) := by
  rcases MM.execute_cases s i with ⟨h1, _, _, e⟩ | ⟨h1, _, _, _, _, _, _, e⟩ | ⟨_, _, e⟩
  · rw [e] at he; cases he; exact ⟨Or.inl rfl, fun h => absurd h h1⟩
  · rw [e] at he; cases he; exact ⟨Or.inl rfl, fun h => absurd h h1⟩
  · rw [e] at he
    have hmis := MM.afterFaults_mission s i.cc
    have hel : (s.afterFaults i.cc).elapsed = s.elapsed := rfl
    rw [← hel]
    generalize s.afterFaults i.cc = h at *
    rcases MM.mission_cases s.fh.mission with c | c | c | c | c | c | c | c | c | c | c | c | c
    · rw [c, MM.dispatch_startup] at he
      obtain ⟨a, b⟩ := dispatchStartup_elapsed h s' i he
      exact ⟨a, fun _ hn => b (by rw [hmis, c]; exact hn)⟩
    all_goals refine ⟨Or.inl ?_, fun hs => ?_⟩
    all_goals first
      | (rw [c] at hs; exact absurd hs (by decide))
      | (rw [hs] at c; exact absurd c (by decide))
      | skip
    · rw [c, MM.dispatch_detumble] at he; cases he; exact dispatchDetumble_elapsed ..
    · rw [c, MM.dispatch_hold] at he; cases he; rfl
    · rw [c, MM.dispatch_standby] at he; cases he; exact dispatchStandby_elapsed ..
    · rw [c, MM.dispatch_follower] at he; cases he; exact dispatchFar_elapsed ..
    · rw [c, MM.dispatch_leader] at he; cases he; exact dispatchFar_elapsed ..
    · rw [c, MM.dispatch_followerClose] at he; cases he; exact dispatchClose_elapsed ..
    · rw [c, MM.dispatch_leaderClose] at he; cases he; exact dispatchClose_elapsed ..
    · rw [c, MM.dispatch_docking] at he; cases he; exact dispatchDocking_elapsed ..
    · rw [c, MM.dispatch_docked] at he; cases he; rfl
    · rw [c, MM.dispatch_safehold] at he; cases he; exact dispatchSafehold_elapsed ..
    · rw [c, MM.dispatch_manual] at he; cases he; rfl
    · rw [MM.dispatch_undefined _ _ _ c] at he; cases he; rfl

theorem Earned.mono {n t t' : Nat} (h : Earned n t) (ht : t ≤ t') : Earned n t' := h.imp (fun a => Nat.le_trans a ht) (fun a => Nat.le_trans a ht)

/-- The saved counter has been earned. On the Teensy an erased memory is allowed if `fresh`. -/
def Mem.Ok (fresh : Prop) (m : Mem) (total : Nat) : Prop :=
  match m with
  | .desktop j => ∀ x, j.lookup "pan.deployment.elapsed" = some x → Earned x total
  | .teensy b => b.length = 4096 ∧ ((fresh ∧ b = erased) ∨ Earned (b.read 25).toNat total)

theorem Mem.Ok.mono {fresh : Prop} {m : Mem} {t t' : Nat} (h : m.Ok fresh t) (ht : t ≤ t') : m.Ok fresh t' := by
  cases m with
  | desktop j => exact fun x hx => (h x hx).mono ht
  | teensy b => exact ⟨h.1, h.2.imp id fun a => a.mono ht⟩

/-- The invariant over histories. -/
structure DepInv (fresh : Prop) (f : Flight) : Prop where
  mem : f.mem.Ok fresh f.total
  elapsed : f.mm.elapsed.toNat * 100 + f.cc.toNat % 100 ≤ f.total ∨ 10600 ≤ f.total
  cc : f.cc.toNat ≤ f.total

theorem boot_elapsed {fresh : Prop} (mem : Mem) (total : Nat) (p t2 t1 : Rat) (h : mem.Ok fresh total) :
    DepInv fresh (Flight.boot mem total p t2 t1) := by
  have key : ∀ vals, mem.init = some vals → Earned (BitVec.ofInt 8 (vals.getD 5 0)).toNat total := by
    intro vals hv
    have small : ∀ x : Nat, x ≤ 255 → (BitVec.ofInt 8 (x : Int)).toNat = x := by
      intro x hx; rw [BitVec.toNat_ofInt]; omega
    have zero : Earned (BitVec.ofInt 8 (0 : Int)).toNat total := Or.inl (by show 0 * 100 ≤ total; omega)
    have fset : ∀ x : Nat, Earned x total → Earned (BitVec.ofInt 8 (setField ⟨"pan.deployment.elapsed", .uchar, 1, 0⟩ 0 x)).toNat total := by
      intro x hx
      unfold setField
      rw [if_neg (fun c => absurd c.1 (by decide))]
      show Earned (BitVec.ofInt 8 (if x > 255 then 0 else (x : Int))).toNat total
      split
      · exact zero
      · rw [small x (by omega)]; exact hx
    cases mem with
    | desktop j =>
      change Json.init flightFields j = some vals at hv
      unfold Json.init at hv
      rw [if_pos (show flightFields.length ≤ 4096 / 5 by decide)] at hv
      split at hv
      · cases hv; exact zero
      · cases hv
        show Earned (BitVec.ofInt 8 (j.readField ⟨"pan.deployment.elapsed", .uchar, 1, 0⟩ 0)).toNat total
        unfold Json.readField
        cases hl : j.lookup "pan.deployment.elapsed" with
        | none => exact zero
        | some x => exact fset x (h x hl)
    | teensy b =>
      change Bytes.init flightFields b = some vals at hv
      unfold Bytes.init at hv
      rw [if_pos (show flightFields.length ≤ 4096 / 5 by decide)] at hv
      split at hv
      · cases hv; exact zero
      · rename_i hne
        cases hv
        show Earned (BitVec.ofInt 8 (setField ⟨"pan.deployment.elapsed", .uchar, 1, 0⟩ 0 (b.read 25).toNat)).toNat total
        refine fset _ (h.2.resolve_left fun hc => hne ?_)
        rw [hc.2]
        unfold Bytes.empty erased
        rw [List.all_replicate]
        decide
  unfold Flight.boot
  cases hi : mem.init with
  | some vals => exact ⟨h, (key vals hi), Nat.zero_le _⟩
  | none => exact ⟨h, Or.inl (Nat.zero_le _), Nat.zero_le _⟩

theorem save_ok {fresh : Prop} (m : Mem) (t : Nat) (s : MM) (cc : Nat) (boots mag sun : Int) (iters : Nat) (h : m.Ok fresh t)
    (hf : 5 < iters ∨ ¬ fresh) (he : Earned s.elapsed.toNat t) : (m.save cc (s.saved boots mag sun) iters).Ok False t := by
  have hrepr : Ty.uchar.repr (s.elapsed.toNat : Int) = s.elapsed.toNat := by
    have := s.elapsed.isLt
    show ((s.elapsed.toNat : Int) % 2 ^ 8).toNat = _
    omega
  cases m with
  | desktop j =>
    intro x hx
    have := json_saveLoop flightFields (by decide) cc (s.saved boots mag sun) rfl j 5 ⟨"pan.deployment.elapsed", .uchar, 1, 0⟩ rfl iters
    dsimp only at this
    rw [this] at hx
    unfold savedBy at hx
    dsimp only at hx
    split at hx
    · rename_i v hv
      split at hv
      · cases hv
        rw [hrepr] at hx
        cases hx
        exact he
      · cases hv
    · exact h x hx
  | teensy b =>
    refine ⟨(bytes_saveLoop_length ..).trans h.1, Or.inr ?_⟩
    have := bytes_saveLoop flightFields cc (s.saved boots mag sun) rfl b (by rw [h.1]; decide) 5 ⟨"pan.deployment.elapsed", .uchar, 1, 0⟩ rfl iters
    show Earned (Bytes.read (saveLoop (Bytes.update flightFields (s.saved boots mag sun)) flightFields cc b iters) (5 * 5)).toNat t
    rw [this]
    unfold savedBy
    dsimp only
    by_cases hc : 5 < iters ∧ cc % 1 = 0
    · rw [if_pos hc]
      show Earned (BitVec.ofNat 8 (Ty.uchar.repr (s.elapsed.toNat : Int))).toNat t
      rw [hrepr, BitVec.toNat_ofNat, Nat.mod_eq_of_lt s.elapsed.isLt]
      exact he
    · rw [if_neg hc]
      have hi : ¬ 5 < iters := fun hi => hc ⟨hi, Nat.mod_one _⟩
      exact h.2.resolve_left fun hh => (hf.resolve_left hi) hh.1

namespace Flight

theorem step_dead (f : Flight) (o : MM → MM) (inp : MMIn) (b m s : Int) (it : Nat) (ha : f.alive = false) :
    f.step (.cycle o inp b m s it) = f := by
  show (if f.alive = false then f else _) = f
  rw [if_pos ha]

theorem step_hang (f : Flight) (o : MM → MM) (inp : MMIn) (b m s : Int) (it : Nat) (ha : f.alive = true)
    (hx : (o f.mm).execute { inp with cc := f.cc + 1 } = none) :
    f.step (.cycle o inp b m s it) = { f with alive := false, cc := f.cc + 1, total := f.total + 1 } := by
  show (if f.alive = false then f else _) = _
  rw [if_neg (by rw [ha]; decide), hx]

theorem step_some (f : Flight) (o : MM → MM) (inp : MMIn) (b m s : Int) (it : Nat) (ha : f.alive = true) (s' : MM)
    (hx : (o f.mm).execute { inp with cc := f.cc + 1 } = some s') :
    f.step (.cycle o inp b m s it) =
      { f with mem := f.mem.save (f.cc + 1).toNat (s'.saved b m s) it, mm := s', cc := f.cc + 1, total := f.total + 1 } := by
  show (if f.alive = false then f else _) = _
  rw [if_neg (by rw [ha]; decide), hx]

end Flight

/-- One event keeps the invariant. -/
theorem dep_step {fresh : Prop} (f : Flight) (hi : DepInv fresh f) (e : FEvent) (hu : ElapsedUntouched e)
    (hf : ¬ fresh ∨ (f.alive = true ∧ ∃ o inp b m s it, e = .cycle o inp b m s it ∧ 5 < it ∧ (f.step e).alive = true)) :
    DepInv False (f.step e) ∧ (LeavesStartup f e → 10600 ≤ f.total) := by
  cases e with
  | reboot p t2 t1 =>
    refine ⟨boot_elapsed _ _ _ _ _ ?_, fun h => h.elim⟩
    rcases hf with hf | ⟨_, o, inp, b, m, s, it, he, _⟩
    · have := hi.mem
      cases hm : f.mem with
      | desktop j => rw [hm] at this; exact this
      | teensy b => rw [hm] at this; exact ⟨this.1, Or.inr (this.2.resolve_left fun h => hf h.1)⟩
    · cases he
  | cycle others inp boots mag sun iters =>
    have toFalse : ¬ fresh → ∀ {t}, f.mem.Ok fresh t → f.mem.Ok False t := by
      intro hn t h
      cases hm : f.mem with
      | desktop j => rw [hm] at h; exact h
      | teensy b => rw [hm] at h; exact ⟨h.1, Or.inr (h.2.resolve_left fun h => hn h.1)⟩
    have hcc : ∀ {w : Nat}, f.cc.toNat ≤ w → (f.cc + 1).toNat ≤ w + 1 := by
      intro w hw
      rw [BitVec.toNat_add]
      have h1 : (1 : U32).toNat = 1 := rfl
      omega
    have hcc2 : (f.cc + 1).toNat % 100 ≤ f.cc.toNat % 100 + 1 ∨ 10600 ≤ f.total := by
      have h1 : (1 : U32).toNat = 1 := rfl
      have := hi.cc
      rw [BitVec.toNat_add]
      omega
    show _ ∧ ((f.alive = true ∧ (others f.mm).fh.mission = Mission.startup ∧
      (f.step (.cycle others inp boots mag sun iters)).alive = true ∧
      (f.step (.cycle others inp boots mag sun iters)).mm.fh.mission ≠ Mission.startup) → _)
    by_cases ha : f.alive = false
    · rw [f.step_dead others inp boots mag sun iters ha]
      refine ⟨⟨?_, hi.elapsed, hi.cc⟩, fun h => by rw [ha] at h; exact absurd h.1 (by decide)⟩
      rcases hf with hf | ⟨h, _⟩
      · exact toFalse hf hi.mem
      · rw [ha] at h; exact absurd h (by decide)
    · have ha : f.alive = true := by simpa using ha
      cases hx : (others f.mm).execute { inp with cc := f.cc + 1 } with
      | none =>
        have est := f.step_hang others inp boots mag sun iters ha hx
        rw [est] at hf ⊢
        refine ⟨⟨?_, ?_, hcc hi.cc⟩, fun h => absurd h.2.2.1 Bool.false_ne_true⟩
        · rcases hf with hf | ⟨_, o, inp', b, m, s, it, he, _, hal⟩
          · exact (toFalse hf hi.mem).mono (Nat.le_succ _)
          · exact absurd hal Bool.false_ne_true
        · have := hi.elapsed
          show f.mm.elapsed.toNat * 100 + (f.cc + 1).toNat % 100 ≤ f.total + 1 ∨ 10600 ≤ f.total + 1
          omega
      | some s =>
        have est := f.step_some others inp boots mag sun iters ha s hx
        rw [est] at hf ⊢
        obtain ⟨st1, st2⟩ := startup_elapsed _ s _ hx
        have hue : (others f.mm).elapsed = f.mm.elapsed := hu f.mm
        rw [hue] at st1 st2
        dsimp only at st1
        have hel : s.elapsed.toNat * 100 + (f.cc + 1).toNat % 100 ≤ f.total + 1 ∨ 10600 ≤ f.total + 1 := by
          have hie := hi.elapsed
          rcases st1 with e1 | ⟨e1, e2, e3⟩
          · rw [e1]; omega
          · have h100 : (f.cc + 1).toNat % 100 = 0 := by
              have := congrArg BitVec.toNat e2
              rw [BitVec.toNat_umod] at this
              exact this
            have h1 : (f.cc + 1).toNat = (f.cc.toNat + 1) % 2 ^ 32 := by rw [BitVec.toNat_add]; rfl
            have hadd : s.elapsed.toNat = f.mm.elapsed.toNat + 1 := by
              rw [e1, BitVec.toNat_add]
              have : (1 : U8).toNat = 1 := rfl
              omega
            have := hi.cc
            by_cases hw : f.cc.toNat + 1 < 2 ^ 32
            · rw [Nat.mod_eq_of_lt hw] at h1
              omega
            · omega
        have hearn : Earned s.elapsed.toNat (f.total + 1) := by unfold Earned; omega
        refine ⟨⟨?_, hel, hcc hi.cc⟩, ?_⟩
        · refine save_ok (fresh := fresh) _ _ _ _ _ _ _ _ (hi.mem.mono (Nat.le_succ _)) ?_ hearn
          rcases hf with hf | ⟨_, o, inp', b, m, s', it, he, h5, _⟩
          · exact Or.inr hf
          · cases he; exact Or.inl h5
        · rintro ⟨_, hm, _, hn⟩
          have := st2 hm hn
          have := hi.elapsed
          omega

theorem dep_run (f : Flight) (hi : DepInv False f) (es : List FEvent) (hu : ∀ e ∈ es, ElapsedUntouched e) : DepInv False (f.run es) := by
  unfold Flight.run
  induction es generalizing f with
  | nil => exact hi
  | cons e es ih =>
    exact ih _ (dep_step f hi e (hu e (List.mem_cons_self ..)) (Or.inl not_false)).1 (fun x hx => hu x (List.mem_cons_of_mem _ hx))

/-- C34, desktop build. From the first boot with an empty memory, over every history of control cycles and reboots at any point: if the
mission manager takes the spacecraft out of startup, then at least 10600 control cycles have been completed in total before (the wait is
30 minutes, 10588 cycles). -/
theorem C34_desktop (p t2 t1 : Rat) (es : List FEvent) (hu : ∀ e ∈ es, ElapsedUntouched e) (e : FEvent) (he : ElapsedUntouched e)
    (hl : LeavesStartup ((Flight.boot (.desktop []) 0 p t2 t1).run es) e) : 10600 ≤ ((Flight.boot (.desktop []) 0 p t2 t1).run es).total :=
  (dep_step _ (dep_run _ (boot_elapsed (.desktop []) 0 p t2 t1 (show ∀ x, List.lookup _ ([] : Json) = some x → _ from fun _ h => nomatch h)) es hu) e he (Or.inl not_false)).2 hl

/-- C34, flight computer (partial: the first cycle of the first boot must get through its EEPROM save). -/
theorem C34_teensy_partial (p t2 t1 : Rat) (o : MM → MM) (inp : MMIn) (b m s : Int) (it : Nat) (hit : 5 < it) (es : List FEvent)
    (h1 : ElapsedUntouched (.cycle o inp b m s it))
    (h2 : ((Flight.boot (.teensy erased) 0 p t2 t1).step (.cycle o inp b m s it)).alive = true)
    (hu : ∀ e ∈ es, ElapsedUntouched e) (e : FEvent) (he : ElapsedUntouched e)
    (hl : LeavesStartup ((Flight.boot (.teensy erased) 0 p t2 t1).run (.cycle o inp b m s it :: es)) e) :
    10600 ≤ ((Flight.boot (.teensy erased) 0 p t2 t1).run (.cycle o inp b m s it :: es)).total := by
  have i0 : DepInv True (Flight.boot (.teensy erased) 0 p t2 t1) := boot_elapsed _ _ _ _ _ ⟨erased_length, Or.inl ⟨trivial, rfl⟩⟩
  have halive : (Flight.boot (.teensy erased) 0 p t2 t1).alive = true := by
    have h : ∃ vals, Mem.init (.teensy erased) = some vals := by
      show ∃ vals, Bytes.init flightFields erased = some vals
      unfold Bytes.init
      rw [if_pos (show flightFields.length ≤ 4096 / 5 by decide)]
      split <;> exact ⟨_, rfl⟩
    obtain ⟨vals, h⟩ := h
    unfold Flight.boot
    rw [h]
  generalize Flight.boot (.teensy erased) 0 p t2 t1 = f at *
  have i1 := (dep_step _ i0 (.cycle o inp b m s it) h1 (Or.inr ⟨halive, o, inp, b, m, s, it, rfl, hit, h2⟩)).1
  exact (dep_step _ (dep_run _ i1 es hu) e he (Or.inl not_false)).2 hl

/-- Inputs of no importance in startup. -/
def Spec.idleIn : MMIn := ⟨0, false, none, 0, none, false⟩

/-- C34 does not hold in full on the flight computer: if the very first EEPROM save is cut short by a reset, the next boot reads the
counter's erased byte as 255 and the mission manager leaves startup in its first cycle, the second control cycle in total. -/
theorem C34_counterexample_teensy :
    ∃ f : Flight, f = (Flight.boot (.teensy erased) 0 14 20 20).run [.cycle id idleIn 1 0 0 2, .reboot 14 20 20] ∧
      f.total = 1 ∧ LeavesStartup f (.cycle id idleIn 1 0 0 7) := by
  refine ⟨_, rfl, ?_⟩
  have hinit : Mem.init (.teensy erased) = some [0, 0, 0, 0, 0, 0, 0] := by
    show Bytes.init flightFields erased = _
    unfold Bytes.init
    rw [if_pos (show flightFields.length ≤ 4096 / 5 by decide), if_pos]
    · rfl
    · unfold Bytes.empty erased; rw [List.all_replicate]; decide
  have hboot : Flight.boot (.teensy erased) 0 14 20 20 = ⟨.teensy erased, (MM.init 14 20 20).restored [0, 0, 0, 0, 0, 0, 0], 0, true, 0⟩ := by
    unfold Flight.boot; rw [hinit]
  obtain ⟨s1, hs1, hsaved⟩ : ∃ s1, ((MM.init 14 20 20).restored [0, 0, 0, 0, 0, 0, 0]).execute { idleIn with cc := 0 + 1 } = some s1 ∧
      s1.saved 1 0 0 = [1, 0, 0, 0, 0, 0, 0] := by
    have : ((((MM.init 14 20 20).restored [0, 0, 0, 0, 0, 0, 0]).execute { idleIn with cc := 0 + 1 }).map fun s => s.saved 1 0 0) =
        some [1, 0, 0, 0, 0, 0, 0] := by decide +kernel
    cases h : ((MM.init 14 20 20).restored [0, 0, 0, 0, 0, 0, 0]).execute { idleIn with cc := 0 + 1 } with
    | none => rw [h] at this; cases this
    | some s1 => rw [h] at this; exact ⟨s1, rfl, Option.some.inj this⟩
  have hstep : (Flight.boot (.teensy erased) 0 14 20 20).step (.cycle id idleIn 1 0 0 2) =
      ⟨(Mem.teensy erased).save 1 [1, 0, 0, 0, 0, 0, 0] 2, s1, 1, true, 1⟩ := by
    rw [hboot, Flight.step_some _ _ _ _ _ _ _ rfl s1 hs1, hsaved]; rfl
  obtain ⟨vals, hv, h3, h4, h5, h6⟩ : ∃ vals, Mem.init ((Mem.teensy erased).save 1 [1, 0, 0, 0, 0, 0, 0] 2) = some vals ∧ vals[3]? = some 0 ∧
      vals[4]? = some 0 ∧ vals[5]? = some 255 ∧ vals[6]? = some 255 := by
    obtain ⟨vals, e, -, h⟩ := C17_teensy_exact flightFields (by decide) [firstCycle 2]
      (by intro c hc; rw [List.mem_singleton.mp hc]; exact firstCycle_typed 2)
    have hne : ¬ ∀ j g, flightFields[j]? = some g →
        (match lastSave g.period j [firstCycle 2] with | some v => g.ty.repr v % 256 | none => 255) = 255 := by
      intro hc; exact absurd (hc 1 _ rfl) (by decide)
    have h3 := (h 3 _ rfl).2 hne
    have h4 := (h 4 _ rfl).2 hne
    have h5 := (h 5 _ rfl).2 hne
    have h6 := (h 6 _ rfl).2 hne
    exact ⟨vals, e, by rw [h3]; decide, by rw [h4]; decide, by rw [h5]; decide, by rw [h6]; decide⟩
  generalize (Mem.teensy erased).save 1 [1, 0, 0, 0, 0, 0, 0] 2 = M at hstep hv
  have hrun : (Flight.boot (.teensy erased) 0 14 20 20).run [.cycle id idleIn 1 0 0 2, .reboot 14 20 20] = Flight.boot M 1 14 20 20 := by
    have e : ∀ f : Flight, f.run [.cycle id idleIn 1 0 0 2, .reboot 14 20 20] =
        Flight.boot (f.step (.cycle id idleIn 1 0 0 2)).mem (f.step (.cycle id idleIn 1 0 0 2)).total 14 20 20 := fun f => rfl
    rw [e, hstep]
  have hres : (MM.init 14 20 20).restored vals = (MM.init 14 20 20).restored [0, 0, 0, 0, 0, 255, 255] := by
    unfold MM.restored
    simp only [List.getD_eq_getElem?_getD, h3, h4, h5, h6]
    rfl
  have hb2 : Flight.boot M 1 14 20 20 = ⟨M, (MM.init 14 20 20).restored [0, 0, 0, 0, 0, 255, 255], 0, true, 1⟩ := by
    unfold Flight.boot; rw [hv]; dsimp only; rw [hres]
  rw [hrun, hb2]
  refine ⟨rfl, ?_⟩
  have hx : ∃ s', ((MM.init 14 20 20).restored [0, 0, 0, 0, 0, 255, 255]).execute { idleIn with cc := 0 + 1 } = some s' ∧
      s'.fh.mission = Mission.detumble := by
    have : ((((MM.init 14 20 20).restored [0, 0, 0, 0, 0, 255, 255]).execute { idleIn with cc := 0 + 1 }).map fun s => s.fh.mission) =
        some Mission.detumble := by decide +kernel
    cases h : ((MM.init 14 20 20).restored [0, 0, 0, 0, 0, 255, 255]).execute { idleIn with cc := 0 + 1 } with
    | none => rw [h] at this; cases this
    | some s1 => rw [h] at this; exact ⟨s1, rfl, Option.some.inj this⟩
  obtain ⟨s', hx, hm⟩ := hx
  have est := Flight.step_some ⟨M, (MM.init 14 20 20).restored [0, 0, 0, 0, 0, 255, 255], 0, true, 1⟩ id idleIn 1 0 0 7 rfl s' hx
  refine ⟨rfl, show ((MM.init 14 20 20).restored [0, 0, 0, 0, 0, 255, 255]).fh.mission = Mission.startup by decide +kernel, ?_, ?_⟩
  · rw [est]
  · rw [est]; dsimp only; rw [hm]; decide

/-- Nobody outside writes the mission state, the deployment counter or the kill switch in this control cycle. -/
def Spec.QuietCycle : FEvent → Prop
  | .cycle others .. => ∀ s, (others s).fh.mission = s.fh.mission ∧ (others s).elapsed = s.elapsed ∧ (others s).killSwitch = s.killSwitch
  | .reboot .. => False

theorem dispatchStartup_cases (s : MM) (i : MMIn) (hk : s.killSwitch ≠ 127) :
    (106 ≤ s.elapsed.toNat → ∃ s', s.dispatchStartup i = some s' ∧ s'.fh.mission ≠ Mission.startup) ∧
    (s.elapsed.toNat < 106 → s.dispatchStartup i = some { s with elapsed := if i.cc % 100 = 0 then s.elapsed + 1 else s.elapsed }) := by
  constructor
  · intro h
    unfold MM.dispatchStartup
    rw [if_neg hk, if_neg (show ¬ s.elapsed.toNat < MM.batchThresh from Nat.not_lt.2 h)]
    dsimp only
    generalize (if s.fh.radio.state = Radio.disabled then _ else _ : MM) = k
    split
    · refine ⟨_, rfl, ?_⟩
      show Mission.initializationHold ≠ Mission.startup
      decide
    · refine ⟨_, rfl, ?_⟩
      show Mission.detumble ≠ Mission.startup
      decide
  · intro h
    unfold MM.dispatchStartup
    rw [if_neg hk, if_pos (show s.elapsed.toNat < MM.batchThresh from h)]
    split
    · rfl
    · rfl

/-- C34, the other direction: after a boot (kill switch not set), within 10601 undisturbed control cycles the mission
manager has left startup. -/
theorem C34_leaves_in_time (f : Flight) (ha : f.alive = true) (hc : f.cc = 0)
    (hk : f.mm.killSwitch ≠ 127) (es : List FEvent) (hq : ∀ e ∈ es, QuietCycle e) (hlen : 10600 < es.length) :
    ∃ k, k ≤ 10601 ∧ (f.run (es.take k)).alive = true ∧ (f.run (es.take k)).mm.fh.mission ≠ Mission.startup := by
  by_contra hno
  have key : ∀ k, k ≤ 10601 → (f.run (es.take k)).alive = true ∧ (f.run (es.take k)).cc.toNat = k ∧
      (f.run (es.take k)).mm.killSwitch ≠ 127 ∧ k / 100 ≤ (f.run (es.take k)).mm.elapsed.toNat := by
    intro k
    induction k with
    | zero =>
      intro _
      refine ⟨ha, ?_, hk, ?_⟩
      · show f.cc.toNat = 0; rw [hc]; rfl
      · exact Nat.zero_le _
    | succ k ih =>
      intro hle
      obtain ⟨i1, i2, i3, i4⟩ := ih (by omega)
      have hst : (f.run (es.take k)).mm.fh.mission = Mission.startup := by
        by_contra hne
        exact hno ⟨k, by omega, i1, hne⟩
      have hget : k < es.length := by omega
      have hrun : f.run (es.take (k + 1)) = (f.run (es.take k)).step es[k] := by
        unfold Flight.run
        rw [List.take_succ_eq_append_getElem hget, List.foldl_append]; rfl
      have hqe := hq es[k] (List.getElem_mem hget)
      generalize es[k] = e at hrun hqe
      rw [hrun]
      have hsucc : ¬ ((f.run (es.take (k + 1))).alive = true ∧ (f.run (es.take (k + 1))).mm.fh.mission ≠ Mission.startup) := by
        rintro ⟨a, b⟩
        exact hno ⟨k + 1, hle, a, b⟩
      rw [hrun] at hsucc
      generalize f.run (es.take k) = g at i1 i2 i3 i4 hst hsucc ⊢
      cases e with
      | reboot => exact hqe.elim
      | cycle o inp b m s it =>
        obtain ⟨q1, q2, q3⟩ := hqe g.mm
        have hdis : (o g.mm).execute { inp with cc := g.cc + 1 } = ((o g.mm).afterFaults (g.cc + 1)).dispatchStartup { inp with cc := g.cc + 1 } := by
          have hs := q1.trans hst
          rw [MM.execute_dispatch _ _ (Or.inl hs) (Or.inl hs), hs]; rfl
        obtain ⟨d1, d2⟩ := dispatchStartup_cases ((o g.mm).afterFaults (g.cc + 1)) { inp with cc := g.cc + 1 } (q3 ▸ i3)
        have hel : ((o g.mm).afterFaults (g.cc + 1)).elapsed = g.mm.elapsed := q2
        rw [hel] at d1 d2
        have hcc : (g.cc + 1).toNat = k + 1 := by
          rw [BitVec.toNat_add, i2]
          have h1 : (1 : U32).toNat = 1 := rfl
          omega
        by_cases h106 : 106 ≤ g.mm.elapsed.toNat
        · obtain ⟨s', e1, e2⟩ := d1 h106
          rw [← hdis] at e1
          refine absurd ?_ hsucc
          rw [g.step_some o inp b m s it i1 s' e1]
          exact ⟨i1, e2⟩
        · have e1 := d2 (by omega)
          rw [← hdis] at e1
          rw [g.step_some o inp b m s it i1 _ e1]
          refine ⟨i1, hcc, q3 ▸ i3, ?_⟩
          show (k + 1) / 100 ≤ (if (g.cc + 1) % 100 = 0 then g.mm.elapsed + 1 else g.mm.elapsed).toNat
          have hmod : ((g.cc + 1) % 100 = 0) ↔ (k + 1) % 100 = 0 := by
            rw [← BitVec.toNat_inj, BitVec.toNat_umod, hcc]; rfl
          split
          · have : (g.mm.elapsed + 1).toNat = g.mm.elapsed.toNat + 1 := by
              rw [BitVec.toNat_add]
              have h1 : (1 : U8).toNat = 1 := rfl
              omega
            omega
          · rename_i hn
            rw [hmod] at hn
            omega
  obtain ⟨i1, i2, i3, i4⟩ := key 10600 (by omega)
  have hget : 10600 < es.length := hlen
  have hst : (f.run (es.take 10600)).mm.fh.mission = Mission.startup := by
    by_contra hne
    exact hno ⟨10600, by omega, i1, hne⟩
  have hrun : f.run (es.take (10600 + 1)) = (f.run (es.take 10600)).step es[10600] := by
    unfold Flight.run
    rw [List.take_succ_eq_append_getElem hget, List.foldl_append]; rfl
  have hqe := hq es[10600] (List.getElem_mem hget)
  have hsucc : ¬ ((f.run (es.take (10600 + 1))).alive = true ∧ (f.run (es.take (10600 + 1))).mm.fh.mission ≠ Mission.startup) := by
    rintro ⟨a, b⟩
    exact hno ⟨10600 + 1, Nat.le_refl _, a, b⟩
  rw [hrun] at hsucc
  generalize es[10600] = e at hrun hqe hsucc
  generalize f.run (es.take 10600) = g at i1 i2 i3 i4 hst hsucc
  cases e with
  | reboot => exact hqe
  | cycle o inp b m s it =>
    obtain ⟨q1, q2, q3⟩ := hqe g.mm
    have hdis : (o g.mm).execute { inp with cc := g.cc + 1 } = ((o g.mm).afterFaults (g.cc + 1)).dispatchStartup { inp with cc := g.cc + 1 } := by
      have hs := q1.trans hst
      rw [MM.execute_dispatch _ _ (Or.inl hs) (Or.inl hs), hs]; rfl
    have d1 := (dispatchStartup_cases ((o g.mm).afterFaults (g.cc + 1)) { inp with cc := g.cc + 1 } (q3 ▸ i3)).1
    have hel : ((o g.mm).afterFaults (g.cc + 1)).elapsed = g.mm.elapsed := q2
    rw [hel] at d1
    obtain ⟨s', e1, e2⟩ := d1 i4
    rw [← hdis] at e1
    rw [g.step_some o inp b m s it i1 s' e1] at hsucc
    exact hsucc ⟨i1, e2⟩

/-- Non-vacuity: the hypotheses of C34_leaves_in_time hold after a first boot, for 20000 idle cycles; together with it, LeavesStartup in
C34_desktop is met by some event. -/
example : (Flight.boot (.desktop []) 0 14 20 20).alive = true ∧ (Flight.boot (.desktop []) 0 14 20 20).cc = 0 ∧
    (Flight.boot (.desktop []) 0 14 20 20).mm.fh.mission = Mission.startup ∧ (Flight.boot (.desktop []) 0 14 20 20).mm.killSwitch ≠ 127 ∧
    (∀ e ∈ List.replicate 20000 (FEvent.cycle id idleIn 1 0 0 7), QuietCycle e ∧ ElapsedUntouched e) ∧
    10600 < (List.replicate 20000 (FEvent.cycle id idleIn 1 0 0 7)).length :=
  ⟨by decide, by decide, by decide, by decide, fun e he => by rw [List.eq_of_mem_replicate he]; exact ⟨fun _ => ⟨rfl, rfl, rfl⟩, fun _ => rfl⟩,
    by rw [List.length_replicate]; decide⟩

end PAN
