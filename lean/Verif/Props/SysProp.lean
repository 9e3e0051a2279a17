import Verif.Props.Venting
import Verif.Props.System
import Verif.Props.PropPower

/-!
C131: the propulsion controller in the flight software. Every history of the composed control cycle is, for the propulsion controller, a
history of `Ctl.run` with disciplined writes, so what is proved of the controller on its own (C37-C41, C115, C119, C130) holds there; the
rules for the valves and the venting of a tank in trouble are carried over.
-/
namespace PAN
namespace Spec

/-- What the other tasks and the ground do between two cycles: they may change any setting of the propulsion controller and the plan of
the firing, but neither its state nor the faults of the tanks (which may be asked for); they do not command startup. -/
def LeavesPropulsion {L : Orb.Lib} (x : SysStep L) : Prop := ∀ s : Sys L,
  ((x.others s).mm.fh.mission = Mission.startup → s.mm.fh.mission = Mission.startup) ∧
  ∃ ws, (x.others s).mm.fh.ctl = s.mm.fh.ctl.writes ws ∧ (∀ v, PropWrite.state v ∉ ws) ∧
    ∀ i op, PropWrite.fault i op ∈ ws → i = .press ∨ op = .poll

/-- Both tanks are faulted while the controller is handling a fault: then the propulsion fault handler may give up. -/
def BothTanks (c : Ctl) : Prop := Tank1Faulted c.faults ∧ Tank2Faulted c.faults ∧ c.state = Prp.handlingFault

/-- The readings of a cycle show the trouble. -/
def TankTrouble.read {L : Orb.Lib} : TankTrouble → SysStep L → Prop
  | .over, x => x.inp.pressure > 75
  | .hot2, x => x.inp.temp2 > 49
  | .hot1, x => x.inp.temp1 > 49

/-- The control cycles are numbered `n`, `n + 1`, … -/
def CountedFrom {L : Orb.Lib} : Nat → List (SysStep L) → Prop
  | _, [] => True
  | n, x :: xs => x.inp.mm.cc = BitVec.ofNat 32 n ∧ CountedFrom (n + 1) xs

/-- The readings and the number of a cycle. -/
def readings {L : Orb.Lib} (x : SysStep L) : U32 × Rat × Rat × Rat := (x.inp.mm.cc, x.inp.pressure, x.inp.temp2, x.inp.temp1)

/-- The same of a cycle of the propulsion controller. -/
def propReadings (y : PropCycle) : U32 × Rat × Rat × Rat := (y.env.cc, y.env.pressure, y.env.temp2, y.env.temp1)

/-- The orbit controller may plan a manoeuvre in a cycle that ends in `s'`: the estimates of time, orbit, relative orbit and attitude are
valid, and the satellite is following the other one. -/
def MayPlan {L : Orb.Lib} (i : SysIn L) (s' : Sys L) : Prop := MayAct { i.orb with mission := s'.mm.fh.mission }

end Spec
open Spec Ctl

namespace Ctl

theorem writes_append (c : Ctl) (a b : List PropWrite) : c.writes (a ++ b) = (c.writes a).writes b := by
  unfold writes
  rw [List.foldl_append]

theorem write_interrupts (c : Ctl) (w : PropWrite) (n : Nat) : (c.write w).interrupts n = (c.interrupts n).write w := by
  cases w with
  | fault i op => cases i <;> rfl
  | _ => rfl

theorem writes_interrupts (ws : List PropWrite) : ∀ (c : Ctl) (n : Nat), (c.writes ws).interrupts n = (c.interrupts n).writes ws := by
  induction ws with
  | nil => intro c n; rfl
  | cons w ws ih =>
    intro c n
    show ((c.write w).writes ws).interrupts n = ((c.interrupts n).write w).writes ws
    rw [ih, write_interrupts]

/-- Writes of the mission manager: faults are only asked for, and nothing is changed but the state and the limit of venting. -/
def Polls (ws : List PropWrite) : Prop := ∀ w ∈ ws, (∃ i, w = .fault i .poll) ∨ (∃ v, w = .maxVent v) ∨ ∃ v, w = .state v

theorem Polls.append {a b : List PropWrite} (ha : Polls a) (hb : Polls b) : Polls (a ++ b) := fun w h =>
  (List.mem_append.mp h).elim (ha w) (hb w)

theorem Polls.fault {a : List PropWrite} (ha : Polls a) (i : PropFaultId) (op : FaultOp) (h : PropWrite.fault i op ∈ a) : op = .poll := by
  rcases ha _ h with ⟨j, e⟩ | ⟨v, e⟩ | ⟨v, e⟩
  · exact (PropWrite.fault.inj e).2
  · cases e
  · cases e

theorem Polls.single {w : PropWrite} (h : (∃ i, w = .fault i .poll) ∨ (∃ v, w = .maxVent v) ∨ ∃ v, w = .state v) : Polls [w] := fun x hx => by
  rw [List.mem_singleton] at hx
  rw [hx]; exact h

theorem writes_state (c : Ctl) (ws : List PropWrite) (h : ∀ x, PropWrite.state x ∉ ws) : (c.writes ws).state = c.state :=
  (writes_frame ws c).2.2.2.2.elim id fun ⟨x, hx, _⟩ => absurd hx (h x)

theorem asked_isFaulted {f g : Fault} (h : f.Asked g) : g.isFaulted = f.isFaulted := by
  obtain ⟨k, rfl⟩ := h
  induction k with
  | zero => rfl
  | succ k ih => rw [Function.iterate_succ_apply', Fault.isFaulted_poll]; exact ih

theorem writes_both (c : Ctl) (ws : List PropWrite) (hp : Polls ws) (hs : ∀ x, PropWrite.state x ∉ ws) (h : BothTanks (c.writes ws)) :
    BothTanks c := by
  obtain ⟨h1, h2, h3⟩ := h
  obtain ⟨⟨a, b, d⟩, -⟩ := writes_asked ws c (fun i op hm => Or.inr (hp.fault i op hm))
  refine ⟨?_, ?_, (writes_state c ws hs).symm.trans h3⟩
  · unfold Tank1Faulted at h1 ⊢
    rw [← asked_isFaulted d]; exact h1
  · unfold Tank2Faulted at h2 ⊢
    rw [← asked_isFaulted b, ← asked_isFaulted a]; exact h2

end Ctl

/-! ### What the tasks before the propulsion controller write -/

/-- The polls of the propulsion fault handler. -/
theorem both_writes (c : Ctl) : ∃ ws, ({ c with faults := (PropFH.both c.faults).2 } : Ctl) = c.writes ws ∧ Polls ws ∧
    ∀ x, PropWrite.state x ∉ ws := by
  by_cases h : c.faults.temp2.isFaulted = true
  · refine ⟨[.fault .temp1 .poll, .fault .temp2 .poll], ?_, ?_, ?_⟩
    · unfold PropFH.both PropFaults.wants1 PropFaults.wants2
      dsimp only
      rw [if_pos h]
      rfl
    · exact (Polls.single (.inl ⟨_, rfl⟩)).append (Polls.single (.inl ⟨_, rfl⟩))
    · intro x hx; simp at hx
  · refine ⟨[.fault .temp1 .poll, .fault .temp2 .poll, .fault .over .poll], ?_, ?_, ?_⟩
    · unfold PropFH.both PropFaults.wants1 PropFaults.wants2
      dsimp only
      rw [if_neg h]
      rfl
    · exact (Polls.single (.inl ⟨_, rfl⟩)).append ((Polls.single (.inl ⟨_, rfl⟩)).append (Polls.single (.inl ⟨_, rfl⟩)))
    · intro x hx; simp at hx

theorem propFH_writes (h : PropFH) (c : Ctl) : ∃ ws, (h.execute c).2.2 = c.writes ws ∧ Polls ws ∧
    ∀ x, PropWrite.state x ∈ ws → x = Prp.disabled ∧ BothTanks c := by
  unfold PropFH.execute
  dsimp only
  split
  · exact ⟨[], rfl, nofun, nofun⟩
  obtain ⟨ws, h1, h2, h3⟩ := both_writes c
  have hb := PropFH.both_spec c.faults
  generalize PropFH.both c.faults = q at h1 hb ⊢
  obtain ⟨b, f⟩ := q
  dsimp only at h1 hb ⊢
  generalize (if h.notInit = true then { h with saved := c.maxVent, notInit := false } else h : PropFH) = k
  have single : ∀ v, ∃ ws, ({ c with faults := f, maxVent := v } : Ctl) = c.writes ws ∧ Polls ws ∧
      ∀ x, PropWrite.state x ∈ ws → x = Prp.disabled ∧ BothTanks c := by
    intro v
    refine ⟨ws ++ [.maxVent v], ?_, h2.append (Polls.single (.inr (.inl ⟨_, rfl⟩))), ?_⟩
    · rw [writes_append, ← h1]; rfl
    · intro x hx
      rcases List.mem_append.mp hx with hx | hx
      · exact absurd hx (h3 x)
      · simp at hx
  split
  · rename_i hbt
    have hboth := hb.1.1 hbt
    unfold PropFH.handleBoth
    dsimp only
    split
    · exact single 1
    split
    · rename_i hst
      split
      · refine ⟨ws ++ [.state Prp.disabled, .maxVent k.saved], ?_,
          h2.append (Polls.append (a := [_]) (b := [_]) (Polls.single (.inr (.inr ⟨_, rfl⟩))) (Polls.single (.inr (.inl ⟨_, rfl⟩)))), ?_⟩
        · rw [writes_append, ← h1]; rfl
        · intro x hx
          rcases List.mem_append.mp hx with hx | hx
          · exact absurd hx (h3 x)
          · simp only [List.mem_cons, PropWrite.state.injEq, List.not_mem_nil, or_false, reduceCtorEq] at hx
            exact ⟨hx, hboth.1, hboth.2, hst⟩
      · exact ⟨ws, h1, h2, fun x hx => absurd hx (h3 x)⟩
    · exact ⟨ws, h1, h2, fun x hx => absurd hx (h3 x)⟩
  · exact single k.saved

theorem handlers_writes (s : FHState) (cc : U32) : ∃ ws, (s.execute cc).2.ctl = s.ctl.writes ws ∧ Polls ws ∧
    ∀ x, PropWrite.state x ∈ ws → x = Prp.disabled ∧ BothTanks s.ctl := by
  unfold FHState.execute MainFH.execute
  split
  · exact ⟨[], rfl, nofun, nofun⟩
  · refine mainLoop_inv (fun t : FHState => ∃ ws, t.ctl = s.ctl.writes ws ∧ Polls ws ∧
      ∀ x, PropWrite.state x ∈ ws → x = Prp.disabled ∧ BothTanks s.ctl) _ ?_ _ _ ⟨[], rfl, nofun, nofun⟩
    intro m hm t ⟨ws, h1, h2, h3⟩
    simp only [FHState.handlers, List.mem_cons, List.not_mem_nil, or_false] at hm
    rcases hm with rfl | rfl | rfl | rfl | rfl | rfl | rfl | rfl | rfl | rfl
    · exact ⟨ws, h1, h2, h3⟩
    · exact ⟨ws, h1, h2, h3⟩
    · exact ⟨ws, h1, h2, h3⟩
    · exact ⟨ws, h1, h2, h3⟩
    · exact ⟨ws, h1, h2, h3⟩
    · show ∃ ws, ({ t.ctl with faults := { t.ctl.faults with press := (SimpleFH.execute 2 .standby t.mission t.ctl.faults.press).2 } } : Ctl) = s.ctl.writes ws ∧ _
      unfold SimpleFH.execute
      split
      · refine ⟨ws ++ [.fault .press .poll], ?_, h2.append (Polls.single (.inl ⟨_, rfl⟩)), ?_⟩
        · rw [writes_append, ← h1]; rfl
        · intro x hx
          rcases List.mem_append.mp hx with hx | hx
          · exact h3 x hx
          · simp at hx
      · exact ⟨ws, h1, h2, h3⟩
    · exact ⟨ws, h1, h2, h3⟩
    · exact ⟨ws, h1, h2, h3⟩
    · exact ⟨ws, h1, h2, h3⟩
    · show ∃ ws, (PropFH.execute t.prop t.ctl).2.2 = s.ctl.writes ws ∧ _
      obtain ⟨vs, k1, k2, k3⟩ := propFH_writes t.prop t.ctl
      refine ⟨ws ++ vs, by rw [k1, h1, writes_append], h2.append k2, ?_⟩
      intro x hx
      rcases List.mem_append.mp hx with hx | hx
      · exact h3 x hx
      · obtain ⟨e1, e2⟩ := k3 x hx
        refine ⟨e1, ?_⟩
        by_cases hn : ∃ v, PropWrite.state v ∈ ws
        · obtain ⟨v, hv⟩ := hn
          exact (h3 v hv).2
        · rw [h1] at e2
          exact writes_both _ ws h2 (fun v hv => hn ⟨v, hv⟩) e2

theorem startup_writes (t t' : MM) (i : MMIn) (he : t.dispatchStartup i = some t') :
    t'.fh.ctl = t.fh.ctl ∧ t'.fh.mission = t.fh.mission ∨
      t'.fh.ctl = t.fh.ctl.writes [.state Prp.idle] ∧ t'.fh.mission ≠ Mission.startup := by
  unfold MM.dispatchStartup at he
  dsimp only at he
  split at he
  · cases he
  split at he
  · split at he <;> (cases he; exact Or.inl ⟨rfl, rfl⟩)
  generalize hq : (if t.fh.radio.state = Radio.disabled then _ else _ : MM) = k at he
  have hkf : k.fh.ctl = t.fh.ctl := by rw [← hq]; split <;> rfl
  have h1 : k.hwPolled.fh.ctl = t.fh.ctl := (hwPolled_ctl k).trans hkf
  split at he
  · cases he
    refine Or.inr ⟨?_, by show Mission.initializationHold ≠ _; decide⟩
    rw [← h1]; rfl
  · cases he
    refine Or.inr ⟨?_, by show Mission.detumble ≠ _; decide⟩
    rw [← h1]; rfl

theorem dispatch_writes (t t' : MM) (i : MMIn) (m : U8) (hm : m ≠ Mission.startup) (he : t.dispatch i m = some t') :
    t'.fh.ctl = t.fh.ctl := by
  unfold MM.dispatch at he
  rw [if_neg hm] at he
  split at he
  · cases he; unfold MM.dispatchDetumble; split_ifs <;> rfl
  split at he
  · cases he; rfl
  split at he
  · cases he; unfold MM.dispatchStandby; split_ifs <;> rfl
  split at he
  · cases he; unfold MM.dispatchFar; split_ifs <;> rfl
  split at he
  · cases he; unfold MM.dispatchFar; split_ifs <;> rfl
  split at he
  · cases he; unfold MM.dispatchClose; split_ifs <;> rfl
  split at he
  · cases he; unfold MM.dispatchDocking; dsimp only; split_ifs <;> rfl
  split at he
  · cases he; rfl
  split at he
  · cases he; unfold MM.dispatchSafehold; split_ifs <;> rfl
  split at he
  · cases he; rfl
  · cases he; rfl

/-- Everything the mission manager does to the propulsion controller in a cycle, as writes; and when its state is among them. -/
theorem manager_writes (s s' : MM) (i : MMIn) (he : s.execute i = some s') : ∃ ws, s'.fh.ctl = s.fh.ctl.writes ws ∧ Polls ws ∧
    (∀ x, PropWrite.state x ∈ ws → x = Prp.disabled ∨ (x = Prp.idle ∧ s.fh.mission = Mission.startup ∧ s'.fh.mission ≠ Mission.startup)) ∧
    ((∃ x, PropWrite.state x ∈ ws) → SafeholdFault s i.cc ∨ s.fh.mission = Mission.startup ∨ BothTanks s.fh.ctl) := by
  obtain ⟨ws, h1, h2, h3⟩ := handlers_writes s.fh i.cc
  have ha : (s.afterFaults i.cc).fh.ctl = s.fh.ctl.writes ws := h1
  rcases MM.execute_cases s i with ⟨_, _, hr, e⟩ | ⟨_, _, _, _, _, _, _, e⟩ | ⟨_, _, e⟩
  · rw [e] at he; cases he
    refine ⟨ws ++ [.state Prp.disabled], ?_, h2.append (Polls.single (.inr (.inr ⟨_, rfl⟩))), ?_, fun _ => Or.inl ((safeholdFault_iff s i.cc).2 hr)⟩
    · rw [writes_append, ← ha]; rfl
    · intro x hx
      rcases List.mem_append.mp hx with hx | hx
      · exact Or.inl (h3 x hx).1
      · simp only [List.mem_cons, PropWrite.state.injEq, List.not_mem_nil, or_false] at hx
        exact Or.inl hx
  · rw [e] at he; cases he
    exact ⟨ws, ha, h2, fun x hx => Or.inl (h3 x hx).1, fun ⟨x, hx⟩ => Or.inr (Or.inr (h3 x hx).2)⟩
  · rw [e] at he
    by_cases hm : s.fh.mission = Mission.startup
    · rw [hm] at he
      rcases startup_writes _ _ i (show (s.afterFaults i.cc).dispatchStartup i = some s' from he) with ⟨g1, -⟩ | ⟨g1, g2⟩
      · exact ⟨ws, g1.trans ha, h2, fun x hx => Or.inl (h3 x hx).1, fun _ => Or.inr (Or.inl hm)⟩
      · refine ⟨ws ++ [.state Prp.idle], ?_, h2.append (Polls.single (.inr (.inr ⟨_, rfl⟩))), ?_, fun _ => Or.inr (Or.inl hm)⟩
        · rw [writes_append, ← ha]; exact g1
        · intro x hx
          rcases List.mem_append.mp hx with hx | hx
          · exact Or.inl (h3 x hx).1
          · simp only [List.mem_cons, PropWrite.state.injEq, List.not_mem_nil, or_false] at hx
            exact Or.inr ⟨hx, hm, g2⟩
    · exact ⟨ws, (dispatch_writes _ _ i _ hm he).trans ha, h2, fun x hx => Or.inl (h3 x hx).1,
        fun ⟨x, hx⟩ => Or.inr (Or.inr (h3 x hx).2)⟩

theorem edge_startup (s h : MM) (i : MMIn) (a b : U8) (e : Edge s h i a b) : b ≠ Mission.startup := by
  cases e <;> decide

variable {L : Orb.Lib}

theorem runOrbit_writes (ρ : Orb.Rounding) (s s' : Sys L) (i : SysIn L) (h : s.runOrbit ρ i = some s') : ∃ n a b d e,
    s'.mm.fh.ctl = s.mm.fh.ctl.writes [.countdown n, .sched a b d e] ∧ s'.mm.fh.mission = s.mm.fh.mission ∧
    (n ≠ s.mm.fh.ctl.countdown → s.mm.fh.ctl.state = Prp.idle ∧ MayPlan i s') := by
  unfold Sys.runOrbit at h
  dsimp only at h
  split at h
  · cases h
  · rename_i o n hex
    cases h
    exact ⟨n, o.valves.1, o.valves.2.1, o.valves.2.2.1, o.valves.2.2.2, rfl, rfl,
      fun hn => ⟨(C90_countdown ρ _ _ _ n hex hn).2.1,
        let g := (C90_countdown ρ _ _ _ n hex hn).1
        ⟨g.time, g.orbit, g.relative, g.attitude, g.mission⟩⟩⟩

theorem runProp_fields (s : Sys L) (i : SysIn L) : (s.runProp i).dcdc = s.dcdc ∧ (s.runProp i).mm.fh.mission = s.mm.fh.mission ∧
    (s.runProp i).mm.fh.ctl = (s.mm.fh.ctl.interrupts i.ticks2).execute ⟨i.mm.cc, s.dcdc.sph, i.pressure, i.temp2, i.temp1⟩ := ⟨rfl, rfl, rfl⟩

/-- One cycle of the composed tasks is one cycle of the propulsion controller, the rest being writes and interrupts: what the mission
manager writes, and then the plan of the orbit controller, which keeps the countdown unless the propulsion system is idle. -/
theorem cycle_writes (ρ : Orb.Rounding) (s s' : Sys L) (i : SysIn L) (msgs : List (List U8)) (h : s.cycle ρ i = some (s', msgs)) :
    ∃ ws n a b d e, s'.mm.fh.ctl = s.mm.fh.ctl.cycle
      ⟨i.ticks1, ws ++ [.countdown n, .sched a b d e], i.ticks2, ⟨i.mm.cc, s'.dcdc.sph, i.pressure, i.temp2, i.temp1⟩⟩ ∧ Polls ws ∧
    (n ≠ ((s.mm.fh.ctl.interrupts i.ticks1).writes ws).countdown →
      ((s.mm.fh.ctl.interrupts i.ticks1).writes ws).state = Prp.idle ∧ MayPlan i s') ∧
    (∀ x, PropWrite.state x ∈ ws → x = Prp.disabled ∨
      (x = Prp.idle ∧ s.mm.fh.mission = Mission.startup ∧ s'.mm.fh.mission ≠ Mission.startup)) ∧
    ((∃ x, PropWrite.state x ∈ ws) → SafeholdFault s.mm i.mm.cc ∨ s.mm.fh.mission = Mission.startup ∨ BothTanks s.mm.fh.ctl) ∧
    (s'.mm.fh.mission = Mission.startup → s.mm.fh.mission = Mission.startup) := by
  unfold Sys.cycle at h
  dsimp only at h
  split at h
  · cases h
  rename_i mm hmm
  obtain ⟨ws, h1, h2, h3, h4⟩ := manager_writes _ _ _ hmm
  have h1 : mm.fh.ctl = (s.mm.fh.ctl.interrupts i.ticks1).writes ws := h1
  have h3 : ∀ x, PropWrite.state x ∈ ws → x = Prp.disabled ∨
      (x = Prp.idle ∧ s.mm.fh.mission = Mission.startup ∧ mm.fh.mission ≠ Mission.startup) := h3
  have h4 : (∃ x, PropWrite.state x ∈ ws) → SafeholdFault s.mm i.mm.cc ∨ s.mm.fh.mission = Mission.startup ∨ BothTanks s.mm.fh.ctl := h4
  have h5 : mm.fh.mission = Mission.startup → s.mm.fh.mission = Mission.startup := by
    intro hs
    by_contra hne
    exact edge_startup _ _ _ _ _ (C60_edges _ _ _ hmm (fun he => hne (he.symm.trans hs))) hs
  split at h
  · cases h
  rename_i s2 m hatt
  obtain ⟨a1, a2, -⟩ := Sys.runAttitude_spec hatt
  have b1 : s2.mm.fh = mm.fh := by rw [a1]; exact (Sys.runDcdc_mm _).1
  split at h
  · cases h
  rename_i s3 horb
  obtain ⟨n, a, b, d, e, o1, o3, o4⟩ := runOrbit_writes ρ s2 s3 i horb
  obtain ⟨p1, p2, p3⟩ := runProp_fields s3 i
  simp only [Option.some.injEq, Prod.mk.injEq] at h
  obtain ⟨rfl, -⟩ := h
  have hmis : (s3.runProp i).mm.fh.mission = mm.fh.mission := p2.trans (o3.trans (congrArg (·.mission) b1))
  refine ⟨ws, n, a, b, d, e, ?_, h2, ?_, ?_, h4, ?_⟩
  · rw [p3, p1, o1, b1, h1, ← writes_append]
    rfl
  · rw [← h1, ← b1]
    intro hn
    exact o4 hn
  · intro x hx
    rw [hmis]
    exact h3 x hx
  · rw [hmis]; exact h5

/-- The same for a step, with what the others do before it. -/
theorem step_writes (ρ : Orb.Rounding) (s s' : Sys L) (x : SysStep L) (msgs : List (List U8)) (hx : LeavesPropulsion x)
    (h : (x.others s).cycle ρ x.inp = some (s', msgs)) :
    ∃ ws, s'.mm.fh.ctl = s.mm.fh.ctl.cycle ⟨x.inp.ticks1, ws, x.inp.ticks2, ⟨x.inp.mm.cc, s'.dcdc.sph, x.inp.pressure, x.inp.temp2, x.inp.temp1⟩⟩ ∧
    (∀ i op, PropWrite.fault i op ∈ ws → i = .press ∨ op = .poll) ∧
    (∀ v, PropWrite.state v ∈ ws → v = Prp.disabled ∨
      (v = Prp.idle ∧ s.mm.fh.mission = Mission.startup ∧ s'.mm.fh.mission ≠ Mission.startup)) ∧
    ((∃ v, PropWrite.state v ∈ ws) → SafeholdFault (x.others s).mm x.inp.mm.cc ∨ s.mm.fh.mission = Mission.startup ∨ BothTanks s.mm.fh.ctl) ∧
    (s'.mm.fh.mission = Mission.startup → s.mm.fh.mission = Mission.startup) := by
  obtain ⟨hm, ws0, k1, k2, k3⟩ := hx s
  obtain ⟨ws1, n, a, b, d, e, h1, h2, -, h3, h4, h5⟩ := cycle_writes ρ _ _ _ _ h
  have hst1 : ∀ v, PropWrite.state v ∈ ws1 ++ [.countdown n, .sched a b d e] → PropWrite.state v ∈ ws1 := fun v hv =>
    (List.mem_append.mp hv).elim id (fun hv => by simp at hv)
  have h2' : ∀ i op, PropWrite.fault i op ∈ ws1 ++ [.countdown n, .sched a b d e] → op = .poll := fun i op hv =>
    (List.mem_append.mp hv).elim (h2.fault i op) (fun hv => by simp at hv)
  replace h3 : ∀ v, PropWrite.state v ∈ ws1 ++ [.countdown n, .sched a b d e] → _ := fun v hv => h3 v (hst1 v hv)
  replace h4 : (∃ v, PropWrite.state v ∈ ws1 ++ [.countdown n, .sched a b d e]) → _ := fun ⟨v, hv⟩ => h4 ⟨v, hst1 v hv⟩
  generalize ws1 ++ [.countdown n, .sched a b d e] = ws at *
  have hst : ∀ v, PropWrite.state v ∈ ws0 ++ ws → PropWrite.state v ∈ ws := fun v hv =>
    (List.mem_append.mp hv).elim (fun hv => absurd hv (k2 v)) id
  refine ⟨ws0 ++ ws, ?_, ?_, ?_, ?_, fun e => hm (h5 e)⟩
  · rw [h1, k1]
    show ((((s.mm.fh.ctl.writes ws0).interrupts x.inp.ticks1).writes ws).interrupts x.inp.ticks2).execute _ =
      (((s.mm.fh.ctl.interrupts x.inp.ticks1).writes (ws0 ++ ws)).interrupts x.inp.ticks2).execute _
    rw [writes_interrupts ws0 s.mm.fh.ctl, ← writes_append]
  · intro i op hmem
    rcases List.mem_append.mp hmem with hmem | hmem
    · exact k3 i op hmem
    · exact Or.inr (h2' i op hmem)
  · intro v hv
    rcases h3 v (hst v hv) with e | ⟨e1, e2, e3⟩
    · exact Or.inl e
    · exact Or.inr ⟨e1, hm e2, e3⟩
  · rintro ⟨v, hv⟩
    rcases h4 ⟨v, hst v hv⟩ with e | e | ⟨e1, e2, e3⟩
    · exact Or.inl e
    · exact Or.inr (Or.inl (hm e))
    · refine Or.inr (Or.inr ?_)
      rw [k1] at e1 e2 e3
      obtain ⟨⟨a, b, d⟩, -⟩ := writes_asked ws0 s.mm.fh.ctl k3
      refine ⟨?_, ?_, (writes_state _ ws0 k2).symm.trans e3⟩
      · unfold Tank1Faulted at e1 ⊢
        rw [← asked_isFaulted d]; exact e1
      · unfold Tank2Faulted at e2 ⊢
        rw [← asked_isFaulted b, ← asked_isFaulted a]; exact e2

/-! ### Histories -/

/-- While the mission is in startup, propulsion is disabled and nothing is scheduled. -/
def Spec.StartupOff (s : Sys L) : Prop := s.mm.fh.mission = Mission.startup → s.mm.fh.ctl.state = Prp.disabled ∧ Cleared s.mm.fh.ctl

theorem step_refines (ρ : Orb.Rounding) (s s' : Sys L) (x : SysStep L) (msgs : List (List U8)) (hx : LeavesPropulsion x) (hJ : StartupOff s)
    (h : (x.others s).cycle ρ x.inp = some (s', msgs)) :
    ∃ y, s'.mm.fh.ctl = s.mm.fh.ctl.cycle y ∧ propReadings y = readings x ∧ y.env.functional = s'.dcdc.sph ∧ LeavesTankFaults y ∧
      Disciplined s.mm.fh.ctl y ∧ (∀ v, PropWrite.state v ∈ y.writes → v = Prp.disabled ∨ v = Prp.idle) ∧
      (¬ SafeholdFault (x.others s).mm x.inp.mm.cc → s.mm.fh.mission ≠ Mission.startup → ¬ BothTanks s.mm.fh.ctl → NoStateWrite y) ∧
      StartupOff s' := by
  obtain ⟨ws, h1, h2, h3, h4, h5⟩ := step_writes ρ s s' x msgs hx h
  refine ⟨_, h1, rfl, rfl, h2, ?_, ?_, ?_, ?_⟩
  · intro v hv
    rcases h3 v hv with e | ⟨-, e, -⟩
    · exact Or.inl e
    · obtain ⟨a, b⟩ := hJ e
      exact Or.inr ⟨by rw [a]; decide, b⟩
  · intro v hv
    rcases h3 v hv with e | ⟨e, -⟩
    · exact Or.inl e
    · exact Or.inr e
  · intro a b d v hv
    rcases h4 ⟨v, hv⟩ with e | e | e
    · exact a e
    · exact b e
    · exact d e
  · intro hm
    obtain ⟨a, -⟩ := hJ (h5 hm)
    rw [h1]
    obtain ⟨-, -, -, -, f⟩ := beforeExecute_frame s.mm.fh.ctl
      ⟨x.inp.ticks1, ws, x.inp.ticks2, ⟨x.inp.mm.cc, s'.dcdc.sph, x.inp.pressure, x.inp.temp2, x.inp.temp1⟩⟩
    have hd : (s.mm.fh.ctl.beforeExecute
      ⟨x.inp.ticks1, ws, x.inp.ticks2, ⟨x.inp.mm.cc, s'.dcdc.sph, x.inp.pressure, x.inp.temp2, x.inp.temp1⟩⟩).state = Prp.disabled := by
      rcases f with f | ⟨v, hv, f⟩
      · exact f.trans a
      · rcases h3 v hv with e | ⟨-, -, e⟩
        · exact f.trans e
        · exact absurd hm e
    obtain ⟨g1, -, g3⟩ := C39_disabled _ ⟨x.inp.mm.cc, s'.dcdc.sph, x.inp.pressure, x.inp.temp2, x.inp.temp1⟩ (Or.inl hd)
    exact ⟨g1, g3⟩

theorem run_refines (ρ : Orb.Rounding) (xs : List (SysStep L)) : ∀ (s s' : Sys L) (ms : List (List (List U8))), (∀ x ∈ xs, LeavesPropulsion x) →
    StartupOff s → srun ρ s xs = some (s', ms) →
    ∃ ys, s'.mm.fh.ctl = s.mm.fh.ctl.run ys ∧ ys.map propReadings = xs.map readings ∧ DisciplinedRun s.mm.fh.ctl ys ∧
      (∀ y ∈ ys, LeavesTankFaults y ∧ ∀ v, PropWrite.state v ∈ y.writes → v = Prp.disabled ∨ v = Prp.idle) ∧ StartupOff s' := by
  induction xs with
  | nil =>
    intro s s' ms _ hJ h
    have h' := Option.some.inj h
    have e1 := congrArg (·.1) h'
    dsimp only at e1
    subst e1
    exact ⟨[], rfl, rfl, trivial, nofun, hJ⟩
  | cons x xs ih =>
    intro s s' ms hx hJ h
    unfold srun at h
    split at h
    · cases h
    · rename_i s1 m1 h1
      split at h
      · cases h
      · rename_i s2 ms2 h2
        have h' := Option.some.inj h
        have e1 := congrArg (·.1) h'
        dsimp only at e1
        subst e1
        obtain ⟨y, a1, a2, -, a4, a5, a6, -, a8⟩ := step_refines ρ s s1 x m1 (hx x (by simp)) hJ h1
        obtain ⟨ys, b1, b2, b3, b4, b5⟩ := ih s1 s2 ms2 (fun z hz => hx z (by simp [hz])) a8 h2
        refine ⟨y :: ys, ?_, ?_, ⟨a5, ?_⟩, ?_, b5⟩
        · rw [b1, a1]; rfl
        · simp only [List.map_cons, a2, b2]
        · rw [← a1]; exact b3
        · intro z hz
          rcases List.mem_cons.mp hz with rfl | hz
          · exact ⟨a4, a6⟩
          · exact b4 z hz

theorem init_off (m : L.Mem) (p t2 t1 : Rat) (a d : Bool) : StartupOff (Sys.init L m p t2 t1 a d) := fun _ =>
  ⟨rfl, show ∀ v ∈ Driver.init.tank2, v.sched = 0 by decide⟩

/-! ### C131 -/

/-- C131. Whatever happens in the flight software is, for the propulsion controller, a history of its own: with these readings and numbers
of the cycles, in which the state is only written to `disabled` or, in a quiet state with nothing scheduled, to `idle`, and the faults
of the tanks are only asked for. -/
theorem C131_refines (ρ : Orb.Rounding) (m : L.Mem) (p t2 t1 : Rat) (a d : Bool) (xs : List (SysStep L)) (hx : ∀ x ∈ xs, LeavesPropulsion x)
    (s : Sys L) (ms : List (List (List U8))) (h : srun ρ (Sys.init L m p t2 t1 a d) xs = some (s, ms)) :
    ∃ ys, s.mm.fh.ctl = (Ctl.init p t2 t1).run ys ∧ ys.map propReadings = xs.map readings ∧ DisciplinedRun (Ctl.init p t2 t1) ys ∧
      ∀ y ∈ ys, LeavesTankFaults y ∧ ∀ v, PropWrite.state v ∈ y.writes → v = Prp.disabled ∨ v = Prp.idle := by
  obtain ⟨ys, h1, h2, h3, h4, -⟩ := run_refines ρ xs _ _ _ hx (init_off m p t2 t1 a d) h
  exact ⟨ys, h1, h2, h3, h4⟩

theorem Ctl.execute_manual (c : Ctl) (e : PropEnv) (h : (c.execute e).state = Prp.manual) : c.state = Prp.manual := by
  obtain ⟨f, k, -, -, he⟩ := execute_eq c e
  rw [he] at h
  have h' : ((({ c with faults := f, countdown := k } : Ctl).evaluate e).2.transition e
      (({ c with faults := f, countdown := k } : Ctl).evaluate e).1).state = Prp.manual := h
  rcases transition_state (({ c with faults := f, countdown := k } : Ctl).evaluate e).2 e (({ c with faults := f, countdown := k } : Ctl).evaluate e).1 with g | g
  · rcases evaluate_next ({ c with faults := f, countdown := k } : Ctl) e with q | q | q
    · rw [← g, h'] at q; exact absurd q (by decide)
    · rw [← g, h'] at q; exact absurd q (by decide)
    · rw [← g, h'] at q; exact q.symm
  · exact absurd (g.symm.trans h') (by decide)

theorem Ctl.run_not_manual (ys : List PropCycle) : ∀ (c : Ctl), c.state ≠ Prp.manual →
    (∀ y ∈ ys, ∀ v, PropWrite.state v ∈ y.writes → v = Prp.disabled ∨ v = Prp.idle) → (c.run ys).state ≠ Prp.manual := by
  induction ys with
  | nil => intro c h _; exact h
  | cons y ys ih =>
    intro c h hy
    refine ih (c.cycle y) (fun hm => ?_) (fun z hz => hy z (by simp [hz]))
    have hb := execute_manual (c.beforeExecute y) y.env hm
    obtain ⟨-, -, -, -, f⟩ := beforeExecute_frame c y
    rcases f with f | ⟨v, hv, f⟩
    · exact h (f.symm.trans hb)
    · have hv' : v = Prp.manual := f.symm.trans hb
      rcases hy y (by simp) v hv with e | e <;> (rw [hv'] at e; exact absurd e (by decide))

/-- C131. In the flight software, after every history and any number of interrupts of the valve timer: a valve of tank 1 is open only
while the tank is filled from it or it is vented, a valve of tank 2 only while it fires or is vented; the timer runs only while firing;
and outside of firing at most one valve is open. In particular nothing is open in startup, and with propulsion disabled. -/
theorem C131_valves (ρ : Orb.Rounding) (m : L.Mem) (p t2 t1 : Rat) (a d : Bool) (xs : List (SysStep L)) (hx : ∀ x ∈ xs, LeavesPropulsion x)
    (s : Sys L) (ms : List (List (List U8))) (h : srun ρ (Sys.init L m p t2 t1 a d) xs = some (s, ms)) (n : Nat) :
    (∀ j, ValveOpen (s.mm.fh.ctl.interrupts n) .one j →
      s.mm.fh.ctl.state = Prp.pressurizing ∨ (s.mm.fh.ctl.state = Prp.venting ∧ s.mm.fh.ctl.choice = .one)) ∧
    (∀ j, ValveOpen (s.mm.fh.ctl.interrupts n) .two j →
      s.mm.fh.ctl.state = Prp.firing ∨ (s.mm.fh.ctl.state = Prp.venting ∧ s.mm.fh.ctl.choice = .two)) ∧
    (s.mm.fh.ctl.drv.enabled = true → s.mm.fh.ctl.state = Prp.firing) ∧
    (s.mm.fh.ctl.state ≠ Prp.firing → ∀ t j t' j', ValveOpen (s.mm.fh.ctl.interrupts n) t j → ValveOpen (s.mm.fh.ctl.interrupts n) t' j' →
      t = t' ∧ j = j') ∧
    (s.mm.fh.mission = Mission.startup ∨ s.mm.fh.ctl.state = Prp.disabled → Shut s.mm.fh.ctl) := by
  obtain ⟨ys, h1, -, h3, h4, h5⟩ := run_refines ρ xs _ _ _ hx (init_off m p t2 t1 a d) h
  have hi : Inv s.mm.fh.ctl := by rw [h1]; exact run_inv ys _ (init_inv p t2 t1) h3
  have hnm : s.mm.fh.ctl.state ≠ Prp.manual := by
    rw [h1]
    exact run_not_manual ys _ (show Prp.disabled ≠ Prp.manual by decide) (fun y hy => (h4 y hy).2)
  have hi' := inv_ticks hi n
  have hshut : s.mm.fh.ctl.state = Prp.disabled → Shut s.mm.fh.ctl := by
    intro hs
    refine ⟨fun t j ho => ?_, off_of_inv hi (by rw [hs]; decide)⟩
    rcases hi.2.2.2 t j ho with ⟨g, _⟩ | ⟨g, _⟩ | g | ⟨g, _⟩ <;> rw [hs] at g <;> exact absurd g (by decide)
  refine ⟨fun j hj => ?_, fun j hj => ?_, hi.2.1, fun hf t j t' j' ho ho' => ?_, fun hs => hshut (hs.elim (fun e => (h5 e).1) id)⟩
  · rcases hi'.2.2.2 .one j hj with ⟨g, _⟩ | ⟨g, e, _⟩ | g | ⟨_, e⟩
    · exact Or.inl g
    · exact Or.inr ⟨g, e.symm⟩
    · exact absurd g hnm
    · cases e
  · rcases hi'.2.2.2 .two j hj with ⟨_, e, _⟩ | ⟨g, e, _⟩ | g | ⟨g, _⟩
    · cases e
    · exact Or.inr ⟨g, e.symm⟩
    · exact absurd g hnm
    · exact Or.inl g
  · rcases hi'.2.2.2 t j ho with ⟨g, e, q⟩ | ⟨g, e, q⟩ | g | ⟨g, _⟩
    · rcases hi'.2.2.2 t' j' ho' with ⟨_, e', q'⟩ | ⟨g', _⟩ | g' | ⟨g', _⟩
      · exact ⟨e.trans e'.symm, q.trans q'.symm⟩
      · exact absurd (g.symm.trans g') (by decide)
      · exact absurd g' hnm
      · exact absurd g' hf
    · rcases hi'.2.2.2 t' j' ho' with ⟨g', _⟩ | ⟨_, e', q'⟩ | g' | ⟨g', _⟩
      · exact absurd (g.symm.trans g') (by decide)
      · exact ⟨e.trans e'.symm, q.trans q'.symm⟩
      · exact absurd g' hnm
      · exact absurd g' hf
    · exact absurd g hnm
    · exact absurd g hf

theorem numbered_of_counted (ys : List PropCycle) : ∀ (n : Nat) (xs : List (SysStep L)), ys.map propReadings = xs.map readings → CountedFrom n xs →
    Numbered n ys := by
  induction ys with
  | nil => intro n xs _ _; trivial
  | cons y ys ih =>
    intro n xs h hc
    cases xs with
    | nil => cases h
    | cons x xs =>
      rw [List.map_cons, List.map_cons, List.cons.injEq] at h
      exact ⟨(congrArg (·.1) h.1).trans hc.1, ih (n + 1) xs h.2 hc.2⟩

theorem shows_of_read (t : TankTrouble) {y : PropCycle} {x : SysStep L} (h : propReadings y = readings x) (hr : t.read x) : t.shows y.env := by
  unfold propReadings readings at h
  rw [Prod.mk.injEq, Prod.mk.injEq, Prod.mk.injEq] at h
  obtain ⟨-, h1, h2, h3⟩ := h
  cases t
  · show y.env.pressure > 75; rw [h1]; exact hr
  · show y.env.temp2 > 49; rw [h2]; exact hr
  · show y.env.temp1 > 49; rw [h3]; exact hr

theorem shows_of_reads (t : TankTrouble) (ys : List PropCycle) : ∀ (xs : List (SysStep L)), ys.map propReadings = xs.map readings →
    (∀ x ∈ xs, t.read x) → ∀ y ∈ ys, t.shows y.env := by
  induction ys with
  | nil => intro xs _ _; nofun
  | cons y ys ih =>
    intro xs h hr z hz
    cases xs with
    | nil => cases h
    | cons x xs =>
      rw [List.map_cons, List.map_cons, List.cons.injEq] at h
      rcases List.mem_cons.mp hz with rfl | hz
      · exact shows_of_read t h.1 (hr x (by simp))
      · exact ih xs h.2 (fun w hw => hr w (by simp [hw])) z hz

/-- C131. In the flight software: a tank that has been over its pressure or too hot for eleven cycles, at the end of any history since the
computer started, has a valve open after three more, if the trouble goes on, propulsion was waiting or firing and has power, no fault
sends the satellite to safehold, the other tank is not faulted, and venting is not set to zero openings or a valve that is not there. -/
theorem C131_vented (t : TankTrouble) (ρ : Orb.Rounding) (m : L.Mem) (p t2 t1 : Rat) (a d : Bool) (n0 : Nat) (xs zs : List (SysStep L))
    (x1 x2 x3 : SysStep L) (s0 s1 s2 s3 : Sys L) (ms : List (List (List U8))) (m1 m2 m3 : List (List U8)) (hn0 : 1 ≤ n0)
    (hl : ∀ x ∈ xs ++ zs ++ [x1, x2, x3], LeavesPropulsion x) (hN : CountedFrom n0 (xs ++ zs ++ [x1, x2, x3]))
    (hn : n0 + (xs ++ zs ++ [x1, x2, x3]).length < 2 ^ 32) (hz : 11 ≤ zs.length) (hr : ∀ x ∈ zs ++ [x1, x2], t.read x)
    (h0 : srun ρ (Sys.init L m p t2 t1 a d) (xs ++ zs) = some (s0, ms))
    (h1 : (x1.others s0).cycle ρ x1.inp = some (s1, m1)) (h2 : (x2.others s1).cycle ρ x2.inp = some (s2, m2))
    (h3 : (x3.others s2).cycle ρ x3.inp = some (s3, m3))
    (hw : s0.mm.fh.ctl.state = Prp.idle ∨ s0.mm.fh.ctl.state = Prp.awaitPressurizing ∨ s0.mm.fh.ctl.state = Prp.awaitFiring ∨
      s0.mm.fh.ctl.state = Prp.firing)
    (hp1 : s1.dcdc.sph = true) (hp2 : s2.dcdc.sph = true)
    (hf1 : ¬ SafeholdFault (x1.others s0).mm x1.inp.mm.cc) (hf2 : ¬ SafeholdFault (x2.others s1).mm x2.inp.mm.cc)
    (hf3 : ¬ SafeholdFault (x3.others s2).mm x3.inp.mm.cc)
    (ho1 : t.tank = .one → ¬ Tank2Faulted s1.mm.fh.ctl.faults ∧ ¬ Tank2Faulted s2.mm.fh.ctl.faults)
    (ho2 : t.tank = .two → ¬ Tank1Faulted s1.mm.fh.ctl.faults ∧ ¬ Tank1Faulted s2.mm.fh.ctl.faults)
    (hm : s3.mm.fh.ctl.maxVent ≠ 0) (hv : t.tank = .one → s3.mm.fh.ctl.tank1Valve.toNat < 2) :
    s3.mm.fh.ctl.state = Prp.venting ∧ ∃ j, ValveOpen s3.mm.fh.ctl t.tank j := by
  obtain ⟨ys, r1, r2, r3, r4, r5⟩ := run_refines ρ (xs ++ zs) _ _ _ (fun x hx => hl x (by simp at hx ⊢; tauto)) (init_off m p t2 t1 a d) h0
  obtain ⟨y1, a1, a2, a3, a4, a5, -, a7, a8⟩ := step_refines ρ s0 s1 x1 m1 (hl x1 (by simp)) r5 h1
  obtain ⟨y2, b1, b2, b3, b4, b5, -, b7, b8⟩ := step_refines ρ s1 s2 x2 m2 (hl x2 (by simp)) a8 h2
  obtain ⟨y3, c1, c2, c3, c4, c5, -, c7, c8⟩ := step_refines ρ s2 s3 x3 m3 (hl x3 (by simp)) b8 h3
  have r1 : s0.mm.fh.ctl = (Ctl.init p t2 t1).run ys := r1
  have r3 : DisciplinedRun (Ctl.init p t2 t1) ys := r3
  have not_startup : ∀ s : Sys L, StartupOff s → s.mm.fh.ctl.state ≠ Prp.disabled → s.mm.fh.mission ≠ Mission.startup :=
    fun s hJ hs hm => hs (hJ hm).1
  have ne : ∀ x : U32, x ≠ Prp.idle → x ≠ Prp.awaitPressurizing → x ≠ Prp.awaitFiring → x ≠ Prp.firing → s0.mm.fh.ctl.state ≠ x := by
    intro x p q r s e
    rcases hw with g | g | g | g <;> rw [g] at e
    · exact p e.symm
    · exact q e.symm
    · exact r e.symm
    · exact s e.symm
  have hns1 : NoStateWrite y1 := a7 hf1 (not_startup s0 r5 (ne _ (by decide) (by decide) (by decide) (by decide)))
    (fun hb => ne _ (by decide) (by decide) (by decide) (by decide) hb.2.2)
  -- the history in two parts
  obtain ⟨ys', zs', rfl, ry, rz⟩ : ∃ ys' zs', ys = ys' ++ zs' ∧ ys'.map propReadings = xs.map readings ∧ zs'.map propReadings = zs.map readings := by
    rw [List.map_append] at r2
    obtain ⟨l1, l2, e, e1, e2⟩ := List.map_eq_append_iff.mp r2
    exact ⟨l1, l2, e, e1, e2⟩
  have hall : (ys' ++ zs' ++ [y1] ++ [y2] ++ [y3]).map propReadings = (xs ++ zs ++ [x1, x2, x3]).map readings := by
    simp only [List.map_append, List.map_cons, List.map_nil, ry, rz, a2, b2, c2, List.append_assoc, List.cons_append, List.nil_append]
  have hlen : (ys' ++ zs' ++ [y1] ++ [y2] ++ [y3]).length = (xs ++ zs ++ [x1, x2, x3]).length := by
    have := congrArg List.length hall
    rwa [List.length_map, List.length_map] at this
  have hNum := numbered_of_counted _ _ _ hall hN
  have hzl : 11 ≤ zs'.length := by
    have := congrArg List.length rz
    rw [List.length_map, List.length_map] at this
    omega
  have hLT : ∀ z ∈ ys' ++ zs' ++ [y1] ++ [y2] ++ [y3], LeavesTankFaults z := by
    intro z hz
    simp only [List.mem_append, List.mem_cons, List.not_mem_nil, or_false] at hz
    rcases hz with (((hz | hz) | rfl) | rfl) | rfl
    · exact (r4 z (List.mem_append_left _ hz)).1
    · exact (r4 z (List.mem_append_right _ hz)).1
    · exact a4
    · exact b4
    · exact c4
  have hsh : ∀ z ∈ zs' ++ [y1] ++ [y2], t.shows z.env := by
    refine shows_of_reads t _ (zs ++ [x1, x2]) ?_ hr
    simp only [List.map_append, List.map_cons, List.map_nil, rz, a2, b2, List.append_assoc, List.cons_append, List.nil_append]
  have hwk : AtWork (((Ctl.init p t2 t1).run (ys' ++ zs')).beforeExecute y1) := by
    have e : (((Ctl.init p t2 t1).run (ys' ++ zs')).beforeExecute y1).state = s0.mm.fh.ctl.state := by
      rw [beforeExecute_state _ _ hns1, r1]
    unfold AtWork
    rw [e]
    rcases hw with g | g | g | g
    · exact Or.inl g
    · exact Or.inr (Or.inl g)
    · exact Or.inr (Or.inr (Or.inl g))
    · exact Or.inr (Or.inr (Or.inr (Or.inl g)))
  have e1 : s1.mm.fh.ctl = (Ctl.init p t2 t1).run (ys' ++ zs' ++ [y1]) := by rw [run_snoc, ← r1]; exact a1
  have e2 : s2.mm.fh.ctl = (Ctl.init p t2 t1).run (ys' ++ zs' ++ [y1] ++ [y2]) := by rw [run_snoc, ← e1]; exact b1
  have e3 : s3.mm.fh.ctl = (Ctl.init p t2 t1).run (ys' ++ zs' ++ [y1] ++ [y2] ++ [y3]) := by rw [run_snoc, ← e2]; exact c1
  rw [← hlen] at hn
  have hN2 := (numbered_append _ _ _ hNum).1
  have hN1 := (numbered_append _ _ _ hN2).1
  have hn' : n0 + (ys' ++ zs' ++ [y1] ++ [y2]).length < 2 ^ 32 := by
    simp only [List.length_append, List.length_cons, List.length_nil] at hn ⊢; omega
  have hn'' : n0 + (ys' ++ zs' ++ [y1]).length < 2 ^ 32 := by
    simp only [List.length_append, List.length_cons, List.length_nil] at hn ⊢; omega
  have hs1 := C130_handled t p t2 t1 n0 ys' zs' y1 hn0 hN1 hn'' (fun z hz => hLT z (List.mem_append_left _ (List.mem_append_left _ hz))) hzl
    (fun z hz => hsh z (List.mem_append_left _ (List.mem_append_left _ hz))) hwk (a3.trans hp1)
  rw [← e1] at hs1
  have hns2 : NoStateWrite y2 := by
    refine b7 hf2 (not_startup s1 a8 (by rw [hs1]; decide)) ?_
    rintro ⟨g1, g2, -⟩
    cases ht : t.tank with
    | one => exact (ho1 ht).1 g2
    | two => exact (ho2 ht).1 g1
  have hs2 := (C130_vented t p t2 t1 n0 ys' zs' y1 y2 hn0 hN2 hn' (fun z hz => hLT z (List.mem_append_left _ hz)) hzl
    (fun z hz => hsh z (List.mem_append_left _ hz)) hwk (a3.trans hp1) hns2 (b3.trans hp2)).1
  rw [← e2] at hs2
  have hns3 : NoStateWrite y3 := c7 hf3 (not_startup s2 b8 (by rw [hs2]; decide)) (fun hb => absurd (hs2.symm.trans hb.2.2) (by decide))
  have frame : ∀ (c : Ctl) (e : PropEnv), (c.execute e).maxVent = c.maxVent ∧ (c.execute e).tank1Valve = c.tank1Valve := by
    intro c e
    obtain ⟨st, k, f, p, v, t, s, d, n, _, h⟩ := execute_frame c e
    rw [h]; exact ⟨rfl, rfl⟩
  have hfin := frame (s2.mm.fh.ctl.beforeExecute y3) y3.env
  have c1' : s3.mm.fh.ctl = (s2.mm.fh.ctl.beforeExecute y3).execute y3.env := c1
  rw [← c1'] at hfin
  have := C130_opened t p t2 t1 n0 ys' zs' y1 y2 y3 hn0 hNum hn hLT hzl hsh
    (by
      have key : ∀ (ys : List PropCycle) (c : Ctl), DisciplinedRun c ys → Disciplined (c.run ys) y1 → DisciplinedRun c (ys ++ [y1]) := by
        intro ys
        induction ys with
        | nil => intro c _ h; exact ⟨h, trivial⟩
        | cons y ys ih => intro c h h'; exact ⟨h.1, ih _ h.2 h'⟩
      exact key _ _ r3 (by rw [← r1]; exact a5))
    hwk (a3.trans hp1) hns2 (b3.trans hp2) hns3 (by rw [← e2]; exact fun h => (ho1 h).2) (by rw [← e2]; exact fun h => (ho2 h).2)
    (by rw [← e2, ← hfin.1]; exact hm) (by rw [← e2, ← hfin.2]; exact hv)
  rw [← e3] at this
  exact this

/-! ### A case -/

namespace SysVent

/-- A cycle with the given number and pressure; the ground says nothing. -/
def st (n : Nat) (p : Rat) : SysStep toyOrb :=
  ⟨id, { troubleIn with mm := { troubleIn.mm with cc := BitVec.ofNat 32 n }, ticks1 := 0, ticks2 := 0, pressure := p }⟩

/-- The first cycle: the time since deployment is up, which ends startup. -/
def first : SysStep toyOrb := { st 1 20 with others := fun s => { s with mm := { s.mm with elapsed := 106 } } }

def xs : List (SysStep toyOrb) := [first, st 2 20]
def zs : List (SysStep toyOrb) := (List.range 11).map fun i => st (3 + i) 80

/-- The history of `C131_vented`, with any of the three cycles after it. -/
def hist (ws : List (SysStep toyOrb)) : Option (Sys toyOrb) := (srun PAN.exact (Sys.init toyOrb () 14 20 20 true true) (xs ++ zs ++ ws)).map (·.1)

theorem leaves : ∀ x ∈ xs ++ zs ++ [st 14 80, st 15 80, st 16 80], LeavesPropulsion x := by
  have h1 : ∀ n p, LeavesPropulsion (st n p) := fun n p s => ⟨id, [], rfl, nofun, nofun⟩
  have h2 : LeavesPropulsion first := fun s => ⟨id, [], rfl, nofun, nofun⟩
  intro x hx
  simp only [xs, zs, List.mem_append, List.mem_cons, List.mem_map, List.not_mem_nil, or_false] at hx
  rcases hx with ((rfl | rfl) | ⟨i, -, rfl⟩) | rfl | rfl | rfl
  · exact h2
  all_goals exact h1 _ _

example : CountedFrom 1 (xs ++ zs ++ [st 14 80, st 15 80, st 16 80]) := by
  simp only [xs, zs, List.range, List.range.loop, List.map, List.cons_append, List.nil_append, CountedFrom]
  decide

example : (hist []).map (fun s => (s.mm.fh.ctl.state, s.mm.fh.mission, decide ((s.mm.fh.execute 14).1 = .safehold))) =
    some (Prp.idle, Mission.detumble, false) := by decide +kernel
example : (hist [st 14 80]).map (fun s => (s.mm.fh.ctl.state, s.dcdc.sph, decide (Tank1Faulted s.mm.fh.ctl.faults),
    decide ((s.mm.fh.execute 15).1 = .safehold))) = some (Prp.handlingFault, true, false, false) := by decide +kernel
example : (hist [st 14 80, st 15 80]).map (fun s => (s.mm.fh.ctl.state, s.dcdc.sph, decide (Tank1Faulted s.mm.fh.ctl.faults),
    decide ((s.mm.fh.execute 16).1 = .safehold))) = some (Prp.venting, true, false, false) := by decide +kernel
example : (hist [st 14 80, st 15 80, st 16 80]).map (fun s => (s.mm.fh.ctl.state, s.mm.fh.ctl.maxVent, s.mm.fh.ctl.drv.isValveOpen .two 0)) =
    some (Prp.venting, 20, true) := by decide +kernel

end SysVent

end PAN
