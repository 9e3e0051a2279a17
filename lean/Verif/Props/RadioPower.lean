import Verif.Props.WatchSys
import Verif.Props.RadioSys

/-!
The power cycle that radio fault handling asks for, followed to the power supply: the request raised by the fault handler in one control
cycle is the one the power supply task acts on in the next.
-/

namespace PAN
open Spec

namespace QuakeFH

/-- Each of the steps that cycles the radio's power begins with a request. -/
theorem execute_requests (h : QuakeFH) (r : RadioIO) (cc : U32) (hn : Cycling (h.execute r cc).2.1.state)
    (ho : (h.execute r cc).2.1.state ≠ h.state) : (h.execute r cc).2.2.powerCycle = true := by
  have nu : ¬ Cycling Qfh.unfaulted := by unfold Cycling; decide
  have nf : ¬ Cycling Qfh.forcedStandby := by unfold Cycling; decide
  have ns : ¬ Cycling Qfh.safehold := by unfold Cycling; decide
  have power : ∀ next, Cycling (h.dispatchPowercycle r cc next).2.1.state → (h.dispatchPowercycle r cc next).2.1.state ≠ h.state →
      (h.dispatchPowercycle r cc next).2.2.powerCycle = true := by
    intro next
    unfold dispatchPowercycle
    dsimp only
    generalize (if h.entry + 1 ≥ cc then ({ r with state := Radio.config } : RadioIO) else r) = q
    split
    · intro a _
      rw [if_pos (fun e => ns (by rw [← e]; exact a))]
    · split
      · intro a _; exact absurd a nu
      · intro _ b; exact absurd rfl b
  revert hn ho
  unfold execute
  split
  · intro _ b; exact absurd rfl b
  split
  · unfold dispatchUnfaulted
    split
    · intro _ b; exact absurd rfl b
    · intro a _; exact absurd a nf
  split
  · unfold dispatchForcedStandby
    split
    · intro _ _; rfl
    · split
      · intro a _; exact absurd a nu
      · intro _ b; exact absurd rfl b
  split
  · exact power _
  split
  · exact power _
  split
  · exact power _
  split
  · unfold dispatchSafehold
    split
    · intro a _; exact absurd a nu
    · intro _ b; exact absurd rfl b
  · intro a _; exact absurd a nu

end QuakeFH

namespace WatchSys
variable {L : Orb.Lib}

/-- The radio's fault handler and its request at the end of a cycle are those the mission manager left. -/
theorem cycle_radio (ρ : Orb.Rounding) (s s' : Sys L) (i : SysIn L) (msgs : List (List U8)) (h : s.cycle ρ i = some (s', msgs))
    (hm : s.mm.fh.mission ≠ Mission.startup) :
    (s'.mm.fh.quake = s.mm.fh.quake ∧ s'.mm.fh.radio = s.mm.fh.radio) ∨
    (s'.mm.fh.quake, s'.mm.fh.radio) = (s.mm.fh.quake.execute s.mm.fh.radio i.mm.cc).2 := by
  unfold Sys.cycle at h
  dsimp only at h
  split at h
  · cases h
  rename_i mm hmm
  obtain ⟨q1, q2⟩ := MM.execute_radio _ _ _ hmm
  have q2 := q2.resolve_right fun h => hm h.1
  split at h
  · cases h
  rename_i s2 m hatt
  obtain ⟨a1, -⟩ := Sys.runAttitude_spec hatt
  have b1 : s2.mm.fh = mm.fh := by rw [a1]; exact (Sys.runDcdc_mm _).1
  split at h
  · cases h
  rename_i s3 horb
  have b3 : s3.mm.fh.quake = s2.mm.fh.quake ∧ s3.mm.fh.radio = s2.mm.fh.radio := by
    unfold Sys.runOrbit at horb
    dsimp only at horb
    split at horb
    · cases horb
    · cases horb; exact ⟨rfl, rfl⟩
  cases h
  rw [b1, q1, q2] at b3
  rcases FHState.execute_quake_radio { s.mm.fh with ctl := s.mm.fh.ctl.interrupts i.ticks1 } i.mm.cc with ⟨g, -⟩ | g
  · obtain ⟨g1, g2⟩ := Prod.mk.inj g
    exact Or.inl ⟨b3.1.trans g1, b3.2.trans g2⟩
  · refine Or.inr (Eq.trans ?_ g)
    exact Prod.ext b3.1 b3.2

end WatchSys

/-- When radio fault handling enters one of the steps that cycle the radio's power, the power supply task of the next control cycle
has the request for the third output, the radio's, and for no other. If that cycle is one in which it switches outputs, it switches the
radio's: off if it was last shown on, else on. Until it has been switched back on the request stays. No other output that nobody else
asked for is switched. -/
theorem C138_power_cycled {L : Orb.Lib} (ρ : Orb.Rounding) (w v w1 w2 : WatchSys L) (cc cc' : U32) (x x' : WatchIn L)
    (r r' : List (List U8) × List (List U8)) (e1 : w.cycle ρ cc x = some (w1, r)) (e2 : w1.cycle ρ cc' x' = some (w2, r'))
    (hv : BeforeManager w cc x v) (hm : v.sys.mm.fh.mission ≠ Mission.startup)
    (hn : QuakeFH.Cycling w1.sys.mm.fh.quake.state) (ho : w1.sys.mm.fh.quake.state ≠ v.sys.mm.fh.quake.state)
    (hcc : cc' ≠ 1) (o : Nat → Bool) :
    ∃ g, w1.gs.execute cc' x'.gs = some (g, r'.1) ∧
      (cc' % w1.gs.period = 0 → switchAll o r'.1 2 = !w1.gs.output 2) ∧
      (¬ (cc' % w1.gs.period = 0 ∧ w1.gs.output 2 = false) → g.pc 2 = true) ∧
      (∀ k, k ≠ 0 → k ≠ 2 → v.gs.pc k = false → switchAll o r'.1 k = o k) := by
  obtain ⟨v', g, h1, h2, h3, h4⟩ := cycle_before e1
  obtain ⟨g0, out0, k1, k2⟩ := hv
  rw [h1] at k1
  obtain ⟨rfl, -⟩ := Prod.mk.inj (Option.some.inj k1)
  rw [← k2] at h2
  subst h2
  have hreq : w1.sys.mm.fh.radio.powerCycle = true := by
    rcases WatchSys.cycle_radio _ _ _ _ _ h3 hm with ⟨g1, -⟩ | g1
    · exact absurd (congrArg QuakeFH.state g1) ho
    · obtain ⟨g2, g3⟩ := Prod.ext_iff.1 g1
      have g2 : w1.sys.mm.fh.quake = _ := g2
      have g3 : w1.sys.mm.fh.radio = _ := g3
      rw [g3]
      exact QuakeFH.execute_requests _ _ _ (by rw [← g2]; exact hn) (by rw [← g2]; exact ho)
  have hpc : w1.gs.pc 2 = true := by rw [h4]; exact hreq
  have hoth : ∀ k, k ≠ 0 → k ≠ 2 → w1.gs.pc k = v'.gs.pc k := by
    intro k a b
    rw [h4]
    show (if k = 0 then _ else if k = 2 then _ else _) = _
    rw [if_neg a, if_neg b]
  obtain ⟨v2, g2, l1, -⟩ := cycle_before e2
  have hper : (w1.gs.prepare cc' x'.gs).period = w1.gs.period := by
    unfold Gs.prepare Gs.firstCycle
    dsimp only
    split <;> rfl
  have hdue : 2 ∈ (w1.gs.prepare cc' x'.gs).dueChannels cc' ↔ cc' % w1.gs.period = 0 := by
    unfold Gs.dueChannels Gs.channels
    rw [hper]
    split
    · rename_i a
      refine ⟨fun _ => a, fun _ => ?_⟩
      split <;> decide
    · rename_i a
      exact ⟨fun b => absurd b (by simp), fun b => absurd b a⟩
  refine ⟨g2, l1, ?_, ?_, ?_⟩
  · intro d
    rw [Gs.switchAll_execute l1, if_neg (by rintro ⟨a, -⟩; cases a),
      if_pos ⟨hdue.2 d, by rw [Gs.prepare_pc _ _ _ hcc]; exact hpc⟩]
  · intro d
    rw [Gs.execute_pc l1 hcc, if_neg (by rw [hdue]; exact d)]
    exact hpc
  · intro k a b c
    rw [Gs.switchAll_execute l1, if_neg (fun h => a h.1), if_neg]
    rintro ⟨-, h⟩
    rw [Gs.prepare_pc _ _ _ hcc, hoth k a b, c] at h
    cases h

namespace MM

/-- What the mission manager does after the fault handlers does not take back the request. -/
theorem execute_request (s t : MM) (i : MMIn) (h : s.execute i = some t) :
    t.fh.radio.powerCycle = (s.fh.execute i.cc).2.radio.powerCycle := by
  by_cases hm : s.fh.mission = Mission.startup
  · rcases execute_cases s i with ⟨_, _, _, g⟩ | ⟨_, _, _, _, _, _, _, g⟩ | ⟨_, _, g⟩
    · rw [g] at h; cases h; rfl
    · rw [g] at h; cases h; rfl
    · rw [g] at h
      have hq : (s.afterFaults i.cc).fh = (s.fh.execute i.cc).2 := rfl
      rw [← hq]
      generalize s.afterFaults i.cc = k at h
      rw [hm, dispatch_startup] at h
      unfold dispatchStartup at h
      have e : ∀ z : MM, z.hwPolled.fh.radio = z.fh.radio := by
        intro z
        unfold hwPolled
        dsimp only
        split_ifs <;> rfl
      split at h
      · cases h
      · split at h
        · split at h <;> cases h <;> rfl
        · dsimp only at h
          generalize hz : (if k.fh.radio.state = Radio.disabled then _ else _ : MM) = z at h
          have hzr : z.fh.radio.powerCycle = k.fh.radio.powerCycle := by rw [← hz]; split <;> rfl
          have e1 := e z
          generalize z.hwPolled = w at h e1
          rw [← hzr, ← e1]
          split at h <;> cases h <;> rfl
  · exact congrArg RadioIO.powerCycle ((execute_radio s t i h).2.resolve_right fun a => hm a.1)

end MM

/-- Radio fault handling never takes back the request. -/
theorem QuakeFH.execute_keeps_request (h : QuakeFH) (r : RadioIO) (cc : U32) (hr : r.powerCycle = true) :
    (h.execute r cc).2.2.powerCycle = true := by
  have power : ∀ next, (h.dispatchPowercycle r cc next).2.2.powerCycle = true := by
    intro next
    unfold dispatchPowercycle
    dsimp only
    have hq : (if h.entry + 1 ≥ cc then ({ r with state := Radio.config } : RadioIO) else r).powerCycle = true := by
      split <;> exact hr
    generalize (if h.entry + 1 ≥ cc then ({ r with state := Radio.config } : RadioIO) else r) = q at hq
    split
    · dsimp only
      split
      · rfl
      · exact hq
    · split <;> exact hq
  unfold execute dispatchUnfaulted dispatchForcedStandby dispatchSafehold
  split
  · exact hr
  split
  · split <;> exact hr
  split
  · split
    · rfl
    · split <;> exact hr
  split
  · exact power _
  split
  · exact power _
  split
  · exact power _
  split
  · split <;> exact hr
  · exact hr

namespace WatchSys
variable {L : Orb.Lib}

theorem cycle_request (ρ : Orb.Rounding) (s s' : Sys L) (i : SysIn L) (msgs : List (List U8)) (h : s.cycle ρ i = some (s', msgs))
    (hr : s.mm.fh.radio.powerCycle = true) : s'.mm.fh.radio.powerCycle = true := by
  unfold Sys.cycle at h
  dsimp only at h
  split at h
  · cases h
  rename_i mm hmm
  have q1 := MM.execute_request _ _ _ hmm
  split at h
  · cases h
  rename_i s2 m hatt
  obtain ⟨a1, -⟩ := Sys.runAttitude_spec hatt
  have b1 : s2.mm.fh = mm.fh := by rw [a1]; exact (Sys.runDcdc_mm _).1
  split at h
  · cases h
  rename_i s3 horb
  have b3 : s3.mm.fh.radio.powerCycle = s2.mm.fh.radio.powerCycle := by
    unfold Sys.runOrbit at horb
    dsimp only at horb
    split at horb
    · cases horb
    · cases horb; rfl
  cases h
  rw [b1, q1] at b3
  refine b3.trans ?_
  rcases FHState.execute_quake_radio { s.mm.fh with ctl := s.mm.fh.ctl.interrupts i.ticks1 } i.mm.cc with ⟨g, -⟩ | g
  · exact (congrArg RadioIO.powerCycle (Prod.mk.inj g).2).trans hr
  · exact (congrArg (fun p => p.2.powerCycle) g).trans (QuakeFH.execute_keeps_request _ _ _ hr)

end WatchSys

namespace Spec

/-- No other task or ground command touches the request for the radio's output or the period of the switching. -/
def LeavesRadioPower {L : Orb.Lib} (x : WatchIn L) : Prop := ∀ w : WatchSys L,
  (x.others w).gs.pc 2 = w.gs.pc 2 ∧ (x.others w).gs.period = w.gs.period

end Spec

theorem request_stays {L : Orb.Lib} (ρ : Orb.Rounding) (P : U32) : ∀ (xs : List (WatchIn L)) (w w' : WatchSys L) (c : Nat),
    w.gs.pc 2 = true → w.gs.period = P → 1 < c → c + xs.length < 2 ^ 32 → (∀ x ∈ xs, LeavesRadioPower x) →
    (∀ k < xs.length, (c + k) % P.toNat ≠ 0) → wrun ρ w c xs = some w' → w'.gs.pc 2 = true ∧ w'.gs.period = P := by
  intro xs
  induction xs with
  | nil => intro w w' c h p _ _ _ _ e; unfold wrun at e; cases e; exact ⟨h, p⟩
  | cons x xs ih =>
    intro w w' c h p hc hl hx hk e
    unfold wrun at e
    split at e
    · cases e
    rename_i w1 r e1
    rw [List.length_cons] at hl
    have hl' : c + (xs.length + 1) < 4294967296 := hl
    obtain ⟨v, g, h1, h2, h3, h4⟩ := cycle_before e1
    have hcc : BitVec.ofNat 32 c ≠ 1 := by
      intro a
      have := congrArg BitVec.toNat a
      rw [BitVec.toNat_ofNat, show (2 : Nat) ^ 32 = 4294967296 from rfl, Nat.mod_eq_of_lt (by omega)] at this
      have t : (1 : U32).toNat = 1 := rfl
      omega
    have hper : (w.gs.prepare (BitVec.ofNat 32 c) x.gs).period = w.gs.period := by
      unfold Gs.prepare Gs.firstCycle
      dsimp only
      split <;> rfl
    have hcn : (BitVec.ofNat 32 c).toNat = c := by
      rw [BitVec.toNat_ofNat, show (2 : Nat) ^ 32 = 4294967296 from rfl]
      exact Nat.mod_eq_of_lt (by omega)
    have hnd : ¬ BitVec.ofNat 32 c % P = 0 := by
      intro a
      have := congrArg BitVec.toNat a
      rw [BitVec.toNat_umod, hcn] at this
      exact hk 0 (by simp) this
    have hg : g.pc 2 = true := by
      rw [Gs.execute_pc h1 hcc, if_neg]
      · exact h
      · rintro ⟨a, -⟩
        unfold Gs.dueChannels at a
        rw [hper, p, if_neg hnd] at a
        cases a
    have hgp : g.period = P := by
      obtain ⟨-, a, -⟩ := Gs.execute_some h1
      rw [a]
      exact hper.trans p
    obtain ⟨l1, l2⟩ := hx x (List.mem_cons_self ..) { w with gs := g, mon := w.mon.execute (BitVec.ofNat 32 c) x.box }
    rw [← h2] at l1 l2
    have hq : w1.gs.pc 2 = true := by
      rw [h4]
      exact WatchSys.cycle_request _ _ _ _ _ h3 (l1.trans hg)
    refine ih w1 w' (c + 1) hq (by rw [h4]; exact l2.trans hgp) (by omega) (by show c + 1 + xs.length < 4294967296; omega)
      (fun y hy => hx y (List.mem_cons_of_mem _ hy)) ?_ e
    intro k hk'
    have := hk (k + 1) (by rw [List.length_cons]; omega)
    rwa [show c + 1 + k = c + (k + 1) by omega]

/-- The request is not lost: when it is there at the start of a cycle, then in the next cycle in which the supply's task switches outputs,
however many cycles later and whatever the faults and the mission states in between, the radio's output is switched off (if it is shown
on; else on). -/
theorem C138_not_lost {L : Orb.Lib} (ρ : Orb.Rounding) (w w' w2 : WatchSys L) (c : Nat) (xs : List (WatchIn L)) (x : WatchIn L)
    (r : List (List U8) × List (List U8)) (h : w.gs.pc 2 = true) (hc : 1 < c) (hl : c + xs.length < 2 ^ 32)
    (hx : ∀ x ∈ xs, LeavesRadioPower x) (hk : ∀ k < xs.length, (c + k) % w.gs.period.toNat ≠ 0) (e : wrun ρ w c xs = some w')
    (hd : (c + xs.length) % w.gs.period.toNat = 0) (e2 : w'.cycle ρ (BitVec.ofNat 32 (c + xs.length)) x = some (w2, r)) (o : Nat → Bool) :
    switchAll o r.1 2 = !w'.gs.output 2 := by
  have hs := request_stays ρ _ xs w w' c h rfl hc hl hx hk e
  obtain ⟨v, g, h1, -⟩ := cycle_before e2
  have hl' : c + xs.length < 4294967296 := hl
  have hcc : BitVec.ofNat 32 (c + xs.length) ≠ 1 := by
    intro a
    have := congrArg BitVec.toNat a
    rw [BitVec.toNat_ofNat, show (2 : Nat) ^ 32 = 4294967296 from rfl, Nat.mod_eq_of_lt hl'] at this
    have t : (1 : U32).toNat = 1 := rfl
    omega
  have hper : (w'.gs.prepare (BitVec.ofNat 32 (c + xs.length)) x.gs).period = w.gs.period := by
    rw [← hs.2]
    unfold Gs.prepare Gs.firstCycle
    dsimp only
    split <;> rfl
  have hdue : BitVec.ofNat 32 (c + xs.length) % w.gs.period = 0 := by
    apply BitVec.eq_of_toNat_eq
    rw [BitVec.toNat_umod, BitVec.toNat_ofNat, show (2 : Nat) ^ 32 = 4294967296 from rfl, Nat.mod_eq_of_lt hl', hd]
    rfl
  rw [Gs.switchAll_execute h1, if_neg (by rintro ⟨a, -⟩; cases a), if_pos]
  refine ⟨?_, by rw [Gs.prepare_pc _ _ _ hcc]; exact hs.1⟩
  unfold Gs.dueChannels Gs.channels
  rw [hper, if_pos hdue]
  split <;> decide

/-- Radio fault handling asks for a power cycle only when it enters one of the power-cycling steps. -/
theorem QuakeFH.execute_no_request (h : QuakeFH) (r : RadioIO) (cc : U32)
    (hn : (h.execute r cc).2.1.state = h.state ∨ ¬ Cycling (h.execute r cc).2.1.state) :
    (h.execute r cc).2.2.powerCycle = r.powerCycle := by
  have power : ∀ next, Cycling next ∨ next = Qfh.safehold → h.state ≠ next →
      (h.dispatchPowercycle r cc next).2.1.state = h.state ∨ ¬ Cycling (h.dispatchPowercycle r cc next).2.1.state →
      (h.dispatchPowercycle r cc next).2.2.powerCycle = r.powerCycle := by
    intro next hnx hne
    unfold dispatchPowercycle
    dsimp only
    have hq : (if h.entry + 1 ≥ cc then ({ r with state := Radio.config } : RadioIO) else r).powerCycle = r.powerCycle := by
      split <;> rfl
    generalize (if h.entry + 1 ≥ cc then ({ r with state := Radio.config } : RadioIO) else r) = q at hq
    split
    · dsimp only
      by_cases e : next = Qfh.safehold
      · intro _; rw [if_neg (fun a => a e)]; exact hq
      · rintro (a | a)
        · exact absurd a.symm hne
        · exact absurd (hnx.resolve_right e) a
    · intro _; split <;> exact hq
  revert hn
  unfold execute
  split
  · intro _; rfl
  split
  · intro _; unfold dispatchUnfaulted; split <;> rfl
  split
  · rename_i hs
    unfold dispatchForcedStandby
    split
    · rintro (a | a)
      · rw [hs] at a; exact absurd a (by show Qfh.powercycle1 ≠ Qfh.forcedStandby; decide)
      · exact absurd (Or.inl rfl) a
    · intro _; split <;> rfl
  split
  · rename_i hs; exact power _ (Or.inl (Or.inr (Or.inl rfl))) (by rw [hs]; decide)
  split
  · rename_i hs; exact power _ (Or.inl (Or.inr (Or.inr rfl))) (by rw [hs]; decide)
  split
  · rename_i hs; exact power _ (Or.inr rfl) (by rw [hs]; decide)
  split
  · intro _; unfold dispatchSafehold; split <;> rfl
  · intro _; rfl

theorem WatchSys.cycle_no_request {L : Orb.Lib} (ρ : Orb.Rounding) (s s' : Sys L) (i : SysIn L) (msgs : List (List U8))
    (h : s.cycle ρ i = some (s', msgs))
    (hn : s'.mm.fh.quake.state = s.mm.fh.quake.state ∨ ¬ QuakeFH.Cycling s'.mm.fh.quake.state) :
    s'.mm.fh.radio.powerCycle = s.mm.fh.radio.powerCycle := by
  unfold Sys.cycle at h
  dsimp only at h
  split at h
  · cases h
  rename_i mm hmm
  have q1 := MM.execute_request _ _ _ hmm
  have q2 := (MM.execute_radio _ _ _ hmm).1
  split at h
  · cases h
  rename_i s2 m hatt
  obtain ⟨a1, -⟩ := Sys.runAttitude_spec hatt
  have b1 : s2.mm.fh = mm.fh := by rw [a1]; exact (Sys.runDcdc_mm _).1
  split at h
  · cases h
  rename_i s3 horb
  have b3 : s3.mm.fh.quake = s2.mm.fh.quake ∧ s3.mm.fh.radio.powerCycle = s2.mm.fh.radio.powerCycle := by
    unfold Sys.runOrbit at horb
    dsimp only at horb
    split at horb
    · cases horb
    · cases horb; exact ⟨rfl, rfl⟩
  cases h
  rw [b1, q1, q2] at b3
  obtain ⟨b3, b4⟩ := b3
  refine b4.trans ?_
  rcases FHState.execute_quake_radio { s.mm.fh with ctl := s.mm.fh.ctl.interrupts i.ticks1 } i.mm.cc with ⟨g, -⟩ | g
  · exact congrArg RadioIO.powerCycle (Prod.mk.inj g).2
  · obtain ⟨g1, g2⟩ := Prod.ext_iff.1 g
    have e : s3.mm.fh.quake = (s.mm.fh.quake.execute s.mm.fh.radio i.mm.cc).2.1 := b3.trans g1
    refine (congrArg RadioIO.powerCycle g2).trans (QuakeFH.execute_no_request _ _ _ ?_)
    have hn : s3.mm.fh.quake.state = s.mm.fh.quake.state ∨ ¬ QuakeFH.Cycling s3.mm.fh.quake.state := hn
    rw [e] at hn
    exact hn

namespace Spec

/-- A run of `N` consecutive control cycles, the first of them number `c0`. `w n` is the state before cycle `c0 + n`, `v n` the state its
mission manager finds, `r n` what is sent, and `o n` the true state of the supply's outputs before that cycle's commands. -/
structure RadioHistory (L : Orb.Lib) (ρ : Orb.Rounding) (P c0 N : Nat) where
  w : Nat → WatchSys L
  v : Nat → WatchSys L
  x : Nat → WatchIn L
  r : Nat → List (List U8) × List (List U8)
  o : Nat → Nat → Bool
  ran : ∀ n < N, (w n).cycle ρ (BitVec.ofNat 32 (c0 + n)) (x n) = some (w (n + 1), r n)
  seen : ∀ n < N, BeforeManager (w n) (BitVec.ofNat 32 (c0 + n)) (x n) (v n)
  /-- the supply obeys -/
  obey : ∀ n < N, o (n + 1) = switchAll (o n) (r n).1
  /-- the supply answers truthfully about the radio's output -/
  good : ∀ n < N, GoodAnswer (x n).gs.hk
  truth : ∀ n < N, (data (x n).gs.hk (32 + 2) ≠ 0 ↔ o n 2 = true)
  /-- nobody but fault handling interferes with the power of the radio -/
  others : ∀ n < N, ∀ u : WatchSys L, ((x n).others u).gs.pc 2 = u.gs.pc 2 ∧ ((x n).others u).gs.output 2 = u.gs.output 2 ∧
    ((x n).others u).gs.period = u.gs.period
  period : (w 0).gs.period = BitVec.ofNat 32 P

/-- Radio fault handling enters none of its power-cycling steps in this run. -/
def RadioHistory.Quiet {L : Orb.Lib} {ρ : Orb.Rounding} {P c0 N : Nat} (H : RadioHistory L ρ P c0 N) : Prop :=
  ∀ n < N, (H.w (n + 1)).sys.mm.fh.quake.state = (H.v n).sys.mm.fh.quake.state ∨ ¬ QuakeFH.Cycling (H.w (n + 1)).sys.mm.fh.quake.state

end Spec

/-- What the supply's task leaves of the power of the radio is what it finds in the next cycle. -/
theorem RadioHistory.step {L : Orb.Lib} {ρ : Orb.Rounding} {P c0 N : Nat} (H : RadioHistory L ρ P c0 N) (q : H.Quiet) (n : Nat) :
    ∃ g, n < N → (H.w n).gs.execute (BitVec.ofNat 32 (c0 + n)) (H.x n).gs = some (g, (H.r n).1) ∧ (H.w (n + 1)).gs.pc 2 = g.pc 2 ∧
      (H.w (n + 1)).gs.output 2 = g.output 2 ∧ (H.w (n + 1)).gs.period = (H.w n).gs.period := by
  by_cases hN : n < N
  swap
  · exact ⟨(H.w n).gs, fun a => absurd a hN⟩
  obtain ⟨v, g, h1, h2, h3, h4⟩ := cycle_before (H.ran n hN)
  obtain ⟨g0, out0, k1, k2⟩ := H.seen n hN
  rw [h1] at k1
  obtain ⟨rfl, -⟩ := Prod.mk.inj (Option.some.inj k1)
  rw [← k2] at h2
  obtain ⟨l1, l2, l3⟩ := H.others n hN { H.w n with gs := g, mon := (H.w n).mon.execute (BitVec.ofNat 32 (c0 + n)) (H.x n).box }
  rw [← k2, ← h2] at l1 l2 l3
  have hq := q n hN
  rw [← h2] at hq
  refine ⟨g, fun _ => ⟨h1, ?_, ?_, ?_⟩⟩
  · rw [h4]
    exact (WatchSys.cycle_no_request _ _ _ _ _ h3 hq).trans l1
  · rw [h4]
    exact l2
  · rw [h4]
    obtain ⟨-, a, -⟩ := Gs.execute_some h1
    refine l3.trans ?_
    rw [a]
    exact Gs.prepare_period _ _ _

/-- A request for the radio's power cycle while the radio's output is on: the output stays on until the first cycle `c` whose number is a
multiple of the power-cycle period, is off from the end of that cycle until the next such cycle (two cycles later if the period is one), and
is on again from then on. For every history of the flight software's tasks of any length, with a truthful and obedient supply, in which
radio fault handling does not enter another power-cycling step (these are a third of a day apart). -/
theorem C138_off_and_on {L : Orb.Lib} {ρ : Orb.Rounding} {P c0 N : Nat} (H : RadioHistory L ρ P c0 N) (q : H.Quiet) (hP0 : 0 < P)
    (hP : P < 2 ^ 32) (h2 : 2 ≤ c0) (cmd : (H.w 0).gs.pc 2 = true) (on : H.o 0 2 = true) (shown : (H.w 0).gs.output 2 = true)
    (c : Nat) (hc0 : c0 ≤ c) (hcP : P ∣ c) (hc : c < c0 + P) (n : Nat) (hN : n < N) (hn : c0 + n < 2 ^ 32) :
    H.o (n + 1) 2 = true ↔ c0 + n < c ∨ c + max P 2 ≤ c0 + n := by
  choose g hg using RadioHistory.step H q
  have hper : ∀ n ≤ N, (H.w n).gs.period = BitVec.ofNat 32 P := by
    intro n
    induction n with
    | zero => intro _; exact H.period
    | succ n ih => intro a; exact (hg n a).2.2.2.trans (ih (by omega))
  have hPz : (BitVec.ofNat 32 P : U32) ≠ 0 := by
    intro a
    have := congrArg BitVec.toNat a
    rw [BitVec.toNat_ofNat, Nat.mod_eq_of_lt hP] at this
    have t : (0 : U32).toNat = 0 := rfl
    omega
  -- after the run the supply's task alone goes on
  obtain ⟨I, hI, hIo⟩ : ∃ I : PowerHistory 2 P (c0 + N), I.g 0 = (H.w N).gs ∧ I.o 0 = H.o N :=
    ⟨idealHistory 2 P (c0 + N) (by decide) ((H.w N).gs, H.o N) (hper N (le_refl _)) hPz (fun a => absurd a (by decide)), rfl, rfl⟩
  have eg : ∀ m ≤ N, (if m < N then (H.w m).gs else I.g (m - N)) = (H.w m).gs := by
    intro m a
    split
    · rfl
    · have : m = N := by omega
      subst this
      rw [Nat.sub_self, hI]
  have eo : ∀ m ≤ N, (if m < N then H.o m else I.o (m - N)) = H.o m := by
    intro m a
    split
    · rfl
    · have : m = N := by omega
      subst this
      rw [Nat.sub_self, hIo]
  let K : PowerHistory 2 P c0 :=
    { g := fun m => if m < N then (H.w m).gs else I.g (m - N)
      g' := fun m => if m < N then g m else I.g' (m - N)
      i := fun m => if m < N then (H.x m).gs else I.i (m - N)
      out := fun m => if m < N then (H.r m).1 else I.out (m - N)
      o := fun m => if m < N then H.o m else I.o (m - N)
      ran := by
        intro m
        by_cases a : m < N
        · simp only [if_pos a]; exact (hg m a).1
        · simp only [if_neg a]
          have := I.ran (m - N)
          rwa [show c0 + N + (m - N) = c0 + m by omega] at this
      obey := by
        intro m
        by_cases a : m < N
        · rw [eo (m + 1) a]; simp only [if_pos a]; exact H.obey m a
        · simp only [if_neg a, if_neg (show ¬ m + 1 < N by omega)]
          rw [show m + 1 - N = m - N + 1 by omega]; exact I.obey _
      good := by
        intro m
        by_cases a : m < N
        · simp only [if_pos a]; exact H.good m a
        · simp only [if_neg a]; exact I.good _
      truth := by
        intro m
        by_cases a : m < N
        · simp only [if_pos a]; exact H.truth m a
        · simp only [if_neg a]; exact I.truth _
      quietCmd := by
        intro m
        by_cases a : m < N
        · rw [eg (m + 1) a]; simp only [if_pos a]; exact (hg m a).2.1
        · simp only [if_neg a, if_neg (show ¬ m + 1 < N by omega)]
          rw [show m + 1 - N = m - N + 1 by omega]; exact I.quietCmd _
      quietOut := by
        intro m
        by_cases a : m < N
        · rw [eg (m + 1) a]; simp only [if_pos a]; exact (hg m a).2.2.1
        · simp only [if_neg a, if_neg (show ¬ m + 1 < N by omega)]
          rw [show m + 1 - N = m - N + 1 by omega]; exact I.quietOut _
      period := by
        intro m
        by_cases a : m < N
        · simp only [if_pos a]; exact hper m (by omega)
        · simp only [if_neg a]; exact I.period _
      piksi := fun a => absurd a (by decide) }
  have k0 : K.g 0 = (H.w 0).gs := eg 0 (by omega)
  have ko : K.o 0 = H.o 0 := eo 0 (by omega)
  have kn : K.o (n + 1) = H.o (n + 1) := eo (n + 1) hN
  rw [← kn]
  exact (C46_power_cycle K (by decide) hP0 hP h2 (by rw [k0]; exact cmd) (by rw [ko]; exact on) (by rw [k0]; exact shown) c hc0 hcP hc n hn).1

/-! ### The hypotheses are met -/

/-- A satellite in standby whose radio fault handler has been forcing standby since cycle 1. -/
def Spec.quiet0 : WatchSys toyOrb :=
  { watched0 with
    sys := { watched0.sys with mm := { watched0.sys.mm with
      fh := { watched0.sys.mm.fh with mission := Mission.standby, quake := { QuakeFH.init with state := Qfh.forcedStandby, entry := 1 } } } } }

/-- A cycle in which the supply shows the radio's output on, with a full battery. -/
def Spec.radioOnIn : WatchIn toyOrb :=
  { fullIn with gs := { fullIn.gs with
      hk := fun k => if k = 0 then 0x08 else if k = 8 then 0x20 else if k = 2 + Gomspace.Off.output + 2 then 1 else 0 } }

/-- The hypotheses of `C138_power_cycled` are met: cycle 508287 is more than a day after cycle 1, and 508288 is a multiple of the period. -/
example : ((quiet0.cycle PAN.exact 508287 radioOnIn).map fun r => (r.1.sys.mm.fh.quake.state, r.1.gs.output 2, r.1.gs.period)) =
    some (Qfh.powercycle1, true, 176) := by decide +kernel
example : quiet0.sys.mm.fh.quake.state ≠ Qfh.powercycle1 ∧ quiet0.sys.mm.fh.mission ≠ Mission.startup ∧ (508288 : U32) % 176 = 0 := by
  decide +kernel
example : ((quiet0.cycle PAN.exact 508287 radioOnIn).bind fun r => (r.1.cycle PAN.exact 508288 radioOnIn).map fun q =>
    q.2.1.filter fun m => m.getD 1 0 == 2) = some [[0x0A, 2, 0, 0, 0]] := by decide +kernel

/-- Likewise for `C138_not_lost`, with the request raised two cycles before. -/
example : LeavesRadioPower radioOnIn := fun _ => ⟨rfl, rfl⟩
example : ((wrun PAN.exact quiet0 508285 [radioOnIn, radioOnIn, radioOnIn]).map fun w => (w.gs.pc 2, w.gs.output 2)) = some (true, true) ∧
    ∀ k < 3, (508285 + k) % 176 ≠ 0 := by decide +kernel

/-- A cycle in which the supply tells the truth about the radio's output. -/
def Spec.radioIn (on : Bool) : WatchIn toyOrb :=
  { fullIn with gs := { fullIn.gs with
      hk := fun k => if k = 0 then 0x08 else if k = 8 then 0x20 else if k = 36 then (if on then 1 else 0) else 0 } }

/-- A satellite with a pending request for the radio's power cycle and a power-cycle period of 3, and what happens to it from cycle 600002. -/
def Spec.radioRun : Nat → WatchSys toyOrb × (Nat → Bool)
  | 0 => ({ quiet0 with
      gs := { quiet0.gs with period := 3, pc := fun k => k == 2, pub := fun _ => 1 }
      sys := { quiet0.sys with mm := { quiet0.sys.mm with
        fh := { quiet0.sys.mm.fh with quake := { QuakeFH.init with state := Qfh.powercycle1, entry := 600001 } } } } }, fun _ => true)
  | n + 1 =>
    match (radioRun n).1.cycle PAN.exact (BitVec.ofNat 32 (600002 + n)) (radioIn ((radioRun n).2 2)) with
    | some (w, r) => (w, switchAll (radioRun n).2 r.1)
    | none => radioRun n

/-- The hypotheses of `C138_off_and_on` are met, for five cycles: the radio is off after cycles 600003, 600004 and 600005, and on after
600006. -/
example : ∃ H : RadioHistory toyOrb PAN.exact 3 600002 5, H.Quiet ∧ (H.w 0).gs.pc 2 = true ∧ H.o 0 2 = true ∧ (H.w 0).gs.output 2 = true ∧
    (List.range 6).map (fun n => H.o n 2) = [true, true, false, false, false, true] := by
  have some5 : ∀ n < 5, ((radioRun n).1.cycle PAN.exact (BitVec.ofNat 32 (600002 + n)) (radioIn ((radioRun n).2 2))).isSome = true := by
    decide +kernel
  have outs : (List.range 6).map (fun n => (radioRun n).2 2) = [true, true, false, false, false, true] := by decide +kernel
  have st : ∀ n ≤ 5, (radioRun n).1.sys.mm.fh.quake.state = Qfh.powercycle1 := by decide +kernel
  have key : ∀ n, ∃ r v, n < 5 → (radioRun n).1.cycle PAN.exact (BitVec.ofNat 32 (600002 + n)) (radioIn ((radioRun n).2 2)) =
      some ((radioRun (n + 1)).1, r) ∧ (radioRun (n + 1)).2 = switchAll (radioRun n).2 r.1 ∧
      BeforeManager (radioRun n).1 (BitVec.ofNat 32 (600002 + n)) (radioIn ((radioRun n).2 2)) v ∧ v.sys = (radioRun n).1.sys := by
    intro n
    by_cases hn : n < 5
    swap
    · exact ⟨([], []), (radioRun n).1, fun a => absurd a hn⟩
    obtain ⟨⟨w, r⟩, hr⟩ := Option.isSome_iff_exists.1 (some5 n hn)
    obtain ⟨v, g, h1, h2, -⟩ := cycle_before hr
    refine ⟨r, v, fun _ => ⟨?_, ?_, ⟨g, r.1, h1, h2⟩, by rw [h2]; rfl⟩⟩
    · rw [hr]; conv_rhs => unfold radioRun
      rw [hr]
    · conv_lhs => unfold radioRun
      rw [hr]
  choose r v hk using key
  have truth : ∀ b : Bool, data (radioIn b).gs.hk (32 + 2) ≠ 0 ↔ b = true := by decide +kernel
  refine ⟨{ w := fun n => (radioRun n).1, v, x := fun n => radioIn ((radioRun n).2 2), r, o := fun n => (radioRun n).2,
            ran := fun n a => (hk n a).1, seen := fun n a => (hk n a).2.2.1, obey := fun n a => (hk n a).2.1,
            good := fun _ _ => ⟨rfl, rfl⟩, truth := fun n _ => truth _, others := fun _ _ _ => ⟨rfl, rfl, rfl⟩, period := rfl },
    ?_, rfl, rfl, rfl, outs⟩
  intro n a
  refine Or.inl ?_
  show (radioRun (n + 1)).1.sys.mm.fh.quake.state = (v n).sys.mm.fh.quake.state
  rw [(hk n a).2.2.2, st (n + 1) a, st n (by omega)]

end PAN
