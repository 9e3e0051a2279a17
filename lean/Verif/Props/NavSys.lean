import Verif.Model.NavSys
import Verif.Props.SysAttitude
import Verif.Props.Estimators

/-!
C136: from the sensors to the actuators. The estimators run in front of the control tasks; a manoeuvre of the satellite's own and a torque
of the wheels rest on working sensors.
-/
namespace PAN
namespace Spec

/-- A control cycle: what the other tasks and the ground do to the control tasks before it, what the estimators read, and the rest. -/
structure NavStep (g : Est.Gnc) (L : Orb.Lib) where
  others : Sys L → Sys L
  est : Est.In g
  inp : SysIn L

variable {g : Est.Gnc} {L : Orb.Lib}

/-- Any number of control cycles; also the messages to the attitude box in each. -/
def navRun (ρ : Orb.Rounding) (s : Nav g L) : List (NavStep g L) → Option (Nav g L × List (List (List U8)))
  | [] => some (s, [])
  | w :: ws =>
    match Nav.cycle ρ { s with sys := w.others s.sys } w.est w.inp with
    | none => none
    | some (s', m) =>
      match navRun ρ s' ws with
      | none => none
      | some (s'', ms) => some (s'', m :: ms)

/-- There was a GPS fix, and no reset of the time in its cycle or since. -/
def FixSinceReset (is : List (Est.In g)) : Prop :=
  ∃ pre i post, is = pre ++ i :: post ∧ isFix i.piksi.mode ∧ ∀ j ∈ i :: post, j.timeReset ≠ some true

/-- Something was heard of the other satellite: the receiver has measured the distance to it, or the ground has sent an orbit of it. -/
def HeardOfOther (is : List (Est.In g)) : Prop := ∃ i ∈ is, i.piksi.mode = PiksiMode.fixedRtk ∨ i.upTime ≠ none

/-- The gyroscope and a magnetometer work. -/
def SensorsWork (i : Est.In g) : Prop := i.adcs.gyrOk = true ∧ (i.adcs.mag1Ok = true ∨ i.adcs.mag2Ok = true)

/-- What happens to the control tasks in a cycle. -/
def NavStep.sys (w : NavStep g L) : SysStep L := ⟨w.others, w.inp⟩

end Spec
open Spec ADCS

variable {g : Est.Gnc} {L : Orb.Lib}

/-! ### The relative orbit -/

namespace Est

/-- Nothing has been heard of the other satellite. -/
structure Alone (s : RelSt g) : Prop where
  rel : g.reValid s.rel = false
  orbit : g.orValid s.orbit = false
  up : s.upTime = gpsZero
  queue : s.uplinkT = gpsZero
  state : s.state = .invalid

theorem alone_exec (hs : g.Sane) (s : RelSt g) (t : TimeSt g) (o : OrbitSt g) (p : PiksiIn g) (h : Alone s) (hp : p.mode ≠ PiksiMode.fixedRtk) :
    Alone (s.exec t o p) := by
  unfold RelSt.exec
  split
  · exact ⟨hs.re, hs.or, h.up, rfl, rfl⟩
  · have z : gpsZero.gt gpsZero = false := by decide
    have e1 : s.useUplink t = s := by
      unfold RelSt.useUplink
      rw [if_neg (by rw [h.queue, z]; simp)]
    have e2 : s.takeUplink t = s := by
      unfold RelSt.takeUplink
      dsimp only
      rw [if_neg (by rw [h.up, z]; simp), ← h.up]
    have e3 : s.updateRel t o p = s := by
      unfold RelSt.updateRel
      rw [if_neg hp, if_neg (by rw [h.rel]; simp)]
    rw [e1, e2, e3]
    unfold RelSt.mix
    rw [if_neg (by rw [h.rel]; simp), if_neg (by rw [h.orbit]; simp)]
    exact ⟨h.rel, h.orbit, h.up, h.queue, rfl⟩

theorem alone_run (hs : g.Sane) (is : List (In g)) : ∀ s : All g, Alone s.rel → ¬ HeardOfOther is → Alone (s.run is).rel := by
  induction is with
  | nil => exact fun s h _ => h
  | cons i is ih =>
    intro s h hn
    have h0 : i.piksi.mode ≠ PiksiMode.fixedRtk ∧ i.upTime = none :=
      ⟨fun e => hn ⟨i, by simp, Or.inl e⟩, by by_contra e; exact hn ⟨i, by simp, Or.inr e⟩⟩
    refine ih (s.exec i) ?_ (fun ⟨j, hj, hh⟩ => hn ⟨j, by simp [hj], hh⟩)
    show Alone ((s.write i).rel.exec _ _ i.piksi)
    refine alone_exec hs _ _ _ _ ⟨h.rel, h.orbit, ?_, h.queue, h.state⟩ h0.1
    show i.upTime.getD s.rel.upTime = gpsZero
    rw [h0.2]; exact h.up

theorem heard_of_relative (hs : g.Sane) (is : List (In g)) (h : ((All.init g).run is).rel.state ≠ .invalid) : HeardOfOther is := by
  by_contra hn
  exact h (alone_run hs is (All.init g) ⟨hs.re, hs.or, rfl, rfl, rfl⟩ hn).state

theorem code_ne_zero {m : RelMode} (h : m.code ≠ 0) : m ≠ .invalid := by
  rintro rfl; exact h rfl

end Est

/-! ### The control tasks -/

/-- The same history as the control tasks see it. -/
def navSteps (a : Est.All g) : List (NavStep g L) → List (SysStep L)
  | [] => []
  | w :: ws => ⟨w.others, w.inp.withEstimates (a.exec w.est)⟩ :: navSteps (a.exec w.est) ws

theorem navRun_eq (ρ : Orb.Rounding) (ws : List (NavStep g L)) : ∀ s : Nav g L,
    navRun ρ s ws = (srun ρ s.sys (navSteps s.est ws)).map fun r => (⟨s.est.run (ws.map (·.est)), r.1⟩, r.2) := by
  induction ws with
  | nil => intro s; rfl
  | cons w ws ih =>
    intro s
    unfold navRun navSteps srun Nav.cycle
    dsimp only
    cases h : (w.others s.sys).cycle ρ (w.inp.withEstimates (s.est.exec w.est)) with
    | none => rfl
    | some r =>
      obtain ⟨s', m⟩ := r
      dsimp only [Option.map_some]
      rw [ih ⟨s.est.exec w.est, s'⟩]
      dsimp only
      cases srun ρ s' (navSteps (s.est.exec w.est) ws) with
      | none => rfl
      | some r => rfl

theorem navSteps_append (ws vs : List (NavStep g L)) : ∀ a : Est.All g,
    navSteps a (ws ++ vs) = navSteps a ws ++ navSteps (a.run (ws.map (·.est))) vs := by
  induction ws with
  | nil => intro a; rfl
  | cons w ws ih => intro a; show _ :: navSteps _ (ws ++ vs) = _ :: _; rw [ih]; rfl

theorem navSteps_split (ws : List (NavStep g L)) : ∀ (a : Est.All g) (pre post : List (SysStep L)) (x : SysStep L),
    navSteps a ws = pre ++ x :: post → ∃ wpre w wpost, ws = wpre ++ w :: wpost ∧ pre = navSteps a wpre ∧
      x = ⟨w.others, w.inp.withEstimates (a.run ((wpre ++ [w]).map (·.est)))⟩ := by
  induction ws with
  | nil => intro a pre post x h; cases pre <;> cases h
  | cons w ws ih =>
    intro a pre post x h
    cases pre with
    | nil =>
      simp only [navSteps, List.nil_append, List.cons.injEq] at h
      exact ⟨[], w, ws, rfl, rfl, h.1.symm⟩
    | cons y pre =>
      simp only [navSteps, List.cons_append, List.cons.injEq] at h
      obtain ⟨wpre, v, wpost, e1, e2, e3⟩ := ih _ pre post x h.2
      exact ⟨w :: wpre, v, wpost, by rw [e1]; rfl, by rw [e2, ← h.1]; rfl, e3⟩

theorem navSteps_mem {P : SysStep L → Prop} (ws : List (NavStep g L)) (h : ∀ w ∈ ws, ∀ i, P ⟨w.others, i⟩) : ∀ a : Est.All g,
    ∀ x ∈ navSteps a ws, P x := by
  induction ws with
  | nil => intro a x hx; cases hx
  | cons w ws ih =>
    intro a x hx
    rcases List.mem_cons.mp hx with rfl | hx
    · exact h w (by simp) _
    · exact ih (fun v hv => h v (by simp [hv])) _ x hx

theorem srun_snoc (ρ : Orb.Rounding) (xs : List (SysStep L)) : ∀ (s s1 s2 : Sys L) (x : SysStep L) (ms : List (List (List U8))) (m : List (List U8)),
    srun ρ s xs = some (s1, ms) → (x.others s1).cycle ρ x.inp = some (s2, m) → srun ρ s (xs ++ [x]) = some (s2, ms ++ [m]) := by
  induction xs with
  | nil =>
    intro s s1 s2 x ms m h1 h2
    cases h1
    show (match (x.others s).cycle ρ x.inp with | none => none | some (s', m) => _) = _
    rw [h2]; rfl
  | cons y xs ih =>
    intro s s1 s2 x ms m h1 h2
    unfold srun at h1
    show srun ρ s (y :: (xs ++ [x])) = _
    unfold srun
    cases hc : (y.others s).cycle ρ y.inp with
    | none => rw [hc] at h1; cases h1
    | some r =>
      obtain ⟨s', m0⟩ := r
      rw [hc] at h1
      dsimp only at h1 ⊢
      cases hr : srun ρ s' xs with
      | none => rw [hr] at h1; cases h1
      | some r =>
        obtain ⟨s'', ms0⟩ := r
        rw [hr] at h1
        dsimp only at h1
        cases h1
        rw [ih s' s1 s2 x ms0 m hr h2]; rfl

/-! ### C136 -/

/-- C136. In the flight software with its estimators: if the satellite is about to fire, is firing or has fired, or is filling its tank for
a firing that the ground has not commanded, then there was a control cycle in which it was following the other satellite, its gyroscope and
a magnetometer worked, it had had a GPS fix since the last reset of the time, and it had heard of the other satellite. -/
theorem C136_planned (hg : g.Sane) (ρ : Orb.Rounding) (m : L.Mem) (p t2 t1 : Rat) (a d : Bool) (ws : List (NavStep g L))
    (hx : ∀ w ∈ ws, PlansNothing w.sys) (s : Nav g L) (ms : List (List (List U8)))
    (h : navRun ρ (Nav.init g L m p t2 t1 a d) ws = some (s, ms))
    (hf : s.sys.mm.fh.ctl.state = Prp.awaitPressurizing ∨ s.sys.mm.fh.ctl.state = Prp.pressurizing ∨
      s.sys.mm.fh.ctl.state = Prp.awaitFiring ∨ s.sys.mm.fh.ctl.state = Prp.firing ∨ s.sys.mm.fh.ctl.firings ≠ 0 ∨
      s.sys.mm.fh.ctl.drv.enabled = true) :
    ∃ pre w post s1 ms1, ws = pre ++ w :: post ∧ navRun ρ (Nav.init g L m p t2 t1 a d) (pre ++ [w]) = some (s1, ms1) ∧
      (s1.sys.mm.fh.mission = Mission.follower ∨ s1.sys.mm.fh.mission = Mission.followerCloseApproach) ∧
      SensorsWork w.est ∧ FixSinceReset ((pre ++ [w]).map (·.est)) ∧ HeardOfOther ((pre ++ [w]).map (·.est)) := by
  rw [navRun_eq, Option.map_eq_some_iff] at h
  obtain ⟨⟨t, ms'⟩, h1, h2⟩ := h
  simp only [Prod.mk.injEq] at h2
  obtain ⟨rfl, rfl⟩ := h2
  obtain ⟨pre, x, post, s1, ms1, s2, m', e1, e2, e3, e4, e5, e6, e7, e8⟩ := C133_planned ρ m p t2 t1 a d _
    (navSteps_mem (P := PlansNothing) ws (fun w hw i => hx w hw) _) t ms' h1 hf
  obtain ⟨wpre, w, wpost, f1, f2, f3⟩ := navSteps_split ws (Est.All.init g) pre post x e1
  have hrun : (Est.All.init g).run ((wpre ++ [w]).map (·.est)) = ((Est.All.init g).run (wpre.map (·.est))).exec w.est := by
    rw [List.map_append]; unfold Est.All.run; rw [List.foldl_append]; rfl
  have hsys : srun ρ (Sys.init L m p t2 t1 a d) (navSteps (Est.All.init g) (wpre ++ [w])) = some (s2, ms1 ++ [m']) := by
    rw [navSteps_append, ← f2]
    have hst : navSteps ((Est.All.init g).run (wpre.map (·.est))) [w] = [x] := by
      rw [f3]; show [_] = [_]; rw [hrun]
    rw [hst]
    exact srun_snoc ρ pre _ s1 s2 x ms1 m' e2 e3
  have hatt : ((Est.All.init g).run ((wpre ++ [w]).map (·.est))).att.valid = true := by rw [f3] at e8; exact e8
  have htime : ((Est.All.init g).run ((wpre ++ [w]).map (·.est))).time.valid = true := by rw [f3] at e5; exact e5
  have hrel : ((Est.All.init g).run ((wpre ++ [w]).map (·.est))).rel.state ≠ .invalid := by rw [f3] at e7; exact Est.code_ne_zero e7
  refine ⟨wpre, w, wpost, ⟨(Est.All.init g).run ((wpre ++ [w]).map (·.est)), s2⟩, ms1 ++ [m'], f1, ?_, e4, ?_, (C85_valid_iff _).1 htime, Est.heard_of_relative hg _ hrel⟩
  · rw [navRun_eq]
    show Option.map _ (srun ρ (Sys.init L m p t2 t1 a d) (navSteps (Est.All.init g) (wpre ++ [w]))) = _
    rw [hsys]; rfl
  · rw [hrun] at hatt
    exact ((C54_chain _ w.est).2.2 hatt).2.2

/-- The step for the control tasks. -/
theorem navCycle_some {ρ : Orb.Rounding} {s s' : Nav g L} {e : Est.In g} {i : SysIn L} {msgs : List (List U8)}
    (h : Nav.cycle ρ s e i = some (s', msgs)) : s.sys.cycle ρ (i.withEstimates (s.est.exec e)) = some (s'.sys, msgs) := by
  unfold Nav.cycle at h
  dsimp only at h
  generalize s.sys.cycle ρ (i.withEstimates (s.est.exec e)) = r at h
  cases r with
  | none => cases h
  | some r => cases h; rfl

theorem navRun_some {ρ : Orb.Rounding} {s s' : Nav g L} {ws : List (NavStep g L)} {ms : List (List (List U8))}
    (h : navRun ρ s ws = some (s', ms)) : srun ρ s.sys (navSteps s.est ws) = some (s'.sys, ms) ∧ s'.est = s.est.run (ws.map (·.est)) := by
  rw [navRun_eq] at h
  generalize srun ρ s.sys (navSteps s.est ws) = r at h
  cases r with
  | none => cases h
  | some r => cases h; exact ⟨rfl, rfl⟩

/-- C136, pointing. In the states in which the satellite points, the wheels get a torque, or the rods a moment, other than zero only if in
this cycle the gyroscope and a magnetometer work, and there was a GPS fix since the last reset of the time. -/
theorem C136_pointing (ρ : Orb.Rounding) (m : L.Mem) (p t2 t1 : Rat) (a d : Bool) (ws : List (NavStep g L)) (w : NavStep g L)
    (hx : ∀ v ∈ ws ++ [w], LeavesAttitude v.sys) (s s' : Nav g L) (ms : List (List (List U8))) (msgs : List (List U8))
    (h : navRun ρ (Nav.init g L m p t2 t1 a d) ws = some (s, ms))
    (h' : Nav.cycle ρ { s with sys := w.others s.sys } w.est w.inp = some (s', msgs))
    (hm : s'.sys.mm.fh.mission ∈ [Mission.standby, Mission.leader, Mission.follower, Mission.leaderCloseApproach, Mission.followerCloseApproach])
    (pre : List Box.Ev)
    (hne : lastWheel (pre ++ asEvents msgs) ≠ (2, zeroCode maxTorque) ∨ lastMoment (pre ++ asEvents msgs) ≠ zeroCode maxMoment) :
    SensorsWork w.est ∧ FixSinceReset ((ws ++ [w]).map (·.est)) := by
  obtain ⟨h1, h2⟩ := navRun_some h
  have k1 : (w.others s.sys).cycle ρ (w.inp.withEstimates (s.est.exec w.est)) = some (s'.sys, msgs) := navCycle_some h'
  have hrun : (Est.All.init g).run ((ws ++ [w]).map (·.est)) = s.est.exec w.est := by
    rw [h2, List.map_append]; unfold Est.All.run; rw [List.foldl_append]; rfl
  have told := C135_told ρ m p t2 t1 a d _ (navSteps_mem (P := LeavesAttitude) ws (fun v hv i => hx v (by simp [hv])) _) s.sys ms h1
    ⟨w.others, w.inp.withEstimates (s.est.exec w.est)⟩ (hx w (by simp)) s'.sys msgs k1
  have ho : Oriented (w.inp.withEstimates (s.est.exec w.est)).att := by
    by_contra hno
    have z := (told.pointing hm).2.2 hno pre
    rcases hne with q | q
    · exact q z.1
    · exact q z.2
  obtain ⟨o1, -, o3, -⟩ := ho
  have hatt : (s.est.exec w.est).att.valid = true := o1
  have htime : ((Est.All.init g).run ((ws ++ [w]).map (·.est))).time.valid = true := by rw [hrun]; exact o3
  exact ⟨((C54_chain _ w.est).2.2 hatt).2.2, (C85_valid_iff _).1 htime⟩

/-! ### What the claim does not give: how old the baseline is -/

namespace Est

theorem orbit_kept (hmk : ∀ r v, g.orValid (g.orMk r v) = true) (hprop : ∀ n w o, g.orValid o = true → g.orValid (g.orProp n w o) = true)
    (s : RelSt g) (c : TimeSt g × OrbitSt g × PiksiIn g) (ho : g.orValid s.orbit = true) (hr : s.reset = false)
    (hc : c.1.valid = true ∧ c.2.1.valid = true) :
    (relStep s c).state ≠ .invalid ∧ g.orValid (relStep s c).orbit = true ∧ (relStep s c).reset = false := by
  obtain ⟨t, o, p⟩ := c
  unfold relStep RelSt.exec
  rw [if_neg (by rw [hc.1, hc.2, hr]; simp)]
  have k1 : g.orValid (s.useUplink t).orbit = true ∧ (s.useUplink t).reset = false := by
    unfold RelSt.useUplink
    dsimp only
    split
    · split
      · exact ⟨hprop _ _ _ (hmk _ _), hr⟩
      · exact ⟨ho, hr⟩
    · exact ⟨ho, hr⟩
  generalize s.useUplink t = s1 at k1
  have k2 : g.orValid (s1.takeUplink t).orbit = true ∧ (s1.takeUplink t).reset = false := by
    unfold RelSt.takeUplink
    dsimp only
    split
    · split
      · exact k1
      · exact k1
    · exact k1
  generalize s1.takeUplink t = s2 at k2
  have k3 : g.orValid (s2.updateRel t o p).orbit = true ∧ (s2.updateRel t o p).reset = false := by
    unfold RelSt.updateRel
    dsimp only
    split
    · split
      · exact k2
      · split
        · exact k2
        · exact k2
    · split
      · exact k2
      · exact k2
  generalize s2.updateRel t o p = s3 at k3
  unfold RelSt.mix
  dsimp only
  split
  · split
    · exact ⟨by simp, hmk _ _, k3.2⟩
    · exact ⟨by simp, hmk _ _, k3.2⟩
  · rw [if_pos k3.1]
    exact ⟨by simp, hprop _ _ _ k3.1, k3.2⟩

end Est
open Est

/-- C136, what it does not give: there is no limit on how long ago the satellite has heard of the other one. If the library accepts the
orbits it is given (the hypotheses `hmk` and `hprop`), then the relative orbit, once known, counts as known over any number of cycles
without a baseline and without an uplink, and the orbit controller may plan on it. -/
theorem C136_counterexample_old (hmk : ∀ r v, g.orValid (g.orMk r v) = true) (hprop : ∀ n w o, g.orValid o = true → g.orValid (g.orProp n w o) = true)
    (s : RelSt g) (hs : g.orValid s.orbit = true) (hr : s.reset = false) (js : List (TimeSt g × OrbitSt g × PiksiIn g))
    (hjs : ∀ c ∈ js, c.1.valid = true ∧ c.2.1.valid = true ∧ c.2.2.mode ≠ PiksiMode.fixedRtk) (hn : js ≠ []) :
    (js.foldl relStep s).state.code ≠ 0 := by
  have key : ∀ (js : List (TimeSt g × OrbitSt g × PiksiIn g)) (s : RelSt g), g.orValid s.orbit = true → s.reset = false →
      (∀ c ∈ js, c.1.valid = true ∧ c.2.1.valid = true ∧ c.2.2.mode ≠ PiksiMode.fixedRtk) → (js = [] → s.state ≠ .invalid) →
      (js.foldl relStep s).state ≠ .invalid := by
    intro js
    induction js with
    | nil => exact fun s _ _ _ h => h rfl
    | cons c js ih =>
      intro s h1 h2 h3 _
      obtain ⟨a, b, d⟩ := orbit_kept hmk hprop s c h1 h2 ⟨(h3 c (by simp)).1, (h3 c (by simp)).2.1⟩
      exact ih (relStep s c) b d (fun e he => h3 e (by simp [he])) (fun _ => a)
  have := key js s hs hr hjs (fun e => absurd e hn)
  generalize (js.foldl relStep s).state = q at this
  cases q
  · exact absurd rfl this
  · decide
  · decide

/-! ### A case -/

namespace NavFly
open SysFly

/-- A cycle of the examples of C133, with a receiver in the given mode. -/
def nav (mode : U8) (x : SysStep toyOrb) (n : Nat) : NavStep toy toyOrb := ⟨x.others, toyIn mode 500 (1000 + 170 * n) 10 4 n, x.inp⟩

/-- The satellite follows from its second cycle on, with a receiver in the given mode in its first five cycles, and without a fix later. -/
def flight (mode : U8) : List (NavStep toy toyOrb) :=
  (first :: second :: (List.range 8).map fun i => st (3 + i) (if i < 2 then 20 else 26)).mapIdx fun n x => nav (if n < 5 then mode else PiksiMode.noFix) x n

def final (mode : U8) : Option (Nav toy toyOrb) := (navRun PAN.exact (Nav.init toy toyOrb () 14 20 20 true true) (flight mode)).map (·.1)

end NavFly

theorem flight_plansNothing (mode : U8) : ∀ w ∈ NavFly.flight mode, PlansNothing w.sys := by
  intro w hw
  unfold NavFly.flight at hw
  rw [List.mem_mapIdx] at hw
  obtain ⟨n, hn, rfl⟩ := hw
  have hx := List.getElem_mem hn
  generalize (SysFly.first :: SysFly.second :: (List.range 8).map fun i => SysFly.st (3 + i) (if i < 2 then 20 else 26))[n] = x at hx
  simp only [List.mem_cons, List.mem_map] at hx
  rcases hx with rfl | rfl | ⟨i, -, rfl⟩
  · exact fun s => ⟨[], rfl, nofun, nofun⟩
  · exact fun s => ⟨[.maxPress 1, .fill 1, .cool 1], rfl, by simp, by simp⟩
  · exact fun s => ⟨[], rfl, nofun, nofun⟩

-- `C136_planned`: with baselines in its first five cycles the satellite plans, and fires in the tenth, without a fix at that time
example : toy.Sane ∧ (∀ w ∈ NavFly.flight PiksiMode.fixedRtk, PlansNothing w.sys) ∧
    (NavFly.final PiksiMode.fixedRtk).map (fun t => (t.sys.mm.fh.mission, t.sys.mm.fh.ctl.state, t.sys.mm.fh.ctl.firings)) =
      some (Mission.followerCloseApproach, Prp.firing, 1) := ⟨toy_sane, flight_plansNothing _, by decide +kernel⟩
-- with plain fixes it follows, but does not plan: it has not heard of the other satellite
example : (NavFly.final PiksiMode.spp).map (fun t => (t.sys.mm.fh.mission, t.sys.mm.fh.ctl.state, t.sys.mm.fh.ctl.firings)) =
      some (Mission.follower, Prp.idle, 0) ∧ ¬ HeardOfOther ((NavFly.flight PiksiMode.spp).map (·.est)) := by
  refine ⟨by decide +kernel, ?_⟩
  rintro ⟨i, hi, h⟩
  simp only [NavFly.flight, List.mem_map, List.mem_mapIdx] at hi
  obtain ⟨w, ⟨n, hn, rfl⟩, rfl⟩ := hi
  rcases h with h | h
  · change (if n < 5 then PiksiMode.spp else PiksiMode.noFix) = PiksiMode.fixedRtk at h
    split at h <;> exact absurd h (by decide)
  · exact h rfl
-- `C136_counterexample_old`: the library of the examples accepts every orbit
example : (∀ r v, toy.orValid (toy.orMk r v) = true) ∧ ∀ n w o, toy.orValid o = true → toy.orValid (toy.orProp n w o) = true := by
  refine ⟨fun r v => rfl, fun n w o h => ?_⟩
  cases o
  · cases h
  · rfl

-- `C136_pointing`: the satellite leaves startup, detumbles and points in its third and fourth cycle, with a torque on the first wheel
def NavFly.points : List (NavStep toy toyOrb) := SysCommanded.flight.mapIdx fun n x =>
  { NavFly.nav PiksiMode.spp x n with inp := { x.inp with att := { x.inp.att with frame := some (⟨1, 0, 0⟩, ⟨0, 1, 0⟩, ⟨0, 0, 1⟩), pointing := fun _ _ _ _ => some (⟨1 / 1000, 0, 0⟩, ⟨0, 1 / 100, 0⟩) } } }
example : ∀ w ∈ NavFly.points, LeavesAttitude w.sys := by
  intro w hw
  unfold NavFly.points at hw
  rw [List.mem_mapIdx] at hw
  obtain ⟨n, hn, rfl⟩ := hw
  have hx := List.getElem_mem hn
  generalize SysCommanded.flight[n] = x at hx
  simp only [SysCommanded.flight, List.mem_cons, List.mem_map] at hx
  rcases hx with rfl | ⟨i, -, rfl⟩ <;> exact fun s => ⟨rfl, rfl⟩
example : (navRun PAN.exact (Nav.init toy toyOrb () 14 20 20 true true) NavFly.points).map (fun r =>
    (r.1.sys.mm.fh.mission, r.2.map fun m => decide (lastWheel (asEvents m) = (2, zeroCode maxTorque) ∨ (lastWheel (asEvents m)).1 ≠ 2))) =
    some (Mission.standby, [true, true, false, false]) := by decide +kernel

end PAN
