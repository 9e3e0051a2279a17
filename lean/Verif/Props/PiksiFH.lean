import Verif.Props.FaultHandlers
import Mathlib.Data.List.Induction
/-!
Property C29: the GPS fault handler.
-/
namespace PAN

namespace Spec

/-- What the handler sees in one control cycle. -/
structure GpsIn where
  cc : U32
  mission : U8
  gps : U8
  enterClose : U32
  deriving DecidableEq

/-- The receiver is not delivering data in a mission state in which it should. -/
def NoData (x : GpsIn) : Prop :=
  x.mission ≠ Mission.startup ∧ x.mission ≠ Mission.detumble ∧ x.mission ≠ Mission.initializationHold ∧
  (x.gps = PiksiMode.crcError ∨ x.gps = PiksiMode.noDataError ∨ x.gps = PiksiMode.dataError)

instance (x : GpsIn) : Decidable (NoData x) := by unfold NoData; infer_instance

/-- Number of most recent cycles (of a history, oldest first) in a row without data. -/
def silentFor (ins : List GpsIn) : Nat := (ins.reverse.takeWhile fun x => decide (NoData x)).length

/-- Number of the last cycle with a fixed RTK solution, 0 if there was none. -/
def lastFix : List GpsIn → Nat
  | [] => 0
  | x :: xs => if xs.any (fun y => decide (y.gps = PiksiMode.fixedRtk)) then lastFix xs
      else if x.gps = PiksiMode.fixedRtk then x.cc.toNat else 0

/-- In a close-approach state, and longer than allowed without differential GPS: a day if there has been no fix since entering close
approach, else three hours since the last fix. -/
def NoDifferentialGps (ins : List GpsIn) (x : GpsIn) : Prop :=
  (x.mission = Mission.followerCloseApproach ∨ x.mission = Mission.leaderCloseApproach) ∧
  ((lastFix ins ≤ x.enterClose.toNat ∧ x.enterClose.toNat + 508235 < x.cc.toNat) ∨
   (x.enterClose.toNat < lastFix ins ∧ lastFix ins + 63529 < x.cc.toNat))

/-- The handler after a history. -/
def gpsRun (h : PiksiFH) (ins : List GpsIn) : PiksiFH := ins.foldl (fun h x => (h.execute x.mission x.gps x.enterClose x.cc).2) h

end Spec
open Spec

theorem lastFix_append (ins : List GpsIn) (i : GpsIn) :
    lastFix (ins ++ [i]) = if i.gps = PiksiMode.fixedRtk then i.cc.toNat else lastFix ins := by
  induction ins with
  | nil => simp [lastFix]
  | cons x xs ih =>
    simp only [List.cons_append, lastFix, ih, List.any_append, List.any_cons, List.any_nil, Bool.or_false]
    by_cases h : i.gps = PiksiMode.fixedRtk
    · rw [if_pos h, decide_eq_true h, Bool.or_true, if_pos rfl, if_pos h]
    · rw [if_neg h, decide_eq_false h, Bool.or_false, if_neg h]

theorem silentFor_append (ins : List GpsIn) (i : GpsIn) :
    silentFor (ins ++ [i]) = if NoData i then silentFor ins + 1 else 0 := by
  unfold silentFor
  rw [List.reverse_append, List.reverse_singleton, List.singleton_append, List.takeWhile_cons]
  by_cases h : NoData i
  · rw [if_pos (decide_eq_true h), if_pos h]; rfl
  · rw [if_neg (by simpa using h), if_neg h]; rfl

/-- State of the handler after a history. -/
structure GpsInv (h : PiksiFH) (ins : List GpsIn) : Prop where
  enabled : h.enabled = true
  w1 : h.noCdgpsWait.toNat = 508235
  w2 : h.cdgpsDelayWait.toNat = 63529
  quiet : h.dead.Quiet
  pers : h.dead.persistence.toNat = 84705
  num : h.dead.num.toNat = silentFor ins
  le : h.dead.num.toNat ≤ h.dead.lastFaultTime.toNat
  last : ∀ x ∈ ins.getLast?, h.dead.lastFaultTime.toNat ≤ x.cc.toNat
  zero : ins = [] → h.dead.lastFaultTime = 0
  fix : h.lastRtk.toNat = lastFix ins
  fixLast : ∀ x ∈ ins.getLast?, h.lastRtk.toNat ≤ x.cc.toNat
  fixZero : ins = [] → h.lastRtk = 0

theorem gps_step (h : PiksiFH) (ins : List GpsIn) (hi : GpsInv h ins) (x : GpsIn) (hpos : 0 < x.cc.toNat)
    (hmono : ∀ y ∈ ins.getLast?, y.cc.toNat < x.cc.toNat) :
    GpsInv (h.execute x.mission x.gps x.enterClose x.cc).2 (ins ++ [x]) ∧
    (x.enterClose.toNat ≤ x.cc.toNat →
      ((h.execute x.mission x.gps x.enterClose x.cc).1 = .standby ↔
        84705 < silentFor (ins ++ [x]) ∨ NoDifferentialGps (ins ++ [x]) x)) := by
  have hlt : h.dead.lastFaultTime.toNat < x.cc.toNat := by
    cases hl : ins.getLast? with
    | none =>
      have := hi.zero (List.getLast?_eq_none_iff.1 hl)
      rw [this]; exact hpos
    | some y => exact Nat.lt_of_le_of_lt (hi.last y hl) (hmono y hl)
  have hfl : h.lastRtk.toNat ≤ x.cc.toNat := by
    cases hl : ins.getLast? with
    | none =>
      have := hi.fixZero (List.getLast?_eq_none_iff.1 hl)
      rw [this]; exact Nat.zero_le _
    | some y => exact Nat.le_of_lt (Nat.lt_of_le_of_lt (hi.fixLast y hl) (hmono y hl))
  have hd : PiksiFH.deadCondition x.mission x.gps = decide (NoData x) := rfl
  have hlt' : x.cc > h.dead.lastFaultTime := hlt
  generalize hf : h.dead.evaluate x.cc (PiksiFH.deadCondition x.mission x.gps) = f
  -- the fault after evaluation
  have hfq : f.Quiet ∧ f.persistence = h.dead.persistence ∧ f.num.toNat = silentFor (ins ++ [x]) ∧ f.num.toNat ≤ f.lastFaultTime.toNat ∧
      f.lastFaultTime.toNat ≤ x.cc.toNat := by
    obtain ⟨q1, q2, q3⟩ := hi.quiet
    rw [silentFor_append, ← hi.num]
    by_cases hn : NoData x
    · rw [if_pos hn]
      rw [hd, decide_eq_true hn] at hf
      have e : f = ({ h.dead with num := h.dead.num + 1, lastFaultTime := x.cc } : Fault).refresh := by
        rw [← hf]; unfold Fault.evaluate Fault.signal; rw [if_pos rfl, if_pos (Or.inl hlt')]
      have hadd : (h.dead.num + 1).toNat = h.dead.num.toNat + 1 := by
        rw [BitVec.toNat_add]
        have h1 : (1 : U32).toNat = 1 := rfl
        have := x.cc.isLt
        have := hi.le
        omega
      have := hi.le
      rw [e]
      exact ⟨⟨q1, q2, q3⟩, rfl, hadd, by show (h.dead.num + 1).toNat ≤ x.cc.toNat; omega, Nat.le_refl _⟩
    · rw [if_neg hn]
      rw [hd, decide_eq_false hn] at hf
      have e : f = h.dead.unsignal := by rw [← hf]; unfold Fault.evaluate; rw [if_neg Bool.false_ne_true]
      rw [e]
      exact ⟨⟨q1, q2, q3⟩, rfl, rfl, Nat.zero_le _, Nat.le_of_lt hlt⟩
  obtain ⟨fq, fp, fn, fle, flast⟩ := hfq
  have hfault : f.isFaulted = true ↔ 84705 < silentFor (ins ++ [x]) := by
    rw [Fault.quiet_isFaulted fq, decide_eq_true_iff, ← fn, fp, gt_iff_lt, BitVec.lt_def, hi.pers]
  have hpoll := Fault.quiet_poll_num fq
  have hpq := Fault.quiet_step fq (op := .poll) rfl
  have hfix0 : x.gps = PiksiMode.fixedRtk → ¬ 84705 < silentFor (ins ++ [x]) := by
    intro hx
    rw [silentFor_append, if_neg]
    · omega
    · rintro ⟨_, _, _, h1 | h1 | h1⟩ <;> rw [hx] at h1 <;> exact absurd h1 (by decide)
  have hfx := lastFix_append ins x
  -- the invariant for any handler with the polled fault and the right last fix
  have mk : ∀ h' : PiksiFH, h'.enabled = true → h'.noCdgpsWait = h.noCdgpsWait → h'.cdgpsDelayWait = h.cdgpsDelayWait → h'.dead = f.poll →
      h'.lastRtk.toNat = lastFix (ins ++ [x]) → h'.lastRtk.toNat ≤ x.cc.toNat → GpsInv h' (ins ++ [x]) := by
    intro h' a1 a2 a3 a4 a5 a6
    refine ⟨a1, a2 ▸ hi.w1, a3 ▸ hi.w2, a4 ▸ hpq.1, ?_, ?_, ?_, ?_, ?_, a5, ?_, fun e => absurd e (by simp)⟩
    · rw [a4]; have := hpq.2; simp only [Fault.step] at this; rw [this, fp]; exact hi.pers
    · rw [a4, hpoll.1]; exact fn
    · rw [a4, hpoll.1, hpoll.2]; exact fle
    · intro y hy
      rw [List.getLast?_concat] at hy
      cases hy
      rw [a4, hpoll.2]; exact flast
    · intro e; exact absurd e (by simp)
    · intro y hy
      rw [List.getLast?_concat] at hy
      cases hy
      exact a6
  unfold PiksiFH.execute
  rw [if_neg (by rw [hi.enabled]; decide)]
  dsimp only
  rw [hf]
  by_cases hft : f.isFaulted = true
  · rw [if_pos hft]
    have hs := hfault.1 hft
    refine ⟨mk _ hi.enabled rfl rfl rfl ?_ hfl, fun _ => ⟨fun _ => Or.inl hs, fun _ => rfl⟩⟩
    rw [hfx, if_neg (fun hx => hfix0 hx hs)]; exact hi.fix
  · rw [if_neg hft]
    have hs := fun h => hft (hfault.2 h)
    generalize hh : (if x.gps = PiksiMode.fixedRtk then { h with dead := f.poll, lastRtk := x.cc } else { h with dead := f.poll } : PiksiFH) = h'
    have hinv : GpsInv h' (ins ++ [x]) := by
      rw [← hh]
      split
      · rename_i hx
        exact mk _ hi.enabled rfl rfl rfl (by rw [hfx, if_pos hx]) (Nat.le_refl _)
      · rename_i hx
        exact mk _ hi.enabled rfl rfl rfl (by rw [hfx, if_neg hx]; exact hi.fix) hfl
    by_cases hm : x.mission = Mission.followerCloseApproach ∨ x.mission = Mission.leaderCloseApproach
    · rw [if_pos hm]
      refine ⟨hinv, fun hec => ?_⟩
      show h'.checkCdgps x.enterClose x.cc = .standby ↔ _
      have hlf : h'.lastRtk.toNat ≤ x.cc.toNat := by
        rw [← hh]
        split
        · exact Nat.le_refl _
        · exact hfl
      have hmax : (x.cc - PiksiFH.maxU x.enterClose h'.lastRtk).toNat = x.cc.toNat - max x.enterClose.toNat h'.lastRtk.toNat := by
        unfold PiksiFH.maxU
        have := x.cc.isLt
        by_cases hlt2 : x.enterClose < h'.lastRtk
        · rw [if_pos hlt2]
          have : x.enterClose.toNat < h'.lastRtk.toNat := hlt2
          rw [BitVec.toNat_sub]; omega
        · rw [if_neg hlt2]
          have : ¬ x.enterClose.toNat < h'.lastRtk.toNat := hlt2
          rw [BitVec.toNat_sub]; omega
      unfold PiksiFH.checkCdgps NoDifferentialGps
      dsimp only
      rw [← hinv.fix]
      have c1 : (x.enterClose ≥ h'.lastRtk ∧ x.cc - PiksiFH.maxU x.enterClose h'.lastRtk > h'.noCdgpsWait) ↔
          (h'.lastRtk.toNat ≤ x.enterClose.toNat ∧ x.enterClose.toNat + 508235 < x.cc.toNat) := by
        rw [ge_iff_le, BitVec.le_def, gt_iff_lt, BitVec.lt_def, hmax, hinv.w1]; omega
      have c2 : (h'.lastRtk > x.enterClose ∧ x.cc - PiksiFH.maxU x.enterClose h'.lastRtk > h'.cdgpsDelayWait) ↔
          (x.enterClose.toNat < h'.lastRtk.toNat ∧ h'.lastRtk.toNat + 63529 < x.cc.toNat) := by
        rw [gt_iff_lt, BitVec.lt_def, gt_iff_lt, BitVec.lt_def, hmax, hinv.w2]; omega
      by_cases a : x.enterClose ≥ h'.lastRtk ∧ x.cc - PiksiFH.maxU x.enterClose h'.lastRtk > h'.noCdgpsWait
      · rw [if_pos a]
        exact ⟨fun _ => Or.inr ⟨hm, Or.inl (c1.1 a)⟩, fun _ => rfl⟩
      · rw [if_neg a]
        by_cases b : h'.lastRtk > x.enterClose ∧ x.cc - PiksiFH.maxU x.enterClose h'.lastRtk > h'.cdgpsDelayWait
        · rw [if_pos b]
          exact ⟨fun _ => Or.inr ⟨hm, Or.inr (c2.1 b)⟩, fun _ => rfl⟩
        · rw [if_neg b]
          refine ⟨nofun, ?_⟩
          rintro (h1 | ⟨_, h1 | h1⟩)
          · exact absurd h1 hs
          · exact absurd (c1.2 h1) a
          · exact absurd (c2.2 h1) b
    · rw [if_neg hm]
      refine ⟨hinv, fun _ => ⟨nofun, ?_⟩⟩
      rintro (h1 | ⟨h1, _⟩)
      · exact absurd h1 hs
      · exact absurd h1 hm

theorem gps_inv (ins : List GpsIn) (hpos : ∀ x ∈ ins, 0 < x.cc.toNat) (hmono : ins.Pairwise fun a b => a.cc.toNat < b.cc.toNat) :
    GpsInv (gpsRun PiksiFH.init ins) ins := by
  induction ins using List.reverseRecOn with
  | nil => exact ⟨rfl, rfl, rfl, ⟨rfl, rfl, rfl⟩, rfl, rfl, Nat.le_refl _, nofun, fun _ => rfl, rfl, nofun, fun _ => rfl⟩
  | append_singleton xs x ih =>
    rw [List.pairwise_append] at hmono
    have := gps_step _ xs (ih (fun y hy => hpos y (List.mem_append_left _ hy)) hmono.1) x (hpos x (by simp))
      (fun y hy => hmono.2.2 y (List.mem_of_getLast? hy) x (by simp))
    unfold gpsRun at this ⊢
    rw [List.foldl_append]
    exact this.1

/-- C29. The GPS fault handler, from construction and over every history of control cycles (numbered upwards; cycles in which it was not
run may be missing), never asks for safehold, and asks for standby exactly when the receiver has delivered no data in the last 84706
cycles (4 hours and one cycle) in which the handler ran, outside startup, detumbling and initialization hold; or when the satellite is
in a close-approach state and has had no differential GPS since it entered it for more than a day, or has had some since but none for
more than three hours. -/
theorem C29_standby_iff (ins : List GpsIn) (x : GpsIn) (hpos : ∀ y ∈ ins ++ [x], 0 < y.cc.toNat)
    (hmono : (ins ++ [x]).Pairwise fun a b => a.cc.toNat < b.cc.toNat) (hec : x.enterClose.toNat ≤ x.cc.toNat) :
    (((gpsRun PiksiFH.init ins).execute x.mission x.gps x.enterClose x.cc).1 = .standby ↔
      84705 < silentFor (ins ++ [x]) ∨ NoDifferentialGps (ins ++ [x]) x) ∧
    ((gpsRun PiksiFH.init ins).execute x.mission x.gps x.enterClose x.cc).1 ≠ .safehold := by
  rw [List.pairwise_append] at hmono
  have hi := gps_inv ins (fun y hy => hpos y (List.mem_append_left _ hy)) hmono.1
  exact ⟨(gps_step _ ins hi x (hpos x (by simp)) (fun y hy => hmono.2.2 y (List.mem_of_getLast? hy) x (by simp))).2 hec,
    fun h => PiksiFH.never_safehold _ _ _ _ _ h⟩

/-- C29. Whatever the state of the handler and whatever the ground has written to its settings: never safehold, and, with the override
off, no response when the receiver reports a fix in a state other than close approach. -/
theorem C29_any_state (h : PiksiFH) (m g : U8) (ec cc : U32) :
    (h.execute m g ec cc).1 ≠ .safehold ∧
    (h.enabled = false → (h.execute m g ec cc).1 = .none) ∧
    (h.dead.override = false → g ≠ PiksiMode.crcError → g ≠ PiksiMode.noDataError → g ≠ PiksiMode.dataError →
      m ≠ Mission.followerCloseApproach → m ≠ Mission.leaderCloseApproach → (h.execute m g ec cc).1 = .none) := by
  refine ⟨fun h0 => PiksiFH.never_safehold _ _ _ _ _ h0, fun he => ?_, fun ho h1 h2 h3 m1 m2 => ?_⟩
  · unfold PiksiFH.execute; rw [if_pos (by simp [he])]
  · unfold PiksiFH.execute
    by_cases he : h.enabled = true
    · rw [if_neg (by simp [he])]
      have hd : PiksiFH.deadCondition m g = false := by
        unfold PiksiFH.deadCondition
        exact decide_eq_false fun c => by rcases c.2.2.2 with c | c | c <;> contradiction
      dsimp only
      rw [hd]
      have hz : (h.dead.evaluate cc false).isFaulted = false := by
        generalize h.dead = d at ho
        obtain ⟨v, su, ov, un, p, l, n, ps, po⟩ := d
        cases ho
        simp only [Fault.evaluate, Fault.unsignal, Fault.isFaulted, Fault.poll, Fault.processCommands, Fault.refresh]
        cases su <;> cases un <;> cases ps <;> simp
      rw [if_neg (by rw [hz]; decide), if_neg (by rintro (h | h) <;> contradiction)]
    · rw [if_pos (by simpa using he)]

/-- Non-vacuity of C29: three data errors are not enough for standby in standby; two days into close approach without any fix is. -/
example : silentFor [⟨1, Mission.standby, PiksiMode.crcError, 0⟩, ⟨2, Mission.standby, PiksiMode.noDataError, 0⟩] = 2 := by decide
example : NoDifferentialGps [⟨1, Mission.standby, PiksiMode.fixedRtk, 0⟩, ⟨600000, Mission.leaderCloseApproach, PiksiMode.spp, 7⟩]
    ⟨600000, Mission.leaderCloseApproach, PiksiMode.spp, 7⟩ := ⟨Or.inr rfl, Or.inl ⟨by decide, by decide⟩⟩
example : ((gpsRun PiksiFH.init [⟨1, Mission.standby, PiksiMode.fixedRtk, 0⟩]).execute Mission.leaderCloseApproach PiksiMode.spp 7 600000).1
    = .standby := by decide
example : ((gpsRun PiksiFH.init [⟨8, Mission.leaderCloseApproach, PiksiMode.fixedRtk, 7⟩]).execute Mission.leaderCloseApproach PiksiMode.spp 7
    63537).1 = .none := by decide
example : ((gpsRun PiksiFH.init [⟨8, Mission.leaderCloseApproach, PiksiMode.fixedRtk, 7⟩]).execute Mission.leaderCloseApproach PiksiMode.spp 7
    63538).1 = .standby := by decide

end PAN
