import Verif.Props.Estimators

/-!
C87, continued: how long an estimate of the relative orbit is kept without a baseline.
-/
namespace PAN
open Spec Est

variable {g : Gnc}

/-- The library keeps a valid relative estimate valid. -/
structure Spec.KeepsRelative (g : Gnc) : Prop where
  predict : ∀ n w r v e, g.reValid e = true → g.reValid (g.rePredict n w r v e) = true
  update : ∀ n w r v b e, g.reValid e = true → g.reValid (g.reUpdate n w r v b e) = true
  start : ∀ w r v b d n, g.reValid (g.reInit w r v b d n) = true

/-- The estimates of time and orbit are valid, and there is no baseline. -/
def Spec.NoBaseline (c : TimeSt g × OrbitSt g × PiksiIn g) : Prop := c.1.valid = true ∧ c.2.1.valid = true ∧ c.2.2.mode ≠ PiksiMode.fixedRtk

/-- They are valid, and there is one. -/
def Spec.Baseline (c : TimeSt g × OrbitSt g × PiksiIn g) : Prop := c.1.valid = true ∧ c.2.1.valid = true ∧ c.2.2.mode = PiksiMode.fixedRtk

namespace Est

theorem uplink_keeps (s : RelSt g) (t : TimeSt g) :
    ((s.useUplink t).takeUplink t).rel = s.rel ∧ ((s.useUplink t).takeUplink t).noRtk = s.noRtk ∧
      ((s.useUplink t).takeUplink t).reset = s.reset ∧ ((s.useUplink t).takeUplink t).havePrev = s.havePrev ∧
      ((s.useUplink t).takeUplink t).prevNs = s.prevNs := by
  have k : (s.useUplink t).rel = s.rel ∧ (s.useUplink t).noRtk = s.noRtk ∧ (s.useUplink t).reset = s.reset ∧
      (s.useUplink t).havePrev = s.havePrev ∧ (s.useUplink t).prevNs = s.prevNs := by
    unfold RelSt.useUplink
    dsimp only
    split
    · split <;> exact ⟨rfl, rfl, rfl, rfl, rfl⟩
    · exact ⟨rfl, rfl, rfl, rfl, rfl⟩
  generalize s.useUplink t = u at k
  unfold RelSt.takeUplink
  dsimp only
  split
  · split <;> exact k
  · exact k

theorem relStep_run {s : RelSt g} {c : TimeSt g × OrbitSt g × PiksiIn g} (hr : s.reset = false) (h1 : c.1.valid = true) (h2 : c.2.1.valid = true) :
    relStep s c = (((s.useUplink c.1).takeUplink c.1).updateRel c.1 c.2.1 c.2.2).mix c.1 c.2.1 := by
  unfold relStep RelSt.exec
  rw [if_neg (by rw [h1, h2, hr]; simp)]

/-- A valid estimate, publishing. -/
theorem mix_valid (hs : g.Sane) (s : RelSt g) (t : TimeSt g) (o : OrbitSt g) (h : g.reValid s.rel = true) :
    (s.mix t o).state = .estimating ∧ ((s.mix t o).reset = s.reset ∧ (s.mix t o).havePrev = s.havePrev) ∧
      (s.noRtk.toNat ≤ 5000 → g.reValid (s.mix t o).rel = true ∧ (s.mix t o).noRtk = s.noRtk) ∧
      (5000 < s.noRtk.toNat → g.reValid (s.mix t o).rel = false ∧ (s.mix t o).noRtk = 0) := by
  unfold RelSt.mix
  rw [if_pos h]
  dsimp only
  by_cases hn : s.noRtk.toNat > predictLimit
  · rw [if_pos hn]
    exact ⟨rfl, ⟨rfl, rfl⟩, fun h' => absurd hn (not_lt.mpr h'), fun _ => ⟨hs.re, rfl⟩⟩
  · rw [if_neg hn]
    exact ⟨rfl, ⟨rfl, rfl⟩, fun _ => ⟨h, rfl⟩, fun h' => absurd h' hn⟩

theorem mix_invalid (s : RelSt g) (t : TimeSt g) (o : OrbitSt g) (h : g.reValid s.rel = false) :
    (s.mix t o).rel = s.rel ∧ (s.mix t o).noRtk = s.noRtk ∧ (s.mix t o).reset = s.reset ∧ (s.mix t o).havePrev = s.havePrev ∧
      (s.mix t o).prevNs = s.prevNs := by
  unfold RelSt.mix
  rw [if_neg (by rw [h]; simp)]
  split <;> exact ⟨rfl, rfl, rfl, rfl, rfl⟩

theorem idle_valid (hs : g.Sane) (hk : KeepsRelative g) (s : RelSt g) (c : TimeSt g × OrbitSt g × PiksiIn g) (hc : NoBaseline c)
    (hv : g.reValid s.rel = true) (hr : s.reset = false) (hn : s.noRtk.toNat ≤ 5000) :
    (relStep s c).state = .estimating ∧ ((relStep s c).reset = false ∧ (relStep s c).havePrev = s.havePrev) ∧
      (s.noRtk.toNat < 5000 → g.reValid (relStep s c).rel = true ∧ (relStep s c).noRtk.toNat = s.noRtk.toNat + 1) ∧
      (s.noRtk.toNat = 5000 → g.reValid (relStep s c).rel = false ∧ (relStep s c).noRtk = 0) := by
  rw [relStep_run hr hc.1 hc.2.1]
  obtain ⟨k1, k2, k3, k4, -⟩ := uplink_keeps s c.1
  generalize (s.useUplink c.1).takeUplink c.1 = u at k1 k2 k3 k4
  have e : u.updateRel c.1 c.2.1 c.2.2 = { u with noRtk := u.noRtk + 1, rel := g.rePredict cycleNs c.1.earthW c.2.1.pos c.2.1.vel u.rel } := by
    unfold RelSt.updateRel
    rw [if_neg hc.2.2, if_pos (by rw [k1]; exact hv)]
  rw [e]
  have hnn : (u.noRtk + 1).toNat = s.noRtk.toNat + 1 := by
    rw [k2, BitVec.toNat_add]
    show (s.noRtk.toNat + 1) % 2 ^ 32 = _
    exact Nat.mod_eq_of_lt (by omega)
  obtain ⟨m1, m2, m3, m4⟩ := mix_valid hs { u with noRtk := u.noRtk + 1, rel := g.rePredict cycleNs c.1.earthW c.2.1.pos c.2.1.vel u.rel } c.1 c.2.1
    (hk.predict _ _ _ _ _ (by rw [k1]; exact hv))
  refine ⟨m1, ⟨m2.1.trans (k3.trans hr), m2.2.trans k4⟩, fun h => ?_, fun h => m4 (by show 5000 < (u.noRtk + 1).toNat; omega)⟩
  obtain ⟨a, b⟩ := m3 (by show (u.noRtk + 1).toNat ≤ 5000; omega)
  exact ⟨a, by rw [b]; exact hnn⟩

theorem idle_invalid (hs : g.Sane) (s : RelSt g) (c : TimeSt g × OrbitSt g × PiksiIn g) (hc : NoBaseline c) (hv : g.reValid s.rel = false) :
    (relStep s c).state ≠ .estimating ∧ g.reValid (relStep s c).rel = false := by
  by_cases hr : s.reset = true
  · unfold relStep RelSt.exec
    rw [if_pos (by rw [hr]; simp)]
    exact ⟨by unfold RelSt.doReset; simp, hs.re⟩
  · rw [relStep_run (by simpa using hr) hc.1 hc.2.1]
    obtain ⟨k1, -, -, -, -⟩ := uplink_keeps s c.1
    generalize (s.useUplink c.1).takeUplink c.1 = u at k1
    have e : u.updateRel c.1 c.2.1 c.2.2 = u := by
      unfold RelSt.updateRel
      rw [if_neg hc.2.2, if_neg (by rw [k1, hv]; simp)]
    rw [e]
    unfold RelSt.mix
    rw [if_neg (by rw [k1, hv]; simp)]
    dsimp only
    split
    · exact ⟨by simp, by rw [← k1] at hv; exact hv⟩
    · exact ⟨by simp, by rw [← k1] at hv; exact hv⟩

end Est

theorem idle_invalid_keeps (s : RelSt g) (c : TimeSt g × OrbitSt g × PiksiIn g) (hc : NoBaseline c) (hv : g.reValid s.rel = false)
    (hr : s.reset = false) : (relStep s c).reset = false ∧ (relStep s c).havePrev = s.havePrev ∧ (relStep s c).noRtk = s.noRtk := by
  rw [relStep_run hr hc.1 hc.2.1]
  obtain ⟨k1, k2, k3, k4, -⟩ := uplink_keeps s c.1
  generalize (s.useUplink c.1).takeUplink c.1 = u at k1 k2 k3 k4
  have e : u.updateRel c.1 c.2.1 c.2.2 = u := by
    unfold RelSt.updateRel
    rw [if_neg hc.2.2, if_neg (by rw [k1, hv]; simp)]
  rw [e]
  obtain ⟨-, m2, m3, m4, -⟩ := mix_invalid u c.1 c.2.1 (by rw [k1]; exact hv)
  exact ⟨m3.trans (k3.trans hr), m4.trans k4, m2.trans k2⟩

/-- The count of cycles without a baseline. -/
theorem kept_run (hs : g.Sane) (hk : KeepsRelative g) (s : RelSt g) (hv : g.reValid s.rel = true) (hr : s.reset = false)
    (c : TimeSt g × OrbitSt g × PiksiIn g) (hc : Baseline c) : ∀ js : List (TimeSt g × OrbitSt g × PiksiIn g), (∀ c ∈ js, NoBaseline c) →
      (js.length ≤ 5000 → ((c :: js).foldl relStep s).state = .estimating ∧ (((c :: js).foldl relStep s).reset = false ∧ ((c :: js).foldl relStep s).havePrev = s.havePrev) ∧
        g.reValid ((c :: js).foldl relStep s).rel = true ∧ ((c :: js).foldl relStep s).noRtk.toNat = js.length) ∧
      (js.length = 5001 → ((c :: js).foldl relStep s).state = .estimating ∧ g.reValid ((c :: js).foldl relStep s).rel = false) ∧
      (5001 < js.length → ((c :: js).foldl relStep s).state ≠ .estimating ∧ g.reValid ((c :: js).foldl relStep s).rel = false) := by
  intro js
  induction js using List.reverseRecOn with
  | nil =>
    intro _
    refine ⟨fun _ => ?_, fun h => by simp at h, fun h => by simp at h⟩
    rw [List.foldl_cons, List.foldl_nil, relStep_run hr hc.1 hc.2.1]
    obtain ⟨k1, -, k3, k4, -⟩ := uplink_keeps s c.1
    generalize (s.useUplink c.1).takeUplink c.1 = u at k1 k3 k4
    unfold RelSt.updateRel
    rw [if_pos hc.2.2, if_pos (by rw [k1]; exact hv)]
    dsimp only
    obtain ⟨m1, m2, m3, -⟩ := mix_valid hs { u with noRtk := 0, rel := g.rePredict (dns c.2.2.microdelta) c.1.earthW c.2.1.pos c.2.1.vel (g.reUpdate ((cycleNs + (2 ^ 64 - dns c.2.2.microdelta)) % 2 ^ 64) c.1.earthW c.2.1.pos c.2.1.vel (g.neg c.2.2.baseline) u.rel) } c.1 c.2.1
      (hk.predict _ _ _ _ _ (hk.update _ _ _ _ _ _ (by rw [k1]; exact hv)))
    obtain ⟨a, b⟩ := m3 (by show (0 : U32).toNat ≤ 5000; decide)
    exact ⟨m1, ⟨m2.1.trans (k3.trans hr), m2.2.trans k4⟩, a, by rw [b]; rfl⟩
  | append_singleton js j ih =>
    intro hj
    obtain ⟨i1, i2, i3⟩ := ih (fun d hd => hj d (List.mem_append_left _ hd))
    have hjb : NoBaseline j := hj j (by simp)
    have e : ((c :: (js ++ [j])).foldl relStep s) = relStep ((c :: js).foldl relStep s) j := by
      rw [← List.cons_append, List.foldl_append]; rfl
    rw [e]
    generalize (c :: js).foldl relStep s = u at i1 i2 i3
    simp only [List.length_append, List.length_singleton]
    refine ⟨fun h => ?_, fun h => ?_, fun h => ?_⟩
    · obtain ⟨a1, a2, a3, a4⟩ := i1 (by omega)
      obtain ⟨b1, b2, b3, -⟩ := idle_valid hs hk u j hjb a3 a2.1 (by omega)
      obtain ⟨b4, b5⟩ := b3 (by omega)
      exact ⟨b1, ⟨b2.1, b2.2.trans a2.2⟩, b4, by omega⟩
    · obtain ⟨a1, a2, a3, a4⟩ := i1 (by omega)
      obtain ⟨b1, b2, -, b4⟩ := idle_valid hs hk u j hjb a3 a2.1 (by omega)
      exact ⟨b1, (b4 (by omega)).1⟩
    · have hinv : g.reValid u.rel = false := by
        by_cases hl : js.length = 5001
        · exact (i2 hl).2
        · exact (i3 (by omega)).2
      exact idle_invalid hs u j hjb hinv

/-- The same from the start of the count. -/
theorem kept_from (hs : g.Sane) (hk : KeepsRelative g) (s : RelSt g) (h0 : s.state = .estimating) (hv : g.reValid s.rel = true)
    (hr : s.reset = false) (hn : s.noRtk.toNat = 0) : ∀ js : List (TimeSt g × OrbitSt g × PiksiIn g), (∀ c ∈ js, NoBaseline c) →
      (js.length ≤ 5000 → (js.foldl relStep s).state = .estimating ∧ ((js.foldl relStep s).reset = false ∧ (js.foldl relStep s).havePrev = s.havePrev) ∧
        g.reValid (js.foldl relStep s).rel = true ∧ (js.foldl relStep s).noRtk.toNat = js.length) ∧
      (js.length = 5001 → (js.foldl relStep s).state = .estimating) ∧
      (5001 < js.length → (js.foldl relStep s).state ≠ .estimating) ∧
      (5001 ≤ js.length → g.reValid (js.foldl relStep s).rel = false ∧ (js.foldl relStep s).reset = false ∧
        (js.foldl relStep s).havePrev = s.havePrev ∧ (js.foldl relStep s).noRtk.toNat = 0) := by
  intro js
  induction js using List.reverseRecOn with
  | nil =>
    intro _
    exact ⟨fun _ => ⟨h0, ⟨hr, rfl⟩, hv, hn⟩, fun h => by simp at h, fun h => by simp at h, fun h => by simp at h⟩
  | append_singleton js j ih =>
    intro hj
    obtain ⟨i1, i2, i3, i4⟩ := ih (fun d hd => hj d (List.mem_append_left _ hd))
    have hjb : NoBaseline j := hj j (by simp)
    have e : ((js ++ [j]).foldl relStep s) = relStep (js.foldl relStep s) j := by
      rw [List.foldl_append]; rfl
    rw [e]
    generalize js.foldl relStep s = u at i1 i2 i3 i4
    simp only [List.length_append, List.length_singleton]
    refine ⟨fun h => ?_, fun h => ?_, fun h => ?_, fun h => ?_⟩
    · obtain ⟨a1, a2, a3, a4⟩ := i1 (by omega)
      obtain ⟨b1, b2, b3, -⟩ := idle_valid hs hk u j hjb a3 a2.1 (by omega)
      obtain ⟨b4, b5⟩ := b3 (by omega)
      exact ⟨b1, ⟨b2.1, b2.2.trans a2.2⟩, b4, by omega⟩
    · obtain ⟨a1, a2, a3, a4⟩ := i1 (by omega)
      exact (idle_valid hs hk u j hjb a3 a2.1 (by omega)).1
    · exact (idle_invalid hs u j hjb (i4 (by omega)).1).1
    · by_cases hl : js.length = 5000
      · obtain ⟨a1, a2, a3, a4⟩ := i1 (by omega)
        obtain ⟨-, b2, -, b4⟩ := idle_valid hs hk u j hjb a3 a2.1 (by omega)
        obtain ⟨b5, b6⟩ := b4 (by omega)
        exact ⟨b5, b2.1, b2.2.trans a2.2, by rw [b6]; rfl⟩
      · obtain ⟨a1, a2, a3, a4⟩ := i4 (by omega)
        obtain ⟨b1, b2, b3⟩ := idle_invalid_keeps u j hjb a1 a2
        exact ⟨(idle_invalid hs u j hjb a1).2, b1, b2.trans a3, by rw [b3]; exact a4⟩

/-- C87, how long. After a baseline that corrects an estimate of the relative orbit, and any number of cycles without one (time and orbit
valid, no reset): the relative orbit is still estimated exactly up to the 5001st cycle. -/
theorem C87_kept (hs : g.Sane) (hk : KeepsRelative g) (s : RelSt g) (hv : g.reValid s.rel = true) (hr : s.reset = false)
    (c : TimeSt g × OrbitSt g × PiksiIn g) (hc : Baseline c) (js : List (TimeSt g × OrbitSt g × PiksiIn g)) (hjs : ∀ c ∈ js, NoBaseline c) :
    ((c :: js).foldl relStep s).state = .estimating ↔ js.length ≤ 5001 := by
  obtain ⟨a, b, d⟩ := kept_run hs hk s hv hr c hc js hjs
  constructor
  · intro h
    by_contra hn
    exact (d (by omega)).1 h
  · intro h
    by_cases h0 : js.length ≤ 5000
    · exact (a h0).1
    · exact (b (by omega)).1

/-- The second baseline in a row starts an estimate. -/
theorem baseline_starts (hs : g.Sane) (hk : KeepsRelative g) (n : ℕ) (hn : n ≤ 5000) (md : U32) (hage : md.toNat ≤ 100000) (b : TimeSt g × OrbitSt g × PiksiIn g) (hb : Baseline b) :
    ∀ u : RelSt g, u.havePrev = true → g.reValid u.rel = false → u.noRtk.toNat = n → u.reset = false →
      u.prevNs = BitVec.ofNat 32 (dns md) →
    (relStep u b).state = .estimating ∧ g.reValid (relStep u b).rel = true ∧ (relStep u b).noRtk.toNat = n ∧ (relStep u b).reset = false ∧ (relStep u b).havePrev = false := by
  intro u q1 q2 q3 q4 q5
  rw [relStep_run q4 hb.1 hb.2.1]
  obtain ⟨k1, k2, k3, k4, k5⟩ := uplink_keeps u b.1
  generalize (u.useUplink b.1).takeUplink b.1 = w at k1 k2 k3 k4 k5
  have hprev : (w.prevNs + BitVec.ofNat 32 cycleNs).toNat ≤ 10 * cycleNs := by
    rw [k5, q5, dns_eq _ hage, BitVec.toNat_add, BitVec.toNat_ofNat, BitVec.toNat_ofNat, show (2 : ℕ) ^ 32 = 4294967296 from rfl]
    unfold cycleNs
    rw [Nat.mod_eq_of_lt (a := 1000 * md.toNat) (by omega), Nat.mod_eq_of_lt (by omega)]
    omega
  have e1 : w.updateRel b.1 b.2.1 b.2.2 = { w with
      rel := g.reInit b.1.earthW b.2.1.pos b.2.1.vel (g.neg b.2.2.baseline) (g.neg (g.rate b.2.2.baseline w.prevPos (w.prevNs + BitVec.ofNat 32 cycleNs).toNat)) (w.prevNs + BitVec.ofNat 32 cycleNs).toNat,
      prevNs := w.prevNs + BitVec.ofNat 32 cycleNs, havePrev := false } := by
    unfold RelSt.updateRel
    rw [if_pos hb.2.2, if_neg (by rw [k1, q2]; simp)]
    dsimp only
    rw [if_pos (by rw [k4, q1, Bool.true_and]; exact decide_eq_true hprev)]
  rw [e1]
  obtain ⟨m1, m2, m3, -⟩ := mix_valid hs { w with
      rel := g.reInit b.1.earthW b.2.1.pos b.2.1.vel (g.neg b.2.2.baseline) (g.neg (g.rate b.2.2.baseline w.prevPos (w.prevNs + BitVec.ofNat 32 cycleNs).toNat)) (w.prevNs + BitVec.ofNat 32 cycleNs).toNat,
      prevNs := w.prevNs + BitVec.ofNat 32 cycleNs, havePrev := false } b.1 b.2.1 (hk.start _ _ _ _ _ _)
  obtain ⟨x, y⟩ := m3 (by show w.noRtk.toNat ≤ 5000; rw [k2]; omega)
  exact ⟨m1, x, by rw [y, ← q3]; exact congrArg BitVec.toNat k2, m2.1.trans (k3.trans q4), m2.2⟩

/-- The first is remembered. -/
theorem baseline_kept (n : ℕ) (s : RelSt g) (hv : g.reValid s.rel = false) (hn : s.noRtk.toNat = n)
    (hp : s.havePrev = false) (hr : s.reset = false) (a : TimeSt g × OrbitSt g × PiksiIn g) (ha : Baseline a) :
    (relStep s a).havePrev = true ∧ g.reValid (relStep s a).rel = false ∧ (relStep s a).noRtk.toNat = n ∧
      (relStep s a).reset = false ∧ (relStep s a).prevNs = BitVec.ofNat 32 (dns a.2.2.microdelta) := by
  rw [relStep_run hr ha.1 ha.2.1]
  obtain ⟨k1, k2, k3, k4, -⟩ := uplink_keeps s a.1
  generalize (s.useUplink a.1).takeUplink a.1 = u at k1 k2 k3 k4
  have hu : g.reValid u.rel = false := by rw [k1]; exact hv
  have hq : u.havePrev = false := k4.trans hp
  have e1 : u.updateRel a.1 a.2.1 a.2.2 =
      { u with prevPos := a.2.2.baseline, prevNs := BitVec.ofNat 32 (dns a.2.2.microdelta), havePrev := true } := by
    unfold RelSt.updateRel
    rw [if_pos ha.2.2, if_neg (by rw [hu]; simp)]
    dsimp only
    rw [if_neg (by rw [hq, Bool.false_and]; exact Bool.false_ne_true)]
  rw [e1]
  obtain ⟨m1, m2, m3, m4, m5⟩ := mix_invalid { u with prevPos := a.2.2.baseline, prevNs := BitVec.ofNat 32 (dns a.2.2.microdelta), havePrev := true } a.1 a.2.1 hu
  refine ⟨m4, by rw [m1]; exact hu, ?_, m3.trans (k3.trans hr), m5⟩
  rw [m2, ← hn]
  exact congrArg BitVec.toNat k2

theorem dropped_early (hs : g.Sane) (hk : KeepsRelative g) (s : RelSt g)
    (hn : s.noRtk.toNat = 5000) (hp : s.havePrev = false) (hr : s.reset = true)
    (c a b d e : TimeSt g × OrbitSt g × PiksiIn g) (ha : Baseline a) (hb : Baseline b) (hd : NoBaseline d) (he : NoBaseline e)
    (hage : a.2.2.microdelta.toNat ≤ 100000) :
    ([c, a, b].foldl relStep s).state = .estimating ∧ ([c, a, b, d].foldl relStep s).state = .estimating ∧
      ([c, a, b, d, e].foldl relStep s).state ≠ .estimating := by
  -- the reset
  have r1 : relStep s c = s.doReset := by
    unfold relStep RelSt.exec
    rw [if_pos (by rw [hr]; simp)]
  simp only [List.foldl_cons, List.foldl_nil]
  rw [r1]
  obtain ⟨q1, q2, q3, q4, q5⟩ := baseline_kept 5000 s.doReset hs.re hn hp rfl a ha
  obtain ⟨p1, p2, p3, p4, -⟩ := baseline_starts hs hk 5000 le_rfl a.2.2.microdelta hage b hb _ q1 q2 q3 q4 q5
  generalize relStep (relStep s.doReset a) b = u at p1 p2 p3 p4
  obtain ⟨f1, -, -, f4⟩ := idle_valid hs hk u d hd p2 p4 (by omega)
  exact ⟨p1, f1, (idle_invalid hs _ e he (f4 p3).1).1⟩

/-- C87, how long the next one is kept. After more than 5001 cycles without a baseline the estimate is gone; the next two
baselines in a row start a new one, and that is kept just as long. -/
theorem C87_kept_anew (hs : g.Sane) (hk : KeepsRelative g) (s : RelSt g) (hv : g.reValid s.rel = true) (hr : s.reset = false)
    (hp : s.havePrev = false) (c : TimeSt g × OrbitSt g × PiksiIn g) (hc : Baseline c) (js : List (TimeSt g × OrbitSt g × PiksiIn g))
    (hjs : ∀ c ∈ js, NoBaseline c) (hl : 5001 < js.length) (a b : TimeSt g × OrbitSt g × PiksiIn g) (ha : Baseline a) (hb : Baseline b)
    (hage : a.2.2.microdelta.toNat ≤ 100000) (ks : List (TimeSt g × OrbitSt g × PiksiIn g)) (hks : ∀ c ∈ ks, NoBaseline c) :
    ((c :: js).foldl relStep s).state ≠ .estimating ∧
      (((c :: js ++ a :: b :: ks).foldl relStep s).state = .estimating ↔ ks.length ≤ 5001) := by
  obtain ⟨z1, ⟨z2, z3⟩, z4, z5⟩ := (kept_run hs hk s hv hr c hc [] (by simp)).1 (by simp)
  obtain ⟨-, -, y3, y4⟩ := kept_from hs hk _ z1 z4 z2 z5 js hjs
  obtain ⟨x1, x2, x3, x4⟩ := y4 (by omega)
  have e0 : (c :: js).foldl relStep s = js.foldl relStep ([c].foldl relStep s) := rfl
  have e1 : (c :: js ++ a :: b :: ks).foldl relStep s =
      ks.foldl relStep (relStep (relStep (js.foldl relStep ([c].foldl relStep s)) a) b) := by
    rw [List.foldl_append]; rfl
  rw [e0, e1]
  refine ⟨y3 hl, ?_⟩
  obtain ⟨q1, q2, q3, q4, q5⟩ := baseline_kept 0 _ x1 x4 (x3.trans (z3.trans hp)) x2 a ha
  obtain ⟨p1, p2, p3, p4, -⟩ := baseline_starts hs hk 0 (by omega) a.2.2.microdelta hage b hb _ q1 q2 q3 q4 q5
  obtain ⟨w1, w2, w3, -⟩ := kept_from hs hk _ p1 p2 p4 p3 ks hks
  constructor
  · intro h
    by_contra hn
    exact w3 (by omega) h
  · intro h
    by_cases h0 : ks.length ≤ 5000
    · exact (w1 h0).1
    · exact w2 (by omega)

/-- C87, what fails: the count of cycles without a baseline is not restarted when the estimate is. Here the relative orbit has been estimated
for 5000 cycles without a baseline when the ground resets it; then two baselines in a row start a new estimate; and this one is dropped
after its first cycle without a baseline, not after 5001 of them. -/
theorem C87_counterexample_dropped_early (hs : g.Sane) (hk : KeepsRelative g) (s : RelSt g) (hv : g.reValid s.rel = true) (hr : s.reset = false)
    (hp : s.havePrev = false) (c0 : TimeSt g × OrbitSt g × PiksiIn g) (hc0 : Baseline c0) (js : List (TimeSt g × OrbitSt g × PiksiIn g))
    (hjs : ∀ c ∈ js, NoBaseline c) (hl : js.length = 5000) (c a b d e : TimeSt g × OrbitSt g × PiksiIn g) (ha : Baseline a) (hb : Baseline b)
    (hd : NoBaseline d) (he : NoBaseline e) (hage : a.2.2.microdelta.toNat ≤ 100000) :
    let reset : RelSt g := { (c0 :: js).foldl relStep s with reset := true }
    ([c, a, b].foldl relStep reset).state = .estimating ∧ ([c, a, b, d].foldl relStep reset).state = .estimating ∧
      ([c, a, b, d, e].foldl relStep reset).state ≠ .estimating := by
  obtain ⟨-, ⟨-, k2⟩, -, k4⟩ := (kept_run hs hk s hv hr c0 hc0 js hjs).1 (by omega)
  exact dropped_early hs hk { (c0 :: js).foldl relStep s with reset := true } (by rw [← hl]; exact k4) (k2.trans hp) rfl c a b d e ha hb hd he hage

/-! ### A case -/

-- the library of the examples keeps estimates
example : KeepsRelative toy := by
  refine ⟨fun n w r v e h => ?_, fun n w r v b e h => ?_, fun w r v b d n => rfl⟩
  · cases e
    · cases h
    · rfl
  · cases e
    · cases h
    · rfl

-- `C87_kept`, `C87_kept_anew`, `C87_counterexample_dropped_early`: three baselines since power-up leave an estimate, and nothing is remembered for another
def RelKeep.now (mode : U8) : TimeSt toy × OrbitSt toy × PiksiIn toy :=
  ({ TimeSt.init toy with valid := true }, { OrbitSt.init toy with valid := true }, (toyIn mode 500 1000 10 4 1).piksi)
example : Baseline (RelKeep.now PiksiMode.fixedRtk) ∧ NoBaseline (RelKeep.now PiksiMode.spp) ∧ (RelKeep.now PiksiMode.fixedRtk).2.2.microdelta.toNat ≤ 100000 :=
  ⟨⟨rfl, rfl, rfl⟩, ⟨rfl, rfl, by decide⟩, by decide⟩
example : let s := [RelKeep.now PiksiMode.fixedRtk, RelKeep.now PiksiMode.fixedRtk].foldl relStep (RelSt.init toy)
    toy.reValid s.rel = true ∧ s.reset = false ∧ s.havePrev = false := by decide +kernel

end PAN
