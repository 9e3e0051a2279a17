import Verif.Spec.GPSTime
/-! Properties C07, C08: GPS time arithmetic and comparison. -/
namespace PAN
open Spec GpsTime

/-! ### Helper lemmas -/

theorem toULL_of_rep {g : GpsTime} (h : Representable g) : (g.toULL : Int) = nanos g := by
  unfold toULL nanos at *; unfold Representable nanos at h
  have hW : ((nsInWeek : Nat) : Int) = 604800000000000 := rfl
  rw [hW]; omega

private theorem ofULL_spec {t : Nat} (ht : t < 2 ^ 64) :
    (ofULL t).isSet = true ∧ nanos (ofULL t) = t ∧ Normalised (ofULL t) := by
  have hW : nsInWeek = 604800000000000 := rfl
  have hwn : (BitVec.ofNat 16 (t / nsInWeek)).toNat = t / nsInWeek := by
    rw [BitVec.toNat_ofNat, Nat.mod_eq_of_lt]; rw [hW]; omega
  refine ⟨rfl, ?_, ?_⟩
  · unfold ofULL nanos
    simp only [hwn]
    rw [hW]
    simp only [BitVec.toInt_eq_toNat_cond, BitVec.toNat_ofNat]
    split <;> omega
  · unfold ofULL Normalised
    simp only [hwn]
    rw [hW]
    simp only [BitVec.toInt_eq_toNat_cond, BitVec.toNat_ofNat]
    refine ⟨?_, ?_, ?_⟩ <;> (try split) <;> omega

private theorem eq_of_nanos {g h : GpsTime} (hg : Normalised g) (hh : Normalised h)
    (hs : g.isSet = h.isSet) (he : nanos g = nanos h) : g = h := by
  obtain ⟨wn, tow, ns, s⟩ := g
  obtain ⟨wn', tow', ns', s'⟩ := h
  unfold Normalised nanos at *
  simp only at *
  have hns : ns.toInt = ns'.toInt := by omega
  have htow : tow.toNat = tow'.toNat := by omega
  have hwn : wn.toNat = wn'.toNat := by omega
  rw [BitVec.eq_of_toNat_eq hwn, BitVec.eq_of_toNat_eq htow, BitVec.eq_of_toInt_eq hns, hs]

/-! ### C07 -/

/-- **C07 (conversion).** Every 64-bit nanosecond count converts to a set, normalised GPS time denoting
exactly that count, and converts back to itself. -/
theorem C07_nanoseconds_round_trip (t : Nat) (ht : t < 2 ^ 64) :
    (ofULL t).isSet = true ∧ Normalised (ofULL t) ∧ nanos (ofULL t) = t ∧ (ofULL t).toULL = t := by
  obtain ⟨h1, h2, h3⟩ := ofULL_spec ht
  refine ⟨h1, h3, h2, ?_⟩
  have := toULL_of_rep (g := ofULL t) (by unfold Representable; omega)
  omega

/-- **C07 (conversion, other direction).** A set, normalised, representable time survives conversion to
nanoseconds and back unchanged. -/
theorem C07_time_round_trip (g : GpsTime) (hs : g.isSet = true) (hn : Normalised g)
    (hr : Representable g) : ofULL g.toULL = g := by
  have h1 := toULL_of_rep hr
  have hlt : g.toULL < 2 ^ 64 := by have := hr.2; omega
  obtain ⟨h2, h3, h4⟩ := ofULL_spec hlt
  exact eq_of_nanos h4 hn (h2.trans hs.symm) (h3.trans h1)

example : let g := mk3 2045 604799999 999999
    g.isSet = true ∧ Normalised g ∧ Representable g := by decide

/-- **C07 (addition).** Adding a duration adds exactly that many nanoseconds, carrying into milliseconds
and weeks. -/
theorem C07_add_nanoseconds (g : GpsTime) (d : Nat) (hr : Representable g)
    (hfit : nanos g + d < 2 ^ 64) :
    (g.addULL d).isSet = true ∧ Normalised (g.addULL d) ∧ nanos (g.addULL d) = nanos g + d := by
  have h1 := toULL_of_rep hr
  have hlt : (g.toULL + d) % 2 ^ 64 < 2 ^ 64 := Nat.mod_lt _ (by decide)
  obtain ⟨h2, h3, h4⟩ := ofULL_spec hlt
  refine ⟨h2, h4, ?_⟩
  unfold addULL; rw [h3]; omega

/-- **C07 (adding two times).** The same for the sum of two times. -/
theorem C07_add_times (g h : GpsTime) (hg : Representable g) (hh : Representable h)
    (hfit : nanos g + nanos h < 2 ^ 64) :
    (g.add h).isSet = true ∧ Normalised (g.add h) ∧ nanos (g.add h) = nanos g + nanos h := by
  have := toULL_of_rep hh
  have hc := C07_add_nanoseconds g h.toULL hg (by omega)
  rw [this] at hc; exact hc

example : Representable (mk3 2045 604799999 999999) ∧
    nanos (mk3 2045 604799999 999999) + 1 < 2 ^ 64 ∧
    (mk3 2045 604799999 999999).addULL 1 = mk3 2046 0 0 := by decide

/-- **C07 (subtraction).** Subtracting a duration not longer than the time gives the exact difference;
subtracting a longer one from a set time leaves the time unset. -/
theorem C07_sub_nanoseconds (g : GpsTime) (d : Nat) (hs : g.isSet = true) (hr : Representable g) :
    (d ≤ nanos g → (g.subULL d).isSet = true ∧ Normalised (g.subULL d) ∧
      nanos (g.subULL d) = nanos g - d) ∧
    (nanos g < d → (g.subULL d).isSet = false) := by
  have h1 := toULL_of_rep hr
  have hr2 := hr.2
  constructor
  · intro hle
    have hnl : g.ltULL d = false := by unfold ltULL; simp [hs]; omega
    have hlt : (g.toULL + (2 ^ 64 - d)) % 2 ^ 64 < 2 ^ 64 := Nat.mod_lt _ (by decide)
    obtain ⟨h2, h3, h4⟩ := ofULL_spec hlt
    unfold subULL
    rw [hnl]
    refine ⟨h2, h4, ?_⟩
    show nanos (ofULL _) = _
    rw [h3]; omega
  · intro hlt
    have hnl : g.ltULL d = true := by unfold ltULL; simp [hs]; omega
    unfold subULL; rw [hnl]; rfl

/-- **C07 (subtracting two times).** -/
theorem C07_sub_times (g h : GpsTime) (hs : g.isSet = true) (hg : Representable g)
    (hh : Representable h) :
    (nanos h ≤ nanos g → (g.sub h).isSet = true ∧ Normalised (g.sub h) ∧
      nanos (g.sub h) = nanos g - nanos h) ∧
    (nanos g < nanos h → (g.sub h).isSet = false) := by
  have := toULL_of_rep hh
  have hc := C07_sub_nanoseconds g h.toULL hs hg
  rw [this] at hc; exact hc

example : let g := mk3 2045 0 0; let h := mk3 2044 604799999 999999
    g.isSet = true ∧ Representable g ∧ Representable h ∧ nanos h < nanos g ∧ g.sub h = mk3 0 0 1 := by
  decide

/-- **C07 (order).** On set, representable times all six comparisons agree with the order of the exact
nanosecond counts. -/
theorem C07_order_is_nanosecond_order (g h : GpsTime) (hg : g.isSet = true) (hh : h.isSet = true)
    (rg : Representable g) (rh : Representable h) :
    g.lt h = decide (nanos g < nanos h) ∧ g.eq h = decide (nanos g = nanos h) ∧
    g.gt h = decide (nanos g > nanos h) ∧ g.le h = decide (nanos g ≤ nanos h) ∧
    g.ge h = decide (nanos g ≥ nanos h) ∧ g.ne h = decide (nanos g ≠ nanos h) := by
  have h1 := toULL_of_rep rg
  have h2 := toULL_of_rep rh
  have hlt : g.lt h = decide (nanos g < nanos h) := by
    simp only [GpsTime.lt, GpsTime.ltULL, hg, hh, Bool.not_true, Bool.false_eq_true, if_false]
    rw [decide_eq_decide]; omega
  have heq : g.eq h = decide (nanos g = nanos h) := by
    simp only [GpsTime.eq, GpsTime.eqULL, hg, hh, Bool.not_true, Bool.false_eq_true, if_false]
    rw [Bool.beq_eq_decide_eq, decide_eq_decide]; omega
  have hgt : g.gt h = decide (nanos g > nanos h) := by
    simp only [GpsTime.gt, hlt, heq]
    rw [← Bool.decide_or, ← decide_not, decide_eq_decide]; omega
  refine ⟨hlt, heq, hgt, ?_, ?_, ?_⟩
  · simp only [GpsTime.le, hgt]; rw [← decide_not, decide_eq_decide]; omega
  · simp only [GpsTime.ge, hlt]; rw [← decide_not, decide_eq_decide]; omega
  · simp only [GpsTime.ne, heq]; rw [← decide_not]

example : let g := mk3 2045 5 (-3); let h := mk3 2045 4 999998
    g.isSet = true ∧ h.isSet = true ∧ Representable g ∧ Representable h ∧ h.gt g ∧ g.lt h := by decide

/-! ### C08 -/

/-- **C08 (partial).** If either time is unset, `==`, `<` and `<=` are false. The claim for `>` and `>=`
is refuted by `C08_counterexample_unset_is_later`. -/
theorem C08_unset_never_less_or_equal_partial (g h : GpsTime) (hu : g.isSet = false ∨ h.isSet = false) :
    g.eq h = false ∧ g.lt h = false ∧ g.le h = false := by
  obtain ⟨wn, tow, ns, s⟩ := g
  obtain ⟨wn', tow', ns', s'⟩ := h
  cases s <;> cases s' <;> simp at hu <;> simp [GpsTime.eq, GpsTime.lt, GpsTime.le, GpsTime.gt, eqULL, ltULL]

/-- **C08 refuted.** If either time is unset then `>` and `>=` are *true*, for every such pair: an unset
time compares as later than every time, and every time compares as later than an unset one. -/
theorem C08_counterexample_unset_is_later (g h : GpsTime) (hu : g.isSet = false ∨ h.isSet = false) :
    g.gt h = true ∧ g.ge h = true ∧ g.ne h = true := by
  obtain ⟨h1, h2, -⟩ := C08_unset_never_less_or_equal_partial g h hu
  simp [GpsTime.gt, GpsTime.ge, GpsTime.ne, h1, h2]

example : unset.gt (mk3 3000 0 0) = true ∧ (mk3 3000 0 0).gt unset = true := by decide

/-- **C08, consequence for subtraction.** Subtracting from an unset time does not leave it unset: the
default time minus one nanosecond becomes a *set* time about 584 years after the GPS epoch. -/
theorem C08_counterexample_unset_minus_becomes_set :
    (unset.subULL 1).isSet = true ∧ nanos (unset.subULL 1) = 2 ^ 64 - 1 := by decide

end PAN
