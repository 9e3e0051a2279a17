import Verif.Model.OrbitCtl
import Verif.Model.Prop
import Verif.Lemmas.Float32
import Mathlib.Tactic.Linarith
import Mathlib.Tactic.Positivity
import Mathlib.Tactic.FieldSimp
import Mathlib.Tactic.Ring
/-!
C55: the thrusters. C90: when the orbit controller acts.
-/
namespace PAN
open Orb

namespace Spec
/-- The directions of the four thrusters in the frame of the satellite, to four decimals. -/
def thrusters : List (ℚ × ℚ × ℚ) :=
  [(6534 / 10000, -3822 / 10000, -6534 / 10000), (5391 / 10000, 6472 / 10000, 5391 / 10000),
   (-6534 / 10000, -3822 / 10000, 6534 / 10000), (-5391 / 10000, 6472 / 10000, -5391 / 10000)]

/-- The impulse on the satellite when the thrusters give the impulses `x`. -/
def produced (x : List ℚ) : ℚ × ℚ × ℚ :=
  ((List.zipWith (fun x d => x * d.1) x thrusters).sum, (List.zipWith (fun x d => x * d.2.1) x thrusters).sum,
    (List.zipWith (fun x d => x * d.2.2) x thrusters).sum)
end Spec
open Spec

/-- They are directions: of length one, to one part in ten thousand. -/
example : ∀ d ∈ thrusters, |d.1 * d.1 + d.2.1 * d.2.1 + d.2.2 * d.2.2 - 1| ≤ 2 / 10000 := by
  intro d hd
  simp only [thrusters, List.mem_cons, List.not_mem_nil, or_false] at hd
  rcases hd with rfl | rfl | rfl | rfl <;> norm_num [abs_le]

section
variable (ρ : Rounding)

theorem r_zero : ρ.r 0 = 0 := by
  have := ρ.neg 0
  rw [neg_zero] at this
  linarith

theorem r_nonneg {x : ℚ} (h : 0 ≤ x) : 0 ≤ ρ.r x := by
  have := ρ.mono 0 x h
  rwa [r_zero] at this

theorem k5_ge : 1 ≤ ρ.r k5 := by
  have := ρ.mono 1 k5 (by unfold k5; norm_num)
  rwa [ρ.one] at this

theorem x4_start (z : ℚ) : ρ.r (((-1 * (1 / 152280838494) : ℤ) : ℚ) * z) = 0 := by
  rw [show ((-1 * (1 / 152280838494) : ℤ) : ℚ) = 0 by norm_num, zero_mul, r_zero]

/-- The four impulses are those of the particular solution with some `x4`: 0, or what makes the least of them vanish. -/
theorem valveImpulses_cases (a b c : ℚ) :
    ∃ x4 : ℚ, 0 ≤ x4 ∧ ρ.r x4 = x4 ∧
      valveImpulses ρ a b c = ((with4 ρ (part1 ρ a b c) (part2 ρ a c) (part3 ρ a b c) x4).1,
        (with4 ρ (part1 ρ a b c) (part2 ρ a c) (part3 ρ a b c) x4).2.1,
        (with4 ρ (part1 ρ a b c) (part2 ρ a c) (part3 ρ a b c) x4).2.2, x4) ∧
      ((x4 = 0 ∧ 0 ≤ part1 ρ a b c ∧ 0 ≤ part2 ρ a c ∧ 0 ≤ part3 ρ a b c) ∨
        (x4 = -min (part1 ρ a b c) (min (part2 ρ a c) (part3 ρ a b c)) ∧ 0 < x4)) := by
  unfold valveImpulses
  dsimp only
  rw [x4_start, if_neg (lt_irrefl _)]
  have i1 : ρ.r (part1 ρ a b c) = part1 ρ a b c := ρ.idem _
  have i2 : ρ.r (part2 ρ a c) = part2 ρ a c := ρ.idem _
  have i3 : ρ.r (part3 ρ a b c) = part3 ρ a b c := ρ.idem _
  generalize part1 ρ a b c = p1 at *
  generalize part2 ρ a c = p2 at *
  generalize part3 ρ a b c = p3 at *
  have w0 : with4 ρ p1 p2 p3 0 = (p1, p2, p3) := by
    unfold with4
    rw [mul_zero, r_zero, add_zero, add_zero, add_zero, i1, i2, i3]
  have im : ρ.r (-min p1 (min p2 p3)) = -min p1 (min p2 p3) := by
    rw [ρ.neg]
    congr 1
    rcases min_choice p2 p3 with h | h <;> rw [h]
    · rcases min_choice p1 p2 with h | h <;> rw [h]
      · exact i1
      · exact i2
    · rcases min_choice p1 p3 with h | h <;> rw [h]
      · exact i1
      · exact i3
  by_cases hn : (with4 ρ p1 p2 p3 0).1 < 0 ∨ (with4 ρ p1 p2 p3 0).2.1 < 0 ∨ (with4 ρ p1 p2 p3 0).2.2 < 0
  · rw [if_pos hn, neg_one_mul, im]
    rw [w0] at hn
    have hpos : 0 < -min p1 (min p2 p3) := by
      have h1 := min_le_left p1 (min p2 p3)
      have h2 := (min_le_right p1 (min p2 p3)).trans (min_le_left p2 p3)
      have h3 := (min_le_right p1 (min p2 p3)).trans (min_le_right p2 p3)
      rcases hn with h | h | h
      · have : p1 < 0 := h
        linarith
      · have : p2 < 0 := h
        linarith
      · have : p3 < 0 := h
        linarith
    exact ⟨_, hpos.le, im, rfl, Or.inr ⟨rfl, hpos⟩⟩
  · rw [if_neg hn]
    rw [w0] at hn
    simp only [not_or, not_lt] at hn
    exact ⟨0, le_refl _, r_zero ρ, rfl, Or.inl ⟨rfl, hn.1, hn.2.1, hn.2.2⟩⟩

/-- The impulses of the four thrusters are never negative, for any commanded impulse and with any rounding. -/
theorem C55_nonneg (a b c : ℚ) :
    0 ≤ (valveImpulses ρ a b c).1 ∧ 0 ≤ (valveImpulses ρ a b c).2.1 ∧ 0 ≤ (valveImpulses ρ a b c).2.2.1 ∧
      0 ≤ (valveImpulses ρ a b c).2.2.2 := by
  obtain ⟨x4, h0, hr, hx, hc⟩ := valveImpulses_cases ρ a b c
  have hk : x4 ≤ ρ.r (ρ.r k5 * x4) := by
    have : x4 ≤ ρ.r k5 * x4 := by
      have := mul_le_mul_of_nonneg_right (k5_ge ρ) h0
      linarith
    have := ρ.mono _ _ this
    rwa [hr] at this
  have hp : -x4 ≤ part1 ρ a b c ∧ -x4 ≤ part2 ρ a c ∧ -x4 ≤ part3 ρ a b c := by
    rcases hc with ⟨h, h1, h2, h3⟩ | ⟨h, _⟩
    · rw [h, neg_zero]
      exact ⟨h1, h2, h3⟩
    · rw [h, neg_neg]
      exact ⟨min_le_left _ _, (min_le_right _ _).trans (min_le_left _ _), (min_le_right _ _).trans (min_le_right _ _)⟩
  rw [hx]
  unfold with4
  exact ⟨r_nonneg ρ (by linarith [hp.1]), r_nonneg ρ (by linarith [hp.2.1]), r_nonneg ρ (by linarith [hp.2.2]), h0⟩

/-- Error of a rounded result. -/
theorem rstep {x X e m : ℚ} (h : |x - X| ≤ e) (hX : |X| ≤ m) (hu : ρ.eps ≤ 1 / 1000) :
    |ρ.r x - X| ≤ e * (1001 / 1000) + ρ.eps * m + ρ.tiny := by
  have h1 := ρ.err x
  have h2 : |x| ≤ m + e := by
    have : |x| ≤ |X| + |x - X| := by
      have := abs_add_le X (x - X)
      rwa [add_sub_cancel] at this
    linarith
  have h3 : ρ.eps * |x| ≤ ρ.eps * m + ρ.eps * e := by
    rw [← mul_add]
    exact mul_le_mul_of_nonneg_left h2 ρ.epsPos
  have he : 0 ≤ e := (abs_nonneg _).trans h
  have h4 : ρ.eps * e ≤ 1 / 1000 * e := mul_le_mul_of_nonneg_right hu he
  have h5 : |ρ.r x - X| ≤ |ρ.r x - x| + |x - X| := abs_sub_le _ _ _
  linarith

/-- Error of a product with a constant. -/
theorem prod_err {k : ℚ} (hk0 : 0 ≤ k) (hk : k ≤ 2) (x : ℚ) (hu : ρ.eps ≤ 1 / 1000) (ht : ρ.tiny ≤ ρ.eps) :
    |ρ.r (ρ.r k * x) - k * x| ≤ 6 * ρ.eps * |x| + ρ.tiny := by
  have hkr : |ρ.r k - k| ≤ 3 * ρ.eps := by
    have := ρ.err k
    rw [abs_of_nonneg hk0] at this
    have h2 : ρ.eps * k ≤ ρ.eps * 2 := mul_le_mul_of_nonneg_left hk ρ.epsPos
    linarith
  have h1 : |ρ.r k * x - k * x| ≤ 3 * ρ.eps * |x| := by
    rw [← sub_mul, abs_mul]
    exact mul_le_mul_of_nonneg_right hkr (abs_nonneg _)
  have h2 : |k * x| ≤ 2 * |x| := by
    rw [abs_mul, abs_of_nonneg hk0]
    exact mul_le_mul_of_nonneg_right hk (abs_nonneg _)
  have h3 := rstep ρ h1 h2 hu
  have h4 : 0 ≤ ρ.eps * |x| := mul_nonneg ρ.epsPos (abs_nonneg _)
  nlinarith

theorem sum_err {x y X Y e f m : ℚ} (hx : |x - X| ≤ e) (hy : |y - Y| ≤ f) (hm : |X + Y| ≤ m) (hu : ρ.eps ≤ 1 / 1000) :
    |ρ.r (x + y) - (X + Y)| ≤ (e + f) * (1001 / 1000) + ρ.eps * m + ρ.tiny := by
  refine rstep ρ ?_ hm hu
  have : x + y - (X + Y) = (x - X) + (y - Y) := by ring
  rw [this]
  exact (abs_add_le _ _).trans (add_le_add hx hy)

theorem diff_err {x y X Y e f m : ℚ} (hx : |x - X| ≤ e) (hy : |y - Y| ≤ f) (hm : |X - Y| ≤ m) (hu : ρ.eps ≤ 1 / 1000) :
    |ρ.r (x - y) - (X - Y)| ≤ (e + f) * (1001 / 1000) + ρ.eps * m + ρ.tiny := by
  refine rstep ρ ?_ hm hu
  have : x - y - (X - Y) = (x - X) - (y - Y) := by ring
  rw [this]
  exact (abs_sub _ _).trans (add_le_add hx hy)

theorem abs_mul_le {k x : ℚ} (hk0 : 0 ≤ k) (hk : k ≤ 2) : |k * x| ≤ 2 * |x| := by
  rw [abs_mul, abs_of_nonneg hk0]
  exact mul_le_mul_of_nonneg_right hk (abs_nonneg _)

theorem part13_err {k l : ℚ} (hk0 : 0 ≤ k) (hk : k ≤ 2) (hl0 : 0 ≤ l) (hl : l ≤ 2) (a b c : ℚ)
    (hu : ρ.eps ≤ 1 / 1000) (ht : ρ.tiny ≤ ρ.eps) :
    |ρ.r (ρ.r (ρ.r (ρ.r k * c) + ρ.r (ρ.r l * a)) - ρ.r (ρ.r k3 * b)) - (k * c + l * a - k3 * b)| ≤
      12 * ρ.eps * (|a| + |b| + |c|) + 7 * ρ.tiny := by
  have hk3 : 0 ≤ k3 ∧ k3 ≤ 2 := by unfold k3; norm_num
  have s1 := sum_err ρ (prod_err ρ hk0 hk c hu ht) (prod_err ρ hl0 hl a hu ht)
    (m := 2 * |c| + 2 * |a|) ((abs_add_le _ _).trans (add_le_add (abs_mul_le hk0 hk) (abs_mul_le hl0 hl))) hu
  have s2 := diff_err ρ s1 (prod_err ρ hk3.1 hk3.2 b hu ht) (m := 2 * |c| + 2 * |a| + 2 * |b|)
    ((abs_sub _ _).trans (add_le_add ((abs_add_le _ _).trans (add_le_add (abs_mul_le hk0 hk) (abs_mul_le hl0 hl)))
      (abs_mul_le hk3.1 hk3.2))) hu
  have ha : 0 ≤ ρ.eps * |a| := mul_nonneg ρ.epsPos (abs_nonneg _)
  have hb : 0 ≤ ρ.eps * |b| := mul_nonneg ρ.epsPos (abs_nonneg _)
  have hc : 0 ≤ ρ.eps * |c| := mul_nonneg ρ.epsPos (abs_nonneg _)
  have ht0 := ρ.tinyPos
  nlinarith

theorem part2_err (a c : ℚ) (hu : ρ.eps ≤ 1 / 1000) (ht : ρ.tiny ≤ ρ.eps) :
    |part2 ρ a c - (k4 * c + k4 * a)| ≤ 12 * ρ.eps * (|a| + |c|) + 7 * ρ.tiny := by
  have hk : 0 ≤ k4 ∧ k4 ≤ 2 := by unfold k4; norm_num
  have s1 := sum_err ρ (prod_err ρ hk.1 hk.2 c hu ht) (prod_err ρ hk.1 hk.2 a hu ht)
    (m := 2 * |c| + 2 * |a|) ((abs_add_le _ _).trans (add_le_add (abs_mul_le hk.1 hk.2) (abs_mul_le hk.1 hk.2))) hu
  have ha : 0 ≤ ρ.eps * |a| := mul_nonneg ρ.epsPos (abs_nonneg _)
  have hc : 0 ≤ ρ.eps * |c| := mul_nonneg ρ.epsPos (abs_nonneg _)
  have ht0 := ρ.tinyPos
  unfold part2
  nlinarith

/-- The impulses combine to the commanded one: each component of what the thrusters produce differs from it by no more
than a part in 10⁹ of the command, apart from rounding (a hundred units in the last place of a double). -/
theorem C55_produces (a b c : ℚ) (hu : ρ.eps ≤ 1 / 1000) (ht : ρ.tiny ≤ ρ.eps) :
    let x := valveImpulses ρ a b c
    let p := produced [x.1, x.2.1, x.2.2.1, x.2.2.2]
    let tol := (100 * ρ.eps + 1 / 1000000000) * (|a| + |b| + |c|) + 30 * ρ.tiny
    |p.1 - a| ≤ tol ∧ |p.2.1 - b| ≤ tol ∧ |p.2.2 - c| ≤ tol := by
  intro x p tol
  obtain ⟨x4, h0, hr, hx, hc⟩ := valveImpulses_cases ρ a b c
  have hk1 : 0 ≤ k1 ∧ k1 ≤ 2 := by unfold k1; norm_num
  have hk2 : 0 ≤ k2 ∧ k2 ≤ 2 := by unfold k2; norm_num
  have hk5 : 0 ≤ k5 ∧ k5 ≤ 2 := by unfold k5; norm_num
  have e1 := part13_err ρ hk1.1 hk1.2 hk2.1 hk2.2 a b c hu ht
  have e3 := part13_err ρ hk2.1 hk2.2 hk1.1 hk1.2 a b c hu ht
  have e2 := part2_err ρ a c hu ht
  rw [show ρ.r (ρ.r (ρ.r (ρ.r k1 * c) + ρ.r (ρ.r k2 * a)) - ρ.r (ρ.r k3 * b)) = part1 ρ a b c from rfl] at e1
  rw [show ρ.r (ρ.r (ρ.r (ρ.r k2 * c) + ρ.r (ρ.r k1 * a)) - ρ.r (ρ.r k3 * b)) = part3 ρ a b c from rfl] at e3
  set P1 : ℚ := k1 * c + k2 * a - k3 * b with hP1
  set P2 : ℚ := k4 * c + k4 * a with hP2
  set P3 : ℚ := k2 * c + k1 * a - k3 * b with hP3
  set S : ℚ := |a| + |b| + |c| with hS
  have ha0 := abs_nonneg a
  have hb0 := abs_nonneg b
  have hc0 := abs_nonneg c
  have hS0 : 0 ≤ S := by rw [hS]; linarith
  have hac : |a| + |c| ≤ S := by rw [hS]; linarith
  have hmul : ∀ k : ℚ, 0 ≤ k → k ≤ 2 → ∀ y : ℚ, |k * y| ≤ 2 * |y| := fun k h1 h2 y => abs_mul_le h1 h2
  have bP1 : |P1| ≤ 2 * S := by
    have h1 := hmul k1 hk1.1 hk1.2 c
    have h2 := hmul k2 hk2.1 hk2.2 a
    have h3 := hmul k3 (by unfold k3; norm_num) (by unfold k3; norm_num) b
    have h4 : |P1| ≤ |k1 * c + k2 * a| + |k3 * b| := abs_sub _ _
    have h5 := abs_add_le (k1 * c) (k2 * a)
    rw [hS]; linarith
  have bP3 : |P3| ≤ 2 * S := by
    have h1 := hmul k2 hk2.1 hk2.2 c
    have h2 := hmul k1 hk1.1 hk1.2 a
    have h3 := hmul k3 (by unfold k3; norm_num) (by unfold k3; norm_num) b
    have h4 : |P3| ≤ |k2 * c + k1 * a| + |k3 * b| := abs_sub _ _
    have h5 := abs_add_le (k2 * c) (k1 * a)
    rw [hS]; linarith
  have bP2 : |P2| ≤ 2 * S := by
    have h1 := hmul k4 (by unfold k4; norm_num) (by unfold k4; norm_num) c
    have h2 := hmul k4 (by unfold k4; norm_num) (by unfold k4; norm_num) a
    have h5 := abs_add_le (k4 * c) (k4 * a)
    rw [hS]
    have : |P2| ≤ |k4 * c| + |k4 * a| := h5
    linarith
  have huS : 0 ≤ ρ.eps * S := mul_nonneg ρ.epsPos hS0
  have huS' : ρ.eps * S ≤ 1 / 1000 * S := mul_le_mul_of_nonneg_right hu hS0
  have ht0 := ρ.tinyPos
  have e2' : |part2 ρ a c - P2| ≤ 12 * ρ.eps * S + 7 * ρ.tiny := by
    have : ρ.eps * (|a| + |c|) ≤ ρ.eps * S := mul_le_mul_of_nonneg_left hac ρ.epsPos
    linarith
  have bx4 : x4 ≤ 3 * S + 7 * ρ.tiny := by
    have low : ∀ {q Q : ℚ}, |q - Q| ≤ 12 * ρ.eps * S + 7 * ρ.tiny → |Q| ≤ 2 * S → -q ≤ 3 * S + 7 * ρ.tiny := by
      intro q Q h1 h2
      have h3 := (abs_le.mp h1).1
      have h4 := (abs_le.mp h2).1
      linarith
    rcases hc with ⟨h, _⟩ | ⟨h, _⟩
    · rw [h]; linarith
    · rw [h]
      rcases min_choice (part2 ρ a c) (part3 ρ a b c) with hm | hm <;> rw [hm]
      · rcases min_choice (part1 ρ a b c) (part2 ρ a c) with hm | hm <;> rw [hm]
        · exact low e1 bP1
        · exact low e2' bP2
      · rcases min_choice (part1 ρ a b c) (part3 ρ a b c) with hm | hm <;> rw [hm]
        · exact low e1 bP1
        · exact low e3 bP3
  have hux : 0 ≤ ρ.eps * x4 := mul_nonneg ρ.epsPos h0
  have hux4 : ρ.eps * x4 ≤ 3 * (ρ.eps * S) + 7 / 1000 * ρ.tiny := by
    have h1 : ρ.eps * x4 ≤ ρ.eps * (3 * S + 7 * ρ.tiny) := mul_le_mul_of_nonneg_left bx4 ρ.epsPos
    have h2 : ρ.eps * ρ.tiny ≤ 1 / 1000 * ρ.tiny := mul_le_mul_of_nonneg_right hu ht0
    linarith
  have ek := prod_err ρ hk5.1 hk5.2 x4 hu ht
  rw [abs_of_nonneg h0] at ek
  have bk : |k5 * x4| ≤ 2 * x4 := by
    have := abs_mul_le (x := x4) hk5.1 hk5.2
    rwa [abs_of_nonneg h0] at this
  have x1e := sum_err ρ e1 ek (m := 2 * S + 2 * x4) ((abs_add_le _ _).trans (add_le_add bP1 bk)) hu
  have x3e := sum_err ρ e3 ek (m := 2 * S + 2 * x4) ((abs_add_le _ _).trans (add_le_add bP3 bk)) hu
  have x2e := sum_err ρ e2' (show |x4 - x4| ≤ 0 by rw [sub_self, abs_zero]) (m := 2 * S + x4)
    ((abs_add_le _ _).trans (add_le_add bP2 (by rw [abs_of_nonneg h0]))) hu
  have hp : x = (ρ.r (part1 ρ a b c + ρ.r (ρ.r k5 * x4)), ρ.r (part2 ρ a c + x4),
      ρ.r (part3 ρ a b c + ρ.r (ρ.r k5 * x4)), x4) := hx
  set y1 := ρ.r (part1 ρ a b c + ρ.r (ρ.r k5 * x4)) with hy1
  set y2 := ρ.r (part2 ρ a c + x4) with hy2
  set y3 := ρ.r (part3 ρ a b c + ρ.r (ρ.r k5 * x4)) with hy3
  have d1 : |y1 - (P1 + k5 * x4)| ≤ 42 * (ρ.eps * S) + 11 * ρ.tiny := by linarith
  have d2 : |y2 - (P2 + x4)| ≤ 42 * (ρ.eps * S) + 11 * ρ.tiny := by linarith
  have d3 : |y3 - (P3 + k5 * x4)| ≤ 42 * (ρ.eps * S) + 11 * ρ.tiny := by linarith
  clear_value y1 y2 y3
  have hpx : p = produced [y1, y2, y3, x4] := by
    show produced [x.1, x.2.1, x.2.2.1, x.2.2.2] = _
    rw [hp]
  have htol : tol = 100 * (ρ.eps * S) + 1 / 1000000000 * S + 30 * ρ.tiny := by
    show (100 * ρ.eps + 1 / 1000000000) * (|a| + |b| + |c|) + 30 * ρ.tiny = _
    rw [← hS]; ring
  rw [hpx, htol]
  have la := neg_abs_le a
  have la' := le_abs_self a
  have lb := neg_abs_le b
  have lb' := le_abs_self b
  have lc := neg_abs_le c
  have lc' := le_abs_self c
  have l1 := abs_le.mp d1
  have l2 := abs_le.mp d2
  have l3 := abs_le.mp d3
  simp only [produced, thrusters, List.zipWith_cons_cons, List.zipWith_nil_left, List.sum_cons, List.sum_nil]
  rw [hP1, hP3, hP2] at *
  unfold k1 k2 k3 k4 k5 at *
  refine ⟨abs_le.mpr ⟨?_, ?_⟩, abs_le.mpr ⟨?_, ?_⟩, abs_le.mpr ⟨?_, ?_⟩⟩ <;> linarith

theorem toInt_mono {x y : ℚ} (h : x ≤ y) :
    (if 0 ≤ x then ⌊x⌋ else ⌈x⌉) ≤ (if 0 ≤ y then ⌊y⌋ else ⌈y⌉) := by
  split
  · rename_i hx
    rw [if_pos (hx.trans h)]
    exact Int.floor_mono h
  · rename_i hx
    split
    · rename_i hy
      have h1 : ⌈x⌉ ≤ 0 := Int.ceil_le.mpr (by push_cast; linarith)
      have h2 : 0 ≤ ⌊y⌋ := Int.floor_nonneg.mpr hy
      omega
    · exact Int.ceil_mono h

theorem toInt_eq {x : ℚ} {n : ℤ} (h : Orb.toInt x = some n) :
    n = (if 0 ≤ x then ⌊x⌋ else ⌈x⌉) ∧ -2147483648 ≤ n ∧ n ≤ 2147483647 := by
  unfold Orb.toInt at h
  dsimp only at h
  by_cases hc : -2147483648 ≤ (if 0 ≤ x then ⌊x⌋ else ⌈x⌉) ∧ (if 0 ≤ x then ⌊x⌋ else ⌈x⌉) ≤ 2147483647
  · rw [if_pos hc] at h
    have := Option.some.inj h
    exact ⟨this.symm, this ▸ hc.1, this ▸ hc.2⟩
  · rw [if_neg hc] at h
    cases h

theorem clampInt_toNat {n : ℤ} (h : n ≤ 2147483647) : ((BitVec.ofInt 32 (if n < 0 then 0 else n)).toNat : ℤ) = max n 0 := by
  split
  · rw [show (BitVec.ofInt 32 0).toNat = 0 from rfl]
    omega
  · rw [BitVec.toNat_ofInt]
    have : n % (2 ^ 32 : ℕ) = n := Int.emod_eq_of_lt (by omega) (by omega)
    rw [this]
    omega

/-- The value `impulse_to_time` converts to an integer. -/
theorem slope_pos : 0 < ρ.r slope ∨ ρ.r slope = 0 := by
  have := r_nonneg ρ (x := slope) (by unfold slope; norm_num)
  rcases lt_or_eq_of_le this with h | h
  · exact Or.inl h
  · exact Or.inr h.symm

/-- The open time as a number of milliseconds before it is made an integer. -/
def rawTime (x : ℚ) : ℚ := ρ.r (ρ.r (ρ.r (x - ρ.r intercept) / ρ.r slope) * 1000)

theorem rawTime_mono {x y : ℚ} (h : x ≤ y) : rawTime ρ x ≤ rawTime ρ y := by
  unfold rawTime
  apply ρ.mono
  apply mul_le_mul_of_nonneg_right _ (by norm_num)
  apply ρ.mono
  rcases slope_pos ρ with hs | hs
  · exact div_le_div_of_nonneg_right (ρ.mono _ _ (by linarith)) hs.le
  · rw [hs, div_zero, div_zero]

theorem impulseToTime_some {x : ℚ} {n : U32} (h : impulseToTime ρ x = some n) :
    (n.toNat : ℤ) = max (if 0 ≤ rawTime ρ x then ⌊rawTime ρ x⌋ else ⌈rawTime ρ x⌉) 0 := by
  unfold impulseToTime at h
  dsimp only at h
  rw [show ρ.r (ρ.r (ρ.r (x - ρ.r intercept) / ρ.r slope) * 1000) = rawTime ρ x from rfl] at h
  cases ht : Orb.toInt (rawTime ρ x) with
  | none => rw [ht] at h; cases h
  | some k =>
    rw [ht] at h
    have hn := Option.some.inj h
    obtain ⟨h1, h2, h3⟩ := toInt_eq ht
    rw [← hn, clampInt_toNat h3, h1]

/-- More impulse never gives a shorter opening. -/
theorem C55_time_monotone {x y : ℚ} (h : x ≤ y) {m n : U32} (hm : impulseToTime ρ x = some m)
    (hn : impulseToTime ρ y = some n) : m.toNat ≤ n.toNat := by
  have h1 := impulseToTime_some ρ hm
  have h2 := impulseToTime_some ρ hn
  have h3 := toInt_mono (rawTime_mono ρ h)
  omega

/-- An idle thruster is not opened. -/
theorem C55_time_zero {n : U32} (h : impulseToTime ρ 0 = some n) : n = 0 := by
  have h1 := impulseToTime_some ρ h
  have hr : rawTime ρ 0 ≤ 0 := by
    have hi := r_nonneg ρ (x := intercept) (by unfold intercept; norm_num)
    have e : ∀ z : ℚ, z ≤ 0 → ρ.r z ≤ 0 := by
      intro z hz
      have := ρ.mono z 0 hz
      rwa [r_zero] at this
    unfold rawTime
    refine e _ (mul_nonpos_of_nonpos_of_nonneg (e _ ?_) (by norm_num))
    refine div_nonpos_of_nonpos_of_nonneg (e _ (by linarith)) (r_nonneg ρ (by unfold slope; norm_num))
  have hz : (if 0 ≤ rawTime ρ 0 then ⌊rawTime ρ 0⌋ else ⌈rawTime ρ 0⌉) ≤ 0 := by
    split
    · exact Int.floor_le_iff.mpr (by push_cast; linarith) |>.trans (le_refl _)
    · exact Int.ceil_le.mpr (by push_cast; linarith)
  apply BitVec.eq_of_toNat_eq
  show n.toNat = 0
  omega

/-- Error of the open time before truncation. -/
theorem rawTime_err {x : ℚ} (hx0 : 0 ≤ x) (hu : ρ.eps ≤ 1 / 1000) (ht : ρ.tiny ≤ ρ.eps / 1000) :
    |rawTime ρ x - (x - intercept) / slope * 1000| ≤ 300000 * ρ.eps * (x + 1) := by
  have hi : (0 : ℚ) ≤ intercept ∧ intercept ≤ 1 / 10000 := by unfold intercept; norm_num
  have hs : (24 / 1000 : ℚ) ≤ slope ∧ slope ≤ 25 / 1000 := by unfold slope; norm_num
  have he := ρ.epsPos
  have ht0 := ρ.tinyPos
  have hx1 : ρ.eps * x ≤ 1 / 1000 * x := mul_le_mul_of_nonneg_right hu hx0
  have hex : 0 ≤ ρ.eps * x := mul_nonneg he hx0
  -- intercept and slope
  have ei : |ρ.r intercept - intercept| ≤ 2 / 1000 * ρ.eps := by
    have h1 := ρ.err intercept
    rw [abs_of_nonneg hi.1] at h1
    have : ρ.eps * intercept ≤ ρ.eps * (1 / 10000) := mul_le_mul_of_nonneg_left hi.2 he
    linarith
  have es : |ρ.r slope - slope| ≤ 26 / 1000 * ρ.eps := by
    have h1 := ρ.err slope
    rw [abs_of_nonneg (show (0 : ℚ) ≤ slope by linarith [hs.1])] at h1
    have : ρ.eps * slope ≤ ρ.eps * (25 / 1000) := mul_le_mul_of_nonneg_left hs.2 he
    linarith
  have hsr : (23 / 1000 : ℚ) ≤ ρ.r slope := by
    have := (abs_le.mp es).1
    linarith [hs.1]
  -- the difference
  have e1 : |x - ρ.r intercept - (x - intercept)| ≤ 2 / 1000 * ρ.eps := by
    rw [show x - ρ.r intercept - (x - intercept) = -(ρ.r intercept - intercept) by ring, abs_neg]
    exact ei
  have bX : |x - intercept| ≤ x + 1 / 10000 := by
    rw [abs_le]
    constructor <;> linarith [hi.1, hi.2]
  have e2 := rstep ρ e1 bX hu
  have e2' : |ρ.r (x - ρ.r intercept) - (x - intercept)| ≤ ρ.eps * x + 5 / 1000 * ρ.eps := by linarith
  -- the quotient
  have e3 : |ρ.r (x - ρ.r intercept) / ρ.r slope - (x - intercept) / slope| ≤ 100 * (ρ.eps * x) + ρ.eps := by
    have hsp : (0 : ℚ) < ρ.r slope := by linarith
    have hsp' : (0 : ℚ) < slope := by linarith [hs.1]
    have key : ρ.r (x - ρ.r intercept) / ρ.r slope - (x - intercept) / slope =
        (ρ.r (x - ρ.r intercept) - (x - intercept)) / ρ.r slope +
          (x - intercept) * (slope - ρ.r slope) / (slope * ρ.r slope) := by
      field_simp
      ring
    rw [key]
    have a1 : |(ρ.r (x - ρ.r intercept) - (x - intercept)) / ρ.r slope| ≤ (ρ.eps * x + 5 / 1000 * ρ.eps) / (23 / 1000) := by
      rw [abs_div, abs_of_pos hsp]
      exact div_le_div₀ (by linarith) e2' (by norm_num) hsr
    have a2 : |(x - intercept) * (slope - ρ.r slope) / (slope * ρ.r slope)| ≤
        (x + 1 / 10000) * (26 / 1000 * ρ.eps) / (24 / 1000 * (23 / 1000)) := by
      rw [abs_div, abs_mul, abs_of_pos (mul_pos hsp' hsp)]
      refine div_le_div₀ (by positivity) ?_ (by norm_num) (mul_le_mul hs.1 hsr (by norm_num) (by linarith))
      refine mul_le_mul bX ?_ (abs_nonneg _) (by linarith)
      rw [abs_sub_comm]
      exact es
    have a3 := abs_add_le ((ρ.r (x - ρ.r intercept) - (x - intercept)) / ρ.r slope)
      ((x - intercept) * (slope - ρ.r slope) / (slope * ρ.r slope))
    have a4 : (ρ.eps * x + 5 / 1000 * ρ.eps) / (23 / 1000) = 1000 / 23 * (ρ.eps * x) + 5 / 23 * ρ.eps := by ring
    have a5 : (x + 1 / 10000) * (26 / 1000 * ρ.eps) / (24 / 1000 * (23 / 1000)) =
        (26 * 1000 / (24 * 23)) * (ρ.eps * x) + 26 / (24 * 23 * 10) * ρ.eps := by ring
    rw [a4] at a1
    rw [a5] at a2
    norm_num at a1 a2 ⊢
    linarith
  have bQ : |(x - intercept) / slope| ≤ 42 * x + 1 := by
    rw [abs_div, abs_of_pos (show (0 : ℚ) < slope by linarith [hs.1]), div_le_iff₀ (by linarith [hs.1])]
    have h1 : (24 / 1000) * (42 * x + 1) ≤ slope * (42 * x + 1) := mul_le_mul_of_nonneg_right hs.1 (by linarith)
    linarith
  have e4 := rstep ρ e3 bQ hu
  have e4' : |ρ.r (ρ.r (x - ρ.r intercept) / ρ.r slope) - (x - intercept) / slope| ≤ 143 * (ρ.eps * x) + 3 * ρ.eps := by
    linarith
  have e5 : |ρ.r (ρ.r (x - ρ.r intercept) / ρ.r slope) * 1000 - (x - intercept) / slope * 1000| ≤
      143000 * (ρ.eps * x) + 3000 * ρ.eps := by
    rw [← sub_mul, abs_mul, abs_of_pos (show (0 : ℚ) < 1000 by norm_num)]
    linarith
  have bR : |(x - intercept) / slope * 1000| ≤ 42000 * x + 1000 := by
    rw [abs_mul, abs_of_pos (show (0 : ℚ) < 1000 by norm_num)]
    linarith
  have e6 := rstep ρ e5 bR hu
  unfold rawTime
  linarith

/-- A thruster with impulse `x` is opened for the number of milliseconds that gives `x` by the measured law
`0.000070092 + 0.024119 t`, cut to the millisecond below: never more than `x`, and less than the impulse of a millisecond
short of it. Impulses below that of the shortest opening are left out. (Apart from rounding.) -/
theorem C55_time {x : ℚ} (hx0 : 0 ≤ x) (hx : x ≤ 20000) (hu : ρ.eps ≤ 1 / 1000000) (ht : ρ.tiny ≤ ρ.eps / 1000) :
    ∃ n : U32, impulseToTime ρ x = some n ∧
      (let tol := 8 * ρ.eps * (x + 1)
       let given := 70092 / 1000000000 + 24119 / 1000000 * ((n.toNat : ℚ) / 1000)
       (n ≠ 0 → given ≤ x + tol) ∧ x < given + 24119 / 1000000000 + tol) := by
  have herr := rawTime_err ρ hx0 (by linarith) ht
  have hs : slope = 24119 / 1000000 := rfl
  have hi : intercept = 70092 / 1000000000 := rfl
  have he := ρ.epsPos
  have hex : 0 ≤ ρ.eps * x := mul_nonneg he hx0
  have hbig : ρ.eps * x ≤ 2 / 100 := by
    have h1 : ρ.eps * x ≤ 1 / 1000000 * x := mul_le_mul_of_nonneg_right hu hx0
    linarith
  have hT : (x - intercept) / slope * 1000 = (x - 70092 / 1000000000) * (1000000000 / 24119) := by
    rw [hs, hi]; ring
  rw [hT] at herr
  have hle := abs_le.mp herr
  set T := rawTime ρ x with hTdef
  have hTl : (-2147483648 : ℚ) ≤ T - 1 ∧ T + 1 ≤ 2147483647 := by
    constructor <;> linarith
  have hin : -2147483648 ≤ (if 0 ≤ T then ⌊T⌋ else ⌈T⌉) ∧ (if 0 ≤ T then ⌊T⌋ else ⌈T⌉) ≤ 2147483647 := by
    have f1 := Int.floor_le T
    have f2 := Int.lt_floor_add_one T
    have c1 := Int.le_ceil T
    have c2 := Int.ceil_lt_add_one T
    split
    · constructor
      · have : ((-2147483648 : ℤ) : ℚ) ≤ (⌊T⌋ : ℚ) := by push_cast; linarith
        exact_mod_cast this
      · have : (⌊T⌋ : ℚ) ≤ ((2147483647 : ℤ) : ℚ) := by push_cast; linarith
        exact_mod_cast this
    · constructor
      · have : ((-2147483648 : ℤ) : ℚ) ≤ (⌈T⌉ : ℚ) := by push_cast; linarith
        exact_mod_cast this
      · have : (⌈T⌉ : ℚ) ≤ ((2147483647 : ℤ) : ℚ) := by push_cast; linarith
        exact_mod_cast this
  have hto : Orb.toInt T = some (if 0 ≤ T then ⌊T⌋ else ⌈T⌉) := by
    unfold Orb.toInt
    dsimp only
    rw [if_pos hin]
  have hex2 : impulseToTime ρ x = some (BitVec.ofInt 32
      (if (if 0 ≤ T then ⌊T⌋ else ⌈T⌉) < 0 then 0 else (if 0 ≤ T then ⌊T⌋ else ⌈T⌉))) := by
    unfold impulseToTime
    dsimp only
    rw [show ρ.r (ρ.r (ρ.r (x - ρ.r intercept) / ρ.r slope) * 1000) = T from rfl, hto]
  refine ⟨_, hex2, ?_⟩
  have hn := clampInt_toNat hin.2
  set n := BitVec.ofInt 32 (if (if 0 ≤ T then ⌊T⌋ else ⌈T⌉) < 0 then 0 else (if 0 ≤ T then ⌊T⌋ else ⌈T⌉)) with hndef
  clear_value n
  by_cases hT0 : 0 ≤ T
  · rw [if_pos hT0, max_eq_left (Int.floor_nonneg.mpr hT0)] at hn
    have hnq : (n.toNat : ℚ) = (⌊T⌋ : ℚ) := by exact_mod_cast hn
    have f1 := Int.floor_le T
    have f2 := Int.lt_floor_add_one T
    dsimp only
    rw [hnq]
    constructor
    · intro _
      linarith
    · linarith
  · rw [if_neg hT0] at hn
    have hc : ⌈T⌉ ≤ 0 := Int.ceil_le.mpr (by push_cast; linarith)
    rw [max_eq_right hc] at hn
    have hn0 : n.toNat = 0 := by exact_mod_cast hn
    dsimp only
    rw [hn0]
    refine ⟨fun h => absurd (BitVec.eq_of_toNat_eq hn0) h, ?_⟩
    push_cast
    linarith

end

/-! ### Roundings -/

/-- No rounding at all. -/
def exact : Rounding where
  r x := x
  mono _ _ h := h
  neg _ := rfl
  idem _ := rfl
  one := rfl
  eps := 0
  tiny := 0
  epsPos := le_refl _
  tinyPos := le_refl _
  err x := by simp

/-- IEEE-754 single precision is such a rounding (double precision is one by the same argument). -/
def single : Rounding where
  r := f32
  mono _ _ h := f32_mono h
  neg := f32_neg
  idem x := f32_rep (rep_f32 x)
  one := by simpa using f32_int (n := 1) (by norm_num)
  eps := 1 / 2 ^ 24
  tiny := 1 / 2 ^ 150
  epsPos := by positivity
  tinyPos := by positivity
  err x := by
    have := f32_err_abs x
    rw [div_eq_mul_one_div, mul_comm] at this
    exact this

/-- The hypotheses of `C55_produces` and `C55_time` hold for it, and the impulses of a command are not trivial. -/
example : single.eps ≤ 1 / 1000000 ∧ single.tiny ≤ single.eps / 1000 := by
  constructor
  · show (1 : ℚ) / 2 ^ 24 ≤ 1 / 1000000
    norm_num
  · show (1 : ℚ) / 2 ^ 150 ≤ 1 / 2 ^ 24 / 1000
    norm_num

example : scheduleValves exact (1 / 1000, 1 / 1000, 0) = some (54, 73, 23, 34) := by
  decide +kernel

/-! ### What the thrusters do not do -/

/-- The controller is meant to take the least `x4` that leaves no impulse negative. It does not: when the first thruster
comes out lowest, all four impulses can be made strictly smaller by the controller's own equations, and still none is
negative. The satellite spends propellant for nothing. -/
theorem C55_counterexample_wasteful (a b c : ℚ) (h1 : part1 exact a b c < 0) (h2 : part1 exact a b c < part2 exact a c)
    (h3 : part1 exact a b c ≤ part3 exact a b c) :
    let x := valveImpulses exact a b c
    ∃ y4, let y := with4 exact (part1 exact a b c) (part2 exact a c) (part3 exact a b c) y4
      (0 ≤ y.1 ∧ 0 ≤ y.2.1 ∧ 0 ≤ y.2.2 ∧ 0 ≤ y4) ∧ y.1 < x.1 ∧ y.2.1 < x.2.1 ∧ y.2.2 < x.2.2.1 ∧ y4 < x.2.2.2 := by
  obtain ⟨x4, _, _, hx, hc⟩ := valveImpulses_cases exact a b c
  intro x
  have hxx : x = _ := hx
  rw [hxx]
  have hx4 : x4 = -part1 exact a b c := by
    rcases hc with ⟨_, h, _⟩ | ⟨h, _⟩
    · linarith
    · rw [h, min_eq_left (le_min h2.le h3)]
  generalize part1 exact a b c = p1 at *
  generalize part2 exact a c = p2 at *
  generalize part3 exact a b c = p3 at *
  have hk5 : k5 = 169335426478 / 100000000000 := rfl
  refine ⟨max (-p1 / k5) (-p2), ?_⟩
  have g1 : -p1 / k5 ≤ max (-p1 / k5) (-p2) := le_max_left _ _
  have g2 : -p2 ≤ max (-p1 / k5) (-p2) := le_max_right _ _
  have g3 : max (-p1 / k5) (-p2) < -p1 := by
    refine max_lt ?_ (by linarith)
    rw [hk5, div_lt_iff₀ (by norm_num)]
    linarith
  have g4 : -p1 ≤ k5 * max (-p1 / k5) (-p2) := by
    have : k5 * (-p1 / k5) ≤ k5 * max (-p1 / k5) (-p2) := mul_le_mul_of_nonneg_left g1 (by rw [hk5]; norm_num)
    rwa [mul_div_cancel₀ _ (by rw [hk5]; norm_num)] at this
  have g5 : k5 * max (-p1 / k5) (-p2) < k5 * -p1 := mul_lt_mul_of_pos_left g3 (by rw [hk5]; norm_num)
  have g6 : 0 ≤ -p1 / k5 := div_nonneg (by linarith) (by rw [hk5]; norm_num)
  generalize max (-p1 / k5) (-p2) = m at *
  subst hx4
  show (0 ≤ p1 + k5 * m ∧ 0 ≤ p2 + m ∧ 0 ≤ p3 + k5 * m ∧ 0 ≤ m) ∧ p1 + k5 * m < p1 + k5 * -p1 ∧
    p2 + m < p2 + -p1 ∧ p3 + k5 * m < p3 + k5 * -p1 ∧ m < -p1
  refine ⟨⟨?_, ?_, ?_, ?_⟩, ?_, ?_, ?_, g3⟩ <;> linarith

example : part1 exact 0 1 0 < 0 ∧ part1 exact 0 1 0 < part2 exact 0 0 ∧ part1 exact 0 1 0 ≤ part3 exact 0 1 0 := by
  refine ⟨?_, ?_, ?_⟩ <;> decide +kernel

/-- The open times have no upper limit: a thruster with more than 0.0243 newton seconds gets more than the second the
propulsion controller accepts, which then does not accept any of the schedule: nothing is fired. -/
theorem C55_counterexample_too_much (a b c : ℚ) (hbig : 243 / 10000 ≤ (valveImpulses exact a b c).1) (t1 t2 t3 t4 : U32)
    (h : scheduleValves exact (a, b, c) = some (t1, t2, t3, t4)) (ctl : Ctl) (hctl : ctl.v1 = t1) :
    1000 < t1.toNat ∧ ctl.validSchedule = false := by
  have ht : impulseToTime exact (valveImpulses exact a b c).1 = some t1 := by
    unfold scheduleValves at h
    dsimp only at h
    split at h
    · rename_i u1 u2 u3 u4 e1 e2 e3 e4
      have := Option.some.inj h
      rw [e1]
      congr 1
      exact congrArg (·.1) this
    · cases h
  have hn := impulseToTime_some exact ht
  have hr : (1001 : ℚ) ≤ rawTime exact (valveImpulses exact a b c).1 := by
    show (1001 : ℚ) ≤ ((valveImpulses exact a b c).1 - intercept) / slope * 1000
    have : (1001 / 1000 : ℚ) ≤ ((valveImpulses exact a b c).1 - intercept) / slope := by
      rw [le_div_iff₀ (by unfold slope; norm_num)]
      unfold slope intercept
      linarith
    linarith
  rw [if_pos (by linarith)] at hn
  have hf : (1001 : ℤ) ≤ ⌊rawTime exact (valveImpulses exact a b c).1⌋ := Int.le_floor.mpr (by push_cast; exact hr)
  have h1000 : 1000 < t1.toNat := by omega
  refine ⟨h1000, ?_⟩
  unfold Ctl.validSchedule
  have : decide (ctl.v1 ≤ 1000) = false := by
    rw [hctl, decide_eq_false_iff_not, BitVec.le_def]
    show ¬ t1.toNat ≤ 1000
    omega
  rw [this]
  rfl

example : (valveImpulses exact 1 0 0).1 ≥ 243 / 10000 ∧ (scheduleValves exact (1, 0, 0)).isSome = true := by
  constructor <;> decide +kernel

/-! ### C90 -/

variable {L : Lib}

namespace Spec
/-- The circumstances in which the orbit controller may act: everything it needs is valid, and the satellite is the
follower. -/
structure MayAct (i : Orb.In L) : Prop where
  time : i.timeValid = true
  orbit : i.orbitValid = true
  relative : i.relState ≠ 0
  attitude : i.attValid = true
  mission : i.mission = Mission.follower ∨ i.mission = Mission.followerCloseApproach
end Spec

theorem mayAct_iff (i : Orb.In L) : i.active = true ↔ MayAct i := by
  unfold In.active
  simp only [Bool.and_eq_true, Bool.or_eq_true, beq_iff_eq, bne_iff_ne]
  constructor
  · rintro ⟨⟨⟨⟨h1, h2⟩, h3⟩, h4⟩, h5⟩
    exact ⟨h1, h2, h3, h4, h5⟩
  · rintro ⟨h1, h2, h3, h4, h5⟩
    exact ⟨⟨⟨⟨h1, h2⟩, h3⟩, h4⟩, h5⟩

theorem smooth_keeps (s : Orb.St L) (i : Orb.In L) : (s.smooth i).valves = s.valves ∧ (s.smooth i).impulse = s.impulse ∧
    (s.smooth i).gain = s.gain ∧ (s.smooth i).numNodes = s.numNodes ∧ (s.smooth i).alpha = s.alpha ∧
    (s.smooth i).mem = s.mem := by
  unfold St.smooth
  split <;> exact ⟨rfl, rfl, rfl, rfl, rfl, rfl⟩

/-- Outside these circumstances the controller schedules nothing: the open times, the commanded impulse and the countdown
to the firing stay as they are. -/
theorem C90_only_when (ρ : Rounding) (s s' : Orb.St L) (i : Orb.In L) (n : U32) (h : s.exec ρ i = some (s', n))
    (hno : ¬ MayAct i) : s'.valves = s.valves ∧ s'.impulse = s.impulse ∧ n = i.countdown := by
  unfold St.exec at h
  dsimp only at h
  rw [if_neg (by rw [mayAct_iff]; exact hno)] at h
  have := Option.some.inj h
  have h1 := congrArg (·.1) this
  have h2 := congrArg (·.2) this
  dsimp only at h1 h2
  rw [← h1]
  exact ⟨(smooth_keeps s i).1, (smooth_keeps s i).2.1, h2.symm⟩

theorem nextNode_spec (theta w : ℚ) (nodes : List ℚ) :
    (nextNode theta w nodes = none ∧ ∀ x ∈ nodes, (x - theta) / w ≤ 0) ∨
      ∃ x ∈ nodes, nextNode theta w nodes = some ((x - theta) / w) ∧ 0 < (x - theta) / w ∧
        ∀ y ∈ nodes, 0 < (y - theta) / w → (x - theta) / w ≤ (y - theta) / w := by
  unfold nextNode
  induction nodes using List.reverseRecOn with
  | nil => left; exact ⟨rfl, fun x h => by cases h⟩
  | append_singleton nodes z ih =>
    rw [List.foldl_append]
    simp only [List.foldl_cons, List.foldl_nil]
    rcases ih with ⟨h1, h2⟩ | ⟨x, hx, h1, h2, h3⟩
    · rw [h1]
      by_cases hz : 0 < (z - theta) / w
      · right
        refine ⟨z, by simp, ?_, hz, ?_⟩
        · rw [if_pos ⟨hz, rfl⟩]
        · intro y hy hy0
          rcases List.mem_append.mp hy with hy | hy
          · exact absurd hy0 (not_lt.mpr (h2 y hy))
          · rw [List.mem_singleton.mp hy]
      · left
        refine ⟨?_, ?_⟩
        · rw [if_neg (fun h => hz h.1)]
        · intro y hy
          rcases List.mem_append.mp hy with hy | hy
          · exact h2 y hy
          · rw [List.mem_singleton.mp hy]; exact not_lt.mp hz
    · rw [h1]
      right
      by_cases hz : 0 < (z - theta) / w ∧ (z - theta) / w < (x - theta) / w
      · refine ⟨z, by simp, ?_, hz.1, ?_⟩
        · rw [if_pos ⟨hz.1, by simpa using hz.2⟩]
        · intro y hy hy0
          rcases List.mem_append.mp hy with hy | hy
          · exact hz.2.le.trans (h3 y hy hy0)
          · rw [List.mem_singleton.mp hy]
      · refine ⟨x, List.mem_append_left _ hx, ?_, h2, ?_⟩
        · rw [if_neg (by
            rintro ⟨g1, g2⟩
            exact hz ⟨g1, by simpa using g2⟩)]
        · intro y hy hy0
          rcases List.mem_append.mp hy with hy | hy
          · exact h3 y hy hy0
          · rw [List.mem_singleton.mp hy] at hy0 ⊢
            by_contra hc
            exact hz ⟨hy0, not_le.mp hc⟩

/-- The countdown is set only while the propulsion controller is idle, and only to the number of whole cycles to the
nearest node that the controller takes to be ahead, when that is at most ten more than the controller needs to fill the
tank. -/
theorem C90_countdown (ρ : Rounding) (s s' : Orb.St L) (i : Orb.In L) (n : U32) (h : s.exec ρ i = some (s', n))
    (hn : n ≠ i.countdown) :
    let theta := L.angle i.t i.pos i.vel
    let w := L.rate i.pos (L.inertial i.t i.pos i.vel)
    let nodes := if i.relState = 2 then nearNodes s.numNodes else [1 / 3, 1, -1 / 3]
    MayAct i ∧ i.propState = Prp.idle ∧
    ∃ x ∈ nodes, 0 < (x - theta) / w ∧ (∀ y ∈ nodes, 0 < (y - theta) / w → (x - theta) / w ≤ (y - theta) / w) ∧
      (n.toNat : ℤ) = ⌊(x - theta) / w * 1000 / 170⌋ ∧ n.toNat ≤ (i.minCycles + 10).toNat := by
  intro theta w nodes
  have hact : MayAct i := by
    by_contra hno
    exact hn (C90_only_when ρ s s' i n h hno).2.2
  unfold St.exec at h
  dsimp only at h
  rw [if_pos ((mayAct_iff i).mpr hact)] at h
  split at h
  · cases h
  · have hn2 : i.countdownAfter (s.smooth i).numNodes = n := congrArg (·.2) (Option.some.inj h)
    rw [(smooth_keeps s i).2.2.2.1] at hn2
    unfold In.countdownAfter timeTillNode at hn2
    dsimp only at hn2
    have hnodes : nodes = if i.relState = 2 then nearNodes s.numNodes else farNodes := rfl
    rw [← hnodes] at hn2
    rcases nextNode_spec theta w nodes with ⟨e, _⟩ | ⟨x, hx, e, hpos, hmin⟩
    · rw [e] at hn2
      exact absurd hn2.symm hn
    · rw [e] at hn2
      dsimp only at hn2
      by_cases hc : (x - theta) / w * 1000 / 170 ≤ ((i.minCycles + 10).toNat : ℚ) ∧ i.propState = Prp.idle
      · rw [if_pos hc] at hn2
        have hlt := (i.minCycles + 10).isLt
        have hfl : ⌊(x - theta) / w * 1000 / 170⌋ ≤ ((i.minCycles + 10).toNat : ℤ) := by
          have h1 := Int.floor_mono hc.1
          rwa [Int.floor_natCast] at h1
        have hge : 0 ≤ ⌊(x - theta) / w * 1000 / 170⌋ := Int.floor_nonneg.mpr (by positivity)
        have hnn : n.toNat = ⌊(x - theta) / w * 1000 / 170⌋.toNat := by
          rw [← hn2, BitVec.toNat_ofNat]
          exact Nat.mod_eq_of_lt (by omega)
        exact ⟨hact, hc.2, x, hx, hpos, hmin, by omega, by omega⟩
      · rw [if_neg hc] at hn2
        exact absurd hn2.symm hn

/-- The angle from the sun is taken without its sign. On the half of the orbit where the satellite approaches the sun
line, at signed angle `-phi`, the controller therefore takes a node for ahead that it has just left behind: the time it
computes is less than the time to any node on its way. -/
theorem C90_counterexample_direction (phi w : ℚ) (hw : 0 < w) (h0 : 0 < phi) (h1 : phi < 1 / 3) (num : U32) (rel : U8)
    (hfar : rel ≠ 2) :
    ∃ t, timeTillNode rel num |(-phi)| w = some t ∧
      ∀ x ∈ ([1 / 3, 1, -1 / 3 + 2] : List ℚ), t < (x - (-phi)) / w := by
  rw [abs_neg, abs_of_pos h0]
  refine ⟨(1 / 3 - phi) / w, ?_, ?_⟩
  · unfold timeTillNode
    rw [if_neg hfar]
    rcases nextNode_spec phi w farNodes with ⟨_, h⟩ | ⟨x, hx, e, hpos, hmin⟩
    · have := h (1 / 3) (by simp [farNodes])
      exact absurd (div_pos (by linarith) hw) (not_lt.mpr this)
    · rw [e]
      congr 1
      have hm := hmin (1 / 3) (by simp [farNodes]) (div_pos (by linarith) hw)
      rw [div_le_div_iff_of_pos_right hw] at hm
      have hx0 : 0 < x - phi := by
        rcases (div_pos_iff.mp hpos) with h | h
        · exact h.1
        · linarith [h.2]
      simp only [farNodes, List.mem_cons, List.not_mem_nil, or_false] at hx
      rcases hx with rfl | rfl | rfl
      · rfl
      · linarith
      · norm_num at hx0
        linarith
  · intro x hx
    rw [div_lt_div_iff_of_pos_right hw]
    simp only [List.mem_cons, List.not_mem_nil, or_false] at hx
    rcases hx with rfl | rfl | rfl <;> linarith

/-- The node before the sun line, at minus a third, is never chosen. -/
theorem C90_counterexample_node (theta w : ℚ) (hw : 0 < w) (h0 : 0 ≤ theta) (rel : U8) (num : U32) (hfar : rel ≠ 2) :
    timeTillNode rel num theta w ≠ some ((-1 / 3 - theta) / w) := by
  unfold timeTillNode
  rw [if_neg hfar]
  rcases nextNode_spec theta w farNodes with ⟨h, _⟩ | ⟨x, hx, e, hpos, _⟩
  · rw [h]; exact fun h => by cases h
  · rw [e]
    intro h
    rw [Option.some.inj h] at hpos
    have : (-1 / 3 - theta) / w ≤ 0 := div_nonpos_of_nonpos_of_nonneg (by linarith) hw.le
    linarith

/-- The nodes in the near field are two degrees apart, however many are asked for: with 91 or fewer they all lie on one
half of the orbit. -/
theorem C90_counterexample_half (num : U32) (h1 : 1 ≤ num.toNat) (h : num.toNat ≤ 91) :
    ∀ x ∈ nearNodes num, 0 ≤ x ∧ x ≤ 1 := by
  intro x hx
  unfold nearNodes at hx
  obtain ⟨k, hk, rfl⟩ := List.mem_map.mp hx
  unfold nearNode
  dsimp only
  have hn : (num - 1).toNat = num.toNat - 1 := by
    rw [BitVec.toNat_sub]
    have := num.isLt
    rw [show (1 : BitVec 32).toNat = 1 from rfl]
    omega
  split
  · exact ⟨le_refl _, zero_le_one⟩
  · rename_i hle
    rw [hn] at hle
    have hk90 : k ≤ 90 := by omega
    have : (k : ℚ) ≤ 90 := by exact_mod_cast hk90
    rw [if_neg (by
      rw [gt_iff_lt, not_lt, div_le_one (by norm_num)]
      exact this)]
    exact ⟨by positivity, by rw [div_le_one (by norm_num)]; exact this⟩

/-- With the default of 180 they are all round the orbit. -/
theorem C90_nodes (x : ℚ) : x ∈ nearNodes 180 ↔ ∃ k : ℤ, -90 < k ∧ k ≤ 90 ∧ x = k / 90 := by
  unfold nearNodes
  have hn : ((180 : U32) - 1).toNat = 179 := rfl
  constructor
  · intro hx
    obtain ⟨k, hk, rfl⟩ := List.mem_map.mp hx
    unfold nearNode
    dsimp only
    rw [hn]
    by_cases h : k > 179
    · rw [if_pos h]
      exact ⟨0, by norm_num, by norm_num, by norm_num⟩
    · rw [if_neg h]
      by_cases hb : (k : ℚ) / 90 > 1
      · rw [if_pos hb]
        have : (90 : ℚ) < k := by
          rw [gt_iff_lt, lt_div_iff₀ (by norm_num)] at hb
          linarith
        have : 90 < k := by exact_mod_cast this
        exact ⟨k - 180, by omega, by omega, by push_cast; ring⟩
      · rw [if_neg hb]
        have : (k : ℚ) ≤ 90 := by
          rw [gt_iff_lt, not_lt, div_le_iff₀ (by norm_num)] at hb
          linarith
        have : k ≤ 90 := by exact_mod_cast this
        exact ⟨k, by omega, by omega, by push_cast; rfl⟩
  · rintro ⟨k, h1, h2, rfl⟩
    by_cases h0 : 0 ≤ k
    · refine List.mem_map.mpr ⟨k.toNat, List.mem_range.mpr (by omega), ?_⟩
      have hkq : ((k.toNat : ℕ) : ℚ) = (k : ℚ) := by
        have : ((k.toNat : ℕ) : ℤ) = k := Int.toNat_of_nonneg h0
        exact_mod_cast this
      unfold nearNode
      dsimp only
      rw [hn, if_neg (by omega), hkq, if_neg]
      rw [gt_iff_lt, not_lt, div_le_one (by norm_num)]
      exact_mod_cast h2
    · refine List.mem_map.mpr ⟨(k + 180).toNat, List.mem_range.mpr (by omega), ?_⟩
      have hkq : (((k + 180).toNat : ℕ) : ℚ) = (k : ℚ) + 180 := by
        have : (((k + 180).toNat : ℕ) : ℤ) = k + 180 := Int.toNat_of_nonneg (by omega)
        exact_mod_cast this
      have hk : (-90 : ℚ) < k := by exact_mod_cast h1
      unfold nearNode
      dsimp only
      rw [hn, if_neg (by omega), hkq, if_pos]
      · ring
      · rw [gt_iff_lt, lt_div_iff₀ (by norm_num)]
        linarith

/-- The smoothed relative orbit starts afresh after every gap: in the first cycle with a relative orbit after one without
it, the smoothed values are those of that cycle. -/
theorem C90_fresh (ρ : Rounding) (hnan : L.finite L.nan = false) (s s1 s2 : Orb.St L) (i j : Orb.In L) (n m : U32)
    (h1 : s.exec ρ i = some (s1, n)) (hi : i.relState = 0) (h2 : s1.exec ρ j = some (s2, m)) (hj : j.relState ≠ 0) :
    s2.dr = j.relPos ∧ s2.dv = j.relVel := by
  have key : ∀ (s s' : Orb.St L) (i : Orb.In L) (n : U32), s.exec ρ i = some (s', n) →
      s'.dr = (s.smooth i).dr ∧ s'.dv = (s.smooth i).dv := by
    intro s s' i n h
    unfold St.exec at h
    dsimp only at h
    split at h
    · split at h
      · cases h
      · have := congrArg (·.1) (Option.some.inj h)
        dsimp only at this
        rw [← this]
        exact ⟨rfl, rfl⟩
    · have := congrArg (·.1) (Option.some.inj h)
      dsimp only at this
      rw [← this]
      exact ⟨rfl, rfl⟩
  obtain ⟨a1, a2⟩ := key _ _ _ _ h1
  obtain ⟨b1, b2⟩ := key _ _ _ _ h2
  have e1 : s1.dr = L.nan ∧ s1.dv = L.nan := by
    rw [a1, a2]
    unfold St.smooth
    rw [if_neg (by rw [hi]; simp)]
    exact ⟨rfl, rfl⟩
  rw [b1, b2]
  unfold St.smooth
  rw [if_pos hj, e1.1, e1.2, hnan]
  exact ⟨rfl, rfl⟩

/-- The gains of the near field are divided by a factor fixed at the first activity: when the ground changes the number of
nodes afterwards, the gains do not follow. -/
theorem C90_counterexample_gain (ρ : Rounding) (s s' : Orb.St L) (i : Orb.In L) (n : U32) (f : ℚ) (hg : s.gain = some f)
    (h : s.exec ρ i = some (s', n)) :
    s'.gain = some f ∧ (MayAct i → i.relState = 2 → s'.impulse = (L.control s.mem i.t i.pos
      (L.inertial i.t i.pos i.vel) (s.smooth i).dr (s.smooth i).dv (some f)).2) := by
  obtain ⟨_, _, k3, k4, _, k6⟩ := smooth_keeps s i
  unfold St.exec at h
  dsimp only at h
  split at h
  · split at h
    · cases h
    · have := congrArg (·.1) (Option.some.inj h)
      dsimp only at this
      rw [← this]
      unfold St.calculate
      dsimp only
      rw [k3, hg, k6]
      refine ⟨rfl, fun _ h2 => ?_⟩
      rw [if_pos h2]
      rfl
  · rename_i hna
    have := congrArg (·.1) (Option.some.inj h)
    dsimp only at this
    rw [← this]
    exact ⟨k3.trans hg, fun ha => absurd ((mayAct_iff i).mpr ha) hna⟩

/-- A library for the examples. -/
def toyOrb : Lib where
  Vec := Option ℚ
  Quat := Unit
  Mem := Unit
  nan := none
  zero := some 0
  finite v := v.isSome
  mix a x y := some (a * x.getD 0 + (1 - a) * y.getD 0)
  inertial _ _ v := v
  angle _ p _ := p.getD 0
  rate _ v := v.getD 0
  control _ _ _ _ dr _ f := ((), some (dr.getD 0 / f.getD 1))
  body _ _ j := (j.getD 0, j.getD 0, 0)

def toyOrbIn (rel mission : U8) (p : ℚ) : Orb.In toyOrb :=
  { timeValid := true, orbitValid := true, relState := rel, attValid := true, mission := mission, t := 0, pos := some p,
    vel := some (1 / 2800), relPos := some (1 / 1000), relVel := some 0, q := (), propState := Prp.idle, countdown := 0,
    maxPress := 20, fill := 6, cool := 59 }

/-- A node is announced 1152 cycles ahead in the far field, and 54 in the near field; while the propulsion controller is
not idle the countdown stays, and in standby nothing is scheduled. -/
example :
    ((St.init toyOrb ()).exec exact (toyOrbIn 1 Mission.follower (79 / 300))).map (fun x => (x.1.valves, x.2)) =
      some ((54, 73, 23, 34), 1152) ∧
    ((St.init toyOrb ()).exec exact (toyOrbIn 2 Mission.follower (79 / 300))).map (fun x => x.2) = some 54 ∧
    ((St.init toyOrb ()).exec exact { toyOrbIn 1 Mission.follower (79 / 300) with propState := Prp.pressurizing }).map
      (fun x => (x.1.valves, x.2)) = some ((54, 73, 23, 34), 0) ∧
    ((St.init toyOrb ()).exec exact (toyOrbIn 1 Mission.standby (79 / 300))).map (fun x => (x.1.valves, x.2)) =
      some ((0, 0, 0, 0), 0) := by
  refine ⟨?_, ?_, ?_, ?_⟩ <;> decide +kernel

/-- `C90_fresh`, `C90_counterexample_gain`: a gap and what follows; a first activity that fixes the factor. -/
example : toyOrb.finite toyOrb.nan = false ∧
    ((St.init toyOrb ()).exec exact (toyOrbIn 0 Mission.follower 0)).isSome = true ∧
    ((St.init toyOrb ()).exec exact (toyOrbIn 2 Mission.follower 0)).map (fun x => x.1.gain.isSome) = some true := by
  refine ⟨?_, ?_, ?_⟩ <;> decide +kernel

end PAN
