import Verif.Model.Ground
import Verif.Spec.Ground
import Verif.Props.Serializer
import Verif.Props.FloatSer
import Verif.Props.Uplink
import Verif.Props.VectorSer
import Verif.Props.QuaternionSer
/-!
C104: what the operator writes in the command file is what arrives on board.
-/
namespace PAN
open Spec Uplink
namespace Ground
noncomputable section

/-- The number as the field's type holds it. -/
def asReal (d : Bool) (x : ℚ) : ℚ := if d then f64 x else f32 x

/-- The number a JSON value is, if it is one. -/
def Json.number : Json → Option ℚ
  | .num n => some n
  | .real x => some x
  | _ => none

/-- The vector a JSON array of three numbers is in a field's type. -/
def Json.vector (d : Bool) : Json → Option (ℝ × ℝ × ℝ)
  | .arr (a :: b :: c :: _) =>
    match a.number, b.number, c.number with
    | some x, some y, some z => some (asReal d x, asReal d y, asReal d z)
    | _, _, _ => none
  | _ => none

/-- The quaternion a JSON array of four numbers is in a field's type. -/
def Json.quaternion (d : Bool) : Json → Option (Fin 4 → ℝ)
  | .arr (a :: b :: c :: e :: _) =>
    match a.number, b.number, c.number, e.number with
    | some x, some y, some z, some w => some ![(asReal d x : ℝ), asReal d y, asReal d z, asReal d w]
    | _, _, _, _ => none
  | _ => none

/-- The value on board `v` is the one asked for by `j`. -/
inductive Arrived : Field → Json → Value → Prop
  | int (s : IntSer) (n v : Int) : ArrivedInt s.min s.max s.bits.length n v → Arrived (.int s) (.num n) (.int v)
  | bool (s : BoolSer) (b : Bool) : Arrived (.bool s) (.bool b) (.bool b)
  | whole (d : Bool) (s : FltSer ℚ) (n : Int) (v : ℚ) :
      ArrivedReal s.min s.max s.bits.length (if d then 1 / 2 ^ 53 else 1 / 2 ^ 24) n v → Arrived (.real d s) (.num n) (.real v)
  | real (d : Bool) (s : FltSer ℚ) (x v : ℚ) :
      ArrivedReal s.min s.max s.bits.length (if d then 1 / 2 ^ 53 else 1 / 2 ^ 24) x v → Arrived (.real d s) (.real x) (.real v)
  | time (s : GpsSer) (wn tow ns : Int) (rest : List Json) (t : GpsTime) : t.isSet = true → (t.wn.toNat : Int) = wn →
      (t.tow.toNat : Int) = tow → t.ns.toInt = ns → Arrived (.time s) (.arr (.num wn :: .num tow :: .num ns :: rest)) (.time t)
  | vec (d : Bool) (lo hi : ℝ) (p : ℕ) (bits : List Bool) (j : Json) (u v : ℝ × ℝ × ℝ) : j.vector d = some u →
      dist3 v u ≤ 21 / 10 * ((hi - lo) / 2 ^ p) → Arrived (.vec d lo hi p bits) j (.vec v)
  | quat (d : Bool) (bits : List Bool) (j : Json) (q w : Fin 4 → ℝ) (σ : ℝ) : j.quaternion d = some q → length4 w = 1 →
      (σ = 1 ∨ σ = -1) → (∀ i, |w i - σ * (q i / length4 q)| ≤ 8 / 1023) → Arrived (.quat d bits) j (.quat w)

/-- The precision of the two floating-point types. -/
def rnd (d : Bool) : Rnd ℚ := if d then rnd64 else rnd32

/-- A field as its constructor makes it. -/
def Field.Ok : Field → Prop
  | .int s => s.Valid ∧ s.min < s.max
  | .bool s => s.bits.length = 1
  | .real d s => s.Fits (rnd d)
  | .time s => s.Valid
  | .vec _ lo hi p bits => VecSer.Range lo hi p ∧ lo < hi ∧ VecSer.b2 lo hi p ≤ 53 ∧ bits.length = VecSer.totalSize lo hi p
  | .quat _ bits => bits.length = 32

/-- The value is of the field's type: a number that the type can hold, a boolean, a GPS time in the range of the format, a
vector whose first component is not zero, a quaternion. -/
def Fair : Field → Json → Prop
  | .int s, .num n => s.kind.InRange n
  | .bool _, .bool _ => True
  | .real _ _, .num _ => True
  | .real _ _, .real _ => True
  | .time _, .arr (.num wn :: .num tow :: .num ns :: _) =>
      2000 ≤ wn ∧ wn ≤ 3000 ∧ 0 ≤ tow ∧ tow ≤ 604800000 ∧ -1000000 ≤ ns ∧ ns ≤ 1000000
  | .vec d _ _ _ _, j => ∃ u, j.vector d = some u ∧ u.1 ≠ 0
  | .quat d _, j => ∃ q, j.quaternion d = some q
  | _, _ => False

/-- The values the tool takes: in the range of the field, and no larger than `2^(width+1)` when read as an unsigned
number. -/
def Taken : Field → Json → Prop
  | .int s, .num n => s.min ≤ n ∧ n ≤ s.max ∧ (if 0 ≤ n then n else 2 ^ 32 + n) < 2 ^ (s.bits.length + 1)
  | .bool _, .bool _ => True
  | .real d s, .num n => s.min ≤ asReal d n ∧ asReal d n ≤ s.max ∧ -1 < asReal d n ∧ asReal d n < 2 ^ (s.bits.length + 1) ∧
      asReal d n < 2 ^ 32
  | .real d s, .real x => s.min ≤ asReal d x ∧ asReal d x ≤ s.max ∧ -1 < asReal d x ∧ asReal d x < 2 ^ (s.bits.length + 1) ∧
      asReal d x < 2 ^ 32
  | .time _, .arr _ => True
  | .vec d lo hi _ _, j => ∃ u, j.vector d = some u ∧ lo ≤ length3 u ∧ length3 u ≤ hi
  | .quat d _, j => ∃ q, j.quaternion d = some q ∧ |length4 q - 1| ≤ asReal d (1 / 10 ^ 10)
  | _, _ => False

end
end Ground
open Ground

theorem limit_inside {lo hi n : Int} (h1 : lo ≤ n) (h2 : n ≤ hi) : limit lo hi n = n := by
  unfold limit; split <;> [omega; skip]; split <;> omega

/-- C104, whole numbers: a number of the field's type is either refused, when it is outside the range of the field or does
not fit one bit more than the field has, or arrives. -/
theorem C104_integer (s : IntSer) (h : s.Valid) (n : Int) (hn : s.kind.InRange n) :
    (s.min ≤ n ∧ n ≤ s.max ∧ (if 0 ≤ n then n else 2 ^ 32 + n) < 2 ^ (s.bits.length + 1) →
      ∃ b, addInt s (.num n) = .ok b ∧ b.length = s.bits.length ∧
        ArrivedInt s.min s.max s.bits.length n ({ s with bits := b } : IntSer).deserialize) ∧
    (¬(s.min ≤ n ∧ n ≤ s.max ∧ (if 0 ≤ n then n else 2 ^ 32 + n) < 2 ^ (s.bits.length + 1)) → addInt s (.num n) = .refused) := by
  have h32 : n < 2 ^ 32 ∧ -2 ^ 31 ≤ n := by
    unfold IntKind.InRange at hn
    revert hn
    cases s.kind <;> simp only [IntKind.cast] <;> omega
  have hmod : ((n % 2 ^ 32).toNat : Int) = if 0 ≤ n then n else 2 ^ 32 + n := by split <;> omega
  have hpow : (0 : Int) < 2 ^ (s.bits.length + 1) := by positivity
  have hcmp : (n % 2 ^ 32).toNat > 2 ^ (s.bits.length + 1) - 1 ↔ ¬((if 0 ≤ n then n else 2 ^ 32 + n) < 2 ^ (s.bits.length + 1)) := by
    rw [← hmod]
    have : (0 : ℕ) < 2 ^ (s.bits.length + 1) := by positivity
    have hc : ((2 ^ (s.bits.length + 1) : ℕ) : Int) = 2 ^ (s.bits.length + 1) := by push_cast; rfl
    rw [← hc]
    omega
  have hval : toInt s.kind (.num n) = .ok n := by
    show Reply.ok (s.kind.cast n) = _
    rw [show s.kind.cast n = n from hn]
  unfold addInt
  rw [hval]
  dsimp only
  constructor
  · rintro ⟨h1, h2, h3⟩
    rw [if_neg (by omega), if_neg (by rw [hcmp]; exact not_not.mpr h3)]
    obtain ⟨s', a1, a2, a3, a4, -, a6, a7, -⟩ := C05_roundtrip_partial s h n
    rw [limit_inside h1 h2] at a4 a6 a7
    rw [a1]
    obtain ⟨s'', b1, -, b2, b3, b4, -⟩ := IntSer.roundtrip h n
    rw [a1] at b1
    cases b1
    have he : ({ s with bits := s'.bits } : IntSer) = s' := by
      cases s'; simp only at b2 b3 b4; subst b2 b3 b4; rfl
    refine ⟨_, rfl, a2, ?_⟩
    rw [he]
    exact ⟨a3, a4, a6, a7⟩
  · intro hno
    by_cases h1 : n < s.min ∨ n > s.max
    · rw [if_pos h1]
    · rw [if_neg h1, if_pos]
      rw [hcmp]
      intro h3
      exact hno ⟨by omega, by omega, h3⟩

-- Valve 1 of the thruster (range 0 to 1000, ten bits): 350 arrives as 350, 1001 is refused.
example : (IntSer.mkRange .uint 0 1000).Valid ∧ IntKind.InRange .uint 350 ∧ IntKind.InRange .uint 1001 :=
  ⟨(IntSer.mkRange_valid .uint 0 1000 (by decide) (by decide) (by decide)).1, by decide, by decide⟩

theorem trunc_toNat_lt {v : ℚ} {w : Nat} (h : -1 < v) : (Ground.trunc v).toNat < 2 ^ w ↔ v < 2 ^ w := by
  unfold Ground.trunc
  split
  · rename_i h0
    have h1 : 0 ≤ ⌊v⌋ := Int.floor_nonneg.mpr h0
    rw [← Int.ofNat_lt, Int.toNat_of_nonneg h1]
    push_cast
    rw [Int.floor_lt]
    push_cast
    rfl
  · rename_i h0
    have h1 : ⌈v⌉ = 0 := by
      rw [Int.ceil_eq_zero_iff]; exact ⟨h, by linarith⟩
    rw [h1]
    have hp : (0 : ℚ) < 2 ^ w := by positivity
    constructor
    · intro; linarith
    · intro; simp

/-- Rounding a number of the range to the type costs at most two rounding errors of the range. -/
theorem literal_error {e t D P M x y : ℚ} (he0 : 0 ≤ e) (he : e ≤ 1 / 32) (ht0 : 0 ≤ t) (hP : 2 ≤ P) (ht : t * P ≤ e * D)
    (hD : D ≤ M) (hy : |y| ≤ M) (herr : |y - x| ≤ e * |x| + t) : |y - x| ≤ 2 * e * M := by
  have hx : |x| ≤ |y| + |y - x| := by
    have := abs_sub_abs_le_abs_sub x y
    rw [abs_sub_comm] at this
    linarith
  have hM : 0 ≤ M := le_trans (abs_nonneg _) hy
  have ht2 : 2 * t ≤ e * M := by nlinarith
  have h1 : e * |x| ≤ e * M + e * |y - x| := by nlinarith
  have h2 : e * |y - x| ≤ 1 / 32 * |y - x| := mul_le_mul_of_nonneg_right he (abs_nonneg _)
  have h3 : 0 ≤ e * M := mul_nonneg he0 hM
  linarith

theorem rnd_asReal (d : Bool) : (rnd d).r = asReal d := by cases d <;> rfl

/-- C104, numbers with a fraction: what the tool takes arrives. -/
theorem C104_real (d : Bool) (s : FltSer ℚ) (h : s.Fits (rnd d)) (x : ℚ) :
    (s.min ≤ asReal d x ∧ asReal d x ≤ s.max ∧ -1 < asReal d x ∧ asReal d x < 2 ^ (s.bits.length + 1) ∧ asReal d x < 2 ^ 32 →
      ∃ b v, addReal d s (.real x) = .ok b ∧ b.length = s.bits.length ∧
        ({ s with bits := b } : FltSer ℚ).deserialize (if d then f64 else f32) = some v ∧
        ArrivedReal s.min s.max s.bits.length (rnd d).eps x v) ∧
    (asReal d x < s.min ∨ asReal d x > s.max → addReal d s (.real x) = .refused) := by
  have hval : toReal d (.real x) = .ok (asReal d x) := rfl
  have hr : (if d then f64 else f32) = (rnd d).r := by cases d <;> rfl
  unfold addReal
  rw [hval]
  dsimp only
  constructor
  · rintro ⟨h1, h2, h3, h4, h5⟩
    have hlt := (trunc_toNat_lt (w := s.bits.length + 1) h3).mpr h4
    rw [if_neg (by simp only [not_or, not_lt, gt_iff_lt]; exact ⟨h1, h2⟩),
      if_neg (by simp only [not_or, not_le]; exact ⟨h3, h5⟩), if_neg (by omega)]
    obtain ⟨s', a1, a2, a3, a4, v, a5, a6⟩ := C97_accuracy (rnd d) s h (asReal d x)
    rw [hr, a1]
    have he : ({ s with bits := s'.bits } : FltSer ℚ) = s' := by
      cases s'; simp only at a2 a3; subst a2 a3; rfl
    refine ⟨_, v, rfl, a4, by rw [he]; exact a5, ?_⟩
    have hn : nearest s.min s.max (asReal d x) = asReal d x := by
      unfold nearest; rw [min_eq_left h2, max_eq_right h1]
    rw [hn] at a6
    unfold ArrivedReal
    have herr := (rnd d).err x
    rw [rnd_asReal] at herr
    have hP : (2 : ℚ) ≤ 2 ^ s.bits.length := by
      calc (2 : ℚ) = 2 ^ 1 := by norm_num
        _ ≤ _ := pow_le_pow_right₀ (by norm_num) h.len.1
    have he : (rnd d).eps ≤ 1 / 32 := by have := h.small; have := (rnd d).epsPos; nlinarith
    have hD : s.max - s.min ≤ |s.min| + |s.max| := by
      have := le_abs_self s.max; have := neg_abs_le s.min; linarith
    have hy : |asReal d x| ≤ |s.min| + |s.max| := by
      rw [abs_le]
      have := le_abs_self s.max; have := neg_abs_le s.min; have := abs_nonneg s.max; have := abs_nonneg s.min
      constructor <;> linarith
    have hl := literal_error (rnd d).epsPos he (rnd d).tinyPos hP h.normal hD hy herr
    have htri : |v - x| ≤ |v - asReal d x| + |asReal d x - x| := abs_sub_le _ _ _
    unfold FltSer.step at a6
    linarith
  · intro ho
    rw [if_pos ho]

-- The trigger distance for docking (0 to 100 m, 14 bits, `double`).
example : FltSer.Fits (rnd true) (.mk' (0 : ℚ) 100 14) := C97_double 0 100 _ (by
    have : (1 : ℚ) / 2 ^ 900 ≤ 1 := by rw [div_le_one (by positivity)]; exact one_le_pow₀ (by norm_num)
    linarith) (by simp) (by simp)

theorem gps_decode_with {s s' : GpsSer} (h : s.Valid) (h' : s'.Valid) (dest : GpsTime) :
    ({ s with bits := s'.bits } : GpsSer).deserialize dest = s'.deserialize dest := by
  obtain ⟨-, a1, a2, a3, a4⟩ := h.wn
  obtain ⟨-, b1, b2, b3, b4⟩ := h.tow
  obtain ⟨-, c1, c2, c3, c4⟩ := h.ns
  obtain ⟨-, a1', a2', a3', a4'⟩ := h'.wn
  obtain ⟨-, b1', b2', b3', b4'⟩ := h'.tow
  obtain ⟨-, c1', c2', c3', c4'⟩ := h'.ns
  have e1 : ∀ b, ({ s.wn with bits := b } : IntSer) = { s'.wn with bits := b } := fun b => by dsimp only; rw [a1, a2, a3, a1', a2', a3']
  have e2 : ∀ b, ({ s.tow with bits := b } : IntSer) = { s'.tow with bits := b } := fun b => by dsimp only; rw [b1, b2, b3, b1', b2', b3']
  have e3 : ∀ b, ({ s.ns with bits := b } : IntSer) = { s'.ns with bits := b } := fun b => by dsimp only; rw [c1, c2, c3, c1', c2', c3']
  unfold GpsSer.deserialize
  simp only [e1, e2, e3, a4, b4, c4, a4', b4', c4']

/-- C104, GPS times: a time in the range of the format arrives exactly. -/
theorem C104_time (s : GpsSer) (h : s.Valid) (wn tow ns : Int) (rest : List Json) (dest : GpsTime)
    (h1 : 2000 ≤ wn ∧ wn ≤ 3000) (h2 : 0 ≤ tow ∧ tow ≤ 604800000) (h3 : -1000000 ≤ ns ∧ ns ≤ 1000000) :
    ∃ b t, addTime s (.arr (.num wn :: .num tow :: .num ns :: rest)) = .ok b ∧ b.length = s.bits.length ∧
      ({ s with bits := b } : GpsSer).deserialize dest = some t ∧ t.isSet = true ∧
      (t.wn.toNat : Int) = wn ∧ (t.tow.toNat : Int) = tow ∧ t.ns.toInt = ns := by
  have e1 : ((BitVec.ofInt 16 wn).toNat : Int) = wn := by
    rw [BitVec.toNat_ofInt]; omega
  have e2 : ((BitVec.ofInt 32 tow).toNat : Int) = tow := by
    rw [BitVec.toNat_ofInt]; omega
  have e3 : (BitVec.ofInt 32 ns).toInt = ns := by
    rw [BitVec.toInt_ofInt]
    rw [Int.bmod_eq_of_le] <;> omega
  obtain ⟨s', a1, a2, a3⟩ := C06_gps_roundtrip s h
    (GpsTime.mk3 (BitVec.ofInt 16 wn) (BitVec.ofInt 32 tow) (BitVec.ofInt 32 ns)) dest rfl (by
      unfold GpsInRange GpsTime.mk3; simp only; rw [e3]; omega)
  refine ⟨s'.bits, _, ?_, by rw [a2.len, h.len], by rw [gps_decode_with h a2]; exact a3, rfl, e1, e2, e3⟩
  simp only [addTime, a1]

example : GpsSer.new.Valid := GpsSer.valid_new

theorem toReal_number {d : Bool} {j : Json} {x : ℚ} (h : j.number = some x) : toReal d j = .ok (asReal d x) := by
  cases j <;> simp only [Json.number, Option.some.injEq, reduceCtorEq] at h <;> subst h <;> rfl

/-- C104 for vectors: taken exactly if the length is in the range, and then what is decoded on board is the vector to 2.1 times
the precision of the field. Missing: vectors whose first component is zero (refuted below), rounding other than of the numbers
themselves. -/
theorem C104_vector_partial (d : Bool) (lo hi : ℝ) (p : ℕ) (h0 : VecSer.Range lo hi p) (h : lo < hi) (hb : VecSer.b2 lo hi p ≤ 53)
    (j : Json) (u : ℝ × ℝ × ℝ) (hj : j.vector d = some u) (hx : u.1 ≠ 0) :
    ((lo ≤ length3 u ∧ length3 u ≤ hi) → ∃ b v, addVector d lo hi p j = .ok b ∧ b.length = VecSer.totalSize lo hi p ∧
      VecSer.deserialize lo hi p b = some v ∧ dist3 v u ≤ 21 / 10 * ((hi - lo) / 2 ^ p)) ∧
    (¬ (lo ≤ length3 u ∧ length3 u ≤ hi) → addVector d lo hi p j = .refused) := by
  match j, hj with
  | .arr (a :: b :: c :: rest), hj =>
    simp only [Json.vector] at hj
    split at hj <;> simp only [Option.some.injEq, reduceCtorEq] at hj
    rename_i x y z ha hb' hc
    subst hj
    have e : addVector d lo hi p (.arr (a :: b :: c :: rest)) =
        if length3 ((asReal d x : ℝ), (asReal d y : ℝ), (asReal d z : ℝ)) > hi ∨
            length3 ((asReal d x : ℝ), (asReal d y : ℝ), (asReal d z : ℝ)) < lo then .refused
        else match VecSer.serialize lo hi p (.fin (asReal d x) (asReal d y) (asReal d z) (negative a)) with
          | some bits => .ok bits
          | none => .undef := by
      simp only [addVector, toReal_number ha, toReal_number hb', toReal_number hc]
      rfl
    rw [e]
    constructor
    · rintro ⟨h1, h2⟩
      rw [if_neg (by rw [not_or, not_lt, not_lt]; exact ⟨h2, h1⟩)]
      obtain ⟨bits, k1, k2, w, k3, k4⟩ := C98_accuracy_partial lo hi p h0 h hb (asReal d x) (asReal d y) (asReal d z) (negative a) (.inl hx)
      rw [k1]
      refine ⟨bits, w, rfl, k2, k3, ?_⟩
      have hl0 : length3 ((asReal d x : ℝ), (asReal d y : ℝ), (asReal d z : ℝ)) ≠ 0 := by
        intro hl
        have := Real.sqrt_eq_zero'.mp hl
        dsimp only at this hx
        have h3 : 0 < (asReal d x : ℝ) ^ 2 := by positivity
        nlinarith [sq_nonneg (asReal d y : ℝ), sq_nonneg (asReal d z : ℝ)]
      have hs : shell lo hi ((asReal d x : ℝ), (asReal d y : ℝ), (asReal d z : ℝ)) = ((asReal d x : ℝ), (asReal d y : ℝ), (asReal d z : ℝ)) := by
        unfold shell
        rw [nearest_self h1 h2, div_self hl0]
        simp
      rwa [hs] at k4
    · intro hn
      rw [if_pos]
      by_contra hc'
      rw [not_or, not_lt, not_lt] at hc'
      exact hn ⟨hc'.2, hc'.1⟩

/-- C104 for quaternions: taken exactly if the length is 1 to within the tolerance, and then what is decoded on board is the same
rotation to 8/1023 in every component. -/
theorem C104_quaternion (d : Bool) (j : Json) (q : Fin 4 → ℝ) (hj : j.quaternion d = some q) :
    (|length4 q - 1| ≤ asReal d (1 / 10 ^ 10) → ∃ b w, addQuat d j = .ok b ∧ b.length = 32 ∧ QuatSer.deserialize b = some w ∧
      length4 w = 1 ∧ ∃ σ : ℝ, (σ = 1 ∨ σ = -1) ∧ ∀ i, |w i - σ * (q i / length4 q)| ≤ 8 / 1023) ∧
    (¬ |length4 q - 1| ≤ asReal d (1 / 10 ^ 10) → addQuat d j = .refused) := by
  match j, hj with
  | .arr (a :: b :: c :: e :: rest), hj =>
    simp only [Json.quaternion] at hj
    split at hj <;> simp only [Option.some.injEq, reduceCtorEq] at hj
    rename_i x y z w ha hb hc he
    have e : addQuat d (.arr (a :: b :: c :: e :: rest)) =
        if |length4 q - 1| > (asReal d (1 / 10 ^ 10) : ℝ) then .refused
        else match QuatSer.serialize (.fin q) with
          | some bits => .ok bits
          | none => .undef := by
      simp only [addQuat, toReal_number ha, toReal_number hb, toReal_number hc, toReal_number he]
      subst hj
      rfl
    rw [e]
    constructor
    · intro h1
      rw [if_neg (not_lt.mpr h1)]
      have hsm : (asReal d (1 / 10 ^ 10) : ℝ) < 1 := by
        have : asReal d (1 / 10 ^ 10) < 1 := by cases d <;> decide +kernel
        exact_mod_cast this
      have hq : q ≠ 0 := by
        rintro h0
        have : length4 q = 0 := by rw [h0]; unfold length4; simp
        rw [this] at h1
        norm_num at h1
        norm_num at hsm
        linarith
      obtain ⟨bits, k1, k2, w', k3, k4, k5⟩ := C99_accuracy q hq
      rw [k1]
      exact ⟨bits, w', rfl, k2, k3, k4, k5⟩
    · intro hn
      rw [if_pos (not_le.mp hn)]

/-! ### From the command file to the fields on board -/

/-- A value the tool takes has the field's width and arrives. -/
theorem add_arrives {f : Field} (hf : f.Ok) {j : Json} (hj : Fair f j) {b : List Bool} (hb : f.add j = .ok b) (old : Value) :
    b.length = f.bits.length ∧ b ≠ [] ∧ Arrived f j (f.decode b old) := by
  have hne : b.length = f.bits.length → 1 ≤ f.bits.length → b ≠ [] := by
    intro h1 h2 h3; rw [h3] at h1; simp at h1; omega
  cases f with
  | int s =>
    cases j <;> try exact absurd hj id
    rename_i n
    obtain ⟨c1, c2⟩ := C104_integer s hf.1 n hj
    simp only [Field.add] at hb
    by_cases hc : s.min ≤ n ∧ n ≤ s.max ∧ (if 0 ≤ n then n else 2 ^ 32 + n) < 2 ^ (s.bits.length + 1)
    · obtain ⟨b', d1, d2, d3⟩ := c1 hc
      rw [hb] at d1; cases d1
      refine ⟨d2, hne d2 ?_, .int s n _ d3⟩
      rcases hf.1.some with h | h
      · exact h
      · have := hf.2; omega
    · rw [c2 hc] at hb; exact absurd hb (by simp)
  | bool s =>
    cases j <;> try exact absurd hj id
    rename_i x
    simp only [Field.add, addBool, Reply.ok.injEq] at hb
    have hs : s.bits.length = 1 := hf
    obtain ⟨y, hy⟩ := List.length_eq_one_iff.mp hs
    have : b = [x] := by rw [← hb]; simp [BoolSer.serialize, hy]
    subst this
    refine ⟨by simp [Field.bits, hs], by simp, ?_⟩
    exact .bool s x
  | real d s =>
    have key : ∀ x, addReal d s (.real x) = .ok b → b.length = s.bits.length ∧ b ≠ [] ∧
        ∃ v, ({ s with bits := b } : FltSer ℚ).deserialize (if d then f64 else f32) = some v ∧
          ArrivedReal s.min s.max s.bits.length (if d then 1 / 2 ^ 53 else 1 / 2 ^ 24) x v := by
      intro x hx
      obtain ⟨c1, c2⟩ := C104_real d s hf x
      have heps : (rnd d).eps = if d then 1 / 2 ^ 53 else 1 / 2 ^ 24 := by cases d <;> rfl
      have hin : s.min ≤ asReal d x ∧ asReal d x ≤ s.max := by
        by_contra hc
        rw [not_and_or, not_le, not_le] at hc
        rw [c2 hc] at hx; exact absurd hx (by simp)
      have hx' := hx
      unfold addReal at hx'
      have hval : toReal d (.real x) = .ok (asReal d x) := rfl
      rw [hval] at hx'
      dsimp only at hx'
      rw [if_neg (by simp only [not_or, not_lt, gt_iff_lt]; exact hin)] at hx'
      split at hx'
      · exact absurd hx' (by simp)
      · rename_i h1
        rw [not_or, not_le, not_le] at h1
        split at hx'
        · exact absurd hx' (by simp)
        · rename_i h2
          have hp : 0 < 2 ^ (s.bits.length + 1) := by positivity
          have h3 := (trunc_toNat_lt (w := s.bits.length + 1) h1.1).mp (by omega)
          obtain ⟨b', v, d1, d2, d3, d4⟩ := c1 ⟨hin.1, hin.2, h1.1, h3, h1.2⟩
          rw [hx] at d1; cases d1
          have hl : 1 ≤ s.bits.length := hf.len.1
          exact ⟨d2, fun h => by rw [h] at d2; simp at d2; omega, v, d3, heps ▸ d4⟩
    cases j <;> try exact absurd hj id
    · rename_i n
      obtain ⟨a1, a2, v, a3, a4⟩ := key n hb
      refine ⟨a1, a2, ?_⟩
      simp only [Field.decode, a3]
      exact .whole d s n v a4
    · rename_i x
      obtain ⟨a1, a2, v, a3, a4⟩ := key x hb
      refine ⟨a1, a2, ?_⟩
      simp only [Field.decode, a3]
      exact .real d s x v a4
  | time s =>
    match j, hj with
    | .arr (.num wn :: .num tow :: .num ns :: rest), hj =>
      obtain ⟨h1, h2, h3, h4, h5, h6⟩ := hj
      obtain ⟨b', t, d1, d2, d3, d4, d5, d6, d7⟩ := C104_time s hf wn tow ns rest old.asTime
        ⟨h1, h2⟩ ⟨h3, h4⟩ ⟨h5, h6⟩
      simp only [Field.add] at hb
      rw [hb] at d1; cases d1
      refine ⟨d2, hne d2 (by simp only [Field.bits]; rw [GpsSer.Valid.len hf]; omega), ?_⟩
      simp only [Field.decode, d3]
      exact .time s wn tow ns rest t d4 d5 d6 d7
  | vec d lo hi p bits =>
    obtain ⟨u, hu, hx⟩ := hj
    obtain ⟨f0, f1, f2, f3⟩ := hf
    obtain ⟨c1, c2⟩ := C104_vector_partial d lo hi p f0 f1 f2 j u hu hx
    simp only [Field.add] at hb
    by_cases hc : lo ≤ length3 u ∧ length3 u ≤ hi
    · obtain ⟨b', v, d1, d2, d3, d4⟩ := c1 hc
      rw [hb] at d1; cases d1
      refine ⟨by simp only [Field.bits]; rw [f3, d2], hne (by simp only [Field.bits]; rw [f3, d2]) ?_, ?_⟩
      · simp only [Field.bits]; rw [f3]; unfold VecSer.totalSize; omega
      · simp only [Field.decode, d3]
        exact .vec d lo hi p bits j u v hu d4
    · rw [c2 hc] at hb; exact absurd hb (by simp)
  | quat d bits =>
    obtain ⟨q, hq⟩ := hj
    have hf' : bits.length = 32 := hf
    obtain ⟨c1, c2⟩ := C104_quaternion d j q hq
    simp only [Field.add] at hb
    by_cases hc : |length4 q - 1| ≤ asReal d (1 / 10 ^ 10)
    · obtain ⟨b', w, d1, d2, d3, d4, σ, d5, d6⟩ := c1 hc
      rw [hb] at d1; cases d1
      refine ⟨by simp only [Field.bits]; rw [hf', d2], hne (by simp only [Field.bits]; rw [hf', d2]) (by simp only [Field.bits]; omega), ?_⟩
      simp only [Field.decode, d3]
      exact .quat d bits j q w σ hq d4 d5 d6
    · rw [c2 hc] at hb; exact absurd hb (by simp)

/-- The values of an accepted command file, one by one. -/
theorem encodeAll_spec {fields : List Field} : ∀ {cmd : List (Nat × Json)} {es : List (Nat × List Bool)},
    encodeAll fields cmd = .ok es → es.map (·.1) = cmd.map (·.1) ∧
      ∀ p ∈ es, ∃ j f, (p.1, j) ∈ cmd ∧ fields[p.1]? = some f ∧ f.add j = .ok p.2
  | [], es, h => by
    simp only [encodeAll, Reply.ok.injEq] at h; subst h; simp
  | (i, j) :: rest, es, h => by
    unfold encodeAll at h
    split at h
    · exact absurd h (by simp)
    · rename_i f hf
      split at h
      · exact absurd h (by simp)
      · exact absurd h (by simp)
      · rename_i b hb
        split at h
        · exact absurd h (by simp)
        · exact absurd h (by simp)
        · rename_i es' he
          simp only [Reply.ok.injEq] at h
          subst h
          obtain ⟨a1, a2⟩ := encodeAll_spec he
          refine ⟨by simp [a1], ?_⟩
          intro p hp
          rcases List.mem_cons.mp hp with rfl | hp
          · exact ⟨j, f, by simp, hf, hb⟩
          · obtain ⟨j', f', c1, c2, c3⟩ := a2 p hp
            exact ⟨j', f', by simp [c1], c2, c3⟩

/-- A value of the field's type is taken exactly under the condition of `Taken`. -/
theorem add_ok_iff {f : Field} (hf : f.Ok) {j : Json} (hj : Fair f j) : (∃ b, f.add j = .ok b) ↔ Taken f j := by
  cases f with
  | int s =>
    cases j <;> try exact absurd hj id
    rename_i n
    obtain ⟨c1, c2⟩ := C104_integer s hf.1 n hj
    constructor
    · rintro ⟨b, hb⟩
      by_contra hc
      simp only [Field.add] at hb
      rw [c2 hc] at hb; exact absurd hb (by simp)
    · intro h
      obtain ⟨b, h1, -⟩ := c1 h
      exact ⟨b, h1⟩
  | bool s =>
    cases j <;> try exact absurd hj id
    exact ⟨fun _ => trivial, fun _ => ⟨_, rfl⟩⟩
  | real d s =>
    have key : ∀ x, (∃ b, addReal d s (.real x) = .ok b) ↔ (s.min ≤ asReal d x ∧ asReal d x ≤ s.max ∧ -1 < asReal d x ∧
        asReal d x < 2 ^ (s.bits.length + 1) ∧ asReal d x < 2 ^ 32) := by
      intro x
      obtain ⟨c1, c2⟩ := C104_real d s hf x
      constructor
      · rintro ⟨b, hx⟩
        have hin : s.min ≤ asReal d x ∧ asReal d x ≤ s.max := by
          by_contra hc
          rw [not_and_or, not_le, not_le] at hc
          rw [c2 hc] at hx; exact absurd hx (by simp)
        unfold addReal at hx
        have hval : toReal d (.real x) = .ok (asReal d x) := rfl
        rw [hval] at hx
        dsimp only at hx
        rw [if_neg (by simp only [not_or, not_lt, gt_iff_lt]; exact hin)] at hx
        split at hx
        · exact absurd hx (by simp)
        · rename_i h1
          rw [not_or, not_le, not_le] at h1
          split at hx
          · exact absurd hx (by simp)
          · have hp : 0 < 2 ^ (s.bits.length + 1) := by positivity
            exact ⟨hin.1, hin.2, h1.1, (trunc_toNat_lt (w := s.bits.length + 1) h1.1).mp (by omega), h1.2⟩
      · intro h
        obtain ⟨b, v, h1, -⟩ := c1 h
        exact ⟨b, h1⟩
    cases j <;> try exact absurd hj id
    · exact key _
    · exact key _
  | time s =>
    match j, hj with
    | .arr (.num wn :: .num tow :: .num ns :: rest), hj =>
      obtain ⟨h1, h2, h3, h4, h5, h6⟩ := hj
      obtain ⟨b', t, d1, -⟩ := C104_time s hf wn tow ns rest .unset ⟨h1, h2⟩ ⟨h3, h4⟩ ⟨h5, h6⟩
      exact ⟨fun _ => trivial, fun _ => ⟨b', d1⟩⟩
  | vec d lo hi p bits =>
    obtain ⟨u, hu, hx⟩ := hj
    obtain ⟨f0, f1, f2, f3⟩ := hf
    obtain ⟨c1, c2⟩ := C104_vector_partial d lo hi p f0 f1 f2 j u hu hx
    constructor
    · rintro ⟨b, hb⟩
      refine ⟨u, hu, ?_⟩
      by_contra hc
      simp only [Field.add] at hb
      rw [c2 hc] at hb; exact absurd hb (by simp)
    · rintro ⟨u', hu', hl⟩
      rw [hu] at hu'; cases hu'
      obtain ⟨b, v, h1, -⟩ := c1 hl
      exact ⟨b, h1⟩
  | quat d bits =>
    obtain ⟨q, hq⟩ := hj
    obtain ⟨c1, c2⟩ := C104_quaternion d j q hq
    constructor
    · rintro ⟨b, hb⟩
      refine ⟨q, hq, ?_⟩
      by_contra hc
      simp only [Field.add] at hb
      rw [c2 hc] at hb; exact absurd hb (by simp)
    · rintro ⟨q', hq', hl⟩
      rw [hq] at hq'; cases hq'
      obtain ⟨b, w, h1, -⟩ := c1 hl
      exact ⟨b, h1⟩

theorem encodeAll_ok {fields : List Field} : ∀ {cmd : List (Nat × Json)},
    (∀ p ∈ cmd, ∃ f b, fields[p.1]? = some f ∧ f.add p.2 = .ok b) → ∃ es, encodeAll fields cmd = .ok es
  | [], _ => ⟨[], rfl⟩
  | (i, j) :: rest, h => by
    obtain ⟨f, b, hf, hb⟩ := h (i, j) (by simp)
    obtain ⟨es, he⟩ := encodeAll_ok (cmd := rest) (fun p hp => h p (by simp [hp]))
    refine ⟨(i, b) :: es, ?_⟩
    unfold encodeAll
    simp only [hf, hb, he]

theorem encodeAll_all {fields : List Field} : ∀ {cmd : List (Nat × Json)} {es : List (Nat × List Bool)},
    encodeAll fields cmd = .ok es → ∀ p ∈ cmd, ∃ f b, fields[p.1]? = some f ∧ f.add p.2 = .ok b ∧ (p.1, b) ∈ es
  | [], _, _ => by simp
  | (i, j) :: rest, es, h => by
    unfold encodeAll at h
    split at h
    · exact absurd h (by simp)
    · rename_i f hf
      split at h
      · exact absurd h (by simp)
      · exact absurd h (by simp)
      · rename_i b hb
        split at h
        · exact absurd h (by simp)
        · exact absurd h (by simp)
        · rename_i es' he
          simp only [Reply.ok.injEq] at h
          subst h
          intro p hp
          rcases List.mem_cons.mp hp with rfl | hp
          · exact ⟨f, b, hf, hb, by simp⟩
          · obtain ⟨f', b', c1, c2, c3⟩ := encodeAll_all he p hp
            exact ⟨f', b', c1, c2, by simp [c3]⟩

theorem indexSize_le {n : Nat} (h : n < 2 ^ 63 - 1) : indexSize n ≤ 64 := by
  have : ∀ m k, 64 - k = m → k ≤ 64 → indexSizeFrom n k ≤ 64 := by
    intro m
    induction m with
    | zero =>
      intro k hk hk'
      have : k = 64 := by omega
      subst this
      rw [indexSizeFrom, dif_neg (by rw [Nat.div_eq_of_lt (by omega)]; omega)]
    | succ m ih =>
      intro k hk hk'
      rw [indexSizeFrom]
      split
      · exact ih (k + 1) (by omega) (by omega)
      · omega
  exact this 63 1 rfl (by omega)

/-- The board has the same fields as the ground tool: same widths and formats, whatever they hold. -/
def SameFields (fields : List Field) (board : List (WField Value)) : Prop :=
  board.length = fields.length ∧ ∀ (i : Nat) (f : Ground.Field) (w : WField Value), fields[i]? = some f → board[i]? = some w →
    w.bits.length = f.bits.length ∧ w.decode = f.decode

/-- The packet made from the values of a command file, and what it does on a board with the same fields: every field named
decodes the bits of its value. -/
theorem delivered_bits (fields : List Field) (hok : ∀ f ∈ fields, f.Ok) (hsmall : fields.length < 2 ^ 63 - 1)
    (junk : Nat → Bool) (cmd : List (Nat × Json)) (hne : cmd ≠ []) (hnd : (cmd.map (·.1)).Nodup)
    (hfair : ∀ p ∈ cmd, ∀ f, fields[p.1]? = some f → Fair f p.2) (es : List (Nat × List Bool))
    (he : encodeAll fields cmd = .ok es) : ∃ bytes, create fields junk cmd = .ok bytes ∧
      ∀ (c : Consumer Value), SameFields fields c.fields → ∀ rest,
      ∃ c', ({ c with len := bytes.length, buf := some (bytes ++ rest) } : Consumer Value).execute = some c' ∧ c'.len = 0 ∧
        (∀ p ∈ cmd, ∃ f b w old, fields[p.1]? = some f ∧ f.add p.2 = .ok b ∧ c'.fields[p.1]? = some w ∧
          w.value = f.decode b old ∧ w.bits = b) ∧
        (∀ i, i ∉ cmd.map (·.1) → c'.fields[i]? = c.fields[i]?) := by
  obtain ⟨hkeys, hvals⟩ := encodeAll_spec he
  have hall := encodeAll_all he
  obtain ⟨ws, hws⟩ : ∃ ws : List (WField Value), ws = fields.map fun f => f.onBoard (.int 0) := ⟨_, rfl⟩
  obtain ⟨es', hes'⟩ : ∃ es' : List Entry, es' = es.map fun p => ⟨p.1, p.2⟩ := ⟨_, rfl⟩
  have hback : es'.map (fun e => (e.index, e.bits)) = es := by
    rw [hes', List.map_map]; exact List.map_id' es
  have hwl : ws.length = fields.length := by rw [hws]; simp
  have hwid : ∀ (i : Nat) (f : Ground.Field), fields[i]? = some f → (widths ws)[i]? = some f.bits.length := by
    intro i f hf
    rw [hws]
    simp [widths, hf, Field.onBoard]
  have hmem : ∀ {i f}, fields[i]? = some f → f ∈ fields := fun h => List.mem_of_getElem? h
  have hent : EntriesOk (widths ws) es' := by
    constructor
    · have : es'.map (·.index) = cmd.map (·.1) := by rw [← hkeys, hes']; simp
      rw [this]; exact hnd
    · intro e hemem
      rw [hes'] at hemem
      obtain ⟨p, hp, rfl⟩ := List.mem_map.mp hemem
      obtain ⟨j, f, g1, g2, g3⟩ := hvals p hp
      obtain ⟨k1, k2, -⟩ := add_arrives (hok f (hmem g2)) (hfair _ g1 f g2) g3 (.int 0)
      exact ⟨by rw [hwid _ f g2, k1], k2⟩
  have hene : es' ≠ [] := by
    intro h
    have h2 : es = [] := by rw [← hback, h]; rfl
    rw [h2] at hkeys
    exact hne (by simpa using hkeys.symm)
  obtain ⟨isz, hisz⟩ : ∃ isz, isz = indexSize ws.length := ⟨_, rfl⟩
  obtain ⟨c0, hc0⟩ : ∃ c0 : Consumer Value, c0 = ⟨ws, 0, none⟩ := ⟨_, rfl⟩
  obtain ⟨bytes, hb1, hb2⟩ := C11_ground_to_space ws c0 junk es' (by rw [hc0]) (by rw [hc0]; simp only; omega)
    (by rw [hc0]; exact hent) hene
  rw [hback] at hb1
  have hval : validate ws (indexSize ws.length) (Bitstream.ofBytes bytes) = some true := by
    obtain ⟨h1, h2⟩ := indexSize_spec ws.length
    have h64 := indexSize_le (by omega : ws.length < 2 ^ 63 - 1)
    obtain ⟨bytes', pad, a1, a2, a3⟩ := createPacket_spec ws (indexSize ws.length) (maxPacketSize ws (indexSize ws.length)) junk
      h64 es' hent.2 (by have := encode_le_max ws (indexSize ws.length) es' hent; omega)
    rw [hback, hb1] at a1
    cases a1
    obtain ⟨b, hv1, hv2⟩ := validate_spec ws _ h1 bytes
    rw [hv1, hv2.mpr ⟨es', pad, ⟨a2, hent⟩, by omega⟩]
  refine ⟨bytes, ?_, ?_⟩
  · unfold create
    rw [he]
    dsimp only
    rw [← hws, hb1]
    dsimp only
    rw [hval]
  · intro c hc rest
    have hwc : widths ws = widths c.fields := by
      apply List.ext_getElem?
      intro i
      by_cases hi : i < fields.length
      · have hf : fields[i]? = some fields[i] := List.getElem?_eq_getElem hi
        have hi' : i < c.fields.length := by rw [hc.1]; exact hi
        have hw : c.fields[i]? = some c.fields[i] := List.getElem?_eq_getElem hi'
        rw [hwid i _ hf]
        simp only [widths, List.getElem?_map, hw, Option.map_some]
        rw [(hc.2 i _ _ hf hw).1]
      · rw [List.getElem?_eq_none (by simp [widths, hwl]; omega), List.getElem?_eq_none (by simp [widths, hc.1]; omega)]
    obtain ⟨bytes2, hd1, hd2⟩ := C11_ground_to_space ws c junk es' hwc (by rw [hc.1]; exact hsmall)
      (by rw [← hwc]; exact hent) hene
    rw [hback, hb1] at hd1
    cases hd1
    obtain ⟨c', e1, e2, e3, e4, e5⟩ := hd2 rest
    refine ⟨c', e1, e2, ?_, ?_⟩
    · intro p hp
      obtain ⟨f, b, g1, g2, g3⟩ := hall p hp
      have hi : p.1 < fields.length := (List.getElem?_eq_some_iff.mp g1).1
      have hi' : p.1 < c.fields.length := by rw [hc.1]; exact hi
      have hw : c.fields[p.1]? = some c.fields[p.1] := List.getElem?_eq_getElem hi'
      have := e4 ⟨p.1, b⟩ (by rw [hes']; exact List.mem_map.mpr ⟨(p.1, b), g3, rfl⟩) _ hw
      exact ⟨f, b, _, c.fields[p.1].value, g1, g2, this, by dsimp only; rw [(hc.2 _ f _ g1 hw).2], rfl⟩
    · intro i hi
      apply e5
      intro e hemem heq
      apply hi
      rw [← hkeys]
      rw [hes'] at hemem
      obtain ⟨p, hp, rfl⟩ := List.mem_map.mp hemem
      exact List.mem_map.mpr ⟨p, hp, heq⟩

/-- C104: a command file with at least one entry, no field twice and every value of its field's type. A packet is made exactly
if every entry names a field and is taken by it. If it is, then for every board with the same fields, whatever they hold and
whatever follows the packet in the buffer, the uplink task sets every field named to the number asked for and leaves the others.
Missing: values in the range that are refused (refuted below), numbers beyond the type of the field (refuted below),
vectors whose first component is zero (refuted below). -/
theorem C104_delivered_partial (fields : List Field) (hok : ∀ f ∈ fields, f.Ok) (hsmall : fields.length < 2 ^ 63 - 1)
    (junk : Nat → Bool) (cmd : List (Nat × Json)) (hne : cmd ≠ []) (hnd : (cmd.map (·.1)).Nodup)
    (hfair : ∀ p ∈ cmd, ∀ f, fields[p.1]? = some f → Fair f p.2) :
    ((∃ bytes, create fields junk cmd = .ok bytes) ↔ ∀ p ∈ cmd, ∃ f, fields[p.1]? = some f ∧ Taken f p.2) ∧
    ∀ bytes, create fields junk cmd = .ok bytes → ∀ (c : Consumer Value), SameFields fields c.fields → ∀ rest,
      ∃ c', ({ c with len := bytes.length, buf := some (bytes ++ rest) } : Consumer Value).execute = some c' ∧ c'.len = 0 ∧
        (∀ p ∈ cmd, ∃ f w, fields[p.1]? = some f ∧ c'.fields[p.1]? = some w ∧ Arrived f p.2 w.value) ∧
        (∀ i, i ∉ cmd.map (·.1) → c'.fields[i]? = c.fields[i]?) := by
  have packet := delivered_bits fields hok hsmall junk cmd hne hnd hfair
  have hmem : ∀ {i f}, fields[i]? = some f → f ∈ fields := fun h => List.mem_of_getElem? h
  refine ⟨⟨?_, ?_⟩, ?_⟩
  · rintro ⟨bytes, hb⟩ p hp
    unfold create at hb
    cases he : encodeAll fields cmd with
    | refused => rw [he] at hb; exact absurd hb (by simp)
    | undef => rw [he] at hb; exact absurd hb (by simp)
    | ok es =>
      obtain ⟨f, b, g1, g2, -⟩ := encodeAll_all he p hp
      exact ⟨f, g1, (add_ok_iff (hok f (hmem g1)) (hfair p hp f g1)).mp ⟨b, g2⟩⟩
  · intro h
    obtain ⟨es, he⟩ := encodeAll_ok (fields := fields) (cmd := cmd) (fun p hp => by
      obtain ⟨f, g1, g2⟩ := h p hp
      obtain ⟨b, hb⟩ := (add_ok_iff (hok f (hmem g1)) (hfair p hp f g1)).mpr g2
      exact ⟨f, b, g1, hb⟩)
    obtain ⟨bytes, hb, -⟩ := packet es he
    exact ⟨bytes, hb⟩
  · intro bytes hb
    cases he : encodeAll fields cmd with
    | refused => unfold create at hb; rw [he] at hb; exact absurd hb (by simp)
    | undef => unfold create at hb; rw [he] at hb; exact absurd hb (by simp)
    | ok es =>
      obtain ⟨bytes', hb', h⟩ := packet es he
      rw [hb] at hb'; cases hb'
      intro c hc rest
      obtain ⟨c', e1, e2, e3, e4⟩ := h c hc rest
      refine ⟨c', e1, e2, fun p hp => ?_, e4⟩
      obtain ⟨f, b, w, old, g1, g2, g3, g4, -⟩ := e3 p hp
      exact ⟨f, w, g1, g3, g4 ▸ (add_arrives (hok f (hmem g1)) (hfair p hp f g1) g2 old).2.2⟩

-- A registry of six fields and a command file for all of them: safehold of the attitude system, a heater, a trigger distance
-- of 0.4 m, an uplinked time, an impulse of 0.007 N s for the orbit controller and a quaternion.
example : ∃ (fields : List Ground.Field) (cmd : List (Nat × Json)),
    fields = [.int (.mkRange .uchar 0 10), .bool .new, .real true (.mk' 0 100 14), .time .new,
      .vec true 0 (1 / 40) 10 (List.replicate 37 false), .quat true (List.replicate 32 false)] ∧
    cmd = [(2, .real (2 / 5)), (0, .num 3), (3, .arr [.num 2145, .num 345600000, .num (-999999)]), (1, .bool true),
      (4, .arr [.real (-1 / 512), .num 0, .real (1 / 256)]), (5, .arr [.num 0, .num 0, .num 1, .num 0])] ∧
    (∀ f ∈ fields, f.Ok) ∧ (cmd.map (·.1)).Nodup ∧ (∀ p ∈ cmd, ∀ f, fields[p.1]? = some f → Fair f p.2) := by
  refine ⟨_, _, rfl, rfl, ?_, by decide, ?_⟩
  · intro f hf
    simp only [List.mem_cons, List.not_mem_nil, or_false] at hf
    rcases hf with rfl | rfl | rfl | rfl | rfl | rfl
    · exact ⟨(IntSer.mkRange_valid .uchar 0 10 (by decide) (by decide) (by decide)).1, by decide⟩
    · rfl
    · exact C97_double 0 100 _ (by
        have : (1 : ℚ) / 2 ^ 900 ≤ 1 := by rw [div_le_one (by positivity)]; exact one_le_pow₀ (by norm_num)
        linarith) (by simp) (by simp)
    · exact GpsSer.valid_new
    · have hb : VecSer.b2 0 (1 / 40) 10 = 12 := b2_zero (by norm_num) 10
      exact ⟨.inl le_rfl, by norm_num, by rw [hb]; norm_num, by unfold VecSer.totalSize VecSer.b1; rw [hb]; simp⟩
    · exact List.length_replicate
  · intro p hp f hf
    simp only [List.mem_cons, List.not_mem_nil, or_false] at hp
    rcases hp with rfl | rfl | rfl | rfl | rfl | rfl <;> simp at hf <;> subst hf
    · trivial
    · show IntKind.InRange .uchar 3; decide
    · show (2000 : Int) ≤ 2145 ∧ _; decide
    · trivial
    · refine ⟨_, rfl, ?_⟩
      have h0 : asReal true (-1 / 512) ≠ 0 := by decide +kernel
      show ((asReal true (-1 / 512) : ℚ) : ℝ) ≠ 0
      exact_mod_cast h0
    · exact ⟨_, rfl⟩

-- The impulse of this command is in the range, and taken.
example : ∃ u, Json.vector true (.arr [.real (-1 / 512), .num 0, .real (1 / 256)]) = some u ∧ u.1 ≠ 0 ∧
    0 ≤ length3 u ∧ length3 u ≤ 1 / 40 := by
  have e1 : asReal true (-1 / 512) = -1 / 512 := by decide +kernel
  have e2 : asReal true ((0 : ℤ) : ℚ) = 0 := by decide +kernel
  have e3 : asReal true (1 / 256) = 1 / 256 := by decide +kernel
  refine ⟨(((-1 / 512 : ℚ) : ℝ), ((0 : ℚ) : ℝ), ((1 / 256 : ℚ) : ℝ)), ?_, by norm_num, Real.sqrt_nonneg _, ?_⟩
  · simp only [Json.vector, Json.number]
    rw [e1, e2, e3]
  · unfold length3
    refine Real.sqrt_le_iff.mpr ⟨by norm_num, by norm_num⟩

/-! ### The fields of the flight software -/

/-- C104. For every integer field whose format is derived from its range - all of the flight software's but five - every value
of the range is taken, arrives exactly, and every other number of the type is refused. -/
theorem C104_flight_integers : ∀ e ∈ flightRanges, ∀ n : Int, IntKind.InRange e.2.1 n →
    let s := IntSer.mkRange e.2.1 e.2.2.1 e.2.2.2
    (((e.2.2.1 : Int) ≤ n ∧ n ≤ e.2.2.2) → ∃ b, addInt s (.num n) = .ok b ∧ ({ s with bits := b } : IntSer).deserialize = n) ∧
    (¬((e.2.2.1 : Int) ≤ n ∧ n ≤ e.2.2.2) → addInt s (.num n) = .refused) := by
  intro e he n hn
  have hfacts : IntKind.InRange e.2.1 (e.2.2.1 : Int) ∧ IntKind.InRange e.2.1 (e.2.2.2 : Int) ∧ e.2.2.1 < e.2.2.2 ∧ e.2.2.1 ≤ 1 := by
    have : ∀ e ∈ flightRanges, IntKind.InRange e.2.1 (e.2.2.1 : Int) ∧ IntKind.InRange e.2.1 (e.2.2.2 : Int) ∧
      e.2.2.1 < e.2.2.2 ∧ e.2.2.1 ≤ 1 := by decide +kernel
    exact this e he
  obtain ⟨k1, k2, k3, k4⟩ := hfacts
  generalize e.2.1 = k at *
  generalize e.2.2.1 = lo at *
  generalize e.2.2.2 = hi at *
  obtain ⟨hv, hw⟩ := IntSer.mkRange_valid k lo hi (by omega) k1 k2
  obtain ⟨c1, c2⟩ := C104_integer _ hv n hn
  have emin : (IntSer.mkRange k lo hi).min = lo := rfl
  have emax : (IntSer.mkRange k lo hi).max = hi := rfl
  rw [emin, emax] at c1 c2
  dsimp only
  have hpw : (1 : ℕ) ≤ 2 ^ (IntSer.mkRange k lo hi).bits.length := Nat.one_le_two_pow
  have hhi : ((2 ^ (IntSer.mkRange k (lo : Int) hi).bits.length : ℕ) : Int) * 2 = 2 ^ ((IntSer.mkRange k (lo : Int) hi).bits.length + 1) := by
    rw [pow_succ]; push_cast; rfl
  constructor
  · intro h
    obtain ⟨b, d1, -, d3⟩ := c1 ⟨h.1, h.2, by rw [if_pos (by omega), ← hhi]; omega⟩
    exact ⟨b, d1, d3.2.2.2 hw⟩
  · intro h
    exact c2 (fun hc => h ⟨hc.1, hc.2.1⟩)

example : ("pan.kill_switch", IntKind.uchar, 0, 255) ∈ flightRanges ∧ IntKind.InRange .uchar 173 := by decide

/-! ### Where the claim fails -/

theorem mod_of_uint {n : Int} : IntKind.cast .uint n % 2 ^ 32 = IntKind.cast .uint n := by
  simp only [IntKind.cast]; omega

/-- C104. A vector command whose first component is zero, of a length in the range, is taken and arrives mirrored: what the
satellite decodes for (0, y, z) is (0, -y, z). -/
theorem C104_counterexample_mirrored (d : Bool) (lo hi : ℝ) (p : ℕ) (h0 : VecSer.Range lo hi p) (h : lo < hi)
    (hb : VecSer.b2 lo hi p ≤ 53) (b c : Json) (rest : List Json) (y z : ℝ)
    (hj : Json.vector d (.arr (.num 0 :: b :: c :: rest)) = some (0, y, z)) (hy : y ≠ 0)
    (hl : lo ≤ length3 (0, y, z)) (hl' : length3 (0, y, z) ≤ hi) :
    ∃ bits v, addVector d lo hi p (.arr (.num 0 :: b :: c :: rest)) = .ok bits ∧ VecSer.deserialize lo hi p bits = some v ∧
      dist3 v (0, -y, z) ≤ 21 / 10 * ((hi - lo) / 2 ^ p) := by
  simp only [Json.vector] at hj
  split at hj <;> simp only [Option.some.injEq, reduceCtorEq, Prod.mk.injEq] at hj
  rename_i x y' z' ha hb' hc
  obtain ⟨hx, rfl, rfl⟩ := hj
  have hm : √((0 : ℝ) ^ 2 + (asReal d y' : ℝ) ^ 2 + (asReal d z' : ℝ) ^ 2) = length3 (0, (asReal d y' : ℝ), (asReal d z' : ℝ)) := rfl
  obtain ⟨bits, k1, w, k2, k3⟩ := C98_counterexample_mirrored lo hi p h0 h hb (asReal d y') (asReal d z') hy
  refine ⟨bits, w, ?_, k2, ?_⟩
  · simp only [addVector, toReal_number ha, toReal_number hb', toReal_number hc]
    rw [hx, hm, if_neg (by rw [not_or, not_lt, not_lt]; exact ⟨hl', hl⟩)]
    have : negative (.num 0) = false := rfl
    rw [this, k1]
  · have hlen : length3 (0, -(asReal d y' : ℝ), (asReal d z' : ℝ)) = length3 (0, (asReal d y' : ℝ), (asReal d z' : ℝ)) := by
      unfold length3; simp only [neg_sq]
    have hl0 : length3 (0, (asReal d y' : ℝ), (asReal d z' : ℝ)) ≠ 0 := by
      intro hl
      have := Real.sqrt_eq_zero'.mp hl
      dsimp only at this
      have h3 : 0 < (asReal d y' : ℝ) ^ 2 := by positivity
      nlinarith [sq_nonneg (asReal d z' : ℝ)]
    have hs : shell lo hi (0, -(asReal d y' : ℝ), (asReal d z' : ℝ)) = (0, -(asReal d y' : ℝ), (asReal d z' : ℝ)) := by
      unfold shell
      rw [hlen, nearest_self hl hl', div_self hl0]
      simp
    rwa [hs] at k3

-- An impulse along the second axis.
example : Json.vector true (.arr [.num 0, .real (1 / 64), .num 0]) = some (0, 1 / 64, 0) ∧
    (0 : ℝ) ≤ length3 (0, 1 / 64, 0) ∧ length3 (0, 1 / 64, 0) ≤ 1 / 40 := by
  have e2 : asReal true ((0 : ℤ) : ℚ) = 0 := by decide +kernel
  have e3 : asReal true (1 / 64) = 1 / 64 := by decide +kernel
  refine ⟨?_, Real.sqrt_nonneg _, ?_⟩
  · simp only [Json.vector, Json.number]
    rw [e2, e3]; norm_num
  · unfold length3
    exact Real.sqrt_le_iff.mpr ⟨by norm_num, by norm_num⟩

/-- C104. A vector command along the third axis, of a length in the range, makes the tool's behaviour undefined, and so does the
zero vector for every field whose range includes zero: a wheel or a magnetorquer cannot be commanded to stop. -/
theorem C104_counterexample_axis (d : Bool) (lo hi : ℝ) (p : ℕ) (c : Json) (rest : List Json) (z : ℝ)
    (hj : Json.vector d (.arr (.num 0 :: .num 0 :: c :: rest)) = some (0, 0, z)) (hl : lo ≤ |z|) (hl' : |z| ≤ hi) :
    addVector d lo hi p (.arr (.num 0 :: .num 0 :: c :: rest)) = .undef := by
  simp only [Json.vector] at hj
  split at hj <;> simp only [Option.some.injEq, reduceCtorEq, Prod.mk.injEq] at hj
  rename_i x y' z' ha hb' hc
  obtain ⟨hx, -, rfl⟩ := hj
  simp only [addVector, toReal_number ha, toReal_number hb', toReal_number hc]
  rw [hx]
  have : √((0 : ℝ) ^ 2 + 0 ^ 2 + (asReal d z' : ℝ) ^ 2) = |(asReal d z' : ℝ)| := by
    rw [← Real.sqrt_sq_eq_abs]; norm_num
  rw [this, if_neg (by rw [not_or, not_lt, not_lt]; exact ⟨hl', hl⟩), (C98_counterexample_axis lo hi p _ _).1]

-- Stopping the wheels, and pointing along the third axis.
example : Json.vector false (.arr [.num 0, .num 0, .num 0]) = some (0, 0, 0) ∧
    Json.vector false (.arr [.num 0, .num 0, .num 1]) = some (0, 0, 1) := by
  have e2 : asReal false ((0 : ℤ) : ℚ) = 0 := by decide +kernel
  have e3 : asReal false ((1 : ℤ) : ℚ) = 1 := by decide +kernel
  constructor <;> simp only [Json.vector, Json.number] <;> simp only [e2, e3] <;> norm_num

/-- C104. The command that asks every wheel (or magnetorquer) for the largest value it can have is refused: the range, that of
one axis, is compared with the length. -/
theorem C104_counterexample_all_axes (d : Bool) (lo hi : ℝ) (p : ℕ) (hhi : 0 < hi) (a b c : Json) (rest : List Json)
    (hj : Json.vector d (.arr (a :: b :: c :: rest)) = some (hi, hi, hi)) :
    addVector d lo hi p (.arr (a :: b :: c :: rest)) = .refused := by
  simp only [Json.vector] at hj
  split at hj <;> simp only [Option.some.injEq, reduceCtorEq, Prod.mk.injEq] at hj
  rename_i x y' z' ha hb' hc
  obtain ⟨hx, hy, hz⟩ := hj
  simp only [addVector, toReal_number ha, toReal_number hb', toReal_number hc]
  rw [hx, hy, hz, if_pos]
  exact .inl (Real.lt_sqrt_of_sq_lt (by nlinarith))

example : Json.vector false (.arr [.num 680, .num 680, .num 680]) = some (680, 680, 680) := by
  have e : asReal false ((680 : ℤ) : ℚ) = 680 := by decide +kernel
  simp only [Json.vector, Json.number]; rw [e]; norm_num

/-- C104 does not hold: the battery threshold cannot be commanded at all. Every number, in its range of 5000 to 9000 mV or not,
is refused. -/
theorem C104_counterexample_battery (n : Int) : addInt battThreshold (.num n) = .refused := by
  show (if _ then _ else _) = _
  simp only [battThreshold, IntSer.mkSized, mod_of_uint, IntKind.bits, List.length_replicate]
  split
  · rfl
  · rename_i h
    rw [if_pos]
    have : IntKind.cast .uint n ≥ 5000 := by omega
    norm_num
    omega

/-- C104 does not hold: a converter voltage above 1023 mV cannot be commanded, although the range is 0 to 8500 mV. -/
theorem C104_counterexample_converter (n : Int) (h : 1023 < n) (h' : n ≤ 8500) : addInt pvOutput (.num n) = .refused := by
  have hc : IntKind.cast .uint n = n := by simp only [IntKind.cast]; omega
  show (if _ then _ else _) = _
  simp only [pvOutput, IntSer.mkSized, hc, IntKind.bits, List.length_replicate]
  split
  · rfl
  · rw [if_pos]
    norm_num
    omega

example : ∃ n : Int, 1023 < n ∧ n ≤ 8500 := ⟨4000, by decide⟩

/-- C104 does not hold: the limit on the time spent docking, of up to two days, can only be commanded to zero. Whatever value
the tool takes arrives as 0. -/
theorem C104_counterexample_docking_timeout (n : Int) (hn : IntKind.InRange .uint n) (b : List Bool)
    (h : addInt dockingTimeout (.num n) = .ok b) : ({ dockingTimeout with bits := b } : IntSer).deserialize = 0 := by
  have hv : dockingTimeout.Valid := IntSer.mkSized_valid .uint 0 (2 * oneDayCcno) 6 (by decide) (by decide) (by decide) (by decide)
    (fun h => by cases h)
  have hl : dockingTimeout.bits.length = 6 := by decide
  obtain ⟨c1, c2⟩ := C104_integer dockingTimeout hv n hn
  by_cases hc : dockingTimeout.min ≤ n ∧ n ≤ dockingTimeout.max ∧
      (if 0 ≤ n then n else 2 ^ 32 + n) < 2 ^ (dockingTimeout.bits.length + 1)
  · obtain ⟨h1, -, h3⟩ := hc
    have h1' : (0 : Int) ≤ n := h1
    rw [if_pos h1', hl] at h3
    -- the value sent is a code of at most 127 over steps of 16135
    obtain ⟨s', a1, -, b2, b3, b4, b5, b6, b7, -⟩ := IntSer.roundtrip hv n
    have hb : b = s'.bits := by
      obtain ⟨b', d1, -⟩ := c1 ⟨h1, by
        have : (2 * (oneDayCcno : Int)) = dockingTimeout.max := rfl
        rw [← this]; have : oneDayCcno = 508235 := rfl; omega, by rw [if_pos h1', hl]; exact h3⟩
      unfold addInt at h
      have hval : toInt dockingTimeout.kind (.num n) = .ok n := by
        show Reply.ok (IntKind.cast .uint n) = _
        rw [show IntKind.cast .uint n = n from hn]
      rw [hval] at h
      dsimp only at h
      split at h
      · exact absurd h (by simp)
      · split at h
        · exact absurd h (by simp)
        · rw [a1] at h
          simpa using h.symm
    have he : ({ dockingTimeout with bits := s'.bits } : IntSer) = s' := by
      cases s'; simp only at b2 b3 b4; subst b2 b3 b4; rfl
    rw [hb, he, b7]
    have hcode : dockingTimeout.code n = 0 := by
      unfold IntSer.code
      rw [hl, Nat.div_eq_of_lt]
      have hs : stepSize (dockingTimeout.max - dockingTimeout.min).toNat 6 = 16135 := by decide
      rw [hs]
      have hlim : limit dockingTimeout.min dockingTimeout.max n = n := limit_inside h1 (by
        have : (2 * (oneDayCcno : Int)) = dockingTimeout.max := rfl
        rw [← this]; have : oneDayCcno = 508235 := rfl; omega)
      rw [hlim]
      have : dockingTimeout.min = 0 := rfl
      rw [this]
      omega
    rw [hcode]
    rfl
  · rw [c2 hc] at h; exact absurd h (by simp)

-- Values are indeed taken: 100 is.
example : ∃ b, addInt dockingTimeout (.num 100) = .ok b :=
  ⟨_, ((C104_integer dockingTimeout (IntSer.mkSized_valid .uint 0 (2 * oneDayCcno) 6 (by decide) (by decide) (by decide)
    (by decide) (fun h => by cases h)) 100 (by decide)).1 (by decide)).choose_spec.1⟩

/-- C104 does not hold: a number too large for the field's type is not refused but reduced modulo its size; 256 and more are sent
to the kill switch, say, as their remainders. -/
theorem C104_counterexample_wraps (s : IntSer) (n : Int) : addInt s (.num (n + 2 ^ s.kind.bits)) = addInt s (.num n) := by
  have : s.kind.cast (n + 2 ^ s.kind.bits) = s.kind.cast n := by
    cases s.kind <;> simp only [IntKind.cast, IntKind.bits] <;> omega
  unfold addInt toInt
  dsimp only
  rw [this]

/-- C104 does not hold: no temperature of -1 °C or below can be commanded to the gyroscope's heater, whose range is -40 to 85:
the tool's behaviour is undefined. -/
theorem C104_counterexample_temperature (n : Int) (h : -40 ≤ n) (h' : n ≤ -1) :
    addReal false (.mk' (-40) 85 8) (.num n) = .undef := by
  have hv : toReal false (.num n) = .ok (n : ℚ) := by
    show Reply.ok (f32 (n : ℚ)) = _
    rw [f32_int (by rw [abs_le]; constructor <;> omega)]
  have h1 : (-40 : ℚ) ≤ n := by exact_mod_cast h
  have h2 : (n : ℚ) ≤ -1 := by exact_mod_cast h'
  have hr : ¬((n : ℚ) < (FltSer.mk' (-40) 85 8 : FltSer ℚ).min ∨ (n : ℚ) > (FltSer.mk' (-40) 85 8 : FltSer ℚ).max) := by
    have e1 : (FltSer.mk' (-40) 85 8 : FltSer ℚ).min = -40 := rfl
    have e2 : (FltSer.mk' (-40) 85 8 : FltSer ℚ).max = 85 := rfl
    rw [e1, e2]
    rintro (h3 | h3) <;> linarith
  unfold addReal
  rw [hv]
  dsimp only
  rw [if_neg hr, if_pos (Or.inl h2)]

-- 20 °C below freezing is within the range.
example : ∃ n : Int, -40 ≤ n ∧ n ≤ -1 := ⟨-20, by decide⟩

/-- C104 does not hold: a GPS time is not checked at all; week 1999 goes out as week 2000. -/
theorem C104_counterexample_week :
    ∃ b t, addTime GpsSer.new (.arr [.num 1999, .num 0, .num 0]) = .ok b ∧
      ({ GpsSer.new with bits := b } : GpsSer).deserialize .unset = some t ∧ t.wn = 2000 := by
  have h1 : GpsSer.new.serialize (GpsTime.mk3 1999 0 0) = GpsSer.new.serialize (GpsTime.mk3 2000 0 0) := by
    have : ∀ t : BitVec 32, True := fun _ => trivial
    unfold GpsSer.serialize
    have hw : GpsSer.new.wn.serialize (GpsTime.mk3 1999 0 0).wn.toNat = GpsSer.new.wn.serialize (GpsTime.mk3 2000 0 0).wn.toNat := by
      unfold IntSer.serialize
      have : GpsSer.new.wn.clamp (GpsTime.mk3 1999 0 0).wn.toNat = GpsSer.new.wn.clamp (GpsTime.mk3 2000 0 0).wn.toNat := by decide
      rw [this]
    rw [hw]
    rfl
  obtain ⟨b, t, d1, -, d3, -, d5, -⟩ := C104_time GpsSer.new GpsSer.valid_new 2000 0 0 [] .unset (by decide) (by decide) (by decide)
  refine ⟨b, t, ?_, d3, BitVec.eq_of_toNat_eq (by simp; omega)⟩
  rw [← d1]
  unfold addTime
  dsimp only
  have e1 : GpsTime.mk3 (BitVec.ofInt 16 1999) (BitVec.ofInt 32 0) (BitVec.ofInt 32 0) = GpsTime.mk3 1999 0 0 := rfl
  have e2 : GpsTime.mk3 (BitVec.ofInt 16 2000) (BitVec.ofInt 32 0) (BitVec.ofInt 32 0) = GpsTime.mk3 2000 0 0 := rfl
  rw [e1, e2, h1]

/-- C104: whatever is in the command file, a file the tool writes is a packet in the sense of `IsPacket`: entries for distinct
existing fields with as many bits as the field has, then at most the padding the satellite accepts. -/
theorem C104_checked (fields : List Field) (junk : Nat → Bool) (cmd : List (Nat × Json)) (bytes : List U8)
    (h : create fields junk cmd = .ok bytes) :
    ∃ es pad, IsPacket (indexSize fields.length) (widths (fields.map fun f => f.onBoard (.int 0))) (bitsOf bytes) es pad ∧
      pad ≤ indexSize fields.length + 7 := by
  unfold create at h
  have hl : (fields.map fun f => f.onBoard (.int 0)).length = fields.length := by simp
  split at h
  · exact absurd h (by simp)
  · exact absurd h (by simp)
  · dsimp only at h
    split at h
    · exact absurd h (by simp)
    · split at h
      · rename_i hv
        cases h
        obtain ⟨b, h1, h2⟩ := validate_spec (fields.map fun f => f.onBoard (.int 0)) _ (indexSize_spec _).1 bytes
        rw [hl] at h1 h2 hv
        rw [hv] at h1
        cases h1
        exact h2.mp rfl
      · exact absurd h (by simp)
      · exact absurd h (by simp)

-- A command file for one heater is written.
example (junk : Nat → Bool) : ∃ bytes, create [.bool .new] junk [(0, .bool true)] = .ok bytes := by
  refine ((C104_delivered_partial [.bool .new] ?_ (by decide) junk [(0, .bool true)] (by simp) (by decide) ?_).1).mpr ?_
  · intro f hf; simp only [List.mem_singleton] at hf; subst hf; rfl
  · intro p hp f hf; simp only [List.mem_singleton] at hp; subst hp; simp at hf; subst hf; trivial
  · intro p hp; simp only [List.mem_singleton] at hp; subst hp; exact ⟨_, rfl, trivial⟩

end PAN
