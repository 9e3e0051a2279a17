import Verif.Spec.Ground
import Verif.Props.Ground
/-! Specification of the echo: what the ground should see of a value it has commanded. -/
namespace PAN.Spec
open Ground

/-- The ground asked for `j`, the board holds `v`, and telemetry shows `w`. Whole numbers, truth values and times are shown as
the board holds them, and the board holds what was asked for (a whole number to less than one step of the field). Other
numbers are shown to twice the accuracy of the field, vectors to twice the accuracy of C98, quaternions to twice that of the
format, up to sign. -/
inductive Shown : Field → Json → Value → Value → Prop
  | int (s : IntSer) (n v : Int) : ArrivedInt s.min s.max s.bits.length n v → Shown (.int s) (.num n) (.int v) (.int v)
  | bool (s : BoolSer) (b : Bool) : Shown (.bool s) (.bool b) (.bool b) (.bool b)
  | whole (d : Bool) (s : FltSer ℚ) (n : Int) (v w : ℚ) :
      |w - n| ≤ 2 * ((s.max - s.min) / (2 ^ s.bits.length - 1) +
        22 * (if d then 1 / 2 ^ 53 else 1 / 2 ^ 24) * (|s.min| + |s.max|)) → Shown (.real d s) (.num n) (.real v) (.real w)
  | real (d : Bool) (s : FltSer ℚ) (x v w : ℚ) :
      |w - x| ≤ 2 * ((s.max - s.min) / (2 ^ s.bits.length - 1) +
        22 * (if d then 1 / 2 ^ 53 else 1 / 2 ^ 24) * (|s.min| + |s.max|)) → Shown (.real d s) (.real x) (.real v) (.real w)
  | time (s : GpsSer) (wn tow ns : Int) (rest : List Json) (t : GpsTime) : t.isSet = true → (t.wn.toNat : Int) = wn →
      (t.tow.toNat : Int) = tow → t.ns.toInt = ns →
      Shown (.time s) (.arr (.num wn :: .num tow :: .num ns :: rest)) (.time t) (.time t)
  | vec (d : Bool) (lo hi : ℝ) (p : ℕ) (bits : List Bool) (j : Json) (u v w : ℝ × ℝ × ℝ) : j.vector d = some u → v.1 ≠ 0 →
      dist3 w u ≤ 42 / 10 * ((hi - lo) / 2 ^ p) → Shown (.vec d lo hi p bits) j (.vec v) (.vec w)
  | quat (d : Bool) (bits : List Bool) (j : Json) (q v w : Fin 4 → ℝ) (σ : ℝ) : j.quaternion d = some q → length4 w = 1 →
      (σ = 1 ∨ σ = -1) → (∀ i, |w i - σ * (q i / length4 q)| ≤ 16 / 1023) → Shown (.quat d bits) j (.quat v) (.quat w)

end PAN.Spec
