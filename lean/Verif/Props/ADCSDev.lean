import Verif.Lemmas.ADCSDev
import Verif.Spec.ADCSDev
import Mathlib.Tactic.Ring
import Mathlib.Algebra.Order.Group.Abs
import Mathlib.Algebra.Order.Ring.Int
/-!
C100: bus devices of the attitude control box go out of service after three failures in a row, and never show data of a failed
exchange. C101: the second magnetometer and its calibration. C102: the converters.
-/
namespace PAN
open BusDev

namespace BusDev

theorem failed_eq (calls : List Bool) : Spec.exchangeFailed calls = !calls.all id := by
  induction calls with
  | nil => rfl
  | cons a l ih =>
    unfold Spec.exchangeFailed at ih ⊢
    cases a
    · simp
    · simpa using ih

theorem three_eq (ts : List (List Bool)) :
    Spec.threeInARow ts ↔ [true, true, true] <:+: ts.map (fun c => !c.all id) := by
  unfold Spec.threeInARow
  rw [show Spec.exchangeFailed = fun c => !c.all id from funext failed_eq]

/-- The bus calls of a use of a sensor. -/
def sensorCalls : Sensor.Tx → List Bool
  | .ready _ calls _ => calls
  | .read calls _ => calls

/-- The bus calls of a use of the second magnetometer. -/
def mag2Calls : Mag2.Tx → List Bool
  | .ready calls _ => calls
  | .read calls _ => calls

/-- The bytes of a read that went well. -/
def goodBytes : Sensor.Tx → Option (List U8)
  | .ready _ _ _ => none
  | .read calls bytes => if false ∈ calls then none else some bytes

/-- The value of a read that went well. -/
def goodValue : Mag2.Tx → Option (Fin 3 → U16)
  | .ready _ _ => none
  | .read calls v => if false ∈ calls then none else some v

theorem sensor_runs_data (ts : List Sensor.Tx) (s : Sensor) (h : s.dev.errorAcc = false) :
    (ts.foldl Sensor.step s).data = ((ts.filterMap goodBytes).getLast?).getD s.data := by
  induction ts using List.reverseRecOn with
  | nil => rfl
  | append_singleton ts t ih =>
    rw [List.foldl_append, List.filterMap_append]
    have ha : (ts.foldl Sensor.step s).dev.errorAcc = false := by
      rw [Sensor.foldl_dev]
      exact Dev.runs_acc _ _ h
    cases t with
    | ready mk c st => simpa [Sensor.step, Sensor.isReady, goodBytes] using ih
    | read c b =>
      have he := failed_eq c
      unfold Spec.exchangeFailed at he
      simp only [List.foldl_cons, List.foldl_nil, Sensor.step, Sensor.read, Dev.exchange _ c ha, ← he]
      by_cases hf : false ∈ c
      · simpa [hf, goodBytes] using ih
      · simp [hf, goodBytes]

theorem mag2_runs_b (ts : List Mag2.Tx) (m : Mag2) (h : m.dev.errorAcc = false) :
    (ts.foldl Mag2.step m).b = ((ts.filterMap goodValue).getLast?).getD m.b := by
  induction ts using List.reverseRecOn with
  | nil => rfl
  | append_singleton ts t ih =>
    rw [List.foldl_append, List.filterMap_append]
    have ha : (ts.foldl Mag2.step m).dev.errorAcc = false := by
      rw [Mag2.foldl_dev]
      exact Dev.runs_acc _ _ h
    cases t with
    | ready c st => simpa [Mag2.step, Mag2.isReady, Mag2.pop, goodValue] using ih
    | read c b =>
      have he := failed_eq c
      unfold Spec.exchangeFailed at he
      simp only [List.foldl_cons, List.foldl_nil, Mag2.step, Mag2.read, Mag2.pop, Dev.exchange _ c ha, ← he]
      by_cases hf : false ∈ c
      · simpa [hf, goodValue] using ih
      · simp [hf, goodValue]

theorem half_bound (g : ℤ) (h : -65535 ≤ g ∧ g ≤ 65535) : -32767 ≤ g.tdiv 2 ∧ g.tdiv 2 ≤ 32767 := by
  rcases Int.le_total 0 g with h0 | h0
  · rw [Int.tdiv_eq_ediv_of_nonneg h0]
    omega
  · obtain ⟨k, rfl⟩ : ∃ k, g = -k := ⟨-g, by omega⟩
    rw [Int.neg_tdiv, Int.tdiv_eq_ediv_of_nonneg (by omega)]
    omega

theorem single_ends (m : Mag2) (x : Mag2.Single) (h : ∃ p ∈ x.polls.tail, p.1.all id = true ∧ p.2 &&& 1 ≠ 0) :
    ∃ r, m.singleRead x = some r := by
  unfold Mag2.singleRead
  obtain ⟨r, hr⟩ : ∃ r, (m.write 0x01 x.cmd).wait x.polls = some r := by
    obtain ⟨p, hp, hx⟩ := h
    rcases hpl : x.polls with _ | ⟨⟨c, st⟩, rest⟩
    · rw [hpl] at hp
      simp at hp
    · rw [hpl] at hp
      exact Mag2.wait_ready _ _ ⟨p, List.mem_cons_of_mem _ hp, hx⟩ (Or.inr ⟨c, st, rest, rfl, p, hp, hx⟩)
  rw [hr]
  rcases r with ⟨_ | _, m'⟩
  · exact ⟨_, rfl⟩
  · exact ⟨_, rfl⟩

end BusDev

/-- A reset makes at most three attempts and always ends. It reports success exactly if one of them went without error. -/
theorem C100_reset (s : Sensor) (attempts : ℕ → List Bool) (last : List Bool) :
    ∃ r s', s.reset attempts last = some (r, s') ∧ (r = true ↔ ∃ i < 3, Spec.exchangeFailed (attempts i) = false) ∧
      s'.dev.functional = r ∧ s'.data = s.data := by
  obtain ⟨r, s', h⟩ : ∃ r s', s.reset attempts last = some (r, s') := by
    unfold Sensor.reset
    rw [Dev.resetLoop_three]
    split_ifs
    · exact ⟨_, _, rfl⟩
    · exact ⟨_, _, rfl⟩
  obtain ⟨hd, hr, ht, hf⟩ := Sensor.reset_cases s s' attempts last r h
  refine ⟨r, s', h, ?_, ?_, hd⟩
  · rw [hr]
    simp only [failed_eq, Bool.not_eq_false', List.all_eq_true, id]
  · cases r
    · exact hf rfl
    · rw [ht rfl]

example : ∃ s', (Sensor.mk ⟨false, 5, true⟩ []).reset (fun i => if i = 2 then [true, true] else [true, false]) [] = some (true, s') :=
  ⟨_, rfl⟩

/-- After a reset that succeeded, whatever the sensor is asked and whatever the bus does, the sensor is in service exactly if no
three exchanges in a row went wrong. -/
theorem C100_service (s s' : Sensor) (attempts : ℕ → List Bool) (last : List Bool) (h : s.reset attempts last = some (true, s'))
    (ts : List Sensor.Tx) :
    (ts.foldl Sensor.step s').dev.functional = true ↔ ¬ Spec.threeInARow (ts.map sensorCalls) := by
  obtain ⟨-, -, ht, -⟩ := Sensor.reset_cases s s' attempts last true h
  rw [Sensor.foldl_dev, ht rfl, Dev.runs_functional _ _ rfl (by simp) rfl, three_eq]
  have : Sensor.Tx.results = sensorCalls := by funext t; cases t <;> rfl
  simp [this]

example : Spec.threeInARow [[true], [false], [true, false], [false, true]] ∧ ¬ Spec.threeInARow [[false], [false], [true], [false]] := by
  unfold Spec.threeInARow
  constructor
  · exact ⟨[false], [], by decide⟩
  · decide

/-- A sensor that was taken out of service, by the ground or by a failed reset, stays out whatever happens, until a reset
succeeds. -/
theorem C100_disabled (s : Sensor) (calls : List Bool) (ts : List Sensor.Tx) :
    (ts.foldl Sensor.step (s.disable calls)).dev.functional = false ∧
    (∀ s' attempts last, s.reset attempts last = some (false, s') → (ts.foldl Sensor.step s').dev.functional = false) := by
  constructor
  · rw [Sensor.foldl_dev]
    exact Dev.runs_off _ _ (by simp [Sensor.disable, Dev.bus_eq, Dev.disable])
  · intro s' attempts last h
    rw [Sensor.foldl_dev]
    exact Dev.runs_off _ _ ((Sensor.reset_cases s s' attempts last false h).2.2.2 rfl)

example : ((Sensor.mk ⟨true, 0, false⟩ []).reset (fun _ => [false]) [false]).map Prod.fst = some false := rfl

/-- The data of a sensor are always those of the last read in which no bus call failed: an exchange that went wrong never
changes them. -/
theorem C100_reading (s s' : Sensor) (attempts : ℕ → List Bool) (last : List Bool)
    (h : s.reset attempts last = some (true, s')) (ts : List Sensor.Tx) :
    (ts.foldl Sensor.step s').data = ((ts.filterMap goodBytes).getLast?).getD s.data := by
  obtain ⟨hd, -, ht, -⟩ := Sensor.reset_cases s s' attempts last true h
  rw [sensor_runs_data ts s' (by rw [ht rfl]), hd]

example : ([Sensor.Tx.ready 8 [true] 8, .read [true, true] [1, 2], .read [true, false] [3, 4]].filterMap goodBytes).getLast? =
    some [1, 2] := rfl

/-- The components of a reading are the numbers the device sent: two's complement, the low byte first. -/
theorem C100_components (s s' : Sensor) (attempts : ℕ → List Bool) (last : List Bool)
    (h : s.reset attempts last = some (true, s')) (ts : List Sensor.Tx) (bytes : List U8)
    (hb : (ts.filterMap goodBytes).getLast? = some bytes) (i : ℕ) (hi : 2 * i + 1 < bytes.length) :
    (ts.foldl Sensor.step s').component i = Spec.signed16 (bytes[2 * i].toNat) (bytes[2 * i + 1].toNat) := by
  unfold Sensor.component
  rw [C100_reading s s' attempts last h ts, hb, Option.getD_some, List.getD_eq_getElem?_getD, List.getD_eq_getElem?_getD,
    List.getElem?_eq_getElem hi, List.getElem?_eq_getElem (show 2 * i < bytes.length by omega), Option.getD_some, Option.getD_some]
  generalize bytes[2 * i] = l
  generalize bytes[2 * i + 1] = u
  have hu := u.isLt
  have hl := l.isLt
  have hn : (u ++ l).toNat = 256 * u.toNat + l.toNat := by
    rw [BitVec.toNat_append, Nat.shiftLeft_eq, Nat.mul_comm, ← Nat.two_pow_add_eq_or_of_lt hl]
  rw [BitVec.toInt_eq_toNat_cond, hn]
  unfold Spec.signed16
  split_ifs <;> omega

example : Spec.signed16 0x34 0x12 = 0x1234 ∧ Spec.signed16 0xFE 0xFF = -2 := by decide

/-- A read tells whether it went well, and the readiness of a sensor is only reported from an exchange that went well. -/
theorem C100_answers (s : Sensor) (h : s.dev.errorAcc = false) (mask status : U8) (calls : List Bool) (bytes : List U8) :
    ((s.read calls bytes).1 = true ↔ Spec.exchangeFailed calls = false) ∧
    ((s.isReady mask calls status).1 = true ↔ Spec.exchangeFailed calls = false ∧ status &&& mask ≠ 0) := by
  simp only [failed_eq, Sensor.read, Sensor.isReady, Dev.exchange _ calls h]
  cases calls.all id <;> simp

example : ((Sensor.mk ⟨true, 1, false⟩ []).isReady 8 [true] 0x0f).1 = true ∧
    ((Sensor.mk ⟨true, 1, false⟩ []).isReady 8 [true] 0x07).1 = false := ⟨rfl, rfl⟩

/-! ### The second magnetometer -/

/-- After a reset that succeeded the magnetometer is in continuous mode, and it is in service exactly if no three exchanges in a
row went wrong; its raw reading is the last one read without error. -/
theorem C101_service (m m' : Mag2) (attempts : ℕ → List Bool) (h : m.reset attempts = some (true, m')) (ts : List Mag2.Tx) :
    (ts.foldl Mag2.step m').ctrl0 = Mag2.continuous ∧
    ((ts.foldl Mag2.step m').dev.functional = true ↔ ¬ Spec.threeInARow (ts.map mag2Calls)) ∧
    (ts.foldl Mag2.step m').b = ((ts.filterMap goodValue).getLast?).getD m.b ∧
    (ts.foldl Mag2.step m').offset = m.offset := by
  rw [Mag2.reset_eq] at h
  split_ifs at h
  simp only [Option.some.injEq, Prod.mk.injEq, true_and] at h
  · subst h
    refine ⟨Mag2.foldl_ctrl0 _ _, ?_, mag2_runs_b _ _ rfl, Mag2.foldl_offset _ _⟩
    rw [Mag2.foldl_dev, Dev.runs_functional _ _ rfl (by simp) rfl, three_eq]
    have : Mag2.Tx.results = mag2Calls := by funext t; cases t <;> rfl
    simp [this]
  · simp at h

/-- The magnetometer in an example. -/
def exMag2 : Mag2 := ⟨⟨true, 0, false⟩, fun _ => 0, fun _ => 0, 0⟩

example : ∃ m', exMag2.reset (fun _ => [true, true, true]) = some (true, m') := ⟨_, rfl⟩

/-- A reset of the magnetometer always ends, and succeeds exactly if one of three attempts goes without error. -/
theorem C101_reset (m : Mag2) (attempts : ℕ → List Bool) :
    ∃ r m', m.reset attempts = some (r, m') ∧ (r = true ↔ ∃ i < 3, Spec.exchangeFailed (attempts i) = false) ∧
      m'.dev.functional = r := by
  have e : (∃ i < 3, Spec.exchangeFailed (attempts i) = false) ↔ (∃ i < 3, ∀ c ∈ attempts i, c = true) := by
    simp only [failed_eq, Bool.not_eq_false', List.all_eq_true, id]
  rw [Mag2.reset_eq, e, some_attempt]
  split_ifs with hx
  · exact ⟨_, _, rfl, by simp [hx], rfl⟩
  · exact ⟨_, _, rfl, by simp [hx], rfl⟩

/-- A calibration that reports success leaves the magnetometer in continuous mode, and the zero point of each axis halfway between
the measurements after the set pulse and after the reset pulse. So if the electronics add `n` to a field `f` after the one and
to its opposite after the other, and to the opposite of a field `g` later on, then the magnetometer reports half of `g`: the
zero error of the electronics is removed. -/
theorem C101_calibrated (m m' : Mag2) (x : Mag2.CalIn) (h : m.calibrate x = some (true, m')) :
    m'.ctrl0 = Mag2.continuous ∧
    ∀ (i : Fin 3) (n f g : ℤ) (calls : List Bool) (v : Fin 3 → U16),
      ((x.r2.value i).toNat : ℤ) = n + f → ((x.r3.value i).toNat : ℤ) = n - f → ((v i).toNat : ℤ) = n - g →
      Spec.exchangeFailed calls = false → ((m'.read calls v).2).field i = g.tdiv 2 := by
  obtain ⟨ha, hc, ho⟩ := Mag2.calibrate_true m m' x h
  refine ⟨hc, fun i n f g calls v h2 h3 hv hok => ?_⟩
  have hall : calls.all id = true := by
    rw [failed_eq] at hok
    simpa using hok
  have hn : ((m'.offset i).toNat : ℤ) = n := by
    rw [ho i]
    omega
  have hread : (m'.read calls v).2.b = v ∧ (m'.read calls v).2.offset = m'.offset := by
    unfold Mag2.read Mag2.pop
    simp only [Dev.exchange m'.dev calls ha, hall]
    exact ⟨rfl, rfl⟩
  unfold Mag2.field
  rw [hread.1, hread.2, hn, hv]
  have hg : -(n - g - n) = g := by ring
  rw [hg]
  have hb := (v i).isLt
  have hb' := (m'.offset i).isLt
  have hh := half_bound g (by omega)
  apply BitVec.toInt_ofInt_eq_self (by norm_num)
  · simp only [Nat.reduceSub]
    omega
  · simp only [Nat.reduceSub]
    omega

/-- A single measurement that goes well. -/
def exSingle (v : U16) : Mag2.Single := ⟨[true], [([true], 0), ([true], 1)], [true], fun _ => v⟩

/-- A calibration that goes well. -/
def exCal : Mag2.CalIn := ⟨[true], [true], exSingle 0, exSingle 33000, [true], [true], exSingle 32600, [true]⟩

example : ∃ m', exMag2.calibrate exCal = some (true, m') ∧ m'.offset 0 = 32800 ∧
    ((m'.read [true] (fun _ => 32700)).2).field 0 = 50 := ⟨_, rfl, by decide, by decide⟩

/-- The conversion of a reading to a signed number never overflows: it is half of the difference to the zero point, rounded
towards zero. -/
theorem C101_no_overflow (m : Mag2) (i : Fin 3) :
    m.field i = (((m.offset i).toNat : ℤ) - (m.b i).toNat).tdiv 2 ∧ |m.field i| ≤ 32767 := by
  have h1 := (m.b i).isLt
  have h2 := (m.offset i).isLt
  have hg : -(((m.b i).toNat : ℤ) - (m.offset i).toNat) = ((m.offset i).toNat : ℤ) - (m.b i).toNat := by ring
  have hh := half_bound (((m.offset i).toNat : ℤ) - (m.b i).toNat) (by omega)
  have he : m.field i = (((m.offset i).toNat : ℤ) - (m.b i).toNat).tdiv 2 := by
    unfold Mag2.field
    rw [hg]
    apply BitVec.toInt_ofInt_eq_self (by norm_num)
    · simp only [Nat.reduceSub]
      omega
    · simp only [Nat.reduceSub]
      omega
  refine ⟨he, ?_⟩
  rw [he, abs_le]
  constructor <;> omega

example : ({ exMag2 with offset := fun _ => 65535 } : Mag2).field 1 = 32767 := by decide

/-- A calibration ends if, in each of its measurements, the magnetometer says at some poll after the first that it is ready. -/
theorem C101_ends_partial (m : Mag2) (x : Mag2.CalIn)
    (h : ∀ r ∈ [x.r1, x.r2, x.r3], ∃ p ∈ r.polls.tail, Spec.exchangeFailed p.1 = false ∧ p.2 &&& 1 ≠ 0) :
    ∃ r, m.calibrate x = some r := by
  have h' : ∀ r ∈ [x.r1, x.r2, x.r3], ∃ p ∈ r.polls.tail, p.1.all id = true ∧ p.2 &&& 1 ≠ 0 := by
    intro r hr
    obtain ⟨p, hp, h1, h2⟩ := h r hr
    rw [failed_eq] at h1
    exact ⟨p, hp, by simpa using h1, h2⟩
  unfold Mag2.calibrate
  dsimp only
  split
  · exact ⟨_, rfl⟩
  split
  · exact ⟨_, rfl⟩
  split
  · split
    · split
      · exact ⟨_, rfl⟩
      split
      · exact ⟨_, rfl⟩
      split
      · exact ⟨_, rfl⟩
      split
      · split
        · exact ⟨_, rfl⟩
        split
        · exact ⟨_, rfl⟩
        · exact ⟨_, rfl⟩
      · exact single_ends _ _ (h' _ (by simp))
    · exact single_ends _ _ (h' _ (by simp))
  · exact single_ends _ _ (h' _ (by simp))

example : ∀ r ∈ [exCal.r1, exCal.r2, exCal.r3], ∃ p ∈ r.polls.tail, Spec.exchangeFailed p.1 = false ∧ p.2 &&& 1 ≠ 0 := by
  intro r hr
  simp only [exCal, List.mem_cons, List.not_mem_nil, or_false] at hr
  rcases hr with rfl | rfl | rfl <;> exact ⟨([true], 1), by simp [exSingle], by decide, by decide⟩

/-- A magnetometer that answers on the bus but never says that it is ready keeps the calibration, and with it the whole
attitude control box, waiting without end: however many times it is polled, the calibration has not ended. -/
theorem C101_counterexample_waits (m : Mag2) (hf : m.dev.functional = true) (hc : m.dev.errorAcc = false) (x : Mag2.CalIn)
    (h1 : Spec.exchangeFailed x.fill1 = false) (h2 : Spec.exchangeFailed x.set = false) (h3 : Spec.exchangeFailed x.r1.cmd = false)
    (h4 : ∀ p ∈ x.r1.polls, Spec.exchangeFailed p.1 = false ∧ p.2 &&& 1 = 0) : m.calibrate x = none := by
  simp only [failed_eq, Bool.not_eq_false'] at h1 h2 h3 h4
  have key : ∀ (polls : List (List Bool × U8)) (m : Mag2), m.dev.functional = true → m.dev.errorAcc = false →
      (∀ p ∈ polls, p.1.all id = true ∧ p.2 &&& 1 = 0) → m.wait polls = none := by
    intro polls
    induction polls with
    | nil => intros; rfl
    | cons p ps ih =>
      intro m hf ha hp
      obtain ⟨c, st⟩ := p
      have h0 := hp (c, st) (by simp)
      unfold Mag2.wait Mag2.isReady Mag2.pop
      simp only [Dev.exchange m.dev c ha, h0.1, h0.2, hf]
      exact ih _ rfl rfl (fun p hp' => hp p (by simp [hp']))
  have e1 : (m.cmd 0x80 x.fill1).1 = false ∧ (m.cmd 0x80 x.fill1).2.dev = ⟨true, 0, false⟩ := by
    simp [Mag2.cmd, Mag2.write, Mag2.pop, Dev.exchange m.dev x.fill1 hc, h1, hf]
  have e2 : ∀ m : Mag2, m.dev = ⟨true, 0, false⟩ → (m.cmd 0x20 x.set).1 = false ∧ (m.cmd 0x20 x.set).2.dev = ⟨true, 0, false⟩ := by
    intro m hm
    simp [Mag2.cmd, Mag2.write, Mag2.pop, hm, Dev.exchange, h2]
  have e2' := e2 _ e1.2
  have e3 : ((m.cmd 0x80 x.fill1).2.cmd 0x20 x.set).2.singleRead x.r1 = none := by
    unfold Mag2.singleRead
    have : (((m.cmd 0x80 x.fill1).2.cmd 0x20 x.set).2.write 0x01 x.r1.cmd).dev = ⟨true, 0, false⟩ := by
      show ((m.cmd 0x80 x.fill1).2.cmd 0x20 x.set).2.dev.bus x.r1.cmd = _
      rw [e2'.2, Dev.bus_eq, h3]
      rfl
    rw [key _ _ (by rw [this]) (by rw [this]) h4]
  unfold Mag2.calibrate
  dsimp only
  rw [e1.1, e2'.1]
  simp only [Bool.false_eq_true, if_false]
  rw [e3]

example : exMag2.calibrate { exCal with r1 := ⟨[true], List.replicate 1000 ([true], 0), [true], fun _ => 0⟩ } = none :=
  C101_counterexample_waits _ rfl rfl _ (by decide) (by decide) (by decide) (by
    intro p hp
    rw [List.eq_of_mem_replicate hp]
    decide)

/-- One bus error in the middle of a calibration is enough to end it with the magnetometer out of continuous mode and yet in
service: reading it does not start it again, so that until it is calibrated or reset by command its last reading is shown as if it were
current. -/
theorem C101_counterexample_frozen (m : Mag2) (hf : m.dev.functional = true) (hc : m.dev.errorAcc = false) (x : Mag2.CalIn)
    (h1 : Spec.exchangeFailed x.fill1 = false) (h2 : Spec.exchangeFailed x.set = true) :
    ∃ m', m.calibrate x = some (false, m') ∧ m'.dev.functional = true ∧
      ∀ ts : List Mag2.Tx, (ts.foldl Mag2.step m').ctrl0 = 0x80 := by
  simp only [failed_eq, Bool.not_eq_false', Bool.not_eq_true'] at h1 h2
  have e1 : (m.cmd 0x80 x.fill1).1 = false ∧ (m.cmd 0x80 x.fill1).2.dev = ⟨true, 0, false⟩ ∧
      (m.cmd 0x80 x.fill1).2.ctrl0 = 0x80 := by
    simp [Mag2.cmd, Mag2.write, Mag2.pop, Dev.exchange m.dev x.fill1 hc, h1, hf]
  have e2 : ∀ m : Mag2, m.dev = ⟨true, 0, false⟩ → m.ctrl0 = 0x80 → (m.cmd 0x20 x.set).1 = true ∧
      (m.cmd 0x20 x.set).2.dev.functional = true ∧ (m.cmd 0x20 x.set).2.ctrl0 = 0x80 := by
    intro m hm hm'
    simp [Mag2.cmd, Mag2.write, Mag2.pop, hm, Dev.exchange, h2, hm']
  have e2' := e2 _ e1.2.1 e1.2.2
  refine ⟨((m.cmd 0x80 x.fill1).2.cmd 0x20 x.set).2, ?_, e2'.2.1, fun ts => by rw [Mag2.foldl_ctrl0, e2'.2.2]⟩
  unfold Mag2.calibrate
  dsimp only
  rw [e1.1, e2'.1]
  simp

example : Spec.exchangeFailed exCal.fill1 = false ∧ Spec.exchangeFailed ({ exCal with set := [true, false] } : Mag2.CalIn).set = true := by
  decide

/-! ### The converters -/

theorem BusDev.waitAlert_iff (pin : List Bool) : Adc.waitAlert pin = true ↔ true ∈ pin := by
  induction pin with
  | nil => simp [Adc.waitAlert]
  | cons a l ih => cases a <;> simp [Adc.waitAlert, ih]

/-- Sign extension of 12 bits. -/
theorem BusDev.adc_sign_table : ∀ a : Fin 64, ∀ b : Fin 64,
    (if BitVec.ofNat 16 (64 * a + b) &&& 0x0800 != 0 then BitVec.ofNat 16 (64 * a + b) ||| 0xF000
      else BitVec.ofNat 16 (64 * a + b)).toInt =
      if 64 * (a : ℕ) + b < 2048 then ((64 * a + b : ℕ) : ℤ) else ((64 * a + b : ℕ) : ℤ) - 4096 := by decide +kernel

theorem BusDev.adc_sign (n : ℕ) (h : n < 4096) :
    (if BitVec.ofNat 16 n &&& 0x0800 != 0 then BitVec.ofNat 16 n ||| 0xF000 else BitVec.ofNat 16 n).toInt =
      if n < 2048 then (n : ℤ) else (n : ℤ) - 4096 := by
  have := adc_sign_table ⟨n / 64, by omega⟩ ⟨n % 64, by omega⟩
  simp only [Nat.div_add_mod] at this
  exact this

/-- A conversion that is read without error yields the signed value of the 12 bits the converter sent, which lies in
[−2048, 2047]; one that is not read without error yields no value. -/
theorem C102_value (d : Dev) (h : d.errorAcc = false) (start calls pin : List Bool) (hp : true ∈ pin) (b0 b1 : U8) :
    (Adc.endRead (Adc.startRead d start) pin calls b0 b1).map Prod.fst =
      some (if Spec.exchangeFailed (start ++ calls) then none else some (Spec.conversion b0.toNat b1.toNat)) ∧
    -2048 ≤ Spec.conversion b0.toNat b1.toNat ∧ Spec.conversion b0.toNat b1.toNat ≤ 2047 := by
  have hb0 := b0.isLt
  have hb1 := b1.isLt
  have hbus : (Adc.startRead d start).bus calls = d.bus (start ++ calls) := by
    simp only [Adc.startRead, Dev.bus, List.foldl_append]
  have hval : (if ((b0 ++ b1) >>> 4 : U16) &&& 0x0800 != 0 then ((b0 ++ b1) >>> 4 : U16) ||| 0xF000 else (b0 ++ b1) >>> 4).toInt =
      Spec.conversion b0.toNat b1.toNat := by
    have ha : (b0 ++ b1 : U16).toNat = 256 * b0.toNat + b1.toNat := by
      rw [BitVec.toNat_append, ← Nat.shiftLeft_add_eq_or_of_lt hb1, Nat.shiftLeft_eq]
      omega
    have hv : ((b0 ++ b1) >>> 4 : U16) = BitVec.ofNat 16 ((256 * b0.toNat + b1.toNat) / 16) := by
      apply BitVec.eq_of_toNat_eq
      rw [BitVec.toNat_ushiftRight, ha, BitVec.toNat_ofNat, Nat.shiftRight_eq_div_pow]
      omega
    have := adc_sign ((256 * b0.toNat + b1.toNat) / 16) (by omega)
    rw [hv]
    exact this
  refine ⟨?_, ?_, ?_⟩
  · unfold Adc.endRead
    rw [(waitAlert_iff pin).mpr hp]
    simp only [hbus, Dev.exchange d _ h, failed_eq]
    cases hx : (start ++ calls).all id
    · simp
    · simp only [Bool.not_true, Bool.false_eq_true, if_false, Option.map_some, ← hval]
  · unfold Spec.conversion
    dsimp only
    split_ifs <;> omega
  · unfold Spec.conversion
    dsimp only
    split_ifs <;> omega

example : (Adc.endRead (Adc.startRead ⟨true, 1, false⟩ [true]) [false, true] [true] 0xFF 0xF0).map Prod.fst = some (some (-1)) := by decide

/-- A conversion: what the bus does at its start, what the alert line reads, what the bus does at its end and the bytes sent. -/
structure BusDev.AdcTx where
  start : List Bool
  pin : List Bool
  calls : List Bool
  b0 : U8
  b1 : U8

/-- The converter after a conversion. -/
def BusDev.AdcTx.run (d : Dev) (t : AdcTx) : Option Dev := (Adc.endRead (Adc.startRead d t.start) t.pin t.calls t.b0 t.b1).map Prod.snd

/-- As long as the alert line rises in every conversion, conversions end, and a converter is in service exactly if no three
conversions in a row went wrong since its last successful reset. -/
theorem C102_service (d d' : Dev) (attempts : ℕ → List Bool) (h : Dev.resetLoop 3 attempts 0 d.reset = some (true, d'))
    (ts : List AdcTx) (hp : ∀ t ∈ ts, true ∈ t.pin) :
    ∃ e, ts.foldlM AdcTx.run d' = some e ∧
      (e.functional = true ↔ ¬ Spec.threeInARow (ts.map fun t => t.start ++ t.calls)) := by
  have hd : d' = ⟨true, 0, false⟩ := by
    rw [Dev.resetLoop_three] at h
    split_ifs at h <;> simp at h
    exact h.symm
  have key : ∀ (ts : List AdcTx) (d : Dev), (∀ t ∈ ts, true ∈ t.pin) →
      ts.foldlM AdcTx.run d = some (d.runs (ts.map fun t => t.start ++ t.calls)) := by
    intro ts
    induction ts with
    | nil => intro d _; rfl
    | cons t ts ih =>
      intro d hp
      have : AdcTx.run d t = some (d.bus (t.start ++ t.calls)).popErrors.2 := by
        have hbus : (Adc.startRead d t.start).bus t.calls = d.bus (t.start ++ t.calls) := by
          simp only [Adc.startRead, Dev.bus, List.foldl_append]
        unfold AdcTx.run Adc.endRead
        rw [(waitAlert_iff t.pin).mpr (hp t (by simp))]
        simp only [hbus, Bool.not_true, Bool.false_eq_true, if_false]
        split_ifs <;> rfl
      rw [List.foldlM_cons, this]
      simp only [Option.bind_eq_bind, Option.bind_some]
      rw [ih _ (fun t ht => hp t (by simp [ht]))]
      rfl
  refine ⟨_, key ts d' hp, ?_⟩
  rw [hd, Dev.runs_functional _ _ rfl (by simp) rfl, three_eq]
  simp

example : ∃ e, [AdcTx.mk [true] [false, true] [true] 1 2, .mk [false] [true] [true] 1 2].foldlM AdcTx.run ⟨true, 0, false⟩ = some e ∧
    e.functional = true := ⟨_, rfl, rfl⟩

/-- A reading of a converter ends only when its alert line rises: there is no time limit. If the line stays low, as when the
converter did not get the command to convert, the reading has not ended however often the line was looked at, even if the bus
already failed. -/
theorem C102_counterexample_waits (d : Dev) (start pin calls : List Bool) (b0 b1 : U8) :
    Adc.endRead (Adc.startRead d start) pin calls b0 b1 = none ↔ ∀ level ∈ pin, level = false := by
  have h1 : (∀ level ∈ pin, level = false) ↔ Adc.waitAlert pin = false := by
    rw [← Bool.not_eq_true, waitAlert_iff]
    constructor
    · intro h ht
      exact absurd (h true ht) (by simp)
    · intro h level hl
      cases level
      · rfl
      · exact absurd hl h
  rw [h1]
  unfold Adc.endRead
  cases Adc.waitAlert pin
  · simp
  · simp only [Bool.not_true, Bool.false_eq_true, if_false, reduceCtorEq, iff_false]
    split_ifs <;> simp

example : Adc.endRead (Adc.startRead ⟨true, 0, false⟩ [false]) (List.replicate 50 false) [true] 0 0 = none := by decide

end PAN
