import Verif.Model.GomConfig
import Verif.Props.Power
import Mathlib.Tactic.IntervalCases
import Mathlib.Tactic.SplitIfs
/-!
C111: the housekeeping groups and the configurations of the power supply.
-/
namespace PAN
open Gomspace Spec

set_option linter.unnecessarySeqFocus false

namespace Spec

/-- The members of the housekeeping structure, with the group they belong to, their place and their size. -/
inductive HkGroup | voltages | outputs | watchdogs | basic
  deriving DecidableEq

/-- Where the group of a byte of the structure is. -/
def groupOf (j : Nat) : HkGroup :=
  if j < 20 then .voltages else if j < 84 then .outputs else if j < 110 then .watchdogs else .basic

/-- The read of a group. -/
def readGroup : HkGroup → Bytes → Bytes → Bool × Bytes
  | .voltages => getHkVi
  | .outputs => getHkOut
  | .watchdogs => getHkWdt
  | .basic => getHkBasic

/-- Where a group starts in the structure. -/
def groupStart : HkGroup → Nat
  | .voltages => 0
  | .outputs => 20
  | .watchdogs => 84
  | .basic => 110

end Spec

/-- The bytes of a configuration as they are to be sent: 16-bit numbers most significant byte first, single bytes as they are. -/
def Spec.configWire (c : Bytes) : List U8 :=
  (List.range 20).map c
    ++ (List.range 19).flatMap fun i => [(le16 c (20 + 2 * i) >>> 8).setWidth 8, (le16 c (20 + 2 * i)).setWidth 8]

/-- The bytes of the second configuration as they are to be sent. -/
def Spec.config2Wire (c : Bytes) : List U8 :=
  ((List.range 4).flatMap fun i => [(le16 c (2 * i) >>> 8).setWidth 8, (le16 c (2 * i)).setWidth 8])
    ++ (List.range 12).map fun i => c (8 + i)

namespace Gomspace

/-- A change of the bytes from `lo` to `hi` that depends on nothing else. -/
def Local (lo hi : Nat) (f : Bytes → Bytes) : Prop :=
  (∀ m j, ¬ (lo ≤ j ∧ j < hi) → f m j = m j) ∧
    ∀ m m' : Bytes, (∀ j, lo ≤ j ∧ j < hi → m j = m' j) → ∀ j, lo ≤ j ∧ j < hi → f m j = f m' j

theorem Local.comp {lo hi : Nat} {f g : Bytes → Bytes} (hf : Local lo hi f) (hg : Local lo hi g) :
    Local lo hi (fun m => g (f m)) :=
  ⟨fun m j hj => (hg.1 _ _ hj).trans (hf.1 _ _ hj), fun m m' h j hj => hg.2 _ _ (hf.2 _ _ h) j hj⟩

theorem Local.foldl {lo hi : Nat} {α : Type} (l : List α) (f : Bytes → α → Bytes) (h : ∀ a ∈ l, Local lo hi (fun m => f m a)) :
    Local lo hi (fun m => l.foldl f m) := by
  induction l with
  | nil => exact ⟨fun _ _ _ => rfl, fun _ _ h j hj => h j hj⟩
  | cons a l ih =>
    have h1 := h a (by simp)
    have h2 := ih (fun b hb => h b (by simp [hb]))
    exact h1.comp h2

theorem flip16_local (lo hi k : Nat) (h1 : lo ≤ k) (h2 : k + 2 ≤ hi) : Local lo hi (fun m => flip16 m k) := by
  refine ⟨fun m j hj => ?_, fun m m' h j hj => ?_⟩
  · show flip16 m k j = m j
    rw [flip16_apply, if_neg (by omega), if_neg (by omega)]
  · simp only [flip16_apply]
    rw [h (k + 1) (by omega), h k (by omega), h j hj]

theorem flip32_local (lo hi k : Nat) (h1 : lo ≤ k) (h2 : k + 4 ≤ hi) : Local lo hi (fun m => flip32 m k) := by
  refine ⟨fun m j hj => ?_, fun m m' h j hj => ?_⟩
  · show flip32 m k j = m j
    rw [flip32_apply, if_neg (by omega), if_neg (by omega), if_neg (by omega), if_neg (by omega)]
  · simp only [flip32_apply]
    rw [h (k + 3) (by omega), h (k + 2) (by omega), h (k + 1) (by omega), h k (by omega), h j hj]

theorem flip16in32_local (lo hi k : Nat) (h1 : lo ≤ k) (h2 : k + 4 ≤ hi) : Local lo hi (fun m => flip16in32 m k) := by
  refine ⟨fun m j hj => ?_, fun m m' h j hj => ?_⟩
  · show flip16in32 m k j = m j
    rw [flip16in32_apply, if_neg (by omega), if_neg (by omega), if_neg (by omega), if_neg (by omega)]
  · simp only [flip16in32_apply]
    rw [h (k + 1) (by omega), h k (by omega), h j hj]

theorem flipVi_local : Local 0 20 flipVi := by
  show Local 0 20 fun m => flip16 (flip16 (flip16 ([0, 1, 2].foldl
    (fun m i => flip16 (flip16 m (Off.vboost + 2 * i)) (Off.curin + 2 * i)) m) Off.vbatt) Off.cursun) Off.cursys
  refine Local.comp (Local.comp (Local.comp (Local.foldl _ _ ?_) (flip16_local _ _ _ ?_ ?_)) (flip16_local _ _ _ ?_ ?_))
    (flip16_local _ _ _ ?_ ?_)
  · intro a ha
    have : a < 3 := by simp at ha; omega
    exact Local.comp (flip16_local _ _ _ (by simp only [Off.vboost]; omega) (by simp only [Off.vboost]; omega))
      (flip16_local _ _ _ (by simp only [Off.curin]; omega) (by simp only [Off.curin]; omega))
  all_goals decide

theorem flipOut_local : Local 20 84 flipOut := by
  have h1 : Local 20 84 fun m => [0, 1, 2, 3, 4, 5].foldl
      (fun m i => flip16 (flip16 m (Off.curout + 2 * i)) (Off.latchup + 2 * i)) m := by
    refine Local.foldl _ _ ?_
    intro a ha
    have : a < 6 := by simp at ha; omega
    exact Local.comp (flip16_local _ _ _ (by simp only [Off.curout]; omega) (by simp only [Off.curout]; omega))
      (flip16_local _ _ _ (by simp only [Off.latchup]; omega) (by simp only [Off.latchup]; omega))
  have h2 : Local 20 84 fun m => [0, 1, 2, 3, 4, 5, 6, 7].foldl
      (fun m i => flip16 (flip16 m (Off.onDelta + 2 * i)) (Off.offDelta + 2 * i)) m := by
    refine Local.foldl _ _ ?_
    intro a ha
    have : a < 8 := by simp at ha; omega
    exact Local.comp (flip16_local _ _ _ (by simp only [Off.onDelta]; omega) (by simp only [Off.onDelta]; omega))
      (flip16_local _ _ _ (by simp only [Off.offDelta]; omega) (by simp only [Off.offDelta]; omega))
  exact h1.comp h2

theorem flipWdt_local : Local 84 110 flipWdt := by
  refine Local.foldl _ _ ?_
  intro a ha
  have : 84 ≤ a ∧ a + 4 ≤ 110 := by
    simp only [Off.wdtI2c, Off.wdtGnd, Off.ctrI2c, Off.ctrGnd, Off.ctrCsp, List.mem_cons, List.not_mem_nil, or_false] at ha
    omega
  exact flip32_local _ _ _ this.1 this.2

theorem flipBasic_local : Local 110 131 flipBasic := by
  show Local 110 131 fun m => flip16in32 ([0, 1, 2, 3, 4, 5].foldl (fun m i => flip16 m (Off.temp + 2 * i)) m) Off.ctrBoot
  refine Local.comp (Local.foldl _ _ ?_) (flip16in32_local _ _ Off.ctrBoot (by decide) (by decide))
  intro a ha
  have : a < 6 := by simp at ha; omega
  exact flip16_local _ _ _ (by simp only [Off.temp]; omega) (by simp only [Off.temp]; omega)

/-- The exchange of two neighbouring bytes, as an exchange of places. -/
def swapAt (k j : Nat) : Nat := if j = k then k + 1 else if j = k + 1 then k else j

theorem flip16_swap (m : Bytes) (k : Nat) : flip16 m k = fun j => m (swapAt k j) := by
  funext j
  rw [flip16_apply]; unfold swapAt
  split_ifs <;> rfl

theorem flipConfig_local (k : Nat) : Local (k + 20) (k + 58) (fun m => flipConfig m k) := by
  refine Local.comp (Local.foldl _ _ ?_) (Local.foldl _ _ ?_)
  · intro a ha
    have : a < 8 := by simp at ha; omega
    exact Local.comp (flip16_local _ _ _ (by omega) (by omega)) (flip16_local _ _ _ (by omega) (by omega))
  · intro a ha
    have : a < 3 := by simp at ha; omega
    exact flip16_local _ _ _ (by omega) (by omega)

theorem flipConfig2_local (k : Nat) : Local k (k + 8) (fun m => flipConfig2 m k) := by
  refine Local.comp (Local.comp (Local.comp (flip16_local _ _ _ ?_ ?_) (flip16_local _ _ _ ?_ ?_))
    (flip16_local _ _ _ ?_ ?_)) (flip16_local _ _ _ ?_ ?_) <;> omega

theorem copyTo_in (m buf : Bytes) (base size j : Nat) (h : base ≤ j ∧ j < base + size) :
    copyTo m buf base size j = buf (j - base + 2) := by
  unfold copyTo; rw [if_pos h]

theorem copyTo_out (m buf : Bytes) (base size j : Nat) (h : ¬ (base ≤ j ∧ j < base + size)) :
    copyTo m buf base size j = m j := by
  unfold copyTo; rw [if_neg h]

theorem le16_split (c : Bytes) (k : Nat) :
    [(le16 c k >>> 8).setWidth 8, (le16 c k).setWidth 8] = [c (k + 1), c k] := by
  unfold le16; rw [hi8, lo8]

end Gomspace

theorem readGroup_eq (g : HkGroup) (m buf : Bytes) : ∃ f : Bytes → Bytes, ∃ size : Nat,
    (∀ j, groupStart g ≤ j ∧ j < groupStart g + size ↔ (groupOf j = g ∧ j < 131)) ∧
    Local (groupStart g) (groupStart g + size) f ∧
    readGroup g m buf = if buf 1 ≠ 0 then (false, m) else (true, f (copyTo m buf (groupStart g) size)) := by
  cases g with
  | voltages =>
    refine ⟨flipVi, 20, fun j => ?_, flipVi_local, rfl⟩
    simp only [groupStart, groupOf]; split_ifs <;> simp <;> omega
  | outputs =>
    refine ⟨flipOut, 64, fun j => ?_, flipOut_local, rfl⟩
    simp only [groupStart, groupOf]; split_ifs <;> simp <;> omega
  | watchdogs =>
    refine ⟨flipWdt, 26, fun j => ?_, flipWdt_local, rfl⟩
    simp only [groupStart, groupOf]; split_ifs <;> simp <;> omega
  | basic =>
    refine ⟨flipBasic, 21, fun j => ?_, flipBasic_local, rfl⟩
    simp only [groupStart, groupOf]; split_ifs <;> simp <;> omega

/-- **C111.** Reading one group of the housekeeping data succeeds exactly if the supply reports no error, and leaves every byte
outside the group alone; if it fails it changes nothing. -/
theorem C111_other_groups (g : HkGroup) (m buf : Bytes) :
    ((readGroup g m buf).1 = true ↔ buf 1 = 0) ∧
      (∀ j, ¬ (groupOf j = g ∧ j < 131) → (readGroup g m buf).2 j = m j) ∧
        (buf 1 ≠ 0 → (readGroup g m buf).2 = m) := by
  obtain ⟨f, size, hr, hf, he⟩ := readGroup_eq g m buf
  rw [he]
  by_cases hb : buf 1 = 0
  · rw [if_neg (by simpa using hb)]
    refine ⟨by simp [hb], fun j hj => ?_, fun h => absurd hb h⟩
    have hj' := fun h => hj ((hr j).1 h)
    exact (hf.1 _ _ hj').trans (copyTo_out _ _ _ _ _ hj')
  · rw [if_pos hb]
    exact ⟨by simpa using hb, fun _ _ => rfl, fun _ => rfl⟩

/-- **C111.** A group read alone says the same as the group within the whole housekeeping data: if the supply sends the same bytes,
the same values are stored. -/
theorem C111_same_as_whole (g : HkGroup) (m m' buf full : Bytes) (hb : buf 1 = 0) (hf : GoodAnswer full)
    (h : ∀ j, groupOf j = g ∧ j < 131 → buf (j - groupStart g + 2) = full (j + 2)) (j : Nat) (hj : groupOf j = g) (hj' : j < 131) :
    (readGroup g m buf).2 j = (getHk m' full).2 j := by
  rw [getHk_good _ _ hf]
  unfold groupOf at hj
  cases g with
  | voltages =>
    have hr : 0 ≤ j ∧ j < 20 := by split_ifs at hj <;> omega
    have e : (readGroup .voltages m buf).2 = flipVi (copyTo m buf 0 20) := by simp [readGroup, getHkVi, hb]
    rw [e, flipBasic_local.1 _ _ (by omega), flipWdt_local.1 _ _ (by omega), flipOut_local.1 _ _ (by omega)]
    refine flipVi_local.2 _ _ (fun x hx => ?_) j hr
    rw [copyTo_in _ _ _ _ _ (by omega), if_pos (by omega)]
    exact h x ⟨by unfold groupOf; rw [if_pos hx.2], by omega⟩
  | outputs =>
    have hr : 20 ≤ j ∧ j < 84 := by split_ifs at hj <;> omega
    have e : (readGroup .outputs m buf).2 = flipOut (copyTo m buf 20 64) := by simp [readGroup, getHkOut, hb]
    rw [e, flipBasic_local.1 _ _ (by omega), flipWdt_local.1 _ _ (by omega)]
    refine flipOut_local.2 _ _ (fun x hx => ?_) j hr
    rw [copyTo_in _ _ _ _ _ (by omega), flipVi_local.1 _ _ (by omega), if_pos (by omega)]
    exact h x ⟨by unfold groupOf; rw [if_neg (by omega), if_pos (by omega)], by omega⟩
  | watchdogs =>
    have hr : 84 ≤ j ∧ j < 110 := by split_ifs at hj <;> omega
    have e : (readGroup .watchdogs m buf).2 = flipWdt (copyTo m buf 84 26) := by simp [readGroup, getHkWdt, hb]
    rw [e, flipBasic_local.1 _ _ (by omega)]
    refine flipWdt_local.2 _ _ (fun x hx => ?_) j hr
    rw [copyTo_in _ _ _ _ _ (by omega), flipOut_local.1 _ _ (by omega), flipVi_local.1 _ _ (by omega), if_pos (by omega)]
    exact h x ⟨by unfold groupOf; rw [if_neg (by omega), if_neg (by omega), if_pos (by omega)], by omega⟩
  | basic =>
    have hr : 110 ≤ j ∧ j < 131 := by split_ifs at hj <;> omega
    have e : (readGroup .basic m buf).2 = flipBasic (copyTo m buf 110 21) := by simp [readGroup, getHkBasic, hb]
    rw [e]
    refine flipBasic_local.2 _ _ (fun x hx => ?_) j hr
    rw [copyTo_in _ _ _ _ _ (by omega), flipWdt_local.1 _ _ (by omega), flipOut_local.1 _ _ (by omega),
      flipVi_local.1 _ _ (by omega), if_pos (by omega)]
    exact h x ⟨by unfold groupOf; rw [if_neg (by omega), if_neg (by omega), if_neg (by omega)], by omega⟩

example : groupOf 6 = .voltages ∧ le16 (readGroup .voltages (fun _ => 0) fun j => if j = 8 then 0x1D else if j = 9 then 0x4C else 0).2 6
    = 7500 := by decide

/-- **C111, counterexample.** Unlike the read of the whole, the read of a group does not look at the port the answer names: the
answer to another command is taken for the group. -/
theorem C111_counterexample_port (g : HkGroup) (m buf : Bytes) (port : U8) :
    readGroup g m (put buf 0 port) = readGroup g m buf := by
  have h1 : put buf 0 port 1 = buf 1 := by simp [put]
  have hc : ∀ b s, copyTo m (put buf 0 port) b s = copyTo m buf b s := by
    intro b s; funext j; unfold copyTo put
    rw [if_neg (show ¬ j - b + 2 = 0 by omega)]
  cases g <;> simp [readGroup, getHkVi, getHkOut, getHkWdt, getHkBasic, h1, hc]

/-- **C111.** A configuration is sent as it is to be: its command, then single bytes as they are and 16-bit numbers most significant
byte first. -/
theorem C111_config_sent (c : Bytes) : configSet c = 0x13 :: configWire c := by
  have e : bytesOf (flipConfig c 0) 58 = configWire c := by
    unfold bytesOf configWire flipConfig
    simp only [le16_split, List.foldl_cons, List.foldl_nil, flip16_swap]
    rfl
  rw [configSet, e]

/-- **C111.** The second configuration is sent as it is to be, and committed after it was accepted; success is reported only if both
commands were accepted. -/
theorem C111_config2_sent (c : Bytes) (ok1 ok2 : Bool) :
    (config2Set c ok1 ok2).1.head? = some (0x17 :: config2Wire c) ∧
      (config2Set c ok1 ok2).1.tail = (if ok1 then [[0x15, 0x02]] else []) ∧
        ((config2Set c ok1 ok2).2 = true ↔ ok1 = true ∧ ok2 = true) := by
  have e : bytesOf (flipConfig2 c 0) 20 = config2Wire c := by
    unfold bytesOf config2Wire flipConfig2
    simp only [le16_split, flip16_swap]
    rfl
  cases ok1 <;> simp [config2Set, e, config2Confirm]

/-- **C111, counterexample.** Restoring the defaults of the second configuration sends nothing but the command that commits a new
configuration. -/
theorem C111_counterexample_restore (c : Bytes) (ok1 ok2 : Bool) :
    ∀ cmd ∈ (restoreDefaultConfig2 ok1 ok2).1, some cmd = (config2Set c true true).1.getLast? := by
  intro cmd hc
  cases ok1 <;> simp [restoreDefaultConfig2, config2Set, config2Confirm] at hc ⊢ <;> exact hc

/-- C111. Switching the heater succeeds, for the caller, exactly if the power supply answers on the port without an error. -/
theorem C111_heater_partial (mode : Bool) (buf : Bytes) : setHeaterOk mode buf = true ↔ buf 0 = 0x0D ∧ buf 1 = 0 := by
  have h : ¬ ((1 : U8) = 1 ||| 2) := by decide
  unfold setHeaterOk
  by_cases h0 : buf 0 = 0x0D <;> by_cases h1 : buf 1 = 0 <;> simp [h0, h1, h]

/-- C111. So it also succeeds if the power supply reports the heater in the other state: the comparison the driver means to make is
never made. The function that reads the heater's state tells the two answers apart. -/
theorem C111_counterexample_heater (mode : Bool) (buf : Bytes) (h0 : buf 0 = 0x0D) (h1 : buf 1 = 0)
    (h3 : buf 3 = if mode then 0 else 1) :
    setHeaterOk mode buf = true ∧ getHeater buf = if mode then 0 else 1 := by
  refine ⟨(C111_heater_partial mode buf).mpr ⟨h0, h1⟩, ?_⟩
  simp [getHeater, h0, h1, h3]

-- switched on, and reported off
example : setHeaterOk true ([0x0D, 0, 0, 0].getD · 0) = true := by decide

/-- **C111, counterexample.** Reading the configuration back destroys memory and does not deliver it. `mem` is the memory, `A` the
address of the member that points to the stored configuration and `p` the pointer made of the first four bytes of the answer.
Unless the conversion of byte order happens to strike there, the member, the one after it, and the fifty bytes behind the object
hold the answer afterwards, and the stored configuration, wherever it lies, is what it was. -/
theorem C111_counterexample_config (mem : Bytes) (A : Nat) (buf : Bytes) (hb : buf 1 = 0) (p : Nat)
    (hp : p = (((buf 5 ++ buf 4) ++ (buf 3 ++ buf 2) : U32)).toNat) :
    (configGet mem A buf).1 = true ∧
      (∀ i < 58, ¬ (p + 20 ≤ A + i ∧ A + i < p + 58) → (configGet mem A buf).2 (A + i) = buf (i + 2)) ∧
        ∀ j, ¬ (A ≤ j ∧ j < A + 58) → ¬ (p + 20 ≤ j ∧ j < p + 58) → (configGet mem A buf).2 j = mem j := by
  have hq : (le32 (copyTo mem buf A 58) A).toNat = p := by
    rw [hp]; unfold le32
    rw [copyTo_in _ _ _ _ _ (by omega), copyTo_in _ _ _ _ _ (by omega), copyTo_in _ _ _ _ _ (by omega),
      copyTo_in _ _ _ _ _ (by omega)]
    simp
  have e : configGet mem A buf = (true, flipConfig (copyTo mem buf A 58) p) := by
    simp [configGet, hb, hq]
  rw [e]
  refine ⟨rfl, fun i hi hn => ?_, fun j h1 h2 => ?_⟩
  · show flipConfig _ p (A + i) = _
    refine ((flipConfig_local p).1 _ _ hn).trans ?_
    rw [copyTo_in _ _ _ _ _ (by omega)]
    congr 1; omega
  · show flipConfig _ p j = _
    exact ((flipConfig_local p).1 _ _ h2).trans (copyTo_out _ _ _ _ _ h1)

example : ∃ (mem : Bytes) (A : Nat) (buf : Bytes), buf 1 = 0 ∧ (configGet mem A buf).2 (A + 8) = 7 ∧ mem (A + 8) = 99 :=
  ⟨fun _ => 99, 1000, fun j => if j = 1 then 0 else 7, rfl, by
    refine ((C111_counterexample_config _ _ _ rfl _ rfl).2.1 8 (by omega) (by decide)).trans (by decide), rfl⟩

/-- **C111, counterexample.** The same holds for the second configuration: sixteen bytes behind the object are overwritten. -/
theorem C111_counterexample_config2 (mem : Bytes) (A : Nat) (buf : Bytes) (hb : buf 1 = 0) (p : Nat)
    (hp : p = (((buf 5 ++ buf 4) ++ (buf 3 ++ buf 2) : U32)).toNat) :
    (config2Get mem A buf).1 = true ∧
      (∀ i < 20, ¬ (p ≤ A + i ∧ A + i < p + 8) → (config2Get mem A buf).2 (A + i) = buf (i + 2)) ∧
        ∀ j, ¬ (A ≤ j ∧ j < A + 20) → ¬ (p ≤ j ∧ j < p + 8) → (config2Get mem A buf).2 j = mem j := by
  have hq : (le32 (copyTo mem buf A 20) A).toNat = p := by
    rw [hp]; unfold le32
    rw [copyTo_in _ _ _ _ _ (by omega), copyTo_in _ _ _ _ _ (by omega), copyTo_in _ _ _ _ _ (by omega),
      copyTo_in _ _ _ _ _ (by omega)]
    simp
  have e : config2Get mem A buf = (true, flipConfig2 (copyTo mem buf A 20) p) := by
    simp [config2Get, hb, hq]
  rw [e]
  refine ⟨rfl, fun i hi hn => ?_, fun j h1 h2 => ?_⟩
  · show flipConfig2 _ p (A + i) = _
    refine ((flipConfig2_local p).1 _ _ hn).trans ?_
    rw [copyTo_in _ _ _ _ _ (by omega)]
    congr 1; omega
  · show flipConfig2 _ p j = _
    exact ((flipConfig2_local p).1 _ _ h2).trans (copyTo_out _ _ _ _ _ h1)

example : ∃ (mem : Bytes) (A : Nat) (buf : Bytes), buf 1 = 0 ∧ (config2Get mem A buf).2 (A + 4) = 7 ∧ mem (A + 4) = 99 :=
  ⟨fun _ => 99, 1000, fun j => if j = 1 then 0 else 7, rfl, by
    refine ((C111_counterexample_config2 _ _ _ rfl _ rfl).2.1 4 (by omega) (by decide)).trans (by decide), rfl⟩

/-- **C111, partial.** A configuration is not touched by a read the supply reports an error for. Missing: a read that succeeds. -/
theorem C111_config_refused_partial (mem : Bytes) (A : Nat) (buf : Bytes) (hb : buf 1 ≠ 0) :
    configGet mem A buf = (false, mem) ∧ config2Get mem A buf = (false, mem) := by
  unfold configGet config2Get
  rw [if_pos hb, if_pos hb]
  exact ⟨rfl, rfl⟩

end PAN
