import Verif.Model.Power
import Verif.Props.Fault
import Mathlib.Tactic.IntervalCases
import Mathlib.Tactic.SplitIfs
/-!
C46, C47, C65–C70: the power supply control task.
-/
namespace PAN
open Gomspace

set_option linter.unnecessarySeqFocus false

/-! ### Specification -/
namespace Spec

/-- A 16-bit number stored most significant byte first. -/
def be16 (m : Bytes) (k : Nat) : U16 := m k ++ m (k + 1)

/-- A 32-bit number stored most significant byte first. -/
def be32 (m : Bytes) (k : Nat) : U32 := (m k ++ m (k + 1)) ++ (m (k + 2) ++ m (k + 3))

/-- A housekeeping answer the supply marks as good: port number, then error code zero. -/
def GoodAnswer (buf : Bytes) : Prop := buf 0 = 0x08 ∧ buf 1 = 0

/-- Start of the housekeeping data in the answer. -/
def data (buf : Bytes) (k : Nat) : U8 := buf (k + 2)

/-- The commands sent to one port of the supply (the port is the first byte of a command). -/
def sent (port : U8) (out : List (List U8)) : List (List U8) :=
  out.filter (fun c => c.head? == some port)

/-- What a command does to the six switched outputs: port 0x0A switches output `ch` at once when the delay is
zero; other commands do not concern the outputs (resets of the whole supply are excluded where this is used). -/
def switch (o : Nat → Bool) (c : List U8) : Nat → Bool :=
  match c with
  | [p, ch, v, d1, d0] => if p = 0x0A ∧ d1 = 0 ∧ d0 = 0 then fun j => if j = ch.toNat then v == 1 else o j else o
  | _ => o

/-- The outputs after a list of commands. -/
def switchAll (o : Nat → Bool) (out : List (List U8)) : Nat → Bool := out.foldl switch o

/-- A run of consecutive control cycles seen by the power supply task. `g n` is the state at the start of the
task in cycle `c0 + n`, `g' n` at its end, `i n` what the supply answered, `out n` what it was sent, and `o n`
the true state of the outputs before that cycle's commands. Other tasks and the ground may do what they like
between two runs of the task, as far as it does not concern the power cycling of output `k`. -/
structure PowerHistory (k P c0 : Nat) where
  g : Nat → Gs
  g' : Nat → Gs
  i : Nat → GsIn
  out : Nat → List (List U8)
  o : Nat → Nat → Bool
  /-- the task ran -/
  ran : ∀ n, (g n).execute (BitVec.ofNat 32 (c0 + n)) (i n) = some (g' n, out n)
  /-- the supply obeys -/
  obey : ∀ n, o (n + 1) = switchAll (o n) (out n)
  /-- the supply answers truthfully about output `k` -/
  good : ∀ n, GoodAnswer (i n).hk
  truth : ∀ n, data (i n).hk (32 + k) ≠ 0 ↔ o n k = true
  /-- nobody else interferes with the power cycling of output `k` -/
  quietCmd : ∀ n, (g (n + 1)).pc k = (g' n).pc k
  quietOut : ∀ n, (g (n + 1)).output k = (g' n).output k
  period : ∀ n, (g n).period = BitVec.ofNat 32 P
  piksi : k = 0 → ∀ n, (g n).piksiOff = false

/-- A run of consecutive control cycles seen by the battery check, from construction on (`c0` is the first
cycle). Between two runs of the task the fault may be polled by the fault handler; there are no ground commands
to the fault and the threshold is `T`. -/
structure BatteryHistory (T : U32) (c0 : Nat) where
  g : Nat → Gs
  g' : Nat → Gs
  i : Nat → GsIn
  out : Nat → List (List U8)
  ran : ∀ n, (g n).execute (BitVec.ofNat 32 (c0 + n)) (i n) = some (g' n, out n)
  start : ∃ hk, (g 0).lowBatt = (Gs.init hk).lowBatt
  polled : ∀ n, (g (n + 1)).lowBatt = (g' n).lowBatt ∨ (g (n + 1)).lowBatt = (g' n).lowBatt.poll
  kept : ∀ n, (g (n + 1)).vbatt = (g' n).vbatt
  keptHk : ∀ n, (g (n + 1)).hk = (g' n).hk
  threshold : ∀ n, (g n).threshold = T

end Spec
open Spec

/-! ### Housekeeping -/
namespace Gomspace

theorem put16_apply (m : Bytes) (k : Nat) (v : U16) (j : Nat) :
    put16 m k v j = if j = k + 1 then (v >>> 8).setWidth 8 else if j = k then v.setWidth 8 else m j := by
  simp only [put16, put]

theorem toNat8 (a b : U8) : ((a ++ b : U16)).toNat = a.toNat * 256 + b.toNat := by
  rw [BitVec.toNat_append, ← Nat.shiftLeft_add_eq_or_of_lt b.isLt, Nat.shiftLeft_eq]

theorem toNat16 (a b : U16) : ((a ++ b : U32)).toNat = a.toNat * 65536 + b.toNat := by
  rw [BitVec.toNat_append, ← Nat.shiftLeft_add_eq_or_of_lt b.isLt, Nat.shiftLeft_eq]

theorem lo8 (a b : U8) : (a ++ b : U16).setWidth 8 = b := by
  apply BitVec.eq_of_toNat_eq
  rw [BitVec.toNat_setWidth, toNat8]; have := b.isLt; omega

theorem hi8 (a b : U8) : ((a ++ b : U16) >>> 8).setWidth 8 = a := by
  apply BitVec.eq_of_toNat_eq
  rw [BitVec.toNat_setWidth, BitVec.toNat_ushiftRight, toNat8, Nat.shiftRight_eq_div_pow]
  have := b.isLt; have := a.isLt; omega

theorem lo16 (a b : U16) : (a ++ b : U32).setWidth 16 = b := by
  apply BitVec.eq_of_toNat_eq
  rw [BitVec.toNat_setWidth, toNat16]; have := b.isLt; omega

theorem hi16 (a b : U16) : ((a ++ b : U32) >>> 16).setWidth 16 = a := by
  apply BitVec.eq_of_toNat_eq
  rw [BitVec.toNat_setWidth, BitVec.toNat_ushiftRight, toNat16, Nat.shiftRight_eq_div_pow]
  have := b.isLt; have := a.isLt; omega

theorem bswap16_append (a b : U8) : bswap16 (a ++ b) = b ++ a := by
  unfold bswap16; rw [lo8, hi8]

theorem bytes_of (v : U16) : v = (((v >>> 8).setWidth 8 : U8) ++ (v.setWidth 8 : U8) : U16) := by
  apply BitVec.eq_of_toNat_eq
  rw [toNat8, BitVec.toNat_setWidth, BitVec.toNat_setWidth, BitVec.toNat_ushiftRight, Nat.shiftRight_eq_div_pow]
  have := v.isLt; omega

theorem setWidth_zero_append (v : U16) : v.setWidth 32 = ((0 : U16) ++ v : U32) := by
  apply BitVec.eq_of_toNat_eq
  rw [toNat16, BitVec.toNat_setWidth]
  have := v.isLt
  rw [show (0 : U16).toNat = 0 from rfl]; omega

theorem flip16_apply (m : Bytes) (k j : Nat) :
    flip16 m k j = if j = k then m (k + 1) else if j = k + 1 then m k else m j := by
  unfold flip16 le16
  rw [bswap16_append, put16_apply, lo8, hi8]
  split_ifs <;> first | rfl | omega

theorem put32_apply (m : Bytes) (k : Nat) (a b c d : U8) (j : Nat) :
    put32 m k ((a ++ b) ++ (c ++ d)) j = if j = k then d else if j = k + 1 then c else if j = k + 2 then b
      else if j = k + 3 then a else m j := by
  unfold put32
  rw [lo16, hi16, put16_apply, put16_apply, lo8, hi8, lo8, hi8]
  split_ifs <;> first | rfl | omega

theorem flip32_apply (m : Bytes) (k j : Nat) :
    flip32 m k j = if j = k then m (k + 3) else if j = k + 1 then m (k + 2) else if j = k + 2 then m (k + 1)
      else if j = k + 3 then m k else m j := by
  unfold flip32 le32 bswap32
  rw [lo16, hi16, bswap16_append, bswap16_append, put32_apply]

theorem flip16in32_apply (m : Bytes) (k j : Nat) :
    flip16in32 m k j = if j = k then m (k + 1) else if j = k + 1 then m k else if j = k + 2 then 0
      else if j = k + 3 then 0 else m j := by
  unfold flip16in32 le32
  rw [lo16, bswap16_append, setWidth_zero_append, show (0 : U16) = (0 : U8) ++ (0 : U8) from rfl, put32_apply]

theorem getHk_good (m buf : Bytes) (h : GoodAnswer buf) (j : Nat) :
    (getHk m buf).2 j = flipBasic (flipWdt (flipOut (flipVi fun j => if j < 131 then data buf j else m j))) j := by
  unfold getHk
  rw [if_neg (by rintro (h' | h'); exact h' h.1; exact h' h.2)]
  rfl

theorem getHk_bad (m buf : Bytes) (h : ¬ GoodAnswer buf) : getHk m buf = (false, m) := by
  unfold getHk
  rw [if_pos]
  by_contra hc
  push Not at hc
  exact h hc

end Gomspace

namespace Gs

theorem powercycle_hk (g : Gs) (k : Nat) : (g.powercycle k).1.hk = g.hk ∧ (g.powercycle k).1.pub = g.pub
    ∧ (g.powercycle k).1.piksiOff = g.piksiOff ∧ (g.powercycle k).1.lowBatt = g.lowBatt
    ∧ (g.powercycle k).1.counterReset = g.counterReset ∧ (g.powercycle k).1.gsReset = g.gsReset
    ∧ (g.powercycle k).1.gsReboot = g.gsReboot ∧ (g.powercycle k).1.heaterCmd = g.heaterCmd := by
  unfold powercycle; split_ifs <;> simp

/-- The commands of `power_cycle_outputs` for a list of outputs. -/
def cycleCmds (g : Gs) (l : List Nat) : List (List U8) :=
  l.flatMap fun k => if g.pc k then [setSingleOutput (BitVec.ofNat 8 k) (if g.output k then 0 else 1) 0] else []

theorem foldl_powercycle (l : List Nat) (hl : l.Nodup) (r : Gs × List (List U8)) :
    l.foldl (fun r k => ((r.1.powercycle k).1, r.2 ++ (r.1.powercycle k).2)) r
      = ({ r.1 with pc := fun j => if j ∈ l ∧ r.1.output j = false then false else r.1.pc j },
          r.2 ++ r.1.cycleCmds l) := by
  induction l generalizing r with
  | nil => simp [cycleCmds]
  | cons k l ih =>
    obtain ⟨hk, hl⟩ := List.nodup_cons.1 hl
    rw [List.foldl_cons, ih hl]
    obtain ⟨g, c⟩ := r
    simp only [powercycle]
    split_ifs with h1 h2
    · simp only [cycleCmds, List.flatMap_cons, h1, h2, if_true, Prod.mk.injEq, List.append_assoc, and_true]
      congr 1
      funext j
      by_cases hj : j = k
      · subst hj; simp [hk, h2]
      · simp [hj]
    · have h2' : g.output k = false := by simpa using h2
      have e : ∀ j ∈ l, (if j = k then false else g.pc j) = g.pc j := by
        intro j hj; rw [if_neg]; rintro rfl; exact hk hj
      simp only [cycleCmds, List.flatMap_cons, h1, h2', if_true, Prod.mk.injEq, List.append_assoc]
      refine ⟨?_, ?_⟩
      · congr 1
        funext j
        simp only [output]
        by_cases hj : j = k
        · subst hj; simp [hk, output] at h2' ⊢; simp [h2']
        · simp [hj]
      · congr 2
        have : ∀ l' : List Nat, (∀ j ∈ l', (if j = k then false else g.pc j) = g.pc j) →
            (l'.flatMap fun j => if (if j = k then false else g.pc j) then
              [setSingleOutput (BitVec.ofNat 8 j) (if g.output j then 0 else 1) 0] else [])
            = l'.flatMap fun j => if g.pc j then
              [setSingleOutput (BitVec.ofNat 8 j) (if g.output j then 0 else 1) 0] else [] := by
          intro l' h'
          induction l' with
          | nil => rfl
          | cons a t ih =>
            rw [List.flatMap_cons, List.flatMap_cons, h' a List.mem_cons_self,
              ih (fun j hj => h' j (List.mem_cons_of_mem _ hj))]
        exact this l e
    · have h1' : g.pc k = false := by simpa using h1
      simp only [cycleCmds, List.flatMap_cons, h1', Prod.mk.injEq, List.append_nil]
      refine ⟨?_, by simp⟩
      congr 1
      funext j
      by_cases hj : j = k
      · subst hj; simp [h1']
      · simp [hj]

/-- The outputs looked at by `power_cycle_outputs`. -/
def channels (g : Gs) : List Nat := if g.piksiOff then [1, 2, 3, 4, 5] else [0, 1, 2, 3, 4, 5]

theorem powerCycleOutputs_eq (g : Gs) : g.powerCycleOutputs
    = ({ g with pc := fun j => if j ∈ g.channels ∧ g.output j = false then false else g.pc j },
        g.cycleCmds g.channels) := by
  unfold powerCycleOutputs channels
  by_cases h : g.piksiOff
  · rw [if_neg (by simp [h]), if_pos h, foldl_powercycle _ (by decide)]; rfl
  · rw [if_pos (by simp [h]), if_neg h]
    have := foldl_powercycle [0, 1, 2, 3, 4, 5] (by decide) (g, [])
    rw [List.foldl_cons] at this
    exact this

/-- The outputs power cycled in this cycle. -/
def dueChannels (p : Gs) (cc : U32) : List Nat := if cc % p.period = 0 then p.channels else []

theorem execute_some {g g' : Gs} {cc : U32} {i : GsIn} {out : List (List U8)}
    (h : g.execute cc i = some (g', out)) :
    let p := g.prepare cc i
    p.period ≠ 0 ∧
    g' = { p with
      pc := fun j => if j ∈ p.dueChannels cc ∧ p.output j = false then false else p.pc j
      counterReset := false, gsReset := false, gsReboot := false
      pub := p.hk, heaterF := getHeater i.h2 == 1 } ∧
    out = p.cycleCmds (p.dueChannels cc) ++ p.pvCommands ++ p.pptCommands ++ p.heaterCommands i ++ p.oneShots
      ++ (if p.piksiOff then [setSingleOutput 0 0 0] else []) := by
  intro p
  unfold execute at h
  simp only at h
  change (if p.period = 0 then none else _) = _ at h
  by_cases hp : p.period = 0
  · rw [if_pos hp] at h; cases h
  rw [if_neg hp] at h
  by_cases hc : cc % p.period = 0
  · rw [if_pos hc] at h
    simp only [Option.some.injEq, Prod.mk.injEq] at h
    obtain ⟨h1, h2⟩ := h
    rw [show g.prepare cc i = p from rfl, powerCycleOutputs_eq] at h1 h2
    refine ⟨hp, ?_, ?_⟩
    · rw [← h1, dueChannels, if_pos hc]; rfl
    · rw [← h2, dueChannels, if_pos hc]; rfl
  · rw [if_neg hc] at h
    simp only [Option.some.injEq, Prod.mk.injEq] at h
    obtain ⟨h1, h2⟩ := h
    refine ⟨hp, ?_, ?_⟩
    · rw [← h1, dueChannels, if_neg hc]
      simp only [List.not_mem_nil, false_and, if_false]; rfl
    · rw [← h2, dueChannels, if_neg hc]; rfl

theorem prepare_period (g : Gs) (cc : U32) (i : GsIn) : (g.prepare cc i).period = g.period := by
  unfold prepare firstCycle; dsimp only; split_ifs <;> rfl

theorem prepare_piksiOff (g : Gs) (cc : U32) (i : GsIn) : (g.prepare cc i).piksiOff = g.piksiOff := by
  unfold prepare firstCycle; dsimp only; split_ifs <;> rfl

theorem prepare_hk (g : Gs) (cc : U32) (i : GsIn) : (g.prepare cc i).hk = (getHk g.hk i.hk).2 := by
  unfold prepare firstCycle; dsimp only; split_ifs <;> rfl

theorem prepare_pub (g : Gs) (cc : U32) (i : GsIn) : (g.prepare cc i).pub = g.pub := by
  unfold prepare firstCycle; dsimp only; split_ifs <;> rfl

theorem prepare_output (g : Gs) (cc : U32) (i : GsIn) (k : Nat) : (g.prepare cc i).output k = g.output k := by
  unfold output; rw [prepare_pub]

theorem prepare_pc (g : Gs) (cc : U32) (i : GsIn) (hc : cc ≠ 1) : (g.prepare cc i).pc = g.pc := by
  unfold prepare; dsimp only; rw [if_neg hc]

theorem execute_pub {g g' : Gs} {cc : U32} {i : GsIn} {out : List (List U8)}
    (h : g.execute cc i = some (g', out)) : g'.pub = (getHk g.hk i.hk).2 := by
  obtain ⟨-, h1, -⟩ := execute_some h
  rw [h1]; exact prepare_hk g cc i

theorem pub_good {g g' : Gs} {cc : U32} {i : GsIn} {out : List (List U8)}
    (h : g.execute cc i = some (g', out)) (ok : GoodAnswer i.hk) (j : Nat) : g'.pub j
      = flipBasic (flipWdt (flipOut (flipVi fun j => if j < 131 then data i.hk j else g.hk j))) j := by
  rw [execute_pub h]; exact getHk_good _ _ ok j

end Gs

open Gs in
/-- **C65 (part).** After every cycle in which the supply gave a good housekeeping answer, the published
voltages, currents, watchdog values, temperatures and modes are the numbers in that answer, which the supply
sends most significant byte first. (The boot counter is not: `C65_counterexample_boot`.) -/
theorem C65_housekeeping_partial {g g' : Gs} {cc : U32} {i : GsIn} {out : List (List U8)}
    (h : g.execute cc i = some (g', out)) (ok : GoodAnswer i.hk) :
    (∀ k < 3, g'.vboost k = (be16 (data i.hk) (2 * k)).setWidth 32)
    ∧ g'.vbatt = (be16 (data i.hk) 6).setWidth 32
    ∧ (∀ k < 3, g'.curin k = (be16 (data i.hk) (8 + 2 * k)).setWidth 32)
    ∧ g'.cursun = (be16 (data i.hk) 14).setWidth 32
    ∧ g'.cursys = (be16 (data i.hk) 16).setWidth 32
    ∧ (∀ k < 6, g'.curout k = (be16 (data i.hk) (20 + 2 * k)).setWidth 32)
    ∧ (∀ k < 6, g'.output k = (data i.hk (32 + k) != 0))
    ∧ g'.wdtI2c = be32 (data i.hk) 84
    ∧ g'.ctrI2c = be32 (data i.hk) 94
    ∧ (∀ k < 4, g'.temp k = (be16 (data i.hk) (114 + 2 * k)).toInt)
    ∧ g'.bootcause = data i.hk 126 ∧ g'.battmode = data i.hk 127 ∧ g'.pptmode = data i.hk 128 := by
  have e := pub_good h ok
  simp only [vboost, vbatt, curin, cursun, cursys, curout, output, wdtI2c, ctrI2c, temp, bootcause, battmode,
    pptmode, le16, le32, be16, be32, e, flipBasic, flipWdt, flipOut, flipVi, List.foldl_cons, List.foldl_nil,
    Off.vboost, Off.vbatt, Off.curin, Off.cursun, Off.cursys, Off.curout, Off.output, Off.onDelta,
    Off.offDelta, Off.latchup, Off.wdtI2c, Off.wdtGnd, Off.ctrI2c, Off.ctrGnd, Off.ctrCsp, Off.ctrBoot, Off.temp,
    Off.bootcause, Off.battmode, Off.pptmode]
  refine ⟨?_, ?_, ?_, ?_, ?_, ?_, ?_, ?_, ?_, ?_, ?_, ?_, ?_⟩
  · intro k hk; interval_cases k <;> simp [flip16_apply, flip32_apply, flip16in32_apply]
  · simp [flip16_apply, flip32_apply, flip16in32_apply]
  · intro k hk; interval_cases k <;> simp [flip16_apply, flip32_apply, flip16in32_apply]
  · simp [flip16_apply, flip32_apply, flip16in32_apply]
  · simp [flip16_apply, flip32_apply, flip16in32_apply]
  · intro k hk; interval_cases k <;> simp [flip16_apply, flip32_apply, flip16in32_apply]
  · intro k hk; interval_cases k <;> simp [flip16_apply, flip32_apply, flip16in32_apply]
  · simp [flip16_apply, flip32_apply, flip16in32_apply]
  · simp [flip16_apply, flip32_apply, flip16in32_apply]
  · intro k hk; interval_cases k <;> simp [flip16_apply, flip32_apply, flip16in32_apply]
  · simp [flip16_apply, flip32_apply, flip16in32_apply]
  · simp [flip16_apply, flip32_apply, flip16in32_apply]
  · simp [flip16_apply, flip32_apply, flip16in32_apply]

open Gs in
/-- **C65 is false for the boot counter.** Whatever counter the supply sends, only its upper half is published:
the published number of boots stays zero until the 65536th boot. -/
theorem C65_counterexample_boot {g g' : Gs} {cc : U32} {i : GsIn} {out : List (List U8)}
    (h : g.execute cc i = some (g', out)) (ok : GoodAnswer i.hk) :
    g'.ctrBoot.toNat = (be32 (data i.hk) 110).toNat / 65536 := by
  have e := pub_good h ok
  have : g'.ctrBoot = ((0 : U16) ++ (be16 (data i.hk) 110)) := by
    simp only [ctrBoot, le32, be16, e, flipBasic, flipWdt, flipOut, flipVi, List.foldl_cons, List.foldl_nil,
    Off.vboost, Off.vbatt, Off.curin, Off.cursun, Off.cursys, Off.curout, Off.onDelta, Off.offDelta, Off.latchup,
    Off.wdtI2c, Off.wdtGnd, Off.ctrI2c, Off.ctrGnd, Off.ctrCsp, Off.ctrBoot, Off.temp]
    simp [flip16_apply, flip32_apply, flip16in32_apply]
  rw [this, toNat16, be32, toNat16]
  have := (data i.hk (110 + 2) ++ data i.hk (110 + 3) : U16).isLt
  rw [show (0 : U16).toNat = 0 from rfl]
  unfold be16
  omega

open Gs in
/-- **C65 (part).** When the answer is not good, the published values are those of the structure as it was. -/
theorem C65_failed_read {g g' : Gs} {cc : U32} {i : GsIn} {out : List (List U8)}
    (h : g.execute cc i = some (g', out)) (bad : ¬ GoodAnswer i.hk) : g'.pub = g.hk := by
  rw [execute_pub h, getHk_bad _ _ bad]

/-! ### Byte order -/

/-- **C47 is false.** `set_pv_volt` sends each voltage least significant byte first, for all voltages. -/
theorem C47_counterexample_order (a1 b1 a2 b2 a3 b3 : U8) :
    setPvVolt (a1 ++ b1) (a2 ++ b2) (a3 ++ b3) = [0x0B, b1, a1, b2, a2, b3, a3] := by
  unfold setPvVolt
  simp only [bswap16_append, lo8, hi8]

/-- **C47 is false**, on the default voltages: 4000 mV is sent as the bytes of 40975 mV. -/
theorem C47_counterexample_default :
    setPvVolt 4000 4000 4000 = [0x0B, 0xA0, 0x0F, 0xA0, 0x0F, 0xA0, 0x0F]
      ∧ be16 (fun k => [0x0B, 0xA0, 0x0F, 0xA0, 0x0F, 0xA0, 0x0F].getD k 0) 1 = 40975 := by
  decide

/-- **C47 (part).** The voltages arrive as commanded exactly when both bytes of each are equal. -/
theorem C47_partial (v1 v2 v3 : U16) :
    (∀ k, (h : k < 3) → be16 (fun j => (setPvVolt v1 v2 v3).getD j 0) (1 + 2 * k) = [v1, v2, v3][k])
      ↔ ∀ v ∈ [v1, v2, v3], (v >>> 8).setWidth 8 = (v.setWidth 8 : U8) := by
  have key : ∀ a b : U8, (b ++ a : U16) = a ++ b ↔ a = b := by
    intro a b
    constructor
    · intro h; have := congrArg (fun v : U16 => (v.setWidth 8 : U8)) h
      simpa only [lo8] using this
    · rintro rfl; rfl
  obtain ⟨a1, b1, rfl⟩ : ∃ a b : U8, v1 = a ++ b := ⟨_, _, bytes_of v1⟩
  obtain ⟨a2, b2, rfl⟩ : ∃ a b : U8, v2 = a ++ b := ⟨_, _, bytes_of v2⟩
  obtain ⟨a3, b3, rfl⟩ : ∃ a b : U8, v3 = a ++ b := ⟨_, _, bytes_of v3⟩
  rw [C47_counterexample_order]
  simp only [List.mem_cons, List.not_mem_nil, or_false, forall_eq_or_imp, forall_eq, lo8, hi8]
  constructor
  · intro h
    exact ⟨(key _ _).1 (h 0 (by omega)), (key _ _).1 (h 1 (by omega)), (key _ _).1 (h 2 (by omega))⟩
  · rintro ⟨h1, h2, h3⟩ k hk
    interval_cases k
    · exact (key _ _).2 h1
    · exact (key _ _).2 h2
    · exact (key _ _).2 h3

/-! ### Commands sent -/
namespace Gs

theorem single_zero (k : Nat) (hk : k < 6) (b : Bool) :
    setSingleOutput (BitVec.ofNat 8 k) (if b then 0 else 1) 0
      = [0x0A, BitVec.ofNat 8 k, if b then 0 else 1, 0, 0] := by
  interval_cases k <;> cases b <;> rfl

theorem sent_append (p : U8) (a b : List (List U8)) : sent p (a ++ b) = sent p a ++ sent p b := by
  simp [sent]

theorem sent_cycleCmds (p : U8) (hp : p ≠ 0x0A) (g : Gs) (l : List Nat) (hl : ∀ k ∈ l, k < 6) :
    sent p (g.cycleCmds l) = [] := by
  unfold sent cycleCmds
  rw [List.filter_eq_nil_iff]
  intro c hc
  obtain ⟨k, hk, hc⟩ := List.mem_flatMap.1 hc
  by_cases h1 : g.pc k
  · rw [if_pos h1, List.mem_singleton] at hc
    rw [hc, single_zero k (hl k hk)]
    simp <;> exact Ne.symm hp
  · rw [if_neg h1] at hc; cases hc

theorem dueChannels_lt (p : Gs) (cc : U32) : ∀ k ∈ p.dueChannels cc, k < 6 := by
  intro k hk
  unfold dueChannels channels at hk
  split_ifs at hk <;> simp only [List.mem_cons, List.not_mem_nil, or_false] at hk <;> omega

theorem dueChannels_nodup (p : Gs) (cc : U32) : (p.dueChannels cc).Nodup := by
  unfold dueChannels channels
  split_ifs <;> decide

theorem sent_pv (p : U8) (hp : p ≠ 0x0B) (g : Gs) : sent p g.pvCommands = [] := by
  unfold pvCommands setPvVolt sent
  split_ifs <;> simp <;> exact Ne.symm hp

theorem sent_ppt (p : U8) (hp : p ≠ 0x0C) (g : Gs) : sent p g.pptCommands = [] := by
  unfold pptCommands setPptMode sent
  split_ifs <;> simp <;> exact Ne.symm hp

theorem sent_heater (p : U8) (hp : p ≠ 0x0D) (g : Gs) (i : GsIn) : sent p (g.heaterCommands i) = [] := by
  unfold heaterCommands setHeater sent
  split_ifs <;> simp <;> exact Ne.symm hp

theorem sent_oneShots (p : U8) (h1 : p ≠ 0x0F) (h2 : p ≠ 0x14) (h3 : p ≠ 0x04) (g : Gs) :
    sent p g.oneShots = [] := by
  unfold oneShots resetCounters hardReset Gomspace.reboot sent
  have h1' : ¬ 15#8 = p := Ne.symm h1
  have h2' : ¬ 20#8 = p := Ne.symm h2
  have h3' : ¬ 4#8 = p := Ne.symm h3
  split_ifs <;> simp [h1', h2', h3']

theorem sent_piksi (p : U8) (hp : p ≠ 0x0A) (b : Bool) :
    sent p (if b then [setSingleOutput 0 0 0] else []) = [] := by
  rw [show setSingleOutput 0 0 0 = [0x0A, 0, 0, 0, 0] from rfl]
  unfold sent
  split_ifs <;> simp <;> exact Ne.symm hp

end Gs

open Gs in
/-- **C68.** A command to reset the counters, to reset the supply or to reboot it that is set when the task runs
is sent to the supply exactly once in that cycle, and is cleared; without the command nothing is sent. (In cycle 1
the three commands are discarded.) -/
theorem C68_one_shot {g g' : Gs} {cc : U32} {i : GsIn} {out : List (List U8)}
    (h : g.execute cc i = some (g', out)) :
    sent 0x0F out = (if cc ≠ 1 ∧ g.counterReset then [[0x0F, 0x42]] else [])
    ∧ sent 0x14 out = (if cc ≠ 1 ∧ g.gsReset then [[0x14]] else [])
    ∧ sent 0x04 out = (if cc ≠ 1 ∧ g.gsReboot then [[0x04, 0x80, 0x07, 0x80, 0x07]] else [])
    ∧ g'.counterReset = false ∧ g'.gsReset = false ∧ g'.gsReboot = false := by
  obtain ⟨-, h1, h2⟩ := execute_some h
  have e : ∀ p : U8, p ≠ 0x0A → p ≠ 0x0B → p ≠ 0x0C → p ≠ 0x0D → sent p out = sent p (g.prepare cc i).oneShots := by
    intro p h1 h3 h4 h5
    rw [h2]
    simp only [sent_append]
    rw [sent_cycleCmds p h1 _ _ (dueChannels_lt _ _), sent_pv p h3, sent_ppt p h4, sent_heater p h5,
      sent_piksi p h1]
    simp
  have c : (g.prepare cc i).counterReset = (if cc = 1 then false else g.counterReset)
      ∧ (g.prepare cc i).gsReset = (if cc = 1 then false else g.gsReset)
      ∧ (g.prepare cc i).gsReboot = (if cc = 1 then false else g.gsReboot) := by
    unfold prepare firstCycle; dsimp only
    split_ifs <;> exact ⟨rfl, rfl, rfl⟩
  refine ⟨?_, ?_, ?_, by rw [h1], by rw [h1], by rw [h1]⟩
  all_goals
    rw [e _ (by decide) (by decide) (by decide) (by decide)]
    unfold oneShots resetCounters hardReset Gomspace.reboot sent
    rw [c.1, c.2.1, c.2.2]
    by_cases hc : cc = 1#32 <;> cases g.counterReset <;> cases g.gsReset <;> cases g.gsReboot <;> simp [hc]

open Gs in
/-- **C66 (part).** After the first cycle, the heater is switched exactly when its reported state differs from
the command, and to the commanded state. -/
theorem C66_heater_partial {g g' : Gs} {cc : U32} {i : GsIn} {out : List (List U8)}
    (h : g.execute cc i = some (g', out)) (hc : cc ≠ 1) :
    sent 0x0D out = (if g.heaterCmd ∧ getHeater i.h1 = 0 then [[0x0D, 0, 1, 1]]
      else if ¬ g.heaterCmd ∧ getHeater i.h1 = 1 then [[0x0D, 0, 1, 0]] else [])
    ∧ g'.heaterCmd = g.heaterCmd := by
  obtain ⟨-, h1, h2⟩ := execute_some h
  have c : (g.prepare cc i).heaterCmd = g.heaterCmd := by unfold prepare; dsimp only; rw [if_neg hc]
  refine ⟨?_, by rw [h1]; exact c⟩
  rw [h2]
  simp only [sent_append]
  rw [sent_cycleCmds _ (by decide) _ _ (dueChannels_lt _ _), sent_pv _ (by decide), sent_ppt _ (by decide),
    sent_oneShots _ (by decide) (by decide) (by decide), sent_piksi _ (by decide)]
  unfold heaterCommands setHeater sent
  rw [c]
  cases g.heaterCmd <;> simp only [Bool.false_eq_true, if_false, if_true, true_and, false_and, not_true, not_false_iff]
    <;> split_ifs <;> simp_all

open Gs in
/-- **C66 is false in the first cycle.** If the first reading of the heater fails, the heater command becomes
"on" although nobody commanded it, and the heater is switched on by the same cycle. For every state in which the
task can start. -/
theorem C66_counterexample_first {g g' : Gs} {i : GsIn} {out : List (List U8)}
    (h : g.execute 1 i = some (g', out)) (bad : i.h0 1 ≠ 0) (off : getHeater i.h1 = 0) :
    g'.heaterCmd = true ∧ sent 0x0D out = [[0x0D, 0, 1, 1]] := by
  obtain ⟨-, h1, h2⟩ := execute_some h
  have c : (g.prepare 1 i).heaterCmd = true := by
    unfold prepare firstCycle; dsimp only; rw [if_pos rfl]
    show (getHeater i.h0 != 0) = true
    unfold getHeater; rw [if_pos (Or.inr bad)]; rfl
  refine ⟨by rw [h1]; exact c, ?_⟩
  rw [h2]
  simp only [sent_append]
  rw [sent_cycleCmds _ (by decide) _ _ (dueChannels_lt _ _), sent_pv _ (by decide), sent_ppt _ (by decide),
    sent_oneShots _ (by decide) (by decide) (by decide), sent_piksi _ (by decide)]
  unfold heaterCommands setHeater sent
  rw [c, off]
  simp

/-- The hypotheses of `C66_counterexample_first` are met by the constructed task. -/
example : ∃ g' out, (Gs.init fun _ => 0).execute 1
    ⟨fun _ => 0, fun _ => 1, fun k => if k = 0 then 0x0D else 0, fun _ => 0⟩ = some (g', out) := by
  exact ⟨_, _, rfl⟩

open Gs in
/-- **C70 (part).** The task completes unless the power-cycle period is zero. -/
theorem C70_completes_partial (g : Gs) (cc : U32) (i : GsIn) (hp : g.period ≠ 0) :
    (g.execute cc i).isSome := by
  unfold execute
  simp only [prepare_period, if_neg hp]
  rfl

open Gs in
/-- **C70 is false.** The period is a ground-writable field without a lower bound: with zero, the task divides by
zero in every cycle, whatever the state. -/
theorem C70_counterexample_period (g : Gs) (cc : U32) (i : GsIn) : ({ g with period := 0 } : Gs).execute cc i = none := by
  unfold execute
  simp only [prepare_period]
  rfl

/-! ### Switched outputs -/
namespace Gs

theorem switchAll_append (o : Nat → Bool) (a b : List (List U8)) :
    switchAll o (a ++ b) = switchAll (switchAll o a) b := by simp [switchAll]

theorem switch_other (o : Nat → Bool) (c : List U8) (h : c.head? ≠ some 0x0A) : switch o c = o := by
  unfold switch
  split
  · rw [if_neg]; rintro ⟨rfl, -⟩; exact h rfl
  · rfl

theorem switchAll_other (o : Nat → Bool) (l : List (List U8)) (h : sent 0x0A l = []) : switchAll o l = o := by
  induction l with
  | nil => rfl
  | cons c l ih =>
    have hc : c.head? ≠ some 0x0A := by
      intro e
      have : c ∈ sent 0x0A (c :: l) := List.mem_filter.2 ⟨List.mem_cons_self, by simp [e]⟩
      rw [h] at this; cases this
    have hl : sent 0x0A l = [] := by
      unfold sent at h ⊢
      rw [List.filter_eq_nil_iff] at h ⊢
      exact fun a ha => h a (List.mem_cons_of_mem _ ha)
    show switchAll (switch o c) l = o
    rw [switch_other o c hc]; exact ih hl

theorem switchAll_cycle (g : Gs) (l : List Nat) (hn : l.Nodup) (hl : ∀ k ∈ l, k < 6) (o : Nat → Bool) (k : Nat) :
    switchAll o (g.cycleCmds l) k = if k ∈ l ∧ g.pc k then !g.output k else o k := by
  induction l generalizing o with
  | nil => simp [cycleCmds, switchAll]
  | cons j l ih =>
    obtain ⟨hj, hn⟩ := List.nodup_cons.1 hn
    have e : g.cycleCmds (j :: l)
        = (if g.pc j then [setSingleOutput (BitVec.ofNat 8 j) (if g.output j then 0 else 1) 0] else [])
          ++ g.cycleCmds l := rfl
    rw [e, switchAll_append, ih hn (fun k hk => hl k (List.mem_cons_of_mem _ hk))]
    have hj6 := hl j List.mem_cons_self
    by_cases hp : g.pc j
    · rw [if_pos hp, single_zero j hj6]
      have : switchAll o [[0x0A, BitVec.ofNat 8 j, if g.output j then 0 else 1, 0, 0]]
          = fun x => if x = j then !g.output j else o x := by
        simp only [switchAll, List.foldl_cons, List.foldl_nil, switch, true_and, if_true]
        funext x
        rw [show (BitVec.ofNat 8 j).toNat = j from by rw [BitVec.toNat_ofNat]; omega]
        split_ifs <;> simp_all
      rw [this]
      by_cases hk : k = j
      · subst hk; simp [hj, hp]
      · simp [hk]
    · rw [if_neg hp]
      show (if k ∈ l ∧ g.pc k then !g.output k else switchAll o [] k) = _
      by_cases hk : k = j
      · subst hk; simp [hj, hp, switchAll]
      · simp [hk, switchAll]

/-- Effect of one run of the task on output `k`. -/
theorem switchAll_execute {g g' : Gs} {cc : U32} {i : GsIn} {out : List (List U8)}
    (h : g.execute cc i = some (g', out)) (o : Nat → Bool) (k : Nat) :
    switchAll o out k = if k = 0 ∧ g.piksiOff then false else
      if k ∈ (g.prepare cc i).dueChannels cc ∧ (g.prepare cc i).pc k then !g.output k else o k := by
  obtain ⟨-, -, h2⟩ := execute_some h
  rw [h2, switchAll_append, switchAll_append, switchAll_append, switchAll_append, switchAll_append]
  rw [switchAll_other _ _ (sent_oneShots _ (by decide) (by decide) (by decide) _),
    switchAll_other _ _ (sent_heater _ (by decide) _ _), switchAll_other _ _ (sent_ppt _ (by decide) _),
    switchAll_other _ _ (sent_pv _ (by decide) _), prepare_piksiOff]
  have e := switchAll_cycle (g.prepare cc i) ((g.prepare cc i).dueChannels cc)
    (dueChannels_nodup _ cc) (dueChannels_lt _ cc) o k
  rw [prepare_output] at e
  by_cases hp : g.piksiOff
  · rw [if_pos hp]
    show switch _ [0x0A, 0, 0, 0, 0] k = _
    simp only [switch, true_and, if_true]
    by_cases hk : k = 0
    · subst hk; simp [hp]
    · simp only [hk, false_and, if_false]
      rw [if_neg (by simpa using hk)]; exact e
  · rw [if_neg hp, if_neg (by simp [hp])]
    exact e

theorem mem_dueChannels (p : Gs) (cc : U32) (k : Nat) (hk : k < 6) :
    k ∈ p.dueChannels cc ↔ cc % p.period = 0 ∧ (k = 0 → p.piksiOff = false) := by
  unfold dueChannels channels
  split_ifs with h1 h2
  · simp only [List.mem_cons, List.not_mem_nil, or_false, h1, h2, true_and]
    constructor
    · intro h; omega
    · intro h; have : k ≠ 0 := fun e => by simpa using h e
      omega
  · simp only [List.mem_cons, List.not_mem_nil, or_false, h1, h2, true_and]
    constructor
    · intro _ _; trivial
    · intro _; omega
  · constructor
    · intro h; cases h
    · intro h; exact absurd h.1 h1

theorem execute_pc {g g' : Gs} {cc : U32} {i : GsIn} {out : List (List U8)}
    (h : g.execute cc i = some (g', out)) (hc : cc ≠ 1) (k : Nat) :
    g'.pc k = if k ∈ (g.prepare cc i).dueChannels cc ∧ g.output k = false then false else g.pc k := by
  obtain ⟨-, h1, -⟩ := execute_some h
  rw [h1]
  show (if k ∈ (g.prepare cc i).dueChannels cc ∧ (g.prepare cc i).output k = false then false
    else (g.prepare cc i).pc k) = _
  rw [prepare_output, prepare_pc _ _ _ hc]

end Gs

open Gs in
/-- **C69.** As long as the GPS receiver is held off, every cycle sends exactly one command to its output, the
command to switch it off; so it is off at the end of the cycle, whatever was commanded before. -/
theorem C69_receiver_held_off {g g' : Gs} {cc : U32} {i : GsIn} {out : List (List U8)}
    (h : g.execute cc i = some (g', out)) (hp : g.piksiOff = true) (o : Nat → Bool) :
    (sent 0x0A out).filter (fun c => c.getD 1 0 == 0) = [[0x0A, 0, 0, 0, 0]]
    ∧ switchAll o out 0 = false ∧ g'.piksiOff = true := by
  have hs := switchAll_execute h o 0
  rw [if_pos ⟨rfl, hp⟩] at hs
  obtain ⟨-, h1, h2⟩ := execute_some h
  refine ⟨?_, hs, by rw [h1]; exact (prepare_piksiOff _ _ _).trans hp⟩
  rw [h2]
  simp only [sent_append]
  rw [sent_oneShots _ (by decide) (by decide) (by decide), sent_heater _ (by decide), sent_ppt _ (by decide),
    sent_pv _ (by decide), prepare_piksiOff, if_pos hp]
  simp only [List.append_nil, List.filter_append]
  have e : (sent 0x0A ((g.prepare cc i).cycleCmds ((g.prepare cc i).dueChannels cc))).filter
      (fun c => c.getD 1 0 == 0) = [] := by
    rw [List.filter_eq_nil_iff]
    intro c hc
    obtain ⟨hc, -⟩ := List.mem_filter.1 hc
    obtain ⟨k, hk, hc⟩ := List.mem_flatMap.1 hc
    have hk6 := dueChannels_lt _ _ k hk
    have hk0 : k ≠ 0 := by
      rintro rfl
      have := ((mem_dueChannels _ _ 0 hk6).1 hk).2 rfl
      rw [prepare_piksiOff, hp] at this; cases this
    by_cases h1 : (g.prepare cc i).pc k
    · rw [if_pos h1, List.mem_singleton] at hc
      rw [hc, single_zero k hk6]
      simp only [List.getD_cons_succ, List.getD_cons_zero, beq_iff_eq]
      intro h0
      have := congrArg BitVec.toNat h0
      rw [BitVec.toNat_ofNat] at this
      simp at this; omega
    · rw [if_neg h1] at hc; cases hc
  rw [e]; rfl

namespace Spec.PowerHistory
variable {k P c0 : Nat} (H : PowerHistory k P c0)
open Gs

theorem step (hk : k < 6) (hP : P < 2 ^ 32) (n : Nat) (hn : c0 + n < 2 ^ 32) (h1 : 1 < c0 + n) :
    H.o (n + 1) k = (if P ∣ c0 + n ∧ (H.g n).pc k then !(H.g n).output k else H.o n k)
    ∧ (H.g (n + 1)).pc k = (if P ∣ c0 + n ∧ (H.g n).output k = false then false else (H.g n).pc k)
    ∧ (H.g (n + 1)).output k = H.o n k := by
  have hc : (BitVec.ofNat 32 (c0 + n) : U32) ≠ 1 := by
    intro e; have := congrArg BitVec.toNat e
    rw [BitVec.toNat_ofNat, Nat.mod_eq_of_lt hn] at this
    rw [this] at h1; exact absurd h1 (by decide)
  have hm : k ∈ ((H.g n).prepare (BitVec.ofNat 32 (c0 + n)) (H.i n)).dueChannels (BitVec.ofNat 32 (c0 + n))
      ↔ P ∣ c0 + n := by
    rw [mem_dueChannels _ _ k hk, prepare_period, H.period, prepare_piksiOff]
    rw [← BitVec.toNat_inj, BitVec.toNat_umod, BitVec.toNat_ofNat, BitVec.toNat_ofNat, Nat.mod_eq_of_lt hn,
      Nat.mod_eq_of_lt hP]
    constructor
    · rintro ⟨h, -⟩; exact Nat.dvd_of_mod_eq_zero h
    · intro h; exact ⟨Nat.mod_eq_zero_of_dvd h, fun h0 => H.piksi h0 n⟩
  refine ⟨?_, ?_, ?_⟩
  · rw [H.obey, switchAll_execute (H.ran n)]
    rw [if_neg (by rintro ⟨h0, h⟩; rw [H.piksi h0 n] at h; cases h), prepare_pc _ _ _ hc]
    simp only [hm]
  · rw [H.quietCmd, execute_pc (H.ran n) hc]
    simp only [hm]
  · rw [H.quietOut]
    have := (C65_housekeeping_partial (H.ran n) (H.good n)).2.2.2.2.2.2.1 k hk
    rw [this]
    have t := H.truth n
    by_cases h : H.o n k = true
    · rw [h]; simpa using t.2 h
    · rw [Bool.not_eq_true] at h; rw [h]
      simpa [h] using t

end Spec.PowerHistory

/-- **C46.** A power-cycle command for an output that is on: the output stays on until the first cycle `c` whose
number is a multiple of the power-cycle period, is off from the end of that cycle until the next such cycle
(two cycles later if the period is one), is on again from then on, and the command stays set until then and is
clear from then on. For every history of the task of any length, with a truthful and obedient supply. -/
theorem C46_power_cycle {k P c0 : Nat} (H : PowerHistory k P c0) (hk : k < 6) (hP0 : 0 < P) (hP : P < 2 ^ 32)
    (h2 : 2 ≤ c0) (cmd : (H.g 0).pc k = true) (on : H.o 0 k = true) (shown : (H.g 0).output k = true)
    (c : Nat) (hc0 : c0 ≤ c) (hcP : P ∣ c) (hc : c < c0 + P) (n : Nat) (hn : c0 + n < 2 ^ 32) :
    (H.o (n + 1) k = true ↔ c0 + n < c ∨ c + max P 2 ≤ c0 + n)
    ∧ ((H.g' n).pc k = true ↔ c0 + n < c + max P 2) := by
  have nd : ∀ x, c < x → x < c + P → ¬ P ∣ x := by
    intro x h1 h2 h
    have := Nat.le_of_dvd (by omega) (Nat.dvd_sub h hcP); omega
  have nd0 : ∀ x, c0 ≤ x → x < c → ¬ P ∣ x := by
    intro x h1 h2 h
    have := Nat.le_of_dvd (by omega) (Nat.dvd_sub hcP h); omega
  have hM : max P 2 = if P = 1 then 2 else P := by split_ifs <;> omega
  have dM : P ∣ c + max P 2 := by
    rw [hM]; split_ifs with h
    · rw [h]; exact one_dvd _
    · exact (Nat.dvd_add_right hcP).2 (dvd_refl P)
  have inv : ∀ n, c0 + n ≤ 2 ^ 32 →
      (c0 + n ≤ c → (H.g n).pc k = true ∧ H.o n k = true ∧ (H.g n).output k = true)
      ∧ (c0 + n = c + 1 → (H.g n).pc k = true ∧ H.o n k = false ∧ (H.g n).output k = true)
      ∧ (c + 2 ≤ c0 + n → c0 + n ≤ c + max P 2 →
          (H.g n).pc k = true ∧ H.o n k = false ∧ (H.g n).output k = false)
      ∧ (c + max P 2 < c0 + n → (H.g n).pc k = false ∧ H.o n k = true) := by
    intro n
    induction n with
    | zero =>
      intro _
      refine ⟨fun _ => ⟨cmd, on, shown⟩, fun h => by omega, fun h => by omega, fun h => by omega⟩
    | succ n ih =>
      intro hn
      obtain ⟨i1, i2, i3, i4⟩ := ih (by omega)
      obtain ⟨s1, s2, s3⟩ := H.step hk hP n (by omega) (by omega)
      refine ⟨fun h => ?_, fun h => ?_, fun h h' => ?_, fun h => ?_⟩
      · obtain ⟨a, b, d⟩ := i1 (by omega)
        have := nd0 (c0 + n) (by omega) (by omega)
        rw [s1, s2, s3]; simp [this, a, b]
      · obtain ⟨a, b, d⟩ := i1 (by omega)
        have e : c0 + n = c := by omega
        rw [s1, s2, s3, e]; simp [hcP, a, b, d]
      · by_cases h1 : c0 + n = c + 1
        · obtain ⟨a, b, d⟩ := i2 h1
          rw [s1, s2, s3]; simp [a, b, d]
        · obtain ⟨a, b, d⟩ := i3 (by omega) (by omega)
          have : ¬ P ∣ c0 + n := nd _ (by omega) (by rw [hM] at h'; split_ifs at h' <;> omega)
          rw [s1, s2, s3]; simp [a, b, this]
      · by_cases h1 : c0 + n = c + max P 2
        · obtain ⟨a, b, d⟩ := i3 (by omega) (by omega)
          rw [s1, s2, h1]; simp [a, d, dM]
        · obtain ⟨a, b⟩ := i4 (by omega)
          rw [s1, s2]; simp [a, b]
  obtain ⟨i1, i2, i3, i4⟩ := inv (n + 1) (by omega)
  rw [← H.quietCmd]
  by_cases h1 : c0 + (n + 1) ≤ c
  · obtain ⟨a, b, -⟩ := i1 h1; simp only [a, b, true_iff]; omega
  · by_cases h3 : c0 + (n + 1) = c + 1
    · obtain ⟨a, b, -⟩ := i2 h3; simp only [a, b]; constructor <;> simp <;> omega
    · by_cases h4 : c0 + (n + 1) ≤ c + max P 2
      · obtain ⟨a, b, -⟩ := i3 (by omega) h4; simp only [a, b]; constructor <;> simp <;> omega
      · obtain ⟨a, b⟩ := i4 (by omega); simp only [a, b]; constructor <;> simp <;> omega

open Gs in
/-- **C46.** Outputs without a power-cycle command are left alone. -/
theorem C46_others_left_alone {g g' : Gs} {cc : U32} {i : GsIn} {out : List (List U8)}
    (h : g.execute cc i = some (g', out)) (o : Nat → Bool) (j : Nat) (hj : g.pc j = false)
    (hp : j = 0 → g.piksiOff = false) : switchAll o out j = o j := by
  rw [switchAll_execute h, if_neg (by rintro ⟨h0, h⟩; rw [hp h0] at h; cases h), if_neg]
  rintro ⟨hd, h⟩
  have : (g.prepare cc i).pc j = false := by
    by_cases hc : cc = 1
    · unfold prepare firstCycle; dsimp only
      rw [if_pos hc]
      show (if j < 6 then false else g.pc j) = false
      rw [hj]; split_ifs <;> rfl
    · rw [prepare_pc _ _ _ hc]; exact hj
  rw [this] at h; cases h

open Gs in
/-- **C46 needs good housekeeping answers.** If the published state of an output is "off" although it is on —
after the supply's answers failed, for instance since the computer started — a power-cycle command is consumed
without the output ever being switched off. -/
theorem C46_counterexample_unread {g g' : Gs} {cc : U32} {i : GsIn} {out : List (List U8)} {k : Nat} (hk : k < 6)
    (h : g.execute cc i = some (g', out)) (hc : cc ≠ 1) (due : cc % g.period = 0) (hp : g.piksiOff = false)
    (cmd : g.pc k = true) (stale : g.output k = false) (o : Nat → Bool) :
    (∀ c ∈ sent 0x0A out, c.getD 1 0 = BitVec.ofNat 8 k → c.getD 2 0 = 1)
      ∧ switchAll o out k = true ∧ g'.pc k = false := by
  have hm : k ∈ (g.prepare cc i).dueChannels cc := by
    rw [mem_dueChannels _ _ k hk, prepare_period, prepare_piksiOff]; exact ⟨due, fun _ => hp⟩
  refine ⟨?_, ?_, ?_⟩
  · obtain ⟨-, -, h2⟩ := execute_some h
    intro c hc' h1
    rw [h2] at hc'
    simp only [sent_append] at hc'
    rw [sent_oneShots _ (by decide) (by decide) (by decide), sent_heater _ (by decide), sent_ppt _ (by decide),
      sent_pv _ (by decide), prepare_piksiOff, if_neg (by simp [hp])] at hc'
    simp only [List.append_nil] at hc'
    replace hc' : c ∈ sent 0x0A ((g.prepare cc i).cycleCmds ((g.prepare cc i).dueChannels cc)) := by
      simpa [sent] using hc'
    obtain ⟨hc', -⟩ := List.mem_filter.1 hc'
    obtain ⟨j, hj, hc'⟩ := List.mem_flatMap.1 hc'
    have hj6 := dueChannels_lt _ _ j hj
    by_cases hpc : (g.prepare cc i).pc j
    · rw [if_pos hpc, List.mem_singleton] at hc'
      rw [hc', single_zero j hj6] at h1 ⊢
      simp only [List.getD_cons_succ, List.getD_cons_zero] at h1 ⊢
      have e : j = k := by
        have := congrArg BitVec.toNat h1
        rw [BitVec.toNat_ofNat, BitVec.toNat_ofNat] at this; omega
      rw [e, prepare_output, stale]; rfl
    · rw [if_neg hpc] at hc'; cases hc'
  · rw [switchAll_execute h, if_neg (by rintro ⟨-, h⟩; rw [hp] at h; cases h), prepare_pc _ _ _ hc,
      if_pos ⟨hm, cmd⟩, stale]; rfl
  · rw [execute_pc h hc, if_pos ⟨hm, stale⟩]

/-! ### Battery -/
namespace Gs

theorem execute_lowBatt {g g' : Gs} {cc : U32} {i : GsIn} {out : List (List U8)}
    (h : g.execute cc i = some (g', out)) :
    g'.lowBatt = g.lowBatt.evaluate cc (decide (g.vbatt < g.threshold)) := by
  obtain ⟨-, h1, -⟩ := execute_some h
  rw [h1]
  show (g.prepare cc i).lowBatt = _
  unfold prepare firstCycle vbatt
  dsimp only
  split_ifs <;> rfl

end Gs

namespace Spec.BatteryHistory
open Gs Fault
variable {T : U32} {c0 : Nat} (H : BatteryHistory T c0)

/-- What is known of the fault before cycle `c0 + n`. -/
def Inv (f : Fault) (c m : Nat) : Prop :=
  f.Quiet ∧ f.persistence = 1 ∧ f.lastFaultTime.toNat < c ∧ f.num.toNat ≤ m

theorem inv_step {f f' : Fault} {c m : Nat} (hf : Inv f c m) (flag : Bool) (hc : c < 2 ^ 32) (hm : m < 2 ^ 32 - 1)
    (h : f' = f.evaluate (BitVec.ofNat 32 c) flag ∨ f' = (f.evaluate (BitVec.ofNat 32 c) flag).poll) :
    Inv f' (c + 1) (m + 1) ∧ f'.num.toNat = (if flag then f.num.toNat + 1 else 0) := by
  obtain ⟨q, p, l, nn⟩ := hf
  have e : Inv (f.evaluate (BitVec.ofNat 32 c) flag) (c + 1) (m + 1)
      ∧ (f.evaluate (BitVec.ofNat 32 c) flag).num.toNat = (if flag then f.num.toNat + 1 else 0) := by
    unfold evaluate
    cases flag with
    | false =>
      simp only [Bool.false_eq_true, if_false]
      exact ⟨⟨q, p, by show f.lastFaultTime.toNat < c + 1; omega, by simp [unsignal]⟩, by simp [unsignal]⟩
    | true =>
      simp only [if_true]
      have hgt : (BitVec.ofNat 32 c : U32) > f.lastFaultTime ∨ (BitVec.ofNat 32 c : U32) = 0 := by
        left; show f.lastFaultTime < _
        rw [BitVec.lt_def, BitVec.toNat_ofNat, Nat.mod_eq_of_lt hc]; exact l
      have hnum : (f.num + 1).toNat = f.num.toNat + 1 := by
        rw [BitVec.toNat_add]; show (f.num.toNat + 1) % 2 ^ 32 = _
        rw [Nat.mod_eq_of_lt (by omega)]
      unfold signal refresh
      simp only [if_pos hgt]
      refine ⟨⟨q, p, ?_, ?_⟩, hnum⟩
      · show (BitVec.ofNat 32 c : U32).toNat < c + 1
        rw [BitVec.toNat_ofNat, Nat.mod_eq_of_lt hc]; omega
      · show (f.num + 1).toNat ≤ m + 1
        rw [hnum]; omega
  rcases h with h | h
  · rw [h]; exact e
  · rw [h]
    obtain ⟨⟨q', p', l', n'⟩, e'⟩ := e
    obtain ⟨h1, h2⟩ := quiet_poll_num q'
    obtain ⟨h3, h4⟩ := quiet_step q' (op := .poll) rfl
    refine ⟨⟨h3, h4.trans p', ?_, ?_⟩, ?_⟩
    · rw [h2]; exact l'
    · rw [h1]; exact n'
    · rw [h1]; exact e'

private theorem inv (hc : 1 ≤ c0) (n : Nat) (hn : c0 + n ≤ 2 ^ 32) : Inv (H.g n).lowBatt (c0 + n) n := by
  induction n with
  | zero =>
    obtain ⟨hk, hs⟩ := H.start
    rw [hs]; exact ⟨⟨rfl, rfl, rfl⟩, rfl, by show 0 < _; omega, Nat.le_refl _⟩
  | succ n ih =>
    refine (inv_step (ih (by omega)) (decide ((H.g n).vbatt < (H.g n).threshold)) (by omega) (by omega) ?_).1
    rw [← execute_lowBatt (H.ran n)]
    exact H.polled n

end Spec.BatteryHistory

open Gs Spec.BatteryHistory in
/-- **C67.** At the end of the task the low-battery fault is reported exactly when the battery voltage published
in each of the two previous cycles was below the threshold: two low readings in a row are reported one cycle
later, and anything less is not reported. For every history from construction on. -/
theorem C67_low_battery {T : U32} {c0 : Nat} (H : BatteryHistory T c0) (hc : 1 ≤ c0) (n : Nat)
    (hn : c0 + (n + 2) < 2 ^ 32) :
    (H.g' (n + 2)).lowBatt.isFaulted = true ↔ (H.g' n).vbatt < T ∧ (H.g' (n + 1)).vbatt < T := by
  have i1 := inv H hc (n + 1) (by omega)
  have s1 := inv_step i1 (decide ((H.g (n + 1)).vbatt < (H.g (n + 1)).threshold)) (by omega) (by omega)
    (by rw [← execute_lowBatt (H.ran (n + 1))]; exact H.polled (n + 1))
  have s2 := inv_step s1.1 (decide ((H.g (n + 2)).vbatt < (H.g (n + 2)).threshold)) (by omega) (by omega)
    (Or.inl (execute_lowBatt (H.ran (n + 2))))
  rw [H.kept, H.threshold] at s1 s2
  obtain ⟨⟨q, p, -, -⟩, e2⟩ := s2
  have e1 := s1.2
  rw [Fault.quiet_isFaulted q, p]
  rw [decide_eq_true_iff]
  show (1 : U32) < _ ↔ _
  rw [BitVec.lt_def, e2]
  show 1 < _ ↔ _
  by_cases h1 : (H.g' n).vbatt < T <;> by_cases h2 : (H.g' (n + 1)).vbatt < T <;> simp [h1, h2] at e1 ⊢ <;> omega

open Gs in
/-- **C67 needs good housekeeping answers.** As long as no good answer arrives, the published voltage stays what
it was, however far the battery falls; so a fall below the threshold is not reported. -/
theorem C67_counterexample_stale {T : U32} {c0 : Nat} (H : BatteryHistory T c0) (hc : 1 ≤ c0) (m : Nat)
    (bad : ∀ n, m < n → ¬ GoodAnswer (H.i n).hk) (fine : ¬ (H.g' m).vbatt < T) (n : Nat) (hmn : m + 2 ≤ n)
    (hn : c0 + n < 2 ^ 32) : (H.g' n).lowBatt.isFaulted = false := by
  have hk : ∀ n, (H.g' n).hk = (H.g' n).pub := by
    intro n
    obtain ⟨-, h1, -⟩ := execute_some (H.ran n)
    rw [h1]
  have pub : ∀ d, (H.g' (m + d)).pub = (H.g' m).pub := by
    intro d
    induction d with
    | zero => rfl
    | succ d ih =>
      rw [← ih, ← hk (m + d), ← H.keptHk]
      exact C65_failed_read (H.ran (m + d + 1)) (bad _ (by omega))
  obtain ⟨d, rfl⟩ : ∃ d, n = m + d + 2 := ⟨n - m - 2, by omega⟩
  rw [← Bool.not_eq_true, C67_low_battery H hc (m + d) hn]
  rintro ⟨h, -⟩
  apply fine
  unfold vbatt at h ⊢
  rw [pub d] at h
  exact h

/-! ### The histories exist -/

/-- The answers of a supply with outputs `o` and battery voltage `v`. -/
def idealIn (o : Nat → Bool) (v : U16) : GsIn :=
  ⟨fun j => if j = 0 then 0x08 else if 34 ≤ j ∧ j < 40 then (if o (j - 34) then 1 else 0)
      else if j = 8 then (v >>> 8).setWidth 8 else if j = 9 then v.setWidth 8 else 0,
    fun _ => 0, fun _ => 0, fun _ => 0⟩

/-- State and outputs before cycle `c0 + n`, the battery voltage being `v n`. -/
def idealRun (c0 : Nat) (s : Gs × (Nat → Bool)) (v : Nat → U16) : Nat → Gs × (Nat → Bool)
  | 0 => s
  | n + 1 =>
    match (idealRun c0 s v n).1.execute (BitVec.ofNat 32 (c0 + n)) (idealIn (idealRun c0 s v n).2 (v n)) with
    | some (g', out) => (g', switchAll (idealRun c0 s v n).2 out)
    | none => idealRun c0 s v n

/-- The commands of cycle `c0 + n`. -/
def idealOut (c0 : Nat) (s : Gs × (Nat → Bool)) (v : Nat → U16) (n : Nat) : List (List U8) :=
  match (idealRun c0 s v n).1.execute (BitVec.ofNat 32 (c0 + n)) (idealIn (idealRun c0 s v n).2 (v n)) with
  | some (_, out) => out
  | none => []

open Gs in
theorem idealRun_ok (c0 : Nat) (s : Gs × (Nat → Bool)) (v : Nat → U16) (hp : s.1.period ≠ 0) (n : Nat) :
    (idealRun c0 s v n).1.period = s.1.period ∧ (idealRun c0 s v n).1.piksiOff = s.1.piksiOff
    ∧ (idealRun c0 s v n).1.threshold = s.1.threshold
    ∧ (idealRun c0 s v n).1.execute (BitVec.ofNat 32 (c0 + n)) (idealIn (idealRun c0 s v n).2 (v n))
      = some ((idealRun c0 s v (n + 1)).1, idealOut c0 s v n)
    ∧ (idealRun c0 s v (n + 1)).2 = switchAll (idealRun c0 s v n).2 (idealOut c0 s v n) := by
  have key : ∀ n, (idealRun c0 s v n).1.period = s.1.period →
      (idealRun c0 s v n).1.execute (BitVec.ofNat 32 (c0 + n)) (idealIn (idealRun c0 s v n).2 (v n))
        = some ((idealRun c0 s v (n + 1)).1, idealOut c0 s v n)
      ∧ (idealRun c0 s v (n + 1)).2 = switchAll (idealRun c0 s v n).2 (idealOut c0 s v n) := by
    intro n h
    have := C70_completes_partial (idealRun c0 s v n).1 (BitVec.ofNat 32 (c0 + n))
      (idealIn (idealRun c0 s v n).2 (v n)) (by rw [h]; exact hp)
    obtain ⟨⟨g', out⟩, hr⟩ := Option.isSome_iff_exists.1 this
    simp only [idealRun, idealOut, hr]
    exact ⟨trivial, trivial⟩
  suffices h : (idealRun c0 s v n).1.period = s.1.period ∧ (idealRun c0 s v n).1.piksiOff = s.1.piksiOff
      ∧ (idealRun c0 s v n).1.threshold = s.1.threshold from ⟨h.1, h.2.1, h.2.2, key n h.1⟩
  induction n with
  | zero => exact ⟨rfl, rfl, rfl⟩
  | succ n ih =>
    obtain ⟨-, e, -⟩ := execute_some (key n ih.1).1
    rw [e]
    refine ⟨(prepare_period _ _ _).trans ih.1, (prepare_piksiOff _ _ _).trans ih.2.1, ?_⟩
    show (Gs.prepare _ _ _).threshold = _
    rw [← ih.2.2]
    unfold prepare firstCycle
    dsimp only
    split_ifs <;> rfl

/-- A history of power cycling with a truthful and obedient supply exists from every state. -/
def idealHistory (k P c0 : Nat) (hk : k < 6) (s : Gs × (Nat → Bool)) (hP : s.1.period = BitVec.ofNat 32 P)
    (h0 : (BitVec.ofNat 32 P : U32) ≠ 0) (hp : k = 0 → s.1.piksiOff = false) : PowerHistory k P c0 where
  g n := (idealRun c0 s (fun _ => 8000) n).1
  g' n := (idealRun c0 s (fun _ => 8000) (n + 1)).1
  i n := idealIn (idealRun c0 s (fun _ => 8000) n).2 8000
  out n := idealOut c0 s (fun _ => 8000) n
  o n := (idealRun c0 s (fun _ => 8000) n).2
  ran n := (idealRun_ok c0 s _ (by rw [hP]; exact h0) n).2.2.2.1
  obey n := (idealRun_ok c0 s _ (by rw [hP]; exact h0) n).2.2.2.2
  good n := ⟨rfl, rfl⟩
  truth n := by
    have : data (idealIn (idealRun c0 s (fun _ => 8000) n).2 8000).hk (32 + k)
        = if (idealRun c0 s (fun _ => 8000) n).2 k then 1 else 0 := by
      unfold data idealIn
      simp only
      rw [if_neg (by omega), if_pos (by omega), show 32 + k + 2 - 34 = k by omega]
    rw [this]
    cases (idealRun c0 s (fun _ => 8000) n).2 k <;> decide
  quietCmd n := rfl
  quietOut n := rfl
  period n := (idealRun_ok c0 s _ (by rw [hP]; exact h0) n).1.trans hP
  piksi h n := (idealRun_ok c0 s _ (by rw [hP]; exact h0) n).2.1.trans (hp h)

/-- The hypotheses of `C46_power_cycle` are met: the radio's output 5, commanded in cycle 1000, is off from the end
of cycle 1056 = 6 · 176 to the end of cycle 1231 and on from the end of cycle 1232. -/
example : ∃ H : PowerHistory 4 176 1000, (H.g 0).pc 4 = true ∧ H.o 0 4 = true ∧ (H.g 0).output 4 = true
    ∧ (∀ n, 1000 + n < 2 ^ 32 → (H.o (n + 1) 4 = true ↔ 1000 + n < 1056 ∨ 1232 ≤ 1000 + n)) := by
  refine ⟨idealHistory 4 176 1000 (by decide) ({ Gs.init (fun _ => 0) with
    piksiOff := false, pc := fun k => k == 4, pub := fun _ => 1 }, fun _ => true) rfl (by decide) (fun _ => rfl),
    rfl, rfl, rfl, ?_⟩
  intro n hn
  exact (C46_power_cycle _ (by decide) (by decide) (by decide) (by decide) rfl rfl rfl 1056 (by decide)
    (by decide) (by decide) n hn).1

/-- A history of the battery check exists for every sequence of voltages. -/
def idealBattery (hk : Bytes) (v : Nat → U16) : BatteryHistory 7300 1 where
  g n := (idealRun 1 (Gs.init hk, fun _ => true) v n).1
  g' n := (idealRun 1 (Gs.init hk, fun _ => true) v (n + 1)).1
  i n := idealIn (idealRun 1 (Gs.init hk, fun _ => true) v n).2 (v n)
  out n := idealOut 1 (Gs.init hk, fun _ => true) v n
  ran n := (idealRun_ok 1 (Gs.init hk, fun _ => true) v (by show (176 : U32) ≠ 0; decide) n).2.2.2.1
  start := ⟨hk, rfl⟩
  polled n := Or.inl rfl
  kept n := rfl
  keptHk n := rfl
  threshold n := (idealRun_ok 1 (Gs.init hk, fun _ => true) v (by show (176 : U32) ≠ 0; decide) n).2.2.1

/-- `C67_low_battery` is not vacuous: the published voltages of `idealBattery` are those of the battery. -/
example (hk : Bytes) (v : Nat → U16) (n : Nat) (hn : n < 2 ^ 31) :
    ((idealBattery hk v).g' (n + 2)).lowBatt.isFaulted = true
      ↔ (v n).setWidth 32 < (7300 : U32) ∧ (v (n + 1)).setWidth 32 < (7300 : U32) := by
  rw [C67_low_battery _ (by decide) n (by omega)]
  have e : ∀ n, ((idealBattery hk v).g' n).vbatt = (v n).setWidth 32 := by
    intro n
    rw [(C65_housekeeping_partial ((idealBattery hk v).ran n) ⟨rfl, rfl⟩).2.1]
    congr 1
    exact (bytes_of (v n)).symm
  rw [e, e]

/-- **C67.** The threshold is 7.3 V unless the ground changes it. -/
theorem C67_default_threshold {T : U32} {c0 : Nat} (H : BatteryHistory T c0) (hk : Bytes)
    (h : (H.g 0).threshold = (Gs.init hk).threshold) : T.toNat = 7300 := by
  rw [← H.threshold 0, h]; rfl

open Gs in
/-- **C69.** From power-on the receiver is held off: in every history of the task alone (the mission manager releases the
receiver when startup is over), whatever the supply answers, every cycle sends its output the command "off" and nothing
else. -/
theorem C69_off_from_boot (hk : Bytes) (l : List (U32 × GsIn)) {g g' : Gs} {cc : U32} {i : GsIn} {out : List (List U8)}
    (hl : l.foldlM (fun g x => (g.execute x.1 x.2).map (·.1)) (Gs.init hk) = some g)
    (h : g.execute cc i = some (g', out)) :
    (sent 0x0A out).filter (fun c => c.getD 1 0 == 0) = [[0x0A, 0, 0, 0, 0]] := by
  have key : ∀ (l : List (U32 × GsIn)) (g0 g : Gs), g0.piksiOff = true →
      l.foldlM (fun g x => (g.execute x.1 x.2).map (·.1)) g0 = some g → g.piksiOff = true := by
    intro l
    induction l with
    | nil => intro g0 g h0 hr; simp only [List.foldlM_nil, Option.pure_def, Option.some.injEq] at hr; rw [← hr]; exact h0
    | cons x l ih =>
      intro g0 g h0 hr
      rw [List.foldlM_cons] at hr
      cases hx : g0.execute x.1 x.2 with
      | none => rw [hx] at hr; simp at hr
      | some r =>
        rw [hx] at hr
        exact ih r.1 g (C69_receiver_held_off (out := r.2) hx h0 (fun _ => false)).2.2 (by simpa using hr)
  exact (C69_receiver_held_off h (key l _ g rfl hl) (fun _ => false)).1

open Gs in
/-- **C79.** The mode of the power trackers: a cycle sends the mode command exactly when the mode commanded by the ground is
one of the three modes and differs from the mode reported by the supply in the cycle before, and it sends that mode, once.
(In cycle 1 the command is first set to the reported mode.) -/
theorem C79_tracker_mode {g g' : Gs} {cc : U32} {i : GsIn} {out : List (List U8)}
    (h : g.execute cc i = some (g', out)) (hc : cc ≠ 1) :
    sent 0x0C out = (if g.pptmode ≠ g.pptCmd ∧ g.pptCmd ≤ 2 then [[0x0C, g.pptCmd]] else []) ∧ g'.pptCmd = g.pptCmd := by
  obtain ⟨-, h1, h2⟩ := execute_some h
  have c : (g.prepare cc i).pptCmd = g.pptCmd := by unfold prepare; dsimp only; rw [if_neg hc]
  have c2 : (g.prepare cc i).pptmode = g.pptmode := by unfold pptmode; rw [prepare_pub]
  refine ⟨?_, by rw [h1]; exact c⟩
  rw [h2]
  simp only [sent_append]
  rw [sent_cycleCmds _ (by decide) _ _ (dueChannels_lt _ _), sent_pv _ (by decide), sent_heater _ (by decide),
    sent_oneShots _ (by decide) (by decide) (by decide), sent_piksi _ (by decide)]
  unfold pptCommands setPptMode
  rw [c, c2]
  by_cases hm : g.pptmode = g.pptCmd
  · rw [if_neg (by simp [hm]), if_neg (by simp [hm])]; rfl
  · rw [if_pos hm]
    by_cases h3 : g.pptCmd > 2
    · rw [if_pos h3, if_neg (by rintro ⟨-, h4⟩; exact absurd h3 (BitVec.not_lt.2 h4))]; rfl
    · rw [if_neg h3, if_pos ⟨hm, BitVec.not_lt.1 h3⟩]; rfl

open Gs in
/-- **C79.** The converter voltages are sent exactly when the supply reported the mode "fixed voltage" (2) and some measured
voltage differs from its command, and then once (their byte order: C47). -/
theorem C79_voltages {g g' : Gs} {cc : U32} {i : GsIn} {out : List (List U8)}
    (h : g.execute cc i = some (g', out)) (hc : cc ≠ 1) :
    sent 0x0B out = (if g.pptmode = 2 ∧ (g.vboost 0 ≠ g.pv1 ∨ g.vboost 1 ≠ g.pv2 ∨ g.vboost 2 ≠ g.pv3) then
      [setPvVolt (g.pv1.setWidth 16) (g.pv2.setWidth 16) (g.pv3.setWidth 16)] else [])
    ∧ g'.pv1 = g.pv1 ∧ g'.pv2 = g.pv2 ∧ g'.pv3 = g.pv3 := by
  obtain ⟨-, h1, h2⟩ := execute_some h
  have c : (g.prepare cc i).pv1 = g.pv1 ∧ (g.prepare cc i).pv2 = g.pv2 ∧ (g.prepare cc i).pv3 = g.pv3 := by
    unfold prepare; dsimp only; rw [if_neg hc]; exact ⟨rfl, rfl, rfl⟩
  have c2 : (g.prepare cc i).pptmode = g.pptmode := by unfold pptmode; rw [prepare_pub]
  have c3 : ∀ k, (g.prepare cc i).vboost k = g.vboost k := by intro k; unfold vboost; rw [prepare_pub]
  refine ⟨?_, by rw [h1]; exact c.1, by rw [h1]; exact c.2.1, by rw [h1]; exact c.2.2⟩
  rw [h2]
  simp only [sent_append]
  rw [sent_cycleCmds _ (by decide) _ _ (dueChannels_lt _ _), sent_ppt _ (by decide), sent_heater _ (by decide),
    sent_oneShots _ (by decide) (by decide) (by decide), sent_piksi _ (by decide)]
  unfold pvCommands
  rw [c.1, c.2.1, c.2.2, c2]
  simp only [c3]
  by_cases hm : g.pptmode = 2
  · rw [if_pos hm]
    by_cases hv : g.vboost 0 ≠ g.pv1 ∨ g.vboost 1 ≠ g.pv2 ∨ g.vboost 2 ≠ g.pv3
    · rw [if_pos hv, if_pos ⟨hm, hv⟩]; rfl
    · rw [if_neg hv, if_neg (fun h => hv h.2)]; rfl
  · rw [if_neg hm, if_neg (fun h => hm h.1)]; rfl

/-- A cycle in which the mode is changed to "fixed voltage". -/
example : ∃ g' out, ({ Gs.init (fun _ => 0) with pptCmd := 2 }).execute 5
    { hk := fun _ => 0, h0 := fun _ => 0, h1 := fun _ => 0, h2 := fun _ => 0 } = some (g', out) ∧
    sent 0x0C out = [[0x0C, 2]] := ⟨_, _, rfl, by decide⟩

end PAN
