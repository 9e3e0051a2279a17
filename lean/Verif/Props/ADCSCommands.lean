import Verif.Lemmas.ADCSBox
import Verif.Props.ADCSMtr
/-!
Theorems about how the attitude control box takes over commands that arrive in an interrupt while its main loop copies
them register by register (src/adcs/main.cpp, src/adcs/state_controller.cpp): C73, C74.
-/
namespace PAN

namespace Spec
open ADCS

/-- The moment vector last sent to the box. -/
def lastMoment (evs : List Box.Ev) : V3 ℚ :=
  evs.foldl (fun v ev => match ev with | .recv m => (momentIn m).getD v | .tick _ => v) V3.zero

/-- The wheel mode last sent and the wheel command last sent, the latter in the units of the mode in force when it
arrived. -/
def lastWheel (evs : List Box.Ev) : U8 × V3 ℚ :=
  evs.foldl (fun s ev => match ev with
    | .recv m => ((wheelModeIn m).getD s.1, ((wheelBytes m).bind (wheelUnits ((wheelModeIn m).getD s.1))).getD s.2)
    | .tick _ => s) (0, V3.zero)

/-- The reset table last sent. -/
def lastReset (evs : List Box.Ev) : BitVec 32 :=
  evs.foldl (fun v ev => match ev with | .recv m => (resetIn m).getD v | .tick _ => v) 0

/-- The disable table last sent. -/
def lastDisable (evs : List Box.Ev) : BitVec 32 :=
  evs.foldl (fun v ev => match ev with | .recv m => (disableIn m).getD v | .tick _ => v) 0

/-- Number of steps of the main loop. -/
def ticks (evs : List Box.Ev) : ℕ := evs.countP fun ev => match ev with | .tick _ => true | .recv _ => false

end Spec

namespace ADCS
namespace Box

theorem run_append (l : Bool) (b : Box) (e1 e2 : List Ev) :
    run l b (e1 ++ e2) = (run l b e1).bind fun r => (run l r.1 e2).map fun r' => (r'.1, r.2 ++ r'.2) := by
  induction e1 generalizing b with
  | nil => simp [run]
  | cons ev evs ih =>
    simp only [List.cons_append, run]
    cases h : step l b ev with
    | none => rfl
    | some x =>
      obtain ⟨b', a⟩ := x
      simp only [ih]
      cases run l b' evs with
      | none => rfl
      | some y =>
        simp only [Option.bind_some, Option.map_some]
        cases run l y.1 e2 with
        | none => rfl
        | some z => simp

theorem run_snoc {l : Bool} {b b'' : Box} {evs : List Ev} {ev : Ev} {acts : List Act}
    (h : run l b (evs ++ [ev]) = some (b'', acts)) :
    ∃ b' acts' a, run l b evs = some (b', acts') ∧ step l b' ev = some (b'', a) ∧ acts = acts' ++ a.toList := by
  rw [run_append] at h
  cases h1 : run l b evs with
  | none => rw [h1] at h; simp at h
  | some x =>
    obtain ⟨b', acts'⟩ := x
    rw [h1] at h
    simp only [Option.bind_some, run] at h
    cases h2 : step l b' ev with
    | none => rw [h2] at h; simp at h
    | some y =>
      obtain ⟨b2, a⟩ := y
      rw [h2] at h
      simp at h
      exact ⟨b', acts', a, rfl, by rw [h2, h.1], h.2.symm⟩

/-- Induction over runs: a property that holds at the start and is kept by every event of a kind holds at the end. -/
theorem run_inv {l : Bool} (P : Box → Prop) (Q : Act → Prop) (R : Ev → Prop)
    (hs : ∀ b ev b' a, R ev → P b → step l b ev = some (b', a) → P b' ∧ ∀ x, a = some x → Q x) :
    ∀ (evs : List Ev) {b b' : Box} {acts : List Act}, P b → (∀ ev ∈ evs, R ev) → run l b evs = some (b', acts) →
      P b' ∧ ∀ a ∈ acts, Q a := by
  intro evs
  induction evs with
  | nil =>
    intro b b' acts hP _ h
    simp only [run, Option.some.injEq, Prod.mk.injEq] at h
    obtain ⟨rfl, rfl⟩ := h
    exact ⟨hP, by simp⟩
  | cons ev evs ih =>
    intro b b' acts hP hR h
    simp only [run] at h
    cases h1 : step l b ev with
    | none => rw [h1] at h; simp at h
    | some x =>
      obtain ⟨b1, a⟩ := x
      rw [h1] at h
      simp only [] at h
      cases h2 : run l b1 evs with
      | none => rw [h2] at h; simp at h
      | some y =>
        rw [h2] at h
        simp only [Option.map_some, Option.some.injEq, Prod.mk.injEq] at h
        obtain ⟨hP1, hQ1⟩ := hs b ev b1 a (hR ev (by simp)) hP h1
        obtain ⟨hP2, hQ2⟩ := ih hP1 (fun e he => hR e (by simp [he])) (show run l b1 evs = some (y.1, y.2) by rw [h2])
        refine ⟨h.1 ▸ hP2, ?_⟩
        intro x hx
        rw [← h.2] at hx
        rcases List.mem_append.1 hx with hx | hx
        · exact hQ1 x (by cases a <;> simp_all)
        · exact hQ2 x hx

end Box

theorem momentIn_drives {m : List U8} (h : (Spec.momentIn m).isSome) : Spec.drivesRods m = true := by
  have hs : ∀ d : List U8, (Spec.six maxMoment d).isSome → 6 ≤ d.length := by
    intro d hd
    by_contra hc
    rw [Regs.six_none (by omega)] at hd
    simp at hd
  cases m with
  | nil => simp [Spec.momentIn] at h
  | cons a d =>
    unfold Spec.momentIn at h
    by_cases h11 : a = 11
    · subst h11
      have := hs d (by simpa using h)
      simp [Spec.drivesRods, this]
    · by_cases h10 : a = 10
      · subst h10
        have := hs d.tail (by simpa using h)
        rw [List.length_tail] at this
        have : 7 ≤ d.length := by omega
        simp [Spec.drivesRods, this]
      · simp only [if_neg h11, if_neg h10] at h; simp at h

/-- The invariant: registers are what was last sent, and a copy in progress agrees with the register as far as it goes
unless a newer command has arrived. -/
structure Inv (evs : List Box.Ev) (b : Box) : Prop where
  mtr : b.regs.mtrCmd = Spec.lastMoment evs
  rwa : (b.regs.rwaMode, b.regs.rwaCmd) = Spec.lastWheel evs
  rst : b.regs.resetTable = Spec.lastReset evs
  dis : b.regs.disableTable = Spec.lastDisable evs
  my : b.pc = .mtrY → b.regs.mtrFlg = 0 → b.lcmd.x = b.regs.mtrCmd.x
  mz : b.pc = .mtrZ → b.regs.mtrFlg = 0 → b.lcmd.x = b.regs.mtrCmd.x ∧ b.lcmd.y = b.regs.mtrCmd.y
  mc : b.pc = .mtrCheck → b.regs.mtrFlg = 0 → b.lcmd = b.regs.mtrCmd
  ma : b.pc = .mtrAct → ∃ e1 e2, evs = e1 ++ e2 ∧ Spec.ticks e2 = 1 ∧ b.lcmd = Spec.lastMoment e1
  ry : b.pc = .rwaY → b.regs.rwaFlg = 0 → b.lcmd.x = b.regs.rwaCmd.x
  rz : b.pc = .rwaZ → b.regs.rwaFlg = 0 → b.lcmd.x = b.regs.rwaCmd.x ∧ b.lcmd.y = b.regs.rwaCmd.y
  rc : b.pc = .rwaCheck → b.regs.rwaFlg = 0 → b.lcmd = b.regs.rwaCmd
  rs : b.pc = .resetCheck → b.regs.resetFlg = 0 → b.ltable = b.regs.resetTable
  ds : b.pc = .disableCheck → b.regs.disableFlg = 0 → b.ltable = b.regs.disableTable

theorem inv_recv {evs : List Box.Ev} {b : Box} (m : List U8) (h : Inv evs b) :
    Inv (evs ++ [.recv m]) { b with regs := b.regs.receive m } := by
  obtain ⟨_, s2, s3, s4, s5, s6, s7, s8, s9, s10, _, _⟩ := Regs.receive_spec b.regs m
  have keepM : (b.regs.receive m).mtrFlg = 0 → b.regs.mtrFlg = 0 ∧ (b.regs.receive m).mtrCmd = b.regs.mtrCmd := by
    intro h0
    rw [s3] at h0
    by_cases hd : Spec.drivesRods m = true
    · rw [if_pos hd] at h0; exact absurd h0 (by decide)
    · rw [if_neg hd] at h0
      refine ⟨h0, ?_⟩
      rw [s2]
      cases hm : Spec.momentIn m with
      | none => rfl
      | some v => exact absurd (momentIn_drives (by simp [hm])) hd
  have keepR : (b.regs.receive m).rwaFlg = 0 → b.regs.rwaFlg = 0 ∧ (b.regs.receive m).rwaCmd = b.regs.rwaCmd := by
    intro h0
    rw [s6] at h0
    rw [s5]
    cases hm : (Spec.wheelBytes m).bind (Spec.wheelUnits (b.regs.receive m).rwaMode) with
    | none => rw [hm] at h0; exact ⟨by simpa using h0, rfl⟩
    | some v => rw [hm] at h0; exact absurd h0 (by simp)
  have keepRs : (b.regs.receive m).resetFlg = 0 → b.regs.resetFlg = 0 ∧ (b.regs.receive m).resetTable = b.regs.resetTable := by
    intro h0
    rw [s8] at h0
    rw [s7]
    cases hm : Spec.resetIn m with
    | none => rw [hm] at h0; exact ⟨by simpa using h0, rfl⟩
    | some v => rw [hm] at h0; exact absurd h0 (by simp)
  have keepD : (b.regs.receive m).disableFlg = 0 →
      b.regs.disableFlg = 0 ∧ (b.regs.receive m).disableTable = b.regs.disableTable := by
    intro h0
    rw [s10] at h0
    rw [s9]
    cases hm : Spec.disableIn m with
    | none => rw [hm] at h0; exact ⟨by simpa using h0, rfl⟩
    | some v => rw [hm] at h0; exact absurd h0 (by simp)
  constructor
  · show (b.regs.receive m).mtrCmd = _
    rw [s2, h.mtr, Spec.lastMoment, Spec.lastMoment, List.foldl_append]; rfl
  · show ((b.regs.receive m).rwaMode, (b.regs.receive m).rwaCmd) = _
    have hr := h.rwa
    rw [Spec.lastWheel, List.foldl_append, ← Spec.lastWheel, ← hr, s5, s4]; rfl
  · show (b.regs.receive m).resetTable = _
    rw [s7, h.rst, Spec.lastReset, Spec.lastReset, List.foldl_append]; rfl
  · show (b.regs.receive m).disableTable = _
    rw [s9, h.dis, Spec.lastDisable, Spec.lastDisable, List.foldl_append]; rfl
  · intro hp h0; obtain ⟨a, c⟩ := keepM h0; show b.lcmd.x = (b.regs.receive m).mtrCmd.x; rw [c]; exact h.my hp a
  · intro hp h0; obtain ⟨a, c⟩ := keepM h0
    show b.lcmd.x = (b.regs.receive m).mtrCmd.x ∧ b.lcmd.y = (b.regs.receive m).mtrCmd.y; rw [c]; exact h.mz hp a
  · intro hp h0; obtain ⟨a, c⟩ := keepM h0; show b.lcmd = (b.regs.receive m).mtrCmd; rw [c]; exact h.mc hp a
  · intro hp
    obtain ⟨e1, e2, he, ht, hl⟩ := h.ma hp
    refine ⟨e1, e2 ++ [.recv m], by rw [he, List.append_assoc], ?_, hl⟩
    unfold Spec.ticks at ht ⊢
    rw [List.countP_append, ht]; rfl
  · intro hp h0; obtain ⟨a, c⟩ := keepR h0; show b.lcmd.x = (b.regs.receive m).rwaCmd.x; rw [c]; exact h.ry hp a
  · intro hp h0; obtain ⟨a, c⟩ := keepR h0
    show b.lcmd.x = (b.regs.receive m).rwaCmd.x ∧ b.lcmd.y = (b.regs.receive m).rwaCmd.y; rw [c]; exact h.rz hp a
  · intro hp h0; obtain ⟨a, c⟩ := keepR h0; show b.lcmd = (b.regs.receive m).rwaCmd; rw [c]; exact h.rc hp a
  · intro hp h0; obtain ⟨a, c⟩ := keepRs h0; show b.ltable = (b.regs.receive m).resetTable; rw [c]; exact h.rs hp a
  · intro hp h0; obtain ⟨a, c⟩ := keepD h0; show b.ltable = (b.regs.receive m).disableTable; rw [c]; exact h.ds hp a

theorem lastMoment_tick (evs : List Box.Ev) (e : Env) : Spec.lastMoment (evs ++ [.tick e]) = Spec.lastMoment evs := by
  rw [Spec.lastMoment, List.foldl_append]; rfl
theorem lastWheel_tick (evs : List Box.Ev) (e : Env) : Spec.lastWheel (evs ++ [.tick e]) = Spec.lastWheel evs := by
  rw [Spec.lastWheel, List.foldl_append]; rfl
theorem lastReset_tick (evs : List Box.Ev) (e : Env) : Spec.lastReset (evs ++ [.tick e]) = Spec.lastReset evs := by
  rw [Spec.lastReset, List.foldl_append]; rfl
theorem lastDisable_tick (evs : List Box.Ev) (e : Env) : Spec.lastDisable (evs ++ [.tick e]) = Spec.lastDisable evs := by
  rw [Spec.lastDisable, List.foldl_append]; rfl

theorem inv_tick {l : Bool} {evs : List Box.Ev} {b b' : Box} {e : Env} {a : Option Act} (h : Inv evs b)
    (ht : b.tick l e = some (b', a)) : Inv (evs ++ [.tick e]) b' := by
  obtain ⟨hm, hr, hrs, hd, my, mz, mc, ma, ry, rz, rc, rs, ds⟩ := h
  have hm' := hm; have hr' := hr; have hrs' := hrs; have hd' := hd
  rw [← lastMoment_tick evs e] at hm'
  rw [← lastWheel_tick evs e] at hr'
  rw [← lastReset_tick evs e] at hrs'
  rw [← lastDisable_tick evs e] at hd'
  unfold Box.tick at ht
  cases hp : b.pc <;> rw [hp] at ht
  case mtrCheck =>
    simp only [Option.some.injEq, Prod.mk.injEq] at ht
    obtain ⟨rfl, rfl⟩ := ht
    refine ⟨hm', hr', hrs', hd', ?_, ?_, ?_, ?_, ?_, ?_, ?_, ?_, ?_⟩ <;> intro hp'
    case refine_4 =>
      refine ⟨evs, [.tick e], rfl, rfl, ?_⟩
      by_cases hf : b.regs.mtrFlg = 0
      · rw [← hm]; exact mc hp hf
      · simp only [if_neg hf] at hp'; cases hp'
    all_goals (simp only at hp'; split at hp' <;> cases hp')
  case rwaCheck =>
    by_cases hf : b.regs.rwaFlg = 0
    · simp only [if_pos hf] at ht
      cases hw : b.hw.rwaActuate e b.lmode b.lcmd with
      | none => rw [hw] at ht; simp at ht
      | some w =>
        rw [hw] at ht
        simp only [Option.map_some, Option.some.injEq, Prod.mk.injEq] at ht
        obtain ⟨rfl, rfl⟩ := ht
        exact ⟨hm', hr', hrs', hd', nofun, nofun, nofun, nofun, nofun, nofun, nofun, nofun, nofun⟩
    · simp only [if_neg hf, Option.some.injEq, Prod.mk.injEq] at ht
      obtain ⟨rfl, rfl⟩ := ht
      exact ⟨hm', hr', hrs', hd', nofun, nofun, nofun, nofun, nofun, nofun, nofun, nofun, nofun⟩
  case mtrX | mtrY | mtrZ | rwaX | rwaY | rwaZ | resetCopy | disableCopy =>
    simp only [Option.some.injEq, Prod.mk.injEq] at ht
    obtain ⟨rfl, rfl⟩ := ht
    refine ⟨hm', hr', hrs', hd', ?_, ?_, ?_, ?_, ?_, ?_, ?_, ?_, ?_⟩ <;> intro hp' <;> cases hp'
    all_goals (intro hf; simp_all)
  case resetCheck =>
    by_cases hf : b.regs.resetFlg = 0
    · simp only [if_pos hf, Option.some.injEq, Prod.mk.injEq] at ht
      obtain ⟨rfl, rfl⟩ := ht
      exact ⟨hm', hr', hrs', hd', nofun, nofun, nofun, nofun, nofun, nofun, nofun, nofun, nofun⟩
    · simp only [if_neg hf, Option.some.injEq, Prod.mk.injEq] at ht
      obtain ⟨rfl, rfl⟩ := ht
      exact ⟨hm', hr', hrs', hd', nofun, nofun, nofun, nofun, nofun, nofun, nofun, nofun, nofun⟩
  case disableCheck =>
    by_cases hf : b.regs.disableFlg = 0
    · simp only [if_pos hf, Option.some.injEq, Prod.mk.injEq] at ht
      obtain ⟨rfl, rfl⟩ := ht
      exact ⟨hm', hr', hrs', hd', nofun, nofun, nofun, nofun, nofun, nofun, nofun, nofun, nofun⟩
    · simp only [if_neg hf, Option.some.injEq, Prod.mk.injEq] at ht
      obtain ⟨rfl, rfl⟩ := ht
      exact ⟨hm', hr', hrs', hd', nofun, nofun, nofun, nofun, nofun, nofun, nofun, nofun, nofun⟩
  all_goals
    simp only [Option.some.injEq, Prod.mk.injEq] at ht
    obtain ⟨rfl, rfl⟩ := ht
    refine ⟨hm', hr', hrs', hd', ?_, ?_, ?_, ?_, ?_, ?_, ?_, ?_, ?_⟩ <;> intro hp' <;>
    first | cases hp' | (split at hp' <;> cases hp')

theorem inv_boot (pot : Bool) (s : ℕ → Bool) : Inv [] (Box.boot pot s) :=
  ⟨rfl, rfl, rfl, rfl, nofun, nofun, nofun, nofun, nofun, nofun, nofun, nofun, nofun⟩

theorem inv_run {l : Bool} {pot : Bool} {s : ℕ → Bool} :
    ∀ (evs : List Box.Ev) {b : Box} {acts : List Act}, Box.run l (Box.boot pot s) evs = some (b, acts) → Inv evs b := by
  intro evs
  induction evs using List.reverseRecOn with
  | nil =>
    intro b acts h
    simp only [Box.run, Option.some.injEq, Prod.mk.injEq] at h
    rw [← h.1]; exact inv_boot pot s
  | append_singleton evs ev ih =>
    intro b acts h
    obtain ⟨b1, acts1, a, h1, h2, _⟩ := Box.run_snoc h
    have hi := ih h1
    cases ev with
    | recv m =>
      simp only [Box.step, Option.some.injEq, Prod.mk.injEq] at h2
      rw [← h2.1]; exact inv_recv m hi
    | tick e => exact inv_tick hi h2

end ADCS
open ADCS

/-- C73: commands are taken over whole. Whatever interleaving of messages and steps of the main loop has led to a call
that moves hardware, that call uses one vector or table exactly as it was sent in one message, never a mixture of two:
for the wheels and for the device tables the one sent last, for the rods the one that was the last when the main loop
made its previous step. -/
theorem C73_whole_commands (leader pot : Bool) (sensors : ℕ → Bool) (evs : List Box.Ev) (e : Env) {b b' : Box}
    {acts : List Act} {act : Act} (hrun : Box.run leader (Box.boot pot sensors) evs = some (b, acts))
    (hstep : b.tick leader e = some (b', some act)) :
    (∀ mode cmd lim, act = .mtr mode cmd lim →
      ∃ e1 e2, evs = e1 ++ e2 ∧ Spec.ticks e2 = 1 ∧ cmd = Spec.lastMoment e1) ∧
    (∀ mode cmd, act = .rwa mode cmd → cmd = (Spec.lastWheel evs).2) ∧
    (∀ t, act = .reset t → t = Spec.lastReset evs) ∧
    (∀ t, act = .disable t → t = Spec.lastDisable evs) := by
  have hi := inv_run evs hrun
  unfold Box.tick at hstep
  cases hp : b.pc <;> rw [hp] at hstep
  case mtrAct =>
    simp only [Option.some.injEq, Prod.mk.injEq] at hstep
    obtain ⟨_, rfl⟩ := hstep
    refine ⟨?_, nofun, nofun, nofun⟩
    intro mode cmd lim hc
    cases hc
    exact hi.ma hp
  case rwaCheck =>
    by_cases hf : b.regs.rwaFlg = 0
    · simp only [if_pos hf] at hstep
      cases hw : b.hw.rwaActuate e b.lmode b.lcmd with
      | none => rw [hw] at hstep; simp at hstep
      | some w =>
        rw [hw] at hstep
        simp only [Option.map_some, Option.some.injEq, Prod.mk.injEq] at hstep
        obtain ⟨_, rfl⟩ := hstep
        refine ⟨nofun, ?_, nofun, nofun⟩
        intro mode cmd hc
        cases hc
        rw [hi.rc hp hf, ← hi.rwa]
    · simp only [if_neg hf] at hstep; simp at hstep
  case resetCheck =>
    by_cases hf : b.regs.resetFlg = 0
    · simp only [if_pos hf, Option.some.injEq, Prod.mk.injEq] at hstep
      obtain ⟨_, rfl⟩ := hstep
      refine ⟨nofun, nofun, ?_, nofun⟩
      intro t hc
      cases hc
      rw [hi.rs hp hf, hi.rst]
    · simp only [if_neg hf] at hstep; simp at hstep
  case disableCheck =>
    by_cases hf : b.regs.disableFlg = 0
    · simp only [if_pos hf, Option.some.injEq, Prod.mk.injEq] at hstep
      obtain ⟨_, rfl⟩ := hstep
      refine ⟨nofun, nofun, nofun, ?_⟩
      intro t hc
      cases hc
      rw [hi.ds hp hf, hi.dis]
    · simp only [if_neg hf] at hstep; simp at hstep
  all_goals simp at hstep

namespace Spec
/-- How often the main loop did something of the given kind. -/
def count (k : Act → Bool) (acts : List Act) : ℕ := acts.countP k
def isMtr : Act → Bool | .mtr .. => true | _ => false
def isRwa : Act → Bool | .rwa .. => true | _ => false
def isReset : Act → Bool | .reset _ => true | _ => false
def isDisable : Act → Bool | .disable _ => true | _ => false
/-- How many messages of a kind were received. -/
def received (k : List U8 → Bool) (evs : List Box.Ev) : ℕ :=
  evs.countP fun ev => match ev with | .recv m => k m | .tick _ => false
end Spec

namespace ADCS

/-- Commands of each kind waiting or being worked on. -/
structure Pend (evs : List Box.Ev) (acts : List Act) (b : Box) : Prop where
  mtr : Spec.count Spec.isMtr acts + (if b.regs.mtrFlg = 0 then 0 else 1) +
    (if b.pc ∈ [Pc.mtrMode, .mtrX, .mtrY, .mtrZ, .mtrCheck, .mtrAct] then 1 else 0) ≤ Spec.received Spec.drivesRods evs
  rwa : Spec.count Spec.isRwa acts + (if b.regs.rwaFlg = 0 then 0 else 1) +
    (if b.pc ∈ [Pc.rwaMode, .rwaX, .rwaY, .rwaZ, .rwaCheck] then 1 else 0) ≤
      Spec.received (fun m => (Spec.wheelBytes m).isSome) evs
  rst : Spec.count Spec.isReset acts + (if b.regs.resetFlg = 0 then 0 else 1) +
    (if b.pc ∈ [Pc.resetCopy, .resetCheck] then 1 else 0) ≤ Spec.received (fun m => (Spec.resetIn m).isSome) evs
  dis : Spec.count Spec.isDisable acts + (if b.regs.disableFlg = 0 then 0 else 1) +
    (if b.pc ∈ [Pc.disableCopy, .disableCheck] then 1 else 0) ≤ Spec.received (fun m => (Spec.disableIn m).isSome) evs
  m1 : b.pc = .mtrClear → b.regs.mtrFlg ≠ 0
  r1 : b.pc = .rwaClear → b.regs.rwaFlg ≠ 0
  s1 : b.pc = .resetClear → b.regs.resetFlg ≠ 0
  d1 : b.pc = .disableClear → b.regs.disableFlg ≠ 0

theorem received_recv (k : List U8 → Bool) (evs : List Box.Ev) (m : List U8) :
    Spec.received k (evs ++ [.recv m]) = Spec.received k evs + if k m then 1 else 0 := by
  unfold Spec.received
  rw [List.countP_append, List.countP_singleton]

theorem received_tick (k : List U8 → Bool) (evs : List Box.Ev) (e : Env) :
    Spec.received k (evs ++ [.tick e]) = Spec.received k evs := by
  unfold Spec.received
  rw [List.countP_append, List.countP_singleton]; rfl

theorem count_append (k : Act → Bool) (acts : List Act) (a : Option Act) :
    Spec.count k (acts ++ a.toList) = Spec.count k acts + (if a.any k then 1 else 0) := by
  unfold Spec.count
  rw [List.countP_append]
  cases a with
  | none => rfl
  | some x => simp only [Option.toList, Option.any_some, List.countP_singleton]

theorem pend_recv {evs : List Box.Ev} {acts : List Act} {b : Box} (m : List U8) (h : Pend evs acts b) :
    Pend (evs ++ [.recv m]) acts { b with regs := b.regs.receive m } := by
  obtain ⟨_, _, s3, _, _, s6, _, s8, _, s10, _, _⟩ := Regs.receive_spec b.regs m
  constructor
  · rw [received_recv]
    have := h.mtr
    simp only [s3]
    by_cases hd : Spec.drivesRods m = true
    · simp only [hd, if_true]
      by_cases h0 : b.regs.mtrFlg = 0 <;> simp [h0] at this ⊢ <;> omega
    · simp only [hd]
      simpa using this
  · rw [received_recv]
    have := h.rwa
    simp only [s6]
    cases hm : (Spec.wheelBytes m).bind (Spec.wheelUnits (b.regs.receive m).rwaMode) with
    | none => simp; simp at this; omega
    | some v =>
      have hb : (Spec.wheelBytes m).isSome := by
        cases hw : Spec.wheelBytes m with
        | none => rw [hw] at hm; simp at hm
        | some w => rfl
      simp only [hb]
      by_cases h0 : b.regs.rwaFlg = 0 <;> simp [h0] at this ⊢ <;> omega
  · rw [received_recv]
    have := h.rst
    simp only [s8]
    cases hm : Spec.resetIn m with
    | none => simpa using this
    | some v => by_cases h0 : b.regs.resetFlg = 0 <;> simp [h0] at this ⊢ <;> omega
  · rw [received_recv]
    have := h.dis
    simp only [s10]
    cases hm : Spec.disableIn m with
    | none => simpa using this
    | some v => by_cases h0 : b.regs.disableFlg = 0 <;> simp [h0] at this ⊢ <;> omega
  · intro hp
    have := h.m1 hp
    simp only [s3]
    split
    · decide
    · exact this
  · intro hp
    have := h.r1 hp
    simp only [s6]
    split
    · decide
    · exact this
  · intro hp
    have := h.s1 hp
    simp only [s8]
    split
    · decide
    · exact this
  · intro hp
    have := h.d1 hp
    simp only [s10]
    split
    · decide
    · exact this

set_option maxHeartbeats 1000000 in
theorem pend_tick {l : Bool} {evs : List Box.Ev} {acts : List Act} {b b' : Box} {e : Env} {a : Option Act}
    (h : Pend evs acts b) (ht : b.tick l e = some (b', a)) : Pend (evs ++ [.tick e]) (acts ++ a.toList) b' := by
  obtain ⟨hm, hr, hs, hd, m1, r1, s1, d1⟩ := h
  unfold Box.tick at ht
  cases hp : b.pc <;> rw [hp] at ht hm hr hs hd m1 r1 s1 d1
  case rwaCheck =>
    by_cases hf : b.regs.rwaFlg = 0
    · simp only [if_pos hf] at ht
      cases hw : b.hw.rwaActuate e b.lmode b.lcmd with
      | none => rw [hw] at ht; simp at ht
      | some w =>
        rw [hw] at ht
        simp only [Option.map_some, Option.some.injEq, Prod.mk.injEq] at ht
        obtain ⟨rfl, rfl⟩ := ht
        constructor <;>
          simp only [received_tick, count_append, Option.any_some, Spec.isMtr, Spec.isRwa, Spec.isReset, Spec.isDisable] <;>
          first | (simp at hm hr hs hd ⊢; omega) | simp
    · simp only [if_neg hf, Option.some.injEq, Prod.mk.injEq] at ht
      obtain ⟨rfl, rfl⟩ := ht
      constructor <;> simp only [received_tick, count_append, Option.any_none] <;>
        first | (simp at hm hr hs hd ⊢; omega) | simp
  case resetCheck =>
    by_cases hf : b.regs.resetFlg = 0
    · simp only [if_pos hf, Option.some.injEq, Prod.mk.injEq] at ht
      obtain ⟨rfl, rfl⟩ := ht
      constructor <;>
        simp only [received_tick, count_append, Option.any_some, Spec.isMtr, Spec.isRwa, Spec.isReset, Spec.isDisable] <;>
        first | (simp at hm hr hs hd ⊢; omega) | simp
    · simp only [if_neg hf, Option.some.injEq, Prod.mk.injEq] at ht
      obtain ⟨rfl, rfl⟩ := ht
      constructor <;> simp only [received_tick, count_append, Option.any_none] <;>
        first | (simp at hm hr hs hd ⊢; omega) | simp
  case disableCheck =>
    by_cases hf : b.regs.disableFlg = 0
    · simp only [if_pos hf, Option.some.injEq, Prod.mk.injEq] at ht
      obtain ⟨rfl, rfl⟩ := ht
      constructor <;>
        simp only [received_tick, count_append, Option.any_some, Spec.isMtr, Spec.isRwa, Spec.isReset, Spec.isDisable] <;>
        first | (simp at hm hr hs hd ⊢; omega) | simp
    · simp only [if_neg hf, Option.some.injEq, Prod.mk.injEq] at ht
      obtain ⟨rfl, rfl⟩ := ht
      constructor <;> simp only [received_tick, count_append, Option.any_none] <;>
        first | (simp at hm hr hs hd ⊢; omega) | simp
  case mtrActive =>
    by_cases hf : b.regs.mode ≠ 1
    · simp only [if_pos hf, Option.some.injEq, Prod.mk.injEq] at ht
      obtain ⟨rfl, rfl⟩ := ht
      constructor <;> simp only [received_tick, count_append, Option.any_none] <;>
        first | (simp at hm hr hs hd ⊢; omega) | simp_all
    · simp only [if_neg hf, Option.some.injEq, Prod.mk.injEq] at ht
      obtain ⟨rfl, rfl⟩ := ht
      constructor <;> simp only [received_tick, count_append, Option.any_none] <;>
        first | (simp at hm hr hs hd ⊢; omega) | simp_all
  case mtrFlag =>
    by_cases hf : b.regs.mtrFlg ≠ 1
    · simp only [if_pos hf, Option.some.injEq, Prod.mk.injEq] at ht
      obtain ⟨rfl, rfl⟩ := ht
      constructor <;> simp only [received_tick, count_append, Option.any_none] <;>
        first | (simp at hm hr hs hd ⊢; omega) | simp_all
    · simp only [if_neg hf, Option.some.injEq, Prod.mk.injEq] at ht
      obtain ⟨rfl, rfl⟩ := ht
      constructor <;> simp only [received_tick, count_append, Option.any_none] <;>
        first | (simp at hm hr hs hd ⊢; omega) | simp_all
  case mtrCheck =>
    by_cases hf : b.regs.mtrFlg = 0
    · simp only [if_pos hf, Option.some.injEq, Prod.mk.injEq] at ht
      obtain ⟨rfl, rfl⟩ := ht
      constructor <;> simp only [received_tick, count_append, Option.any_none] <;>
        first | (simp at hm hr hs hd ⊢; omega) | simp_all
    · simp only [if_neg hf, Option.some.injEq, Prod.mk.injEq] at ht
      obtain ⟨rfl, rfl⟩ := ht
      constructor <;> simp only [received_tick, count_append, Option.any_none] <;>
        first | (simp at hm hr hs hd ⊢; omega) | simp_all
  case rwaActive =>
    by_cases hf : b.regs.mode ≠ 1
    · simp only [if_pos hf, Option.some.injEq, Prod.mk.injEq] at ht
      obtain ⟨rfl, rfl⟩ := ht
      constructor <;> simp only [received_tick, count_append, Option.any_none] <;>
        first | (simp at hm hr hs hd ⊢; omega) | simp_all
    · simp only [if_neg hf, Option.some.injEq, Prod.mk.injEq] at ht
      obtain ⟨rfl, rfl⟩ := ht
      constructor <;> simp only [received_tick, count_append, Option.any_none] <;>
        first | (simp at hm hr hs hd ⊢; omega) | simp_all
  case rwaFlag =>
    by_cases hf : b.regs.rwaFlg ≠ 1
    · simp only [if_pos hf, Option.some.injEq, Prod.mk.injEq] at ht
      obtain ⟨rfl, rfl⟩ := ht
      constructor <;> simp only [received_tick, count_append, Option.any_none] <;>
        first | (simp at hm hr hs hd ⊢; omega) | simp_all
    · simp only [if_neg hf, Option.some.injEq, Prod.mk.injEq] at ht
      obtain ⟨rfl, rfl⟩ := ht
      constructor <;> simp only [received_tick, count_append, Option.any_none] <;>
        first | (simp at hm hr hs hd ⊢; omega) | simp_all
  case ssaCheck =>
    by_cases hf : b.regs.ssaMode = 1
    · simp only [if_pos hf, Option.some.injEq, Prod.mk.injEq] at ht
      obtain ⟨rfl, rfl⟩ := ht
      constructor <;> simp only [received_tick, count_append, Option.any_none] <;>
        first | (simp at hm hr hs hd ⊢; omega) | simp_all
    · simp only [if_neg hf, Option.some.injEq, Prod.mk.injEq] at ht
      obtain ⟨rfl, rfl⟩ := ht
      constructor <;> simp only [received_tick, count_append, Option.any_none] <;>
        first | (simp at hm hr hs hd ⊢; omega) | simp_all
  case resetFlag =>
    by_cases hf : b.regs.resetFlg = 1
    · simp only [if_pos hf, Option.some.injEq, Prod.mk.injEq] at ht
      obtain ⟨rfl, rfl⟩ := ht
      constructor <;> simp only [received_tick, count_append, Option.any_none] <;>
        first | (simp at hm hr hs hd ⊢; omega) | simp_all
    · simp only [if_neg hf, Option.some.injEq, Prod.mk.injEq] at ht
      obtain ⟨rfl, rfl⟩ := ht
      constructor <;> simp only [received_tick, count_append, Option.any_none] <;>
        first | (simp at hm hr hs hd ⊢; omega) | simp_all
  case disableFlag =>
    by_cases hf : b.regs.disableFlg = 1
    · simp only [if_pos hf, Option.some.injEq, Prod.mk.injEq] at ht
      obtain ⟨rfl, rfl⟩ := ht
      constructor <;> simp only [received_tick, count_append, Option.any_none] <;>
        first | (simp at hm hr hs hd ⊢; omega) | simp_all
    · simp only [if_neg hf, Option.some.injEq, Prod.mk.injEq] at ht
      obtain ⟨rfl, rfl⟩ := ht
      constructor <;> simp only [received_tick, count_append, Option.any_none] <;>
        first | (simp at hm hr hs hd ⊢; omega) | simp_all
  case mtrClear =>
    simp only [Option.some.injEq, Prod.mk.injEq] at ht
    obtain ⟨rfl, rfl⟩ := ht
    have hf := m1 rfl
    simp only [if_neg hf] at hm hr hs hd
    constructor <;> simp only [received_tick, count_append, Option.any_none] <;>
      first | (simp at hm hr hs hd ⊢; omega) | simp
  case rwaClear =>
    simp only [Option.some.injEq, Prod.mk.injEq] at ht
    obtain ⟨rfl, rfl⟩ := ht
    have hf := r1 rfl
    simp only [if_neg hf] at hm hr hs hd
    constructor <;> simp only [received_tick, count_append, Option.any_none] <;>
      first | (simp at hm hr hs hd ⊢; omega) | simp
  case resetClear =>
    simp only [Option.some.injEq, Prod.mk.injEq] at ht
    obtain ⟨rfl, rfl⟩ := ht
    have hf := s1 rfl
    simp only [if_neg hf] at hm hr hs hd
    constructor <;> simp only [received_tick, count_append, Option.any_none] <;>
      first | (simp at hm hr hs hd ⊢; omega) | simp
  case disableClear =>
    simp only [Option.some.injEq, Prod.mk.injEq] at ht
    obtain ⟨rfl, rfl⟩ := ht
    have hf := d1 rfl
    simp only [if_neg hf] at hm hr hs hd
    constructor <;> simp only [received_tick, count_append, Option.any_none] <;>
      first | (simp at hm hr hs hd ⊢; omega) | simp
  case mtrAct =>
    simp only [Option.some.injEq, Prod.mk.injEq] at ht
    obtain ⟨rfl, rfl⟩ := ht
    constructor <;>
      simp only [received_tick, count_append, Option.any_some, Spec.isMtr, Spec.isRwa, Spec.isReset, Spec.isDisable] <;>
      first | (simp at hm hr hs hd ⊢; omega) | simp
  all_goals
    simp only [Option.some.injEq, Prod.mk.injEq] at ht
    obtain ⟨rfl, rfl⟩ := ht
    constructor <;> simp only [received_tick, count_append, Option.any_none] <;>
      first | (simp at hm hr hs hd ⊢; omega) | simp

theorem pend_run {l : Bool} {pot : Bool} {s : ℕ → Bool} :
    ∀ (evs : List Box.Ev) {b : Box} {acts : List Act}, Box.run l (Box.boot pot s) evs = some (b, acts) →
      Pend evs acts b := by
  intro evs
  induction evs using List.reverseRecOn with
  | nil =>
    intro b acts h
    simp only [Box.run, Option.some.injEq, Prod.mk.injEq] at h
    rw [← h.1, ← h.2]
    exact ⟨Nat.le_refl 0, Nat.le_refl 0, Nat.le_refl 0, Nat.le_refl 0, nofun, nofun, nofun, nofun⟩
  | append_singleton evs ev ih =>
    intro b acts h
    obtain ⟨b1, acts1, a, h1, h2, h3⟩ := Box.run_snoc h
    have hi := ih h1
    rw [h3]
    cases ev with
    | recv m =>
      simp only [Box.step, Option.some.injEq, Prod.mk.injEq] at h2
      rw [← h2.1, ← h2.2]; simpa using pend_recv m hi
    | tick e => exact pend_tick hi h2

end ADCS

/-- C73: no command is carried out more often than it was sent: in every run, the rods are set at most as often as
messages with a moment or a limit arrived, the wheels at most as often as wheel commands arrived, and the device tables
are executed at most as often as they were sent. -/
theorem C73_at_most_once (leader pot : Bool) (sensors : ℕ → Bool) (evs : List Box.Ev) {b : Box} {acts : List Act}
    (hrun : Box.run leader (Box.boot pot sensors) evs = some (b, acts)) :
    Spec.count Spec.isMtr acts ≤ Spec.received Spec.drivesRods evs ∧
    Spec.count Spec.isRwa acts ≤ Spec.received (fun m => (Spec.wheelBytes m).isSome) evs ∧
    Spec.count Spec.isReset acts ≤ Spec.received (fun m => (Spec.resetIn m).isSome) evs ∧
    Spec.count Spec.isDisable acts ≤ Spec.received (fun m => (Spec.disableIn m).isSome) evs := by
  obtain ⟨h1, h2, h3, h4, _, _, _, _⟩ := pend_run evs hrun
  exact ⟨by omega, by omega, by omega, by omega⟩

end PAN
