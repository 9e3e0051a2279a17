import Verif.Spec.SunHandshake
import Verif.Props.ADCSSettings
import Verif.Props.ADCSStates
/-!
C118: the sun sensor register, by which the flight computer asks the attitude control box for a sun vector.
-/
namespace PAN
open ADCS Spec

namespace ADCS

/-- What the flight computer sees of the sun sensors. -/
abbrev Regs.sun (r : Regs) : U8 × V3 ℚ := (r.ssaMode, r.sunVec)

theorem sun_rwaCmd (r : Regs) (d : List U8) : (r.recvRwaCmd d).sun = r.sun := by
  unfold Regs.recvRwaCmd
  split
  · dsimp only; split_ifs <;> rfl
  · rfl

theorem sun_mtrLimit (r : Regs) (d : List U8) : (r.recvMtrLimit d).sun = r.sun := by
  unfold Regs.recvMtrLimit; split <;> rfl

theorem sun_mtrCmd (r : Regs) (d : List U8) : (r.recvMtrCmd d).sun = r.sun := by
  unfold Regs.recvMtrCmd
  split
  · dsimp only; rw [sun_mtrLimit]
  · rfl

/-- What a message does to the sun sensor registers. -/
theorem sun_receive (r : Regs) (m : List U8) : (r.receive m).sun =
    match sunModeIn m with
    | some v => if r.ssaMode = 2 ∨ r.ssaMode = 0 then (v, r.sunVec) else r.sun
    | none => r.sun := by
  rcases m with _ | ⟨a, d⟩
  · rfl
  by_cases h14 : a = 14
  · subst h14
    rcases d with _ | ⟨v, d⟩
    · rfl
    · show (r.recvSsaMode (v :: d)).sun = _
      unfold Regs.recvSsaMode
      simp only [sunModeIn, if_true]
      split_ifs <;> rfl
  · have hs : sunModeIn (a :: d) = none := by
      unfold sunModeIn
      split
      · rename_i h; cases h; rw [if_neg h14]
      · rfl
    rw [hs]
    have f1 : ∀ (r : Regs) d, (r.recvReadPtr d).sun = r.sun := fun r d => by cases d <;> rfl
    have f2 : ∀ (r : Regs) d, (r.recvRampFlt d).sun = r.sun := fun r d => by cases d <;> rfl
    have f3 : ∀ (r : Regs) d, (r.recvMag2Mode d).sun = r.sun := fun r d => by cases d <;> rfl
    have f4 : ∀ (r : Regs) d, (r.recvGyrTempFlt d).sun = r.sun := fun r d => by cases d <;> rfl
    have f5 : ∀ (r : Regs) d, (r.recvGyrFlt d).sun = r.sun := fun r d => by
      cases d with
      | nil => rfl
      | cons x d => exact f4 _ d
    by_cases h1 : a = 1
    · subst h1; cases d with | nil => rfl | cons x d => exact f1 _ d
    by_cases h2 : a = 2
    · subst h2; exact f1 r d
    by_cases h3 : a = 3
    · subst h3; cases d with | nil => rfl | cons x d => exact sun_rwaCmd _ d
    by_cases h4 : a = 4
    · subst h4; exact sun_rwaCmd r d
    by_cases h6 : a = 6
    · subst h6; cases d with | nil => rfl | cons x d => exact f2 _ d
    by_cases h7 : a = 7
    · subst h7; exact f2 r d
    by_cases h10 : a = 10
    · subst h10; cases d with | nil => rfl | cons x d => exact sun_mtrCmd _ d
    by_cases h11 : a = 11
    · subst h11; exact sun_mtrCmd r d
    by_cases h12 : a = 12
    · subst h12; exact sun_mtrLimit r d
    by_cases h16 : a = 16
    · subst h16; cases d <;> rfl
    by_cases h19 : a = 19
    · subst h19; cases d with | nil => rfl | cons x d => exact f3 _ d
    by_cases h20 : a = 20
    · subst h20; exact f3 r d
    by_cases h22 : a = 22
    · subst h22; cases d with | nil => rfl | cons x d => exact f5 _ d
    by_cases h23 : a = 23
    · subst h23; exact f5 r d
    by_cases h24 : a = 24
    · subst h24; exact f4 r d
    by_cases h25 : a = 25
    · subst h25; cases d <;> rfl
    by_cases h26 : a = 26
    · subst h26; cases d <;> rfl
    by_cases h28 : a = 28
    · subst h28; show (r.recvReset d).sun = _; unfold Regs.recvReset; split_ifs <;> rfl
    by_cases h29 : a = 29
    · subst h29; show (r.recvDisable d).sun = _; unfold Regs.recvDisable; split_ifs <;> rfl
    simp only [Regs.receive, h1, h2, h3, h4, h6, h7, h10, h11, h12, h14, h16, h19, h20, h22, h23, h24, h25, h26, h28, h29, if_false]

/-- How many steps the main loop can still make before it stores a sun vector that was asked for. -/
def Pc.toStore : Pc → Nat
  | .ssaStore => 0 | .ssaCheck => 1
  | .rwaCheck => 2 | .rwaZ => 3 | .rwaY => 4 | .rwaX => 5 | .rwaMode => 6 | .rwaClear => 7 | .rwaFlag => 8 | .rwaActive => 9
  | .mtrAct => 10 | .mtrCheck => 11 | .mtrZ => 12 | .mtrY => 13 | .mtrX => 14 | .mtrMode => 15 | .mtrClear => 16 | .mtrFlag => 17
  | .mtrActive => 18 | .imu => 19
  | .disableCheck => 20 | .disableCopy => 21 | .disableClear => 22 | .disableFlag => 23
  | .resetCheck => 24 | .resetCopy => 25 | .resetClear => 26 | .resetFlag => 27 | .havtRead => 28

theorem sun_tick {leader : Bool} {e : Env} {b b' : Box} {a : Option Act} (h : b.tick leader e = some (b', a)) :
    b'.regs.sun = (if b.pc = .ssaStore then (e.ssa, e.sun) else b.regs.sun) ∧
    (b.pc ≠ .ssaStore → b.regs.ssaMode = 1 → b'.pc.toStore < b.pc.toStore) := by
  unfold Box.tick at h
  split at h <;> rename_i hpc
  case h_18 =>
    rw [hpc]
    split_ifs at h
    · rw [Option.map_eq_some_iff] at h
      obtain ⟨hw, -, h⟩ := h
      cases h
      exact ⟨rfl, fun _ _ => by simp [Pc.toStore]⟩
    · cases h
      exact ⟨rfl, fun _ _ => by simp [Pc.toStore]⟩
  all_goals
    rw [hpc]
    try split_ifs at h
    all_goals
      cases h
      refine ⟨rfl, fun hne hm => ?_⟩
      try dsimp only
      first
        | (simp only [Pc.toStore]; done)
        | (simp only [Pc.toStore]; omega)
        | exact absurd rfl hne
        | exact absurd hm ‹_›

/-- The main loop does not set out to store a sun vector unless one was asked for. -/
theorem not_store {leader : Bool} {e : Env} {b b' : Box} {a : Option Act} (hs : b.tick leader e = some (b', a))
    (h2 : b.regs.ssaMode ≠ 1) : b'.pc ≠ .ssaStore := by
  unfold Box.tick at hs
  split at hs <;> rename_i hq
  case h_18 =>
    split_ifs at hs
    · rw [Option.map_eq_some_iff] at hs
      obtain ⟨hw, -, h⟩ := hs
      cases h; simp
    · cases hs; simp
  all_goals
    try split_ifs at hs
    all_goals
      first
        | exact absurd ‹b.regs.ssaMode = 1› h2
        | (cases hs; simp)

theorem sun_step {leader : Bool} {b b' : Box} {ev : Box.Ev} {a : Option Act} (h : b.step leader ev = some (b', a)) :
    (∃ d, ev = .recv d ∧ b' = { b with regs := b.regs.receive d }) ∨ (∃ e, ev = .tick e ∧ b.tick leader e = some (b', a)) := by
  cases ev with
  | recv d => left; simp only [Box.step, Option.some.injEq, Prod.mk.injEq] at h; exact ⟨d, rfl, h.1.symm⟩
  | tick e => right; exact ⟨e, rfl, h⟩

theorem run_cons {leader : Bool} {b b' : Box} {ev : Box.Ev} {evs : List Box.Ev} {acts : List Act}
    (h : Box.run leader b (ev :: evs) = some (b', acts)) :
    ∃ b1 a acts', b.step leader ev = some (b1, a) ∧ Box.run leader b1 evs = some (b', acts') := by
  unfold Box.run at h
  split at h
  · cases h
  · rename_i b1 a hs
    rw [Option.map_eq_some_iff] at h
    obtain ⟨r, hr, he⟩ := h
    cases he
    exact ⟨b1, a, r.2, hs, hr⟩

theorem run_snoc {leader : Bool} {b1 b2 : Box} {a : Option Act} {ev : Box.Ev} : ∀ {evs : List Box.Ev} {b : Box} {acts : List Act},
    Box.run leader b evs = some (b1, acts) → b1.step leader ev = some (b2, a) →
    ∃ acts', Box.run leader b (evs ++ [ev]) = some (b2, acts')
  | [], b, acts, h, hs => by
    simp only [Box.run, Option.some.injEq, Prod.mk.injEq] at h
    obtain ⟨rfl, -⟩ := h
    exact ⟨a.toList ++ [], by simp only [List.nil_append, Box.run, hs, Option.map_some]⟩
  | ev' :: evs, b, acts, h, hs => by
    obtain ⟨b0, a0, acts0, h1, h2⟩ := run_cons h
    obtain ⟨acts', h3⟩ := run_snoc h2 hs
    exact ⟨a0.toList ++ acts', by simp only [List.cons_append, Box.run, h1, h3, Option.map_some]⟩

end ADCS

/-- C118. A request made while no calculation is in progress is taken. From then on, whatever messages arrive, the mode stays "in
progress" until the main loop stores the result of a calculation, and this happens within 29 steps of it. -/
theorem C118_request (leader : Bool) (b : Box) (rest : List U8) (hm : b.regs.ssaMode = 0 ∨ b.regs.ssaMode = 2)
    (evs : List Box.Ev) (ht : 29 ≤ ticksIn evs) {b' : Box} {acts : List Act}
    (hrun : Box.run leader b (.recv (14 :: 1 :: rest) :: evs) = some (b', acts)) :
    ∃ pre e post b1 b2 acts1 act, evs = pre ++ .tick e :: post ∧ ticksIn pre < 29 ∧
      Box.run leader b (.recv (14 :: 1 :: rest) :: pre) = some (b1, acts1) ∧ b1.regs.ssaMode = 1 ∧
      b1.tick leader e = some (b2, act) ∧ b2.regs.ssaMode = e.ssa ∧ b2.regs.sunVec = e.sun := by
  have key : ∀ (evs : List Box.Ev) (b b' : Box) (acts : List Act), b.regs.ssaMode = 1 → b.pc.toStore < ticksIn evs →
      Box.run leader b evs = some (b', acts) →
      ∃ pre e post b1 b2 acts1 act, evs = pre ++ .tick e :: post ∧ ticksIn pre ≤ b.pc.toStore ∧
        Box.run leader b pre = some (b1, acts1) ∧ b1.regs.ssaMode = 1 ∧
        b1.tick leader e = some (b2, act) ∧ b2.regs.ssaMode = e.ssa ∧ b2.regs.sunVec = e.sun := by
    intro evs
    induction evs with
    | nil => intro b b' acts _ h; simp [ticksIn] at h
    | cons ev evs ih =>
      intro b b' acts h1 ht hr
      obtain ⟨b0, a0, acts0, hs, hr0⟩ := run_cons hr
      rcases sun_step hs with ⟨d, rfl, rfl⟩ | ⟨e, rfl, hs'⟩
      · have hsun := sun_receive b.regs d
        have h1' : (b.regs.receive d).ssaMode = 1 := by
          have : (b.regs.receive d).sun = b.regs.sun := by
            rw [hsun]
            split
            · rw [if_neg (by rw [h1]; decide)]
            · rfl
          have := congrArg Prod.fst this
          exact this.trans h1
        obtain ⟨pre, e, post, b1, b2, acts1, act, e1, e2, e3, e4, e5, e6, e7⟩ := ih _ b' acts0 h1' (by simpa [ticksIn] using ht) hr0
        exact ⟨.recv d :: pre, e, post, b1, b2, _, act, by rw [e1]; rfl, by simpa [ticksIn] using e2,
          by simp only [Box.run, Box.step, e3, Option.map_some]; rfl, e4, e5, e6, e7⟩
      · obtain ⟨hsun, hdec⟩ := sun_tick hs'
        by_cases hpc : b.pc = .ssaStore
        · rw [if_pos hpc] at hsun
          exact ⟨[], e, evs, b, b0, [], a0, rfl, by simp [ticksIn], rfl, h1, hs', congrArg Prod.fst hsun, congrArg Prod.snd hsun⟩
        · rw [if_neg hpc] at hsun
          have hd := hdec hpc h1
          simp only [ticksIn] at ht
          obtain ⟨pre, e', post, b1, b2, acts1, act, e1, e2, e3, e4, e5, e6, e7⟩ :=
            ih b0 b' acts0 ((congrArg Prod.fst hsun).trans h1) (by omega) hr0
          exact ⟨.tick e :: pre, e', post, b1, b2, _, act, by rw [e1]; rfl, by simp only [ticksIn]; omega,
            by simp only [Box.run, hs, e3, Option.map_some]; rfl, e4, e5, e6, e7⟩
  obtain ⟨b0, a0, acts0, hs, hr0⟩ := run_cons hrun
  rcases sun_step hs with ⟨d, hd, rfl⟩ | ⟨e, he, -⟩
  · cases hd
    have hsun := sun_receive b.regs (14 :: 1 :: rest)
    have h1 : (b.regs.receive (14 :: 1 :: rest)).ssaMode = 1 := by
      have e : sunModeIn (14 :: 1 :: rest) = some 1 := rfl
      rw [e] at hsun
      dsimp only at hsun
      rw [if_pos (by tauto)] at hsun
      exact congrArg Prod.fst hsun
    have hmax : ∀ pc : Pc, pc.toStore < 29 := by intro pc; cases pc <;> decide
    obtain ⟨pre, e, post, b1, b2, acts1, act, e1, e2, e3, e4, e5, e6, e7⟩ :=
      key evs _ b' acts0 h1 (lt_of_lt_of_le (hmax _) ht) hr0
    exact ⟨pre, e, post, b1, b2, _, act, e1, lt_of_le_of_lt e2 (hmax _),
      by simp only [Box.run, Box.step, e3, Option.map_some]; rfl, e4, e5, e6, e7⟩
  · cases he

/-- Non-vacuity: from power-up, a request and then the main loop. -/
example : (Box.run true (Box.boot true (fun _ => true)) (.recv (14 :: 1 :: []) :: List.replicate 29 (.tick goodEnv))).isSome = true ∧
    (Box.boot true (fun _ => true)).regs.ssaMode = 0 ∧ 29 ≤ ticksIn (List.replicate 29 (.tick goodEnv)) := by decide +kernel

/-- C118. If the messages write only the three modes, the box is never in another one: either the next request is taken, or a
calculation is in progress. -/
theorem C118_modes (leader pot : Bool) (sensors : ℕ → Bool) (evs : List Box.Ev) (hc : Calculates evs)
    (hw : WritesOnly (fun m => m = 0 ∨ m = 1 ∨ m = 2) evs) {b' : Box} {acts : List Act}
    (hrun : Box.run leader (Box.boot pot sensors) evs = some (b', acts)) :
    b'.regs.ssaMode = 0 ∨ b'.regs.ssaMode = 1 ∨ b'.regs.ssaMode = 2 := by
  have key : ∀ (evs : List Box.Ev) (b : Box) (acts : List Act), Calculates evs →
      WritesOnly (fun m => m = 0 ∨ m = 1 ∨ m = 2) evs →
      (b.regs.ssaMode = 0 ∨ b.regs.ssaMode = 1 ∨ b.regs.ssaMode = 2) → Box.run leader b evs = some (b', acts) →
      b'.regs.ssaMode = 0 ∨ b'.regs.ssaMode = 1 ∨ b'.regs.ssaMode = 2 := by
    intro evs
    induction evs with
    | nil =>
      intro b acts _ _ h hr
      simp only [Box.run, Option.some.injEq, Prod.mk.injEq] at hr
      rw [← hr.1]; exact h
    | cons ev evs ih =>
      intro b acts hc hw h hr
      obtain ⟨b0, a0, acts0, hs, hr0⟩ := run_cons hr
      refine ih b0 acts0 (fun e he => hc e (List.mem_cons_of_mem _ he))
        (fun d m hd hm => hw d m (List.mem_cons_of_mem _ hd) hm) ?_ hr0
      rcases sun_step hs with ⟨d, rfl, rfl⟩ | ⟨e, rfl, hs'⟩
      · have hsun := sun_receive b.regs d
        cases hm : sunModeIn d with
        | none => rw [hm] at hsun; have := congrArg Prod.fst hsun; dsimp only at this ⊢; rw [this]; exact h
        | some v =>
          rw [hm] at hsun
          dsimp only at hsun
          split_ifs at hsun
          · have := congrArg Prod.fst hsun
            dsimp only at this ⊢
            rw [this]
            exact hw d v List.mem_cons_self hm
          · have := congrArg Prod.fst hsun
            dsimp only at this ⊢
            rw [this]; exact h
      · have hsun := congrArg Prod.fst (sun_tick hs').1
        dsimp only at hsun
        rw [hsun]
        split_ifs
        · rcases hc e List.mem_cons_self with h | h
          · exact .inl h
          · exact .inr (.inr h)
        · exact h
  exact key evs _ acts hc hw (.inl rfl) hrun

/-- C118. If the messages only ever ask for a calculation, then whenever the box says "complete", its sun vector is the result of
a calculation that succeeded, the last one made. -/
theorem C118_complete (leader pot : Bool) (sensors : ℕ → Bool) (evs : List Box.Ev)
    (hw : WritesOnly (fun m => m = 1) evs) {b' : Box} {acts : List Act}
    (hrun : Box.run leader (Box.boot pot sensors) evs = some (b', acts)) (h2 : b'.regs.ssaMode = 2) :
    ∃ pre e post b1 acts1, evs = pre ++ .tick e :: post ∧ Box.run leader (Box.boot pot sensors) pre = some (b1, acts1) ∧
      b1.pc = .ssaStore ∧ e.ssa = 2 ∧ b'.regs.sunVec = e.sun ∧
      (∀ q1 e' q2 b2 acts2, post = q1 ++ .tick e' :: q2 →
        Box.run leader (Box.boot pot sensors) (pre ++ .tick e :: q1) = some (b2, acts2) → b2.pc ≠ .ssaStore) := by
  have key : ∀ (post pre : List Box.Ev) (b : Box) (acts0 acts : List Act), WritesOnly (fun m => m = 1) post →
      Box.run leader (Box.boot pot sensors) pre = some (b, acts0) →
      (b.regs.ssaMode = 2 → ∃ p e q b1 acts1, pre = p ++ .tick e :: q ∧
        Box.run leader (Box.boot pot sensors) p = some (b1, acts1) ∧ b1.pc = .ssaStore ∧ e.ssa = 2 ∧ b.regs.sunVec = e.sun ∧
        (∀ q1 e' q2 b2 acts2, q = q1 ++ .tick e' :: q2 →
        Box.run leader (Box.boot pot sensors) (p ++ .tick e :: q1) = some (b2, acts2) → b2.pc ≠ .ssaStore)) →
      Box.run leader b post = some (b', acts) →
      ∃ p e q b1 acts1, pre ++ post = p ++ .tick e :: q ∧
        Box.run leader (Box.boot pot sensors) p = some (b1, acts1) ∧ b1.pc = .ssaStore ∧ e.ssa = 2 ∧ b'.regs.sunVec = e.sun ∧
        (∀ q1 e' q2 b2 acts2, q = q1 ++ .tick e' :: q2 →
        Box.run leader (Box.boot pot sensors) (p ++ .tick e :: q1) = some (b2, acts2) → b2.pc ≠ .ssaStore) := by
    intro post
    induction post with
    | nil =>
      intro pre b acts0 acts _ _ h hr
      simp only [Box.run, Option.some.injEq, Prod.mk.injEq] at hr
      obtain ⟨rfl, -⟩ := hr
      rw [List.append_nil]
      exact h h2
    | cons ev post ih =>
      intro pre b acts0 acts hw hpre h hr
      obtain ⟨b0, a0, actsr, hs, hr0⟩ := run_cons hr
      obtain ⟨acts0', hpre'⟩ := run_snoc hpre hs
      have hassoc : pre ++ ev :: post = (pre ++ [ev]) ++ post := by simp
      rw [hassoc]
      refine ih (pre ++ [ev]) b0 acts0' actsr (fun d m hd hm => hw d m (List.mem_cons_of_mem _ hd) hm) hpre' ?_ hr0
      intro hb0
      have keep : ((∃ e, ev = .tick e) → b.pc ≠ .ssaStore) → b0.regs.sun = b.regs.sun →
          ∃ p e q b1 acts1, pre ++ [ev] = p ++ .tick e :: q ∧
            Box.run leader (Box.boot pot sensors) p = some (b1, acts1) ∧ b1.pc = .ssaStore ∧ e.ssa = 2 ∧ b0.regs.sunVec = e.sun ∧
            (∀ q1 e' q2 b2 acts2, q = q1 ++ .tick e' :: q2 →
              Box.run leader (Box.boot pot sensors) (p ++ .tick e :: q1) = some (b2, acts2) → b2.pc ≠ .ssaStore) := by
        intro hne hk
        have k1 := congrArg Prod.fst hk
        have k2 := congrArg Prod.snd hk
        dsimp only at k1 k2
        obtain ⟨p, e, q, b1, acts1, e1, e2, e3, e4, e5, e6⟩ := h (by rw [← k1]; exact hb0)
        refine ⟨p, e, q ++ [ev], b1, acts1, by rw [e1]; simp, e2, e3, e4, by rw [k2]; exact e5, ?_⟩
        intro q1 e' q2 b2 acts2 hq hrun2
        rcases List.eq_nil_or_concat q2 with rfl | ⟨q3, x, rfl⟩
        · obtain ⟨rfl, hx⟩ := List.append_inj' hq rfl
          have hx' : ev = .tick e' := by simpa using hx
          rw [← e1, hpre] at hrun2
          cases hrun2
          exact hne ⟨e', hx'⟩
        · have hq' : q ++ [ev] = (q1 ++ .tick e' :: q3) ++ [x] := by rw [hq]; simp
          exact e6 q1 e' q3 b2 acts2 (List.append_inj' hq' rfl).1 hrun2
      rcases sun_step hs with ⟨d, rfl, rfl⟩ | ⟨e, rfl, hs'⟩
      · have hsun := sun_receive b.regs d
        cases hm : sunModeIn d with
        | none => rw [hm] at hsun; exact keep (fun ⟨e, he⟩ => by cases he) hsun
        | some v =>
          rw [hm] at hsun
          dsimp only at hsun
          have hv : v = 1 := hw d v List.mem_cons_self hm
          split_ifs at hsun
          · have := congrArg Prod.fst hsun
            dsimp only at this hb0
            rw [this, hv] at hb0
            exact absurd hb0 (by decide)
          · exact keep (fun ⟨e, he⟩ => by cases he) hsun
      · have hsun := (sun_tick hs').1
        split_ifs at hsun with hpc
        · have k1 := congrArg Prod.fst hsun
          have k2 := congrArg Prod.snd hsun
          dsimp only at k1 k2
          exact ⟨pre, e, [], b, acts0, rfl, hpre, hpc, by rw [← k1]; exact hb0, k2, fun q1 e' q2 _ _ hq => by simp at hq⟩
        · exact keep (fun _ => hpc) hsun
  have := key evs [] (Box.boot pot sensors) [] acts hw rfl (fun h => absurd (show (0 : U8) = 2 from h) (by decide)) hrun
  simpa using this

/-- Non-vacuity: after a request and enough steps of the main loop the box says "complete", and stores nothing more. -/
example : ((Box.run true (Box.boot true (fun _ => true)) (.recv (14 :: 1 :: []) :: List.replicate 29 (.tick goodEnv))).map
    fun r => (r.1.regs.ssaMode, decide (r.1.pc ≠ .ssaStore))) = some (2, true) := by decide +kernel
example : Calculates [.recv [14, 1], .tick goodEnv] ∧ WritesOnly (fun m => m = 1) [.recv [14, 1], .tick goodEnv] :=
  ⟨fun e he => by simp at he; subst he; exact .inr rfl, fun d m hd hm => by simp at hd; subst hd; exact (Option.some.inj hm).symm⟩

/-- C118. While the box says "complete" and nobody asks for another calculation, mode and vector stay as they are whatever else
happens: reading them one after the other gives values that belong together. (The main loop has finished storing.) -/
theorem C118_read_together (leader : Bool) (b : Box) (evs : List Box.Ev) (hm : b.regs.ssaMode = 2) (hpc : b.pc ≠ .ssaStore)
    (hw : WritesOnly (fun _ => False) evs) {b' : Box} {acts : List Act} (hrun : Box.run leader b evs = some (b', acts)) :
    b'.regs.ssaMode = 2 ∧ b'.regs.sunVec = b.regs.sunVec := by
  induction evs generalizing b acts with
  | nil =>
    simp only [Box.run, Option.some.injEq, Prod.mk.injEq] at hrun
    rw [← hrun.1]; exact ⟨hm, rfl⟩
  | cons ev evs ih =>
    obtain ⟨b0, a0, acts0, hs, hr0⟩ := run_cons hrun
    have hk : b0.regs.sun = b.regs.sun ∧ b0.pc ≠ .ssaStore := by
      rcases sun_step hs with ⟨d, rfl, rfl⟩ | ⟨e, rfl, hs'⟩
      · have hsun := sun_receive b.regs d
        cases hmd : sunModeIn d with
        | none => rw [hmd] at hsun; exact ⟨hsun, hpc⟩
        | some v => exact absurd (hw d v List.mem_cons_self hmd) id
      · exact ⟨by rw [(sun_tick hs').1, if_neg hpc], not_store hs' (by rw [hm]; decide)⟩
    have k1 := congrArg Prod.fst hk.1
    have k2 := congrArg Prod.snd hk.1
    dsimp only at k1 k2
    obtain ⟨h1, h2⟩ := ih b0 (by rw [k1]; exact hm) hk.2 (fun d m hd hmm => hw d m (List.mem_cons_of_mem _ hd) hmm) hr0
    exact ⟨h1, by rw [h2, k2]⟩

/-- C118. The flight computer writes nothing but requests to the register, and makes one in every cycle in which the mode it has
read is not "in progress". -/
theorem C118_flight {state ssa : U8} {c c' : Cmds} {msgs : List (List U8)} (h : Cmds.send state ssa c = some (msgs, c')) :
    (∀ d ∈ msgs, ∀ m, sunModeIn d = some m → m = 1) ∧ ([14, 1] ∈ msgs ↔ ssa ≠ 1) := by
  obtain ⟨rwa, sf, rf, mc, ml, vf, mf, gf, gtf, gd, hrwa, hsf, hrf, hmc, hml, hvf, hmf, hgf, hgtf, hgd, rfl, rfl⟩ :=
    send_exact h
  obtain ⟨b1, rfl⟩ := sendByte_form hsf
  obtain ⟨b2, rfl⟩ := sendByte_form hrf
  obtain ⟨b3, rfl⟩ := sendByte_form hvf
  obtain ⟨b4, rfl⟩ := sendByte_form hmf
  obtain ⟨b5, rfl⟩ := sendByte_form hgf
  obtain ⟨b6, rfl⟩ := sendByte_form hgtf
  obtain ⟨b7, rfl⟩ := sendByte_form hgd
  have hany : (∃ u, rwa = [[3, c.rwaMode], 4 :: Cmds.vec6 u]) ∨ rwa = [] := by
    have key : ∀ v, Cmds.sendRwa c.rwaMode v = some rwa → ∃ u, rwa = [[3, c.rwaMode], 4 :: Cmds.vec6 u] := by
      intro v hv
      unfold Cmds.sendRwa at hv
      simp only [Option.map_eq_some_iff] at hv
      obtain ⟨u, _, rfl⟩ := hv
      exact ⟨u, rfl⟩
    split at hrwa
    · exact Or.inl (key _ hrwa)
    · split at hrwa
      · exact Or.inl (key _ hrwa)
      · split at hrwa
        · exact Or.inl (key _ hrwa)
        · exact Or.inr (by simpa using hrwa.symm)
  have base : ∀ d ∈ [[1, if state = sStartup then 0 else 1]] ++ rwa ++
        [[6, b1], [7, b2], [10, c.mtrMode], 11 :: Cmds.vec6 mc, 12 :: Cmds.lohi ml] ++ (if ssa ≠ 1 then [[14, 1]] else []) ++
        [[16, b3], [19, c.mag1Mode], [20, c.mag2Mode], [22, b4], [23, b5], [24, b6], [25, c.gyrPwm], [26, b7]] ++
        (if (List.range 19).any c.reset then [Cmds.sendTable 28 (Cmds.orTable c.reset 0)] else []) ++
        (if (List.range 19).any c.disable then
          [Cmds.sendTable 29 (Cmds.orTable c.disable (Cmds.orTable c.reset 0))] else []),
      sunModeIn d = none ∨ (d = [14, 1] ∧ ssa ≠ 1) := by
    intro m hm
    rw [List.mem_append, List.mem_append, List.mem_append, List.mem_append, List.mem_append, List.mem_append] at hm
    rcases hm with (((((hm | hm) | hm) | hm) | hm) | hm) | hm
    · simp only [List.mem_cons, List.not_mem_nil, or_false] at hm
      subst hm; exact .inl rfl
    · rcases hany with ⟨u, rfl⟩ | rfl
      · simp only [List.mem_cons, List.not_mem_nil, or_false] at hm
        rcases hm with rfl | rfl <;> exact .inl rfl
      · simp at hm
    · simp only [List.mem_cons, List.not_mem_nil, or_false] at hm
      rcases hm with rfl | rfl | rfl | rfl | rfl <;> exact .inl rfl
    · split_ifs at hm with h1
      · simp only [List.mem_cons, List.not_mem_nil, or_false] at hm
        exact .inr ⟨hm, h1⟩
      · simp at hm
    · simp only [List.mem_cons, List.not_mem_nil, or_false] at hm
      rcases hm with rfl | rfl | rfl | rfl | rfl | rfl | rfl | rfl <;> exact .inl rfl
    · split_ifs at hm
      · simp only [List.mem_cons, List.not_mem_nil, or_false] at hm
        subst hm; exact .inl rfl
      · simp at hm
    · split_ifs at hm
      · simp only [List.mem_cons, List.not_mem_nil, or_false] at hm
        subst hm; exact .inl rfl
      · simp at hm
  refine ⟨fun d hd m hm => ?_, fun hd => ?_, fun hne => ?_⟩
  · rcases base d hd with h | ⟨rfl, -⟩
    · rw [h] at hm; cases hm
    · exact (Option.some.inj hm).symm
  · rcases base _ hd with h | ⟨-, h⟩
    · cases h
    · exact h
  · rw [if_pos hne]
    simp

/-- Non-vacuity: there are settings for which the commands can be sent. -/
example : ((Cmds.send sDetumble 0 Cmds.init).map fun r => decide ([14, 1] ∈ r.1)) = some true := by decide +kernel

/-- C118, refuted in part: any other value written to the register is taken, and then the box never calculates a sun vector again and
takes no further request, whatever messages arrive and however long it runs: the register accepts a write only when it says
"complete" or "failed", and the main loop works only when it says "in progress". -/
theorem C118_counterexample_stuck (leader : Bool) (b : Box) (m : U8) (rest : List U8) (hm : b.regs.ssaMode = 0 ∨ b.regs.ssaMode = 2)
    (h0 : m ≠ 0) (h1 : m ≠ 1) (h2 : m ≠ 2) (hpc : b.pc ≠ .ssaStore) (evs : List Box.Ev) {b' : Box} {acts : List Act}
    (hrun : Box.run leader b (.recv (14 :: m :: rest) :: evs) = some (b', acts)) :
    b'.regs.ssaMode = m ∧ b'.regs.sunVec = b.regs.sunVec := by
  have key : ∀ (evs : List Box.Ev) (b : Box) (acts : List Act), b.regs.ssaMode = m → b.pc ≠ .ssaStore →
      Box.run leader b evs = some (b', acts) → b'.regs.ssaMode = m ∧ b'.regs.sunVec = b.regs.sunVec := by
    intro evs
    induction evs with
    | nil =>
      intro b acts hb _ hr
      simp only [Box.run, Option.some.injEq, Prod.mk.injEq] at hr
      rw [← hr.1]; exact ⟨hb, rfl⟩
    | cons ev evs ih =>
      intro b acts hb hpc hr
      obtain ⟨b0, a0, acts0, hs, hr0⟩ := run_cons hr
      have hk : b0.regs.sun = b.regs.sun ∧ b0.pc ≠ .ssaStore := by
        rcases sun_step hs with ⟨d, rfl, rfl⟩ | ⟨e, rfl, hs'⟩
        · have hsun := sun_receive b.regs d
          refine ⟨?_, hpc⟩
          rw [hsun]
          split
          · rw [if_neg (by rw [hb]; tauto)]
          · rfl
        · exact ⟨by rw [(sun_tick hs').1, if_neg hpc], not_store hs' (by rw [hb]; exact h1)⟩
      have k1 := congrArg Prod.fst hk.1
      have k2 := congrArg Prod.snd hk.1
      dsimp only at k1 k2
      obtain ⟨e1, e2⟩ := ih b0 acts0 (by rw [k1]; exact hb) hk.2 hr0
      exact ⟨e1, by rw [e2, k2]⟩
  obtain ⟨b0, a0, acts0, hs, hr0⟩ := run_cons hrun
  rcases sun_step hs with ⟨d, hd, rfl⟩ | ⟨e, he, -⟩
  · cases hd
    have hsun := sun_receive b.regs (14 :: m :: rest)
    have e : sunModeIn (14 :: m :: rest) = some m := rfl
    rw [e] at hsun
    dsimp only at hsun
    rw [if_pos (by tauto)] at hsun
    obtain ⟨e1, e2⟩ := key evs { b with regs := b.regs.receive (14 :: m :: rest) } acts0 (congrArg Prod.fst hsun) hpc hr0
    exact ⟨e1, e2.trans (congrArg Prod.snd hsun)⟩
  · cases he

example : (Box.run true (Box.boot true (fun _ => true)) (.recv (14 :: 7 :: []) :: .recv [14, 1] :: List.replicate 29 (.tick goodEnv))).isSome = true ∧
    (Box.boot true (fun _ => true)).pc ≠ .ssaStore := by decide +kernel

end PAN
