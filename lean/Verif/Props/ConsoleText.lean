import Verif.Model.ConsoleText

/-!
C141: every message and every error answer of the console carries a text of its own.
-/

namespace PAN
open ConsoleText

/-- A constant map gives the value of the first entry with the key, and ends the program exactly if there is no such entry. -/
theorem C141_lookup {K V : Type} [DecidableEq K] (m : List (K × V)) (k : K) :
    (∀ v, ConsoleText.lookup m k = some v ↔ ∃ before after, m = before ++ (k, v) :: after ∧ ∀ e ∈ before, e.1 ≠ k) ∧
    (ConsoleText.lookup m k = none ↔ ∀ e ∈ m, e.1 ≠ k) := by
  induction m with
  | nil =>
    refine ⟨fun v => ⟨fun h => (by cases h), ?_⟩, ⟨fun _ e he => (by cases he), fun _ => rfl⟩⟩
    rintro ⟨b, a, h, _⟩
    cases b <;> cases h
  | cons kv r ih =>
    obtain ⟨k', v'⟩ := kv
    unfold ConsoleText.lookup
    by_cases hk : k = k'
    · subst hk
      rw [if_pos rfl]
      refine ⟨fun v => ⟨fun h => ?_, ?_⟩, ⟨fun h => (by cases h), fun h => absurd rfl (h (k, v') (List.mem_cons_self ..))⟩⟩
      · cases h
        exact ⟨[], r, rfl, fun e he => by cases he⟩
      · rintro ⟨b, a, h, hb⟩
        cases b with
        | nil => cases h; rfl
        | cons e b => cases h; exact absurd rfl (hb _ (List.mem_cons_self ..))
    · rw [if_neg hk]
      refine ⟨fun v => ?_, ?_⟩
      · rw [ih.1 v]
        constructor
        · rintro ⟨b, a, h, hb⟩
          refine ⟨(k', v') :: b, a, by rw [h]; rfl, fun e he => ?_⟩
          rcases List.mem_cons.1 he with rfl | he
          · exact fun h => hk h.symm
          · exact hb e he
        · rintro ⟨b, a, h, hb⟩
          cases b with
          | nil => cases h; exact absurd rfl hk
          | cons e b =>
            cases h
            exact ⟨b, a, rfl, fun e he => hb e (List.mem_cons_of_mem _ he)⟩
      · rw [ih.2]
        constructor
        · intro h e he
          rcases List.mem_cons.1 he with rfl | he
          · exact fun h => hk h.symm
          · exact h e he
        · exact fun h e he => h e (List.mem_cons_of_mem _ he)

/-- A message of any severity is printed with a text for it, and messages of different severities with different texts. -/
theorem C141_severity (a : Severity) :
    ∃ t, ConsoleText.lookup severityStrs a = some (some t) ∧ ∀ b, ConsoleText.lookup severityStrs b = some (some t) → b = a := by
  cases a <;> exact ⟨_, rfl, fun b hb => by cases b <;> first | rfl | (exact absurd hb (by decide))⟩

/-- Every error answer of the console (`Console.Reply.error _ m e`) is printed with texts for the operation and for the error, and
no other operation or error has the same texts: they tell which it was. -/
theorem C141_answers (m : Console.CmdMode) (e : Console.Err) :
    ∃ t u, errorTexts m (code e) = some (some t, some u) ∧
      ∀ m' c, errorTexts m' c = some (some t, some u) → m' = m ∧ c = code e := by
  cases m <;> cases e <;>
    exact ⟨_, _, rfl, fun m' c h => by cases m' <;> cases c <;> first | exact ⟨rfl, rfl⟩ | (exact absurd h (by decide))⟩

/-- The code for a write to a field that can only be read has no text: reporting it would end the program. No answer uses it. -/
theorem C141_counterexample_read_only (m : Console.CmdMode) :
    errorTexts m .fieldIsOnlyReadable = none ∧ ∀ e, code e ≠ .fieldIsOnlyReadable := by
  refine ⟨by cases m <;> rfl, fun e => by cases e <;> decide⟩

/-! ### The hypotheses are met -/

/-- A line with two messages: a read of a field that does not exist and one without a mode. -/
example : ∃ s' out, Console.loop (σ := Unit) (fun v _ => some (true, v)) (fun _ => some ['1'])
    [⟨true, false, ⟨.byte 114, .text ['x'], .absent, 0⟩⟩, ⟨true, false, ⟨.absent, .text ['a'], .absent, 0⟩⟩] 5 0
    ⟨[(['a'], ())], [], 0⟩ [] = .done s' out ∧
    out = [.error (some ['x']) .read .invalidFieldName, .error (some ['a']) .unspecified .missingMode] :=
  ⟨_, _, rfl, rfl⟩

example : errorTexts .read .invalidFieldName = some (some "read", some "invalid field name") := rfl

end PAN
