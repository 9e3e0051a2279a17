import Verif.Model.Text
import Verif.Spec.Text
import Verif.Lemmas.Float32
import Mathlib.Tactic.Linarith
import Mathlib.Tactic.FieldSimp
import Mathlib.Tactic.IntervalCases
import Mathlib.Data.List.TakeWhile
/-! Facts about printing and reading decimal numbers. -/
namespace PAN.Text
open PAN.Spec

theorem toNat_digitChar {d : Nat} (h : d < 10) : (digitChar d).toNat = 48 + d := by
  interval_cases d <;> rfl

theorem decimal_append (s : List Char) (c : Char) : decimal (s ++ [c]) = 10 * decimal s + (c.toNat - 48) := by
  simp [decimal, List.foldl_append]

theorem digits_spec (n : Nat) : Digits (digits n) ∧ decimal (digits n) = n := by
  induction n using digits.induct with
  | case1 n h =>
    unfold digits
    rw [dif_pos h]
    have := toNat_digitChar h
    refine ⟨⟨by simp, ?_⟩, ?_⟩
    · intro c hc; simp at hc; subst hc; omega
    · simp [decimal, this]
  | case2 n h ih =>
    unfold digits
    rw [dif_neg h]
    have h10 : n % 10 < 10 := Nat.mod_lt _ (by norm_num)
    have := toNat_digitChar h10
    refine ⟨⟨by simp, ?_⟩, ?_⟩
    · intro c hc
      simp only [List.mem_append, List.mem_singleton] at hc
      rcases hc with hc | rfl
      · exact ih.1.2 c hc
      · omega
    · rw [decimal_append, ih.2, this]; omega

theorem digits_length_le {n k : Nat} (hk : 1 ≤ k) (h : n < 10 ^ k) : (digits n).length ≤ k := by
  induction n using digits.induct generalizing k with
  | case1 n h' => unfold digits; rw [dif_pos h']; simpa using hk
  | case2 n h' ih =>
    unfold digits
    rw [dif_neg h']
    obtain ⟨j, rfl⟩ : ∃ j, k = j + 1 := ⟨k - 1, by omega⟩
    have hj : 1 ≤ j := by
      by_contra hc
      have : j = 0 := by omega
      subst this; simp at h; omega
    have := ih hj (by rw [pow_succ] at h; omega)
    simp; exact this

theorem lt_digits_length {n k : Nat} (h : 10 ^ k ≤ n) : k < (digits n).length := by
  induction n using digits.induct generalizing k with
  | case1 n h' =>
    unfold digits; rw [dif_pos h']
    have : k = 0 := by
      by_contra hc
      have : 10 ^ 1 ≤ 10 ^ k := Nat.pow_le_pow_right (by norm_num) (by omega)
      omega
    subst this; simp
  | case2 n h' ih =>
    unfold digits
    rw [dif_neg h']
    rw [List.length_append, List.length_singleton]
    rcases k with _ | k
    · omega
    · have := ih (k := k) (by rw [pow_succ] at h; omega)
      omega

theorem digits_ne_nil (n : Nat) : digits n ≠ [] := (digits_spec n).1.1

theorem digits_head {n : Nat} (h : n ≠ 0) : (digits n).head? ≠ some '0' := by
  induction n using digits.induct with
  | case1 n h' =>
    unfold digits; rw [dif_pos h']
    intro hc
    have hd : digitChar n = '0' := by simpa using hc
    have := toNat_digitChar h'
    rw [hd] at this
    have : ('0' : Char).toNat = 48 := rfl
    omega
  | case2 n h' ih =>
    unfold digits; rw [dif_neg h']
    have := ih (by omega)
    rw [List.head?_append]
    cases hh : (digits (n / 10)).head? with
    | none => exact absurd (List.head?_eq_none_iff.1 hh) (digits_ne_nil _)
    | some c => rw [hh] at this; simpa using this

theorem canonical_digits (n : Nat) : Canonical (digits n) := by
  constructor
  · intro hc
    have : '+' ∈ digits n := List.mem_of_head? hc
    have := (digits_spec n).1.2 _ this
    have e : ('+' : Char).toNat = 43 := rfl
    omega
  · intro hc
    by_cases h : n = 0
    · subst h; rw [digits]; rfl
    · exact absurd hc (digits_head h)

theorem lastDigits_spec (k n : Nat) : (lastDigits k n).length = k ∧ (∀ c ∈ lastDigits k n, 48 ≤ c.toNat ∧ c.toNat ≤ 57) ∧
    decimal (lastDigits k n) = n % 10 ^ k := by
  induction k generalizing n with
  | zero => simp [lastDigits, decimal, Nat.mod_one]
  | succ k ih =>
    obtain ⟨h1, h2, h3⟩ := ih (n / 10)
    have h10 : n % 10 < 10 := Nat.mod_lt _ (by norm_num)
    have hd := toNat_digitChar h10
    refine ⟨by simp [lastDigits, h1], ?_, ?_⟩
    · intro c hc
      simp only [lastDigits, List.mem_append, List.mem_singleton] at hc
      rcases hc with hc | rfl
      · exact h2 c hc
      · omega
    · rw [lastDigits, decimal_append, h3, hd]
      have e : n % 10 ^ (k + 1) = n % 10 + 10 * ((n / 10) % 10 ^ k) := by
        rw [pow_succ, mul_comm (10 ^ k) 10, Nat.mod_mul]
      omega

theorem isDig_iff (c : Char) : isDig c = true ↔ 48 ≤ c.toNat ∧ c.toNat ≤ 57 := by simp [isDig]

/-- Reading a run of digits that ends there. -/
theorem scanDigits_run (acc : Nat) (s rest : List Char) (hs : ∀ c ∈ s, 48 ≤ c.toNat ∧ c.toNat ≤ 57)
    (hr : ∀ c, rest.head? = some c → isDig c = false) :
    scanDigits acc (s ++ rest) = (s.foldl (fun a c => 10 * a + (c.toNat - 48)) acc, s.length, rest) := by
  induction s generalizing acc with
  | nil =>
    cases rest with
    | nil => rfl
    | cons c r =>
      have := hr c rfl
      simp [scanDigits, this]
  | cons c s ih =>
    have hc := (isDig_iff c).2 (hs c (by simp))
    rw [List.cons_append, scanDigits, if_pos hc, ih _ (fun c hc => hs c (by simp [hc]))]
    simp

/-- The run of digits found, and that it is the longest. -/
theorem scanDigits_split (s : List Char) : ∃ a b, s = a ++ b ∧ (∀ c ∈ a, 48 ≤ c.toNat ∧ c.toNat ≤ 57) ∧
    (∀ c, b.head? = some c → isDig c = false) := by
  refine ⟨s.takeWhile isDig, s.dropWhile isDig, (List.takeWhile_append_dropWhile).symm, ?_, ?_⟩
  · intro c hc
    exact (isDig_iff c).1 (by have := List.mem_takeWhile_imp hc; exact this)
  · intro c hc
    have := List.head?_dropWhile_not isDig s
    rw [hc] at this
    simpa using this

theorem isSpace_not_digit {c : Char} (h : 48 ≤ c.toNat) : isSpace c = false := by
  unfold isSpace
  have h1 : c ≠ ' ' := by rintro rfl; exact absurd h (by decide)
  simp [h1]; omega

/-- White space is skipped up to the first other character. -/
theorem skipSpace_run (ws s : List Char) (hw : ∀ c ∈ ws, isSpace c = true) (hs : ∀ c, s.head? = some c → isSpace c = false) :
    skipSpace (ws ++ s) = s := by
  unfold skipSpace
  induction ws with
  | nil =>
    cases s with
    | nil => rfl
    | cons c s => simp [hs c rfl]
  | cons c ws ih =>
    rw [List.cons_append, List.dropWhile_cons_of_pos (hw c (by simp))]
    exact ih (fun c hc => hw c (by simp [hc]))

theorem scanSign_digit {s : List Char} (h : ∀ c, s.head? = some c → c ≠ '-' ∧ c ≠ '+') : scanSign s = (false, s) := by
  unfold scanSign
  split
  · exact absurd rfl (h '-' rfl).1
  · exact absurd rfl (h '+' rfl).2
  · rfl

theorem digits_head_ge {s r : List Char} (h : Digits s) : ∀ c, (s ++ r).head? = some c → 48 ≤ c.toNat ∧ c.toNat ≤ 57 := by
  intro c hc
  obtain ⟨h1, h2⟩ := h
  cases s with
  | nil => exact absurd rfl h1
  | cons d s =>
    simp at hc; subst hc
    exact h2 d (by simp)

theorem not_sign_of_ge {c : Char} (h : 48 ≤ c.toNat) : c ≠ '-' ∧ c ≠ '+' := by
  constructor <;> (rintro rfl; exact absurd h (by decide))

/-- Reading a whole number. -/
theorem scanInt_writes {lo hi : Int} (ws s rest : List Char) (n : Int) (hw : ∀ c ∈ ws, isSpace c = true) (hs : WritesInt s n)
    (hr : ∀ c, rest.head? = some c → isDig c = false) :
    scanInt lo hi (ws ++ s ++ rest) = if n < lo ∨ hi < n then .undef else .val n rest := by
  have key : ∀ (t : List Char) (neg : Bool), Digits t → (∀ c, s.head? = some c → isSpace c = false) →
      scanSign (s ++ rest) = (neg, t ++ rest) → s ≠ [] → n = (if neg then -(decimal t : Int) else decimal t) →
      scanInt lo hi (ws ++ s ++ rest) = if n < lo ∨ hi < n then .undef else .val n rest := by
    intro t neg ht hsp hsign hne hn
    unfold scanInt
    rw [List.append_assoc, skipSpace_run ws (s ++ rest) hw (by
      intro c hc
      cases s with
      | nil => exact absurd rfl hne
      | cons d s => exact hsp c (by simpa using hc))]
    rw [hsign]
    dsimp only
    rw [scanDigits_run 0 t rest ht.2 hr]
    dsimp only
    rw [if_neg (by have := ht.1; simpa using this), show (t.foldl (fun a c => 10 * a + (c.toNat - 48)) 0) = decimal t from rfl, ← hn]
  cases hs with
  | plain _ hd =>
    refine key s false hd (fun c hc => isSpace_not_digit (digits_head_ge (r := []) hd c (by simpa using hc)).1) ?_ hd.1 (by simp)
    exact scanSign_digit (fun c hc => not_sign_of_ge (digits_head_ge hd c hc).1)
  | plus t hd =>
    exact key t false hd (by intro c hc; simp at hc; subst hc; decide) rfl (by simp) (by simp)
  | minus t hd =>
    exact key t true hd (by intro c hc; simp at hc; subst hc; decide) rfl (by simp) (by simp)

/-- A failure means that no number starts there. -/
theorem scanInt_fail {lo hi : Int} {s : List Char} (h : scanInt lo hi s = .fail) :
    ¬∃ ws t rest n, s = ws ++ t ++ rest ∧ (∀ c ∈ ws, isSpace c = true) ∧ WritesInt t n := by
  rintro ⟨ws, t, rest, n, rfl, hw, ht⟩
  -- take the longest run of digits
  obtain ⟨a, b, hab, ha, hb⟩ := scanDigits_split rest
  have hd : ∀ u, Digits u → Digits (u ++ a) := fun u hu => ⟨by have := hu.1; simp [this], by
    intro c hc
    rcases List.mem_append.1 hc with hc | hc
    · exact hu.2 c hc
    · exact ha c hc⟩
  have : ∃ m, WritesInt (t ++ a) m := by
    cases ht with
    | plain _ h' => exact ⟨_, .plain _ (hd _ h')⟩
    | plus u h' => exact ⟨_, .plus (u ++ a) (hd _ h')⟩
    | minus u h' => exact ⟨_, .minus (u ++ a) (hd _ h')⟩
  obtain ⟨m, hm⟩ := this
  have e : ws ++ t ++ rest = ws ++ (t ++ a) ++ b := by rw [hab]; simp
  rw [e, scanInt_writes ws (t ++ a) b m hw hm hb] at h
  split at h <;> exact absurd h (by simp)

/-- Everything else is a failure. -/
theorem scanInt_fail_of {lo hi : Int} {s : List Char}
    (h : ¬∃ ws t rest n, s = ws ++ t ++ rest ∧ (∀ c ∈ ws, isSpace c = true) ∧ WritesInt t n) : scanInt lo hi s = .fail := by
  by_contra hc
  apply h
  have hsplit : s = s.takeWhile isSpace ++ skipSpace s := (List.takeWhile_append_dropWhile).symm
  have hws : ∀ c ∈ s.takeWhile isSpace, isSpace c = true := fun c hc => List.mem_takeWhile_imp hc
  unfold scanInt at hc
  generalize hu : skipSpace s = u at hc hsplit
  -- the digits after the sign
  have key : ∀ (r : List Char), (scanDigits 0 r).2.1 ≠ 0 → ∃ t rest, r = t ++ rest ∧ Digits t := by
    intro r hr
    obtain ⟨a, b, hab, ha, hb⟩ := scanDigits_split r
    refine ⟨a, b, hab, ?_, ha⟩
    rintro rfl
    apply hr
    rw [hab, scanDigits_run 0 [] b ha hb]
    rfl
  have hne : (scanDigits 0 (scanSign u).2).2.1 ≠ 0 := by
    intro h0
    apply hc
    rw [show scanSign u = ((scanSign u).1, (scanSign u).2) from rfl]
    dsimp only
    rw [show scanDigits 0 (scanSign u).2 = ((scanDigits 0 (scanSign u).2).1, (scanDigits 0 (scanSign u).2).2.1, (scanDigits 0 (scanSign u).2).2.2) from rfl]
    dsimp only
    rw [if_pos h0]
  obtain ⟨t, rest, htr, ht⟩ := key _ hne
  rw [hsplit]
  unfold scanSign at htr
  split at htr
  · dsimp only at htr; subst htr
    exact ⟨_, '-' :: t, rest, _, by simp, hws, .minus t ht⟩
  · dsimp only at htr; subst htr
    exact ⟨_, '+' :: t, rest, _, by simp, hws, .plus t ht⟩
  · dsimp only at htr; subst htr
    exact ⟨_, t, rest, _, by simp, hws, .plain t ht⟩

theorem printInt_writes (n : Int) : WritesInt (printInt n) n ∧ Canonical (printInt n) := by
  unfold printInt
  split
  · rename_i h
    constructor
    · have := WritesInt.minus _ (digits_spec n.natAbs).1
      rw [(digits_spec n.natAbs).2] at this
      have e : -((n.natAbs : ℕ) : ℤ) = n := by omega
      rwa [e] at this
    · constructor <;> simp
  · rename_i h
    constructor
    · have := WritesInt.plain _ (digits_spec n.natAbs).1
      rw [(digits_spec n.natAbs).2] at this
      have e : ((n.natAbs : ℕ) : ℤ) = n := by omega
      rwa [e] at this
    · exact canonical_digits _

/-- The characters that do not continue a number. -/
def Ends (c : Char) : Prop := isDig c = false ∧ isExp c = false ∧ c ≠ '.'

theorem scanFraction_none {r : List Char} (h : ∀ c, r.head? = some c → c ≠ '.') : scanFraction r = (0, 0, r) := by
  unfold scanFraction
  split
  · exact absurd rfl (h '.' rfl)
  · rfl

theorem Digits.mem {s : List Char} (h : Digits s) : ∀ c ∈ s, 48 ≤ c.toNat ∧ c.toNat ≤ 57 := h.2

/-- The digits and the point of a number. -/
theorem scan_unsigned {s : List Char} {q : ℚ} (h : WritesUnsigned s q) (t : List Char)
    (ht : ∀ c, t.head? = some c → isDig c = false ∧ c ≠ '.') :
    ∃ v n r1 f k, scanDigits 0 (s ++ t) = (v, n, r1) ∧ scanFraction r1 = (f, k, t) ∧ n + k ≠ 0 ∧ (v : ℚ) + f / 10 ^ k = q := by
  cases h with
  | whole _ ha =>
    refine ⟨_, _, _, 0, 0, scanDigits_run 0 s t ha.2 (fun c hc => (ht c hc).1), scanFraction_none (fun c hc => (ht c hc).2), ?_, ?_⟩
    · have := ha.1; simpa using this
    · simp [decimal]
  | point a b hab =>
    refine ⟨_, _, _, _, _, (by
      rw [List.append_assoc]
      exact scanDigits_run 0 a ('.' :: b ++ t) (fun c hc => hab.2 c (List.mem_append_left _ hc))
        (by intro c hc; simp at hc; subst hc; decide)),
      (show scanFraction ('.' :: (b ++ t)) = _ from
        scanDigits_run 0 b t (fun c hc => hab.2 c (List.mem_append_right _ hc)) (fun c hc => (ht c hc).1)), ?_, ?_⟩
    · have := hab.1
      simp only [ne_eq, List.append_eq_nil_iff] at this
      simp only [ne_eq, Nat.add_eq_zero_iff, List.length_eq_zero_iff]
      exact this
    · rfl

theorem scanExp_none {t : List Char} (h : ∀ c, t.head? = some c → isExp c = false) : scanExp t = some (0, t) := by
  cases t with
  | nil => rfl
  | cons c r =>
    have := h c rfl
    simp only [isExp, Bool.or_eq_false_iff, decide_eq_false_iff_not] at this
    simp only [scanExp]
    rw [if_neg (by tauto), if_neg (by tauto)]

theorem scanExp_power {c : Char} (hc : c = 'e' ∨ c = 'E') {e : List Char} {n : ℤ} (he : WritesInt e n) (t : List Char)
    (ht : ∀ c, t.head? = some c → isDig c = false) : scanExp (c :: (e ++ t)) = some (n, t) := by
  have key : ∀ (a : List Char) (neg : Bool), Digits a → scanSign (e ++ t) = (neg, a ++ t) →
      n = (if neg then -(decimal a : ℤ) else decimal a) → scanExp (c :: (e ++ t)) = some (n, t) := by
    intro a neg ha hs hn
    have hx : ¬(c = 'x' ∨ c = 'X') := by rcases hc with rfl | rfl <;> decide
    simp only [scanExp]
    rw [if_neg hx, if_pos hc, hs]
    dsimp only
    rw [scanDigits_run 0 a t ha.2 ht]
    dsimp only
    rw [if_neg (by have := ha.1; simpa using this), hn]
    rfl
  cases he with
  | plain _ ha =>
    refine key e false ha ?_ (by simp)
    exact scanSign_digit (fun c hc => not_sign_of_ge (digits_head_ge ha c hc).1)
  | plus a ha => exact key a false ha (by simp [scanSign]) (by simp)
  | minus a ha => exact key a true ha (by simp [scanSign]) (by simp)

theorem scan_scaled {s : List Char} {q : ℚ} (h : WritesScaled s q) (t : List Char) (ht : ∀ c, t.head? = some c → Ends c) :
    scanNumber (s ++ t) = .val q t := by
  cases h with
  | plain _ _ h =>
    obtain ⟨v, n, r1, f, k, h1, h2, h3, h4⟩ := scan_unsigned h t (fun c hc => ⟨(ht c hc).1, (ht c hc).2.2⟩)
    unfold scanNumber
    rw [h1]; dsimp only
    rw [h2]; dsimp only
    rw [if_neg h3, scanExp_none (fun c hc => (ht c hc).2.1)]
    dsimp only
    rw [h4, zpow_zero, mul_one]
  | power u p c e m h hc he =>
    have hd : isDig c = false ∧ c ≠ '.' := by rcases hc with rfl | rfl <;> decide
    obtain ⟨v, n, r1, f, k, h1, h2, h3, h4⟩ := scan_unsigned h (c :: (e ++ t)) (by
      intro d hd'
      simp only [List.head?_cons, Option.some.injEq] at hd'
      rw [← hd']; exact hd)
    unfold scanNumber
    rw [show u ++ c :: e ++ t = u ++ c :: (e ++ t) from by simp, h1]; dsimp only
    rw [h2]; dsimp only
    rw [if_neg h3, scanExp_power hc he t (fun c hc => (ht c hc).1)]
    dsimp only
    rw [h4]

/-- A number without sign starts with a digit or the point. -/
theorem scaled_head {s r : List Char} {q : ℚ} (h : WritesScaled s q) : ∃ c, (s ++ r).head? = some c ∧ ((48 ≤ c.toNat ∧ c.toNat ≤ 57) ∨ c = '.') := by
  have key : ∀ {u : List Char} {p : ℚ}, WritesUnsigned u p → ∀ t, ∃ c, (u ++ t).head? = some c ∧ ((48 ≤ c.toNat ∧ c.toNat ≤ 57) ∨ c = '.') := by
    intro u p hu t
    cases hu with
    | whole _ ha =>
      match u, ha with
      | c :: _, ha => exact ⟨c, rfl, .inl (ha.2 c (by simp))⟩
      | [], ha => exact absurd rfl ha.1
    | point a b hab =>
      match a, hab with
      | [], _ => exact ⟨'.', rfl, .inr rfl⟩
      | c :: _, hab => exact ⟨c, rfl, .inl (hab.2 c (by simp))⟩
  cases h with
  | plain _ _ h => exact key h r
  | power u p c e m h hc he =>
    rw [List.append_assoc]
    exact key h _

/-- Reading a decimal number. -/
theorem scanReal_real (ws s rest : List Char) (q : ℚ) (hw : ∀ c ∈ ws, isSpace c = true) (hs : WritesReal s q)
    (hr : ∀ c, rest.head? = some c → Ends c) : scanReal (ws ++ s ++ rest) = .val q rest := by
  have key : ∀ (u : List Char) (p : ℚ) (neg : Bool), WritesScaled u p → (∀ c, (s ++ rest).head? = some c → isSpace c = false) →
      scanSign (s ++ rest) = (neg, u ++ rest) → q = (if neg then -p else p) → scanReal (ws ++ s ++ rest) = .val q rest := by
    intro u p neg hu hsp hsign hq
    unfold scanReal
    rw [List.append_assoc, skipSpace_run ws (s ++ rest) hw hsp, hsign]
    dsimp only
    rw [scan_scaled hu rest hr, hq]
  cases hs with
  | plain _ _ h =>
    obtain ⟨c, hc, hc'⟩ := scaled_head (r := rest) h
    refine key s q false h ?_ (scanSign_digit ?_) (by simp)
    · intro d hd
      rw [hc, Option.some.injEq] at hd; subst hd
      rcases hc' with h1 | rfl
      · exact isSpace_not_digit h1.1
      · decide
    · intro d hd
      rw [hc, Option.some.injEq] at hd; subst hd
      rcases hc' with h1 | rfl
      · exact not_sign_of_ge h1.1
      · decide
  | plus u p h => exact key u q false h (by intro c hc; simp at hc; subst hc; decide) (by simp [scanSign]) (by simp)
  | minus u p h => exact key u p true h (by intro c hc; simp at hc; subst hc; decide) (by simp [scanSign]) (by simp)

/-- Only decimal numbers are read as numbers. -/
theorem scanReal_fail_of {s : List Char}
    (h : ¬∃ ws t rest q, s = ws ++ t ++ rest ∧ (∀ c ∈ ws, isSpace c = true) ∧ WritesReal t q)
    (hin : ¬∃ ws sg c rest, s = ws ++ sg ++ c :: rest ∧ (∀ c ∈ ws, isSpace c = true) ∧ (sg = [] ∨ sg = ['+'] ∨ sg = ['-']) ∧
      c ∈ ['i', 'I', 'n', 'N']) : scanReal s = .fail := by
  have hsplit : s = s.takeWhile isSpace ++ skipSpace s := (List.takeWhile_append_dropWhile).symm
  have hws : ∀ c ∈ s.takeWhile isSpace, isSpace c = true := fun c hc => List.mem_takeWhile_imp hc
  -- the sign and what follows it
  obtain ⟨sg, r, neg, hu, hsg, hscan⟩ : ∃ sg r neg, skipSpace s = sg ++ r ∧
      ((sg = [] ∧ neg = false) ∨ (sg = ['+'] ∧ neg = false) ∨ (sg = ['-'] ∧ neg = true)) ∧ scanSign (skipSpace s) = (neg, r) := by
    unfold scanSign
    split
    · rename_i r hr; exact ⟨['-'], r, true, by rw [hr]; rfl, by simp, rfl⟩
    · rename_i r hr; exact ⟨['+'], r, false, by rw [hr]; rfl, by simp, rfl⟩
    · exact ⟨[], _, false, rfl, by simp, rfl⟩
  have hsg' : sg = [] ∨ sg = ['+'] ∨ sg = ['-'] := by tauto
  have hno : ∀ t rest q, r = t ++ rest → ¬WritesScaled t q := by
    intro t rest q hr ht
    apply h
    rcases hsg' with rfl | rfl | rfl
    · exact ⟨_, t, rest, q, by rw [List.append_assoc, ← hr]; rw [hu] at hsplit; simpa using hsplit, hws, .plain _ _ ht⟩
    · exact ⟨_, '+' :: t, rest, q, by rw [hu, hr] at hsplit; simpa using hsplit, hws, .plus _ _ ht⟩
    · exact ⟨_, '-' :: t, rest, -q, by rw [hu, hr] at hsplit; simpa using hsplit, hws, .minus _ _ ht⟩
  obtain ⟨a, t, hat, ha, htd⟩ := scanDigits_split r
  have ha0 : a = [] := by
    by_contra hne
    exact hno a t _ hat (.plain _ _ (.whole a ⟨hne, ha⟩))
  subst ha0
  have h1 : scanDigits 0 r = (0, 0, r) := by
    rw [hat]
    exact scanDigits_run 0 [] t (by simp) htd
  have h2 : (scanFraction r).2.1 = 0 := by
    unfold scanFraction
    split
    · rename_i r'
      obtain ⟨b, t', hbt, hb, htd'⟩ := scanDigits_split r'
      have hb0 : b = [] := by
        by_contra hne
        exact hno ('.' :: b) t' _ (by rw [hbt]; rfl) (.plain _ _ (.point [] b ⟨by simpa using hne, by simpa using hb⟩))
      rw [hbt, hb0, scanDigits_run 0 [] t' (by simp) (by rw [hb0] at hbt; exact htd')]
      rfl
    · rfl
  unfold scanReal
  rw [hscan]
  dsimp only
  have : scanNumber r = .fail := by
    unfold scanNumber
    rw [h1]
    dsimp only
    rw [show scanFraction r = ((scanFraction r).1, (scanFraction r).2.1, (scanFraction r).2.2) from rfl]
    dsimp only
    rw [h2, if_pos rfl]
    match r, hu with
    | [], _ => rfl
    | c :: rest, hu =>
      dsimp only
      rw [if_neg]
      intro hc
      apply hin
      refine ⟨_, sg, c, rest, ?_, hws, hsg', by simpa using hc⟩
      rw [hu] at hsplit
      simpa using hsplit
  rw [this]

/-- Reading a decimal fraction. -/
theorem scanReal_writes (ws s rest : List Char) (q : ℚ) (hw : ∀ c ∈ ws, isSpace c = true) (hs : WritesFraction s q)
    (hr : ∀ c, rest.head? = some c → Ends c) : scanReal (ws ++ s ++ rest) = .val q rest := by
  refine scanReal_real ws s rest q hw ?_ hr
  have hab : ∀ {a b}, Digits a → Digits b → Digits (a ++ b) := fun ha hb =>
    ⟨by simp [ha.1], fun c hc => (List.mem_append.1 hc).elim (ha.2 c) (hb.2 c)⟩
  cases hs with
  | plain a b ha hb => exact .plain _ _ (.plain _ _ (.point a b (hab ha hb)))
  | minus a b ha hb => exact .minus _ _ (.plain _ _ (.point a b (hab ha hb)))

/-- The value of a finite number. -/
def Num.value (neg : Bool) (a : ℚ) : ℚ := if neg then -a else a

theorem rne_toNat {a : ℚ} (ha : 0 ≤ a) : ((rne a).toNat : ℤ) = rne a := by
  have : 0 ≤ rne a := by
    have := rne_mono ha
    have e := rne_int 0
    simp at e
    omega
  omega

theorem print6_writes (neg : Bool) (a : ℚ) (ha : 0 ≤ a) :
    ∃ q, WritesFraction (print6 (.fin neg a)) q ∧ |q - Num.value neg a| ≤ 1 / 2 / 10 ^ 6 := by
  have ha6 : 0 ≤ a * 10 ^ 6 := by positivity
  obtain ⟨m, hm⟩ : ∃ m, m = (rne (a * 10 ^ 6)).toNat := ⟨_, rfl⟩
  have hmz : (m : ℚ) = (rne (a * 10 ^ 6) : ℚ) := by
    have := rne_toNat ha6
    rw [← hm] at this
    exact_mod_cast this
  have hd := digits_spec (m / 10 ^ 6)
  obtain ⟨l1, l2, l3⟩ := lastDigits_spec 6 (m % 10 ^ 6)
  have hb : Digits (lastDigits 6 (m % 10 ^ 6)) := ⟨by intro h; rw [h] at l1; simp at l1, l2⟩
  have hval : (decimal (digits (m / 10 ^ 6)) + decimal (lastDigits 6 (m % 10 ^ 6)) / 10 ^ (lastDigits 6 (m % 10 ^ 6)).length : ℚ) =
      m / 10 ^ 6 := by
    rw [hd.2, l3, l1, Nat.mod_mod]
    have : (m : ℚ) = ((10 ^ 6 * (m / 10 ^ 6) + m % 10 ^ 6 : ℕ) : ℚ) := by rw [Nat.div_add_mod]
    generalize m / 10 ^ 6 = u at *
    generalize m % 10 ^ 6 = w at *
    rw [this]
    push_cast
    field_simp
    norm_num
  have herr : |(m : ℚ) / 10 ^ 6 - a| ≤ 1 / 2 / 10 ^ 6 := by
    have h1 := rne_err (a * 10 ^ 6)
    rw [← hmz] at h1
    have : (m : ℚ) / 10 ^ 6 - a = (m - a * 10 ^ 6) / 10 ^ 6 := by field_simp
    rw [this, abs_div, abs_of_pos (by norm_num : (0 : ℚ) < 10 ^ 6)]
    exact div_le_div_of_nonneg_right h1 (by norm_num)
  unfold print6 Num.value
  dsimp only
  rw [← hm]
  cases neg
  · refine ⟨(m : ℚ) / 10 ^ 6, ?_, by simpa using herr⟩
    have := WritesFraction.plain _ _ hd.1 hb
    rw [hval] at this
    simpa using this
  · refine ⟨-((m : ℚ) / 10 ^ 6), ?_, ?_⟩
    · have := WritesFraction.minus _ _ hd.1 hb
      rw [hval] at this
      simpa using this
    · have e : -((m : ℚ) / 10 ^ 6) - (if true = true then -a else a) = -((m : ℚ) / 10 ^ 6 - a) := by simp; ring
      rw [e, abs_neg]; exact herr

/-- The length of a printed number. -/
theorem print6_length (neg : Bool) (a : ℚ) : (print6 (.fin neg a)).length =
    (if neg then 1 else 0) + (digits ((rne (a * 10 ^ 6)).toNat / 10 ^ 6)).length + 7 := by
  unfold print6
  dsimp only
  obtain ⟨l1, -, -⟩ := lastDigits_spec 6 ((rne (a * 10 ^ 6)).toNat % 10 ^ 6)
  rw [List.length_append, List.length_append, List.length_cons, l1]
  cases neg <;> simp

theorem print6_length_le (neg : Bool) (a : ℚ) (k : ℕ) (hk : 1 ≤ k) (h0 : 0 ≤ a) (h : a ≤ 10 ^ k - 1) :
    (print6 (.fin neg a)).length ≤ (if neg then 1 else 0) + k + 7 := by
  rw [print6_length]
  have h1 : rne (a * 10 ^ 6) ≤ ((10 ^ k - 1) * 10 ^ 6 : ℤ) := by
    have := rne_mono (x := a * 10 ^ 6) (y := (((10 ^ k - 1) * 10 ^ 6 : ℤ) : ℚ)) (by push_cast; nlinarith)
    rwa [rne_int] at this
  have h2 : (rne (a * 10 ^ 6)).toNat / 10 ^ 6 < 10 ^ k := by
    have hp : 1 ≤ (10 : ℕ) ^ k := Nat.one_le_pow _ _ (by norm_num)
    have : (rne (a * 10 ^ 6)).toNat ≤ (10 ^ k - 1) * 10 ^ 6 := by
      have : ((((10 ^ k - 1) * 10 ^ 6 : ℕ)) : ℤ) = (10 ^ k - 1) * 10 ^ 6 := by push_cast [Nat.cast_sub hp]; rfl
      omega
    generalize (10 : ℕ) ^ k = p at *
    omega
  have := digits_length_le hk h2
  omega

theorem le_print6_length (neg : Bool) (a : ℚ) (k : ℕ) (h : 10 ^ k ≤ a) :
    (if neg then 1 else 0) + (k + 1) + 7 ≤ (print6 (.fin neg a)).length := by
  rw [print6_length]
  have h1 : ((10 ^ k * 10 ^ 6 : ℤ)) ≤ rne (a * 10 ^ 6) := by
    have := rne_mono (x := (((10 ^ k * 10 ^ 6 : ℤ)) : ℚ)) (y := a * 10 ^ 6) (by push_cast; nlinarith)
    rwa [rne_int] at this
  have h2 : 10 ^ k ≤ (rne (a * 10 ^ 6)).toNat / 10 ^ 6 := by
    have : 10 ^ k * 10 ^ 6 ≤ (rne (a * 10 ^ 6)).toNat := by
      have : (((10 ^ k * 10 ^ 6 : ℕ)) : ℤ) = 10 ^ k * 10 ^ 6 := by push_cast; rfl
      omega
    generalize (10 : ℕ) ^ k = p at *
    omega
  have := lt_digits_length h2
  omega

end PAN.Text
