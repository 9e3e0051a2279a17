import Verif.Lemmas.Text
import Verif.Props.Serializer
/-!
C105: the text of a field says its value, and text that is read back gives that value again; C106: printing a field stays within
its buffer.
-/
namespace PAN
open Text Spec

/-! ### C105: printing -/

theorem digits_fit (k : ℕ) (hk : 1 ≤ k) {n : ℕ} (h : n < 10 ^ k) : intoBuffer (k + 1) (digits n) = some (digits n) := by
  unfold intoBuffer
  rw [if_pos (by have := digits_length_le hk h; omega)]

theorem printInt_length_le {n : Int} (k : ℕ) (hk : 1 ≤ k) (h : n.natAbs < 10 ^ k) :
    (printInt n).length ≤ (if n < 0 then 1 else 0) + k := by
  have := digits_length_le hk h
  unfold printInt
  split <;> simp <;> omega

/-- C105, C106. An integer field of any type prints its value, in the shortest decimal notation, within its buffer. -/
theorem C105_print_integer (k : IntKind) (n : Int) (h : k.InRange n) :
    ∃ s, printInteger k n = some s ∧ WritesInt s n ∧ Canonical s := by
  cases k
  · have hn : 0 ≤ n ∧ n < 2 ^ 32 := by simp only [IntKind.InRange, IntKind.cast] at h; omega
    refine ⟨digits n.toNat, digits_fit 10 (by norm_num) (by omega), ?_, canonical_digits _⟩
    have := WritesInt.plain _ (digits_spec n.toNat).1
    rw [(digits_spec n.toNat).2] at this
    rwa [Int.toNat_of_nonneg hn.1] at this
  · have hn : -2 ^ 31 ≤ n ∧ n < 2 ^ 31 := by simp only [IntKind.InRange, IntKind.cast] at h; omega
    refine ⟨printInt n, ?_, printInt_writes n⟩
    show intoBuffer 12 _ = _
    unfold intoBuffer
    rw [if_pos]
    have := printInt_length_le (n := n) 10 (by norm_num) (by omega)
    split at this <;> omega
  · have hn : 0 ≤ n ∧ n < 2 ^ 8 := by simp only [IntKind.InRange, IntKind.cast] at h; omega
    refine ⟨digits n.toNat, digits_fit 3 (by norm_num) (by omega), ?_, canonical_digits _⟩
    have := WritesInt.plain _ (digits_spec n.toNat).1
    rw [(digits_spec n.toNat).2] at this
    rwa [Int.toNat_of_nonneg hn.1] at this
  · have hn : -2 ^ 7 ≤ n ∧ n < 2 ^ 7 := by simp only [IntKind.InRange, IntKind.cast] at h; omega
    refine ⟨printInt n, ?_, printInt_writes n⟩
    show intoBuffer 5 _ = _
    unfold intoBuffer
    rw [if_pos]
    have := printInt_length_le (n := n) 3 (by norm_num) (by omega)
    split at this <;> omega

example : IntKind.InRange .schar (-128) ∧ IntKind.InRange .uint 4294967295 := by decide

/-- C105. A finite number prints as a decimal fraction within half a millionth of it. -/
theorem C105_print_real (neg : Bool) (a : ℚ) (h : 0 ≤ a) (s : List Char) (hs : printReal (.fin neg a) = some s) :
    ∃ q, WritesFraction s q ∧ |q - (if neg then -a else a)| ≤ 1 / 2 / 10 ^ 6 := by
  unfold printReal intoBuffer at hs
  split at hs
  · cases hs; exact print6_writes neg a h
  · exact absurd hs (by simp)

/-! ### C105: reading -/

theorem Text.white_iff (c : Char) : isSpace c = true ↔ White c := by
  have hc : ∀ d : Char, c = d ↔ c.toNat = d.toNat := fun d => Char.toNat_inj.symm
  simp only [isSpace, White, hc, Bool.or_eq_true, decide_eq_true_eq, Bool.and_eq_true]
  have e1 : ' '.toNat = 32 := rfl
  have e2 : '\t'.toNat = 9 := rfl
  have e3 : '\n'.toNat = 10 := rfl
  have e4 : '\x0b'.toNat = 11 := rfl
  have e5 : '\x0c'.toNat = 12 := rfl
  have e6 : '\r'.toNat = 13 := rfl
  rw [e1, e2, e3, e4, e5, e6]
  omega

/-- C105. A text that starts with a number the type `int` can hold (after white space, and whatever follows the digits) is taken;
the field gets that number. -/
theorem C105_read_integer (k : IntKind) (old n : Int) (ws s rest : List Char) (hn : k.InRange n) (hi : n < 2 ^ 31)
    (hw : ∀ c ∈ ws, White c) (hs : WritesInt s n) (hr : ∀ c, rest.head? = some c → ¬(48 ≤ c.toNat ∧ c.toNat ≤ 57)) :
    readInteger k old (ws ++ s ++ rest) = .taken n := by
  have hlo : -2 ^ 31 ≤ n := by
    cases k <;> simp only [IntKind.InRange, IntKind.cast] at hn <;> omega
  unfold readInteger
  rw [scanInt_writes ws s rest n (fun c hc => (white_iff c).mpr (hw c hc)) hs
    (fun c hc => by rw [← Bool.not_eq_true, isDig_iff]; exact hr c hc), if_neg (by simp only [intMin, intMax]; omega)]
  dsimp only
  rw [show k.cast n = n from hn]

/-- C105. Anything that does not start with a number is refused, and the field stays as it was. -/
theorem C105_refused_integer (k : IntKind) (old : Int) (s : List Char)
    (h : ¬∃ ws t rest n, s = ws ++ t ++ rest ∧ (∀ c ∈ ws, White c) ∧ WritesInt t n) :
    readInteger k old s = .refused old := by
  unfold readInteger
  rw [scanInt_fail_of (by simpa only [white_iff] using h)]

-- There are such texts: any that starts with a letter.
example : ¬∃ ws t rest n, ['o', 'n'] = ws ++ t ++ rest ∧ (∀ c ∈ ws, White c) ∧ WritesInt t n := by
  have := scanInt_fail (lo := intMin) (hi := intMax) (s := ['o', 'n']) rfl
  simpa only [white_iff] using this

/-- C105. What an integer field prints is taken back as the same value, up to the largest `int`. -/
theorem C105_integer_round_trip_partial (k : IntKind) (n old : Int) (h : k.InRange n) (hi : n < 2 ^ 31) :
    ∃ s, printInteger k n = some s ∧ readInteger k old s = .taken n := by
  obtain ⟨s, h1, h2, -⟩ := C105_print_integer k n h
  refine ⟨s, h1, ?_⟩
  have := C105_read_integer k old n [] s [] h hi (by simp) h2 (by simp)
  simpa using this

example : IntKind.InRange .sint (-2147483648) := by decide

/-- C105. Booleans print and read back exactly; any other text is refused and leaves the field as it was. -/
theorem C105_bool (b old : Bool) : (∃ s, printBool b = some s ∧ readBool old s = .taken b) ∧
    ∀ s, (∀ c, printBool c ≠ some s) → readBool old s = .refused old := by
  constructor
  · cases b <;> exact ⟨_, rfl, rfl⟩
  · intro s hs
    unfold readBool
    have h1 := hs false
    have h2 := hs true
    rw [if_neg (by rintro rfl; exact h1 rfl), if_neg (by rintro rfl; exact h2 rfl)]

/-- C105. A text that starts with a decimal number (after white space; with a sign, a point and a power of ten, or without; whatever
follows that does not continue the number) is taken; the field gets that number rounded to its type. -/
theorem C105_read_real (r : ℚ → ℚ) (old q : ℚ) (ws s rest : List Char) (hw : ∀ c ∈ ws, White c)
    (hs : WritesReal s q) (hr : ∀ c, rest.head? = some c → ¬(48 ≤ c.toNat ∧ c.toNat ≤ 57) ∧ c ∉ ['.', 'e', 'E', 'x', 'X']) :
    readReal r old (ws ++ s ++ rest) = .taken (r q) := by
  unfold readReal
  rw [scanReal_real ws s rest q (fun c hc => (white_iff c).mpr (hw c hc)) hs (fun c hc => by
    obtain ⟨h1, h2⟩ := hr c hc
    simp only [List.mem_cons, List.not_mem_nil, or_false, not_or] at h2
    exact ⟨by rw [← Bool.not_eq_true, isDig_iff]; exact h1, by simp [isExp, h2], h2.1⟩)]

-- "-12.5e2" writes -1250.
example : WritesReal "-12.5e2".toList (-1250) := by
  have := WritesReal.minus _ _ (.power "12.5".toList _ 'e' "2".toList 2
    (.point "12".toList "5".toList ⟨by decide, by decide⟩) (.inl rfl) (.plain "2".toList ⟨by decide, by decide⟩))
  have e1 : decimal "12".toList = 12 := by decide
  have e2 : decimal "5".toList = 5 := by decide
  rw [e1, e2] at this
  have e3 : -((((12 : ℕ) : ℚ) + ((5 : ℕ) : ℚ) / 10 ^ "5".toList.length) * 10 ^ (2 : ℤ)) = -1250 := by
    norm_num [show "5".toList.length = 1 from by decide]
  rw [e3] at this
  exact this

/-- C105. Anything that does not start with a number (decimal, or one of the names of infinity and of what is not a number) is
refused, and the field stays as it was. -/
theorem C105_refused_real (r : ℚ → ℚ) (old : ℚ) (s : List Char)
    (h : ¬∃ ws t rest q, s = ws ++ t ++ rest ∧ (∀ c ∈ ws, White c) ∧ WritesReal t q)
    (hin : ¬∃ ws sg c rest, s = ws ++ sg ++ c :: rest ∧ (∀ c ∈ ws, White c) ∧ (sg = [] ∨ sg = ['+'] ∨ sg = ['-']) ∧
      c ∈ ['i', 'I', 'n', 'N']) : readReal r old s = .refused old := by
  unfold readReal
  rw [scanReal_fail_of (by simpa only [white_iff] using h) (by simpa only [white_iff] using hin)]

-- Such a text is "off".
example (r : ℚ → ℚ) (old : ℚ) : readReal r old ['o', 'f', 'f'] = .refused old := by
  have hsp : ∀ ws x : List Char, ['o', 'f', 'f'] = ws ++ x → (∀ c ∈ ws, White c) → ws = [] := by
    intro ws x h hw
    cases ws with
    | nil => rfl
    | cons d ws =>
      have : 'o' = d := by simpa using congrArg List.head? h
      have := hw d (by simp)
      subst d
      rw [← white_iff] at this
      exact absurd this (by decide)
  apply C105_refused_real
  · rintro ⟨ws, t, rest, q, h, hw, ht⟩
    rw [List.append_assoc] at h
    obtain rfl := hsp ws _ h hw
    cases ht with
    | plain _ _ ht =>
      obtain ⟨c, hc, hc'⟩ := scaled_head (r := rest) ht
      rw [List.nil_append] at h
      rw [← h] at hc
      simp only [List.head?_cons, Option.some.injEq] at hc
      subst hc
      revert hc'
      decide
    | plus u p ht => simp at h
    | minus u p ht => simp at h
  · rintro ⟨ws, sg, c, rest, h, hw, hsg, hc⟩
    rw [List.append_assoc] at h
    obtain rfl := hsp ws _ h hw
    rcases hsg with rfl | rfl | rfl
    · simp only [List.nil_append, List.cons.injEq] at h
      rw [← h.1] at hc
      revert hc
      decide
    · simp at h
    · simp at h

/-- C105. What a real field prints is taken back as a number within half a millionth, rounded to the type. -/
theorem C105_real_round_trip (r : ℚ → ℚ) (old : ℚ) (neg : Bool) (a : ℚ) (h : 0 ≤ a) (s : List Char)
    (hs : printReal (.fin neg a) = some s) :
    ∃ q, readReal r old s = .taken (r q) ∧ |q - (if neg then -a else a)| ≤ 1 / 2 / 10 ^ 6 := by
  obtain ⟨q, h1, h2⟩ := C105_print_real neg a h s hs
  refine ⟨q, ?_, h2⟩
  have := scanReal_writes [] s [] q (by simp) h1 (by simp)
  unfold readReal
  rw [show s = [] ++ s ++ [] from by simp, this]

/-! ### C106 -/

/-- C106. A real number from -99999 to 999999 is printed within the buffer. -/
theorem C106_real_partial (neg : Bool) (a : ℚ) (h0 : 0 ≤ a) (h : if neg then a ≤ 99999 else a ≤ 999999) :
    printReal (.fin neg a) = some (print6 (.fin neg a)) := by
  unfold printReal intoBuffer
  rw [if_pos]
  cases neg
  · have := print6_length_le false a 6 (by norm_num) h0 (by simp only [Bool.false_eq_true, if_false] at h; norm_num; linarith)
    simp at this; omega
  · have := print6_length_le true a 5 (by norm_num) h0 (by simp only [if_true] at h; norm_num; linarith)
    simp at this; omega

example : ∃ a : ℚ, 0 ≤ a ∧ a ≤ 99999 := ⟨40, by norm_num⟩

/-- C106. Infinities and NaN fit as well. -/
theorem C106_nonfinite (neg : Bool) : printReal (.inf neg) ≠ none ∧ printReal (.nan neg) ≠ none := by
  cases neg <;> decide

/-- C106 does not hold: a million or more, or minus a hundred thousand or less, is written beyond the buffer. -/
theorem C106_counterexample_real (neg : Bool) (a : ℚ) (h : if neg then 100000 ≤ a else 1000000 ≤ a) :
    printReal (.fin neg a) = none := by
  unfold printReal intoBuffer
  rw [if_neg]
  cases neg
  · have := le_print6_length false a 6 (by simp only [Bool.false_eq_true, if_false] at h; norm_num; linarith)
    simp at this; omega
  · have := le_print6_length true a 5 (by simp only [if_true] at h; norm_num; linarith)
    simp at this; omega

/-- C106. The real fields of the flight software: everything within their ranges is printed within the buffer. -/
theorem C106_flight_reals : ∀ e ∈ flightReals, ∀ x : ℚ, e.2.1 - 1 ≤ x → x ≤ e.2.2 + 1 →
    printReal (.fin (decide (x < 0)) |x|) ≠ none := by
  intro e he x h1 h2
  have hb : -99998 ≤ e.2.1 ∧ e.2.2 ≤ 999998 := by
    have : ∀ e ∈ flightReals, -99998 ≤ e.2.1 ∧ e.2.2 ≤ 999998 := by decide +kernel
    exact this e he
  rw [C106_real_partial _ _ (abs_nonneg x)]
  · simp
  · by_cases h : x < 0
    · rw [abs_of_neg h]; simp [h]; linarith
    · rw [abs_of_nonneg (by linarith)]; simp [h]; linarith

example : ("prop.tank2.temp", (-60 : ℚ), (155 : ℚ)) ∈ flightReals := by decide +kernel

/-- C106. A vector whose components are all within ±9999 is printed within its buffer; so is a quaternion. -/
theorem C106_vector_partial (v : List Num) (h : ∀ x ∈ v, ∃ neg a, x = .fin neg a ∧ 0 ≤ a ∧ a ≤ 9999) (hv : v ≠ []) :
    printVector v ≠ none := by
  have hl : (v.flatMap (fun x => print6 x ++ [','])).length ≤ 13 * v.length := by
    clear hv
    induction v with
    | nil => simp
    | cons x v ih =>
      obtain ⟨neg, a, rfl, h0, h1⟩ := h x (by simp)
      have := print6_length_le neg a 4 (by norm_num) h0 (by norm_num; linarith)
      have ih' := ih (fun y hy => h y (by simp [hy]))
      simp only [List.flatMap_cons, List.length_append, List.length_cons, List.length_nil]
      split at this <;> omega
  have hp : 0 < v.length := List.length_pos_iff.2 hv
  unfold printVector intoBuffer vectorPrintSize
  rw [if_pos (by omega)]
  simp

-- A velocity in orbit.
example : ∀ x ∈ [Num.fin true 5400, .fin false 3500, .fin true 3999], ∃ neg a, x = Num.fin neg a ∧ 0 ≤ a ∧ a ≤ 9999 := by
  intro x hx
  simp only [List.mem_cons, List.not_mem_nil, or_false] at hx
  rcases hx with rfl | rfl | rfl <;> exact ⟨_, _, rfl, by norm_num, by norm_num⟩

/-- C106 does not hold: a position in orbit, in metres from the centre of the Earth, is printed beyond its buffer as soon as all
three components are above 100 km - as for most positions of `orbit.pos`, which the ground's parser prints. -/
theorem C106_counterexample_position (n1 n2 n3 : Bool) (a b c : ℚ) (ha : 100000 ≤ a) (hb : 100000 ≤ b) (hc : 100000 ≤ c) :
    printVector [.fin n1 a, .fin n2 b, .fin n3 c] = none := by
  have h1 := le_print6_length n1 a 5 (by norm_num; linarith)
  have h2 := le_print6_length n2 b 5 (by norm_num; linarith)
  have h3 := le_print6_length n3 c 5 (by norm_num; linarith)
  unfold printVector intoBuffer vectorPrintSize
  rw [if_neg]
  simp only [List.flatMap_cons, List.flatMap_nil, List.length_append, List.length_cons, List.length_nil]
  omega

-- Such positions are within the range of the field, 6771 to 6921 km from the centre.
example : (6771000 : ℚ) ^ 2 ≤ 3900000 ^ 2 + 3900000 ^ 2 + 4000000 ^ 2 ∧ (3900000 : ℚ) ^ 2 + 3900000 ^ 2 + 4000000 ^ 2 ≤ 6921000 ^ 2 := by
  norm_num

/-! ### C105: vectors and GPS times -/

theorem tokens_piece (cur t rest : List Char) (h : ∀ c ∈ t, c ≠ ',') (hne : cur ++ t ≠ []) :
    tokens cur (t ++ ',' :: rest) = (cur ++ t) :: tokens [] rest := by
  induction t generalizing cur with
  | nil =>
    have hc : cur ≠ [] := by simpa using hne
    rw [List.nil_append, tokens]
    simp [hc]
  | cons c t ih =>
    have hcc : c ≠ ',' := h c (by simp)
    rw [List.cons_append, tokens]
    simp only [hcc, if_false]
    rw [ih (cur ++ [c]) (fun d hd => h d (by simp [hd])) (by simp)]
    simp

theorem tokens_all (l : List (List Char)) (h : ∀ t ∈ l, t ≠ [] ∧ ∀ c ∈ t, c ≠ ',') :
    tokens [] (l.flatMap (fun t => t ++ [','])) = l := by
  induction l with
  | nil => rfl
  | cons t l ih =>
    rw [List.flatMap_cons, List.append_assoc, List.singleton_append,
      tokens_piece [] t _ (h t (by simp)).2 (by simpa using (h t (by simp)).1), ih (fun u hu => h u (by simp [hu]))]
    rfl

theorem fraction_chars {s : List Char} {q : ℚ} (h : WritesFraction s q) : s ≠ [] ∧ ∀ c ∈ s, 45 ≤ c.toNat ∧ c.toNat ≤ 57 := by
  cases h with
  | plain a b ha hb =>
    refine ⟨by simp, ?_⟩
    intro c hc
    simp only [List.mem_append, List.mem_cons] at hc
    rcases hc with hc | rfl | hc
    · have := ha.2 c hc; omega
    · decide
    · have := hb.2 c hc; omega
  | minus a b ha hb =>
    refine ⟨by simp, ?_⟩
    intro c hc
    simp only [List.mem_append, List.mem_cons] at hc
    rcases hc with rfl | hc | rfl | hc
    · decide
    · have := ha.2 c hc; omega
    · decide
    · have := hb.2 c hc; omega

theorem tokenValues_fractions (r : ℚ → ℚ) (l : List (List Char)) (qs : List ℚ) (h : List.Forall₂ WritesFraction l qs) :
    tokenValues r l = .taken (qs.map r) := by
  induction h with
  | nil => rfl
  | @cons t q l qs ht hl ih =>
    have : scanReal t = .val q [] := by
      have := scanReal_writes [] t [] q (by simp) ht (by simp)
      simpa using this
    rw [tokenValues, tokenValue, this]
    dsimp only
    rw [ih]
    rfl

/-- C105. What a vector or quaternion of finite numbers prints is taken back with every component within half a millionth,
rounded to the type - if the text is stored where 150 bytes can be read. -/
theorem C105_vector_round_trip_partial (r : ℚ → ℚ) (v : List (Bool × ℚ)) (hv : ∀ x ∈ v, 0 ≤ x.2) (hl : v.length ≤ 10) (s : List Char)
    (hs : printVector (v.map (fun x => Num.fin x.1 x.2)) = some s) (old : List ℚ) (ho : old.length = v.length)
    (pad : List Char) (hp : 150 ≤ (s ++ '\x00' :: pad).length) :
    ∃ qs : List ℚ, readVector r old (s ++ '\x00' :: pad) = .taken (qs.map r) ∧
      List.Forall₂ (fun (q : ℚ) (x : Bool × ℚ) => |q - (if x.1 then -x.2 else x.2)| ≤ 1 / 2 / 10 ^ 6) qs v := by
  have hparts : ∃ (l : List (List Char)) (qs : List ℚ), l = v.map (fun x => print6 (.fin x.1 x.2)) ∧
      List.Forall₂ WritesFraction l qs ∧
      List.Forall₂ (fun (q : ℚ) (x : Bool × ℚ) => |q - (if x.1 then -x.2 else x.2)| ≤ 1 / 2 / 10 ^ 6) qs v := by
    clear hs ho hl
    induction v with
    | nil => exact ⟨[], [], rfl, .nil, .nil⟩
    | cons x v ih =>
      obtain ⟨l, qs, h1, h2, h3⟩ := ih (fun y hy => hv y (by simp [hy]))
      obtain ⟨q, w1, w2⟩ := print6_writes x.1 x.2 (hv x (by simp))
      exact ⟨print6 (.fin x.1 x.2) :: l, q :: qs, by rw [h1]; rfl, .cons w1 h2, .cons w2 h3⟩
  obtain ⟨l, qs, h1, h2, h3⟩ := hparts
  have hchars : ∀ t ∈ l, t ≠ [] ∧ ∀ c ∈ t, 45 ≤ c.toNat ∧ c.toNat ≤ 57 := by
    clear h1 h3
    induction h2 with
    | nil => simp
    | cons ht _ ih =>
      intro t hm
      rcases List.mem_cons.1 hm with rfl | hm
      · exact fraction_chars ht
      · exact ih t hm
  unfold printVector intoBuffer at hs
  split at hs
  · rename_i hfit
    have hse : s = l.flatMap (fun t => t ++ [',']) := by
      rw [h1]; cases hs; rw [List.flatMap_map, List.flatMap_map]
    have hlen : s.length + 1 ≤ 150 := by
      cases hs
      simp only [vectorPrintSize, List.length_map] at hfit
      omega
    have hnul : ∀ c ∈ s, c ≠ '\x00' := by
      rw [hse]
      intro c hc
      obtain ⟨t, ht, hct⟩ := List.mem_flatMap.1 hc
      rcases List.mem_append.1 hct with hct | hct
      · have := (hchars t ht).2 c hct
        rintro rfl
        exact absurd this.1 (by decide)
      · simp at hct; subst hct; decide
    have htake : (s ++ '\x00' :: pad).take 150 = s ++ '\x00' :: pad.take (149 - s.length) := by
      rw [List.take_append, List.take_of_length_le (by omega),
        show 150 - s.length = (149 - s.length) + 1 by omega, List.take_succ_cons]
    have hwhile : ((s ++ '\x00' :: pad).take 150).takeWhile (· ≠ '\x00') = s := by
      rw [htake, List.takeWhile_append_of_pos (by intro c hc; simpa using hnul c hc)]
      simp
    refine ⟨qs, ?_, h3⟩
    unfold readVector
    rw [if_neg (by omega), if_neg (by rw [htake]; simp), hwhile]
    dsimp only
    have htok : tokens [] s = l := by
      rw [hse]
      refine tokens_all l (fun t ht => ⟨(hchars t ht).1, fun c hc => ?_⟩)
      have := (hchars t ht).2 c hc
      rintro rfl
      exact absurd this.1 (by decide)
    have hll : l.length = v.length := by rw [h1]; simp
    have hql : qs.length = v.length := h3.length_eq
    rw [htok, if_neg (by omega), tokenValues_fractions r l qs h2]
    dsimp only
    rw [if_neg (by simp; omega)]
  · exact absurd hs (by simp)

-- A relative position of a few metres, in a buffer large enough.
example : ∃ s, printVector ([(true, (5 : ℚ) / 4), (false, 2), (false, 0)].map (fun x => Num.fin x.1 x.2)) = some s ∧
    150 ≤ (s ++ '\x00' :: List.replicate 200 'z').length := by
  have := C106_vector_partial ([(true, (5 : ℚ) / 4), (false, 2), (false, 0)].map (fun x => Num.fin x.1 x.2)) (by
    intro x hx
    simp only [List.map_cons, List.map_nil, List.mem_cons, List.not_mem_nil, or_false] at hx
    rcases hx with rfl | rfl | rfl <;> exact ⟨_, _, rfl, by norm_num, by norm_num⟩) (by simp)
  obtain ⟨s, hs⟩ := Option.ne_none_iff_exists'.1 this
  exact ⟨s, hs, by rw [List.length_append, List.length_cons, List.length_replicate]; omega⟩

theorem comma_not_digit (r : List Char) : ∀ c, (',' :: r).head? = some c → isDig c = false := by
  intro c hc; simp at hc; subst hc; decide

/-- C105. What a GPS time prints is taken back with the same week, time of week and nanoseconds; whether the time counts as set
stays as it was. -/
theorem C105_time_partial (t old : GpsTime) (s : List Char) (hs : printTime t = some s) :
    readTime old s = .taken { t with isSet := old.isSet } := by
  unfold printTime intoBuffer at hs
  split at hs
  · cases hs
    have hw : WritesInt (digits t.wn.toNat) t.wn.toNat := by
      have := WritesInt.plain _ (digits_spec t.wn.toNat).1
      rwa [(digits_spec t.wn.toNat).2] at this
    have h1 := scanInt_writes (lo := 0) (hi := 65535) [] (digits t.wn.toNat) (',' :: (printInt t.tow.toInt ++ ',' :: printInt t.ns.toInt))
      t.wn.toNat (by simp) hw (comma_not_digit _)
    have h2 := scanInt_writes (lo := intMin) (hi := intMax) [] (printInt t.tow.toInt) (',' :: printInt t.ns.toInt) t.tow.toInt (by simp)
      (printInt_writes _).1 (comma_not_digit _)
    have h3 := scanInt_writes (lo := intMin) (hi := intMax) [] (printInt t.ns.toInt) [] t.ns.toInt (by simp) (printInt_writes _).1 (by simp)
    have b1 := t.wn.isLt
    have b2 := BitVec.toInt_lt (x := t.tow)
    have b3 := BitVec.le_toInt (x := t.tow)
    have b4 := BitVec.toInt_lt (x := t.ns)
    have b5 := BitVec.le_toInt (x := t.ns)
    rw [if_neg (by omega)] at h1
    rw [if_neg (by simp only [intMin, intMax]; omega)] at h2 h3
    simp only [List.nil_append, List.append_nil] at h1 h2 h3
    have e : digits t.wn.toNat ++ ',' :: printInt t.tow.toInt ++ ',' :: printInt t.ns.toInt =
        digits t.wn.toNat ++ ',' :: (printInt t.tow.toInt ++ ',' :: printInt t.ns.toInt) := by simp
    unfold readTime
    rw [e, h1]
    dsimp only
    rw [show afterComma (',' :: (printInt t.tow.toInt ++ ',' :: printInt t.ns.toInt)) =
      some (printInt t.tow.toInt ++ ',' :: printInt t.ns.toInt) from rfl]
    dsimp only
    rw [h2]
    dsimp only
    rw [show afterComma (',' :: printInt t.ns.toInt) = some (printInt t.ns.toInt) from rfl]
    dsimp only
    rw [h3]
    dsimp only
    have e1 : BitVec.ofInt 16 (t.wn.toNat : ℤ) = t.wn := by
      apply BitVec.eq_of_toNat_eq; simp
    rw [e1, BitVec.ofInt_toInt, BitVec.ofInt_toInt]
  · exact absurd hs (by simp)

/-- C106. A GPS time with a time of week and nanoseconds as documented prints within its buffer. -/
theorem C106_time_partial (t : GpsTime) (h1 : t.tow.toNat < 10 ^ 9) (h2 : -1000000 ≤ t.ns.toInt) (h3 : t.ns.toInt ≤ 1000000) :
    printTime t ≠ none := by
  have b1 := t.wn.isLt
  have l1 := digits_length_le (n := t.wn.toNat) (k := 5) (by norm_num) (by omega)
  have e : t.tow.toInt = t.tow.toNat := by
    rw [BitVec.toInt_eq_toNat_cond]; split <;> omega
  have l2 : (printInt t.tow.toInt).length ≤ 9 := by
    have := printInt_length_le (n := t.tow.toInt) 9 (by norm_num) (by omega)
    rw [if_neg (by omega)] at this
    omega
  have l3 : (printInt t.ns.toInt).length ≤ 8 := by
    have := printInt_length_le (n := t.ns.toInt) 7 (by norm_num) (by omega)
    split at this <;> omega
  unfold printTime intoBuffer
  rw [if_pos]
  · simp
  · simp only [List.length_append, List.length_cons]
    omega

example : ∃ t : GpsTime, t.tow.toNat < 10 ^ 9 ∧ -1000000 ≤ t.ns.toInt ∧ t.ns.toInt ≤ 1000000 :=
  ⟨GpsTime.mk3 2145 345600000 (-999999), by decide⟩

theorem toUllong_bound {bs : List Bool} {k : ℕ} (h : bs.length ≤ k) (hk : k ≤ 64) : BitArray.toUllong bs < 2 ^ k := by
  rw [BitArray.toUllong_eq bs (by omega)]
  exact lt_of_lt_of_le (BitArray.bitsToNat_lt bs) (Nat.pow_le_pow_right (by norm_num) h)

/-- C106. Whatever bits a GPS time is decoded from, it prints within its buffer. -/
theorem C106_time_decoded (bits : List Bool) (old t : GpsTime) (hb : bits.length = GpsSer.new.bits.length)
    (h : ({ GpsSer.new with bits := bits } : GpsSer).deserialize old = some t) (hs : t.isSet = true) : printTime t ≠ none := by
  unfold GpsSer.deserialize at h
  rcases bits with _ | ⟨b, rest⟩
  · exact absurd h (by simp)
  · dsimp only at h
    split at h
    · have hn : GpsSer.new.bits.length = 62 := by decide +kernel
      have w1 : GpsSer.new.wn.bits.length = 10 := by decide +kernel
      have w2 : GpsSer.new.tow.bits.length = 30 := by decide +kernel
      have w3 : GpsSer.new.ns.bits.length = 21 := by decide +kernel
      have hr : rest.length = 61 := by simp at hb; omega
      rw [if_pos (by omega), w1, w2] at h
      obtain ⟨u1, hu1⟩ : ∃ u, u = BitArray.toUllong (rest.take 10) := ⟨_, rfl⟩
      obtain ⟨u2, hu2⟩ : ∃ u, u = BitArray.toUllong ((rest.drop 10).take 30) := ⟨_, rfl⟩
      obtain ⟨u3, hu3⟩ : ∃ u, u = BitArray.toUllong ((rest.drop (10 + 30)).take GpsSer.new.ns.bits.length) := ⟨_, rfl⟩
      have t1 : u1 < 2 ^ 10 := by
        rw [hu1]; exact toUllong_bound (by simp) (by norm_num)
      have t2 : u2 < 2 ^ 30 := by
        rw [hu2]; exact toUllong_bound (by simp) (by norm_num)
      have t3 : u3 < 2 ^ 21 := by
        rw [hu3]; exact toUllong_bound (by rw [w3]; simp) (by norm_num)
      have r1 : ({ GpsSer.new.wn with bits := rest.take 10 } : IntSer).deserialize = 2000 + u1 := by
        unfold IntSer.deserialize
        have : ({ GpsSer.new.wn with bits := rest.take 10 } : IntSer).resolution = 1 := by
          have hl : (rest.take 10).length = 10 := by simp; omega
          unfold IntSer.resolution IntSer.numIntervals
          dsimp only
          rw [hl]
          decide +kernel
        rw [this]
        dsimp only
        rw [← hu1]
        show IntKind.cast .uint (2000 + _) = _
        simp only [IntKind.cast]; omega
      have r2 : ({ GpsSer.new.tow with bits := (rest.drop 10).take 30 } : IntSer).deserialize = u2 := by
        unfold IntSer.deserialize
        have : ({ GpsSer.new.tow with bits := (rest.drop 10).take 30 } : IntSer).resolution = 1 := by
          have hl : ((rest.drop 10).take 30).length = 30 := by simp; omega
          unfold IntSer.resolution IntSer.numIntervals
          dsimp only
          rw [hl]
          decide +kernel
        rw [this]
        dsimp only
        rw [← hu2]
        show IntKind.cast .uint (0 + _) = _
        simp only [IntKind.cast]; omega
      have r3 : ({ GpsSer.new.ns with bits := (rest.drop (10 + 30)).take GpsSer.new.ns.bits.length } : IntSer).deserialize = -1000000 + u3 := by
        unfold IntSer.deserialize
        have : ({ GpsSer.new.ns with bits := (rest.drop (10 + 30)).take GpsSer.new.ns.bits.length } : IntSer).resolution = 1 := by
          have hl : ((rest.drop (10 + 30)).take GpsSer.new.ns.bits.length).length = 21 := by rw [w3]; simp; omega
          unfold IntSer.resolution IntSer.numIntervals
          dsimp only
          rw [hl]
          decide +kernel
        rw [this]
        dsimp only
        rw [← hu3]
        show IntKind.cast .sint (-1000000 + _) = _
        simp only [IntKind.cast]; omega
      rw [r1, r2, r3] at h
      cases h
      have e1 : (BitVec.ofInt 16 (2000 + (u1 : ℤ))).toNat = 2000 + u1 := by
        rw [BitVec.toNat_ofInt]; omega
      have e2 : (BitVec.ofInt 32 (u2 : ℤ)).toInt = u2 := by
        rw [BitVec.toInt_ofInt, Int.bmod_eq_of_le (by omega) (by omega)]
      have e3 : (BitVec.ofInt 32 (-1000000 + (u3 : ℤ))).toInt = -1000000 + u3 := by
        rw [BitVec.toInt_ofInt, Int.bmod_eq_of_le (by omega) (by omega)]
      have l1 := digits_length_le (n := 2000 + u1) (k := 4) (by norm_num) (by omega)
      have l2 : (printInt u2).length ≤ 10 := by
        have := printInt_length_le (n := u2) 10 (by norm_num) (by omega)
        rw [if_neg (by omega)] at this
        omega
      have l3 : (printInt (-1000000 + (u3 : ℤ))).length ≤ 8 := by
        have := printInt_length_le (n := -1000000 + (u3 : ℤ)) 7 (by norm_num) (by omega)
        split at this <;> omega
      unfold printTime intoBuffer
      dsimp only
      rw [e1, e2, e3, if_pos]
      · simp
      · simp only [List.length_append, List.length_cons]
        omega
    · cases h
      exact absurd hs (by simp)

example : ∃ t, ({ GpsSer.new with bits := List.replicate 62 true } : GpsSer).deserialize .unset = some t ∧ t.isSet = true ∧ t.tow = 1073741823 := by
  decide +kernel

/-! ### Where C105 and C106 fail -/

/-- C105 does not hold: the text of an unsigned number beyond the largest `int` cannot be read back; the result is undefined. -/
theorem C105_counterexample_unsigned (n : Int) (h : IntKind.InRange .uint n) (hi : 2 ^ 31 ≤ n) (old : Int) :
    ∃ s, printInteger .uint n = some s ∧ readInteger .uint old s = .undef := by
  obtain ⟨s, h1, h2, -⟩ := C105_print_integer .uint n h
  refine ⟨s, h1, ?_⟩
  have := scanInt_writes (lo := intMin) (hi := intMax) [] s [] n (by simp) h2 (by simp)
  rw [if_pos (Or.inr (by simp only [intMax]; omega))] at this
  simp only [List.nil_append, List.append_nil] at this
  unfold readInteger
  rw [this]

example : IntKind.InRange .uint 4294967295 ∧ (2 : Int) ^ 31 ≤ 4294967295 := by decide

/-- C105 does not hold: for every integer field and every text of a number that an `int` cannot hold, in either
direction, the result is undefined. -/
theorem C105_counterexample_too_large (k : IntKind) (old n : Int) (ws s rest : List Char) (hn : n < -2 ^ 31 ∨ 2 ^ 31 ≤ n)
    (hw : ∀ c ∈ ws, White c) (hs : WritesInt s n) (hr : ∀ c, rest.head? = some c → ¬(48 ≤ c.toNat ∧ c.toNat ≤ 57)) :
    readInteger k old (ws ++ s ++ rest) = .undef := by
  unfold readInteger
  rw [scanInt_writes ws s rest n (fun c hc => (white_iff c).mpr (hw c hc)) hs
    (fun c hc => by rw [← Bool.not_eq_true, isDig_iff]; exact hr c hc), if_pos (by simp only [intMin, intMax]; omega)]

example : WritesInt "-2147483649".toList (-2147483649) := WritesInt.minus "2147483649".toList ⟨by decide, by decide⟩

/-- C105 does not hold: a number too large for a one-byte field is taken, and reduced. -/
theorem C105_counterexample_wraps (old : Int) : readInteger .uchar old ['3', '0', '0'] = .taken 44 := by
  rfl

/-- C105 does not hold: a GPS time that is set, read back into a field that is not set, leaves it not set. -/
theorem C105_counterexample_time (t : GpsTime) (s : List Char) (hs : printTime t = some s) :
    ∃ t', readTime .unset s = .taken t' ∧ t'.isSet = false :=
  ⟨_, C105_time_partial t .unset s hs, rfl⟩

/-- C105 does not hold: a text refused as a GPS time may nevertheless change the week of the field. -/
theorem C105_counterexample_refused_time (old : GpsTime) : readTime old ['2', '1'] = .refused { old with wn := 21 } := by
  rfl

/-- C105 does not hold: a vector with a component more than the field has is written beyond the memory set aside for it. -/
theorem C105_counterexample_components (r : ℚ → ℚ) (x y z : ℚ) (pad : List Char) (hp : 142 ≤ pad.length) :
    readVector r [x, y, z] (['1', ',', '2', ',', '3', ',', '4'] ++ '\x00' :: pad) = .undef := by
  obtain ⟨p, q, rfl, hpl⟩ : ∃ p q, pad = p ++ q ∧ p.length = 142 :=
    ⟨pad.take 142, pad.drop 142, (List.take_append_drop _ _).symm, by simp; omega⟩
  have ht : (['1', ',', '2', ',', '3', ',', '4'] ++ '\x00' :: (p ++ q)).take 150 = ['1', ',', '2', ',', '3', ',', '4'] ++ '\x00' :: p := by
    rw [show (['1', ',', '2', ',', '3', ',', '4'] ++ '\x00' :: (p ++ q)) = (['1', ',', '2', ',', '3', ',', '4'] ++ '\x00' :: p) ++ q by simp,
      List.take_left' (by simp [hpl])]
  unfold readVector
  rw [ht]
  rw [if_neg (by simp; omega), if_neg (by simp)]
  rw [List.takeWhile_append_of_pos (by decide)]
  rfl

/-- C105 does not hold: words are taken as the number zero in a vector. -/
theorem C105_counterexample_words (r : ℚ → ℚ) : tokenValue r ['u', 'p'] = .taken 0 := by
  rfl

/-- C106 does not hold: a GPS time with the largest nanoseconds and time of week the type can hold is printed beyond its buffer. -/
theorem C106_counterexample_time : printTime (GpsTime.mk3 65535 0x80000000 0x80000000) = none := by
  have h1 : (digits 65535).length = 5 := by
    have := digits_length_le (n := 65535) (k := 5) (by norm_num) (by norm_num)
    have := lt_digits_length (n := 65535) (k := 4) (by norm_num)
    omega
  have h2 : 9 < (digits 2147483648).length := lt_digits_length (by norm_num)
  have e1 : (GpsTime.mk3 65535 0x80000000 0x80000000).tow.toInt = -2147483648 := by decide
  have e2 : (GpsTime.mk3 65535 0x80000000 0x80000000).ns.toInt = -2147483648 := by decide
  have e3 : (GpsTime.mk3 65535 0x80000000 0x80000000).wn.toNat = 65535 := by decide
  unfold printTime intoBuffer
  rw [e1, e2, e3, if_neg]
  simp only [List.length_append, List.length_cons, printInt]
  simp
  omega

end PAN
