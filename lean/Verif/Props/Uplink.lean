import Verif.Lemmas.Uplink
/-! C09–C12: the uplink path. -/
namespace PAN
open Spec Bitstream Uplink

/-- The packet waiting in the consumer: the first `len` bytes of its buffer. -/
def Uplink.Consumer.packet {α : Type} (c : Consumer α) (buf : List U8) : List U8 := buf.take c.len

/-- C09, C10, C12 together: for every buffer contents, the consumer never reads outside the packet or the
registry, always consumes the packet, and changes fields exactly when the packet is a list of updates
followed by at most (index width + 7) zero bits. -/
theorem C09_consume {α : Type} (c : Consumer α) (buf : List U8) (hbuf : c.buf = some buf)
    (hlen : c.len ≤ buf.length) (hpos : c.len ≠ 0) :
    ∃ c', c.execute = some c' ∧ c'.len = 0 ∧ c'.buf = c.buf ∧
      (c'.fields = c.fields ∨ ∃ es pad,
        IsPacket (indexSize c.fields.length) (widths c.fields) (bitsOf (buf.take c.len)) es pad ∧
        pad ≤ indexSize c.fields.length + 7) := by
  obtain ⟨h1, h2⟩ := indexSize_spec c.fields.length
  obtain ⟨b, hb1, hb2⟩ := validate_spec c.fields _ h1 (buf.take c.len)
  unfold Consumer.execute
  simp only [hbuf, if_neg hpos, if_neg (Nat.not_lt.mpr hlen), hb1]
  cases b with
  | false => exact ⟨_, rfl, rfl, rfl, Or.inl rfl⟩
  | true =>
    obtain ⟨es, pad, hp, hpad⟩ := hb2.mp rfl
    rw [update_spec c.fields _ h1 h2 _ es pad hp]
    exact ⟨_, rfl, rfl, rfl, Or.inr ⟨es, pad, hp, hpad⟩⟩

/-- C09: a packet that is not a list of updates (with zero padding) leaves every field exactly as it was,
and is consumed. -/
theorem C09_rejected_changes_nothing {α : Type} (c : Consumer α) (buf : List U8) (hbuf : c.buf = some buf)
    (hlen : c.len ≤ buf.length)
    (hbad : ∀ es pad, ¬ IsPacket (indexSize c.fields.length) (widths c.fields) (bitsOf (buf.take c.len)) es pad) :
    c.execute = some { c with len := 0 } := by
  obtain ⟨h1, h2⟩ := indexSize_spec c.fields.length
  obtain ⟨b, hb1, hb2⟩ := validate_spec c.fields _ h1 (buf.take c.len)
  have hpos : c.len ≠ 0 := by
    intro h
    apply hbad [] 0
    rw [h]; simp [IsPacket, encode, EntriesOk, bitsOf]
  unfold Consumer.execute
  simp only [hbuf, if_neg hpos, if_neg (Nat.not_lt.mpr hlen), hb1]
  cases b with
  | false => rfl
  | true =>
    obtain ⟨es, pad, hp, -⟩ := hb2.mp rfl
    exact absurd hp (hbad es pad)

/-- C09: with no packet (length zero or null pointer) nothing happens. -/
theorem C09_no_packet {α : Type} (c : Consumer α) (h : c.buf = none ∨ c.len = 0) : c.execute = some c := by
  unfold Consumer.execute
  rcases h with h | h
  · rw [h]
  · cases hb : c.buf with
    | none => rfl
    | some buf => simp only [if_pos h]

/-- C10: when the packet is a list of updates followed by at most (index width + 7) zero bits, every listed
field gets exactly its bits and the value decoded from them, every other field is untouched, and the packet
is consumed. -/
theorem C10_accepted_updates_exactly {α : Type} (c : Consumer α) (buf : List U8) (hbuf : c.buf = some buf)
    (hlen : c.len ≤ buf.length) (hpos : c.len ≠ 0) (es : List Entry) (pad : Nat)
    (hp : IsPacket (indexSize c.fields.length) (widths c.fields) (bitsOf (buf.take c.len)) es pad)
    (hpad : pad ≤ indexSize c.fields.length + 7) :
    ∃ c', c.execute = some c' ∧ c'.len = 0 ∧ c'.fields.length = c.fields.length ∧
      (∀ e ∈ es, ∀ f, c.fields[e.index]? = some f →
        c'.fields[e.index]? = some { f with bits := e.bits, value := f.decode e.bits f.value }) ∧
      (∀ i, (∀ e ∈ es, e.index ≠ i) → c'.fields[i]? = c.fields[i]?) := by
  obtain ⟨h1, h2⟩ := indexSize_spec c.fields.length
  obtain ⟨b, hb1, hb2⟩ := validate_spec c.fields _ h1 (buf.take c.len)
  have hbt : b = true := hb2.mpr ⟨es, pad, hp, hpad⟩
  subst hbt
  unfold Consumer.execute
  simp only [hbuf, if_neg hpos, if_neg (Nat.not_lt.mpr hlen), hb1]
  rw [update_spec c.fields _ h1 h2 _ es pad hp]
  obtain ⟨f1, f2⟩ := foldl_apply es c.fields hp.2.1
  refine ⟨_, rfl, rfl, ?_, ?_, f2⟩
  · have : ∀ (es : List Entry) (fs : List (WField α)), (es.foldl applyEntry fs).length = fs.length := by
      intro es
      induction es with
      | nil => intro fs; rfl
      | cons e es ih => intro fs; rw [List.foldl_cons, ih]; simp [applyEntry]
    exact this _ _
  · intro e he f hf
    simp only
    rw [f1 e he, hf]; rfl

/-- C10: whenever the consumer changes anything, the packet was such a list of updates (so the previous
theorem describes the change). -/
theorem C10_change_only_when_accepted {α : Type} (c c' : Consumer α) (buf : List U8) (hbuf : c.buf = some buf)
    (hlen : c.len ≤ buf.length) (hex : c.execute = some c') (hch : c'.fields ≠ c.fields) :
    ∃ es pad, es ≠ [] ∧ IsPacket (indexSize c.fields.length) (widths c.fields) (bitsOf (buf.take c.len)) es pad ∧
      pad ≤ indexSize c.fields.length + 7 := by
  have hpos : c.len ≠ 0 := by
    intro h
    rw [C09_no_packet c (Or.inr h)] at hex
    cases hex; exact hch rfl
  obtain ⟨h1, h2⟩ := indexSize_spec c.fields.length
  obtain ⟨d, g1, -, -, g2⟩ := C09_consume c buf hbuf hlen hpos
  rw [hex] at g1
  cases g1
  rcases g2 with g2 | ⟨es, pad, hp, hpad⟩
  · exact absurd g2 hch
  · refine ⟨es, pad, ?_, hp, hpad⟩
    intro hes
    subst hes
    obtain ⟨b, hb1, hb2⟩ := validate_spec c.fields _ h1 (buf.take c.len)
    have hbt : b = true := hb2.mpr ⟨[], pad, hp, hpad⟩
    subst hbt
    unfold Consumer.execute at hex
    simp only [hbuf, if_neg hpos, if_neg (Nat.not_lt.mpr hlen), hb1] at hex
    rw [update_spec c.fields _ h1 h2 _ [] pad hp] at hex
    cases hex; exact hch rfl

/-- C10: the list of updates in a packet is unique, so "the listed fields" is well defined. -/
theorem C10_updates_unique (isz : Nat) (ws : List Nat) (hisz : ws.length + 1 < 2 ^ isz) (es : List Entry) :
    ∀ (bits : List Bool) (es' : List Entry) (pad pad' : Nat), IsPacket isz ws bits es pad → IsPacket isz ws bits es' pad' →
    es = es' ∧ pad = pad' := by
  induction es with
  | nil =>
    intro bits es' pad pad' h h'
    cases es' with
    | nil =>
      refine ⟨rfl, ?_⟩
      have a := zeros_of_nil h
      have b := zeros_of_nil h'
      rw [a] at b
      simpa using congrArg List.length b
    | cons e es' =>
      have := (first_index hisz h').1
      rw [take_zeros_nat _ _ _ (zeros_of_nil h)] at this
      omega
  | cons e es ih =>
    intro bits es' pad pad' h h'
    cases es' with
    | nil =>
      have := (first_index hisz h).1
      rw [take_zeros_nat _ _ _ (zeros_of_nil h')] at this
      omega
    | cons e' es' =>
      obtain ⟨a1, -, -, a4, a5⟩ := first_index hisz h
      obtain ⟨b1, -, -, b4, b5⟩ := first_index hisz h'
      have hi : e.index = e'.index := by omega
      have hl : e.bits.length = e'.bits.length := by
        have x := (h.2.2 e (by simp)).1
        have y := (h'.2.2 e' (by simp)).1
        rw [hi, y] at x
        exact (Option.some.inj x).symm
      have he : e = e' := by
        cases e; cases e'
        simp only at hi hl a4 b4 ⊢
        subst hi
        rw [← a4, ← b4, hl]
      subst he
      have hnd := h.2.1
      have hnd' := h'.2.1
      rw [List.map_cons, List.nodup_cons] at hnd hnd'
      obtain ⟨r1, r2⟩ := ih (bits.drop (isz + e.bits.length)) es' pad pad'
        ⟨a5, hnd.2, fun x hx => h.2.2 x (by simp [hx])⟩ ⟨b5, hnd'.2, fun x hx => h'.2.2 x (by simp [hx])⟩
      exact ⟨by rw [r1], r2⟩

/-- C11: for every registry (of fewer than `2^63` fields), every non-empty list of distinct existing fields
with bits of the right width, and whatever lies beyond the temporary bit arrays in memory, the ground tool
with its own buffer size builds a packet, and a consumer that receives it sets each named field to exactly
those bits (and the value decoded from them) and leaves all others alone. -/
theorem C11_ground_to_space {α β : Type} (ground : List (WField β)) (c : Consumer α) (junk : Nat → Bool) (es : List Entry)
    (hsame : widths ground = widths c.fields) (hsmall : c.fields.length < 2 ^ 63 - 1)
    (hok : EntriesOk (widths c.fields) es) (hne : es ≠ []) :
    ∃ bytes, createPacket ground (indexSize ground.length) (maxPacketSize ground (indexSize ground.length)) junk
        (es.map fun e => (e.index, e.bits)) = some bytes ∧
      ∀ rest, ∃ c', ({ c with len := bytes.length, buf := some (bytes ++ rest) } : Consumer α).execute = some c' ∧
        c'.len = 0 ∧ c'.fields.length = c.fields.length ∧
        (∀ e ∈ es, ∀ f, c.fields[e.index]? = some f →
          c'.fields[e.index]? = some { f with bits := e.bits, value := f.decode e.bits f.value }) ∧
        (∀ i, (∀ e ∈ es, e.index ≠ i) → c'.fields[i]? = c.fields[i]?) := by
  have hgl : ground.length = c.fields.length := by
    have := congrArg List.length hsame
    simpa [widths] using this
  have h64 : indexSize c.fields.length ≤ 64 := by
    have : ∀ k, k ≤ 64 → indexSizeFrom c.fields.length k ≤ 64 := by
      have : ∀ m k, 64 - k = m → k ≤ 64 → indexSizeFrom c.fields.length k ≤ 64 := by
        intro m
        induction m with
        | zero =>
          intro k hk hk'
          have : k = 64 := by omega
          subst this
          rw [indexSizeFrom, dif_neg (by rw [Nat.div_eq_of_lt (by omega)]; omega)]
          omega
        | succ m ih =>
          intro k hk hk'
          rw [indexSizeFrom]
          split
          · exact ih (k + 1) (by omega) (by omega)
          · omega
      intro k hk; exact this _ k rfl hk
    exact this 1 (by omega)
  rw [hgl]
  have hok' : EntriesOk (widths ground) es := by rw [hsame]; exact hok
  obtain ⟨bytes, pad, a1, a2, a3⟩ := createPacket_spec ground (indexSize c.fields.length)
    (maxPacketSize ground (indexSize c.fields.length)) junk h64 es hok'.2
    (by have := encode_le_max ground (indexSize c.fields.length) es hok'; omega)
  refine ⟨bytes, a1, fun rest => ?_⟩
  have hbl : bytes.length ≠ 0 := by
    intro h
    have hb : bytes = [] := List.eq_nil_of_length_eq_zero h
    rw [hb] at a2
    have := congrArg List.length a2
    cases es with
    | nil => exact hne rfl
    | cons e es =>
      have hp : 0 < e.bits.length := List.length_pos_iff.mpr (hok.2 e (by simp)).2
      rw [encode_cons] at this
      simp [bitsOf] at this
      omega
  exact C10_accepted_updates_exactly ({ c with len := bytes.length, buf := some (bytes ++ rest) } : Consumer α)
    (bytes ++ rest) rfl (by simp) hbl es pad (by simp only [List.take_left' rfl]; exact ⟨a2, hok⟩) (by simp only; omega)

/-- C12 does not hold: with three one-bit fields a packet consisting of one zero byte (eight bits of padding) is
accepted. -/
theorem C12_counterexample_eight_bits_of_padding :
    ∃ (fields : List (WField Unit)) (bytes : List U8),
      validate fields (indexSize fields.length) (Bitstream.ofBytes bytes) = some true ∧
      IsPacket (indexSize fields.length) (widths fields) (bitsOf bytes) [] 8 := by
  refine ⟨[⟨[true], (), fun _ _ => ()⟩, ⟨[true], (), fun _ _ => ()⟩, ⟨[true], (), fun _ _ => ()⟩], [0], ?_, ?_⟩
  · obtain ⟨b, h1, h2⟩ := validate_spec [(⟨[true], (), fun _ _ => ()⟩ : WField Unit), ⟨[true], (), fun _ _ => ()⟩, ⟨[true], (), fun _ _ => ()⟩]
      _ (indexSize_spec _).1 [0]
    rw [h1, h2.mpr ⟨[], 8, ⟨by rfl, by simp [EntriesOk]⟩, Nat.add_le_add_right (indexSize_spec _).2 7⟩]
  · exact ⟨rfl, by simp [EntriesOk]⟩

/-- C12 (partial): a packet is accepted exactly when it is a list of updates followed by zero bits, of which
there may be as many as the index width plus seven. The full claim would have 7 in place of
`isz + 7`. -/
theorem C12_padding_partial {α : Type} (fields : List (WField α)) (bytes : List U8) :
    ∃ b, validate fields (indexSize fields.length) (Bitstream.ofBytes bytes) = some b ∧
      (b = true ↔ ∃ es pad, IsPacket (indexSize fields.length) (widths fields) (bitsOf bytes) es pad ∧
        pad ≤ indexSize fields.length + 7) :=
  validate_spec fields _ (indexSize_spec _).1 bytes

/-- Non-vacuity: a registry with fields of 3, 0 and 5 bits, and a packet that updates the first and the third. -/
example : EntriesOk (widths [(⟨[true, true, true], 7, fun b _ => bitsToNat b⟩ : WField Nat), ⟨[], 0, fun _ v => v⟩,
      ⟨[true, false, false, false, false], 1, fun b _ => bitsToNat b⟩])
    [⟨2, [true, true, false, false, true]⟩, ⟨0, [false, true, false]⟩] := by
  refine ⟨by decide, ?_⟩
  intro e he
  simp only [List.mem_cons, List.not_mem_nil, or_false] at he
  rcases he with rfl | rfl <;> exact ⟨rfl, by decide⟩

/-- Non-vacuity of the rejection theorem: one byte naming a field that does not exist. -/
example : ∀ es pad, ¬ IsPacket 2 [8] (bitsOf [2]) es pad := by
  intro es pad h
  cases es with
  | nil =>
    have := zeros_of_nil h
    have h8 : pad = 8 := by simpa [bitsOf, byteBits] using (congrArg List.length this).symm
    subst h8
    revert this; decide
  | cons e es =>
    have h1 := (first_index (by decide) h).1
    have h2 := (h.2.2 e (by simp)).1
    have h3 : e.index = 1 := by
      have : bitsToNat ((bitsOf [2]).take 2) = 2 := by decide
      omega
    rw [h3] at h2; cases h2

end PAN
