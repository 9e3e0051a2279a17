import Verif.Model.SharedBits
import Verif.Props.Uplink
/-!
C125: fields whose encodings share storage do not disturb each other: reports, commands and uplinks are those of fields with
bits of their own.
-/
namespace PAN
open Spec Uplink
namespace Shared
variable {α : Type}

/-- The fields in order, without their cells' contents. -/
theorem serialize_fields {b b' : Board α} {i : Nat} (h : b.serialize i = some b') : b'.fields = b.fields := by
  unfold Board.serialize at h
  split at h
  · exact absurd h (by simp)
  · simp only [Option.some.injEq] at h; subst h; rfl

end Shared
open Shared

/-- C125, telemetry: whichever fields share storage, the bits copied for each field are the encoding of that field's value, and
no value changes. -/
theorem C125_report {α : Type} (is : List Nat) : ∀ (b : Board α), (∀ i ∈ is, i < b.fields.length) →
    ∃ b' vs, b.report is = some (b', vs) ∧ b'.fields = b.fields ∧ vs.length = is.length ∧
      ∀ (k i : Nat) (f : Fld α), is[k]? = some i → b.fields[i]? = some f → vs[k]? = some (f.encode f.value) := by
  induction is with
  | nil => intro b _; exact ⟨b, [], rfl, rfl, rfl, by simp⟩
  | cons i is ih =>
    intro b h
    have hi : i < b.fields.length := h i (by simp)
    have hf : b.fields[i]? = some b.fields[i] := List.getElem?_eq_getElem hi
    obtain ⟨b', vs, h1, h2, h3, h4⟩ := ih (b.put b.fields[i].cell (b.fields[i].encode b.fields[i].value)) (fun j hj => h j (by simp [hj]))
    refine ⟨b', b.fields[i].encode b.fields[i].value :: vs, ?_, h2, by simp [h3], ?_⟩
    · unfold Board.report Board.serialize
      simp only [hf]
      unfold Board.getBits
      have : (b.put b.fields[i].cell (b.fields[i].encode b.fields[i].value)).fields[i]? = some b.fields[i] := hf
      simp only [this]
      rw [h1]
      simp [Board.put]
    · intro k j f hk hj
      cases k with
      | zero =>
        simp only [List.getElem?_cons_zero, Option.some.injEq] at hk
        subst hk
        rw [hf] at hj; cases hj
        simp
      | succ k =>
        simp only [List.getElem?_cons_succ] at hk ⊢
        exact h4 k j f hk hj

/-- C125, commands: the bits written for each entry of a command file are the encoding of the value asked for. -/
theorem C125_command {α : Type} (es : List (Nat × α)) : ∀ (b : Board α), (∀ e ∈ es, e.1 < b.fields.length) →
    ∃ b' vs, b.command es = some (b', vs) ∧ vs.length = es.length ∧
      ∀ (k i : Nat) (x : α) (f : Fld α), es[k]? = some (i, x) → b.fields[i]? = some f → vs[k]? = some (f.encode x) := by
  induction es with
  | nil => intro b _; exact ⟨b, [], rfl, rfl, by simp⟩
  | cons e es ih =>
    obtain ⟨i, x⟩ := e
    intro b h
    have hi : i < b.fields.length := h (i, x) (by simp)
    have hf : b.fields[i]? = some b.fields[i] := List.getElem?_eq_getElem hi
    obtain ⟨g, hg⟩ : ∃ g, g = b.fields[i] := ⟨_, rfl⟩
    rw [← hg] at hf
    obtain ⟨b1, hb1⟩ : ∃ b1 : Board α, b1 = { b with fields := b.fields.set i { g with value := x } } := ⟨_, rfl⟩
    have e1 : b.set i x = some b1 := by unfold Board.set; rw [hf, hb1]
    have hf1 : b1.fields[i]? = some { g with value := x } := by rw [hb1]; simp [hi]
    obtain ⟨b2, hb2⟩ : ∃ b2 : Board α, b2 = b1.put g.cell (g.encode x) := ⟨_, rfl⟩
    have e2 : b1.serialize i = some b2 := by unfold Board.serialize; rw [hf1, hb2]
    have hf2 : b2.fields[i]? = some { g with value := x } := by rw [hb2]; exact hf1
    have e3 : b2.getBits i = some (g.encode x) := by unfold Board.getBits; rw [hf2, hb2]; simp [Board.put]
    have hl : b2.fields.length = b.fields.length := by rw [hb2]; show b1.fields.length = _; rw [hb1]; simp
    obtain ⟨b', vs, h1, h3, h4⟩ := ih b2 (fun j hj => by rw [hl]; exact h j (by simp [hj]))
    refine ⟨b', g.encode x :: vs, ?_, by simp [h3], ?_⟩
    · unfold Board.command
      rw [e1]; dsimp only
      rw [e2]; dsimp only
      rw [e3]; dsimp only
      rw [h1]
    · intro k j y f hk hj
      cases k with
      | zero =>
        simp only [List.getElem?_cons_zero, Option.some.injEq, Prod.mk.injEq] at hk
        obtain ⟨rfl, rfl⟩ := hk
        rw [hf] at hj; cases hj
        simp
      | succ k =>
        simp only [List.getElem?_cons_succ] at hk ⊢
        by_cases hij : j = i
        · subst hij
          rw [hf] at hj; cases hj
          exact h4 k j y { g with value := x } hk hf2
        · refine h4 k j y f hk ?_
          rw [hb2]; show b1.fields[j]? = _
          rw [hb1]; simp only
          rw [List.getElem?_set_ne (fun h => hij h.symm)]; exact hj

/-- C125, the ground's parser: for fields that occur once, each is shown as its own bits decode, and only fields named change. -/
theorem C125_read {α : Type} (es : List (Nat × List Bool)) : ∀ (b : Board α), (es.map (·.1)).Nodup →
    (∀ e ∈ es, ∃ f, b.fields[e.1]? = some f ∧ e.2.length = (b.bits f.cell).length) →
    ∃ b' xs, b.read es = some (b', xs) ∧ xs.length = es.length ∧
      (∀ (k i : Nat) (v : List Bool) (f : Fld α), es[k]? = some (i, v) → b.fields[i]? = some f →
        xs[k]? = some (f.decode v f.value) ∧ b'.fields[i]? = some { f with value := f.decode v f.value }) ∧
      ∀ i, i ∉ es.map (·.1) → b'.fields[i]? = b.fields[i]? := by
  induction es with
  | nil => intro b _ _; exact ⟨b, [], rfl, rfl, by simp, by simp⟩
  | cons e es ih =>
    obtain ⟨i, v⟩ := e
    intro b hnd h
    obtain ⟨g, hf, hlen⟩ := h (i, v) (by simp)
    simp only at hf hlen
    have hi : i < b.fields.length := (List.getElem?_eq_some_iff.mp hf).1
    have hnd' := List.nodup_cons.mp hnd
    obtain ⟨b1, hb1⟩ : ∃ b1 : Board α, b1 = b.put g.cell v := ⟨_, rfl⟩
    have e1 : b.setBits i v = some b1 := by unfold Board.setBits; rw [hf]; simp [hlen, hb1]
    have hf1 : b1.fields[i]? = some g := by rw [hb1]; exact hf
    have hv : b1.bits g.cell = v := by rw [hb1]; simp [Board.put]
    obtain ⟨b2, hb2⟩ : ∃ b2 : Board α, b2 = { b1 with fields := b1.fields.set i { g with value := g.decode v g.value } } := ⟨_, rfl⟩
    have e2 : b1.deserialize i = some b2 := by unfold Board.deserialize; rw [hf1]; dsimp only; rw [hv, hb2]
    have hi1 : i < b1.fields.length := (List.getElem?_eq_some_iff.mp hf1).1
    have hf2 : b2.fields[i]? = some { g with value := g.decode v g.value } := by rw [hb2]; simp [hi1]
    have hother : ∀ j, j ≠ i → b2.fields[j]? = b.fields[j]? := by
      intro j hj
      rw [hb2]; simp only
      rw [List.getElem?_set_ne (fun h => hj h.symm), hb1]; rfl
    have hcell : ∀ c, (b2.bits c).length = (b.bits c).length := by
      intro c
      rw [hb2, hb1]
      simp only [Board.put]
      split
      · rename_i hc; rw [hc, hlen]
      · rfl
    obtain ⟨b', xs, h1, h2, h3, h4⟩ := ih b2 hnd'.2 (fun e he => by
      obtain ⟨f, k1, k2⟩ := h e (by simp [he])
      have hne : e.1 ≠ i := fun hc => hnd'.1 (by rw [← hc]; exact List.mem_map.mpr ⟨e, he, rfl⟩)
      exact ⟨f, by rw [hother _ hne]; exact k1, by rw [hcell]; exact k2⟩)
    refine ⟨b', g.decode v g.value :: xs, ?_, by simp [h2], ?_, ?_⟩
    · unfold Board.read
      rw [e1]; dsimp only
      rw [e2]; dsimp only
      rw [hf2]; dsimp only
      rw [h1]
    · intro k j w f hk hj
      cases k with
      | zero =>
        simp only [List.getElem?_cons_zero, Option.some.injEq, Prod.mk.injEq] at hk
        obtain ⟨rfl, rfl⟩ := hk
        rw [hf] at hj; cases hj
        exact ⟨by simp, by rw [h4 i hnd'.1]; exact hf2⟩
      | succ k =>
        simp only [List.getElem?_cons_succ] at hk ⊢
        have hmem : (j, w) ∈ es := List.mem_of_getElem? hk
        have hne : j ≠ i := fun hc => hnd'.1 (by rw [← hc]; exact List.mem_map.mpr ⟨(j, w), hmem, rfl⟩)
        exact h3 k j w f hk (by rw [hother _ hne]; exact hj)
    · intro j hj
      simp only [List.map_cons, List.mem_cons, not_or] at hj
      rw [h4 j hj.2, hother j hj.1]

namespace Shared
variable {α : Type}

theorem nextBitsLoop_length {n : Nat} : ∀ {s : Bitstream} {u : U8} {bs : List Bool} {s' : Bitstream},
    s.nextBitsLoop n u = some (bs, s') → bs.length ≤ n := by
  induction n with
  | zero => intro s u bs s' h; simp only [Bitstream.nextBitsLoop, Option.some.injEq, Prod.mk.injEq] at h; simp [← h.1]
  | succ n ih =>
    intro s u bs s' h
    unfold Bitstream.nextBitsLoop at h
    split at h
    · split at h
      · exact absurd h (by simp)
      · split at h
        · split at h
          · exact absurd h (by simp)
          · rename_i hr
            simp only [Option.some.injEq, Prod.mk.injEq] at h
            have := ih hr
            rw [← h.1]; simp; omega
        · simp only [Option.some.injEq, Prod.mk.injEq] at h; simp [← h.1]
    · simp only [Option.some.injEq, Prod.mk.injEq] at h; simp [← h.1]

theorem nextNBits_length {s s' : Bitstream} {n c : Nat} {old bits : List Bool}
    (h : s.nextNBits n n old = some (c, bits, s')) : bits.length = n := by
  unfold Bitstream.nextNBits at h
  rw [if_neg (by omega)] at h
  split at h
  · exact absurd h (by simp)
  · rename_i bs s1 hb
    simp only [Option.some.injEq, Prod.mk.injEq] at h
    have := nextBitsLoop_length hb
    rw [← h.2.1]; simp; omega

/-- The fields with bits of their own follow the fields on the cells: same widths, values and decodings. -/
def Follows (b : Board α) (ws : List (WField α)) : Prop :=
  ws.length = b.fields.length ∧ ∀ (i : Nat) (f : Fld α) (w : WField α), b.fields[i]? = some f → ws[i]? = some w →
    w.bits.length = (b.bits f.cell).length ∧ w.value = f.value ∧ w.decode = f.decode

theorem follows_separate (b : Board α) : Follows b b.separate := by
  refine ⟨by simp [Board.separate], ?_⟩
  intro i f w hf hw
  simp only [Board.separate, List.getElem?_map, hf, Option.map_some, Option.some.injEq] at hw
  subst hw
  exact ⟨rfl, rfl, rfl⟩

/-- The two results follow each other, or both are undefined. -/
def Both (r : Option (Board α)) (q : Option (List (WField α))) : Prop :=
  (r = none ∧ q = none) ∨ ∃ b ws, r = some b ∧ q = some ws ∧ Follows b ws

theorem update_both (total isz : Nat) : ∀ (m : Nat) (b : Board α) (ws : List (WField α)) (s : Bitstream) (consumed : Nat),
    total - consumed ≤ m → Follows b ws →
    Both (Shared.updateLoop total isz b s consumed) (Uplink.updateLoop total isz ws s consumed) := by
  intro m
  induction m with
  | zero =>
    intro b ws s consumed hm hfol
    rw [Shared.updateLoop, Uplink.updateLoop, dif_neg (by omega), dif_neg (by omega)]
    exact .inr ⟨b, ws, rfl, rfl, hfol⟩
  | succ m ih =>
    intro b ws s consumed hm hfol
    rw [Shared.updateLoop, Uplink.updateLoop]
    by_cases hc : consumed < total
    · rw [dif_pos hc, dif_pos hc]
      cases hn : s.nextN isz with
      | none => exact .inl ⟨rfl, rfl⟩
      | some r =>
        obtain ⟨c, out, s'⟩ := r
        dsimp only
        by_cases h0 : leNat out = 0
        · rw [if_pos h0, if_pos h0]; exact .inr ⟨b, ws, rfl, rfl, hfol⟩
        · rw [if_neg h0, if_neg h0]
          obtain ⟨i, hi⟩ : ∃ i, i = leNat out - 1 := ⟨_, rfl⟩
          rw [← hi]
          cases hb : b.fields[i]? with
          | none =>
            have : ws[i]? = none := by
              rw [List.getElem?_eq_none_iff] at hb ⊢; rw [hfol.1]; exact hb
            rw [this]; exact .inl ⟨rfl, rfl⟩
          | some f =>
            have hil : i < b.fields.length := (List.getElem?_eq_some_iff.mp hb).1
            have hw : ws[i]? = some (ws[i]'(by rw [hfol.1]; exact hil)) := List.getElem?_eq_getElem _
            obtain ⟨w, hw'⟩ : ∃ w, w = ws[i]'(by rw [hfol.1]; exact hil) := ⟨_, rfl⟩
            rw [← hw'] at hw
            obtain ⟨k1, k2, k3⟩ := hfol.2 i f w hb hw
            rw [hw]
            dsimp only
            have hfl : fieldLength ws i = (b.bits f.cell).length := by
              unfold fieldLength; rw [hw]; exact k1
            have hz : (w.bits.map fun _ => false) = ((b.bits f.cell).map fun _ => false) := by
              rw [List.map_const', List.map_const', k1]
            rw [hfl, k1, hz]
            cases hr : s'.nextNBits (b.bits f.cell).length (b.bits f.cell).length ((b.bits f.cell).map fun _ => false) with
            | none => exact .inl ⟨rfl, rfl⟩
            | some q =>
              obtain ⟨c', bits, s''⟩ := q
              have hbl := nextNBits_length hr
              dsimp only
              have hd : (b.put f.cell bits).deserialize i = some { (b.put f.cell bits) with
                  fields := b.fields.set i { f with value := f.decode bits f.value } } := by
                unfold Board.deserialize
                have : (b.put f.cell bits).fields[i]? = some f := hb
                rw [this]
                simp [Board.put]
              rw [hd]
              dsimp only
              by_cases hcz : c = 0
              · rw [dif_pos hcz, dif_pos hcz]; exact .inl ⟨rfl, rfl⟩
              · rw [dif_neg hcz, dif_neg hcz]
                refine ih _ _ s'' (consumed + c + c') (by omega) ⟨by simp [hfol.1], ?_⟩
                intro j g u hg hu
                by_cases hj : j = i
                · subst hj
                  simp only [List.getElem?_set_self hil, Option.some.injEq] at hg
                  rw [List.getElem?_set_self (by rw [hfol.1]; exact hil)] at hu
                  simp only [Option.some.injEq] at hu
                  subst hg hu
                  refine ⟨?_, ?_, k3⟩
                  · simp [Board.put]
                  · simp only; rw [k2, k3]
                · simp only [List.getElem?_set_ne (fun h => hj h.symm)] at hg
                  rw [List.getElem?_set_ne (fun h => hj h.symm)] at hu
                  obtain ⟨a1, a2, a3⟩ := hfol.2 j g u hg hu
                  refine ⟨?_, a2, a3⟩
                  rw [a1]
                  simp only [Board.put]
                  split
                  · rename_i hcell; rw [hcell, hbl]
                  · rfl
    · rw [dif_neg hc, dif_neg hc]
      exact .inr ⟨b, ws, rfl, rfl, hfol⟩

end Shared

/-- C125, uplink: a packet with entries for distinct fields, made by the ground tool, sets exactly the fields named to what
their bits decode to, whichever fields share storage. -/
theorem C125_uplink {α β : Type} (ground : List (WField β)) (b : Board α) (junk : Nat → Bool) (es : List Entry)
    (hsame : widths ground = b.fields.map fun f => (b.bits f.cell).length) (hsmall : b.fields.length < 2 ^ 63 - 1)
    (hok : EntriesOk (b.fields.map fun f => (b.bits f.cell).length) es) (hne : es ≠ []) :
    ∃ bytes, createPacket ground (indexSize ground.length) (maxPacketSize ground (indexSize ground.length)) junk
        (es.map fun e => (e.index, e.bits)) = some bytes ∧
      ∀ rest, ∃ b', Shared.execute b bytes.length (some (bytes ++ rest)) = some (b', 0) ∧
        b'.fields.length = b.fields.length ∧
        (∀ e ∈ es, ∀ f, b.fields[e.index]? = some f →
          ∃ f', b'.fields[e.index]? = some f' ∧ f'.value = f.decode e.bits f.value) ∧
        (∀ i f, (∀ e ∈ es, e.index ≠ i) → b.fields[i]? = some f → ∃ f', b'.fields[i]? = some f' ∧ f'.value = f.value) := by
  have hw : widths b.separate = b.fields.map fun f => (b.bits f.cell).length := by
    simp [widths, Board.separate]
  have hl : b.separate.length = b.fields.length := by simp [Board.separate]
  obtain ⟨bytes, h1, h2⟩ := C11_ground_to_space ground ⟨b.separate, 0, none⟩ junk es (by rw [hsame]; exact hw.symm)
    (by simp only; rw [hl]; exact hsmall) (by simp only; rw [hw]; exact hok) hne
  refine ⟨bytes, h1, fun rest => ?_⟩
  obtain ⟨c', e1, e2, e3, e4, e5⟩ := h2 rest
  have hsep : ∀ (i : Nat) (f : Fld α), b.fields[i]? = some f →
      b.separate[i]? = some { bits := b.bits f.cell, value := f.value, decode := f.decode } := by
    intro i f hf; simp [Board.separate, hf]
  obtain ⟨e, he⟩ := List.exists_mem_of_ne_nil es hne
  unfold Consumer.execute at e1
  unfold Shared.execute
  simp only at e1 e4 e5 ⊢
  rw [hl] at e1
  have fin : ∀ (b' : Board α), b'.fields.length = b.fields.length → (∀ (i : Nat) (f : Fld α) (w : WField α), b'.fields[i]? = some f →
      c'.fields[i]? = some w → w.value = f.value) →
      (∀ e ∈ es, ∀ f, b.fields[e.index]? = some f →
          ∃ f', b'.fields[e.index]? = some f' ∧ f'.value = f.decode e.bits f.value) ∧
        (∀ i f, (∀ e ∈ es, e.index ≠ i) → b.fields[i]? = some f → ∃ f', b'.fields[i]? = some f' ∧ f'.value = f.value) := by
    intro b' hbl hv
    constructor
    · intro e he f hf
      have hlt : e.index < b'.fields.length := by rw [hbl]; exact (List.getElem?_eq_some_iff.mp hf).1
      have hg : b'.fields[e.index]? = some b'.fields[e.index] := List.getElem?_eq_getElem hlt
      exact ⟨_, hg, (hv _ _ _ hg (e4 e he _ (hsep _ f hf))).symm⟩
    · intro i f hi hf
      have hlt : i < b'.fields.length := by rw [hbl]; exact (List.getElem?_eq_some_iff.mp hf).1
      have hg : b'.fields[i]? = some b'.fields[i] := List.getElem?_eq_getElem hlt
      have := e5 i hi
      rw [hsep i f hf] at this
      exact ⟨_, hg, (hv _ _ _ hg this).symm⟩
  by_cases hz : bytes.length = 0
  · rw [if_pos hz] at e1
    simp only [Option.some.injEq] at e1
    rw [if_pos hz, hz]
    subst e1
    refine ⟨b, rfl, rfl, fin b rfl ?_⟩
    intro i f w hf hw'
    simp only at hw'
    rw [hsep i f hf] at hw'
    cases hw'; rfl
  · rw [if_neg hz] at e1 ⊢
    rw [if_neg (by simp)] at e1 ⊢
    cases hval : validate b.separate (indexSize b.fields.length) (Bitstream.ofBytes ((bytes ++ rest).take bytes.length)) with
    | none => rw [hval] at e1; exact absurd e1 (by simp)
    | some v =>
      rw [hval] at e1
      cases v with
      | false =>
        simp only [Option.some.injEq] at e1
        subst e1
        refine ⟨b, rfl, rfl, fin b rfl ?_⟩
        intro i f w hf hw'
        simp only at hw'
        rw [hsep i f hf] at hw'
        cases hw'; rfl
      | true =>
        dsimp only at e1 ⊢
        have hboth := update_both (8 * (Bitstream.ofBytes ((bytes ++ rest).take bytes.length)).maxLen)
          (indexSize b.fields.length) _ b b.separate (Bitstream.ofBytes ((bytes ++ rest).take bytes.length)).reset 0
          (Nat.le_refl _) (follows_separate b)
        unfold update at e1
        rcases hboth with ⟨-, hq⟩ | ⟨b', ws, hr, hq, hfol⟩
        · rw [hq] at e1; exact absurd e1 (by simp)
        · rw [hq] at e1
          simp only [Option.some.injEq] at e1
          subst e1
          rw [hr]
          have hbl : b'.fields.length = b.fields.length := by
            simp only at e3
            rw [← hfol.1, e3, hl]
          refine ⟨b', rfl, hbl, fin b' hbl ?_⟩
          intro i f w hf hw'
          exact (hfol.2 i f w hf hw').2.1

/-- C125 does not hold for the bits themselves: of two fields that share storage, encoding the second replaces the bits of the
first. -/
theorem C125_counterexample_shared :
    ∃ (b b1 b2 : Board Bool), b.serialize 0 = some b1 ∧ b1.getBits 0 = some [true] ∧ b1.serialize 1 = some b2 ∧
      b2.getBits 0 = some [false] ∧ b2.fields = b.fields :=
  ⟨⟨fun _ => [false], [⟨0, true, fun x => [x], fun _ x => x⟩, ⟨0, false, fun x => [x], fun _ x => x⟩]⟩, _, _, rfl, rfl, rfl, rfl, rfl⟩

-- Two fields that share a cell, in a report, a command file and a frame.
example : ∃ b : Board Bool, b.fields.map (·.cell) = [0, 0] ∧ (b.report [0, 1]).map (·.2) = some [[true], [false]] ∧
    (b.command [(0, false), (1, true)]).map (·.2) = some [[false], [true]] ∧
    (b.read [(0, [false]), (1, [true])]).map (·.2) = some [false, true] :=
  ⟨⟨fun _ => [false], [⟨0, true, fun x => [x], fun l _ => l == [true]⟩, ⟨0, false, fun x => [x], fun l _ => l == [true]⟩]⟩,
    rfl, rfl, rfl, rfl⟩

-- A packet for two fields that share a cell of three bits meets the conditions of the uplink theorem.
example : EntriesOk ((⟨fun _ => [false, false, false], [⟨0, 1, fun n => natBits 3 n, fun l _ => bitsToNat l⟩,
      ⟨0, 2, fun n => natBits 3 n, fun l _ => bitsToNat l⟩]⟩ : Board Nat).fields.map fun _ => 3)
    [⟨1, [true, true, false]⟩, ⟨0, [false, false, true]⟩] := by
  refine ⟨by decide, ?_⟩
  intro e he
  simp only [List.mem_cons, List.not_mem_nil, or_false] at he
  rcases he with rfl | rfl <;> exact ⟨rfl, by decide⟩

end PAN
