import Verif.Lemmas.Downlink
/-!
Properties C13 (downlink round trip), C14 (packet headers), C15 (buffer bounds) and C16 (flow commands).
The model is `Verif/Model/Downlink.lean`, the vocabulary `Verif/Spec/Downlink.lean`.
-/
namespace PAN
open Spec Downlink

/-! ### The example configuration used in the non-vacuity checks and counterexamples -/

namespace Downlink

/-- `k` flows with ids 1..k, all active, flow `i+1` holding the single field `i`. -/
def sampleData (k : Nat) : List FlowData := (List.range k).map fun i => ⟨i + 1, true, [i]⟩

theorem init_sample (width : Nat → Nat) (junk : Nat → U8) (data : List FlowData) (h256 : data.length < 256)
    (h : OkData width data.length data) :
    init width junk data = some {
      flows := data.map (mkFlow data.length)
      numActive := data.countP (·.active)
      buf := (List.range (downlinkSize width (data.map (mkFlow data.length)) true)).map junk
      snapSize := downlinkSize width (data.map (mkFlow data.length)) true
      toggleId := 0
      shiftId1 := 0
      shiftId2 := 0 } := by
  unfold init
  rw [makeFlows_eq width _ h256 data h]

theorem reachable_init {width : Nat → Nat} {junk : Nat → U8} {data : List FlowData} {p : Producer}
    (h : init width junk data = some p) : Reachable width data p :=
  ⟨junk, p, [], h, by simp, rfl⟩

theorem commands_none (p : Producer) (h1 : p.shiftId1 = 0) (h2 : p.toggleId = 0) : commands p = some p := by
  unfold commands
  simp only [h1]
  rw [if_neg (by omega)]
  simp only [h2]
  rw [if_neg (by omega)]

end Downlink

/-! ### C15 -/

/-- Number of bytes reserved for a frame of `n` payload bits. -/
def Spec.frameBytes (n : Nat) : Nat := (n + (n + 559) / 560 + 7) / 8

/-- The number of payload bits when every configured flow is active. -/
def Spec.maxPayload (width : Nat → Nat) (data : List FlowData) : Nat :=
  32 + (data.map fun d => idWidth data.length + (d.fields.map width).sum).sum

/-- The number of payload bits with the flows active in `p`. -/
def Spec.activePayload (width : Nat → Nat) (n : Nat) (p : Producer) : Nat :=
  32 + ((activeFlows p).map fun f => idWidth n + (f.2.map width).sum).sum

theorem Downlink.maxSize_eq (width : Nat → Nat) (data : List FlowData) :
    downlinkSize width (data.map (mkFlow data.length)) true = frameBytes (maxPayload width data) := by
  unfold downlinkSize frameBytes maxPayload
  have h1 : (fun f : Flow => f.active || true) = fun _ => true := by funext f; simp
  rw [h1, List.filter_true, List.map_map]
  have h2 : ((fun f : Flow => f.packetSize width) ∘ mkFlow data.length) =
      fun d => idWidth data.length + (d.fields.map width).sum := by
    funext d; simp [Flow.packetSize, mkFlow, natBits_length]
  rw [h2]
  simp only []
  have h3 : ∀ n : Nat, n + 32 + (n + 32 + 560 - 1) / 560 = 32 + n + (32 + n + 559) / 560 := by intro n; omega
  rw [h3]

theorem Downlink.payload_length (env : Nat → List Bool) (width : Nat → Nat) (hf : Fits width env) (cc : U32)
    (fl : List (Nat × List Nat)) (n : Nat) :
    (payload env cc fl n).length = 32 + (fl.map fun f => idWidth n + (f.2.map width).sum).sum := by
  unfold payload
  rw [List.length_append, natBits_length]
  congr 1
  induction fl with
  | nil => rfl
  | cons a fl ih =>
    rw [List.flatMap_cons, List.length_append, ih, List.map_cons, List.sum_cons, List.length_append, natBits_length]
    congr 2
    induction a.2 with
    | nil => rfl
    | cons x xs ih2 => rw [List.flatMap_cons, List.length_append, ih2, hf x, List.map_cons, List.sum_cons]

/-- C15 (partial: exactly when the property holds). In every reachable state of every configuration, producing a
frame writes out of bounds if and only if the frame bits of the active flows do not end strictly inside the buffer
reserved at configuration time. -/
theorem C15_overrun_iff_partial (width : Nat → Nat) (data : List FlowData) (h256 : data.length < 256)
    (p : Producer) (hp : Reachable width data p) (env : Nat → List Bool) (hf : Fits width env) (cc : U32) :
    produce width env cc p = none ↔
      8 * frameBytes (maxPayload width data) ≤ frameLen (activePayload width data.length p) := by
  have hi := reachable_inv h256 hp
  have hlen : p.buf.length = frameBytes (maxPayload width data) := by rw [hi.len, maxSize_eq]
  have hN : (rawPayload env cc p).length = activePayload width data.length p := by
    rw [rawPayload_eq h256 hi, payload_length env width hf]; rfl
  rw [← hlen, ← hN]
  constructor
  · intro h
    by_contra hc
    obtain ⟨buf, e, -⟩ := produce_spec width env cc p (inv_seg hi hf) (by omega)
    rw [h] at e; cases e
  · exact produce_oob width env cc p (inv_seg hi hf)

/-- C15 (partial): with at least two bytes' worth of inactive flows, and no more than eight packets, no
write is out of bounds. -/
theorem C15_inactive_slack_partial (width : Nat → Nat) (data : List FlowData) (h256 : data.length < 256)
    (p : Producer) (hp : Reachable width data p) (env : Nat → List Bool) (hf : Fits width env) (cc : U32)
    (hslack : activePayload width data.length p + 16 ≤ maxPayload width data)
    (h8 : activePayload width data.length p ≤ 4472) :
    ∃ p', produce width env cc p = some p' ∧ p'.buf.length = p.buf.length := by
  have hi := reachable_inv h256 hp
  have h := C15_overrun_iff_partial width data h256 p hp env hf cc
  have hN : (rawPayload env cc p).length = activePayload width data.length p := by
    rw [rawPayload_eq h256 hi, payload_length env width hf]; rfl
  have hlen : p.buf.length = frameBytes (maxPayload width data) := by rw [hi.len, maxSize_eq]
  have hlt : frameLen (activePayload width data.length p) < 8 * frameBytes (maxPayload width data) := by
    generalize activePayload width data.length p = a at *
    generalize maxPayload width data = m at *
    unfold frameLen frameBytes
    omega
  obtain ⟨buf, e, l, -⟩ := produce_spec width env cc p (inv_seg hi hf) (by rw [hlen, hN]; exact hlt)
  exact ⟨_, e, l⟩

/-- C15 does not hold: one flow with an id of one bit and a field of six bits needs 32 + 7 payload bits and one
header bit, that is exactly the five bytes reserved; the padding step then clears the byte after the buffer. -/
theorem C15_counterexample_aligned_frame :
    ∃ (width : Nat → Nat) (data : List FlowData) (p : Producer) (env : Nat → List Bool),
      Reachable width data p ∧ Fits width env ∧ ∀ cc, execute width env cc p = none := by
  have hok : OkData (fun _ => 6) (sampleData 1).length (sampleData 1) := by
    intro d hd
    have : d = ⟨1, true, [0]⟩ := by simpa [sampleData] using hd
    subst this; decide
  have hi := init_sample (fun _ => 6) (fun _ => 0) (sampleData 1) (by decide) hok
  refine ⟨fun _ => 6, sampleData 1, _, fun _ => List.replicate 6 false, reachable_init hi, fun _ => by simp, fun cc => ?_⟩
  have h := (C15_overrun_iff_partial (fun _ => 6) (sampleData 1) (by decide) _ (reachable_init hi)
    (fun _ => List.replicate 6 false) (fun _ => by simp) cc).mpr (by decide)
  unfold execute; rw [h]

/-- C15 does not hold for long frames either: the size formula counts one header per 560 payload bits, the writer
adds one per 559. With ten flows totalling 4480 payload bits, the frame itself (not only its padding) is longer
than the buffer. -/
theorem C15_counterexample_long_frame :
    ∃ (width : Nat → Nat) (data : List FlowData) (p : Producer) (env : Nat → List Bool),
      Reachable width data p ∧ Fits width env ∧ 8 * p.buf.length < frameLen (activePayload width data.length p) ∧
      ∀ cc, execute width env cc p = none := by
  let width : Nat → Nat := fun x => if x = 0 then 448 else 440
  have hok : OkData width (sampleData 10).length (sampleData 10) := by
    intro d hd
    obtain ⟨i, hi, rfl⟩ := List.mem_map.mp hd
    have hi := List.mem_range.mp hi
    have h4 : idWidth (sampleData 10).length = 4 := by decide
    have h10 : (sampleData 10).length = 10 := by decide
    rw [h4, h10]
    refine ⟨by simp, by simp; omega, ?_⟩
    simp only [List.map_cons, List.map_nil, List.sum_cons, List.sum_nil, width]
    split <;> omega
  have hi := init_sample width (fun _ => 0) (sampleData 10) (by decide) hok
  have hf : Fits width (fun x => List.replicate (width x) false) := fun _ => by simp
  refine ⟨width, sampleData 10, _, fun x => List.replicate (width x) false, reachable_init hi, hf, ?_, fun cc => ?_⟩
  · rw [(reachable_inv (by decide) (reachable_init hi)).len, maxSize_eq]; decide
  · have h := (C15_overrun_iff_partial width (sampleData 10) (by decide) _ (reachable_init hi) _ hf cc).mpr (by decide)
    unfold execute; rw [h]

/-- Non-vacuity: with a field of seven bits the same configuration produces a frame. -/
example : ∃ p p', Reachable (fun _ => 7) (sampleData 1) p ∧
    produce (fun _ => 7) (fun _ => List.replicate 7 true) 5#32 p = some p' := by
  have hok : OkData (fun _ => 7) (sampleData 1).length (sampleData 1) := by
    intro d hd
    have : d = ⟨1, true, [0]⟩ := by simpa [sampleData] using hd
    subst this; decide
  have hi := init_sample (fun _ => 7) (fun _ => 0) (sampleData 1) (by decide) hok
  have h := C15_overrun_iff_partial (fun _ => 7) (sampleData 1) (by decide) _ (reachable_init hi)
    (fun _ => List.replicate 7 true) (fun _ => by simp) 5#32
  cases hp : produce (fun _ => 7) (fun _ => List.replicate 7 true) 5#32 _ with
  | none => exact absurd (h.mp hp) (by decide)
  | some p' => exact ⟨_, p', reachable_init hi, hp⟩

/-! ### C14 and the contents of the frame -/

/-- Facts about one execution, from the point of view of the frame it leaves. -/
theorem Downlink.execute_frame {width : Nat → Nat} {data : List FlowData} (h256 : data.length < 256)
    {p p' : Producer} (hi : Inv width data p) {env : Nat → List Bool} (hf : Fits width env)
    {cc : U32} (h : execute width env cc p = some p') :
    frameLen (payload env cc (activeFlows p) data.length).length < 8 * p.buf.length ∧
    p'.buf.length = p.buf.length ∧
    p'.snapSize = frameBytes (payload env cc (activeFlows p) data.length).length ∧
    ∀ q, frameBit p'.buf q =
      if frameLen (payload env cc (activeFlows p) data.length).length ≤ q ∧
         q < 8 * (frameLen (payload env cc (activeFlows p) data.length).length / 8 + 1) then false
      else written p.buf (payload env cc (activeFlows p) data.length) q := by
  obtain ⟨-, p1, h1, hb, hs, -⟩ := execute_inv h256 hi hf h
  rw [← rawPayload_eq h256 hi]
  have hfit : frameLen (rawPayload env cc p).length < 8 * p.buf.length := by
    by_contra hc
    rw [produce_oob width env cc p (inv_seg hi hf) (by omega)] at h1; cases h1
  obtain ⟨buf, e, l, f⟩ := produce_spec width env cc p (inv_seg hi hf) hfit
  rw [h1] at e
  obtain rfl := Option.some.inj e
  refine ⟨hfit, by rw [hb]; exact l, ?_, by rw [hb]; exact f⟩
  rw [hs]
  show downlinkSize width p.flows false = _
  rw [downlinkSize_eq hi hf cc]; rfl

/-- C13/C14 (partial): the exact content of every frame, of every length, produced in any reachable state. Bit 0 is
1; every payload bit is at its slot, except that each packet after the first clears frame bit 64·k instead of writing
its header at 560·k; header positions after the first keep the buffer's previous content; the last byte is padded
with zeros. The property's claim about later headers is false, see below. -/
theorem C14_frame_content_partial (width : Nat → Nat) (data : List FlowData) (h256 : data.length < 256)
    (p p' : Producer) (hp : Reachable width data p) (env : Nat → List Bool) (hf : Fits width env) (cc : U32)
    (h : execute width env cc p = some p') :
    let P := payload env cc (activeFlows p) data.length
    frameBit p'.buf 0 = true ∧
    (∀ i, i < P.length → (∀ k, 1 ≤ k → k ≤ (P.length - 1) / 559 → slot i ≠ 64 * k) →
      P[i]? = some (frameBit p'.buf (slot i))) ∧
    (∀ k, 1 ≤ k → k ≤ (P.length - 1) / 559 → frameBit p'.buf (64 * k) = false) ∧
    (∀ k, 1 ≤ k → k ≤ (P.length - 1) / 559 → 64 * ((P.length - 1) / 559) < 560 * k →
      frameBit p'.buf (560 * k) = frameBit p.buf (560 * k)) ∧
    (∀ q, frameLen P.length ≤ q → q < 8 * p'.snapSize → frameBit p'.buf q = false) := by
  have hi := reachable_inv h256 hp
  obtain ⟨h1, h2, h3, h4⟩ := execute_frame h256 hi hf h
  have h33 : 32 ≤ (payload env cc (activeFlows p) data.length).length := by
    rw [payload_length env width hf]; omega
  simp only []
  generalize payload env cc (activeFlows p) data.length = P at *
  unfold frameLen at *
  refine ⟨?_, ?_, ?_, ?_, ?_⟩
  · rw [h4, if_neg (by omega)]; unfold written; rw [if_pos rfl]
  · intro i hi hk
    have hs : ¬ (slot i % 64 = 0 ∧ slot i / 64 ≤ (P.length - 1) / 559) := by
      rintro ⟨a, b⟩
      exact hk (slot i / 64) (by unfold slot at *; omega) b (by omega)
    have e : slot i - 1 - slot i / 560 = i := by unfold slot; omega
    rw [h4, if_neg (by unfold slot; omega)]
    unfold written
    rw [if_neg (by unfold slot; omega), if_neg hs, if_pos (by unfold slot; omega), e, List.getElem?_eq_getElem hi]
    rfl
  · intro k hk1 hk2
    rw [h4, if_neg (by omega)]
    unfold written
    rw [if_neg (by omega), if_pos (by omega)]
  · intro k hk1 hk2 hk3
    rw [h4, if_neg (by omega)]
    unfold written
    rw [if_neg (by omega), if_neg (by omega), if_neg (by omega)]
  · intro q hq hq2
    rw [h3] at hq2
    unfold frameBytes at hq2
    rw [h4, if_pos (by omega)]

/-- C14 for frames of one packet: the first bit is 1 and every payload bit is intact. -/
theorem C14_single_packet_partial (width : Nat → Nat) (data : List FlowData) (h256 : data.length < 256)
    (p p' : Producer) (hp : Reachable width data p) (env : Nat → List Bool) (hf : Fits width env) (cc : U32)
    (h : execute width env cc p = some p') (h1 : activePayload width data.length p ≤ 559) :
    frameBit p'.buf 0 = true ∧
    ∀ i, i < activePayload width data.length p →
      (payload env cc (activeFlows p) data.length)[i]? = some (frameBit p'.buf (slot i)) := by
  have hN : (payload env cc (activeFlows p) data.length).length = activePayload width data.length p :=
    payload_length env width hf _ _ _
  obtain ⟨a, b, -⟩ := C14_frame_content_partial width data h256 p p' hp env hf cc h
  exact ⟨a, fun i hi => b i (by omega) (fun k hk1 hk2 => by omega)⟩

namespace Downlink

theorem append_congr_ne (n : Nat) (A X Y C : List Bool) (hl : X.length = Y.length) (h : ∀ j, j ≠ n → X[j]? = Y[j]?) (i : Nat)
    (hi : i ≠ A.length + n) : (A ++ (X ++ C))[i]? = (A ++ (Y ++ C))[i]? := by
  rw [List.getElem?_append, List.getElem?_append (l₁ := A), List.getElem?_append, List.getElem?_append (l₁ := Y), hl]
  split
  · rfl
  · split
    · rw [h _ (by omega)]
    · rfl

/-- Two active flows of 300 bits each: the frame needs two packets. -/
def width300 : Nat → Nat := fun _ => 300

theorem ok300 : OkData width300 (sampleData 2).length (sampleData 2) := by
  intro d hd
  have : d = ⟨1, true, [0]⟩ ∨ d = ⟨2, true, [1]⟩ := by simpa [sampleData, List.range_succ] using hd
  rcases this with rfl | rfl <;> decide

/-- The producer of this configuration, with a buffer allocated full of ones. -/
def start300 : Producer := {
  flows := (sampleData 2).map (mkFlow (sampleData 2).length)
  numActive := (sampleData 2).countP (·.active)
  buf := (List.range (downlinkSize width300 ((sampleData 2).map (mkFlow (sampleData 2).length)) true)).map fun _ => 0xff
  snapSize := downlinkSize width300 ((sampleData 2).map (mkFlow (sampleData 2).length)) true
  toggleId := 0
  shiftId1 := 0
  shiftId2 := 0 }

theorem reach300 : Reachable width300 (sampleData 2) start300 :=
  reachable_init (init_sample width300 (fun _ => 0xff) (sampleData 2) (by decide) ok300)

theorem active300 : activeFlows start300 = [(1, [0]), (2, [1])] := by
  have h1 := mkFlow_id 2 ⟨1, true, [0]⟩ (by decide) (by decide) (by decide)
  have h2 := mkFlow_id 2 ⟨2, true, [1]⟩ (by decide) (by decide) (by decide)
  show [((mkFlow 2 ⟨1, true, [0]⟩).idVal.toNat, [0]), ((mkFlow 2 ⟨2, true, [1]⟩).idVal.toNat, [1])] = _
  rw [h1, h2]; rfl

theorem activePayload300 : activePayload width300 (sampleData 2).length start300 = 636 := by
  unfold activePayload
  rw [active300]; decide

theorem execute300 (env : Nat → List Bool) (hf : Fits width300 env) (cc : U32) :
    ∃ buf, execute width300 env cc start300 =
      some { start300 with snapSize := downlinkSize width300 start300.flows false, buf } := by
  have hlen : start300.buf.length = 80 := by
    rw [(reachable_inv (by decide) reach300).len, maxSize_eq]; decide
  have hN : (rawPayload env cc start300).length = 636 := by
    rw [rawPayload_eq (by decide) (reachable_inv (by decide) reach300), payload_length env width300 hf]; exact activePayload300
  obtain ⟨buf, e, -⟩ := produce_spec width300 env cc start300 (inv_seg (reachable_inv (by decide) reach300) hf)
    (by rw [hN, hlen]; decide)
  exact ⟨_, by unfold execute; rw [e]; exact commands_none _ rfl rfl⟩

end Downlink

/-- C14 does not hold: with two 300-bit flows the header of the second packet (frame bit 560) is never written, so it
stays 1 if the freshly allocated buffer had a 1 there, and a payload bit (frame bit 64) is cleared instead. -/
theorem C14_counterexample_second_header :
    ∃ (width : Nat → Nat) (data : List FlowData) (p : Producer) (env : Nat → List Bool) (cc : U32) (p' : Producer),
      Reachable width data p ∧ Fits width env ∧ execute width env cc p = some p' ∧
      frameBit p'.buf 560 = true ∧
      ∃ i, slot i = 64 ∧ (payload env cc (activeFlows p) data.length)[i]? = some true ∧ frameBit p'.buf (slot i) = false := by
  have hf : Fits width300 (fun _ => List.replicate 300 true) := fun _ => List.length_replicate
  obtain ⟨buf, h⟩ := execute300 _ hf 0#32
  have hN : (payload (fun _ => List.replicate 300 true) 0#32 (activeFlows start300) (sampleData 2).length).length = 636 := by
    rw [payload_length _ width300 hf]; exact activePayload300
  obtain ⟨-, -, c, d, -⟩ := C14_frame_content_partial width300 (sampleData 2) (by decide) _ _ reach300 _ hf 0#32 h
  rw [hN] at c d
  refine ⟨width300, sampleData 2, start300, _, _, _, reach300, hf, h, ?_, 63, by decide, ?_, ?_⟩
  · have hlen : downlinkSize width300 ((sampleData 2).map (mkFlow (sampleData 2).length)) true = 80 := by
      rw [maxSize_eq]; decide
    rw [d 1 (by omega) (by omega) (by omega)]
    unfold frameBit start300
    simp only [hlen]
    decide
  · rw [active300]
    decide
  · exact c 1 (by omega) (by omega)

/-! ### C13 -/

namespace Downlink

/-- The bits the ground station works on after removing headers, when no payload bit has been overwritten. -/
theorem ground_bits {width : Nat → Nat} {data : List FlowData} (h256 : data.length < 256)
    {p p' : Producer} (hi : Inv width data p) {env : Nat → List Bool} (hf : Fits width env)
    {cc : U32} (h : execute width env cc p = some p')
    (h70 : p'.snapSize % 70 ≠ 0)
    (hlong : frameLen (payload env cc (activeFlows p) data.length).length ≤ 8 * p'.snapSize)
    (hclear : ∀ i k, slot i = 64 * k → 1 ≤ k → k ≤ ((payload env cc (activeFlows p) data.length).length - 1) / 559 →
      (payload env cc (activeFlows p) data.length)[i]? ≠ some true) :
    ∃ z, eraseHeaders ((frameBits (p'.buf.take p'.snapSize)).length / 560) (frameBits (p'.buf.take p'.snapSize)) =
      some (payload env cc (activeFlows p) data.length ++ List.replicate z false) ∧
      z = 8 * p'.snapSize - (8 * p'.snapSize / 560 + 1) - (payload env cc (activeFlows p) data.length).length := by
  obtain ⟨h1, h2, h3, h4⟩ := execute_frame h256 hi hf h
  have h33 : 32 ≤ (payload env cc (activeFlows p) data.length).length := by
    rw [payload_length env width hf]; omega
  generalize payload env cc (activeFlows p) data.length = P at *
  unfold frameBytes at h3
  unfold frameLen at h1 hlong
  have hle : p'.snapSize ≤ p'.buf.length := by omega
  have hL : (frameBits (p'.buf.take p'.snapSize)).length = 8 * p'.snapSize := by
    rw [frameBits_length, List.length_take]; omega
  obtain ⟨R, e, l, g⟩ := eraseHeaders_frame (frameBits (p'.buf.take p'.snapSize)) (by rw [hL]; omega)
  rw [e]
  rw [hL] at l
  have hj1 : 560 * (8 * p'.snapSize / 560) < 8 * p'.snapSize := by
    have := Nat.div_add_mod (8 * p'.snapSize) 560
    omega
  have hR : P.length ≤ R.length := by
    generalize 8 * p'.snapSize / 560 = J at *
    omega
  refine ⟨_, ?_, rfl⟩
  congr 1
  apply List.ext_getElem?
  intro j
  by_cases hj : j < R.length
  · have hsj : slot j < 8 * p'.snapSize := by unfold slot; omega
    rw [g j hj, frameBits_get _ _ (by rw [List.length_take]; omega), frameBit_take _ _ _ hsj, h4]
    by_cases hjP : j < P.length
    · rw [List.getElem?_append_left hjP, if_neg (by unfold slot frameLen; omega)]
      unfold written
      have e1 : slot j - 1 - slot j / 560 = j := by unfold slot; omega
      rw [if_neg (by unfold slot; omega)]
      by_cases hc : slot j % 64 = 0 ∧ slot j / 64 ≤ (P.length - 1) / 559
      · rw [if_pos hc]
        have := hclear j (slot j / 64) (by omega) (by unfold slot at *; omega) hc.2
        rw [List.getElem?_eq_getElem hjP] at this ⊢
        cases hb : P[j]
        · rfl
        · rw [hb] at this; exact absurd rfl this
      · rw [if_neg hc, if_pos (by unfold slot; omega), e1, List.getElem?_eq_getElem hjP]; rfl
    · rw [List.getElem?_append_right (by omega), if_pos (by unfold slot at *; unfold frameLen; omega),
        List.getElem?_replicate, if_pos (by omega)]
  · rw [List.getElem?_eq_none (by omega), List.getElem?_eq_none (by rw [List.length_append, List.length_replicate]; omega)]

end Downlink

/-- C13 (partial). In every reachable state of every configuration with distinct ids, for every field value and cycle
count, the frame parses on the ground (whose flow table `g` is built from the same configuration) to the cycle count
and exactly the active flows in order with every field's bits, provided: the frame is not a whole number of packets
(otherwise the parser's behaviour is undefined), the reported size covers the frame, and the payload bits that packets
after the first overwrite were zero anyway. -/
theorem C13_roundtrip_partial (width : Nat → Nat) (data : List FlowData) (h256 : data.length < 256) (h0 : data ≠ [])
    (hd : DistinctIds data) (p p' : Producer) (hp : Reachable width data p) (env : Nat → List Bool) (hf : Fits width env)
    (cc : U32) (h : execute width env cc p = some p') (g : List Flow) (k : Nat)
    (hg : makeFlows width data.length data = some (g, k))
    (h70 : p'.snapSize % 70 ≠ 0)
    (hlong : frameLen (activePayload width data.length p) ≤ 8 * p'.snapSize)
    (hclear : ∀ i k, slot i = 64 * k → 1 ≤ k → k ≤ (activePayload width data.length p - 1) / 559 →
      (payload env cc (activeFlows p) data.length)[i]? ≠ some true) :
    ∃ r, parseFrame width g (p'.buf.take p'.snapSize) = some r ∧ r.cc = cc.toNat ∧
      r.flows = report env (activeFlows p) ∧ r.ids = (activeFlows p).map (fun f => (f.1 : Int)) ∧
      (r.stop = .done ∨ r.stop = .idIncomplete) := by
  have hi := reachable_inv h256 hp
  have hok := hi.ok
  have hN : (payload env cc (activeFlows p) data.length).length = activePayload width data.length p :=
    payload_length env width hf _ _ _
  rw [makeFlows_eq width _ h256 data hok] at hg
  obtain ⟨rfl, -⟩ := Prod.mk.inj (Option.some.inj hg)
  obtain ⟨z, e, -⟩ := ground_bits h256 hi hf h h70 (by rw [hN]; exact hlong) (by rw [hN]; exact hclear)
  have hlen : (data.map (mkFlow data.length)).length = data.length := List.length_map ..
  have hpos : 0 < data.length := List.length_pos_iff.mpr h0
  have hpf := parseFlows_spec width env hf (data.map (mkFlow data.length)) (by omega) (by omega) z (activeFlows p) []
    (by
      intro a ha
      obtain ⟨f, hfm, rfl⟩ := List.mem_map.mp ha
      obtain ⟨d, hdm, e1, e2, -, e3, e4⟩ := inv_flow_id h256 hi (List.mem_filter.mp hfm).1
      have hid : f.idVal.toNat = d.id := by omega
      refine ⟨by simp only [hid]; exact e3, by simp only [hid, hlen]; exact e4, mkFlow data.length d, ?_, e2.symm⟩
      simp only [hid]
      exact find_ground data h256 hd hok hdm)
    (active_ids_nodup h256 hi hd) (by intro a _; simp)
  rw [hlen] at hpf
  refine ⟨⟨cc.toNat, (activeFlows p).map fun f => (f.1 : Int), report env (activeFlows p),
    if z ≠ 0 ∧ z < idWidth data.length then .idIncomplete else .done⟩, ?_, rfl, rfl, rfl, ?_⟩
  · unfold parseFrame
    simp only [e]
    have h32 : (natBits 32 cc.toNat).length = 32 := natBits_length _ _
    have hp1 : payload env cc (activeFlows p) data.length ++ List.replicate z false =
        natBits 32 cc.toNat ++ ((activeFlows p).flatMap (fun f => natBits (idWidth data.length) f.1 ++ f.2.flatMap env) ++
          List.replicate z false) := by unfold payload; rw [List.append_assoc]
    rw [hp1, if_neg (by rw [List.length_append]; omega)]
    have ht : (natBits 32 cc.toNat ++ ((activeFlows p).flatMap (fun f => natBits (idWidth data.length) f.1 ++ f.2.flatMap env) ++
          List.replicate z false)).take 32 = natBits 32 cc.toNat := List.take_left' h32
    have hdr : (natBits 32 cc.toNat ++ ((activeFlows p).flatMap (fun f => natBits (idWidth data.length) f.1 ++ f.2.flatMap env) ++
          List.replicate z false)).drop 32 = (activeFlows p).flatMap (fun f => natBits (idWidth data.length) f.1 ++ f.2.flatMap env) ++
          List.replicate z false := List.drop_left' h32
    rw [ht, hdr, hpf, cc_decode _ h32, bitsToNat_natBits, Nat.mod_eq_of_lt cc.isLt]
    rfl
  · show (if z ≠ 0 ∧ z < idWidth data.length then Stop.idIncomplete else .done) = _ ∨ (if z ≠ 0 ∧ z < idWidth data.length then Stop.idIncomplete else .done) = _
    split
    · right; rfl
    · left; rfl

/-- C13 for every frame of one packet shorter than 70 bytes: it parses to the cycle count and exactly the active flows
in order. This covers every payload of at most 551 bits. -/
theorem C13_short_frame_partial (width : Nat → Nat) (data : List FlowData) (h256 : data.length < 256) (h0 : data ≠ [])
    (hd : DistinctIds data) (p p' : Producer) (hp : Reachable width data p) (env : Nat → List Bool) (hf : Fits width env)
    (cc : U32) (h : execute width env cc p = some p') (g : List Flow) (k : Nat)
    (hg : makeFlows width data.length data = some (g, k)) (h1 : activePayload width data.length p ≤ 551) :
    ∃ r, parseFrame width g (p'.buf.take p'.snapSize) = some r ∧ r.cc = cc.toNat ∧
      r.flows = report env (activeFlows p) ∧ r.ids = (activeFlows p).map (fun f => (f.1 : Int)) ∧
      (r.stop = .done ∨ r.stop = .idIncomplete) := by
  have hi := reachable_inv h256 hp
  have hN : (payload env cc (activeFlows p) data.length).length = activePayload width data.length p :=
    payload_length env width hf _ _ _
  obtain ⟨-, -, h3, -⟩ := execute_frame h256 hi hf h
  rw [hN] at h3
  have h32 : 32 ≤ activePayload width data.length p := by unfold activePayload; omega
  unfold frameBytes at h3
  exact C13_roundtrip_partial width data h256 h0 hd p p' hp env hf cc h g k hg (by omega) (by unfold frameLen; omega)
    (fun i k hs hk1 hk2 => by omega)

/-- C13 for a whole transmission: whatever packets were received before, when a frame of one short packet contains flows
1 and 2, the ground station recognises it as the start of a frame and reports exactly its content. -/
theorem C13_short_packet_received_partial (width : Nat → Nat) (data : List FlowData) (h256 : data.length < 256) (h0 : data ≠ [])
    (hd : DistinctIds data) (p p' : Producer) (hp : Reachable width data p) (env : Nat → List Bool) (hf : Fits width env)
    (cc : U32) (h : execute width env cc p = some p') (g : List Flow) (k : Nat)
    (hg : makeFlows width data.length data = some (g, k)) (h1 : activePayload width data.length p ≤ 551)
    (hf1 : 1 ∈ (activeFlows p).map (·.1)) (hf2 : 2 ∈ (activeFlows p).map (·.1)) (before : List U8) :
    ∃ r, processPacket width g before (p'.buf.take p'.snapSize) = some (p'.buf.take p'.snapSize, r) ∧ r.cc = cc.toNat ∧
      r.flows = report env (activeFlows p) := by
  obtain ⟨r, e, hcc, hfl, hids, -⟩ := C13_short_frame_partial width data h256 h0 hd p p' hp env hf cc h g k hg h1
  have m1 : (1 : Int) ∈ r.ids := by
    obtain ⟨x, hx, he⟩ := List.mem_map.mp hf1
    rw [hids]; exact List.mem_map.mpr ⟨x, hx, by omega⟩
  have m2 : (2 : Int) ∈ r.ids := by
    obtain ⟨x, hx, he⟩ := List.mem_map.mp hf2
    rw [hids]; exact List.mem_map.mpr ⟨x, hx, by omega⟩
  refine ⟨r, ?_, hcc, hfl⟩
  unfold processPacket isFirst
  rw [e]
  simp only [decide_eq_true m1, decide_eq_true m2, Bool.and_self, if_true]
  rw [e]

/-- C13 does not hold for frames of two packets: two different sets of field values produce the same frame (and leave
the producer in the same state), so no ground station can tell them apart. -/
theorem C13_counterexample_two_packets :
    ∃ (width : Nat → Nat) (data : List FlowData) (p : Producer) (env env' : Nat → List Bool) (cc : U32) (p' : Producer),
      Reachable width data p ∧ DistinctIds data ∧ Fits width env ∧ Fits width env' ∧
      report env (activeFlows p) ≠ report env' (activeFlows p) ∧
      execute width env cc p = some p' ∧ execute width env' cc p = some p' := by
  let e1 : Nat → List Bool := fun _ => List.replicate 300 false
  let e2 : Nat → List Bool := fun x => if x = 0 then (List.replicate 300 false).set 29 true else List.replicate 300 false
  have hf1 : Fits width300 e1 := fun _ => List.length_replicate
  have hf2 : Fits width300 e2 := by
    intro x
    show (if x = 0 then _ else _ : List Bool).length = 300
    split
    · rw [List.length_set, List.length_replicate]
    · exact List.length_replicate
  have hi := reachable_inv (by decide) reach300
  have hP : ∀ (env : Nat → List Bool), payload env 0#32 (activeFlows start300) (sampleData 2).length =
      natBits 32 0 ++ (natBits 2 1 ++ (env 0 ++ (natBits 2 2 ++ env 1))) := by
    intro env
    rw [active300]
    unfold payload
    have hw : idWidth (sampleData 2).length = 2 := by decide
    simp only [hw, List.flatMap_cons, List.flatMap_nil, List.append_nil, List.append_assoc]
    rfl
  have hPl : ∀ (env : Nat → List Bool), Fits width300 env →
      (payload env 0#32 (activeFlows start300) (sampleData 2).length).length = 636 := by
    intro env hf; rw [payload_length _ width300 hf]; exact activePayload300
  have hPeq : ∀ i, i ≠ 63 → (payload e1 0#32 (activeFlows start300) (sampleData 2).length)[i]? =
      (payload e2 0#32 (activeFlows start300) (sampleData 2).length)[i]? := by
    intro i hne
    rw [hP, hP]
    have h0 : e2 0 = (List.replicate 300 false).set 29 true := rfl
    have h1 : e2 1 = e1 1 := rfl
    have h00 : e1 0 = List.replicate 300 false := rfl
    rw [h0, h1, h00]
    have s1 : (natBits 32 0).length = 32 := natBits_length _ _
    have s2 : (natBits 2 1).length = 2 := natBits_length _ _
    rw [← List.append_assoc, ← List.append_assoc (natBits 32 0)]
    refine append_congr_ne 29 _ _ _ _ (by rw [List.length_set]) (fun j hj => ?_) i (by rw [List.length_append]; omega)
    rw [List.getElem?_set, if_neg (by omega)]
  obtain ⟨buf1, h1⟩ := execute300 e1 hf1 0#32
  obtain ⟨buf2, h2⟩ := execute300 e2 hf2 0#32
  obtain ⟨-, l1, -, b1⟩ := execute_frame (by decide) hi hf1 h1
  obtain ⟨-, l2, -, b2⟩ := execute_frame (by decide) hi hf2 h2
  rw [hPl e1 hf1] at b1
  rw [hPl e2 hf2] at b2
  have hbits : ∀ q, frameBit buf1 q = frameBit buf2 q := by
    intro q
    refine (b1 q).trans (Eq.trans ?_ (b2 q).symm)
    congr 1
    unfold written
    rw [hPl e1 hf1, hPl e2 hf2]
    by_cases hq0 : q = 0
    · rw [if_pos hq0, if_pos hq0]
    rw [if_neg hq0, if_neg hq0]
    by_cases hq1 : q % 64 = 0 ∧ q / 64 ≤ (636 - 1) / 559
    · rw [if_pos hq1, if_pos hq1]
    rw [if_neg hq1, if_neg hq1]
    by_cases hq2 : q % 560 ≠ 0 ∧ q - 1 - q / 560 < 636
    · rw [if_pos hq2, if_pos hq2, hPeq _ (by omega)]
    · rw [if_neg hq2, if_neg hq2]
  have hbuf : buf1 = buf2 := frame_ext (l1.trans l2.symm) hbits
  subst hbuf
  refine ⟨width300, sampleData 2, start300, e1, e2, 0#32, _, reach300, by unfold DistinctIds; decide, hf1, hf2, ?_, h1, h2⟩
  rw [active300]
  intro h
  have h29 : (e1 0)[29]? = (e2 0)[29]? := by
    have := congrArg (fun l => (l.head?.map fun x => x.2.head?.map fun y => y.2)) h
    have : some (some (e1 0)) = some (some (e2 0)) := this
    rw [Option.some.inj (Option.some.inj this)]
  have a1 : (e1 0)[29]? = some false := by decide
  have a2 : (e2 0)[29]? = some true := by decide
  rw [a1, a2] at h29
  cases h29

/-- C13 does not hold for frames that are a whole number of 70-byte packets: parsing any such packet, whatever its
content, erases past the end of the bit vector, which is undefined behaviour. -/
theorem C13_counterexample_full_packet (width : Nat → Nat) (g : List Flow) (frame packet : List U8)
    (h : packet.length % 70 = 0) : processPacket width g frame packet = none := by
  have hL : (frameBits packet).length = 8 * packet.length := frameBits_length packet
  have : eraseHeaders ((frameBits packet).length / 560) (frameBits packet) = none := by
    rw [hL]
    have h0 : 8 * packet.length = 560 * (8 * packet.length / 560) := by omega
    generalize hk : 8 * packet.length / 560 = k at *
    cases k with
    | zero => simp only [eraseHeaders]; rw [if_neg (by omega)]
    | succ k => simp only [eraseHeaders]; rw [if_neg (by omega)]
  unfold processPacket isFirst parseFrame
  simp only [this]

/-- Non-vacuity of the round trip: two active flows with 40-bit fields, in the state after initialisation. -/
example : ∃ p p' g k, Reachable (fun _ => 40) (sampleData 2) p ∧ DistinctIds (sampleData 2) ∧
    makeFlows (fun _ => 40) (sampleData 2).length (sampleData 2) = some (g, k) ∧
    activePayload (fun _ => 40) (sampleData 2).length p ≤ 551 ∧
    execute (fun _ => 40) (fun _ => List.replicate 40 true) 7#32 p = some p' ∧
    1 ∈ (activeFlows p).map (·.1) ∧ 2 ∈ (activeFlows p).map (·.1) := by
  have hok : OkData (fun _ => 40) (sampleData 2).length (sampleData 2) := by
    intro d hd
    have : d = ⟨1, true, [0]⟩ ∨ d = ⟨2, true, [1]⟩ := by simpa [sampleData, List.range_succ] using hd
    rcases this with rfl | rfl <;> decide
  obtain ⟨p, hi, hpf, hs1, ht⟩ : ∃ p, init (fun _ => 40) (fun _ => 0) (sampleData 2) = some p ∧
      p.flows = (sampleData 2).map (mkFlow (sampleData 2).length) ∧ p.shiftId1 = 0 ∧ p.toggleId = 0 :=
    ⟨_, init_sample (fun _ => 40) (fun _ => 0) (sampleData 2) (by decide) hok, rfl, rfl, rfl⟩
  have hinv := reachable_inv (by decide) (reachable_init hi)
  have hf : Fits (fun _ => 40) (fun _ => List.replicate 40 true) := fun _ => List.length_replicate
  have hact : activeFlows p = [(1, [0]), (2, [1])] := by
    have h1 := mkFlow_id 2 ⟨1, true, [0]⟩ (by decide) (by decide) (by decide)
    have h2 := mkFlow_id 2 ⟨2, true, [1]⟩ (by decide) (by decide) (by decide)
    unfold activeFlows
    rw [hpf]
    show [((mkFlow 2 ⟨1, true, [0]⟩).idVal.toNat, [0]), ((mkFlow 2 ⟨2, true, [1]⟩).idVal.toNat, [1])] = _
    rw [h1, h2]; rfl
  have hap : activePayload (fun _ => 40) (sampleData 2).length p = 116 := by
    unfold activePayload
    rw [hact]; decide
  obtain ⟨buf, e, -⟩ := produce_spec (fun _ => 40) (fun _ => List.replicate 40 true) 7#32 p (inv_seg hinv hf) (by
    rw [rawPayload_eq (by decide) hinv, payload_length _ _ hf, hinv.len, maxSize_eq]
    show frameLen (activePayload (fun _ => 40) (sampleData 2).length p) < _
    rw [hap]; decide)
  refine ⟨p, _, _, _, reachable_init hi, by unfold DistinctIds; decide, makeFlows_eq _ _ (by decide) _ hok, by rw [hap]; decide,
    by unfold execute; rw [e]; exact commands_none _ hs1 ht, ?_, ?_⟩ <;> rw [hact] <;> decide

/-- The configuration check for duplicate flow ids never fires: a table with two flows of the same id is accepted. The
ground station would then report an error for every frame (finding; the round trip above assumes distinct ids). -/
theorem C13_counterexample_duplicate_ids_accepted :
    ∃ (width : Nat → Nat) (junk : Nat → U8) (data : List FlowData) (p : Producer),
      init width junk data = some p ∧ ¬ DistinctIds data := by
  have hok : OkData (fun _ => 8) 2 [⟨1, true, [0]⟩, ⟨1, true, [1]⟩] := by
    intro d hd
    have : d = ⟨1, true, [0]⟩ ∨ d = ⟨1, true, [1]⟩ := by simpa using hd
    rcases this with rfl | rfl <;> decide
  exact ⟨_, fun _ => 0, _, _, init_sample (fun _ => 8) (fun _ => 0) _ (by decide) hok, by unfold DistinctIds; decide⟩

/-! ### C16 -/

namespace Downlink

theorem flow_ids {width : Nat → Nat} {data : List FlowData} (h256 : data.length < 256) {p : Producer} (hi : Inv width data p) :
    (p.flows.map Flow.idVal).Perm (data.map fun d => (d.id : Int)) := by
  have h2 := hi.perm.map fun x : IntSer × List Nat => x.1.deserialize
  rw [List.map_map, List.map_map] at h2
  refine h2.trans (List.Perm.of_eq ?_)
  apply List.map_congr_left
  intro d hdm
  obtain ⟨h1, h2, -⟩ := hi.ok d hdm
  exact mkFlow_id data.length d h256 h1 h2

theorem flow_ids_nodup {width : Nat → Nat} {data : List FlowData} (h256 : data.length < 256) {p : Producer} (hi : Inv width data p)
    (hd : DistinctIds data) : (p.flows.map Flow.idVal).Nodup := by
  refine (flow_ids h256 hi).nodup_iff.mpr ?_
  have : (data.map fun d => (d.id : Int)) = (data.map (·.id)).map Int.ofNat := by rw [List.map_map]; rfl
  rw [this]
  exact hd.map (fun _ _ he => Int.ofNat.inj he)

theorem flows_length {width : Nat → Nat} {data : List FlowData} {p : Producer} (hi : Inv width data p) :
    p.flows.length = data.length := by
  have := hi.perm.length_eq
  simpa using this

theorem toggleLoop_eq (id : Nat) (flows : List Flow) (hn : (flows.map Flow.idVal).Nodup) :
    (toggleLoop id flows).1 = flows.map fun f : Flow => if f.idVal = (id : Int) then { f with active := !f.active } else f := by
  induction flows with
  | nil => rfl
  | cons f fs ih =>
    rw [List.map_cons, List.nodup_cons] at hn
    simp only [toggleLoop, List.map_cons]
    by_cases h : f.idVal = id
    · rw [if_pos h, if_pos h]
      congr 1
      have : ∀ x ∈ fs, x.idVal ≠ id := fun x hx he => hn.1 (by rw [h, ← he]; exact List.mem_map_of_mem hx)
      have h2 : fs.map (fun f => if f.idVal = (id : Int) then { f with active := !f.active } else f) = fs.map fun f => f := by
        apply List.map_congr_left
        intro x hx; rw [if_neg (this x hx)]
      rw [h2, List.map_id']
    · rw [if_neg h, if_neg h, ih hn.2]

theorem lastIdx_absent (id : Nat) (fs : List Flow) : ∀ i acc, (∀ f ∈ fs, f.idVal ≠ id) → lastIdx id fs i acc = acc := by
  induction fs with
  | nil => intro i acc _; rfl
  | cons f fs ih =>
    intro i acc h
    simp only [lastIdx]
    rw [if_neg (h f List.mem_cons_self), ih _ _ (fun x hx => h x (List.mem_cons_of_mem _ hx))]

theorem lastIdx_eq (id : Nat) (fs : List Flow) : ∀ (i acc m : Nat) (hm : m < fs.length), (fs.map Flow.idVal).Nodup →
    fs[m].idVal = id → lastIdx id fs i acc = i + m := by
  induction fs with
  | nil => intro _ _ m hm; simp at hm
  | cons f fs ih =>
    intro i acc m hm hn he
    rw [List.map_cons, List.nodup_cons] at hn
    simp only [lastIdx]
    cases m with
    | zero =>
      have he : f.idVal = id := he
      rw [if_pos he, lastIdx_absent id fs _ _ (fun x hx h => hn.1 (by rw [he, ← h]; exact List.mem_map_of_mem hx))]
      omega
    | succ m =>
      have hm' : m < fs.length := by simpa using hm
      have he : fs[m].idVal = id := he
      rw [ih (i + 1) _ m hm' hn.2 he]
      omega

theorem shiftUp_ok (k : Nat) : ∀ (flows : List Flow) (i : Nat) (w : Nat), i + k < flows.length →
    (∀ m (hm : m < flows.length), i ≤ m → m ≤ i + k → flows[m].fields.length = w) → ∃ r, shiftUp flows i k = some r := by
  induction k with
  | zero => intro flows i w _ _; exact ⟨flows, rfl⟩
  | succ k ih =>
    intro flows i w hk hw
    have e := swapAt_ok (flows := flows) (i := i) (j := i + 1) (by omega) (by omega)
      (by rw [hw i (by omega) (by omega) (by omega), hw (i + 1) (by omega) (by omega) (by omega)])
    obtain ⟨r, hr⟩ := ih ((flows.set i flows[i + 1]).set (i + 1) flows[i]) (i + 1) w (by simp; omega) (by
      intro m hm h1 h2
      simp only [List.length_set] at hm
      rw [List.getElem_set, List.getElem_set]
      split
      · exact hw i (by omega) (by omega) (by omega)
      · split
        · exact hw (i + 1) (by omega) (by omega) (by omega)
        · exact hw m (by omega) (by omega) (by omega))
    exact ⟨r, by simp only [shiftUp, e]; exact hr⟩

theorem shiftDown_ok (k : Nat) : ∀ (flows : List Flow) (i : Nat) (w : Nat), i < flows.length → k ≤ i →
    (∀ m (hm : m < flows.length), i - k ≤ m → m ≤ i → flows[m].fields.length = w) → ∃ r, shiftDown flows i k = some r := by
  induction k with
  | zero => intro flows i w _ _ _; exact ⟨flows, rfl⟩
  | succ k ih =>
    intro flows i w hk hki hw
    have e := swapAt_ok (flows := flows) (i := i) (j := i - 1) (by omega) (by omega)
      (by rw [hw i (by omega) (by omega) (by omega), hw (i - 1) (by omega) (by omega) (by omega)])
    obtain ⟨r, hr⟩ := ih ((flows.set i flows[i - 1]).set (i - 1) flows[i]) (i - 1) w (by simp; omega) (by omega) (by
      intro m hm h1 h2
      simp only [List.length_set] at hm
      rw [List.getElem_set, List.getElem_set]
      split
      · exact hw i (by omega) (by omega) (by omega)
      · split
        · exact hw (i - 1) (by omega) (by omega) (by omega)
        · exact hw m (by omega) (by omega) (by omega))
    exact ⟨r, by simp only [shiftDown, e]; exact hr⟩

theorem shiftUp_lengths (k : Nat) : ∀ (flows : List Flow) (i : Nat) {r}, i < flows.length → shiftUp flows i k = some r →
    ∀ m, i ≤ m → m ≤ i + k → ∃ (hm : m < flows.length), flows[m].fields.length = (flows[i]?.map (·.fields.length)).getD 0 := by
  induction k with
  | zero =>
    intro flows i r hi _ m h1 h2
    have : m = i := by omega
    subst this
    exact ⟨hi, by simp [List.getElem?_eq_getElem hi]⟩
  | succ k ih =>
    intro flows i r hi h m h1 h2
    simp only [shiftUp] at h
    cases he : swapAt flows i (i + 1) with
    | none => rw [he] at h; cases h
    | some f2 =>
      rw [he] at h
      obtain ⟨hi', hj, hl, hf2⟩ := swapAt_some he
      have hlen : f2.length = flows.length := by rw [hf2]; simp
      by_cases hm1 : m = i
      · subst hm1; exact ⟨hi, by simp [List.getElem?_eq_getElem hi]⟩
      by_cases hm2 : m = i + 1
      · subst hm2; exact ⟨hj, by simp [List.getElem?_eq_getElem hi, hl]⟩
      obtain ⟨hm, h3⟩ := ih f2 (i + 1) (by omega) h m (by omega) (by omega)
      refine ⟨by omega, ?_⟩
      have g1 := swapAt_get he m
      rw [if_neg hm2, if_neg hm1, List.getElem?_eq_getElem hm, List.getElem?_eq_getElem (by omega)] at g1
      have g2 := swapAt_get he (i + 1)
      rw [if_pos rfl] at g2
      rw [g2] at h3
      rw [← Option.some.inj g1]; exact h3

theorem shiftDown_lengths (k : Nat) : ∀ (flows : List Flow) (i : Nat) {r}, i < flows.length → k ≤ i → shiftDown flows i k = some r →
    ∀ m, i - k ≤ m → m ≤ i → ∃ (hm : m < flows.length), flows[m].fields.length = (flows[i]?.map (·.fields.length)).getD 0 := by
  induction k with
  | zero =>
    intro flows i r hi _ _ m h1 h2
    have : m = i := by omega
    subst this
    exact ⟨hi, by simp [List.getElem?_eq_getElem hi]⟩
  | succ k ih =>
    intro flows i r hi hk h m h1 h2
    simp only [shiftDown] at h
    cases he : swapAt flows i (i - 1) with
    | none => rw [he] at h; cases h
    | some f2 =>
      rw [he] at h
      obtain ⟨hi', hj, hl, hf2⟩ := swapAt_some he
      have hlen : f2.length = flows.length := by rw [hf2]; simp
      by_cases hm1 : m = i
      · subst hm1; exact ⟨hi, by simp [List.getElem?_eq_getElem hi]⟩
      by_cases hm2 : m = i - 1
      · subst hm2; exact ⟨hj, by simp [List.getElem?_eq_getElem hi, hl]⟩
      obtain ⟨hm, h3⟩ := ih f2 (i - 1) (by omega) (by omega) h m (by omega) (by omega)
      refine ⟨by omega, ?_⟩
      have g1 := swapAt_get he m
      rw [if_neg hm2, if_neg hm1, List.getElem?_eq_getElem hm, List.getElem?_eq_getElem (by omega)] at g1
      have g2 := swapAt_get he (i - 1)
      rw [if_pos rfl] at g2
      rw [g2] at h3
      rw [← Option.some.inj g1]; exact h3

end Downlink

/-- C16: in every reachable state the count of active flows is right, and no flow has been lost, duplicated or altered:
the flows are the configured ones (same ids, same fields) in some order. -/
theorem C16_flows_preserved (width : Nat → Nat) (data : List FlowData) (h256 : data.length < 256)
    (p : Producer) (hp : Reachable width data p) :
    p.numActive = (p.flows.filter (·.active)).length ∧
    (p.flows.map fun f => (f.idVal, f.fields)).Perm (data.map fun d => ((d.id : Int), d.fields)) := by
  have hi := reachable_inv h256 hp
  refine ⟨by rw [hi.count, List.countP_eq_length_filter], ?_⟩
  have h2 := hi.perm.map fun x : IntSer × List Nat => (x.1.deserialize, x.2)
  rw [List.map_map, List.map_map] at h2
  refine h2.trans (List.Perm.of_eq ?_)
  apply List.map_congr_left
  intro d hdm
  obtain ⟨h1, h2, -⟩ := hi.ok d hdm
  have := mkFlow_id data.length d h256 h1 h2
  unfold Flow.idVal at this
  simp only [Function.comp, this]

/-- C16: toggling a flow that exists flips the active status of exactly that flow, leaves the order and everything else
alone, and keeps the count right. -/
theorem C16_toggle (width : Nat → Nat) (data : List FlowData) (h256 : data.length < 256) (hd : DistinctIds data)
    (p : Producer) (hp : Reachable width data p) (id : Nat) (hid : id ∈ data.map (·.id)) :
    ∃ p', toggle id p = some p' ∧
      p'.flows = p.flows.map (fun f : Flow => if f.idVal = (id : Int) then { f with active := !f.active } else f) ∧
      p'.numActive = (p'.flows.filter (·.active)).length ∧ p'.buf = p.buf ∧ p'.snapSize = p.snapSize := by
  have hi := reachable_inv h256 hp
  have hle : id ≤ p.flows.length := by
    obtain ⟨d, hdm, rfl⟩ := List.mem_map.mp hid
    rw [flows_length hi]; exact (hi.ok d hdm).2.1
  cases ht : toggle id p with
  | none => unfold toggle at ht; rw [if_neg (by omega)] at ht; cases ht
  | some p' =>
    obtain ⟨-, a2, a3, a4⟩ := toggle_frame ht hi.count (by rw [flows_length hi]; omega)
    refine ⟨p', rfl, ?_, by rw [a2, List.countP_eq_length_filter], a3, a4⟩
    unfold toggle at ht
    rw [if_neg (by omega)] at ht
    rw [← Option.some.inj ht]
    exact toggleLoop_eq id p.flows (flow_ids_nodup h256 hi hd)

/-- C16 (partial: exactly when it works). Shifting the flow at position `i` to position `j` succeeds if and only if it
has as many fields as every flow it passes; then it is moved there, the others keep their order, and nothing else
changes. Otherwise memory outside a flow's field list is accessed. -/
theorem C16_shift_partial (width : Nat → Nat) (data : List FlowData) (h256 : data.length < 256) (hd : DistinctIds data)
    (p : Producer) (hp : Reachable width data p) (i j : Nat) (hi : i < p.flows.length) (hj : j < p.flows.length)
    (id1 id2 : Nat) (h1 : p.flows[i].idVal = id1) (h2 : p.flows[j].idVal = id2) :
    (∀ p', shift id1 id2 p = some p' →
      p' = { p with flows := (p.flows.eraseIdx i).insertIdx j p.flows[i] }) ∧
    (shift id1 id2 p ≠ none ↔
      ∀ m (hm : m < p.flows.length), (i ≤ m ∧ m ≤ j ∨ j ≤ m ∧ m ≤ i) →
        p.flows[m].fields.length = p.flows[i].fields.length) := by
  have hinv := reachable_inv h256 hp
  have hn := flow_ids_nodup h256 hinv hd
  have hle : ∀ {m id : Nat} (hm : m < p.flows.length), p.flows[m].idVal = id → id ≤ p.flows.length := by
    intro m id hm he
    obtain ⟨d, hdm, e1, -, -, -, e4⟩ := inv_flow_id h256 hinv (List.getElem_mem hm)
    rw [flows_length hinv]; omega
  have l1 := lastIdx_eq id1 p.flows 0 0 i hi hn h1
  have l2 := lastIdx_eq id2 p.flows 0 0 j hj hn h2
  rw [Nat.zero_add] at l1 l2
  have hs : shift id1 id2 p = if i > j then (shiftDown p.flows i (i - j)).map fun fs => { p with flows := fs }
      else (shiftUp p.flows i (j - i)).map fun fs => { p with flows := fs } := by
    unfold shift
    have a1 := hle hi h1
    have a2 := hle hj h2
    rw [if_neg (by omega), if_neg (by omega), l1, l2]
  rw [hs]
  by_cases hij : i > j
  · rw [if_pos hij]
    constructor
    · intro p' h
      cases hr : shiftDown p.flows i (i - j) with
      | none => rw [hr] at h; cases h
      | some r =>
        rw [hr] at h
        rw [← Option.some.inj h]
        congr 1
        apply List.ext_getElem?
        intro m
        rw [shiftDown_get (i - j) p.flows i (by omega) hr m, List.getElem?_insertIdx, List.getElem?_eraseIdx, List.getElem?_eraseIdx,
          List.length_eraseIdx_of_lt hi]
        by_cases b1 : m < j
        · rw [if_pos (by omega), if_pos (by omega), if_pos (by omega)]
        · by_cases b2 : m = j
          · rw [if_neg (by omega), if_pos (by omega), if_neg (by omega), if_pos b2, if_pos (by omega), List.getElem?_eq_getElem hi]
          · by_cases b3 : i < m
            · rw [if_pos (by omega), if_neg (by omega), if_neg b2, if_neg (by omega)]
              congr 1; omega
            · rw [if_neg (by omega), if_neg (by omega), if_neg (by omega), if_neg b2, if_pos (by omega)]
    · constructor
      · intro h m hm hb
        cases hr : shiftDown p.flows i (i - j) with
        | none => rw [hr] at h; exact absurd rfl h
        | some r =>
          obtain ⟨_, h3⟩ := shiftDown_lengths (i - j) p.flows i hi (by omega) hr m (by omega) (by omega)
          rw [h3, List.getElem?_eq_getElem hi]; rfl
      · intro h
        obtain ⟨r, hr⟩ := shiftDown_ok (i - j) p.flows i p.flows[i].fields.length hi (by omega)
          (fun m hm b1 b2 => h m hm (by omega))
        rw [hr]; simp
  · rw [if_neg hij]
    constructor
    · intro p' h
      cases hr : shiftUp p.flows i (j - i) with
      | none => rw [hr] at h; cases h
      | some r =>
        rw [hr] at h
        rw [← Option.some.inj h]
        congr 1
        apply List.ext_getElem?
        intro m
        rw [shiftUp_get (j - i) p.flows i hr m, List.getElem?_insertIdx, List.getElem?_eraseIdx, List.getElem?_eraseIdx,
          List.length_eraseIdx_of_lt hi]
        by_cases b1 : m < i
        · rw [if_pos (by omega), if_pos (by omega), if_pos (by omega)]
        · by_cases b2 : m = j
          · rw [if_neg (by omega), if_pos (by omega), if_neg (by omega), if_pos b2, if_pos (by omega), List.getElem?_eq_getElem hi]
          · by_cases b3 : j < m
            · rw [if_pos (by omega), if_neg (by omega), if_neg b2, if_neg (by omega)]
              congr 1; omega
            · rw [if_neg (by omega), if_neg (by omega), if_pos (by omega), if_neg (by omega)]
    · constructor
      · intro h m hm hb
        cases hr : shiftUp p.flows i (j - i) with
        | none => rw [hr] at h; exact absurd rfl h
        | some r =>
          obtain ⟨_, h3⟩ := shiftUp_lengths (j - i) p.flows i hi hr m (by omega) (by omega)
          rw [h3, List.getElem?_eq_getElem hi]; rfl
      · intro h
        obtain ⟨r, hr⟩ := shiftUp_ok (j - i) p.flows i p.flows[i].fields.length (by omega)
          (fun m hm b1 b2 => h m hm (by omega))
        rw [hr]; simp

/-- C16: without commands, `execute` changes no flow. -/
theorem C16_no_command (width : Nat → Nat) (env : Nat → List Bool) (cc : U32) (p p' : Producer)
    (h1 : p.shiftId1 = 0 ∨ p.shiftId2 = 0) (h2 : p.toggleId = 0) (h : execute width env cc p = some p') :
    p'.flows = p.flows ∧ p'.numActive = p.numActive := by
  unfold execute at h
  cases hp : produce width env cc p with
  | none => rw [hp] at h; cases h
  | some q =>
    rw [hp] at h
    obtain ⟨buf, rfl⟩ := produce_frame hp
    simp only [commands] at h
    rw [if_neg (by omega)] at h
    simp only [h2] at h
    rw [if_neg (by omega)] at h
    rw [← Option.some.inj h]
    exact ⟨rfl, rfl⟩

/-- C16: a command is carried out once: after any execution the command fields are zero (or were not both set). -/
theorem C16_commands_cleared (width : Nat → Nat) (env : Nat → List Bool) (cc : U32) (p p' : Producer)
    (h : execute width env cc p = some p') :
    p'.toggleId = 0 ∧ (p'.shiftId1 = 0 ∨ p'.shiftId2 = 0) := by
  unfold execute at h
  cases hp : produce width env cc p with
  | none => rw [hp] at h; cases h
  | some q =>
    rw [hp] at h
    simp only [commands] at h
    split at h
    · cases h
    · rename_i r hr
      have hr2 : r.shiftId1 = 0 ∨ r.shiftId2 = 0 := by
        split at hr
        · cases hs : shift q.shiftId1 q.shiftId2 q with
          | none => rw [hs] at hr; cases hr
          | some x => rw [hs] at hr; rw [← Option.some.inj hr]; left; rfl
        · rw [← Option.some.inj hr]; omega
      split at h
      · cases ht : toggle r.toggleId r with
        | none => rw [ht] at h; cases h
        | some x =>
          rw [ht] at h; rw [← Option.some.inj h]
          refine ⟨rfl, ?_⟩
          unfold toggle at ht
          split at ht
          · cases ht
          · rw [← Option.some.inj ht]; exact hr2
      · rw [← Option.some.inj h]; exact ⟨by omega, hr2⟩

/-- C16 does not hold for flows with different numbers of fields: shifting one past the other accesses memory outside a
field list. -/
theorem C16_counterexample_shift_different_sizes :
    ∃ (width : Nat → Nat) (data : List FlowData) (p : Producer), Reachable width data p ∧ DistinctIds data ∧
      shift 1 2 p = none := by
  have hok : OkData (fun _ => 8) 2 [⟨1, true, [0]⟩, ⟨2, true, [1, 2]⟩] := by
    intro d hd
    have : d = ⟨1, true, [0]⟩ ∨ d = ⟨2, true, [1, 2]⟩ := by simpa using hd
    rcases this with rfl | rfl <;> decide
  have hdist : DistinctIds [⟨1, true, [0]⟩, ⟨2, true, [1, 2]⟩] := by unfold DistinctIds; decide
  obtain ⟨p, hi, hpf⟩ : ∃ p, init (fun _ => 8) (fun _ => 0) [⟨1, true, [0]⟩, ⟨2, true, [1, 2]⟩] = some p ∧
      p.flows = [mkFlow 2 ⟨1, true, [0]⟩, mkFlow 2 ⟨2, true, [1, 2]⟩] :=
    ⟨_, init_sample (fun _ => 8) (fun _ => 0) _ (by decide) hok, rfl⟩
  have h1 := mkFlow_id 2 ⟨1, true, [0]⟩ (by decide) (by decide) (by decide)
  have h2 := mkFlow_id 2 ⟨2, true, [1, 2]⟩ (by decide) (by decide) (by decide)
  refine ⟨_, _, p, reachable_init hi, hdist, ?_⟩
  have h := (C16_shift_partial _ _ (by decide) hdist p (reachable_init hi) 0 1 (by rw [hpf]; decide) (by rw [hpf]; decide) 1 2
    (by simp only [hpf]; exact h1) (by simp only [hpf]; exact h2)).2
  by_contra hc
  have := h.mp hc 1 (by rw [hpf]; decide) (by omega)
  simp only [hpf] at this
  exact absurd this (by simp [mkFlow])

/-- C16 does not hold for invalid ids: with two flows, the command field (two bits wide) can carry the value 3, which
fails an assertion instead of changing nothing. -/
theorem C16_counterexample_invalid_toggle :
    ((idSer 2).setBits [true, true]).deserialize = 3 ∧
    ∀ p, Reachable width300 (sampleData 2) p → toggle 3 p = none := by
  refine ⟨?_, fun p hp => ?_⟩
  · have hw : (idSer 2).bits.length = 2 := idSer_width 2 (by decide) (by decide)
    have hb : ([true, true] : List Bool).length = (IntSer.mkRange .uchar 0 2).bits.length := hw.symm
    have hv := (IntSer.mkRange_valid .uchar 0 2 (by decide) (by decide) (by decide)).1
    have e : (idSer 2).setBits [true, true] = { IntSer.mkRange .uchar 0 2 with bits := [true, true] } := by
      unfold IntSer.setBits; rw [if_neg (by rw [hw]; decide)]; rfl
    rw [e]
    have hs : stepSize ((2 : Int) - 0).toNat 2 = 1 := by decide
    have hr := IntSer.resolution_eq (IntSer.valid_with_bits hv hb)
    unfold IntSer.deserialize
    simp only [] at hr ⊢
    rw [hr]
    decide
  · unfold toggle
    rw [if_pos (by rw [flows_length (reachable_inv (by decide) hp)]; decide)]

/-- Non-vacuity: the two-flow configuration, its flows, and a toggle. -/
example : Reachable width300 (sampleData 2) start300 ∧ DistinctIds (sampleData 2) ∧ 2 ∈ (sampleData 2).map (·.id) ∧
    start300.flows.length = 2 :=
  ⟨reach300, by unfold DistinctIds; decide, by decide, by decide⟩

end PAN
