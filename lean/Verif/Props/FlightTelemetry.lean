import Verif.Spec.FlightTelemetry
import Verif.Lemmas.StartupWidths
import Mathlib.Tactic.IntervalCases
/-!
C117: the telemetry of the flight software as it is configured, that is with the flows of its own flow table and the
widths of its own fields.
-/
namespace PAN
open Spec Downlink

namespace Downlink

theorem quietReach_reachable {width : Nat → Nat} {data : List FlowData} {p : Producer} (h : QuietReach width data p) :
    Reachable width data p := by
  obtain ⟨junk, p0, cycles, h1, h2, -, h3⟩ := h
  exact ⟨junk, p0, cycles, h1, h2, h3⟩

/-- The active flows never need more than the flows all together. -/
theorem activePayload_le {width : Nat → Nat} {data : List FlowData} {p : Producer} (hi : Inv width data p) :
    activePayload width data.length p ≤ maxPayload width data := by
  unfold activePayload maxPayload activeFlows
  rw [List.map_map]
  have h1 : (p.flows.map fun f => idWidth data.length + (f.fields.map width).sum).sum =
      (data.map fun d => idWidth data.length + (d.fields.map width).sum).sum := by
    have := (hi.perm.map fun x : IntSer × List Nat => idWidth data.length + (x.2.map width).sum).sum_eq
    simpa [List.map_map, Function.comp_def] using this
  have h2 : ((p.flows.filter (·.active)).map fun f => idWidth data.length + (f.fields.map width).sum).sum ≤
      (p.flows.map fun f => idWidth data.length + (f.fields.map width).sum).sum := by
    induction p.flows with
    | nil => simp
    | cons f fs ih =>
      rw [List.filter_cons]
      split
      · simp only [List.map_cons, List.sum_cons]; omega
      · simp only [List.map_cons, List.sum_cons]; omega
  have h3 := h2.trans_eq h1
  simp only [Function.comp_def]
  omega

theorem run_flows {width : Nat → Nat} (cycles : List Cycle) : ∀ {p p' : Producer}, NoFlowCommand cycles →
    run width p cycles = some p' → p'.flows = p.flows := by
  induction cycles with
  | nil => intro p p' _ h; simp only [run, Option.some.injEq] at h; rw [h]
  | cons c cs ih =>
    intro p p' hq h
    simp only [run] at h
    cases he : execute width c.env c.cc { p with toggleId := c.toggleId, shiftId1 := c.shiftId1, shiftId2 := c.shiftId2 } with
    | none => rw [he] at h; cases h
    | some q =>
      rw [he] at h
      have hc := hq c List.mem_cons_self
      rw [ih (fun x hx => hq x (List.mem_cons_of_mem _ hx)) h]
      exact (C16_no_command width c.env c.cc _ q hc.2 hc.1 he).1

theorem commands_quiet (p : Producer) (h1 : p.shiftId1 = 0 ∨ p.shiftId2 = 0) (h2 : p.toggleId = 0) :
    commands p = some p := by
  unfold commands
  rw [if_neg (by omega)]
  simp only [h2]
  rw [if_neg (by omega)]

theorem execute_quiet {width : Nat → Nat} {env : Nat → List Bool} {cc : U32} {p : Producer}
    (h1 : p.shiftId1 = 0 ∨ p.shiftId2 = 0) (h2 : p.toggleId = 0) (h : produce width env cc p ≠ none) :
    ∃ p', execute width env cc p = some p' := by
  obtain ⟨q, hq⟩ := Option.ne_none_iff_exists'.mp h
  obtain ⟨buf, e⟩ := produce_frame hq
  refine ⟨q, ?_⟩
  unfold execute
  rw [hq]
  exact commands_quiet q (by rw [e]; exact h1) (by rw [e]; exact h2)

end Downlink

namespace Startup.Flight

theorem h256 : flowData.length < 256 := by rw [length_eq]; omega

theorem no_overrun {p : Producer} (hp : Reachable (widthAt decls) flowData p) {env : Nat → List Bool}
    (hf : Fits (widthAt decls) env) (cc : U32) : produce (widthAt decls) env cc p ≠ none := by
  intro h
  have h1 := (C15_overrun_iff_partial _ _ h256 p hp env hf cc).mp h
  have h2 := activePayload_le (reachable_inv h256 hp)
  rw [max_eq] at h1 h2
  unfold frameLen frameBytes at h1
  omega

/-- The flows that are active when the flight software starts. -/
def defaultFlows : List (Nat × List Nat) := (flowData.filter (·.active)).map fun d => (d.id, d.fields)

theorem init_flows {junk : Nat → U8} {p : Producer} (h : init (widthAt decls) junk flowData = some p) :
    p.flows = flowData.map (mkFlow flowData.length) := by
  rw [init_sample _ _ _ h256 ok] at h
  rw [← Option.some.inj h]

theorem active_of_flows {p : Producer} (h : p.flows = flowData.map (mkFlow flowData.length)) :
    activeFlows p = defaultFlows := by
  unfold activeFlows defaultFlows
  rw [h, List.filter_map, List.map_map]
  apply List.map_congr_left
  intro d hd
  have hm := (List.mem_filter.mp hd).1
  have ho := ok d hm
  show ((mkFlow flowData.length d).idVal.toNat, d.fields) = (d.id, d.fields)
  rw [mkFlow_id _ d h256 ho.1 ho.2.1]
  rfl

theorem quiet_flows {p : Producer} (h : QuietReach (widthAt decls) flowData p) :
    p.flows = flowData.map (mkFlow flowData.length) := by
  obtain ⟨junk, p0, cycles, h1, -, h2, h3⟩ := h
  rw [run_flows cycles h2 h3, init_flows h1]

theorem payload_1114 {env : Nat → List Bool} (hf : Fits (widthAt decls) env) (cc : U32) :
    (payload env cc defaultFlows flowData.length).length = 1114 := by
  rw [payload_length env _ hf, width_eq, length_eq]
  decide +kernel

/-- The cycle number is the sixth field of the first flow, 61 bits into the payload. -/
theorem payload_cycle {env : Nat → List Bool} (hf : Fits (widthAt decls) env) (cc : U32) (i : Nat) (hi : i < 32) :
    (payload env cc defaultFlows flowData.length)[61 + i]? = (env 5)[i]? := by
  have hd : ∃ rest, defaultFlows = (1, [323, 324, 326, 0, 325, 5]) :: rest := ⟨_, rfl⟩
  obtain ⟨rest, hd⟩ := hd
  have hw : ∀ a, (env a).length = widths.getD a 0 := by intro a; rw [hf a, width_eq]
  have l1 : (env 323).length = 4 := by rw [hw]; decide +kernel
  have l2 : (env 324).length = 1 := by rw [hw]; decide +kernel
  have l3 : (env 326).length = 2 := by rw [hw]; decide +kernel
  have l4 : (env 0).length = 8 := by rw [hw]; decide +kernel
  have l5 : (env 325).length = 8 := by rw [hw]; decide +kernel
  have l6 : (env 5).length = 32 := by rw [hw]; decide +kernel
  obtain ⟨R, hR⟩ : ∃ R, payload env cc defaultFlows flowData.length =
      (natBits 32 cc.toNat ++ natBits (idWidth 43) 1 ++ env 323 ++ env 324 ++ env 326 ++ env 0 ++ env 325) ++ (env 5 ++ R) := by
    refine ⟨rest.flatMap fun f => natBits (idWidth 43) f.1 ++ f.2.flatMap env, ?_⟩
    rw [length_eq]
    unfold payload
    rw [hd]
    simp
  rw [hR]
  have hl : (natBits 32 cc.toNat ++ natBits (idWidth 43) 1 ++ env 323 ++ env 324 ++ env 326 ++ env 0 ++ env 325).length = 61 := by
    simp only [List.length_append, natBits_length, l1, l2, l3, l4, l5]
    decide
  rw [List.getElem?_append_right (by omega), hl, Nat.add_sub_cancel_left, List.getElem?_append_left (by omega)]

end Startup.Flight

open Startup

/-- C117. The flow table of the flight software is accepted: 43 flows with distinct identifiers, the flows 1, 2, 7, 8,
13, 14, 15, 17, 18, 19, 25 and 26 active, whatever the memory of the frame buffer contained. -/
theorem C117_flight_accepted (s : St) (h : start Table.flight = some s) (fd : List FlowData)
    (hfd : resolveFlows s.reg Table.flows = some fd) (junk : Nat → U8) :
    fd.length = 43 ∧ DistinctIds fd ∧ ∃ p, init (widthAt s.objs) junk fd = some p ∧
      (activeFlows p).map (·.1) = [1, 2, 7, 8, 13, 14, 15, 17, 18, 19, 25, 26] ∧ p.numActive = 12 := by
  obtain ⟨ho, -⟩ := Flight.state h
  rw [Flight.resolved h] at hfd
  obtain rfl := Option.some.inj hfd
  rw [ho]
  refine ⟨Flight.length_eq, Flight.distinct, _, init_sample _ _ _ Flight.h256 Flight.ok, ?_, ?_⟩
  · rw [Flight.active_of_flows rfl]; decide +kernel
  · show Flight.flowData.countP (·.active) = 12
    decide +kernel

/-- C117. With the flows of the flight software the frame buffer is never overrun, whatever flows are active and in
whatever order, after any history of cycles and flow commands that the flight software survived. -/
theorem C117_no_overrun (s : St) (h : start Table.flight = some s) (fd : List FlowData)
    (hfd : resolveFlows s.reg Table.flows = some fd) (p : Producer) (hp : Reachable (widthAt s.objs) fd p)
    (env : Nat → List Bool) (hf : Fits (widthAt s.objs) env) (cc : U32) :
    produce (widthAt s.objs) env cc p ≠ none := by
  obtain ⟨ho, -⟩ := Flight.state h
  rw [Flight.resolved h] at hfd
  obtain rfl := Option.some.inj hfd
  rw [ho] at hp hf ⊢
  exact Flight.no_overrun hp hf cc

/-- C117. If no flow is commanded, the flight software produces a frame in every cycle, for ever. -/
theorem C117_always_produces (s : St) (h : start Table.flight = some s) (fd : List FlowData)
    (hfd : resolveFlows s.reg Table.flows = some fd) (junk : Nat → U8) (p0 : Producer)
    (h0 : init (widthAt s.objs) junk fd = some p0) (cycles : List Cycle) (hq : NoFlowCommand cycles)
    (hf : ∀ c ∈ cycles, Fits (widthAt s.objs) c.env) :
    ∃ p, run (widthAt s.objs) p0 cycles = some p ∧ QuietReach (widthAt s.objs) fd p := by
  obtain ⟨ho, -⟩ := Flight.state h
  rw [Flight.resolved h] at hfd
  obtain rfl := Option.some.inj hfd
  rw [ho] at h0 hf ⊢
  have key : ∀ (cycles : List Cycle) (p : Producer), Inv (widthAt Flight.decls) Flight.flowData p → NoFlowCommand cycles →
      (∀ c ∈ cycles, Fits (widthAt Flight.decls) c.env) → ∃ q, run (widthAt Flight.decls) p cycles = some q := by
    intro cycles
    induction cycles with
    | nil => intro p _ _ _; exact ⟨p, rfl⟩
    | cons c cs ih =>
      intro p hi hq hf
      have hc := hq c List.mem_cons_self
      have hi' : Inv (widthAt Flight.decls) Flight.flowData { p with toggleId := c.toggleId, shiftId1 := c.shiftId1, shiftId2 := c.shiftId2 } :=
        ⟨hi.ok, hi.perm, hi.count, hi.len⟩
      have hfc := hf c List.mem_cons_self
      have hne : produce (widthAt Flight.decls) c.env c.cc
          { p with toggleId := c.toggleId, shiftId1 := c.shiftId1, shiftId2 := c.shiftId2 } ≠ none := by
        have h2 := activePayload_le hi'
        rw [Flight.max_eq] at h2
        have hfit : frameLen (rawPayload c.env c.cc
            { p with toggleId := c.toggleId, shiftId1 := c.shiftId1, shiftId2 := c.shiftId2 }).length < 8 * p.buf.length := by
          rw [rawPayload_eq Flight.h256 hi', payload_length _ _ hfc, hi.len, maxSize_eq, Flight.max_eq]
          unfold activePayload at h2
          unfold frameLen frameBytes
          omega
        obtain ⟨buf, e, -⟩ := produce_spec _ c.env c.cc _ (inv_seg hi' hfc) hfit
        rw [e]; simp
      obtain ⟨q, hq'⟩ := execute_quiet (p := { p with toggleId := c.toggleId, shiftId1 := c.shiftId1, shiftId2 := c.shiftId2 })
        hc.2 hc.1 hne
      simp only [Downlink.run, hq']
      exact ih q (execute_inv Flight.h256 hi' hfc hq').1 (fun x hx => hq x (List.mem_cons_of_mem _ hx))
        (fun x hx => hf x (List.mem_cons_of_mem _ hx))
  obtain ⟨q, hr⟩ := key cycles p0 (init_inv _ _ _ Flight.h256 h0) hq hf
  exact ⟨q, hr, junk, p0, cycles, h0, hf, hq, hr⟩

/-- C117 (partial: all but one bit, and not the header of the second packet). The frame of the default flows is 140
bytes long, two packets. Its first bit is 1 and each of the 1114 payload bits is in its place except bit 63; frame bit
64, where that one belongs, is always 0. The header of the second packet is never written. -/
theorem C117_default_frame_partial (s : St) (h : start Table.flight = some s) (fd : List FlowData)
    (hfd : resolveFlows s.reg Table.flows = some fd) (p p' : Producer) (hp : QuietReach (widthAt s.objs) fd p)
    (env : Nat → List Bool) (hf : Fits (widthAt s.objs) env) (cc : U32)
    (he : execute (widthAt s.objs) env cc p = some p') :
    p'.snapSize = 140 ∧ (payload env cc (activeFlows p) 43).length = 1114 ∧ frameBit p'.buf 0 = true ∧
    (∀ i, i < 1114 → i ≠ 63 → (payload env cc (activeFlows p) 43)[i]? = some (frameBit p'.buf (slot i))) ∧
    slot 63 = 64 ∧ frameBit p'.buf 64 = false ∧
    frameBit p'.buf 560 = frameBit p.buf 560 ∧
    ∀ q, 1116 ≤ q → q < 1120 → frameBit p'.buf q = false := by
  obtain ⟨ho, -⟩ := Flight.state h
  rw [Flight.resolved h] at hfd
  obtain rfl := Option.some.inj hfd
  rw [ho] at hp hf he
  have ha := Flight.active_of_flows (Flight.quiet_flows hp)
  have hr := quietReach_reachable hp
  have hs := (execute_frame Flight.h256 (reachable_inv Flight.h256 hr) hf he).2.2.1
  obtain ⟨c1, c2, c3, c4, c5⟩ := C14_frame_content_partial _ _ Flight.h256 p p' hr env hf cc he
  have hl := Flight.payload_1114 hf cc
  rw [ha] at c2 c3 c4 c5 hs ⊢
  rw [hl] at c2 c3 c4 c5 hs
  rw [Flight.length_eq] at c2 hl
  have h140 : p'.snapSize = 140 := by rw [hs]; decide
  refine ⟨h140, hl, c1, fun i hi hne => ?_, by decide, ?_, ?_, fun q h1 h2 => ?_⟩
  · refine c2 i hi fun k k1 k2 => ?_
    have : k = 1 := by omega
    subst this
    unfold slot; omega
  · exact c3 1 (by omega) (by omega)
  · exact c4 1 (by omega) (by omega) (by omega)
  · exact c5 q (by unfold frameLen; omega) (by omega)

/-- C117 does not hold for the cycle number: the first flow reports it with the bit of value four cleared, so whenever
`n mod 8` is at least four the ground is told `n - 4`. The other 31 bits are right. -/
theorem C117_counterexample_cycle_number (s : St) (h : start Table.flight = some s) (fd : List FlowData)
    (hfd : resolveFlows s.reg Table.flows = some fd) (p p' : Producer) (hp : QuietReach (widthAt s.objs) fd p)
    (env : Nat → List Bool) (hf : Fits (widthAt s.objs) env) (cc : U32)
    (he : execute (widthAt s.objs) env cc p = some p')
    (a n : Nat) (hname : resolveField s.reg "pan.cycle_no" = some a) (hn : env a = natBits 32 n) (i : Nat) (hi : i < 32) :
    (payload env cc (activeFlows p) 43)[61 + i]? = some (n.testBit i) ∧
    frameBit p'.buf (slot (61 + i)) = (n - 4 * (n / 4 % 2)).testBit i := by
  obtain ⟨-, hl, -, hbits, -, h64, -⟩ := C117_default_frame_partial s h fd hfd p p' hp env hf cc he
  obtain ⟨ho, hst⟩ := Flight.state h
  rw [Flight.resolved h] at hfd
  obtain rfl := Option.some.inj hfd
  rw [ho] at hp hf he
  have ha5 : a = 5 := by
    have : resolveField s.reg "pan.cycle_no" = some 5 := fieldIs_spec hst (by rw [ho]; decide +kernel)
    rw [this] at hname
    exact (Option.some.inj hname).symm
  subst ha5
  have ha := Flight.active_of_flows (Flight.quiet_flows hp)
  have hpay : (payload env cc (activeFlows p) 43)[61 + i]? = some (n.testBit i) := by
    rw [ha]
    have := Flight.payload_cycle hf cc i hi
    rw [Flight.length_eq] at this
    rw [this, hn, Uplink.natBits_get _ _ _ hi]
  refine ⟨hpay, ?_⟩
  by_cases h2 : i = 2
  · subst h2
    show frameBit p'.buf 64 = _
    rw [h64, Nat.testBit_eq_decide_div_mod_eq]
    symm
    rw [decide_eq_false_iff_not]
    omega
  · have := hbits (61 + i) (by omega) (by omega)
    rw [hpay] at this
    rw [← Option.some.inj this]
    have key : (n - 4 * (n / 4 % 2)) / 2 ^ i % 2 = n / 2 ^ i % 2 := by
      rcases Nat.lt_or_ge i 2 with h3 | h3
      · have : i = 0 ∨ i = 1 := by omega
        rcases this with rfl | rfl
        · rw [Nat.pow_zero, Nat.div_one, Nat.div_one]; omega
        · rw [Nat.pow_one]; omega
      · obtain ⟨j, rfl⟩ : ∃ j, i = 3 + j := ⟨i - 3, by omega⟩
        rw [Nat.pow_add, ← Nat.div_div_eq_div_mul, ← Nat.div_div_eq_div_mul]
        have : (n - 4 * (n / 4 % 2)) / 2 ^ 3 = n / 2 ^ 3 := by
          show (n - 4 * (n / 4 % 2)) / 8 = n / 8
          omega
        rw [this]
    rw [Nat.testBit_eq_decide_div_mod_eq, Nat.testBit_eq_decide_div_mod_eq, key]

/-- C117 does not hold on the ground: both packets of the default frame are 70 bytes long, and parsing a packet of 70
bytes erases past the end of its bits, whatever is in it and whatever was received before. -/
theorem C117_counterexample_ground (s : St) (h : start Table.flight = some s) (fd : List FlowData)
    (hfd : resolveFlows s.reg Table.flows = some fd) (p p' : Producer) (hp : QuietReach (widthAt s.objs) fd p)
    (env : Nat → List Bool) (hf : Fits (widthAt s.objs) env) (cc : U32)
    (he : execute (widthAt s.objs) env cc p = some p') (g : List Flow) (frame : List U8) :
    let sent := p'.buf.take p'.snapSize
    sent = sent.take 70 ++ sent.drop 70 ∧ (sent.take 70).length = 70 ∧ (sent.drop 70).length = 70 ∧
    processPacket (widthAt s.objs) g frame (sent.take 70) = none ∧
    processPacket (widthAt s.objs) g frame (sent.drop 70) = none := by
  obtain ⟨hs, -⟩ := C117_default_frame_partial s h fd hfd p p' hp env hf cc he
  obtain ⟨ho, -⟩ := Flight.state h
  rw [Flight.resolved h] at hfd
  obtain rfl := Option.some.inj hfd
  rw [ho] at hp hf he
  have hi := reachable_inv Flight.h256 (quietReach_reachable hp)
  have hb := (execute_frame Flight.h256 hi hf he).2.1
  have hlen : p'.buf.length = 554 := by
    rw [hb, hi.len, maxSize_eq, Flight.max_eq]; decide
  intro sent
  have hsl : sent.length = 140 := by
    show (p'.buf.take p'.snapSize).length = 140
    rw [List.length_take, hlen, hs]; rfl
  have h1 : (sent.take 70).length = 70 := by rw [List.length_take, hsl]; rfl
  have h2 : (sent.drop 70).length = 70 := by rw [List.length_drop, hsl]
  exact ⟨(List.take_append_drop 70 sent).symm, h1, h2, C13_counterexample_full_packet _ g frame _ (by rw [h1]),
    C13_counterexample_full_packet _ g frame _ (by rw [h2])⟩

/-- C117 does not hold for commands: the field that toggles a flow is six bits wide, and each of the twenty values it can
carry beyond 43 fails an assertion, in every reachable state: one command stops the flight software. -/
theorem C117_counterexample_toggle (s : St) (h : start Table.flight = some s) (fd : List FlowData)
    (hfd : resolveFlows s.reg Table.flows = some fd) (p : Producer) (hp : Reachable (widthAt s.objs) fd p)
    (v : Nat) (h1 : 43 < v) (h2 : v < 64) :
    ⟨.writable, "downlink.toggle_id", .uchar, some (.int .uchar 0 43), 0⟩ ∈ s.objs ∧
    ((IntSer.mkRange .uchar 0 43).setBits (natBits 6 v)).deserialize = v ∧ toggle v p = none := by
  obtain ⟨ho, -⟩ := Flight.state h
  rw [Flight.resolved h] at hfd
  obtain rfl := Option.some.inj hfd
  rw [ho] at hp
  refine ⟨by rw [ho]; decide +kernel, ?_, ?_⟩
  · have hw : (idSer 43).bits.length = 6 := idSer_width 43 (by decide) (by decide)
    have hw' : (IntSer.mkRange .uchar 0 43).bits.length = 6 := hw
    have hl : (natBits 6 v).length = 6 := natBits_length 6 v
    have hv := (IntSer.mkRange_valid .uchar 0 43 (by decide) (by decide) (by decide)).1
    have e : (IntSer.mkRange .uchar 0 43).setBits (natBits 6 v) = { IntSer.mkRange .uchar 0 43 with bits := natBits 6 v } := by
      unfold IntSer.setBits; rw [if_neg (by rw [hw', hl]; decide)]
    rw [e]
    have hr := IntSer.resolution_eq (IntSer.valid_with_bits hv (hl.trans hw'.symm))
    unfold IntSer.deserialize
    simp only [hl] at hr ⊢
    rw [hr]
    interval_cases v <;> decide +kernel
  · unfold toggle
    rw [if_pos (by rw [flows_length (reachable_inv Flight.h256 hp), Flight.length_eq]; omega)]

/-- Which two flows can be exchanged by shifting in the order the flight software starts with. -/
def Spec.exchangeable : List (Nat × Nat) :=
  [(3, 4), (20, 21), (23, 24), (27, 28), (29, 30), (35, 36), (38, 39)]

/-- The flows between two places all have as many fields as the first. -/
def Startup.Flight.shiftOk (x y : Nat) : Bool := (List.range 43).all fun m =>
  if x ≤ m ∧ m ≤ y ∨ y ≤ m ∧ m ≤ x then
    (Flight.flowData.map fun d => d.fields.length).getD m 0 == (Flight.flowData.map fun d => d.fields.length).getD x 0
  else true

theorem Startup.Flight.shiftOk_all : ((List.range 43).all fun x => (List.range 43).all fun y =>
    Flight.shiftOk x y == (x == y || exchangeable.contains (x + 1, y + 1) || exchangeable.contains (y + 1, x + 1))) = true := by
  decide +kernel

/-- C117 does not hold for shifts: until flows are commanded, a shift works for only seven pairs of neighbouring flows
(in either direction). Every other shift of a flow to the place of another accesses memory outside a flow. -/
theorem C117_counterexample_shift (s : St) (h : start Table.flight = some s) (fd : List FlowData)
    (hfd : resolveFlows s.reg Table.flows = some fd) (p : Producer) (hp : QuietReach (widthAt s.objs) fd p)
    (a b : Nat) (ha : 1 ≤ a ∧ a ≤ 43) (hb : 1 ≤ b ∧ b ≤ 43) :
    shift a b p ≠ none ↔ a = b ∨ (a, b) ∈ exchangeable ∨ (b, a) ∈ exchangeable := by
  obtain ⟨ho, -⟩ := Flight.state h
  rw [Flight.resolved h] at hfd
  obtain rfl := Option.some.inj hfd
  rw [ho] at hp
  have hfl := Flight.quiet_flows hp
  have hlen : p.flows.length = 43 := by rw [hfl, List.length_map, Flight.length_eq]
  have hids : ∀ i (hi : i < Flight.flowData.length), Flight.flowData[i].id = i + 1 := by
    have : (Flight.flowData.map (·.id)) = (List.range 43).map (· + 1) := by decide +kernel
    intro i hi
    have := congrArg (fun l => l[i]?) this
    simp only [List.getElem?_map, List.getElem?_eq_getElem hi, Option.map_some] at this
    rw [List.getElem?_range (by rw [Flight.length_eq] at hi; exact hi)] at this
    simpa using this
  have hget : ∀ i (hi : i < p.flows.length), p.flows[i].idVal = (i + 1 : Nat) ∧
      p.flows[i].fields.length = ((Flight.flowData.map fun d => d.fields.length).getD i 0) := by
    intro i hi
    have hi' : i < Flight.flowData.length := by rw [Flight.length_eq]; omega
    have hm := Flight.ok _ (List.getElem_mem hi')
    have e : p.flows[i] = mkFlow Flight.flowData.length Flight.flowData[i] := by simp only [hfl, List.getElem_map]
    rw [e]
    refine ⟨by rw [mkFlow_id _ _ Flight.h256 hm.1 hm.2.1, hids i hi'], ?_⟩
    simp [mkFlow, List.getD, List.getElem?_eq_getElem hi']
  have hsh := (C16_shift_partial _ _ Flight.h256 Flight.distinct p (quietReach_reachable hp) (a - 1) (b - 1) (by omega) (by omega) a b
    (by rw [(hget (a - 1) (by omega)).1]; omega) (by rw [(hget (b - 1) (by omega)).1]; omega)).2
  have h2 : shift a b p ≠ none ↔ Flight.shiftOk (a - 1) (b - 1) = true := by
    rw [hsh]
    unfold Flight.shiftOk
    rw [List.all_eq_true]
    constructor
    · intro hall m hm
      have hm := List.mem_range.mp hm
      split
      · rename_i hc
        rw [beq_iff_eq, ← (hget m (by omega)).2, ← (hget (a - 1) (by omega)).2]
        exact hall m (by omega) hc
      · rfl
    · intro hall m hm hc
      have := hall m (List.mem_range.mpr (by omega))
      rw [if_pos hc, beq_iff_eq] at this
      rw [(hget m hm).2, (hget (a - 1) (by omega)).2, this]
  have key := List.all_eq_true.mp (List.all_eq_true.mp Flight.shiftOk_all (a - 1) (List.mem_range.mpr (by omega)))
    (b - 1) (List.mem_range.mpr (by omega))
  rw [beq_iff_eq, Nat.sub_add_cancel ha.1, Nat.sub_add_cancel hb.1] at key
  rw [h2, key]
  simp only [Bool.or_eq_true, beq_iff_eq, List.contains_iff_mem]
  constructor
  · rintro ((h | h) | h)
    · left; omega
    · exact .inr (.inl h)
    · exact .inr (.inr h)
  · rintro (h | h | h)
    · left; left; omega
    · exact .inl (.inr h)
    · exact .inr h

/-- Non-vacuity: the flight software starts, its flows resolve, and its producer runs a cycle with cycle number 12. -/
example : ∃ s fd p p' env a, start Table.flight = some s ∧ resolveFlows s.reg Table.flows = some fd ∧
    QuietReach (widthAt s.objs) fd p ∧ Fits (widthAt s.objs) env ∧ execute (widthAt s.objs) env 12#32 p = some p' ∧
    resolveField s.reg "pan.cycle_no" = some a ∧ env a = natBits 32 12 := by
  obtain ⟨s, hs, ha⟩ := start_of_wired Flight.wired
  obtain ⟨ho, hst⟩ := Flight.state hs
  have h5 : resolveField s.reg "pan.cycle_no" = some 5 := fieldIs_spec hst (by rw [ho]; decide +kernel)
  have hinit := init_sample (widthAt Flight.decls) (fun _ => 0) Flight.flowData Flight.h256 Flight.ok
  let env : Nat → List Bool := fun x => if x = 5 then natBits 32 12 else List.replicate (widthAt Flight.decls x) false
  have hf : Fits (widthAt Flight.decls) env := by
    intro x
    by_cases hx : x = 5
    · subst hx
      show (natBits 32 12).length = _
      rw [natBits_length, Flight.width_eq]; decide +kernel
    · show (if x = 5 then natBits 32 12 else List.replicate (widthAt Flight.decls x) false).length = _
      rw [if_neg hx, List.length_replicate]
  obtain ⟨p', he⟩ := execute_quiet (.inl rfl) rfl (Flight.no_overrun (reachable_init hinit) hf 12#32)
  exact ⟨s, _, _, p', env, 5, hs, Flight.resolved hs, by rw [ho]; exact ⟨_, _, [], hinit, by simp, by simp [NoFlowCommand], rfl⟩,
    by rw [ho]; exact hf, by rw [ho]; exact he, h5, rfl⟩

end PAN
