import Verif.Props.Downlink

/-!
C13, what the ground station does with a frame that does not contain both flow 1 and flow 2: it takes it for a continuation of the one
before, whose control cycle number it reports again.
-/
namespace PAN
open Spec Downlink

namespace Downlink

theorem eraseHeaders_take : ∀ {n : Nat} {bits r : List Bool}, eraseHeaders n bits = some r → 33 ≤ bits.length → r.take 32 = (bits.drop 1).take 32 := by
  intro n
  induction n with
  | zero =>
    intro bits r h hl
    unfold eraseHeaders at h
    rw [if_pos (by omega)] at h
    cases h
    cases bits with
    | nil => rfl
    | cons b bs => rfl
  | succ i ih =>
    intro bits r h hl
    unfold eraseHeaders at h
    split at h
    · rename_i hlt
      rw [ih h (by rw [List.length_eraseIdx, if_pos hlt]; omega)]
      apply List.ext_getElem?
      intro j
      rw [List.getElem?_take, List.getElem?_take]
      split
      · rw [List.getElem?_drop, List.getElem?_drop, List.getElem?_eraseIdx, if_pos (by omega)]
      · rfl
    · cases h

theorem parseFrame_cc {width : Nat → Nat} {g : List Flow} {f : List U8} {r : Parsed} (h : parseFrame width g f = some r) (hl : 5 ≤ f.length) :
    r.cc = ((IntSer.mkRange .uint 0 4294967295).setBits (((frameBits f).drop 1).take 32)).deserialize := by
  unfold parseFrame at h
  dsimp only at h
  split at h
  · cases h
  · rename_i bits hb
    rw [← eraseHeaders_take hb (by rw [frameBits_length]; omega)]
    split at h
    · cases h
    · split at h
      · cases h
      · cases h; rfl

theorem frameBits_append (a b : List U8) : frameBits (a ++ b) = frameBits a ++ frameBits b := by
  unfold frameBits
  rw [List.flatMap_append]

end Downlink

/-- C13 (partial: frames of one short packet). A packet without flow 1 or without flow 2 is appended to the bytes received before, and
what is reported are the contents of both together. -/
theorem C13_continued_partial (width : Nat → Nat) (data : List FlowData) (h256 : data.length < 256) (h0 : data ≠ [])
    (hd : DistinctIds data) (p p' : Producer) (hp : Reachable width data p) (env : Nat → List Bool) (hf : Fits width env)
    (cc : U32) (h : execute width env cc p = some p') (g : List Flow) (k : Nat)
    (hg : makeFlows width data.length data = some (g, k)) (h1 : activePayload width data.length p ≤ 551)
    (hno : 1 ∉ (activeFlows p).map (·.1) ∨ 2 ∉ (activeFlows p).map (·.1)) (before : List U8) :
    processPacket width g before (p'.buf.take p'.snapSize) =
      (parseFrame width g (before ++ p'.buf.take p'.snapSize)).map fun r => (before ++ p'.buf.take p'.snapSize, r) := by
  obtain ⟨r, e, -, -, hids, -⟩ := C13_short_frame_partial width data h256 h0 hd p p' hp env hf cc h g k hg h1
  have mem : ∀ n : Nat, n ∉ (activeFlows p).map (·.1) → (n : Int) ∉ r.ids := by
    intro n hn hm
    rw [hids] at hm
    obtain ⟨x, hx, he⟩ := List.mem_map.mp hm
    exact hn (List.mem_map.mpr ⟨x, hx, by omega⟩)
  have hb : (decide ((1 : Int) ∈ r.ids) && decide ((2 : Int) ∈ r.ids)) = false := by
    rcases hno with hn | hn
    · rw [decide_eq_false (show (1 : Int) ∉ r.ids from mem 1 hn)]; rfl
    · rw [decide_eq_false (show (2 : Int) ∉ r.ids from mem 2 hn), Bool.and_false]
  unfold processPacket isFirst
  rw [e]
  simp only [hb]
  rw [if_neg Bool.false_ne_true]
  cases parseFrame width g (before ++ p'.buf.take p'.snapSize) <;> rfl

/-- C13 does not hold while flow 1 or flow 2 is switched off: whatever frame the ground station received before, and however many
packets of this kind have been appended to it since, the next one is reported under the control cycle number of that frame, not its own. -/
theorem C13_counterexample_flow_off (width : Nat → Nat) (data : List FlowData) (h256 : data.length < 256) (h0 : data ≠ [])
    (hd : DistinctIds data) (p p' : Producer) (hp : Reachable width data p) (env : Nat → List Bool) (hf : Fits width env)
    (cc : U32) (h : execute width env cc p = some p') (g : List Flow) (k : Nat)
    (hg : makeFlows width data.length data = some (g, k)) (h1 : activePayload width data.length p ≤ 551)
    (hno : 1 ∉ (activeFlows p).map (·.1) ∨ 2 ∉ (activeFlows p).map (·.1)) (before after : List U8) (r0 r : Parsed) (hl : 5 ≤ before.length)
    (hb : parseFrame width g before = some r0) (hr : processPacket width g before (p'.buf.take p'.snapSize) = some (after, r)) :
    r.cc = r0.cc ∧ after = before ++ p'.buf.take p'.snapSize := by
  rw [C13_continued_partial width data h256 h0 hd p p' hp env hf cc h g k hg h1 hno before] at hr
  cases hq : parseFrame width g (before ++ p'.buf.take p'.snapSize) with
  | none => rw [hq] at hr; cases hr
  | some q =>
    rw [hq] at hr
    simp only [Option.map_some, Option.some.injEq, Prod.mk.injEq] at hr
    obtain ⟨rfl, rfl⟩ := hr
    refine ⟨?_, rfl⟩
    rw [parseFrame_cc hq (by rw [List.length_append]; omega), parseFrame_cc hb hl, frameBits_append]
    have hlen : (frameBits before).length = 8 * before.length := frameBits_length before
    rw [List.drop_append_of_le_length (by omega), List.take_append_of_le_length (by rw [List.length_drop]; omega)]

namespace FlowOff

def w : Nat → Nat := fun _ => 8
def env : Nat → List Bool := fun _ => [true, false, true, true, false, false, false, true]
/-- After start-up; after cycle 7, in which the ground switches flow 2 off; after cycle 8. -/
def start : Producer := (init w (fun _ => 0) (sampleData 2)).getD ⟨[], 0, [], 0, 0, 0, 0⟩
def p1 : Producer := (execute w env 7 { start with toggleId := 2 }).getD start
def p2 : Producer := (execute w env 8 p1).getD start
def flows : List Flow := ((makeFlows w 2 (sampleData 2)).getD ([], 0)).1

/-- Frame 8 contains only flow 1; the ground reports frame 7 again. -/
example : execute w env 8 p1 = some p2 ∧ activePayload w 2 p1 ≤ 551 ∧ (activeFlows p1).map (·.1) = [1] ∧
    (parseFrame w flows (p1.buf.take p1.snapSize)).map (fun r => (r.cc, r.ids)) = some (7, [1, 2]) ∧
    (processPacket w flows (p1.buf.take p1.snapSize) (p2.buf.take p2.snapSize)).map (fun r => (r.2.cc, r.2.ids)) = some (7, [1, 2]) ∧
    5 ≤ (p1.buf.take p1.snapSize).length := by
  refine ⟨?_, ?_, ?_, ?_, ?_, ?_⟩ <;> decide +kernel

example : Reachable w (sampleData 2) p1 := by
  refine ⟨fun _ => 0, start, [⟨env, 7, 2, 0, 0⟩], by decide +kernel, ?_, by decide +kernel⟩
  intro c hc
  rw [List.mem_singleton] at hc
  rw [hc]; exact fun _ => rfl

end FlowOff

end PAN
