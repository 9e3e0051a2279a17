import Verif.Model.ConsoleTime

/-!
C142: time stamps of the console count from the last message printed without a connection.
-/

namespace PAN
namespace ConsoleTime

theorem foldl_connected (s : U32) (h : List Call) (hc : ∀ c ∈ h, c.connected = true) :
    h.foldl (fun s c => (elapsed s c).1) s = s := by
  induction h generalizing s with
  | nil => rfl
  | cons c h ih =>
    rw [List.foldl_cons]
    have : (elapsed s c).1 = s := by
      unfold elapsed
      rw [hc c (List.mem_cons_self ..)]
      rfl
    rw [this]
    exact ih s fun c hm => hc c (List.mem_cons_of_mem _ hm)

theorem startAfter_off (a b : List Call) (t : Nat) (hc : ∀ c ∈ b, c.connected = true) :
    startAfter (a ++ ⟨t, false⟩ :: b) = BitVec.ofNat 32 t := by
  unfold startAfter
  rw [List.foldl_append, List.foldl_cons, foldl_connected _ _ hc]
  rfl

theorem startAfter_append (h b : List Call) (hc : ∀ c ∈ b, c.connected = true) : startAfter (h ++ b) = startAfter h := by
  unfold startAfter
  rw [List.foldl_append, foldl_connected _ _ hc]

end ConsoleTime
open ConsoleTime

/-- While a computer is connected, a stamp is the number of milliseconds since the last stamp given without a connection, modulo 2³². -/
theorem C142_since (before after : List Call) (t now : Nat) (hc : ∀ c ∈ after, c.connected = true) (ht : t ≤ now) :
    (stamp (before ++ ⟨t, false⟩ :: after) ⟨now, true⟩).toNat = (now - t) % 4294967296 := by
  unfold stamp
  rw [startAfter_off before after t hc]
  show (BitVec.ofNat 32 now - BitVec.ofNat 32 t).toNat = _
  rw [BitVec.toNat_sub, BitVec.toNat_ofNat, BitVec.toNat_ofNat]
  have : (2 : Nat) ^ 32 = 4294967296 := by decide
  rw [this]
  omega

/-- If no stamp was given without a connection, it is the number of milliseconds since power-up, modulo 2³². -/
theorem C142_since_power_up (h : List Call) (now : Nat) (hc : ∀ c ∈ h, c.connected = true) :
    (stamp h ⟨now, true⟩).toNat = now % 4294967296 := by
  unfold stamp startAfter
  rw [foldl_connected _ _ hc]
  show (BitVec.ofNat 32 now - 0).toNat = _
  rw [BitVec.toNat_sub, BitVec.toNat_ofNat]
  have : (2 : Nat) ^ 32 = 4294967296 := by decide
  rw [this]
  show (4294967296 - 0 + now % 4294967296) % 4294967296 = _
  omega

/-- Without a connection every stamp is 0. -/
theorem C142_unconnected (h : List Call) (now : Nat) : stamp h ⟨now, false⟩ = 0 := by
  show BitVec.ofNat 32 now - BitVec.ofNat 32 now = 0
  exact BitVec.sub_self _

/-- Two stamps with only connected calls from the one to the other differ by the time between them, modulo 2³². -/
theorem C142_difference (h between : List Call) (first : Call) (now : Nat) (hc : ∀ c ∈ between, c.connected = true)
    (ht : first.now ≤ now) :
    (stamp (h ++ first :: between) ⟨now, true⟩ - stamp h first).toNat = (now - first.now) % 4294967296 := by
  have e : startAfter (h ++ first :: between) = (elapsed (startAfter h) first).1 := by
    have : h ++ first :: between = (h ++ [first]) ++ between := by simp
    rw [this, startAfter_append _ _ hc]
    unfold startAfter
    rw [List.foldl_append]
    rfl
  unfold stamp
  rw [e]
  generalize hs : (elapsed (startAfter h) first).1 = s
  have e2 : (elapsed (startAfter h) first).2 = BitVec.ofNat 32 first.now - s := by rw [← hs]; rfl
  rw [e2]
  show ((BitVec.ofNat 32 now - s) - (BitVec.ofNat 32 first.now - s)).toNat = _
  rw [BitVec.toNat_sub, BitVec.toNat_sub, BitVec.toNat_sub, BitVec.toNat_ofNat, BitVec.toNat_ofNat]
  have hl := s.isLt
  have : (2 : Nat) ^ 32 = 4294967296 := by decide
  rw [this] at hl ⊢
  omega

/-! ### The hypotheses are met -/

/-- Two messages before a computer is connected after 5 s, two after, across the overflow of the timer. -/
example : stamp [⟨100, false⟩, ⟨5000, false⟩] ⟨5200, true⟩ = 200 ∧ stamp [⟨100, false⟩] ⟨5000, false⟩ = 0 ∧
    stamp [⟨4294967000, false⟩, ⟨4294967290, true⟩] ⟨4294967500, true⟩ = 500 ∧ stamp [⟨7, true⟩] ⟨4294967300, true⟩ = 4 := by
  decide

end PAN
