import Verif.Spec.ModemText
import Verif.Model.ModemText
import Verif.Lemmas.Text
import Verif.Props.QuakeModem
/-!
C122: the numbers the modem reports of a session are the numbers recorded.
-/
namespace PAN
open Spec Text ModemText

namespace ModemText

theorem decimal_le (a b : List Char) : decimal a ≤ decimal (a ++ b) := by
  unfold decimal
  rw [List.foldl_append]
  generalize a.foldl (fun a c => 10 * a + (c.toNat - 48)) 0 = x
  induction b generalizing x with
  | nil => exact Nat.le_refl _
  | cons c b ih => rw [List.foldl_cons]; exact Nat.le_trans (by omega) (ih _)

theorem no_space {s : List Char} {n : Int} (h : WritesInt s n) : ∃ c r, s = c :: r ∧ isSpace c = false := by
  cases h with
  | plain _ hd =>
    cases s with
    | nil => exact absurd rfl hd.1
    | cons c r => exact ⟨c, r, rfl, isSpace_not_digit (hd.2 c (by simp)).1⟩
  | plus t _ => exact ⟨_, _, rfl, by decide⟩
  | minus t _ => exact ⟨_, _, rfl, by decide⟩

/-- A part of a number is read as a number or as nothing. -/
theorem scan_take {lo hi : Int} {s : List Char} {n : Int} (h : WritesInt s n) (h1 : lo ≤ n) (h2 : n ≤ hi) (h3 : lo ≤ 0) (h4 : 0 ≤ hi)
    (m : Nat) : scanInt lo hi (s.take m) = .fail ∨ ∃ k, scanInt lo hi (s.take m) = .val k [] := by
  have key : ∀ (t : List Char) (k : Int), WritesInt t k → lo ≤ k → k ≤ hi → ∃ k, scanInt lo hi t = .val k [] := by
    intro t k ht hk1 hk2
    have := scanInt_writes (lo := lo) (hi := hi) [] t [] k (by simp) ht (by simp)
    rw [List.nil_append, List.append_nil, if_neg (by omega)] at this
    exact ⟨k, this⟩
  have hdig : ∀ t : List Char, Digits t → ∀ m, t.take (m + 1) ≠ [] ∧ Digits (t.take (m + 1)) := by
    intro t ht m
    have : t.take (m + 1) ≠ [] := by
      cases t with
      | nil => exact absurd rfl ht.1
      | cons c t => simp
    exact ⟨this, this, fun c hc => ht.2 c (List.mem_of_mem_take hc)⟩
  have hle : ∀ t : List Char, ∀ m, decimal (t.take m) ≤ decimal t := by
    intro t m
    have := decimal_le (t.take m) (t.drop m)
    rwa [List.take_append_drop] at this
  cases m with
  | zero => exact Or.inl rfl
  | succ m =>
    cases h with
    | plain _ hd =>
      have := hle s (m + 1)
      exact Or.inr (key _ _ (.plain _ (hdig s hd m).2) (by omega) (by omega))
    | plus t hd =>
      cases m with
      | zero => exact Or.inl rfl
      | succ m =>
        have := hle t (m + 1)
        exact Or.inr (key _ _ (.plus _ (hdig t hd m).2) (by omega) (by omega))
    | minus t hd =>
      cases m with
      | zero => exact Or.inl rfl
      | succ m =>
        have := hle t (m + 1)
        exact Or.inr (key _ _ (.minus _ (hdig t hd m).2) (by omega) (by omega))

theorem inter_cons (s s2 : List Char) (ss : List (List Char)) :
    [',', ' '].intercalate (s :: s2 :: ss) = s ++ (',' :: ' ' :: [',', ' '].intercalate (s2 :: ss)) := by
  simp [List.intercalate, List.intersperse]

/-- Reading the start of a list of numbers: all but the last are read as they are, or not all are read. -/
theorem scan_part (tail : List Char) (ht : ∀ c, tail.head? = some c → isDig c = false) :
    ∀ (ss : List (List Char)) (ns : List Int), List.Forall₂ WritesInt ss ns → (∀ n ∈ ns, IsInt n) → ss ≠ [] → ∀ m,
      ∃ got, scanList ss.length (([',', ' '].intercalate ss ++ tail).take m) = some got ∧ got.length ≤ ns.length ∧
        (got.length = ns.length → got.dropLast = ns.dropLast) := by
  intro ss
  induction ss with
  | nil => intro _ _ _ h; exact absurd rfl h
  | cons s ss ih =>
    intro ns hf hi _ m
    cases hf with
    | cons hs hf =>
      rename_i n ns
      have hn := hi n (by simp)
      unfold IsInt at hn
      have hcut : ∀ m ≤ s.length, ∀ k, ∃ got, scanList (k + 1) (s.take m) = some got ∧ got.length ≤ 1 := by
        intro m _ k
        unfold scanList
        rcases scan_take (lo := intMin) (hi := intMax) hs (by unfold intMin; omega) (by unfold intMax; omega)
          (by decide) (by decide) m with h | ⟨x, h⟩
        · rw [h]; exact ⟨_, rfl, by simp⟩
        · rw [h]; dsimp only
          split_ifs
          · exact ⟨_, rfl, by simp⟩
          · exact ⟨_, rfl, by simp⟩
      cases ss with
      | nil =>
        cases hf
        have : [',', ' '].intercalate [s] = s := by simp [List.intercalate]
        rw [this]
        by_cases hm : m ≤ s.length
        · rw [List.take_append_of_le_length hm]
          obtain ⟨got, h1, h2⟩ := hcut m hm 0
          refine ⟨got, h1, by simpa using h2, ?_⟩
          intro h3
          match got, h3 with
          | [x], _ => rfl
        · have e : (s ++ tail).take m = [] ++ s ++ tail.take (m - s.length) := by
            rw [List.take_append, List.take_of_length_le (by omega)]; rfl
          have h5 := scanInt_writes (lo := intMin) (hi := intMax) [] s (tail.take (m - s.length)) n (by simp) hs (by
            intro c hc
            cases htl : tail with
            | nil => rw [htl] at hc; simp at hc
            | cons d t =>
              rw [htl] at hc ht
              have : m - s.length = (m - s.length - 1) + 1 := by omega
              rw [this] at hc
              simp only [List.take_succ_cons, List.head?_cons] at hc
              exact ht c hc)
          rw [if_neg (by unfold intMin intMax; omega), ← e] at h5
          refine ⟨[n], ?_, by simp, fun _ => rfl⟩
          show scanList 1 _ = _
          unfold scanList
          rw [h5]
          rfl
      | cons s2 ss =>
        cases hf with
        | cons hs2 hf =>
          rename_i n2 ns
          rw [inter_cons]
          by_cases hm : m ≤ s.length
          · rw [List.append_assoc, List.take_append_of_le_length hm]
            obtain ⟨got, h1, h2⟩ := hcut m hm (ss.length + 1)
            refine ⟨got, h1, ?_, ?_⟩
            · simp only [List.length_cons]; omega
            · simp only [List.length_cons]; omega
          · obtain ⟨j, hj⟩ : ∃ j, m = s.length + (j + 1) := ⟨m - s.length - 1, by omega⟩
            obtain ⟨M, hM⟩ : ∃ M, M = [',', ' '].intercalate (s2 :: ss) ++ tail := ⟨_, rfl⟩
            have e : (s ++ (',' :: ' ' :: [',', ' '].intercalate (s2 :: ss)) ++ tail).take m =
                [] ++ s ++ (',' :: (' ' :: M).take j) := by
              rw [hM, hj, List.append_assoc, List.take_append, List.take_of_length_le (by omega)]
              simp
            have h5 := scanInt_writes (lo := intMin) (hi := intMax) [] s (',' :: (' ' :: M).take j) n (by simp) hs (by
              intro c hc
              simp only [List.head?_cons, Option.some.injEq] at hc
              subst hc
              decide)
            rw [if_neg (by unfold intMin intMax; omega), ← e] at h5
            have hsk : skipSpace ((' ' :: M).take j) = M.take (j - 1) := by
              cases j with
              | zero => rfl
              | succ j =>
                rw [List.take_succ_cons, Nat.add_sub_cancel]
                obtain ⟨c, r, hc, hsp⟩ := no_space hs2
                have : ∀ d, (M.take j).head? = some d → isSpace d = false := by
                  intro d hd
                  cases j with
                  | zero => simp at hd
                  | succ j =>
                    have hM' : ∃ r', M = c :: r' := by
                      rw [hM, hc]
                      cases ss with
                      | nil => exact ⟨_, by simp [List.intercalate]; rfl⟩
                      | cons s3 ss => rw [inter_cons]; exact ⟨_, by simp; rfl⟩
                    obtain ⟨r', hr'⟩ := hM'
                    rw [hr', List.take_succ_cons, List.head?_cons] at hd
                    cases hd
                    exact hsp
                exact skipSpace_run [' '] (M.take j) (by simp [isSpace]) this
            obtain ⟨got, h6, h7, h8⟩ := ih (n2 :: ns) (.cons hs2 hf) (fun x hx => hi x (by simp [List.mem_cons.mp hx])) (by simp) (j - 1)
            rw [← hM] at h6
            refine ⟨n :: got, ?_, by simpa using h7, ?_⟩
            · show scanList (ss.length + 1 + 1) _ = _
              unfold scanList
              rw [h5]
              dsimp only
              rw [if_neg (by omega)]
              show ((scanList (ss.length + 1) (skipSpace ((' ' :: M).take j))).map (n :: ·)) = _
              rw [hsk]
              have : scanList (ss.length + 1) (M.take (j - 1)) = some got := h6
              rw [this]
              rfl
            · intro hl
              have hl' : got.length = (n2 :: ns).length := by simpa using hl
              have hne : got ≠ [] := by rintro rfl; simp at hl'
              rw [List.dropLast_cons_of_ne_nil hne, h8 hl']
              rfl

/-- Reading a whole list of numbers. -/
theorem scan_whole (tail : List Char) (ht : ∀ c, tail.head? = some c → isDig c = false) :
    ∀ (ss : List (List Char)) (ns : List Int), List.Forall₂ WritesInt ss ns → (∀ n ∈ ns, IsInt n) → ss ≠ [] →
      scanList ss.length ([',', ' '].intercalate ss ++ tail) = some ns := by
  intro ss
  induction ss with
  | nil => intro _ _ _ h; exact absurd rfl h
  | cons s ss ih =>
    intro ns hf hi _
    cases hf with
    | cons hs hf =>
      rename_i n ns
      have hn := hi n (by simp)
      unfold IsInt at hn
      cases ss with
      | nil =>
        cases hf
        have : [',', ' '].intercalate [s] = s := by simp [List.intercalate]
        rw [this]
        have h5 := scanInt_writes (lo := intMin) (hi := intMax) [] s tail n (by simp) hs ht
        rw [if_neg (by unfold intMin intMax; omega), List.nil_append] at h5
        show scanList 1 _ = _
        unfold scanList
        rw [h5]
        rfl
      | cons s2 ss =>
        cases hf with
        | cons hs2 hf =>
          rename_i n2 ns
          obtain ⟨M, hM⟩ : ∃ M, M = [',', ' '].intercalate (s2 :: ss) ++ tail := ⟨_, rfl⟩
          have e : s ++ (',' :: ' ' :: [',', ' '].intercalate (s2 :: ss)) ++ tail = [] ++ s ++ (',' :: ' ' :: M) := by
            rw [hM]; simp
          rw [inter_cons, e]
          have h5 := scanInt_writes (lo := intMin) (hi := intMax) [] s (',' :: ' ' :: M) n (by simp) hs (by
            intro c hc
            simp only [List.head?_cons, Option.some.injEq] at hc
            subst hc
            decide)
          rw [if_neg (by unfold intMin intMax; omega)] at h5
          have hsk : skipSpace (' ' :: M) = M := by
            obtain ⟨c, r, hc, hsp⟩ := no_space hs2
            have : ∀ d, M.head? = some d → isSpace d = false := by
              intro d hd
              have hM' : ∃ r', M = c :: r' := by
                rw [hM, hc]
                cases ss with
                | nil => exact ⟨_, by simp [List.intercalate]; rfl⟩
                | cons s3 ss => rw [inter_cons]; exact ⟨_, by simp; rfl⟩
              obtain ⟨r', hr'⟩ := hM'
              rw [hr', List.head?_cons] at hd
              cases hd
              exact hsp
            exact skipSpace_run [' '] M (by simp [isSpace]) this
          have h6 := ih (n2 :: ns) (.cons hs2 hf) (fun x hx => hi x (by simp [List.mem_cons.mp hx])) (by simp)
          rw [← hM] at h6
          show scanList (ss.length + 1 + 1) _ = _
          unfold scanList
          rw [h5]
          dsimp only
          rw [if_neg (by omega)]
          show ((scanList (ss.length + 1) (skipSpace (' ' :: M))).map (n :: ·)) = _
          rw [hsk]
          have : scanList (ss.length + 1) M = some (n2 :: ns) := h6
          rw [this]
          rfl

/-- Characters of a byte other than zero. -/
def Plain (s : List Char) : Prop := ∀ c ∈ s, 0 < c.toNat ∧ c.toNat < 256

theorem plain_back {s : List Char} (h : Plain s) :
    ((textBytes s).takeWhile fun b => decide (b ≠ 0)).map (fun b => Char.ofNat b.toNat) = s := by
  induction s with
  | nil => rfl
  | cons c s ih =>
    have hc := h c (by simp)
    have hb : (BitVec.ofNat 8 c.toNat).toNat = c.toNat := by rw [BitVec.toNat_ofNat]; omega
    have hne : BitVec.ofNat 8 c.toNat ≠ 0 := by
      intro h0
      have := congrArg BitVec.toNat h0
      rw [hb] at this
      simp at this
      omega
    show ((BitVec.ofNat 8 c.toNat :: textBytes s).takeWhile _).map _ = _
    rw [List.takeWhile_cons_of_pos (by simpa using hne), List.map_cons, ih (fun c hc => h c (by simp [hc])), hb, Char.ofNat_toNat]

theorem plain_writes {s : List Char} {n : Int} (h : WritesInt s n) : Plain s := by
  have hd : ∀ t, Digits t → Plain t := fun t ht c hc => by have := ht.2 c hc; omega
  cases h with
  | plain _ h => exact hd s h
  | plus t h => intro c hc; rcases List.mem_cons.mp hc with rfl | hc; · decide
                exact hd t h c hc
  | minus t h => intro c hc; rcases List.mem_cons.mp hc with rfl | hc; · decide
                 exact hd t h c hc

theorem plain_inter : ∀ (ss : List (List Char)) (ns : List Int), List.Forall₂ WritesInt ss ns → Plain ([',', ' '].intercalate ss)
  | [], _, _ => by intro c hc; simp [List.intercalate] at hc
  | [s], _, .cons h _ => by simpa [List.intercalate] using plain_writes h
  | s :: s2 :: ss, _ :: ns, .cons h hf => by
    rw [inter_cons]
    intro c hc
    rcases List.mem_append.mp hc with hc | hc
    · exact plain_writes h c hc
    · rcases List.mem_cons.mp hc with rfl | hc
      · decide
      · rcases List.mem_cons.mp hc with rfl | hc
        · decide
        · exact plain_inter (s2 :: ss) ns hf c hc

/-- The text read of an answer of which a part has arrived. -/
theorem text_part {ss : List (List Char)} {ns : List Int} (hf : List.Forall₂ WritesInt ss ns) {m : Nat} {p : ModemIn}
    (hp : AtPort ((textBytes ("+SBDIX: ".toList ++ (", ".toList.intercalate ss ++ "\r\n0\r".toList))).take m) p) :
    answerText p = ([',', ' '].intercalate ss ++ ['\r', '\n', '0', '\r']).take (m - 8) := by
  unfold answerText
  rw [hp.1, hp.2, List.take_length]
  have e : ((textBytes ("+SBDIX: ".toList ++ (", ".toList.intercalate ss ++ "\r\n0\r".toList))).take m).drop 8 =
      textBytes (([',', ' '].intercalate ss ++ ['\r', '\n', '0', '\r']).take (m - 8)) := by
    unfold textBytes
    rw [List.drop_take, List.map_append, List.drop_append_of_le_length (by decide), List.map_take]
    rfl
  rw [e]
  apply plain_back
  intro c hc
  rcases List.mem_append.mp (List.mem_of_mem_take hc) with hc | hc
  · exact plain_inter ss ns hf c hc
  · have : ∀ c ∈ ['\r', '\n', '0', '\r'], 0 < c.toNat ∧ c.toNat < 256 := by decide
    exact this c hc

end ModemText

/-- C122. When the whole of the modem's answer has arrived, it is accepted and its six numbers are recorded, whichever they are. -/
theorem C122_recorded (ns : List Int) (bytes : List U8) (h : ModemAnswer ns bytes) (hi : ∀ n ∈ ns, IsInt n) (hl : bytes.length < 128)
    (q : QLocate) (hq : q.sbdix.length = 6) (p : ModemIn) (hp : AtPort bytes p) :
    ModemText.getSbdix q p = some (QCode.ok, { q with sbdix := ns }) := by
  obtain ⟨ss, hf, hn, rfl⟩ := h
  have hs : ss.length = 6 := by rw [hf.length_eq, hn]
  have ht := text_part hf (m := (textBytes ("+SBDIX: ".toList ++ (", ".toList.intercalate ss ++ "\r\n0\r".toList))).length)
    (by rw [List.take_length]; exact hp)
  have hlen : (textBytes ("+SBDIX: ".toList ++ (", ".toList.intercalate ss ++ "\r\n0\r".toList))).length =
      8 + ([',', ' '].intercalate ss ++ ['\r', '\n', '0', '\r']).length := by
    unfold textBytes; rw [List.length_map, List.length_append]; rfl
  rw [hlen, Nat.add_sub_cancel_left, List.take_length] at ht
  have h26 : 26 ≤ p.avail := by
    rw [hp.1, hlen]
    match ss, ns, hf, hs with
    | [a, b, c, d, e, f], [_, _, _, _, _, _], .cons ha (.cons hb (.cons hc (.cons hd (.cons he (.cons hf _))))), _ =>
      have pos : ∀ {s : List Char} {n : Int}, WritesInt s n → 1 ≤ s.length := by
        intro s n h; obtain ⟨c, r, rfl, -⟩ := no_space h; simp
      have := pos ha; have := pos hb; have := pos hc; have := pos hd; have := pos he; have := pos hf
      simp only [List.intercalate, List.intersperse, List.flatten_cons, List.flatten_nil, List.length_append, List.length_cons,
        List.length_nil]
      omega
  have hr : reads p = true := by unfold reads; rw [decide_eq_true_eq]; exact ⟨h26, by rw [hp.1]; exact hl⟩
  have hsc := scan_whole ['\r', '\n', '0', '\r'] (by intro c hc; cases hc; decide) ss ns hf hi (by rintro rfl; cases hs)
  rw [hs] at hsc
  unfold ModemText.getSbdix
  rw [if_pos hr, ht, hsc]
  have h1 : ¬p.avail < 26 := by omega
  have h2 : ¬p.avail ≥ 128 := by rw [hp.1]; omega
  have h3 : ns.take 6 = ns := List.take_of_length_le (by omega)
  have h4 : q.sbdix.drop 6 = [] := List.drop_of_length_le (by omega)
  show some (QLocate.getSbdix q { p with scan := ns }) = _
  unfold QLocate.getSbdix
  simp only [if_neg h1, if_neg h2, h3, hn, if_true, h4, List.append_nil]

/-- The modem answers "+SBDIX: 0, 4, 1, 17, 62, 2". -/
example : ModemAnswer [0, 4, 1, 17, 62, 2] (ascii "+SBDIX: 0, 4, 1, 17, 62, 2\r\n0\r") ∧
    (ascii "+SBDIX: 0, 4, 1, 17, 62, 2\r\n0\r").length < 128 := by
  refine ⟨⟨[['0'], ['4'], ['1'], ['1', '7'], ['6', '2'], ['2']], ?_, rfl, by decide⟩, by decide⟩
  have d : ∀ s : List Char, s ≠ [] → (s.all fun c => decide (48 ≤ c.toNat ∧ c.toNat ≤ 57)) = true → WritesInt s (decimal s) :=
    fun s h1 h2 => .plain s ⟨h1, fun c hc => by simpa using List.all_eq_true.mp h2 c hc⟩
  exact .cons (d _ (by decide) (by decide)) (.cons (d _ (by decide) (by decide)) (.cons (d _ (by decide) (by decide))
    (.cons (d _ (by decide) (by decide)) (.cons (d _ (by decide) (by decide)) (.cons (d _ (by decide) (by decide)) .nil)))))

/-- C122. Whatever part of the answer has arrived when the driver looks: nothing undefined happens, and if it accepts what it sees, the
first five numbers it records are those the modem reports. -/
theorem C122_part (ns : List Int) (bytes : List U8) (h : ModemAnswer ns bytes) (hi : ∀ n ∈ ns, IsInt n) (m : Nat)
    (q : QLocate) (hq : q.sbdix.length = 6) (p : ModemIn) (hp : AtPort (bytes.take m) p) :
    ∃ r q', ModemText.getSbdix q p = some (r, q') ∧ (r = QCode.ok → q'.sbdix.length = 6 ∧ q'.sbdix.take 5 = ns.take 5) := by
  obtain ⟨ss, hf, hn, rfl⟩ := h
  have hs : ss.length = 6 := by rw [hf.length_eq, hn]
  have ht := text_part hf hp
  obtain ⟨got, h1, h2, h3⟩ := scan_part ['\r', '\n', '0', '\r'] (by intro c hc; cases hc; decide) ss ns hf hi
    (by rintro rfl; cases hs) (m - 8)
  rw [hs] at h1
  unfold ModemText.getSbdix
  by_cases hr : reads p = true
  · rw [if_pos hr, ht, h1]
    have hr' : 26 ≤ p.avail ∧ p.avail < 128 := by unfold reads at hr; exact of_decide_eq_true hr
    have h4 : got.take 6 = got := List.take_of_length_le (by omega)
    have hg : q.getSbdix { p with scan := got } =
        (if got.length = 6 then QCode.ok else QCode.unexpectedResponse, { q with sbdix := got ++ q.sbdix.drop got.length }) := by
      unfold QLocate.getSbdix
      simp only [if_neg (show ¬p.avail < 26 by omega), if_neg (show ¬p.avail ≥ 128 by omega), h4]
    refine ⟨_, _, congrArg some hg, ?_⟩
    intro hok
    dsimp only at hok ⊢
    have hg : got.length = 6 := by
      by_contra hc
      rw [if_neg hc] at hok
      cases hok
    have h5 : q.sbdix.drop 6 = [] := List.drop_of_length_le (by omega)
    rw [hg, h5, List.append_nil]
    refine ⟨hg, ?_⟩
    have h6 := h3 (by omega)
    rw [List.dropLast_eq_take, List.dropLast_eq_take, hg, hn] at h6
    exact h6
  · rw [if_neg hr]
    have hr' : p.avail < 26 ∨ p.avail ≥ 128 := by
      unfold reads at hr; rw [decide_eq_true_eq] at hr; omega
    rcases hr' with h | h
    · have hg : q.getSbdix p = (QCode.portUnavailable, q) := by unfold QLocate.getSbdix; rw [if_pos h]
      refine ⟨_, _, congrArg some hg, ?_⟩
      intro hok; cases hok
    · have hg : q.getSbdix p = (QCode.unexpectedResponse, q) := by
        unfold QLocate.getSbdix; rw [if_neg (show ¬p.avail < 26 by omega), if_pos h]
      refine ⟨_, _, congrArg some hg, ?_⟩
      intro hok; cases hok

/-- C122. The sixth can be wrong: of twelve messages waiting, one is recorded if the answer is looked at before its last digit
has arrived. -/
theorem C122_counterexample_sixth (q : QLocate) (hq : q.sbdix.length = 6) (p : ModemIn)
    (hp : AtPort ((ascii "+SBDIX: 0, 41, 1, 17, 62, 12\r\n0\r").take 27) p) :
    ModemText.getSbdix q p = some (QCode.ok, { q with sbdix := [0, 41, 1, 17, 62, 1] }) := by
  have ha : p.avail = 27 := by rw [hp.1]; decide
  have ht : answerText p = "0, 41, 1, 17, 62, 1".toList := by
    unfold answerText; rw [hp.1, hp.2]; decide +kernel
  have hsc : scanList 6 "0, 41, 1, 17, 62, 1".toList = some [0, 41, 1, 17, 62, 1] := by decide +kernel
  have h4 : q.sbdix.drop 6 = [] := List.drop_of_length_le (by omega)
  unfold ModemText.getSbdix
  rw [if_pos (by unfold reads; rw [ha]; decide), ht, hsc]
  show some (QLocate.getSbdix q _) = _
  unfold QLocate.getSbdix
  simp [ha, h4]

/-- C122. Nor is it checked that the bytes are an answer to the request: whatever the first eight are, the rest is taken the same. -/
theorem C122_counterexample_header (head head' body : List U8) (h : head.length = 8) (h' : head'.length = 8) (q : QLocate)
    (p p' : ModemIn) (hp : AtPort (head ++ body) p) (hp' : AtPort (head' ++ body) p') (ho : p'.scan = p.scan) :
    ModemText.getSbdix q p = ModemText.getSbdix q p' := by
  have ha : p.avail = p'.avail := by rw [hp.1, hp'.1, List.length_append, List.length_append, h, h']
  have ht : answerText p = answerText p' := by
    unfold answerText
    rw [hp.1, hp.2, hp'.1, hp'.2, List.take_length, List.take_length, List.drop_left' h, List.drop_left' h']
  have hg : ∀ ns, q.getSbdix { p with scan := ns } = q.getSbdix { p' with scan := ns } := by
    intro ns; unfold QLocate.getSbdix; simp only [ha]
  unfold ModemText.getSbdix reads
  rw [ha, ht]
  split_ifs
  · rw [ha] at hg
    exact congrArg (fun f => Option.map f _) (funext hg)
  · have := hg p.scan
    have e : ({ p' with scan := p.scan } : ModemIn) = p' := by rw [← ho]
    rw [e] at this
    exact congrArg some this

/-- C122. So the contact that the radio manager records is the one the modem reports: if it accepts what has arrived of the modem's
answer, it notes the cycle as one of contact exactly if the status reported is at most 4. -/
theorem C122_contact (n : Nat) (ys : List QCycle) (y : QCycle) (ht : RadioTicks 0 (ys ++ [y])) (hl : ys.length + 1 < 2 ^ 32)
    (ns : List Int) (bytes : List U8) (h : ModemAnswer ns bytes) (hi : ∀ n ∈ ns, IsInt n) (m : Nat)
    (hp : AtPort (bytes.take m) y.inp.port) (hsc : scanList 6 (answerText y.inp.port) = some y.inp.port.scan)
    (hc : ((QM.init n).run ys).call y = some (.getSbdix, QCode.ok)) :
    (((QM.init n).run ys).cycle y).lastComms = if ns.getD 0 0 ≤ 4 then y.inp.cc else ((QM.init n).run ys).lastComms := by
  have e := C72_contact n ys y ht hl
  dsimp only at e
  rw [e]
  obtain ⟨ss, hf, hn, rfl⟩ := h
  have hs : ss.length = 6 := by rw [hf.length_eq, hn]
  have htx := text_part hf hp
  obtain ⟨got, h1, h2, h3⟩ := scan_part ['\r', '\n', '0', '\r'] (by intro c hc; cases hc; decide) ss ns hf hi
    (by rintro rfl; cases hs) (m - 8)
  rw [hs, ← htx, hsc] at h1
  cases h1
  have hacc := QM.accepted_iff (((QM.init n).run ys).before y) y.inp hc (by intro h; cases h)
  obtain ⟨-, -, h6⟩ := hacc.mp rfl
  have hg : y.inp.port.scan.length = 6 := by omega
  have h7 := h3 (by omega)
  have h8 : y.inp.port.scan.getD 0 0 = ns.getD 0 0 := by
    generalize y.inp.port.scan = l at hg h7
    match l, ns, hg, hn with
    | [a, _, _, _, _, _], [b, _, _, _, _, _], _, _ =>
      simp only [List.dropLast, List.cons.injEq] at h7
      exact h7.1
  rw [h8]
  by_cases h4 : ns.getD 0 0 ≤ 4
  · rw [if_pos ⟨hc, h4⟩, if_pos h4]
  · rw [if_neg (fun h => h4 h.2), if_neg h4]

/-- Such a cycle: the modem reports a delivery, and all of its answer is there. -/
example : ∃ (y : QCycle) (ys : List QCycle), RadioTicks 0 (ys ++ [y]) ∧ ys.length + 1 < 2 ^ 32 ∧
    AtPort ((ascii "+SBDIX: 0, 4, 1, 17, 62, 2\r\n0\r").take 30) y.inp.port ∧
    scanList 6 (answerText y.inp.port) = some y.inp.port.scan ∧ ((QM.init 200).run ys).call y = some (.getSbdix, QCode.ok) ∧
    ((QM.init 200).run ys).lastComms ≠ y.inp.cc := by
  obtain ⟨y, hy⟩ : ∃ y : QCycle, y = { QDemo.lastOf 200 7 2 with inp := { (QDemo.lastOf 200 7 2).inp with port :=
    { (QDemo.lastOf 200 7 2).inp.port with avail := 30, rx := ascii "+SBDIX: 0, 4, 1, 17, 62, 2\r\n0\r", scan := [0, 4, 1, 17, 62, 2] } } } := ⟨_, rfl⟩
  refine ⟨y, QDemo.upTo 200 7 2, ?_, ?_, ?_, ?_, ?_, ?_⟩
  · subst hy
    repeat' first | exact trivial | refine ⟨by decide +kernel, ?_⟩
  · decide +kernel
  · subst hy; exact ⟨by decide +kernel, by decide +kernel⟩
  all_goals (subst hy; decide +kernel)

end PAN
