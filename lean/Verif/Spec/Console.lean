import Mathlib.Data.List.Basic
/-!
What somebody at the console of a test bed expects, for C107 to C109.
-/
namespace PAN.Spec

/-- A request: show a field, or give it the value written in a text. -/
inductive Request where
  | read (field : List Char)
  | write (field value : List Char)

/-- The values of the fields, by name; `none` where there is no field of that name. -/
abbrev Table (σ : Type) := List Char → Option σ

/-- The table a list of named values stands for: the value of a name is the one in the first pair with it. -/
def fieldValue {σ : Type} (fs : List (List Char × σ)) : Table σ :=
  fun name => (fs.find? (fun f => decide (f.1 = name))).map (fun f => f.2)

/-- An answer: the field and the text of its value; there is no such field; the field does not take that value. -/
inductive Answer where
  | shows (field text : List Char)
  | noField (field : List Char)
  | badValue (field : List Char)
  deriving DecidableEq

/-- The fields after a request: a request to read changes nothing, a request to write changes at most the field named.
`take v t` is the value of a field that had the value `v` after it was given the text `t`. -/
def Request.after {σ : Type} (take : σ → List Char → σ) (t : Table σ) : Request → Table σ
  | .read _ => t
  | .write f v => fun g => if g = f then (t f).map (take · v) else t g

/-- The answer to a request: the value is the one after the request. -/
def Request.answer {σ : Type} (take : σ → List Char → σ) (ok : σ → List Char → Bool) (text : σ → List Char) (t : Table σ) :
    Request → Answer
  | .read f =>
    match t f with
    | none => .noField f
    | some x => .shows f (text x)
  | .write f v =>
    match t f with
    | none => .noField f
    | some x => if ok x v then .shows f (text (take x v)) else .badValue f

/-- The fields after several requests. -/
def afterAll {σ : Type} (take : σ → List Char → σ) (t : Table σ) (rs : List Request) : Table σ :=
  rs.foldl (fun t r => r.after take t) t

/-- The answers to several requests, one for each, in order. -/
def answersAll {σ : Type} (take : σ → List Char → σ) (ok : σ → List Char → Bool) (text : σ → List Char) :
    Table σ → List Request → List Answer
  | _, [] => []
  | t, r :: rs => r.answer take ok text t :: answersAll take ok text (r.after take t) rs

/-- `c` is the hexadecimal digit for `v`. -/
def HexDigit (c : Char) (v : ℕ) : Prop :=
  (v ≤ 9 ∧ c.toNat = 48 + v) ∨ (10 ≤ v ∧ v ≤ 15 ∧ (c.toNat = 55 + v ∨ c.toNat = 87 + v))

/-- `ds` is the number `v` in one or two hexadecimal digits. -/
inductive HexByte : List Char → ℕ → Prop
  | one (c v) : HexDigit c v → HexByte [c] v
  | two (c d v w) : HexDigit c v → HexDigit d w → HexByte [c, d] (16 * v + w)

/-- `text` writes the bytes `bs`, each as a backslash, an x and its hexadecimal digits. -/
inductive HexPacket : List Char → List (BitVec 8) → Prop
  | nil : HexPacket [] []
  | cons (ds text b bs) : HexByte ds b.toNat → HexPacket text bs → HexPacket ('\\' :: 'x' :: (ds ++ text)) (b :: bs)

end PAN.Spec
