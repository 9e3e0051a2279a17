import Verif.Model.Serializer
import Verif.Model.GPSTime
import Verif.Model.Float32
import Verif.Model.Float64
/-!
Model of the text form of the serializers: `print` and `deserialize(const char*)` of src/common/SerializerTypes.inl. The
downlink parser on the ground prints every field it decodes (src/gsw/parsers/src/DownlinkParser.cpp:363, 383); the console of
the test beds prints and reads them.

The C library functions used (`sprintf` with `%u`, `%d`, `%hu` and `%6.6f`; `sscanf` with `%d`, `%hu`, `%f` and `%lf`; `strtok`,
`strtof`, `strtod`) are written out below as the C standard describes them, in the "C" locale; conversions of a decimal fraction
round to nearest (as glibc and newlib do). A C string is a list of characters none of which is NUL.

Simplified: the exponents, hexadecimal numbers, infinities and NaN that `strtod` reads are not modelled; a text containing one
is the outcome `other`. Calls whose behaviour the standard leaves undefined are the outcome `undef`.
-/
namespace PAN.Text

/-! ### Printing -/

/-- The character of a decimal digit. -/
def digitChar (d : Nat) : Char := Char.ofNat (48 + d)

/-- The digits of a whole number, as `sprintf` prints them for `%u`. -/
def digits (n : Nat) : List Char :=
  if _h : n < 10 then [digitChar n] else digits (n / 10) ++ [digitChar (n % 10)]
decreasing_by omega

/-- `sprintf` with `%d`. -/
def printInt (n : Int) : List Char := if n < 0 then '-' :: digits n.natAbs else digits n.natAbs

/-- The last `k` digits of a number, with leading zeros. -/
def lastDigits : Nat → Nat → List Char
  | 0, _ => []
  | k + 1, n => lastDigits k (n / 10) ++ [digitChar (n % 10)]

/-- A value of type `float` or `double`: sign and magnitude. -/
inductive Num where
  | fin (neg : Bool) (a : ℚ)
  | inf (neg : Bool)
  | nan (neg : Bool)

/-- `sprintf` with `%6.6f`: six digits after the point, rounded to nearest, ties to even; at least six characters. -/
def print6 : Num → List Char
  | .fin neg a =>
    let m := (rne (a * 10 ^ 6)).toNat
    (if neg then ['-'] else []) ++ digits (m / 10 ^ 6) ++ '.' :: lastDigits 6 (m % 10 ^ 6)
  | .inf neg => if neg then [' ', ' ', '-', 'i', 'n', 'f'] else [' ', ' ', ' ', 'i', 'n', 'f']
  | .nan neg => if neg then [' ', ' ', '-', 'n', 'a', 'n'] else [' ', ' ', ' ', 'n', 'a', 'n']

/-- Writing text and a NUL into the buffer `printed_val` of `size` bytes (src/common/Serializer.hpp:64-65); a text that does not
fit is undefined. -/
def intoBuffer (size : Nat) (text : List Char) : Option (List Char) :=
  if text.length + 1 ≤ size then some text else none

/-- src/common/SerializerTypes.inl:38-44 `Serializer<bool>::print`; buffer of line 18. -/
def printBool (b : Bool) : Option (List Char) :=
  intoBuffer 6 (if b then ['t', 'r', 'u', 'e'] else ['f', 'a', 'l', 's', 'e'])

/-- The sizes of the buffers of the integer serializers, src/common/SerializerTypes.inl:138, 155, 174, 194. -/
def intBuffer : IntKind → Nat
  | .schar => 5
  | .uchar => 4
  | .uint => 11
  | .sint => 12

/-- src/common/SerializerTypes.inl:123-129 `IntegerSerializer<T>::print`. -/
def printInteger (k : IntKind) (n : Int) : Option (List Char) :=
  match k with
  | .uint | .uchar => intoBuffer (intBuffer k) (digits n.toNat)
  | .sint | .schar => intoBuffer (intBuffer k) (printInt n)

/-- src/common/SerializerTypes.inl:268-271 `FloatDoubleSerializer::print`; buffer of line 215. -/
def printReal (x : Num) : Option (List Char) := intoBuffer 14 (print6 x)

/-- The ranges of the real fields of the flight software. In order: src/fsw/FCCode/ADCSCommander.cpp:13 (for lines 19, 20, 26, 29-31),
24-25, 33-34; src/fsw/FCCode/MissionManager.cpp:21-23; src/fsw/FCCode/DockingController.cpp:6;
src/fsw/FCCode/OrbitController.cpp:33; src/fsw/FCCode/PropController.cpp:27, 31, 33, 34;
src/fsw/FCCode/TimedControlTask.hpp:191; src/fsw/FCCode/ADCSBoxMonitor.cpp:11, 17, 26, 29, 36, 42, 48. Limits that are not whole
are rounded outwards (src/adcs/constants.hpp:94-180). -/
def flightReals : List (String × ℚ × ℚ) :=
  [("adcs_cmd.*_filter", 0, 1), ("adcs_cmd.mtr_limit", -1, 1), ("adcs_cmd.imu_gyr_temp_desired", -40, 85),
   ("detumble_safety_factor", 0, 1), ("trigger_dist.close_approach", 0, 5000), ("trigger_dist.docking", 0, 100),
   ("docksys.step_angle", 0, 180), ("orbit.control.alpha", 0, 1), ("prop.threshold_firing_pressure", 10, 50),
   ("prop.tank2.pressure", 0, 150), ("prop.tank2.temp", -60, 155), ("prop.tank1.temp", -60, 155),
   ("timing.*.avg_wait", 0, 170000), ("adcs_monitor.rwa_speed_rd*", -1048, 1048), ("adcs_monitor.rwa_torque_rd*", -1, 1),
   ("adcs_monitor.ssa_voltage*", 0, 4), ("adcs_monitor.mag1_vec*", -1, 1), ("adcs_monitor.mag2_vec*", -1, 1),
   ("adcs_monitor.gyr_vec*", -3, 3), ("adcs_monitor.gyr_temp", -103, 153)]

/-- src/common/SerializerTypes.inl:317-320 `vector_print_size`. -/
def vectorPrintSize (n : Nat) : Nat := 13 * n + (n - 1) + 1

/-- src/common/SerializerTypes.inl:303-311 `vector_print`: every component is followed by a comma. -/
def printVector (v : List Num) : Option (List Char) :=
  intoBuffer (vectorPrintSize v.length) (v.flatMap (fun x => print6 x ++ [',']))

/-- src/common/SerializerTypes.inl:826-829 `Serializer<gps_time_t>::print`; buffer of line 763. -/
def printTime (t : GpsTime) : Option (List Char) :=
  intoBuffer 25 (digits t.wn.toNat ++ ',' :: printInt t.tow.toInt ++ ',' :: printInt t.ns.toInt)

/-! ### Reading -/

/-- `isspace`. -/
def isSpace (c : Char) : Bool := c = ' ' || (9 ≤ c.toNat && c.toNat ≤ 13)

/-- White space skipped before a number. -/
def skipSpace (s : List Char) : List Char := s.dropWhile isSpace

/-- `isdigit`. -/
def isDig (c : Char) : Bool := 48 ≤ c.toNat && c.toNat ≤ 57

/-- The longest run of digits at the start: its value, its length and what follows. -/
def scanDigits (acc : Nat) : List Char → Nat × Nat × List Char
  | [] => (acc, 0, [])
  | c :: r =>
    if isDig c then
      let (v, n, rest) := scanDigits (10 * acc + (c.toNat - 48)) r
      (v, n + 1, rest)
    else (acc, 0, c :: r)

/-- An optional sign: whether it is a minus, and what follows. -/
def scanSign : List Char → Bool × List Char
  | '-' :: r => (true, r)
  | '+' :: r => (false, r)
  | s => (false, s)

/-- What a conversion of `sscanf` gives. -/
inductive Scan (β : Type) where
  | fail
  | undef
  | other
  | val (b : β) (rest : List Char)

/-- `sscanf` with `%d` (`lo`, `hi` are the limits of `int`) or `%hu` (which also takes a sign; only the limits 0 and 65535 are
used, a negative number is treated as undefined). -/
def scanInt (lo hi : Int) (s : List Char) : Scan Int :=
  let (neg, r) := scanSign (skipSpace s)
  let (v, n, rest) := scanDigits 0 r
  if n = 0 then .fail
  else
    let x : Int := if neg then -(v : Int) else v
    if x < lo ∨ hi < x then .undef else .val x rest

/-- Limits of `int`. -/
def intMin : Int := -2 ^ 31
/-- Limits of `int`. -/
def intMax : Int := 2 ^ 31 - 1

/-- The characters with which `strtod` goes on beyond a decimal fraction. -/
def isExp (c : Char) : Bool := c = 'e' || c = 'E' || c = 'x' || c = 'X'

/-- The digits after a point, if there is one. -/
def scanFraction : List Char → Nat × Nat × List Char
  | '.' :: r => scanDigits 0 r
  | r => (0, 0, r)

/-- The power of ten, if one is given, and what follows. `none`: outside of this model (hexadecimal notation, and an `e` that is
not followed by a number, on which `strtod` and `sscanf` differ). -/
def scanExp : List Char → Option (Int × List Char)
  | [] => some (0, [])
  | c :: r =>
    if c = 'x' ∨ c = 'X' then none
    else if c = 'e' ∨ c = 'E' then
      let (neg, r1) := scanSign r
      let (v, n, r2) := scanDigits 0 r1
      if n = 0 then none else some (if neg then -(v : Int) else v, r2)
    else some (0, c :: r)

/-- A number without sign: digits, optional point and digits, with at least one digit, and an optional power of ten. -/
def scanNumber (r : List Char) : Scan ℚ :=
  let (v, n, r1) := scanDigits 0 r
  let (f, k, r2) := scanFraction r1
  if n + k = 0 then
    match r with
    | c :: _ => if c = 'i' ∨ c = 'I' ∨ c = 'n' ∨ c = 'N' then .other else .fail
    | [] => .fail
  else
    match scanExp r2 with
    | none => .other
    | some (x, r3) => .val ((v + f / 10 ^ k) * 10 ^ x) r3

/-- `strtod` and `sscanf` with `%f`: optional sign and number. The exact value is given; the caller rounds it. -/
def scanReal (s : List Char) : Scan ℚ :=
  let (neg, r) := scanSign (skipSpace s)
  match scanNumber r with
  | .val a rest => .val (if neg then -a else a) rest
  | o => o

/-- The outcome of reading a field from text: refused (the field now has the value given), taken (with the new value), undefined,
or outside of this model. -/
inductive Read (β : Type) where
  | refused (now : β)
  | taken (now : β)
  | undef
  | other
  deriving DecidableEq

/-- src/common/SerializerTypes.inl:26-34 `Serializer<bool>::deserialize(const char*, bool*)`. -/
def readBool (old : Bool) (s : List Char) : Read Bool :=
  if s = ['f', 'a', 'l', 's', 'e'] then .taken false
  else if s = ['t', 'r', 'u', 'e'] then .taken true
  else .refused old

/-- src/common/SerializerTypes.inl:108-117 `IntegerSerializer<T>::deserialize(const char*, T*)`. (The bit array is set as well,
as by `serialize`.) -/
def readInteger (k : IntKind) (old : Int) (s : List Char) : Read Int :=
  match scanInt intMin intMax s with
  | .fail => .refused old
  | .undef => .undef
  | .other => .other
  | .val n _ => .taken (k.cast n)

/-- src/common/SerializerTypes.inl:240-253 `FloatDoubleSerializer::deserialize(const char*, T*)`; `r` rounds to the type. -/
def readReal (r : ℚ → ℚ) (old : ℚ) (s : List Char) : Read ℚ :=
  match scanReal s with
  | .fail => .refused old
  | .undef => .undef
  | .other => .other
  | .val x _ => .taken (r x)

/-- `strtok` with ",": the maximal pieces without a comma, empty ones skipped. `cur` is the piece being read. -/
def tokens (cur : List Char) : List Char → List (List Char)
  | [] => if cur = [] then [] else [cur]
  | c :: r =>
    if c = ',' then (if cur = [] then tokens [] r else cur :: tokens [] r)
    else tokens (cur ++ [c]) r

/-- src/common/SerializerTypes.inl:334-343: the number of a token; a token that is no number is zero. -/
def tokenValue (r : ℚ → ℚ) (tok : List Char) : Read ℚ :=
  match scanReal tok with
  | .fail => .taken 0
  | .undef => .undef
  | .other => .other
  | .val x _ => .taken (r x)

/-- The values of the tokens in order, or the first outcome that is not a value. -/
def tokenValues (r : ℚ → ℚ) : List (List Char) → Read (List ℚ)
  | [] => .taken []
  | t :: ts =>
    match tokenValue r t with
    | .taken x =>
      match tokenValues r ts with
      | .taken xs => .taken (x :: xs)
      | o => o
    | .refused _ => .undef
    | .undef => .undef
    | .other => .other

/-- src/common/SerializerTypes.inl:326-347 `deserialize_vector_str`. `mem` are the bytes from the start of the text to the end of
the object it is stored in, `'\0'` ending the text: 150 of them are copied (line 332), whatever the length of the text. A token
more than the vector has components is written out of bounds (lines 337, 340). -/
def readVector (r : ℚ → ℚ) (old : List ℚ) (mem : List Char) : Read (List ℚ) :=
  if mem.length < 150 then .undef
  else if (mem.take 150).all (· ≠ '\x00') then .undef
  else
    let toks := tokens [] ((mem.take 150).takeWhile (· ≠ '\x00'))
    if toks.length > old.length then .undef
    else
      match tokenValues r toks with
      | .taken xs => if xs.length ≠ old.length then .refused old else .taken xs
      | .refused _ => .undef
      | .undef => .undef
      | .other => .other

/-- The comma of the format "%hu,%d,%d". -/
def afterComma : List Char → Option (List Char)
  | ',' :: r => some r
  | _ => none

/-- src/common/SerializerTypes.inl:798-805 `Serializer<gps_time_t>::deserialize(const char*, gps_time_t*)`: the members are
written one by one as they are found; `is_set` is not. -/
def readTime (old : GpsTime) (s : List Char) : Read GpsTime :=
  match scanInt 0 65535 s with
  | .fail => .refused old
  | .undef => .undef
  | .other => .other
  | .val w r1 =>
    let t1 := { old with wn := BitVec.ofInt 16 w }
    match afterComma r1 with
    | some r1' =>
      match scanInt intMin intMax r1' with
      | .fail => .refused t1
      | .undef => .undef
      | .other => .other
      | .val tow r2 =>
        let t2 := { t1 with tow := BitVec.ofInt 32 tow }
        match afterComma r2 with
        | some r2' =>
          match scanInt intMin intMax r2' with
          | .fail => .refused t2
          | .undef => .undef
          | .other => .other
          | .val ns _ => .taken { t2 with ns := BitVec.ofInt 32 ns }
        | none => .refused t2
    | none => .refused t1

end PAN.Text
