import Verif.Model.Text
/-!
Model of the debug console, src/common/debug_console.cpp, through which a computer on the ground reads and writes the fields of
a flight computer on a test bed and hands it uplinks, and of src/fsw/FCCode/DebugTask.cpp. (Neither runs in the FLIGHT build.)

The JSON library is not modelled: what `deserializeJson` made of each message (`Doc`), and whether it reported success, are
inputs. So is the content of memory that is not initialised. Not modelled: the clock of the answers and the 200 bytes the
library has for an answer.

A field has a value of type `σ`; `put` is its `deserialize(const char*)` (`none`: undefined; the Boolean is its result) and
`print` its `print`. Model/Text.lean has both for each type of field.
-/
namespace PAN.Console
open PAN.Text

/-! ### Messages -/

/-- What the member "mode" of a message holds: nothing, a number from 0 to 255, or something else, which `as<unsigned char>()`
turns into `n`. -/
inductive Mode where
  | absent
  | byte (n : Nat)
  | other (n : Nat)
  deriving DecidableEq

/-- A member that should be a string: nothing, a string, or something else (`as<const char*>()` is then a null pointer). -/
inductive Str where
  | absent
  | text (s : List Char)
  | other
  deriving DecidableEq

/-- What the library made of a message. A missing "length" converts to 0. -/
structure Doc where
  mode : Mode
  field : Str
  val : Str
  length : Nat
  deriving DecidableEq

/-- `msg_mode.as<unsigned char>()`. -/
def Mode.as : Mode → Nat
  | .absent => 0
  | .byte n => n
  | .other n => n

/-- src/common/debug_console.hpp:17-25, the members used. -/
inductive Err where
  | invalidFieldName | missingMode | invalidModeNotChar | invalidMode | missingFieldVal | invalidFieldVal
  deriving DecidableEq

inductive CmdMode where
  | unspecified | read | write
  deriving DecidableEq

/-- What the console prints: a field and its value (src/common/debug_console.cpp:221-237 `print_state_field`), an error
(src/common/debug_console.cpp:122-140 `_print_error_state_field`, a null field name is `none`), an uplink
(src/common/debug_console.cpp:407-421). -/
inductive Reply where
  | value (field text : List Char)
  | error (field : Option (List Char)) (mode : CmdMode) (err : Err)
  | uplink (packet : List Char) (len : Nat)
  deriving DecidableEq

/-- The fields in the order of the registry, and the buffer and length through which a received message reaches the uplink
consumer ("uplink.ptr", which points to `QLocate::mt_message`, src/fsw/FCCode/Drivers/QLocate.hpp:187, and "uplink.len"). -/
structure St (σ : Type) where
  fields : List (List Char × σ)
  mt : List U8
  mtLen : Nat

/-- src/common/StateFieldRegistry.cpp:16-23 `find_readable_field`: the first field of that name. -/
def look {σ : Type} (fs : List (List Char × σ)) (name : List Char) : Option σ :=
  match fs with
  | [] => none
  | f :: r => if f.1 = name then some f.2 else look r name

/-- Writing the field found. -/
def store {σ : Type} (fs : List (List Char × σ)) (name : List Char) (v : σ) : List (List Char × σ) :=
  match fs with
  | [] => []
  | f :: r => if f.1 = name then (f.1, v) :: r else f :: store r name v

/-! ### Uplinks -/

/-- `isxdigit`. -/
def isHex (c : Char) : Bool :=
  (48 ≤ c.toNat && c.toNat ≤ 57) || (65 ≤ c.toNat && c.toNat ≤ 70) || (97 ≤ c.toNat && c.toNat ≤ 102)

/-- The value of a hexadecimal digit. -/
def hexVal (c : Char) : Nat :=
  if c.toNat ≤ 57 then c.toNat - 48 else if c.toNat ≤ 70 then c.toNat - 55 else c.toNat - 87

/-- The digits `strtol` reads from memory. `none` in the list is a byte that was never written; reading one, or beyond the end
of the array, is undefined. -/
def hexDigits (acc : Nat) : List (Option Char) → Option Nat
  | [] => none
  | none :: _ => none
  | some c :: r => if isHex c then hexDigits (16 * acc + hexVal c) r else some acc

/-- The white space `strtol` skips. -/
def skipMem : List (Option Char) → Option (List (Option Char))
  | [] => none
  | none :: _ => none
  | some c :: r => if isSpace c then skipMem r else some (some c :: r)

/-- The sign `strtol` reads. -/
def signMem : List (Option Char) → Bool × List (Option Char)
  | some '-' :: r => (true, r)
  | some '+' :: r => (false, r)
  | l => (false, l)

/-- The prefix "0x" that `strtol` skips if a digit follows. -/
def prefixMem : List (Option Char) → List (Option Char)
  | some '0' :: some x :: some d :: r =>
    if (x = 'x' || x = 'X') && isHex d then some d :: r else some '0' :: some x :: some d :: r
  | l => l

/-- `(char) strtol(token, NULL, 16)`; `long` has 32 bits and a number too large is replaced by the largest. -/
def strtol16 (mem : List (Option Char)) : Option U8 :=
  match skipMem mem with
  | none => none
  | some l =>
    let (neg, l1) := signMem l
    match hexDigits 0 (prefixMem l1) with
    | none => none
    | some n =>
      some (BitVec.ofInt 8 (if neg then (if n > 2 ^ 31 then -2 ^ 31 else -(n : Int))
        else (if n > 2 ^ 31 - 1 then 2 ^ 31 - 1 else (n : Int))))

/-- src/common/debug_console.cpp:390-392: characters are copied into the token until a backslash. `mem` is the rest of the 300
bytes of `uplink_packet`; running beyond them, or beyond the token, is undefined. -/
def copyToken (idx : Nat) (tok : List (Option Char)) : List Char → Option (List Char × List (Option Char))
  | [] => none
  | c :: r =>
    if c = '\\' then some (c :: r, tok)
    else if idx < tok.length then copyToken (idx + 1) (tok.set idx (some c)) r
    else none

/-- `memset(token, 0, len)`. -/
def clearToken (len : Nat) (tok : List (Option Char)) : Option (List (Option Char)) :=
  if len ≤ tok.length then some (List.replicate len (some '\x00') ++ tok.drop len) else none

/-- src/common/debug_console.cpp:386-396: the loop over the bytes of the packet; `n` of `len` are left. -/
def decode (len : Nat) : Nat → List Char → List (Option Char) → Option (List U8)
  | 0, _, _ => some []
  | n + 1, mem, tok =>
    match clearToken len tok with
    | none => none
    | some t1 =>
      match copyToken 0 t1 (mem.drop 2) with
      | none => none
      | some (mem', t2) =>
        match strtol16 t2 with
        | none => none
        | some b =>
          match decode len n mem' t2 with
          | none => none
          | some bs => some (b :: bs)

/-- src/common/debug_console.cpp:367-396: the bytes of an uplink given as text. The text and "\x" and a NUL have to fit into 300
bytes; arrays of no elements are undefined. -/
def unhex (packet : List Char) (len : Nat) : Option (List U8) :=
  if packet.length + 3 ≤ 300 ∧ 0 < len ∧ 0 < packet.length then
    decode len len (packet ++ ['\\', 'x'] ++ List.replicate (300 - (packet.length + 2)) '\x00')
      (List.replicate packet.length none)
  else none

/-- src/common/debug_console.cpp:398-405: the first bytes of the buffer, as many as a pointer has (`sizeof` of a pointer), are
cleared, and the packet is copied into it. -/
def deliver (mt : List U8) (data : List U8) : Option (List U8) :=
  if data.length ≤ mt.length ∧ 4 ≤ mt.length then
    let m := List.replicate 4 0#8 ++ mt.drop 4
    some (data ++ m.drop data.length)
  else none

/-! ### Carrying out a message -/

section
variable {σ : Type} (put : σ → List Char → Option (Bool × σ)) (print : σ → Option (List Char))

/-- src/common/debug_console.cpp:327-336: mode 'r'. A null field name is undefined. -/
def doRead (s : St σ) (name : List Char) : Option (St σ × List Reply) :=
  match look s.fields name with
  | none => some (s, [.error (some name) .read .invalidFieldName])
  | some v =>
    match print v with
    | none => none
    | some t => some (s, [.value name t])

/-- src/common/debug_console.cpp:337-361: mode 'w'. -/
def doWrite (s : St σ) (name : List Char) (val : Str) : Option (St σ × List Reply) :=
  match val with
  | .absent => some (s, [.error (some name) .write .missingFieldVal])
  | .other =>
    match look s.fields name with
    | none => some (s, [.error (some name) .write .invalidFieldName])
    | some _ => none
  | .text t =>
    match look s.fields name with
    | none => some (s, [.error (some name) .write .invalidFieldName])
    | some v =>
      match put v t with
      | none => none
      | some (false, v') => some ({ s with fields := store s.fields name v' }, [.error (some name) .write .invalidFieldVal])
      | some (true, v') =>
        match print v' with
        | none => none
        | some p => some ({ s with fields := store s.fields name v' }, [.value name p])

/-- src/common/debug_console.cpp:362-423: mode 'u'. -/
def doUplink (s : St σ) (d : Doc) : Option (St σ × List Reply) :=
  match d.val with
  | .text p =>
    match unhex p d.length with
    | none => none
    | some data =>
      match deliver s.mt data with
      | none => none
      | some m => some ({ s with mt := m, mtLen := d.length }, [.uplink p d.length])
  | _ => none

/-- src/common/debug_console.cpp:307-427: one message at index `i` of the loop. Returns the new state, the answers and the value of
the loop variable when the body ends: the body for mode 'u' uses the same variable `i` for its own loop (line 386; there is no
declaration), which ends with the length of the packet. -/
def message (s : St σ) (i : Nat) (d : Doc) : Option (St σ × List Reply × Nat) :=
  if d.mode.as ≠ 117 ∧ d.field = .absent then some (s, [], i)
  else
    let name : Option (List Char) := match d.field with | .text f => some f | _ => none
    match d.mode with
    | .absent => some (s, [.error name .unspecified .missingMode], i)
    | .other _ => some (s, [.error name .unspecified .invalidModeNotChar], i)
    | .byte m =>
      if m = 114 then
        match name with
        | none => none
        | some f =>
          match doRead print s f with
          | none => none
          | some (s', r) => some (s', r, i)
      else if m = 119 then
        match name, d.val with
        | none, .absent => some (s, [.error none .write .missingFieldVal], i)
        | none, _ => none
        | some f, v =>
          match doWrite put print s f v with
          | none => none
          | some (s', r) => some (s', r, i)
      else if m = 117 then
        match doUplink s d with
        | none => none
        | some (s', r) => some (s', r, d.length)
      else some (s, [.error name .read .invalidMode], i)

/-- A message as the loop finds it: whether the library reported success, what it made of the message, and the content of its
entry of `msg_ok` before, which is never initialised (src/common/debug_console.cpp:295). -/
structure Found where
  ok : Bool
  junk : Bool
  doc : Doc

/-- What became of a call. -/
inductive Outcome (σ : Type) where
  | done (s : St σ) (out : List Reply)
  | undef
  | running

/-- src/common/debug_console.cpp:293-429: the loop over the messages found, from index `i`, for at most `fuel` rounds
(`running`: not finished by then). `msg_ok` is only ever set, lines 296-301. -/
def loop (ms : List Found) : Nat → Nat → St σ → List Reply → Outcome σ
  | 0, _, _, _ => .running
  | fuel + 1, i, s, out =>
    match ms[i]? with
    | none => .done s out
    | some f =>
      if f.ok || f.junk then
        match message put print s i f.doc with
        | none => .undef
        | some (s', r, j) => loop ms fuel (j + 1) s' (out ++ r)
      else loop ms fuel (i + 1) s out

end

/-! ### Finding the messages -/

/-- src/common/debug_console.cpp:240-277: the characters that arrive on the serial port are stored up to and including a newline,
at most 512; the rest of the buffer is 0. (A line that is not complete is waited for.) -/
def line : Nat → List Char → List Char
  | 0, _ => []
  | n + 1, [] => '\x00' :: line n []
  | n + 1, c :: r => if c = '\n' then '\n' :: List.replicate n '\x00' else c :: line n r

/-- src/common/debug_console.cpp:279-291: where messages start: at the braces, the first five of them. -/
def starts (i : Nat) : Nat → List Char → List Nat
  | 0, _ => []
  | _ + 1, [] => []
  | n + 1, c :: r => if c = '{' then i :: starts (i + 1) n r else starts (i + 1) (n + 1) r

/-- The starts of the messages in what arrives on the port. -/
def found (input : List Char) : List Nat := starts 0 5 (line 512 input)

/-! ### Fields of flags, whole numbers and times -/

/-- A value of one of the types of Model/Text.lean. -/
inductive Value where
  | bool (b : Bool)
  | int (k : IntKind) (n : Int)
  | time (t : GpsTime)

/-- What a reader of Model/Text.lean did, for `put`. -/
def ofRead {β : Type} (mk : β → Value) : Read β → Option (Bool × Value)
  | .refused v => some (false, mk v)
  | .taken v => some (true, mk v)
  | .undef => none
  | .other => none

/-- src/common/StateFieldTypes.inl:184-188 `deserialize(const char*)` of a field is that of its serializer. -/
def Value.put : Value → List Char → Option (Bool × Value)
  | .bool b, t => ofRead .bool (readBool b t)
  | .int k n, t => ofRead (.int k) (readInteger k n t)
  | .time v, t => ofRead .time (readTime v t)

/-- src/common/StateFieldTypes.inl:190-195 `print` of a field is that of its serializer. -/
def Value.print : Value → Option (List Char)
  | .bool b => printBool b
  | .int k n => printInteger k n
  | .time t => printTime t

/-! ### The debug task -/

/-- src/fsw/FCCode/DebugTask.cpp:19-40 `execute`. `cmds k` is what the `k`-th call of `process_commands` does to the two fields of
the task and to the rest of the state `τ`; the flags are "cycle.start" and "cycle.auto". Returns the number of calls made and the
state, for at most `fuel` calls. -/
structure Flags (τ : Type) where
  start : Bool
  auto : Bool
  rest : τ

/-- The while loop of lines 32-37. -/
def waitStart {τ : Type} (cmds : Nat → Flags τ → Flags τ) : Nat → Nat → Flags τ → Option (Nat × Flags τ)
  | 0, _, _ => none
  | fuel + 1, k, f =>
    if f.start = false ∧ f.auto = false then waitStart cmds fuel (k + 1) (cmds k f) else some (k, f)

/-- `execute`. -/
def debugTask {τ : Type} (cmds : Nat → Flags τ → Flags τ) (fuel : Nat) (f : Flags τ) : Option (Nat × Flags τ) :=
  let f0 := { f with start := false }
  if f0.auto then some (1, cmds 0 f0) else waitStart cmds fuel 0 f0

end PAN.Console
