import Verif.Model.Basic
/-!
Model of the GPS receiver's serial protocol: `lib/common/libsbp/src/sbp.c` and `lib/common/libsbp/src/edc.c`, with the
read and write functions `src/fsw/FCCode/Drivers/Piksi.cpp` passes to it (flight build).

A write outside the memory it is meant for is the outcome `none`. 16-bit values are kept as the two bytes that stand in
memory, lower byte first (the target is little-endian and the code copies bytes straight into them).
-/
namespace PAN
namespace Sbp

/-- lib/common/libsbp/src/edc.c:24-57 `crc16tab`. -/
def crcTab : List (BitVec 16) :=
  [0x0000, 0x1021, 0x2042, 0x3063, 0x4084, 0x50A5, 0x60C6, 0x70E7,
   0x8108, 0x9129, 0xA14A, 0xB16B, 0xC18C, 0xD1AD, 0xE1CE, 0xF1EF,
   0x1231, 0x0210, 0x3273, 0x2252, 0x52B5, 0x4294, 0x72F7, 0x62D6,
   0x9339, 0x8318, 0xB37B, 0xA35A, 0xD3BD, 0xC39C, 0xF3FF, 0xE3DE,
   0x2462, 0x3443, 0x0420, 0x1401, 0x64E6, 0x74C7, 0x44A4, 0x5485,
   0xA56A, 0xB54B, 0x8528, 0x9509, 0xE5EE, 0xF5CF, 0xC5AC, 0xD58D,
   0x3653, 0x2672, 0x1611, 0x0630, 0x76D7, 0x66F6, 0x5695, 0x46B4,
   0xB75B, 0xA77A, 0x9719, 0x8738, 0xF7DF, 0xE7FE, 0xD79D, 0xC7BC,
   0x48C4, 0x58E5, 0x6886, 0x78A7, 0x0840, 0x1861, 0x2802, 0x3823,
   0xC9CC, 0xD9ED, 0xE98E, 0xF9AF, 0x8948, 0x9969, 0xA90A, 0xB92B,
   0x5AF5, 0x4AD4, 0x7AB7, 0x6A96, 0x1A71, 0x0A50, 0x3A33, 0x2A12,
   0xDBFD, 0xCBDC, 0xFBBF, 0xEB9E, 0x9B79, 0x8B58, 0xBB3B, 0xAB1A,
   0x6CA6, 0x7C87, 0x4CE4, 0x5CC5, 0x2C22, 0x3C03, 0x0C60, 0x1C41,
   0xEDAE, 0xFD8F, 0xCDEC, 0xDDCD, 0xAD2A, 0xBD0B, 0x8D68, 0x9D49,
   0x7E97, 0x6EB6, 0x5ED5, 0x4EF4, 0x3E13, 0x2E32, 0x1E51, 0x0E70,
   0xFF9F, 0xEFBE, 0xDFDD, 0xCFFC, 0xBF1B, 0xAF3A, 0x9F59, 0x8F78,
   0x9188, 0x81A9, 0xB1CA, 0xA1EB, 0xD10C, 0xC12D, 0xF14E, 0xE16F,
   0x1080, 0x00A1, 0x30C2, 0x20E3, 0x5004, 0x4025, 0x7046, 0x6067,
   0x83B9, 0x9398, 0xA3FB, 0xB3DA, 0xC33D, 0xD31C, 0xE37F, 0xF35E,
   0x02B1, 0x1290, 0x22F3, 0x32D2, 0x4235, 0x5214, 0x6277, 0x7256,
   0xB5EA, 0xA5CB, 0x95A8, 0x8589, 0xF56E, 0xE54F, 0xD52C, 0xC50D,
   0x34E2, 0x24C3, 0x14A0, 0x0481, 0x7466, 0x6447, 0x5424, 0x4405,
   0xA7DB, 0xB7FA, 0x8799, 0x97B8, 0xE75F, 0xF77E, 0xC71D, 0xD73C,
   0x26D3, 0x36F2, 0x0691, 0x16B0, 0x6657, 0x7676, 0x4615, 0x5634,
   0xD94C, 0xC96D, 0xF90E, 0xE92F, 0x99C8, 0x89E9, 0xB98A, 0xA9AB,
   0x5844, 0x4865, 0x7806, 0x6827, 0x18C0, 0x08E1, 0x3882, 0x28A3,
   0xCB7D, 0xDB5C, 0xEB3F, 0xFB1E, 0x8BF9, 0x9BD8, 0xABBB, 0xBB9A,
   0x4A75, 0x5A54, 0x6A37, 0x7A16, 0x0AF1, 0x1AD0, 0x2AB3, 0x3A92,
   0xFD2E, 0xED0F, 0xDD6C, 0xCD4D, 0xBDAA, 0xAD8B, 0x9DE8, 0x8DC9,
   0x7C26, 0x6C07, 0x5C64, 0x4C45, 0x3CA2, 0x2C83, 0x1CE0, 0x0CC1,
   0xEF1F, 0xFF3E, 0xCF5D, 0xDF7C, 0xAF9B, 0xBFBA, 0x8FD9, 0x9FF8,
   0x6E17, 0x7E36, 0x4E55, 0x5E74, 0x2E93, 0x3EB2, 0x0ED1, 0x1EF0]

/-- lib/common/libsbp/src/edc.c:77: one round of the loop, `crc = (crc << 8) ^ crc16tab[((crc >> 8) ^ *buf++) & 0x00FF]`. -/
def crcByte (crc : BitVec 16) (b : U8) : BitVec 16 :=
  (crc <<< 8) ^^^ crcTab.getD (((crc >>> 8) ^^^ b.setWidth 16) &&& 0x00FF).toNat 0

/-- lib/common/libsbp/src/edc.c:74-79 `crc16_ccitt`. -/
def crc16 (buf : List U8) (crc : BitVec 16) : BitVec 16 := buf.foldl crcByte crc

/-- The two bytes of a 16-bit value in memory. -/
def bytes16 (v : BitVec 16) : List U8 := [v.setWidth 8, (v >>> 8).setWidth 8]

/-- The 16-bit value two bytes of memory stand for. -/
def val16 (m : List U8) : BitVec 16 := (m.getD 0 0).setWidth 16 ||| ((m.getD 1 0).setWidth 16 <<< 8)

/-- lib/common/libsbp/include/libsbp/sbp.h: the states of `sbp_state_t`. -/
inductive Phase
  | waiting | getType | getSender | getLen | getMsg | getCrc
  deriving DecidableEq, Repr

/-- lib/common/libsbp/include/libsbp/sbp.h `sbp_state_t` (without the pointers). -/
structure State where
  st : Phase
  msgType : List U8
  sender : List U8
  crc : List U8
  len : U8
  nRead : U8
  buf : List U8
  deriving DecidableEq, Repr

/-- lib/common/libsbp/src/sbp.c:250-259 `sbp_state_init`: only the state is set; the other members start at zero
(a `Piksi` object has static storage). -/
def State.init : State :=
  { st := .waiting, msgType := [0, 0], sender := [0, 0], crc := [0, 0], len := 0, nRead := 0,
    buf := List.replicate 256 0 }

/-- lib/common/libsbp/include/libsbp/sbp.h return values used by `sbp_process`. -/
inductive Status
  | ok | executed | undefined | crcError
  deriving DecidableEq, Repr

/-- The arguments of a callback: sender, length and the whole message buffer (the callback gets a pointer to it). -/
structure Msg where
  ty : BitVec 16
  sender : BitVec 16
  len : U8
  buf : List U8
  deriving DecidableEq, Repr

/-- src/fsw/FCCode/Drivers/Piksi.cpp:377-392 `_uart_read` into `mem` at offset `off`, asked for `n` bytes: how much it
read, the memory afterwards and what is left of the input. `none`: it wrote past the end of `mem`. -/
def readInto (mem : List U8) (off n : Nat) (inp : List U8) : Option (Nat × List U8 × List U8) :=
  let got := inp.take n
  if off + got.length ≤ mem.length then
    some (got.length, mem.take off ++ got ++ mem.drop (off + got.length), inp.drop n)
  else none

/-- An `int` expression passed as the `u32` byte count. -/
def toU32 (x : Int) : Nat := (x % 2 ^ 32).toNat

/-- What one call of `sbp_process` leaves behind: the state, the rest of the input, the return value and the message
handed to a callback. -/
structure Out where
  s : State
  inp : List U8
  status : Status
  msg : Option Msg
  deriving DecidableEq, Repr

/-- lib/common/libsbp/src/sbp.c:368-388: the end of `GET_CRC`, with both checksum bytes there. `cbs` are the message
types with a registered callback. -/
def finish (cbs : List (BitVec 16)) (s : State) (inp : List U8) : Out :=
  let s := { s with st := .waiting }
  let crc := crc16 s.msgType 0
  let crc := crc16 s.sender crc
  let crc := crc16 [s.len] crc
  let crc := crc16 (s.buf.take s.len.toNat) crc
  if val16 s.crc = crc then
    if cbs.contains (val16 s.msgType) then
      { s, inp, status := .executed,
        msg := some { ty := val16 s.msgType, sender := val16 s.sender, len := s.len, buf := s.buf } }
    else { s, inp, status := .undefined, msg := none }
  else { s, inp, status := .crcError, msg := none }

/-- lib/common/libsbp/src/sbp.c:312-397 `sbp_process`. -/
def process (cbs : List (BitVec 16)) (s : State) (inp : List U8) : Option Out :=
  let quiet (s : State) (inp : List U8) : Out := { s, inp, status := .ok, msg := none }
  match s.st with
  | .waiting =>
    match inp with
    | [] => some (quiet s inp)
    | b :: rest =>
      if b = 0x55 then some (quiet { s with nRead := 0, st := .getType } rest) else some (quiet s rest)
  | .getType =>
    match readInto s.msgType s.nRead.toNat (toU32 (2 - (s.nRead.toNat : Int))) inp with
    | none => none
    | some (k, mem, rest) =>
      let s := { s with msgType := mem, nRead := s.nRead + BitVec.ofNat 8 k }
      if s.nRead.toNat ≥ 2 then some (quiet { s with nRead := 0, st := .getSender } rest) else some (quiet s rest)
  | .getSender =>
    match readInto s.sender s.nRead.toNat (toU32 (2 - (s.nRead.toNat : Int))) inp with
    | none => none
    | some (k, mem, rest) =>
      let s := { s with sender := mem, nRead := s.nRead + BitVec.ofNat 8 k }
      if s.nRead.toNat ≥ 2 then some (quiet { s with st := .getLen } rest) else some (quiet s rest)
  | .getLen =>
    match inp with
    | [] => some (quiet s inp)
    | b :: rest => some (quiet { s with len := b, nRead := 0, st := .getMsg } rest)
  | .getMsg =>
    match readInto s.buf s.nRead.toNat (toU32 ((s.len.toNat : Int) - (s.nRead.toNat : Int))) inp with
    | none => none
    | some (k, mem, rest) =>
      let s := { s with buf := mem, nRead := s.nRead + BitVec.ofNat 8 k }
      if (s.len.toNat : Int) - (s.nRead.toNat : Int) ≤ 0 then some (quiet { s with nRead := 0, st := .getCrc } rest)
      else some (quiet s rest)
  | .getCrc =>
    match readInto s.crc s.nRead.toNat (toU32 (2 - (s.nRead.toNat : Int))) inp with
    | none => none
    | some (k, mem, rest) =>
      let s := { s with crc := mem, nRead := s.nRead + BitVec.ofNat 8 k }
      if s.nRead.toNat ≥ 2 then some (finish cbs s rest) else some (quiet s rest)

/-- src/fsw/FCCode/Drivers/Piksi.cpp:340-342: `while(buffer_begin < buffer_end) crc_error |= process_buffer() < 0;`,
as the list of what the calls returned and handed to callbacks. `fuel` bounds the number of rounds; `none` also stands
for a loop that has not ended after that many. -/
def drain (cbs : List (BitVec 16)) : Nat → State → List U8 → Option (State × List (Status × Option Msg))
  | _, s, [] => some (s, [])
  | 0, _, _ :: _ => none
  | fuel + 1, s, b :: inp =>
    match process cbs s (b :: inp) with
    | none => none
    | some o =>
      match drain cbs fuel o.s o.inp with
      | none => none
      | some (s', evs) => some (s', (o.status, o.msg) :: evs)

/-- src/fsw/FCCode/Drivers/Piksi.cpp:308-372 `read_all` as far as the decoder goes, once per list of bytes the port had
ready. The decoder keeps its state between the calls. -/
def reads (cbs : List (BitVec 16)) : State → List (List U8) → Option (State × List (Status × Option Msg))
  | s, [] => some (s, [])
  | s, c :: cs =>
    match drain cbs (2 * c.length + 1) s c with
    | none => none
    | some (s', evs) =>
      match reads cbs s' cs with
      | none => none
      | some (s'', evs') => some (s'', evs ++ evs')

/-- lib/common/libsbp/src/sbp.c:428-468 `sbp_send_message` writing to a port that takes `room` more bytes: the bytes
that went out and whether the call returned `SBP_OK`. `len` is the length argument, a `u8`; the payload pointer is not
null. -/
def send (ty sender : BitVec 16) (payload : List U8) (room : Nat) : List U8 × Bool :=
  let len : U8 := BitVec.ofNat 8 payload.length
  let crc := crc16 (bytes16 ty) 0
  let crc := crc16 (bytes16 sender) crc
  let crc := crc16 [len] crc
  let crc := crc16 (payload.take len.toNat) crc
  let rec go : List (List U8) → Nat → List U8 × Bool
    | [], _ => ([], true)
    | p :: ps, room =>
      if p.length ≤ room then
        let (out, ok) := go ps (room - p.length)
        (p ++ out, ok)
      else (p.take room, false)
  go ([[0x55], bytes16 ty, bytes16 sender, [len]] ++ (if len.toNat > 0 then [payload.take len.toNat] else [])
      ++ [bytes16 crc]) room

end Sbp
end PAN
