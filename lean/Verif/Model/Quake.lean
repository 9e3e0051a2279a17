import Verif.Model.Basic
/-!
Model of the radio: the driver `src/fsw/FCCode/Drivers/QLocate.{hpp,cpp}`, `src/fsw/FCCode/QuakeControlTask.{h,cpp}` and
`src/fsw/FCCode/QuakeManager.{h,cpp}` (flight build; telemetry dumping and debug printing are not modelled).
-/
namespace PAN

/- src/fsw/FCCode/Drivers/QLocate.hpp:29-46 `radio_status_t`. -/
namespace QCode
/-- src/fsw/FCCode/Drivers/QLocate.hpp:35 `OK`. -/
abbrev ok : Int := 0
/-- src/fsw/FCCode/Drivers/QLocate.hpp:36 `TIMEOUT`. -/
abbrev timeout : Int := 1
/-- src/fsw/FCCode/Drivers/QLocate.hpp:37 `BAD_CHECKSUM`. -/
abbrev badChecksum : Int := 2
/-- src/fsw/FCCode/Drivers/QLocate.hpp:38 `WRONG_LENGTH`. -/
abbrev wrongLength : Int := 3
/-- src/fsw/FCCode/Drivers/QLocate.hpp:39 `UNEXPECTED_RESPONSE`. -/
abbrev unexpectedResponse : Int := 4
/-- src/fsw/FCCode/Drivers/QLocate.hpp:40 `CONSUME_FAIL`. -/
abbrev consumeFail : Int := 5
/-- src/fsw/FCCode/Drivers/QLocate.hpp:41 `WRITE_FAIL`. -/
abbrev writeFail : Int := 6
/-- src/fsw/FCCode/Drivers/QLocate.hpp:42 `PORT_UNAVAILABLE`. -/
abbrev portUnavailable : Int := 7
/-- src/fsw/FCCode/Drivers/QLocate.hpp:43 `UNKNOWN`. -/
abbrev unknown : Int := 8
/-- src/fsw/FCCode/Drivers/QLocate.hpp:44 `WRONG_FN_ORDER`. -/
abbrev wrongFnOrder : Int := 9
end QCode

/-- What the serial port does during one driver call (at most one call is made per control cycle): whether writes to it
succeed, what `available()` returns, the bytes `readBytes` can get before its timeout, the numbers `sscanf` converts from
the SBDIX response (simplification: the text of that response is not modelled), and the results of the four single-byte
`read()` calls of `get_sbdrb` (`none`: nothing there, `read()` returns -1). -/
structure ModemIn where
  wrote : Bool
  avail : Nat
  rx : List U8
  scan : List Int
  hi : Option U8
  lo : Option U8
  chi : Option U8
  clo : Option U8
  deriving DecidableEq, Repr

/-- src/fsw/FCCode/Drivers/QLocate.hpp:181, 187: `sbdix_r` and `mt_message`. -/
structure QLocate where
  sbdix : List Int
  mt : List U8
  deriving DecidableEq, Repr

/-- The modem commands the driver offers (src/fsw/FCCode/Drivers/QLocate.hpp:99-175). -/
inductive Cmd
  | config1 | config2 | config3 | getConfig
  | sbdwb1 | sbdwb2 | getSbdwb
  | sbdix1 | getSbdix
  | sbdrb1 | getSbdrb
  deriving DecidableEq, Repr

/-- The bytes of an ASCII string. -/
def ascii (s : String) : List U8 := s.toList.map fun c => BitVec.ofNat 8 c.toNat

namespace QLocate

/-- src/fsw/FCCode/Drivers/QLocate.hpp:79 `MAX_MSG_SIZE`. -/
def maxMsgSize : Nat := 340

/-- src/fsw/FCCode/Drivers/QLocate.hpp:181, 187: initial values. -/
def init : QLocate := { sbdix := List.replicate 6 0, mt := List.replicate (maxMsgSize + 1) 0 }

/-- src/fsw/FCCode/Drivers/QLocate.cpp:291-299 `sendCommand`. -/
def sendCommand (p : ModemIn) : Int := if p.wrote then QCode.ok else QCode.writeFail

/-- src/fsw/FCCode/Drivers/QLocate.cpp:259-289 `consume`. The expected strings contain no NUL, so `strncmp` compares all of
`rx_buf`, which is filled up with zeros if fewer bytes arrive. -/
def consume (p : ModemIn) (expected : String) : Int :=
  if p.avail < expected.length then QCode.portUnavailable
  else if p.rx.take expected.length = ascii expected then QCode.ok
  else QCode.consumeFail

/-- src/fsw/FCCode/Drivers/QLocate.cpp:58-66 `query_config_2`. -/
def queryConfig2 (p : ModemIn) : Int := if p.avail = 0 then QCode.portUnavailable else sendCommand p

/-- src/fsw/FCCode/Drivers/QLocate.cpp:68-72 `query_config_3`. -/
def queryConfig3 (p : ModemIn) : Int :=
  let status := consume p "AT&K0;&D0;E0;V0;+SBDMTA=0\r0\r"
  if status ≠ QCode.ok then status else sendCommand p

/-- src/fsw/FCCode/Drivers/QLocate.cpp:74-76 `get_config`. -/
def getConfig (p : ModemIn) : Int := consume p "0\r\n0\r"

/-- src/fsw/FCCode/Drivers/QLocate.cpp:78-88 `query_sbdwb_1`. -/
def querySbdwb1 (p : ModemIn) (len : Nat) : Int :=
  if len = 0 ∨ len > maxMsgSize then QCode.wrongLength else sendCommand p

/-- src/fsw/FCCode/Drivers/QLocate.cpp:302-308 `checksum`: the 16-bit sum of the bytes (`char` is unsigned on the flight
computer). -/
def checksum (bytes : List U8) : BitVec 16 := (bytes.map fun b => BitVec.ofNat 16 b.toNat).foldl (· + ·) 0

/-- src/fsw/FCCode/Drivers/QLocate.cpp:127-152 `query_sbdwb_2`: the code and the bytes written to the modem (message and
checksum, most significant byte first). Bytes written before a failing write are not modelled. -/
def querySbdwb2 (p : ModemIn) (msg : List U8) : Int × List U8 :=
  let status := consume p "READY\r\n"
  if status ≠ QCode.ok then (status, [])
  else if p.wrote then
    (QCode.ok, msg ++ [(checksum msg >>> 8).setWidth 8, (checksum msg).setWidth 8])
  else (QCode.writeFail, [])

/-- src/fsw/FCCode/Drivers/QLocate.cpp:154-179 `get_sbdwb`. -/
def getSbdwb (p : ModemIn) : Int :=
  if p.avail = 0 then QCode.portUnavailable
  else
    let buf := p.rx.take 5
    let status : Int := ((buf.getD 0 0).toNat : Int) - 48
    if buf.length < 3 then QCode.unknown
    else if buf.getD 1 0 ≠ 13 ∨ buf.getD 2 0 ≠ 10 ∨ status > 3 then QCode.unexpectedResponse
    else status

/-- src/fsw/FCCode/Drivers/QLocate.cpp:181-186 `query_sbdix_1`. -/
def querySbdix1 (q : QLocate) (p : ModemIn) : Int × QLocate := (sendCommand p, { q with sbdix := List.replicate 6 0 })

/-- src/fsw/FCCode/Drivers/QLocate.cpp:189-206 `get_sbdix`, with 210-219 `parse_ints`: `sscanf` stores the numbers it
converts, at most six. -/
def getSbdix (q : QLocate) (p : ModemIn) : Int × QLocate :=
  if p.avail < 26 then (QCode.portUnavailable, q)
  else if p.avail ≥ 128 then (QCode.unexpectedResponse, q)
  else
    let got := p.scan.take 6
    (if got.length = 6 then QCode.ok else QCode.unexpectedResponse, { q with sbdix := got ++ q.sbdix.drop got.length })

/-- src/fsw/FCCode/Drivers/QLocate.cpp:221-225 `query_sbdrb_1`. -/
def querySbdrb1 (q : QLocate) (p : ModemIn) : Int × QLocate :=
  (sendCommand p, { q with mt := List.replicate (maxMsgSize + 1) 0 })

/-- `port->read()`: -1 if there is no byte. -/
def readByte (b : Option U8) : Int :=
  match b with
  | none => -1
  | some b => b.toNat

/-- src/fsw/FCCode/Drivers/QLocate.cpp:227-257 `get_sbdrb`. The two `read()` calls of line 234 (and of 246) are taken in the
order they are written; C++ leaves the order open. The length is converted to `size_t`, so a negative one is too large. -/
def getSbdrb (q : QLocate) (p : ModemIn) : Int × QLocate :=
  if (p.avail : Int) + 4 < q.sbdix.getD 4 0 then (QCode.portUnavailable, q)
  else
    let size := 256 * readByte p.hi + readByte p.lo
    if size < 0 ∨ size > maxMsgSize then (QCode.wrongLength, q)
    else
      let got := p.rx.take size.toNat
      let q := { q with mt := got ++ q.mt.drop got.length }
      let sum := BitVec.ofInt 16 (256 * readByte p.chi + readByte p.clo)
      (if sum = checksum (q.mt.take size.toNat) then QCode.ok else QCode.badChecksum, q)

end QLocate

/-- The radio manager with its control task and driver: src/fsw/FCCode/QuakeManager.h:116-160, 231-267 and src/fsw/FCCode/QuakeControlTask.h:99-104.
`mtLen` is `uplink.len`, `err` is `radio.err`, `lastComms` is `radio.last_comms_ccno`; `moPtr`, `moLen` are the message set by
`set_downlink_msg`, as an offset into `buf` (`mo_buffer_copy`). `loaded` is the modem's outgoing message buffer: the message and
checksum it was last given. -/
structure QM where
  state : U8
  entry : U32
  fn : Nat
  moIdx : Nat
  moPtr : Nat
  moLen : Nat
  buf : List U8
  maxSnap : Nat
  unexpected : Bool
  err : Int
  mtLen : U32
  lastComms : U32
  maxWait : U32
  maxTrans : U32
  dev : QLocate
  loaded : List U8
  deriving DecidableEq, Repr

/-- What the manager reads in one control cycle: the cycle count, `gomspace.power_cycle_output3_cmd`, the serial port, the telemetry
snapshot buffer of the downlink producer and the memory that happens to follow it. -/
structure QIn where
  cc : U32
  powerCycle : Bool
  port : ModemIn
  snap : List U8
  after : Nat → U8

/-- A driver call made in a control cycle and its result code. -/
abbrev QCall := Option (Cmd × Int)

namespace QM

/-- src/fsw/FCCode/QuakeManager.h:290-292 `max_config_cycles`, `max_write_cycles`, `max_read_cycles`. -/
def maxCycles : U32 := 5

/-- src/fsw/FCCode/QuakeManager.h:294 `packet_size`. -/
def packetSize : Nat := 70

/-- src/fsw/FCCode/QuakeManager.cpp:30-75: constructor (in control cycle 0) and `init`; `snapSize` is `downlink.snap_size`, at that
time the size of the snapshot buffer (src/fsw/FCCode/DownlinkProducer.cpp:44-47). -/
def init (snapSize : Nat) : QM :=
  { state := Radio.disabled, entry := 0, fn := 0, moIdx := 0, moPtr := 0, moLen := 0,
    buf := List.replicate (max (snapSize + 1) packetSize) 0, maxSnap := max (snapSize + 1) packetSize, unexpected := false, err := 0,
    mtLen := 0, lastComms := 0, maxWait := 1, maxTrans := 500, dev := QLocate.init, loaded := [] }

/-- src/fsw/FCCode/QuakeManager.cpp:384-390 `transition_radio_state`. -/
def goto (s : QM) (cc : U32) (next : U8) : QM := { s with entry := cc, fn := 0, state := next }

/-- src/fsw/FCCode/QuakeManager.cpp:366-377 `handle_err`. -/
def handleErr (s : QM) (cc : U32) (code : Int) : QM := { s with err := code, unexpected := true }.goto cc Radio.wait

/-- src/fsw/FCCode/QuakeManager.cpp:379-382 `no_more_cycles`. -/
def noMoreCycles (s : QM) (cc max : U32) : Bool := decide (cc - s.entry > max)

/-- src/fsw/FCCode/QuakeManager.cpp:177-180 `has_finished`. -/
def hasFinished (s : QM) (cc : U32) : Bool := decide (s.fn = 0) && decide (cc - s.entry > 1)

/-- src/fsw/FCCode/QuakeManager.cpp:236-239 `has_just_entered`. -/
def justEntered (s : QM) (cc : U32) : Bool := decide (s.fn = 0) && decide (cc - s.entry ≤ 1)

/-- src/fsw/FCCode/QuakeManager.cpp:360-364 `is_actual_error`. -/
def isError (code : Int) : Bool := decide (code ≠ QCode.ok) && decide (code ≠ QCode.portUnavailable)

/-- Common end of the four sequences of QuakeControlTask.cpp: advance on success. -/
def advance (s : QM) (n : Nat) (code : Int) : QM := if code = QCode.ok then { s with fn := (s.fn + 1) % n } else s

/-- The message the modem is to be given: src/fsw/FCCode/QuakeControlTask.cpp:49 (`MO_msg_p`, `MO_msg_len`). -/
def message (s : QM) : List U8 := (s.buf.drop s.moPtr).take s.moLen

/-- src/fsw/FCCode/QuakeControlTask.cpp:40-60 `dispatch_sbdwb`. -/
def dispatchSbdwb (s : QM) (p : ModemIn) : Int × QM × QCall :=
  if s.fn = 0 then
    let r := QLocate.querySbdwb1 p s.moLen
    (r, s.advance 3 r, some (.sbdwb1, r))
  else if s.fn = 1 then
    let r := QLocate.querySbdwb2 p s.message
    (r.1, { s with loaded := if r.1 = QCode.ok then r.2 else s.loaded }.advance 3 r.1, some (.sbdwb2, r.1))
  else if s.fn = 2 then
    let r := QLocate.getSbdwb p
    (r, s.advance 3 r, some (.getSbdwb, r))
  else (QCode.wrongFnOrder, s, none)

/-- src/fsw/FCCode/QuakeControlTask.cpp:62-79 `dispatch_sbdrb`. -/
def dispatchSbdrb (s : QM) (p : ModemIn) : Int × QM × QCall :=
  if s.fn = 0 then
    let r := s.dev.querySbdrb1 p
    (r.1, { s with dev := r.2 }.advance 2 r.1, some (.sbdrb1, r.1))
  else if s.fn = 1 then
    let r := s.dev.getSbdrb p
    (r.1, { s with dev := r.2 }.advance 2 r.1, some (.getSbdrb, r.1))
  else (QCode.wrongFnOrder, s, none)

/-- src/fsw/FCCode/QuakeControlTask.cpp:81-98 `dispatch_sbdix`. -/
def dispatchSbdix (s : QM) (p : ModemIn) : Int × QM × QCall :=
  if s.fn = 0 then
    let r := s.dev.querySbdix1 p
    (r.1, { s with dev := r.2 }.advance 2 r.1, some (.sbdix1, r.1))
  else if s.fn = 1 then
    let r := s.dev.getSbdix p
    (r.1, { s with dev := r.2 }.advance 2 r.1, some (.getSbdix, r.1))
  else (QCode.wrongFnOrder, s, none)

/-- src/fsw/FCCode/QuakeControlTask.cpp:100-123 `dispatch_config`. -/
def qctConfig (s : QM) (p : ModemIn) : Int × QM × QCall :=
  if s.fn = 0 then
    let r := QLocate.sendCommand p
    (r, s.advance 4 r, some (.config1, r))
  else if s.fn = 1 then
    let r := QLocate.queryConfig2 p
    (r, s.advance 4 r, some (.config2, r))
  else if s.fn = 2 then
    let r := QLocate.queryConfig3 p
    (r, s.advance 4 r, some (.config3, r))
  else if s.fn = 3 then
    let r := QLocate.getConfig p
    (r, s.advance 4 r, some (.getConfig, r))
  else (QCode.wrongFnOrder, s, none)

/-- src/fsw/FCCode/QuakeManager.cpp:154-175 `dispatch_config`. -/
def dispatchConfig (s : QM) (i : QIn) : QM × QCall :=
  if s.noMoreCycles i.cc maxCycles then (s.handleErr i.cc QCode.timeout, none)
  else
    let (r, s, c) := s.qctConfig i.port
    if isError r then (s.handleErr i.cc r, c)
    else if s.hasFinished i.cc then ({ s with moIdx := 0 }.goto i.cc Radio.write, c)
    else (s, c)

/-- src/fsw/FCCode/QuakeManager.cpp:182-202 `dispatch_wait`. -/
def dispatchWait (s : QM) (i : QIn) : QM :=
  if !s.noMoreCycles i.cc s.maxWait || i.powerCycle then s
  else if s.unexpected then { s with unexpected := false }.goto i.cc Radio.config
  else { s with moIdx := 0 }.goto i.cc Radio.write

/-- src/fsw/FCCode/QuakeManager.cpp:253-257 `copy_next_snapshot`: `max_snapshot_size` bytes are read from the start of the snapshot
buffer, also if it is shorter. -/
def copySnapshot (s : QM) (i : QIn) : QM :=
  { s with buf := (List.range s.maxSnap).map fun k => if h : k < i.snap.length then i.snap[k] else i.after (k - i.snap.length) }

/-- src/fsw/FCCode/QuakeManager.cpp:241-251 `copy_next_packet`. -/
def copyPacket (s : QM) : QM :=
  { s with moPtr := packetSize * s.moIdx, moLen := packetSize, moIdx := (s.moIdx + 1) % (s.maxSnap / packetSize) }

/-- src/fsw/FCCode/QuakeManager.cpp:212-223. -/
def prepareWrite (s : QM) (i : QIn) : QM :=
  if s.justEntered i.cc then (if s.moIdx = 0 then s.copySnapshot i else s).copyPacket else s

/-- src/fsw/FCCode/QuakeManager.cpp:204-234 `dispatch_write`. -/
def dispatchWrite (s : QM) (i : QIn) : QM × QCall :=
  if s.noMoreCycles i.cc maxCycles then (s.handleErr i.cc QCode.timeout, none)
  else
    let (r, s, c) := (s.prepareWrite i).dispatchSbdwb i.port
    if isError r then (s.handleErr i.cc r, c)
    else if s.hasFinished i.cc then (s.goto i.cc Radio.transceive, c)
    else (s, c)

/-- src/fsw/FCCode/QuakeManager.cpp:303-317 `handle_no_comms`. -/
def handleNoComms (s : QM) (cc : U32) : QM :=
  if s.maxTrans - (cc - s.entry) > s.maxTrans / 3 + 1 then s
  else { s with moIdx := 0 }.goto cc Radio.write

/-- src/fsw/FCCode/QuakeManager.cpp:259-301 `dispatch_transceive`, with 319-331 `handle_comms_msg` and `handle_comms_no_msg`. -/
def dispatchTransceive (s : QM) (i : QIn) : QM × QCall :=
  if s.noMoreCycles i.cc s.maxTrans then (s.handleErr i.cc QCode.timeout, none)
  else
    let (r, s, c) := s.dispatchSbdix i.port
    if isError r then (s.handleErr i.cc r, c)
    else if s.hasFinished i.cc then
      if s.dev.sbdix.getD 0 0 > 4 then (s.handleNoComms i.cc, c)
      else
        let s := { s with lastComms := i.cc }
        if s.dev.sbdix.getD 2 0 = (1 : Int) then (s.goto i.cc Radio.read, c) else (s.goto i.cc Radio.write, c)
    else (s, c)

/-- src/fsw/FCCode/QuakeManager.cpp:333-358 `dispatch_read`. `uplink.len` is a `size_t` (32 bits) set from an `int`. -/
def dispatchRead (s : QM) (i : QIn) : QM × QCall :=
  if s.noMoreCycles i.cc maxCycles then (s.handleErr i.cc QCode.timeout, none)
  else
    let (r, s, c) := s.dispatchSbdrb i.port
    if isError r then (s.handleErr i.cc r, c)
    else if s.hasFinished i.cc then ({ s with mtLen := BitVec.ofInt 32 (s.dev.sbdix.getD 4 0) }.goto i.cc Radio.write, c)
    else (s, c)

/-- src/fsw/FCCode/QuakeManager.cpp:106-152 `execute`: the new state and the driver call made, if any. -/
def execute (s : QM) (i : QIn) : QM × QCall :=
  if s.state = Radio.disabled then (s.goto i.cc Radio.disabled, none)
  else if s.state = Radio.config then s.dispatchConfig i
  else if s.state = Radio.wait then (s.dispatchWait i, none)
  else if s.state = Radio.transceive then s.dispatchTransceive i
  else if s.state = Radio.read then s.dispatchRead i
  else if s.state = Radio.write then s.dispatchWrite i
  else ({ s with unexpected := true }.dispatchWait i, none)

end QM

/-- Writes to the manager's fields by other tasks and ground: `radio.state` (mission manager, radio fault handler), the two
ground-writable limits. -/
inductive QWrite where
  | state (x : U8)
  | maxWait (x : U32)
  | maxTrans (x : U32)
  deriving DecidableEq, Repr

/-- One control cycle seen from the radio manager: the uplink consumer (src/fsw/FCCode/UplinkConsumer.cpp:11-24) takes the message offered in
`uplink.ptr`/`uplink.len` and clears the length; other tasks and ground write fields; then `execute`. -/
structure QCycle where
  writes : List QWrite
  inp : QIn

namespace QM

/-- Effect of one write. -/
def write (s : QM) : QWrite → QM
  | .state x => { s with state := x }
  | .maxWait x => { s with maxWait := x }
  | .maxTrans x => { s with maxTrans := x }

/-- A sequence of writes. -/
def writes (s : QM) (ws : List QWrite) : QM := ws.foldl write s

/-- State when `execute` is called. -/
def before (s : QM) (y : QCycle) : QM := { s with mtLen := 0 }.writes y.writes

/-- The driver call of a cycle. -/
def call (s : QM) (y : QCycle) : QCall := ((s.before y).execute y.inp).2

/-- One control cycle. -/
def cycle (s : QM) (y : QCycle) : QM := ((s.before y).execute y.inp).1

/-- A history of cycles, oldest first. -/
def run (s : QM) (ys : List QCycle) : QM := ys.foldl cycle s

end QM
end PAN
