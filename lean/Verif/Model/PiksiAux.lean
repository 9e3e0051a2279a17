import Verif.Model.Piksi
/-!
Model of the parts of the GPS receiver's driver `src/fsw/FCCode/Drivers/Piksi.cpp` that are not used for a fix: status
readings, the log, and the commands to the receiver. Structures are the lists of their bytes, as in `Model/Piksi.lean`.

The message structures are those of `lib/common/libsbp/include/libsbp/`. Four of them end in, or consist of, an array of
length zero (`msg_log_t`, `msg_settings_write_t`, `msg_settings_read_resp_t`, `msg_user_data_t`); with the compilers of
the flight build such an array adds nothing to `sizeof`.
-/
namespace PAN
namespace Piksi

/-- lib/common/libsbp/include/libsbp/navigation.h:73-80: `sizeof(msg_dops_t)`; `tow` at 0, `gdop`, `pdop`, `tdop`, `hdop`,
`vdop` (16 bits) at 4, 6, 8, 10, 12. -/
abbrev dopsSize : Nat := 14
/-- lib/common/libsbp/include/libsbp/observation.h:131-135: `sizeof(msg_base_pos_ecef_t)`, three doubles. -/
abbrev basePosSize : Nat := 24
/-- lib/common/libsbp/include/libsbp/piksi.h:208-210 and lib/common/libsbp/include/libsbp/system.h:37-39, 56-58:
`sizeof` of `msg_iar_state_t`, `msg_startup_t` and `msg_heartbeat_t`, one 32-bit word each. -/
abbrev wordSize : Nat := 4
/-- lib/common/libsbp/include/libsbp/piksi.h:118-184: `sizeof(msg_uart_state_t)`: three channels of 14 bytes, latency and
period of 16 bytes each. -/
abbrev uartSize : Nat := 74
/-- lib/common/libsbp/include/libsbp/piksi.h:118-129: `sizeof(uart_channel_t)`; `tx_throughput`, `rx_throughput` (floats)
at 0, 4, `crc_error_count`, `io_error_count` (16 bits) at 8, 10, `tx_buffer_level`, `rx_buffer_level` (8 bits) at 12, 13. -/
abbrev channelSize : Nat := 14
/-- lib/common/libsbp/include/libsbp/logging.h:36-39: `sizeof(msg_log_t)`: the level; the text has length zero. -/
abbrev logRecord : Nat := 1
/-- src/fsw/FCCode/Drivers/Piksi.hpp:408 `_logbook_max_size`. -/
abbrev logbookMax : Nat := 128

/-- src/fsw/FCCode/Drivers/Piksi.hpp:407-438: the members the functions below use. `latest` is the index of the record
`_latest_log` points to; -1 stands for the pointer `&_logbook[0] - 1`. -/
structure Aux where
  dops : List U8
  posEcef : List U8
  basePos : List U8
  iar : List U8
  heartbeat : List U8
  startup : List U8
  uart : List U8
  logbook : List (List U8)
  logSize : Nat
  latest : Int
  deriving DecidableEq, Repr

/-- src/fsw/FCCode/Drivers/Piksi.cpp:420-423 `clear_log`. -/
def Aux.clearLog (d : Aux) : Aux := { d with latest := -1, logSize := 0 }

/-- The object after `setup`, src/fsw/FCCode/Drivers/Piksi.cpp:72-80 (static storage: all zero before it). -/
def Aux.init : Aux :=
  { dops := List.replicate dopsSize 0, posEcef := List.replicate posSize 0, basePos := List.replicate basePosSize 0,
    iar := List.replicate wordSize 0, heartbeat := [1, 0, 0, 0], startup := List.replicate wordSize 0,
    uart := List.replicate uartSize 0, logbook := List.replicate logbookMax [0], logSize := 0, latest := -1 }

/-- src/fsw/FCCode/Drivers/Piksi.cpp:409-416 `_insert_log_msg`. -/
def Aux.insertLog (d : Aux) (msg : List U8) : Aux :=
  let l := d.latest + 1
  let l := if l ≥ (logbookMax : Int) then 0 else l
  { d with latest := l, logbook := d.logbook.set l.toNat (msg.take logRecord),
           logSize := if d.logSize < logbookMax then d.logSize + 1 else d.logSize }

/-- src/fsw/FCCode/Drivers/Piksi.cpp:417-419 `dump_log`: the bytes written to the destination. -/
def Aux.dumpLog (d : Aux) : List U8 := d.logbook.flatten.take (d.logSize * logRecord)

/-- src/fsw/FCCode/Drivers/Piksi.cpp:425-494: the callbacks, those of `Driver.callback` left out except that of the
position. Each copies the size of its structure from the message buffer, whatever the length of the message. The
callbacks of 0x00A5 (settings response) and 0x0800 (user data) copy nothing: their structures have size zero. -/
def Aux.callback (d : Aux) (m : Sbp.Msg) : Aux :=
  if m.ty = 0x0401 then d.insertLog m.buf
  else if m.ty = 0x0206 then { d with dops := m.buf.take dopsSize }
  else if m.ty = 0x0200 then { d with posEcef := m.buf.take posSize }
  else if m.ty = 0x0048 then { d with basePos := m.buf.take basePosSize }
  else if m.ty = 0x0019 then { d with iar := m.buf.take wordSize }
  else if m.ty = 0xFFFF then { d with heartbeat := m.buf.take wordSize }
  else if m.ty = 0xFF00 then { d with startup := m.buf.take wordSize }
  else if m.ty = 0x001D then { d with uart := m.buf.take uartSize }
  else d

/-- The driver reading `chunks` one after the other (the decoder as in `Driver.readAll`); `none` as there. -/
def Aux.run (sd : Sbp.State × Aux) (chunks : List (List U8)) : Option (Sbp.State × Aux) :=
  match Sbp.reads callbacks sd.1 chunks with
  | none => none
  | some (s, evs) => some (s, (evs.filterMap (·.2)).foldl Aux.callback sd.2)

/-- src/fsw/FCCode/Drivers/Piksi.cpp:145-150 `get_dops_tow`, `_geometric`, `_position`, `_time`, `_horizontal`,
`_vertical`. -/
def Aux.getDops (d : Aux) : List Nat :=
  [rd d.dops 0 4, rd d.dops 4 2, rd d.dops 6 2, rd d.dops 8 2, rd d.dops 10 2, rd d.dops 12 2]

/-- src/fsw/FCCode/Drivers/Piksi.cpp:201-205 `get_base_pos_ecef`: the patterns of the three doubles. It reads `_pos_ecef`. -/
def Aux.getBasePos (d : Aux) : List Nat := [rd d.posEcef 4 8, rd d.posEcef 12 8, rd d.posEcef 20 8]

/-- src/fsw/FCCode/Drivers/Piksi.cpp:241 `get_iar`. -/
def Aux.getIar (d : Aux) : Nat := rd d.iar 0 4

/-- src/fsw/FCCode/Drivers/Piksi.cpp:245 `get_heartbeat`. -/
def Aux.getHeartbeat (d : Aux) : BitVec 32 := BitVec.ofNat 32 (rd d.heartbeat 0 4)

/-- src/fsw/FCCode/Drivers/Piksi.cpp:246 `is_system_healthy`. -/
def Aux.systemHealthy (d : Aux) : Bool := d.getHeartbeat &&& 0x0001 == 0
/-- src/fsw/FCCode/Drivers/Piksi.cpp:247 `is_system_io_healthy`. -/
def Aux.ioHealthy (d : Aux) : Bool := d.getHeartbeat &&& 0x0002 == 0
/-- src/fsw/FCCode/Drivers/Piksi.cpp:248 `is_swiftnap_healthy`. -/
def Aux.swiftnapHealthy (d : Aux) : Bool := d.getHeartbeat &&& 0x0003 == 0
/-- src/fsw/FCCode/Drivers/Piksi.cpp:249 `is_antenna_healthy`. -/
def Aux.antennaHealthy (d : Aux) : Bool := d.getHeartbeat &&& 0x0004 == 0

/-- src/fsw/FCCode/Drivers/Piksi.cpp:128-131 `is_functional`. -/
def Aux.isFunctional (d : Aux) : Bool := d.systemHealthy && d.ioHealthy && d.swiftnapHealthy && d.antennaHealthy

/-- src/fsw/FCCode/Drivers/Piksi.cpp:251-262 the `get_uart_a_` functions: throughput to and from (patterns of floats),
checksum and line errors, use of the two buffers. -/
def Aux.getUartA (d : Aux) : List Nat :=
  [rd d.uart 0 4, rd d.uart 4 4, rd d.uart 8 2, rd d.uart 10 2, rd d.uart 12 1, rd d.uart 13 1]

/-- src/fsw/FCCode/Drivers/Piksi.cpp:264-275 the `get_uart_b_` functions. -/
def Aux.getUartB (d : Aux) : List Nat :=
  let o := channelSize
  [rd d.uart o 4, rd d.uart (o + 4) 4, rd d.uart (o + 8) 2, rd d.uart (o + 10) 2, rd d.uart (o + 12) 1,
   rd d.uart (o + 13) 1]

/-- lib/common/libsbp/include/libsbp/sbp.h:41 `SBP_SENDER_ID`. -/
abbrev senderId : BitVec 16 := 0x42

/-- src/fsw/FCCode/Drivers/Piksi.cpp:279-282 `settings_save` with a port that takes `room` more bytes: what goes out
(lib/common/libsbp/src/sbp.c:432-433: with length 0 the null pointer is accepted). -/
def settingsSave (room : Nat) : List U8 := (Sbp.send 0x00A1 senderId [] room).1

/-- src/fsw/FCCode/Drivers/Piksi.cpp:283-286 `settings_write`: `sizeof(msg_settings_write_t)` = 0 bytes of the argument
are sent (lib/common/libsbp/include/libsbp/settings.h:48-54). -/
def settingsWrite (settings : List U8) (room : Nat) : List U8 := (Sbp.send 0x00A0 senderId (settings.take 0) room).1

/-- src/fsw/FCCode/Drivers/Piksi.cpp:133, 287-289 `reset` and `piksi_reset`. -/
def piksiReset (room : Nat) : List U8 := (Sbp.send 0x00B2 senderId [] room).1

/-- src/fsw/FCCode/Drivers/Piksi.cpp:290-293 `send_user_data`: `sizeof(msg_user_data_t)` = 0 bytes of the argument are
sent (lib/common/libsbp/include/libsbp/user.h:35-37). -/
def sendUserData (data : List U8) (room : Nat) : List U8 := (Sbp.send 0x0800 senderId (data.take 0) room).1

/-- src/fsw/FCCode/Drivers/Piksi.cpp:300-308 `process_buffer_msg_len`: the decoder afterwards, the rest of the input and
the value returned. -/
def processMsgLen (s : Sbp.State) (inp : List U8) : Option (Sbp.State × List U8 × U8) :=
  let pre := s.len
  match Sbp.process callbacks s inp with
  | none => none
  | some o => some (o.s, o.inp, if o.status = .executed ∨ o.status = .undefined then pre else 0)

end Piksi
end PAN
