import Verif.Model.Power
/-!
Model of the flight computer's bus devices: the error record kept by `src/fsw/FCCode/Devices/I2CDevice.{hpp,cpp,inl}` and the
"are you there" questions of the two devices on the bus, the power supply (`src/fsw/FCCode/Drivers/Gomspace.cpp`) and the
attitude box (`src/fsw/FCCode/Drivers/ADCS.cpp`). The flight (non-`DESKTOP`) branches are modelled.

The bus library (`i2c_t3`) is not part of the repository: what each of its calls returns, and the bytes that arrive, are inputs.
Of its bulk read it is assumed that it copies the bytes that have arrived, at most as many as were asked for, to the front of
the buffer, leaves the rest of the buffer alone, and returns how many it copied.
-/
namespace PAN

/-- The members of `I2CDevice` that change (src/fsw/FCCode/Devices/I2CDevice.hpp:213-217); `unsigned long` has 32 bits. -/
structure I2CDev where
  timeout : U32
  count : U32
  recent : Bool

/-- A call of the bus library and what it returned. -/
inductive BusCall
  /-- `endTransmission` returned this code. -/
  | endTx (code : U8)
  /-- `requestFrom` returned this number of bytes. -/
  | request (n : Nat)
  /-- `finish` returned this. -/
  | finish (r : U8)
  /-- `write`, of one byte or of several, returned this number of bytes. -/
  | write (n : Nat)
  /-- `read()` of one byte; `none` is -1. -/
  | read (v : Option U8)
  /-- `peek()`; `none` is -1. -/
  | peek (v : Option U8)
  /-- The bulk read of `len` bytes returned `got`. -/
  | readN (len got : Nat)

/-- When a wrapper counts its call as an error (src/fsw/FCCode/Devices/I2CDevice.inl:50-55, 63-68, 124-129, 131-136, 138-144,
154-164, 166-172, 174-184). -/
def BusCall.err : BusCall → Bool
  | .endTx code => code != 0
  | .request n => n == 0
  | .finish r => r == 0
  | .write n => n == 0
  | .read v => v.isNone
  | .peek v => v.isNone
  | .readN len got => got != len

namespace I2CDev

/-- The constructor (src/fsw/FCCode/Devices/I2CDevice.cpp:34-41). -/
def new (timeout : U32) : I2CDev := ⟨timeout, 0, false⟩

/-- A wrapped call: `recent_errors = recent_errors || err` (for example src/fsw/FCCode/Devices/I2CDevice.inl:50-55). -/
def call (d : I2CDev) (c : BusCall) : I2CDev := { d with recent := d.recent || c.err }

/-- Several calls, in order. -/
def calls (d : I2CDev) (cs : List BusCall) : I2CDev := cs.foldl call d

/-- src/fsw/FCCode/Devices/I2CDevice.inl:10-12 `i2c_set_timeout`. -/
def setTimeout (d : I2CDev) (ms : U32) : I2CDev := { d with timeout := ms * 1000 }

/-- src/fsw/FCCode/Devices/I2CDevice.inl:14 `i2c_get_timeout`. -/
def getTimeout (d : I2CDev) : U32 := d.timeout / 1000

/-- src/fsw/FCCode/Devices/I2CDevice.inl:16 `i2c_data_is_valid`. -/
def dataValid (d : I2CDev) : Bool := d.count == 0

/-- src/fsw/FCCode/Devices/I2CDevice.inl:18-22 `i2c_pop_errors`. -/
def pop (d : I2CDev) : I2CDev × Bool := ({ d with recent := false }, d.recent)

/-- src/fsw/FCCode/Devices/I2CDevice.inl:24 `i2c_peek_errors`. -/
def peekErrors (d : I2CDev) : Bool := d.recent

/-- src/fsw/FCCode/Devices/I2CDevice.cpp:22 `is_functional` with src/fsw/FCCode/Devices/I2CDevice.hpp:53. -/
def functional (d : I2CDev) : Bool := decide (d.count < 3)

/-- src/fsw/FCCode/Devices/I2CDevice.cpp:24-27 `reset`. -/
def reset (d : I2CDev) : I2CDev := { d with count := 0, recent := false }

/-- src/fsw/FCCode/Devices/I2CDevice.cpp:29-32 `disable`. -/
def disable (d : I2CDev) : I2CDev := { d with count := 3, recent := true }

end I2CDev

/-- One "are you there" question (`i2c_ping`): the bus calls it makes and what it returns. -/
structure Ping where
  calls : List BusCall
  ok : Bool

namespace I2CDev

/-- The loop of src/fsw/FCCode/Devices/I2CDevice.cpp:13-20 over the questions that are left. -/
def setupLoop (d : I2CDev) : List Ping → I2CDev × Bool
  | [] => (d, false)
  | p :: ps =>
    let d := d.calls p.calls
    if p.ok then (d, true) else setupLoop { d with count := d.count + 1 } ps

/-- src/fsw/FCCode/Devices/I2CDevice.cpp:13-20 `setup`: `p i` is what the `i`-th question would bring. -/
def setup (d : I2CDev) (p : Nat → Ping) : I2CDev × Bool := setupLoop d [p 0, p 1, p 2]

/-- src/fsw/FCCode/Devices/I2CDevice.inl:36-43 `i2c_receive_data` of `len` bytes into `buf`: `n` is what `requestFrom` returned and
`r` what the single reads return. -/
def receiveData (d : I2CDev) (buf : Bytes) (len n : Nat) (r : Nat → Option U8) : I2CDev × Bytes :=
  let d := d.call (.request n)
  if d.recent then (d, buf)
  else (d.calls ((List.range len).map fun i => .read (r i)), fun j => if j < len then (r j).getD 255 else buf j)

end I2CDev

/-- What happens to a device. -/
inductive DevEv
  | call (c : BusCall)
  | pop
  | setup (p : Nat → Ping)
  | reset
  | disable

/-- One event. -/
def I2CDev.step (d : I2CDev) : DevEv → I2CDev
  | .call c => d.call c
  | .pop => d.pop.1
  | .setup p => (d.setup p).1
  | .reset => d.reset
  | .disable => d.disable

/-- A history. -/
def I2CDev.run (d : I2CDev) (evs : List DevEv) : I2CDev := evs.foldl I2CDev.step d

/-- The bulk read `i2c_read(buf, len)` (src/fsw/FCCode/Devices/I2CDevice.inl:166-172) when `arrived` are the bytes waiting. -/
def bulkRead (buf : Bytes) (len : Nat) (arrived : List U8) : Bytes :=
  fun j => if j < len then arrived.getD j (buf j) else buf j

/-- src/fsw/FCCode/Drivers/ADCS.cpp:26-30, 33-37, 203-205 `ADCS::i2c_ping`: the byte starts at zero. The calls are those of
`set_read_ptr` (src/fsw/FCCode/Drivers/ADCS.cpp:74-77 with src/fsw/FCCode/Devices/I2CDevice.inl:95-111), `i2c_request_from` and
`i2c_read`; `w1`, `w2`, `e` and `n` are what the library returned for the two writes, the end of the transmission and the
request. -/
def adcsPing (w1 w2 : Nat) (e : U8) (n : Nat) (arrived : List U8) : Ping where
  calls := [.write w1, .write w2, .endTx e, .request n, .readN 1 (min 1 arrived.length)]
  ok := bulkRead (fun _ => 0) 1 arrived 0 == 0x0F

/-- src/fsw/FCCode/Drivers/Gomspace.cpp:44, 553-571 `Gomspace::i2c_ping`, `ping(value)`: the buffer is not initialised, `stack` is
what it holds. -/
def gomPing (value : U8) (w : Nat) (e : U8) (n : Nat) (stack : Bytes) (arrived : List U8) : Ping where
  calls := [.write w, .endTx e, .request n, .readN 3 (min 3 arrived.length)]
  ok := bulkRead stack 3 arrived 1 == 0 && value == bulkRead stack 3 arrived 2

/-- src/fsw/FCCode/Drivers/Gomspace.cpp:586-600 `_check_for_error(port)`. -/
def gomCheck (port : U8) (stack : Bytes) (arrived : List U8) : Bool :=
  bulkRead stack 2 arrived 0 == port && bulkRead stack 2 arrived 1 == 0

/-- src/fsw/FCCode/Drivers/Gomspace.cpp:46-88 `get_hk()` from the bytes that arrived (`Gomspace.getHk` takes the buffer). -/
def gomGetHk (m stack : Bytes) (arrived : List U8) : Bool × Bytes :=
  Gomspace.getHk m (bulkRead stack (Gomspace.Off.size + 2) arrived)

end PAN
