import Verif.Model.Fault
/-!
Model of the power supply: the flight (non-`DESKTOP`) driver `src/fsw/FCCode/Drivers/Gomspace.{hpp,cpp}`, the
control task `src/fsw/FCCode/GomspaceController.{hpp,cpp}`, and the DC-DC converters, driver
`src/fsw/FCCode/Drivers/DCDC.cpp` and control task `src/fsw/FCCode/DCDCController.cpp`.

What the supply answers over I²C is an input: the buffers read by the driver hold arbitrary bytes. The driver
functions that no control task calls (`get_hk_vi`, `config_get`, `set_output`, ...) are in `Model/GomConfig.lean`.
-/
namespace PAN

/-- `unsigned short int` / `short int` (bit pattern). -/
abbrev U16 := BitVec 16

/-- Memory of a packed structure, byte by byte. -/
abbrev Bytes := Nat → U8

namespace Gomspace

/-- `__bswap_16` (src/fsw/FCCode/Drivers/Gomspace.cpp:9): exchanges the two bytes. -/
def bswap16 (v : U16) : U16 := (v.setWidth 8 : U8) ++ ((v >>> 8).setWidth 8 : U8)

/-- A `unsigned short` member at byte `k` of a packed structure (the target is little-endian). -/
def le16 (m : Bytes) (k : Nat) : U16 := m (k + 1) ++ m k

/-- A `unsigned int` member at byte `k`. -/
def le32 (m : Bytes) (k : Nat) : U32 := (m (k + 3) ++ m (k + 2)) ++ (m (k + 1) ++ m k)

/-- Store of a byte. -/
def put (m : Bytes) (k : Nat) (b : U8) : Bytes := fun j => if j = k then b else m j

/-- Store of a `unsigned short` member. -/
def put16 (m : Bytes) (k : Nat) (v : U16) : Bytes :=
  put (put m k (v.setWidth 8)) (k + 1) ((v >>> 8).setWidth 8)

/-- Store of a `unsigned int` member. -/
def put32 (m : Bytes) (k : Nat) (v : U32) : Bytes :=
  put16 (put16 m k (v.setWidth 16)) (k + 2) ((v >>> 16).setWidth 16)

/-- `__bswap_32` (src/fsw/FCCode/Drivers/Gomspace.cpp:10): reverses the four bytes. -/
def bswap32 (v : U32) : U32 := bswap16 (v.setWidth 16) ++ bswap16 ((v >>> 16).setWidth 16)

/-- `x = __bswap_16(x)` for a 16-bit member at byte `k`. -/
def flip16 (m : Bytes) (k : Nat) : Bytes := put16 m k (bswap16 (le16 m k))

/-- `x = __bswap_32(x)` for a 32-bit member at byte `k`. -/
def flip32 (m : Bytes) (k : Nat) : Bytes := put32 m k (bswap32 (le32 m k))

/-- `x = __bswap_16(x)` for a 32-bit member: the argument is truncated to 16 bits and the result
zero-extended. -/
def flip16in32 (m : Bytes) (k : Nat) : Bytes :=
  put32 m k ((bswap16 ((le32 m k).setWidth 16)).setWidth 32)

/- Byte offsets of the members of `eps_hk_t` (src/fsw/FCCode/Drivers/Gomspace.hpp:37-64, packed). The partial views `hk_vi`, `hk_out`,
`hk_wdt`, `hk_basic` (src/fsw/FCCode/Drivers/Gomspace.cpp:29-32) lie at 0, 20, 84 and 110 of the same memory. -/
namespace Off
/-- src/fsw/FCCode/Drivers/Gomspace.hpp:38 `vboost[3]`. -/
abbrev vboost : Nat := 0
/-- src/fsw/FCCode/Drivers/Gomspace.hpp:40 `vbatt`. -/
abbrev vbatt : Nat := 6
/-- src/fsw/FCCode/Drivers/Gomspace.hpp:41 `curin[3]`. -/
abbrev curin : Nat := 8
/-- src/fsw/FCCode/Drivers/Gomspace.hpp:42 `cursun`. -/
abbrev cursun : Nat := 14
/-- src/fsw/FCCode/Drivers/Gomspace.hpp:43 `cursys`. -/
abbrev cursys : Nat := 16
/-- src/fsw/FCCode/Drivers/Gomspace.hpp:45 `curout[6]`. -/
abbrev curout : Nat := 20
/-- src/fsw/FCCode/Drivers/Gomspace.hpp:46 `output[8]`. -/
abbrev output : Nat := 32
/-- src/fsw/FCCode/Drivers/Gomspace.hpp:47 `output_on_delta[8]`. -/
abbrev onDelta : Nat := 40
/-- src/fsw/FCCode/Drivers/Gomspace.hpp:48 `output_off_delta[8]`. -/
abbrev offDelta : Nat := 56
/-- src/fsw/FCCode/Drivers/Gomspace.hpp:49 `latchup[6]`. -/
abbrev latchup : Nat := 72
/-- src/fsw/FCCode/Drivers/Gomspace.hpp:50 `wdt_i2c_time_left`. -/
abbrev wdtI2c : Nat := 84
/-- src/fsw/FCCode/Drivers/Gomspace.hpp:51 `wdt_gnd_time_left`. -/
abbrev wdtGnd : Nat := 88
/-- src/fsw/FCCode/Drivers/Gomspace.hpp:53 `counter_wdt_i2c`. -/
abbrev ctrI2c : Nat := 94
/-- src/fsw/FCCode/Drivers/Gomspace.hpp:54 `counter_wdt_gnd`. -/
abbrev ctrGnd : Nat := 98
/-- src/fsw/FCCode/Drivers/Gomspace.hpp:55 `counter_wdt_csp[2]`. -/
abbrev ctrCsp : Nat := 102
/-- src/fsw/FCCode/Drivers/Gomspace.hpp:56 `counter_boot`. -/
abbrev ctrBoot : Nat := 110
/-- src/fsw/FCCode/Drivers/Gomspace.hpp:57 `temp[6]`. -/
abbrev temp : Nat := 114
/-- src/fsw/FCCode/Drivers/Gomspace.hpp:59 `bootcause`. -/
abbrev bootcause : Nat := 126
/-- src/fsw/FCCode/Drivers/Gomspace.hpp:60 `battmode`. -/
abbrev battmode : Nat := 127
/-- src/fsw/FCCode/Drivers/Gomspace.hpp:62 `pptmode`. -/
abbrev pptmode : Nat := 128
/-- `sizeof(eps_hk_t)`. -/
abbrev size : Nat := 131
end Off

/-- src/fsw/FCCode/Drivers/Gomspace.cpp:602-612 `_hk_vi_endian_flip()`. -/
def flipVi (m : Bytes) : Bytes :=
  let m := [0, 1, 2].foldl (fun m i => flip16 (flip16 m (Off.vboost + 2 * i)) (Off.curin + 2 * i)) m
  flip16 (flip16 (flip16 m Off.vbatt) Off.cursun) Off.cursys

/-- src/fsw/FCCode/Drivers/Gomspace.cpp:614-625 `_hk_out_endian_flip()`. -/
def flipOut (m : Bytes) : Bytes :=
  let m := [0, 1, 2, 3, 4, 5].foldl
    (fun m i => flip16 (flip16 m (Off.curout + 2 * i)) (Off.latchup + 2 * i)) m
  [0, 1, 2, 3, 4, 5, 6, 7].foldl
    (fun m i => flip16 (flip16 m (Off.onDelta + 2 * i)) (Off.offDelta + 2 * i)) m

/-- src/fsw/FCCode/Drivers/Gomspace.cpp:627-636 `_hk_wdt_endian_flip()`. -/
def flipWdt (m : Bytes) : Bytes :=
  [Off.wdtI2c, Off.wdtGnd, Off.ctrI2c, Off.ctrGnd, Off.ctrCsp, Off.ctrCsp + 4].foldl flip32 m

/-- src/fsw/FCCode/Drivers/Gomspace.cpp:638-645 `_hk_basic_endian_flip()`; `counter_boot` is a 32-bit member but is passed to
`__bswap_16`. -/
def flipBasic (m : Bytes) : Bytes :=
  let m := [0, 1, 2, 3, 4, 5].foldl (fun m i => flip16 m (Off.temp + 2 * i)) m
  flip16in32 m Off.ctrBoot

/-- src/fsw/FCCode/Drivers/Gomspace.cpp:46-88 `get_hk()`: `buf` is what was read over I²C (133 bytes), `m` the housekeeping structure.
Returns the return value and the structure. -/
def getHk (m buf : Bytes) : Bool × Bytes :=
  if buf 0 ≠ 0x08 ∨ buf 1 ≠ 0 then (false, m)
  else
    let m := fun j => if j < Off.size then buf (j + 2) else m j
    (true, flipBasic (flipWdt (flipOut (flipVi m))))

/-- src/fsw/FCCode/Drivers/Gomspace.cpp:338-359 `get_heater()`: `buf` holds the four bytes read. -/
def getHeater (buf : Bytes) : U8 := if buf 0 ≠ 0x0D ∨ buf 1 ≠ 0 then 2 else buf 3

/-- src/fsw/FCCode/Drivers/Gomspace.cpp:232-253 `set_single_output(channel, value, delay)`: the bytes written, `[]` when refused. -/
def setSingleOutput (ch value : U8) (delay : U16) : List U8 :=
  if ch > 5 then [] else if value > 1 then []
  else
    let delay := bswap16 delay
    [0x0A, ch, value, (delay >>> 8).setWidth 8, delay.setWidth 8]

/-- src/fsw/FCCode/Drivers/Gomspace.cpp:255-284 `set_pv_volt(...)`: the bytes written. -/
def setPvVolt (v1 v2 v3 : U16) : List U8 :=
  let v1 := bswap16 v1
  let v2 := bswap16 v2
  let v3 := bswap16 v3
  [0x0B, (v1 >>> 8).setWidth 8, v1.setWidth 8, (v2 >>> 8).setWidth 8, v2.setWidth 8,
    (v3 >>> 8).setWidth 8, v3.setWidth 8]

/-- src/fsw/FCCode/Drivers/Gomspace.cpp:286-302 `set_ppt_mode(mode)`. -/
def setPptMode (mode : U8) : List U8 := if mode > 2 then [] else [0x0C, mode]

/-- src/fsw/FCCode/Drivers/Gomspace.cpp:307-312 `_set_heater(mode)`; the answer is not used by the caller. -/
def setHeater (mode : Bool) : List U8 := [0x0D, 0x00, 1, if mode then 1 else 0]

/-- src/fsw/FCCode/Drivers/Gomspace.cpp:361-367 `reset_counters()`. -/
def resetCounters : List U8 := [0x0F, 0x42]

/-- src/fsw/FCCode/Drivers/Gomspace.cpp:457-471 `hard_reset()`. -/
def hardReset : List U8 := [0x14]

/-- src/fsw/FCCode/Drivers/Gomspace.cpp:573-580 `reboot()`. -/
def reboot : List U8 := [0x04, 0x80, 0x07, 0x80, 0x07]

end Gomspace

open Gomspace

/-- The state of `GomspaceController` (GomspaceController.hpp): the housekeeping structure, the readable fields
and the command fields. Every readable field but `heater_f` is a copy of a member of the housekeeping structure
taken at the end of `execute()` (src/fsw/FCCode/GomspaceController.cpp:270-313), and starts at zero; `pub` is that copy of the
structure. -/
structure Gs where
  hk : Bytes
  pub : Bytes
  heaterF : Bool
  getHkFault : Fault
  lowBatt : Fault
  threshold : U32
  period : U32
  pc : Nat → Bool
  pv1 : U32
  pv2 : U32
  pv3 : U32
  pptCmd : U8
  heaterCmd : Bool
  counterReset : Bool
  gsReset : Bool
  gsReboot : Bool
  piksiOff : Bool

/-- What the power supply answers in one cycle: the housekeeping buffer and the three heater buffers, in the
order they are read (the first only in cycle 1). -/
structure GsIn where
  hk : Bytes
  h0 : Bytes
  h1 : Bytes
  h2 : Bytes

namespace Gs

/-- `gomspace.vboost.output<i+1>`. -/
def vboost (g : Gs) (i : Nat) : U32 := (le16 g.pub (Off.vboost + 2 * i)).setWidth 32
/-- `gomspace.vbatt`. -/
def vbatt (g : Gs) : U32 := (le16 g.pub Off.vbatt).setWidth 32
/-- `gomspace.output.output<k+1>`; a byte converts to `true` unless it is zero. -/
def output (g : Gs) (k : Nat) : Bool := g.pub (Off.output + k) != 0
/-- `gomspace.pptmode`. -/
def pptmode (g : Gs) : U8 := g.pub Off.pptmode

/-- `gomspace.curin.output<i+1>`. -/
def curin (g : Gs) (i : Nat) : U32 := (le16 g.pub (Off.curin + 2 * i)).setWidth 32
/-- `gomspace.cursun`. -/
def cursun (g : Gs) : U32 := (le16 g.pub Off.cursun).setWidth 32
/-- `gomspace.cursys`. -/
def cursys (g : Gs) : U32 := (le16 g.pub Off.cursys).setWidth 32
/-- `gomspace.curout.output<i+1>`. -/
def curout (g : Gs) (i : Nat) : U32 := (le16 g.pub (Off.curout + 2 * i)).setWidth 32
/-- `gomspace.wdt_i2c_time_left`. -/
def wdtI2c (g : Gs) : U32 := le32 g.pub Off.wdtI2c
/-- `gomspace.counter_wdt_i2c`. -/
def ctrI2c (g : Gs) : U32 := le32 g.pub Off.ctrI2c
/-- `gomspace.counter_boot`. -/
def ctrBoot (g : Gs) : U32 := le32 g.pub Off.ctrBoot
/-- `gomspace.temp.output<i+1>`; a `short` read as a signed number. -/
def temp (g : Gs) (i : Nat) : Int := (le16 g.pub (Off.temp + 2 * i)).toInt
/-- `gomspace.bootcause`. -/
def bootcause (g : Gs) : U8 := g.pub Off.bootcause
/-- `gomspace.battmode`. -/
def battmode (g : Gs) : U8 := g.pub Off.battmode

/-- src/fsw/FCCode/GomspaceController.cpp:3-196 constructor; `hk` is what the structure holds before the first read.
`thirty_seconds_ccno` is 30000/170 (src/fsw/FCCode/GomspaceController.hpp:110). -/
def init (hk : Bytes) : Gs :=
  { hk, pub := fun _ => 0, heaterF := false, getHkFault := Fault.init 1, lowBatt := Fault.init 1,
    threshold := 7300, period := 176, pc := fun _ => false, pv1 := 4000, pv2 := 4000, pv3 := 4000,
    pptCmd := 1, heaterCmd := false, counterReset := false, gsReset := false, gsReboot := false,
    piksiOff := true }

/-- src/fsw/FCCode/GomspaceController.cpp:325-341 `powercycle_logic(cmd_f, output_f, idx)`. -/
def powercycle (g : Gs) (k : Nat) : Gs × List (List U8) :=
  if g.pc k then
    if g.output k then (g, [setSingleOutput (BitVec.ofNat 8 k) 0 0])
    else ({ g with pc := fun j => if j = k then false else g.pc j }, [setSingleOutput (BitVec.ofNat 8 k) 1 0])
  else (g, [])

/-- src/fsw/FCCode/GomspaceController.cpp:324-353 `power_cycle_outputs()`. -/
def powerCycleOutputs (g : Gs) : Gs × List (List U8) :=
  let r := if !g.piksiOff then g.powercycle 0 else (g, [])
  [1, 2, 3, 4, 5].foldl (fun r k => ((r.1.powercycle k).1, r.2 ++ (r.1.powercycle k).2)) r

/-- src/fsw/FCCode/GomspaceController.cpp:209-226: in cycle 1 the commands take the current values. `get_heater()` is assigned
to a `bool` field. -/
def firstCycle (g : Gs) (i : GsIn) : Gs :=
  { g with
    pc := fun j => if j < 6 then false else g.pc j
    pv1 := (le16 g.hk Off.vboost).setWidth 32
    pv2 := (le16 g.hk (Off.vboost + 2)).setWidth 32
    pv3 := (le16 g.hk (Off.vboost + 4)).setWidth 32
    heaterCmd := getHeater i.h0 != 0
    counterReset := false
    gsReset := false
    gsReboot := false }

/-- src/fsw/FCCode/GomspaceController.cpp:233-238: set the converter voltages (`unsigned int` commands are truncated to the
`unsigned short` parameters). -/
def pvCommands (g : Gs) : List (List U8) :=
  if g.pptmode = 2 then
    if g.vboost 0 ≠ g.pv1 ∨ g.vboost 1 ≠ g.pv2 ∨ g.vboost 2 ≠ g.pv3 then
      [setPvVolt (g.pv1.setWidth 16) (g.pv2.setWidth 16) (g.pv3.setWidth 16)]
    else []
  else []

/-- src/fsw/FCCode/GomspaceController.cpp:241-243. -/
def pptCommands (g : Gs) : List (List U8) :=
  if g.pptmode ≠ g.pptCmd then [setPptMode g.pptCmd] else []

/-- src/fsw/FCCode/GomspaceController.cpp:246-251. -/
def heaterCommands (g : Gs) (i : GsIn) : List (List U8) :=
  if g.heaterCmd = true ∧ getHeater i.h1 = 0 then [setHeater true]
  else if g.heaterCmd = false ∧ getHeater i.h1 = 1 then [setHeater false]
  else []

/-- src/fsw/FCCode/GomspaceController.cpp:201-226, the first part of `execute()`: read the housekeeping data, evaluate the two
faults, and initialise the commands in cycle 1. -/
def prepare (g : Gs) (cc : U32) (i : GsIn) : Gs :=
  let r := getHk g.hk i.hk
  let g := { g with hk := r.2, getHkFault := g.getHkFault.evaluate cc (!r.1) }
  let g := { g with lowBatt := g.lowBatt.evaluate cc (decide (g.vbatt < g.threshold)) }
  if cc = 1 then g.firstCycle i else g

/-- src/fsw/FCCode/GomspaceController.cpp:254-267: the one-shot commands. -/
def oneShots (g : Gs) : List (List U8) :=
  (if g.counterReset then [resetCounters] else []) ++ (if g.gsReset then [hardReset] else [])
    ++ (if g.gsReboot then [Gomspace.reboot] else [])

/-- src/fsw/FCCode/GomspaceController.cpp:256, 261, 266 and 269-315: the one-shot commands are cleared and the readable fields
set. -/
def publish (g : Gs) (i : GsIn) : Gs :=
  { g with counterReset := false, gsReset := false, gsReboot := false,
           pub := g.hk, heaterF := getHeater i.h2 == 1 }

/-- src/fsw/FCCode/GomspaceController.cpp:198-322 `execute()`: the bytes of each I²C command sent to the supply, in order
(reads left out). `none`: division by zero. -/
def execute (g : Gs) (cc : U32) (i : GsIn) : Option (Gs × List (List U8)) :=
  let g := g.prepare cc i
  if g.period = 0 then none
  else
    let p := if cc % g.period = 0 then g.powerCycleOutputs else (g, [])
    let g := p.1
    some (g.publish i, p.2 ++ g.pvCommands ++ g.pptCommands ++ g.heaterCommands i ++ g.oneShots
      ++ (if g.piksiOff then [setSingleOutput 0 0 0] else []))

end Gs

/-- The state of the DC-DC converters: the two enable pins (src/fsw/FCCode/Drivers/DCDC.cpp:23-78; `digitalRead` of an output pin
gives the level written) and the fields of `DCDCController`. -/
structure DCDC where
  adcs : Bool
  sph : Bool
  adcsCmd : Bool
  sphCmd : Bool
  disableCmd : Bool
  resetCmd : Bool
  adcsF : Bool
  sphF : Bool
  deriving DecidableEq, Repr

namespace DCDC

/-- src/fsw/FCCode/DCDCController.cpp:3-27 constructor, then src/fsw/FCCode/Drivers/DCDC.cpp:9-17 `setup()` (src/fsw/FCCode/MainControlLoop.cpp:43, 73): the fields
are read from the pins before the pins are configured, `a` and `s` are what those reads give. -/
def init (a s : Bool) : DCDC :=
  { adcs := false, sph := false, adcsCmd := a, sphCmd := s, disableCmd := false, resetCmd := false,
    adcsF := a, sphF := s }

/-- src/fsw/FCCode/DCDCController.cpp:31-43: each converter follows its command. -/
def follow (d : DCDC) : DCDC :=
  let d := if d.adcsCmd && !d.adcs then { d with adcs := true }
    else if !d.adcsCmd && d.adcs then { d with adcs := false } else d
  if d.sphCmd && !d.sph then { d with sph := true }
  else if !d.sphCmd && d.sph then { d with sph := false } else d

/-- src/fsw/FCCode/DCDCController.cpp:45-55. -/
def disableStep (d : DCDC) : DCDC :=
  if d.disableCmd then
    let d := if d.adcs || d.sph then
        { d with adcs := false, sph := false, adcsCmd := false, sphCmd := false } else d
    { d with disableCmd := false }
  else d

/-- src/fsw/FCCode/DCDCController.cpp:57-72. -/
def resetStep (d : DCDC) : DCDC :=
  if d.resetCmd then
    if d.adcs || d.sph then
      { d with adcs := false, sph := false, adcsCmd := false, sphCmd := false }
    else { d with adcs := true, sph := true, adcsCmd := true, sphCmd := true, resetCmd := false }
  else d

/-- src/fsw/FCCode/DCDCController.cpp:29-77 `execute()`. -/
def execute (d : DCDC) : DCDC :=
  let d := d.follow.disableStep.resetStep
  { d with adcsF := d.adcs, sphF := d.sph }

end DCDC
end PAN
