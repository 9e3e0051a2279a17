import Verif.Model.FlightI2C
/-!
Model of the functions of the power supply's driver that no control task calls: the groups of the housekeeping data, the
outputs all at once, and the two configurations (`src/fsw/FCCode/Drivers/Gomspace.{hpp,cpp}`, flight branches). They are part of
the driver's public interface.

As in `Verif.Model.FlightI2C` the buffer of an answer is not initialised: `buf` is what it holds after the bulk read. The object and
its surroundings are memory, byte by byte: the two configuration pointers are the last members of the object
(src/fsw/FCCode/Drivers/Gomspace.hpp:235-238), four bytes each on the target.
-/
namespace PAN
namespace Gomspace

/-- `memcpy(dst + base, buf + 2, size)`. -/
def copyTo (m buf : Bytes) (base size : Nat) : Bytes :=
  fun j => if base ≤ j ∧ j < base + size then buf (j - base + 2) else m j

/-- src/fsw/FCCode/Drivers/Gomspace.cpp:90-120 `get_hk_vi()`. -/
def getHkVi (m buf : Bytes) : Bool × Bytes :=
  if buf 1 ≠ 0 then (false, m) else (true, flipVi (copyTo m buf 0 20))

/-- src/fsw/FCCode/Drivers/Gomspace.cpp:122-151 `get_hk_out()`. -/
def getHkOut (m buf : Bytes) : Bool × Bytes :=
  if buf 1 ≠ 0 then (false, m) else (true, flipOut (copyTo m buf 20 64))

/-- src/fsw/FCCode/Drivers/Gomspace.cpp:153-182 `get_hk_wdt()`. -/
def getHkWdt (m buf : Bytes) : Bool × Bytes :=
  if buf 1 ≠ 0 then (false, m) else (true, flipWdt (copyTo m buf 84 26))

/-- src/fsw/FCCode/Drivers/Gomspace.cpp:184-213 `get_hk_basic()`. -/
def getHkBasic (m buf : Bytes) : Bool × Bytes :=
  if buf 1 ≠ 0 then (false, m) else (true, flipBasic (copyTo m buf 110 21))

/-- src/fsw/FCCode/Drivers/Gomspace.cpp:215-230 `set_output(byte)`: the bytes written. -/
def setOutput (b : U8) : List U8 := [0x09, b]

/-- src/fsw/FCCode/Drivers/Gomspace.cpp:304-305, 307-326 `turn_on_heater()`, `turn_off_heater()`, `_set_heater(mode)`: the result,
when `buf` holds the four bytes read. The bytes written are those of `setHeater`. The last test compares the reported state with
the commanded one only if `1 == (1 | 2)`. -/
def setHeaterOk (mode : Bool) (buf : Bytes) : Bool :=
  if buf 0 ≠ 0x0D then false
  else if buf 1 ≠ 0x00 then false
  else if buf 3 ≠ (if mode then 1 else 0) ∧ (1 : U8) = 1 ||| 2 then false
  else true

/-- src/fsw/FCCode/Drivers/Gomspace.cpp:380-390 `reset_wdt()`. -/
def resetWdt : List U8 := [0x10, 0x78]

/-- The conversion of a configuration's 16-bit members (src/fsw/FCCode/Drivers/Gomspace.cpp:412-422, 439-447): eight delays from
byte 20 on, eight from byte 36 on, three voltages from byte 52 on (src/fsw/FCCode/Drivers/Gomspace.hpp:105-118, packed). `k` is
where the structure lies. -/
def flipConfig (m : Bytes) (k : Nat) : Bytes :=
  let m := [0, 1, 2, 3, 4, 5, 6, 7].foldl (fun m i => flip16 (flip16 m (k + 20 + 2 * i)) (k + 36 + 2 * i)) m
  [0, 1, 2].foldl (fun m i => flip16 m (k + 52 + 2 * i)) m

/-- The conversion of the second configuration (src/fsw/FCCode/Drivers/Gomspace.cpp:493-496, 526-529): four voltages at its start. -/
def flipConfig2 (m : Bytes) (k : Nat) : Bytes :=
  flip16 (flip16 (flip16 (flip16 m k) (k + 2)) (k + 4)) (k + 6)

/-- The first `n` bytes of a structure. -/
def bytesOf (m : Bytes) (n : Nat) : List U8 := (List.range n).map m

/-- src/fsw/FCCode/Drivers/Gomspace.cpp:430-456 `config_set(c)`: the bytes written; `sizeof(eps_config_t)` is 58. -/
def configSet (c : Bytes) : List U8 := 0x13 :: bytesOf (flipConfig c 0) 58

/-- src/fsw/FCCode/Drivers/Gomspace.cpp:542-551 `_config2_confirm()`: the bytes written. -/
def config2Confirm : List U8 := [0x15, 0x02]

/-- src/fsw/FCCode/Drivers/Gomspace.cpp:517-540 `config2_set(c)`: the commands written and the result, when the answers to the two
commands are held to be good or bad as `ok1` and `ok2` say; `sizeof(eps_config2_t)` is 20. -/
def config2Set (c : Bytes) (ok1 ok2 : Bool) : List (List U8) × Bool :=
  let first := 0x17 :: bytesOf (flipConfig2 c 0) 20
  if !ok1 then ([first], false) else ([first, config2Confirm], ok2)

/-- src/fsw/FCCode/Drivers/Gomspace.cpp:504-515 `restore_default_config2()`. -/
def restoreDefaultConfig2 (ok1 ok2 : Bool) : List (List U8) × Bool :=
  let first : List U8 := [0x15, 0x02]
  if !ok1 then ([first], false) else ([first, config2Confirm], ok2)

/-- src/fsw/FCCode/Drivers/Gomspace.cpp:391-428 `config_get()`: `mem` is the whole memory and `A` the address of the member
`gspace_config`. The copy goes to `&gspace_config`, over the pointer itself; the conversion then works where the pointer now
points. -/
def configGet (mem : Bytes) (A : Nat) (buf : Bytes) : Bool × Bytes :=
  if buf 1 ≠ 0 then (false, mem)
  else
    let mem := copyTo mem buf A 58
    (true, flipConfig mem (le32 mem A).toNat)

/-- src/fsw/FCCode/Drivers/Gomspace.cpp:473-502 `config2_get()`; `A` is the address of the member `gspace_config2`. -/
def config2Get (mem : Bytes) (A : Nat) (buf : Bytes) : Bool × Bytes :=
  if buf 1 ≠ 0 then (false, mem)
  else
    let mem := copyTo mem buf A 20
    (true, flipConfig2 mem (le32 mem A).toNat)

end Gomspace
end PAN
