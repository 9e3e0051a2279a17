import Verif.Model.Basic
/-!
Model of `src/common/bitstream.{h,cpp}` and of `bit_array::modify_bit`.

A stream is its backing byte array plus the byte and bit offsets. `max_len` is the length of the array.
Every access to the backing array goes through `bytes[i]?`; an access outside the array makes the whole
operation `none` (undefined behaviour in C++). Offsets and counts are natural numbers: the C++ uses
`uint32_t`/`size_t` and an `int` in `seekG`, which cannot overflow for buffers below 2^28 bytes.
-/
namespace PAN

/-- src/common/fixed_array.hpp:235-237 `modify_bit(n, p, b)`. -/
def modifyBit (n : U8) (p : Nat) (b : Bool) : U8 :=
  (n &&& ~~~((1 : U8) <<< p)) ||| ((BitVec.ofNat 8 b.toNat <<< p) &&& ((1 : U8) <<< p))

/-- The inner copy loops of src/common/bitstream.cpp:44-45, 52-53, 146-147 and 157-160: copy the low `k`
bits of `src` one at a time (`src & 1`, then `src >>= 1`) into `dst` at bit positions `at, at+1, …`. -/
def copyBits (src dst : U8) (pos : Nat) : Nat → U8
  | 0 => dst
  | k + 1 => copyBits (src >>> 1) (modifyBit dst pos (src.getLsbD 0)) (pos + 1) k

/-- src/common/bitstream.h:26-47. -/
structure Bitstream where
  bytes : List U8
  byteOff : Nat
  bitOff : Nat
  deriving DecidableEq, Repr

namespace Bitstream

/-- src/common/bitstream.cpp:5-11 constructor. -/
def ofBytes (bytes : List U8) : Bitstream := { bytes, byteOff := 0, bitOff := 0 }

/-- `max_len`, src/common/bitstream.h:47. -/
def maxLen (s : Bitstream) : Nat := s.bytes.length

/-- src/common/bitstream.cpp:30-33. -/
def hasNext (s : Bitstream) : Bool := decide (s.byteOff < s.maxLen)

/-- src/common/bitstream.cpp:117-137 `seekG(amt, dir)` with `dir = +1` (`forward = true`) or `dir = -1`.
Returns the amount moved (0 if refused). Other values of `dir` are refused by lines 119-120 and never
used, so they are not represented. -/
def seekG (s : Bitstream) (amt : Nat) (forward : Bool) : Nat × Bitstream :=
  let cur : Int := 8 * s.byteOff + s.bitOff
  let desired : Int := if forward then cur + amt else cur - amt
  if desired > 8 * s.maxLen ∨ desired < 0 then (0, s)
  else (amt, { s with byteOff := desired.toNat / 8, bitOff := desired.toNat % 8 })

/-- src/common/bitstream.cpp:35-57 `next(num_bits, u8)`: returns the number of bits read, the new value of
`*u8` and the moved stream. -/
def next (s : Bitstream) (n : Nat) (u8 : U8) : Option (Nat × U8 × Bitstream) :=
  if n > 8 then some (0, u8, s) else
    match s.bytes[s.byteOff]? with
    | none => none
    | some b0 =>
      let val := b0 >>> s.bitOff
      let k1 := min (8 - s.bitOff) n
      let u8 := copyBits val u8 0 k1
      if s.byteOff + 1 < s.maxLen ∧ k1 < n then
        match s.bytes[s.byteOff + 1]? with
        | none => none
        | some b1 =>
          let k2 := min s.bitOff (n - k1)
          let u8 := copyBits b1 u8 k1 k2
          some (k1 + k2, u8, (s.seekG (k1 + k2) true).2)
      else some (k1, u8, (s.seekG k1 true).2)

/-- src/common/bitstream.cpp:65-68: the whole-byte loop of `nextN`, `k` iterations left, appending the
bytes produced to the zeroed output array (each `res + i` starts as 0 because of the `memset`). The
output bytes not reached stay 0. -/
def nextLoop (s : Bitstream) (written : Nat) : Nat → Option (Nat × List U8 × Bitstream)
  | 0 => some (written, [], s)
  | k + 1 =>
    if s.hasNext then
      match s.next 8 0 with
      | none => none
      | some (c, b, s') =>
        match nextLoop s' (written + c) k with
        | none => none
        | some (w, bs, s'') => some (w, b :: bs, s'')
    else some (written, List.replicate (k + 1) 0, s)

/-- src/common/bitstream.cpp:59-75 `nextN(num_bits, res)`: returns the number of bits read, the
`(num_bits+7)/8` output bytes and the moved stream. -/
def nextN (s : Bitstream) (n : Nat) : Option (Nat × List U8 × Bitstream) :=
  match s.nextLoop 0 (n / 8) with
  | none => none
  | some (w, bs, s') =>
    if n % 8 ≠ 0 then
      if s'.hasNext then
        match s'.next (n % 8) 0 with
        | none => none
        | some (c, b, s'') => some (w + c, bs ++ [b], s'')
      else some (w, bs ++ [0], s')
    else some (w, bs, s')

/-- src/common/bitstream.cpp:83-96: the loop of the `vector<bool>` version of `nextN`, `k` bits left;
`u8` keeps its upper bits between iterations (they stay 0). Returns the number of bits written, the bits
written and the moved stream. -/
def nextBitsLoop (s : Bitstream) : Nat → U8 → Option (List Bool × Bitstream)
  | 0, _ => some ([], s)
  | k + 1, u8 =>
    if s.hasNext then
      match s.next 1 u8 with
      | none => none
      | some (c, b, s') =>
        if c ≠ 0 then
          match nextBitsLoop s' k b with
          | none => none
          | some (bs, s'') => some ((b != 0) :: bs, s'')
        else some ([], s')
    else some ([], s)

/-- src/common/bitstream.cpp:77-97 `nextN(num_bits, bit_arr)` into a bit array of `arrSize` bits:
the array is cleared first, then the first bits are overwritten. -/
def nextNBits (s : Bitstream) (n arrSize : Nat) (old : List Bool) : Option (Nat × List Bool × Bitstream) :=
  if arrSize < n then some (0, old, s) else
    match s.nextBitsLoop n 0 with
    | none => none
    | some (bs, s') => some (bs.length, bs ++ List.replicate (arrSize - bs.length) false, s')

/-- src/common/bitstream.cpp:99-106 `peekN(num_bits, res)`. -/
def peekN (s : Bitstream) (n : Nat) : Option (Nat × List U8 × Bitstream) :=
  match s.nextN n with
  | none => none
  | some (w, bs, s') => some (w, bs, (s'.seekG w false).2)

/-- src/common/bitstream.cpp:139-166 `edit(num_bits, val)`. -/
def edit (s : Bitstream) (n : Nat) (u8 : U8) : Option (Nat × Bitstream) :=
  match s.bytes[s.byteOff]? with
  | none => none
  | some old =>
    let k1 := min (8 - s.bitOff) n
    let bytes := s.bytes.set s.byteOff (copyBits u8 old s.bitOff k1)
    let u8 := u8 >>> k1
    if s.byteOff + 1 < s.maxLen ∧ k1 < n then
      match bytes[s.byteOff + 1]? with
      | none => none
      | some old =>
        let k2 := min s.bitOff (n - k1)
        let bytes := bytes.set (s.byteOff + 1) (copyBits u8 old 0 k2)
        some (k1 + k2, (({ s with bytes } : Bitstream).seekG (k1 + k2) true).2)
    else some (k1, (({ s with bytes } : Bitstream).seekG k1 true).2)

/-- src/common/bitstream.cpp:175-178: the whole-byte loop of `editN`. Reading the source past its end is
also `none`. -/
def editLoop (s : Bitstream) (written : Nat) : Nat → List U8 → Option (Nat × List U8 × Bitstream)
  | 0, src => some (written, src, s)
  | _ + 1, [] => none
  | k + 1, b :: src =>
    match s.edit 8 b with
    | none => none
    | some (c, s') => editLoop s' (written + c) k src

/-- src/common/bitstream.cpp:168-184 `editN(num_bits, new_val)`, including the bound check of lines
171-172 as written. -/
def editN (s : Bitstream) (n : Nat) (src : List U8) : Option (Nat × Bitstream) :=
  let iters := if n / 8 > s.byteOff + s.maxLen then s.maxLen - s.byteOff else n / 8
  match s.editLoop 0 iters src with
  | none => none
  | some (w, src', s') =>
    if n % 8 ≠ 0 then
      match src' with
      | [] => none
      | b :: _ =>
        match s'.edit (n % 8) b with
        | none => none
        | some (c, s'') => some (w + c, s'')
    else some (w, s')

/-- src/common/bitstream.cpp:186-199 `editN(num_bits, bs_other)`: read from the other stream into a
temporary and write what was read. Returns the count, this stream and the other stream. -/
def editNFrom (s other : Bitstream) (n : Nat) : Option (Nat × Bitstream × Bitstream) :=
  match other.nextN n with
  | none => none
  | some (w, tmp, other') =>
    match s.editN w tmp with
    | none => none
    | some (w', s') => some (w', s', other')

/-- src/common/bitstream.cpp:201-205 `reset()`. -/
def reset (s : Bitstream) : Bitstream := { s with byteOff := 0, bitOff := 0 }

end Bitstream
end PAN
