import Verif.Model.Err
/-!
# Model of `BitContext` (`/repo/src/io/sps_io_bits.{hpp,cpp}`)

`none` stands for undefined behaviour or a failed `assert`: reading or writing outside `[buf, buf+sz)`,
or a byte operation in the middle of a byte.
-/
namespace Sps

/-- `BitContext` data members, `sps_io_bits.hpp:75-86`.
`pos` is `buf_pos + 1`, the number of bytes already fetched (`buf_pos` starts at `-1`), so that it is a `Nat`.
Simplification: `buf_pos` is `int32_t`; buffers of 2 GiB and more are not modelled. -/
structure BitCtx where
  buf : List UInt8
  pos : Nat
  remBits : Nat
  remVal : UInt8
deriving DecidableEq, Repr

namespace BitCtx

/-- `BitContext::init`, `sps_io_bits.cpp:37-42`. (`remain_value` is left uninitialised there; it is never
read while `remain_bits` is 0, the model uses 0.) -/
def init (p : List UInt8) : BitCtx := { buf := p, pos := 0, remBits := 0, remVal := 0 }

/-- `BitContext::size_bits`, `sps_io_bits.cpp:51-53`: `(sz - buf_pos - 1) * 8 + remain_bits` in `size_t`
(64-bit, wrapping). -/
def sizeBits (c : BitCtx) : Nat :=
  (((2 ^ 64 + c.buf.length - c.pos) % 2 ^ 64) * 8 + c.remBits) % 2 ^ 64

/-- `BitContext::size`, `sps_io_bits.cpp:55-57`. -/
def size (c : BitCtx) : Nat := c.sizeBits / 8

/-- `BitContext::acquire_bits`, `sps_io_bits.cpp:63-65`. -/
def acquireBits (c : BitCtx) (nbit : Nat) : Err :=
  if c.sizeBits ≥ nbit then Err.SUCCESS else Err.ERROR_IO_NOT_ENOUGH

/-- `BitContext::acquire`, `sps_io_bits.cpp:59-61`. The parameter is `uint32_t` and `nbyte * 8` is computed
in 32 bits. -/
def acquire (c : BitCtx) (nbyte : Nat) : Err := c.acquireBits ((nbyte * 8) % 2 ^ 32)

/-- `BitContext::next`, `sps_io_bits.cpp:208-213`. -/
def next (c : BitCtx) : Option BitCtx :=
  if c.remBits = 0 then
    match c.buf[c.pos]? with
    | some b => some { c with pos := c.pos + 1, remBits := 8, remVal := b }
    | none => none
  else none

/-- `if (remain_bits == 0) next();`, `sps_io_bits.cpp:105-107`. -/
def fetch (c : BitCtx) : Option BitCtx := if c.remBits = 0 then c.next else some c

/-- The masks of the `switch` in `read_bits`, `sps_io_bits.cpp:115-142`, case `nr` at index `nr-1`. -/
def readMasks : List Nat := [0x80, 0xc0, 0xe0, 0xf0, 0xf8, 0xfc, 0xfe, 0xff]

/-- One pass of the loop of `read_bits`, `sps_io_bits.cpp:105-146`, with `remain_bits > 0`: returns the
updated `num` (`uint32_t`), the remaining width and the context. The shift of case `nr` is `8 - nr`. -/
def readPiece (c : BitCtx) (n num : Nat) : Option (Nat × Nat × BitCtx) :=
  let nr := min n c.remBits
  match readMasks[nr - 1]? with
  | none => none                                   -- `default: assert(false)`
  | some m =>
    let num := (num <<< nr) % 2 ^ 32
    let num := num ||| ((c.remVal.toNat &&& m) >>> (8 - nr))
    some (num, n - nr,
      { c with remBits := c.remBits - nr, remVal := UInt8.ofNat (c.remVal.toNat <<< nr) })

/-- The loop of `read_bits`, `sps_io_bits.cpp:104-150`. Every pass lowers `n`, so `fuel = n` suffices. -/
def readLoop : (fuel : Nat) → BitCtx → (n num : Nat) → Option (Nat × BitCtx)
  | _, c, 0, num => some (num, c)
  | 0, _, _ + 1, _ => none
  | fuel + 1, c, n + 1, num => do
    let c ← c.fetch
    let (num, n, c) ← c.readPiece (n + 1) num
    readLoop fuel c n num

/-- `BitContext::read_bits`, `sps_io_bits.cpp:101-152`; `read_int8/16/24/32` (`85-99`) are `readBits 8/16/24/32`. -/
def readBits (c : BitCtx) (n : Nat) : Option (Nat × BitCtx) := readLoop n c n 0

/-- `BitContext::read_bytes`, `sps_io_bits.cpp:67-71`. -/
def readBytes (c : BitCtx) (n : Nat) : Option (List UInt8 × BitCtx) :=
  if c.remBits = 0 then
    if c.pos + n ≤ c.buf.length then
      some ((c.buf.drop c.pos).take n, { c with pos := c.pos + n })
    else none
  else none

/-- `BitContext::skip_read_bytes`, `sps_io_bits.cpp:73-83`. The argument is a `size_t` that callers also fill
with negative `int`s, which moves the position back, hence `Int`. A position before the start of the buffer is
`none`. -/
def skipReadBytes (c : BitCtx) (n : Int) : Option BitCtx :=
  if (c.pos : Int) + n < 0 then none
  else
    let p := ((c.pos : Int) + n).toNat
    if c.remBits = 0 then some { c with pos := p }
    else if p = 0 then none
    else match c.buf[p - 1]? with
      | some b => some { c with pos := p, remVal := UInt8.ofNat (b.toNat <<< (8 - c.remBits)) }
      | none => none

/-- `BitContext::next_write`, `sps_io_bits.cpp:215-220`. -/
def nextWrite (c : BitCtx) : Option BitCtx :=
  if c.remBits = 0 then
    if c.pos < c.buf.length then
      some { c with pos := c.pos + 1, remBits := 8, buf := c.buf.set c.pos 0 }
    else none
  else none

/-- `if (remain_bits == 0) next_write();`, `sps_io_bits.cpp:167-169`. -/
def fetchWrite (c : BitCtx) : Option BitCtx := if c.remBits = 0 then c.nextWrite else some c

/-- The mask table of `write_bits`, `sps_io_bits.cpp:174-179`, as it is in the code (entry for 6 bits is `0x2f`). -/
def writeMasks : List Nat := [0x01, 0x03, 0x07, 0x0f, 0x1f, 0x2f, 0x7f, 0xff]

/-- One pass of the loop of `write_bits`, `sps_io_bits.cpp:171-188`, with `remain_bits > 0`. -/
def writePiece (c : BitCtx) (value n : Nat) : Option (Nat × BitCtx) :=
  let nr := min c.remBits n
  match writeMasks[nr - 1]?, c.buf[c.pos - 1]? with
  | some m, some b =>
    if c.pos = 0 then none else
    let nrValue := m &&& (value >>> (n - nr))
    let b' := UInt8.ofNat (b.toNat ||| (nrValue <<< (c.remBits - nr)))
    some (n - nr, { c with buf := c.buf.set (c.pos - 1) b', remBits := c.remBits - nr })
  | _, _ => none

/-- The loop of `write_bits`, `sps_io_bits.cpp:166-189`. -/
def writeLoop : (fuel : Nat) → BitCtx → (value n : Nat) → Option BitCtx
  | _, c, _, 0 => some c
  | 0, _, _, _ + 1 => none
  | fuel + 1, c, value, n + 1 => do
    let c ← c.fetchWrite
    let (n, c) ← c.writePiece value (n + 1)
    writeLoop fuel c value n

/-- `BitContext::write_bits`, `sps_io_bits.cpp:165-190`; `write_int8/16/24/32` (`192-206`) are widths 8/16/24/32.
`value` is `uint64_t`; the model takes any `Nat` because only the low `n ≤ 64` bits matter. -/
def writeBits (c : BitCtx) (value n : Nat) : Option BitCtx := writeLoop n c value n

/-- `BitContext::write_bytes`, `sps_io_bits.cpp:154-158`. -/
def writeBytes (c : BitCtx) (data : List UInt8) : Option BitCtx :=
  if c.remBits = 0 then
    if c.pos + data.length ≤ c.buf.length then
      some { c with
        buf := c.buf.take c.pos ++ data ++ c.buf.drop (c.pos + data.length),
        pos := c.pos + data.length }
    else none
  else none

/-- `BitContext::skip_write_bytes`, `sps_io_bits.cpp:160-163`. -/
def skipWriteBytes (c : BitCtx) (n : Nat) : Option BitCtx :=
  if c.remBits = 0 then some { c with pos := c.pos + n } else none

/-- `BitContext::pos`, `sps_io_bits.cpp:44-49`, as an offset from `buf`. -/
def posOff (c : BitCtx) : Int := if c.remBits > 0 then (c.pos : Int) - 1 else c.pos

end BitCtx
end Sps
