import Verif.Model.Io
/-!
# Model of `AVBuffer`, `BytesReader`, `BytesWriter` (`/repo/src/io/sps_io_bytes.{hpp,cpp}`)

`none` is an access outside the buffer memory, a failed `assert`, or a loop that makes no progress.
-/
namespace Sps

/-- 64-bit `size_t` subtraction. -/
def subSz (a b : Nat) : Nat := (2 ^ 64 + a - b) % 2 ^ 64

/-- `AVBuffer`, `sps_io_bytes.hpp:48-81`. `mem` is the memory `[buf, buf + buf_cap)`; its length is `buf_cap`. -/
structure AVBuf where
  mem : List UInt8
  ptr : Nat
  fin : Nat          -- `buf_end`
  rewindable : Bool
deriving DecidableEq, Repr

namespace AVBuf

/-- `buf_cap` -/
def cap (b : AVBuf) : Nat := b.mem.length
/-- `AVBuffer::size`, `sps_io_bytes.cpp:75-77` (`size_t`, wraps when `buf_ptr > buf_end`). -/
def size (b : AVBuf) : Nat := subSz b.fin b.ptr
/-- `AVBuffer::no_rewind_cap_size`, `sps_io_bytes.cpp:79-81`. -/
def noRewindCap (b : AVBuf) : Nat := subSz b.cap b.ptr
/-- `AVBuffer::cap_size`, `sps_io_bytes.cpp:83-89`. -/
def capSize (b : AVBuf) : Nat := if b.rewindable then b.cap else b.noRewindCap
/-- `AVBuffer::remain`, `sps_io_bytes.cpp:91-93`. -/
def remain (b : AVBuf) : Nat := subSz b.cap b.fin
/-- `AVBuffer::skip`, `sps_io_bytes.cpp:95-97`. -/
def skip (b : AVBuf) (n : Nat) : AVBuf := { b with ptr := b.ptr + n }
/-- `AVBuffer::append`, `sps_io_bytes.cpp:105-107`. -/
def append (b : AVBuf) (n : Nat) : AVBuf := { b with fin := b.fin + n }
/-- `AVBuffer::clear`, `sps_io_bytes.cpp:109-111`. -/
def clear (b : AVBuf) : AVBuf := { b with ptr := 0, fin := 0 }

/-- Copy `d` into memory at offset `off`; `none` when it does not fit. -/
def poke (b : AVBuf) (off : Nat) (d : List UInt8) : Option AVBuf :=
  if off + d.length ≤ b.cap then
    some { b with mem := b.mem.take off ++ d ++ b.mem.drop (off + d.length) }
  else none

/-- `AVBuffer::rewind`, `sps_io_bytes.cpp:99-103`: `memmove(buf, buf+buf_ptr, buf_end-buf_ptr)`. -/
def rewind (b : AVBuf) : Option AVBuf :=
  if b.ptr ≤ b.fin ∧ b.fin ≤ b.cap then
    (b.poke 0 ((b.mem.drop b.ptr).take (b.fin - b.ptr))).map fun b' =>
      { b' with fin := b.fin - b.ptr, ptr := 0 }
  else none

/-- `AVBuffer(cap, rewindable)`, `sps_io_bytes.cpp:32-38`; `mem0` is the (uninitialised) memory. -/
def ofCap (mem0 : List UInt8) (rw : Bool) : AVBuf := { mem := mem0, ptr := 0, fin := 0, rewindable := rw }

/-- `AVBuffer(buf, end, cap, rewindable)`, `sps_io_bytes.cpp:48-55`, with `end = cap = length`. -/
def full (data : List UInt8) : AVBuf := { mem := data, ptr := 0, fin := data.length, rewindable := false }

end AVBuf

/-- `BytesReader`, `sps_io_bytes.hpp:87-120`. `io = none` is the null reader. -/
structure Reader where
  buf : AVBuf
  io : Option Io
deriving DecidableEq, Repr

namespace Reader

/-- `BytesReader::create_reader`, `sps_io_bytes.cpp:113-119`. -/
def create (data : List UInt8) : Reader := { buf := AVBuf.full data, io := none }

/-- A reader over a transport with a fresh rewindable buffer (as the demuxers make it, e.g. `sps_avformat_flvdec.cpp:33-36`). -/
def onIo (mem0 : List UInt8) (io : Io) : Reader := { buf := AVBuf.ofCap mem0 true, io := some io }

/-- `BytesReader::size`, `sps_io_bytes.cpp:133-135`. -/
def size (r : Reader) : Nat := r.buf.size

/-- `BytesReader::read_int8`, `sps_io_bytes.hpp:103-107`. Memory of the buffer beyond `buf_end` may be read (stale
data), memory outside it is `none`. -/
def int8 (r : Reader) : Option (Nat × Reader) :=
  match r.buf.mem[r.buf.ptr]? with
  | some b => some (b.toNat, { r with buf := r.buf.skip 1 })
  | none => none

/-- `BytesReader::read_int16`, `sps_io_bytes.cpp:145-147`. The two calls are unsequenced operands of `|` in C++;
the model evaluates left to right. -/
def int16 (r : Reader) : Option (Nat × Reader) := do
  let (a, r) ← r.int8
  let (b, r) ← r.int8
  return (((a <<< 8) ||| b) % 2 ^ 16, r)

/-- `BytesReader::read_int24`, `sps_io_bytes.cpp:149-151`. -/
def int24 (r : Reader) : Option (Nat × Reader) := do
  let (a, r) ← r.int8
  let (b, r) ← r.int16
  return ((a <<< 16) ||| b, r)

/-- `BytesReader::read_int32`, `sps_io_bytes.cpp:153-155`. -/
def int32 (r : Reader) : Option (Nat × Reader) := do
  let (a, r) ← r.int16
  let (b, r) ← r.int16
  return (((a <<< 16) ||| b) % 2 ^ 32, r)

/-- `BytesReader::read_bytes`, `sps_io_bytes.cpp:128-131`. -/
def bytes (r : Reader) (n : Nat) : Option (List UInt8 × Reader) :=
  if r.buf.ptr + n ≤ r.buf.cap then
    some ((r.buf.mem.drop r.buf.ptr).take n, { r with buf := r.buf.skip n })
  else none

/-- `BytesReader::skip_bytes`, `sps_io_bytes.cpp:141-143`. -/
def skipBytes (r : Reader) (n : Nat) : Reader := { r with buf := r.buf.skip n }

/-- `BytesReader::read_reverse_bytes`, `sps_io_bytes.cpp:157-162`: byte `i` goes to address `c - i`; the result is
the written memory in ascending address order. -/
def reverseBytes (r : Reader) (n : Nat) : Option (List UInt8 × Reader) :=
  (r.bytes n).map fun (d, r) => (d.reverse, r)

/-- The loop of `acquire`, `sps_io_bytes.cpp:183-196`. Every pass adds at least one byte. -/
def acquireLoop : (fuel : Nat) → Reader → (n : Nat) → Option (Err × Reader)
  | 0, _, _ => none
  | fuel + 1, r, n =>
    match r.io with
    | none => some (Err.ERROR_IO_EOF, r)
    | some io =>
      match io.read r.buf.remain with
      | (.err e, io) => some (e, { r with io := some io })
      | (.ok d, io) =>
        match r.buf.poke r.buf.fin d with
        | none => none
        | some b =>
          let r := { buf := b.append d.length, io := some io : Reader }
          if r.buf.size < n then acquireLoop fuel r n else some (Err.SUCCESS, r)

/-- `BytesReader::acquire(uint32_t n)`, `sps_io_bytes.cpp:164-200`. -/
def acquire (r : Reader) (n : Nat) : Option (Err × Reader) :=
  if r.buf.size ≥ n then some (Err.SUCCESS, r)
  else if r.buf.capSize < n then some (Err.ERROR_IO_BUFFER_FULL, r)
  else
    let b? := if r.buf.noRewindCap < n then r.buf.rewind else some r.buf
    match b? with
    | none => none
    | some b => if b.noRewindCap ≥ n then acquireLoop n { r with buf := b } n else none

end Reader

/-- `BytesWriter`, `sps_io_bytes.hpp:124-146`, is its buffer. -/
abbrev Writer := AVBuf

namespace Writer

/-- `BytesWriter::create_writer`, `sps_io_bytes.cpp:202-204`. -/
def create (mem0 : List UInt8) : Writer := AVBuf.ofCap mem0 false

/-- `BytesWriter::acquire`, `sps_io_bytes.cpp:209-211`. -/
def acquire (w : Writer) (n : Nat) : Err :=
  if w.remain ≥ n then Err.SUCCESS else Err.ERROR_IO_BUFFER_FULL

/-- `BytesWriter::write_int8(uint8_t)`, `sps_io_bytes.hpp:133-136`; the argument is truncated to 8 bits. -/
def int8 (w : Writer) (v : Nat) : Option Writer :=
  (w.poke w.fin [UInt8.ofNat v]).map (·.append 1)

/-- `BytesWriter::write_int16(uint16_t)`, `sps_io_bytes.cpp:213-216`. -/
def int16 (w : Writer) (v : Nat) : Option Writer := do
  let v := v % 2 ^ 16
  let w ← w.int8 (v >>> 8)
  w.int8 (v &&& 0xff)

/-- `BytesWriter::write_int24(uint32_t)`, `sps_io_bytes.cpp:218-221`. -/
def int24 (w : Writer) (v : Nat) : Option Writer := do
  let v := v % 2 ^ 32
  let w ← w.int8 (v >>> 16)
  w.int16 (v &&& 0xffff)

/-- `BytesWriter::write_int32(uint32_t)`, `sps_io_bytes.cpp:223-226`. -/
def int32 (w : Writer) (v : Nat) : Option Writer := do
  let v := v % 2 ^ 32
  let w ← w.int8 (v >>> 24)
  w.int24 (v &&& 0xffffff)

/-- `BytesWriter::write_bytes`, `sps_io_bytes.cpp:228-231`. -/
def bytes (w : Writer) (d : List UInt8) : Option Writer := (w.poke w.fin d).map (·.append d.length)

/-- `BytesWriter::skip`, `sps_io_bytes.cpp:233-235`. -/
def skip (w : Writer) (n : Nat) : Writer := w.append n

end Writer
end Sps
