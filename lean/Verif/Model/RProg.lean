import Verif.Model.Bytes
/-!
# Code that uses a `BytesReader`

The functions of `BytesReader` are modelled in `Verif/Model/Bytes.lean`. Code that calls them (demuxers, parsers) is
written as a program over the calls, so that the same code can be run on the modelled reader (`RProg.run`).
-/
namespace Sps

/-- A program that calls a `BytesReader`. -/
inductive RProg (α : Type) : Type
  | ret (a : α)
  | acquire (n : Nat) (k : Err → RProg α)              -- `rd->acquire(n)`
  | int8 (k : Nat → RProg α)                           -- `rd->read_int8()`
  | bytes (n : Nat) (k : List UInt8 → RProg α)         -- copy `n` bytes at `buf->pos()`, then skip them
  | skip (n : Nat) (k : RProg α)                       -- `rd->skip_bytes(n)`
  | size (k : Nat → RProg α)                           -- `rd->size()`

namespace RProg
variable {α β : Type}

/-- Sequencing. -/
def bind : RProg α → (α → RProg β) → RProg β
  | ret a, f => f a
  | acquire n k, f => acquire n fun e => (k e).bind f
  | int8 k, f => int8 fun v => (k v).bind f
  | bytes n k, f => bytes n fun d => (k d).bind f
  | skip n k, f => skip n (k.bind f)
  | size k, f => size fun n => (k n).bind f

instance : Monad RProg where
  pure := ret
  bind := bind

/-- `acquire` as a step. -/
def acq (n : Nat) : RProg Err := acquire n ret
/-- `BytesReader::read_int8`, `sps_io_bytes.hpp:103-107`. -/
def rd8 : RProg Nat := int8 ret
/-- `BytesReader::read_int16`, `sps_io_bytes.cpp:145-147`. -/
def rd16 : RProg Nat := do
  let a ← rd8
  let b ← rd8
  return ((a <<< 8) ||| b) % 2 ^ 16
/-- `BytesReader::read_int24`, `sps_io_bytes.cpp:149-151`. -/
def rd24 : RProg Nat := do
  let a ← rd8
  let b ← rd16
  return (a <<< 16) ||| b
/-- `BytesReader::read_int32`, `sps_io_bytes.cpp:153-155`. -/
def rd32 : RProg Nat := do
  let a ← rd16
  let b ← rd16
  return ((a <<< 16) ||| b) % 2 ^ 32
/-- Copy and skip. -/
def rdBytes (n : Nat) : RProg (List UInt8) := bytes n ret
/-- Skip. -/
def skp (n : Nat) : RProg Unit := skip n (ret ())
/-- Buffered bytes. -/
def rdSize : RProg Nat := size ret

/-- Run on the modelled reader; `none` is an access outside the buffer memory. -/
def run : RProg α → Reader → Option (α × Reader)
  | ret a, r => some (a, r)
  | acquire n k, r => (r.acquire n).bind fun (e, r) => (k e).run r
  | int8 k, r => r.int8.bind fun (v, r) => (k v).run r
  | bytes n k, r => (r.bytes n).bind fun (d, r) => (k d).run r
  | skip n k, r => k.run (r.skipBytes n)
  | size k, r => (k r.size).run r

end RProg
end Sps
