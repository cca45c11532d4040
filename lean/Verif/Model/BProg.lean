import Verif.Model.Bits
/-!
# Code that uses a `BitContext`

The functions of `BitContext` are modelled in `Verif/Model/Bits.lean`. Code that calls them (the transport stream and RTP
parsers) is written as a program over the calls and run on the modelled context (`BProg.run`).
-/
namespace Sps

/-- A program that calls a `BitContext`. -/
inductive BProg (α : Type) : Type
  | ret (a : α)
  | acquire (n : Nat) (k : Err → BProg α)              -- `rd.acquire(n)`
  | bits (n : Nat) (k : Nat → BProg α)                 -- `rd.read_bits(n)`, `rd.read_int8()`, ...
  | bytes (n : Nat) (k : List UInt8 → BProg α)         -- `rd.read_bytes(c, n)`, or copy `n` bytes at `rd.pos()` and skip them
  | skip (n : Nat) (k : BProg α)                       -- `rd.skip_read_bytes(n)`
  | size (k : Nat → BProg α)                           -- `rd.size()`
  | pos (k : Int → BProg α)                            -- `rd.pos()`, as an offset

namespace BProg
variable {α β : Type}

/-- Sequencing. -/
def bind : BProg α → (α → BProg β) → BProg β
  | ret a, f => f a
  | acquire n k, f => acquire n fun e => (k e).bind f
  | bits n k, f => bits n fun v => (k v).bind f
  | bytes n k, f => bytes n fun d => (k d).bind f
  | skip n k, f => skip n (k.bind f)
  | size k, f => size fun n => (k n).bind f
  | pos k, f => pos fun n => (k n).bind f

instance : Monad BProg where
  pure := ret
  bind := bind

/-- `acquire` as a step. -/
def acq (n : Nat) : BProg Err := acquire n ret
/-- `read_bits` as a step. -/
def rd (n : Nat) : BProg Nat := bits n ret
/-- `skip_read_bytes` as a step. -/
def skp (n : Nat) : BProg Unit := skip n (ret ())
/-- Copy and skip. -/
def rdBytes (n : Nat) : BProg (List UInt8) := bytes n ret
/-- `size` as a step. -/
def rdSize : BProg Nat := size ret
/-- `pos` as a step. -/
def rdPos : BProg Int := pos ret

/-- Run on the modelled context; `none` is an access outside the buffer memory or a failed `assert`. A skip to a position
outside the buffer is `none` as well: the code only looks at the memory there with the next call. -/
def run : BProg α → BitCtx → Option (α × BitCtx)
  | ret a, c => some (a, c)
  | acquire n k, c => (k (c.acquire n)).run c
  | bits n k, c => (c.readBits n).bind fun (v, c) => (k v).run c
  | bytes n k, c => (c.readBytes n).bind fun (d, c) => (k d).run c
  | skip n k, c =>
    if c.pos + n ≤ c.buf.length then (c.skipReadBytes n).bind fun c => k.run c else none
  | size k, c => (k c.size).run c
  | pos k, c => (k c.posOff).run c

end BProg
end Sps
