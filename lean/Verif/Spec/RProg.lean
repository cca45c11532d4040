import Verif.Model.RProg
import Verif.Spec.Io
/-!
# What a program over a `BytesReader` does, as a function of the byte stream

`onStream` runs a program on a plain byte string. It knows how many bytes the program has acquired and not used yet;
reading more than that is `none`: the program then depends on how much the transport happened to deliver, or reads
stale or foreign memory.
-/
namespace Spec
open Sps

variable {α : Type}

/-- Run on a byte string `s` with a buffer of `cap` bytes, `avail` of them acquired. -/
def onStream (cap : Nat) (closed : Err) : RProg α → (avail : Nat) → (s : List UInt8) → Option (α × Nat × List UInt8)
  | .ret a, avail, s => some (a, avail, s)
  | .acquire n k, avail, s =>
    if cap < n then onStream cap closed (k Err.ERROR_IO_BUFFER_FULL) avail s
    else if s.length < n then onStream cap closed (k closed) avail s
    else onStream cap closed (k Err.SUCCESS) (max avail n) s
  | .int8 k, avail, s =>
    match avail, s with
    | a + 1, b :: s => onStream cap closed (k b.toNat) a s
    | _, _ => none
  | .bytes n k, avail, s =>
    if n ≤ avail ∧ n ≤ s.length then onStream cap closed (k (s.take n)) (avail - n) (s.drop n) else none
  | .skip n k, avail, s => if n ≤ avail ∧ n ≤ s.length then onStream cap closed k (avail - n) (s.drop n) else none
  | .size _, _, _ => none

end Spec
