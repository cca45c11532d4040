import Verif.Model.RProg
/-!
# What a program over a `BytesReader` does on a block of memory

`onMem` runs a program on a plain byte string, as on a reader that holds a complete message and has no transport behind it.
Reading more than is left is `none`. `acquire` past the end fails with `ERROR_IO_BUFFER_FULL`.
-/
namespace Spec
open Sps

variable {α : Type}

/-- Run on a byte string. -/
def onMem : RProg α → (s : List UInt8) → Option (α × List UInt8)
  | .ret a, s => some (a, s)
  | .acquire n k, s => if s.length < n then onMem (k Err.ERROR_IO_BUFFER_FULL) s else onMem (k Err.SUCCESS) s
  | .int8 k, s =>
    match s with
    | b :: s => onMem (k b.toNat) s
    | [] => none
  | .bytes n k, s => if n ≤ s.length then onMem (k (s.take n)) (s.drop n) else none
  | .skip n k, s => if n ≤ s.length then onMem k (s.drop n) else none
  | .size k, s => onMem (k s.length) s

end Spec
