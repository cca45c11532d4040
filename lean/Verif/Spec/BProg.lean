import Verif.Model.BProg
import Verif.Spec.Bits
/-!
# What a program over a `BitContext` does on a string of bits

`onBits p off s` runs `p` with `off` bits behind it and the bits `s` in front of it. Reading more than is left is `none`.
-/
namespace Spec
open Sps

variable {α : Type}

/-- The bytes a string of bits spells. -/
def toBytes (n : Nat) (s : List Bool) : List UInt8 := (takeVals s (List.replicate n 8)).map UInt8.ofNat

/-- Run on a string of bits. -/
def onBits : BProg α → (off : Nat) → (s : List Bool) → Option (α × Nat × List Bool)
  | .ret a, off, s => some (a, off, s)
  | .acquire n k, off, s =>
    if (n * 8) % 2 ^ 32 ≤ s.length then onBits (k Err.SUCCESS) off s else onBits (k Err.ERROR_IO_NOT_ENOUGH) off s
  | .bits n k, off, s => if n ≤ s.length then onBits (k (bitsVal (s.take n) % 2 ^ 32)) (off + n) (s.drop n) else none
  | .bytes n k, off, s =>
    if off % 8 = 0 ∧ 8 * n ≤ s.length then onBits (k (toBytes n s)) (off + 8 * n) (s.drop (8 * n)) else none
  | .skip n k, off, s => if 8 * n ≤ s.length then onBits k (off + 8 * n) (s.drop (8 * n)) else none
  | .size k, off, s => onBits (k (s.length / 8)) off s
  | .pos k, off, s => onBits (k (off / 8 : Nat)) off s

/-- The field of `w` bits at bit offset `off` of a byte string, as a number. -/
def field (p : List UInt8) (off w : Nat) : Nat := bitsVal (((bitsOf p).drop off).take w)

end Spec
