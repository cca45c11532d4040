import Verif.Model.Bits
/-!
# Bytes written and bytes left out, one after the other (C03)
-/
namespace Sps.Spec.BitSkip

/-- The calls: `write_bytes(d)`, and `skip_write_bytes(n)`. -/
inductive Op
  | bytes (d : List UInt8)
  | skip (n : Nat)
deriving DecidableEq, Repr

/-- How many bytes a call covers. -/
def Op.size : Op → Nat
  | .bytes d => d.length
  | .skip n => n

/-- The calls, on the model. -/
def perform (c : BitCtx) : List Op → Option BitCtx
  | [] => some c
  | .bytes d :: os => (c.writeBytes d).bind fun c => perform c os
  | .skip n :: os => (c.skipWriteBytes n).bind fun c => perform c os

/-- What the memory must be afterwards: the bytes written, the old bytes where bytes were left out and after the last call. -/
def result : List UInt8 → List Op → List UInt8
  | mem, [] => mem
  | mem, .bytes d :: os => d ++ result (mem.drop d.length) os
  | mem, .skip n :: os => mem.take n ++ result (mem.drop n) os

end Sps.Spec.BitSkip
