import Verif.Model.Bits
import Verif.Spec.Bits
/-!
# Client programs of the bit reader and writer, and what they must return

A client program is a list of calls; `run` performs them on the model and collects what the client sees.
`none` means that some call touched memory outside the buffer (or failed an `assert`).
-/
namespace Sps.BitProps
open Spec

/-- The reading calls of the API: `read_bits(n)`, `skip_read_bytes(n)`, `read_bytes(_, n)`. -/
inductive ReadOp
  | bits (n : Nat)
  | skip (n : Nat)
  | bytes (n : Nat)
deriving DecidableEq, Repr

/-- Perform one call; the client sees a list of numbers (one for `bits`, the bytes for `bytes`). -/
def step (c : BitCtx) : ReadOp → Option (List Nat × BitCtx)
  | .bits n => (c.readBits n).map fun (v, c) => ([v], c)
  | .skip n => (c.skipReadBytes n).map fun c => ([], c)
  | .bytes n => (c.readBytes n).map fun (d, c) => (d.map (·.toNat), c)

/-- Perform a list of calls. -/
def run (c : BitCtx) : List ReadOp → Option (List Nat × BitCtx)
  | [] => some ([], c)
  | op :: ops => do
    let (o, c) ← step c op
    let (os, c) ← run c ops
    return (o ++ os, c)

/-- How many bits a call consumes. -/
def ReadOp.width : ReadOp → Nat
  | .bits n => n
  | .skip n => 8 * n
  | .bytes n => 8 * n

def totalWidth (ops : List ReadOp) : Nat := (ops.map ReadOp.width).sum

/-- What the calls must return on a bit string (specification). -/
def specRun : List Bool → List ReadOp → List Nat
  | _, [] => []
  | bs, .bits n :: ops => bitsVal (bs.take n) :: specRun (bs.drop n) ops
  | bs, .skip n :: ops => specRun (bs.drop (8 * n)) ops
  | bs, .bytes n :: ops => takeVals bs (List.replicate n 8) ++ specRun (bs.drop (8 * n)) ops

/-- Well-formed client programs: widths of at most 32 bits, `read_bytes` only at a byte boundary (the code
asserts this). -/
def okOps (off : Nat) : List ReadOp → Bool
  | [] => true
  | .bits n :: ops => decide (n ≤ 32) && okOps (off + n) ops
  | .skip n :: ops => okOps (off + 8 * n) ops
  | .bytes n :: ops => (off % 8 == 0) && okOps (off + 8 * n) ops

/-- Perform a list of `write_bits(value, width)` calls. -/
def writeAll (c : BitCtx) : List (Nat × Nat) → Option BitCtx
  | [] => some c
  | (v, w) :: fs => do
    let c ← c.writeBits v w
    writeAll c fs

end Sps.BitProps
