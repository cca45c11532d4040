import Verif.Model.Bytes
import Verif.Spec.Bits
import Verif.Spec.Io
/-!
# Client programs of `BytesReader` and `BytesWriter`, and what they must return

`BytesReader`'s contract is "call acquire then call following functions" (`sps_io_bytes.hpp:100`); a client
call here is an `acquire(n)` followed, on success, by the read it covers. (`acquire` of what is already buffered
does nothing, so "acquire 15, then read_int32, read_int8, ..." is the program `[ensure 15, int 4, int 1, ...]`.)
-/
namespace Sps.ByteProg
open Spec

/-- Client calls of the reader. -/
inductive Op
  | ensure (n : Nat)          -- acquire(n)
  | take (n : Nat)            -- acquire(n), read_bytes(_, n)
  | skip (n : Nat)            -- acquire(n), skip_bytes(n)
  | int8 | int16 | int24 | int32   -- acquire(1/2/3/4), read_intX()
deriving DecidableEq, Repr

/-- How many bytes the call needs. -/
def Op.need : Op → Nat
  | .ensure n | .take n | .skip n => n
  | .int8 => 1 | .int16 => 2 | .int24 => 3 | .int32 => 4

/-- What the client sees. -/
inductive Out
  | err (e : Err)
  | done
  | data (d : List UInt8)
  | num (v : Nat)
deriving DecidableEq, Repr

/-- The read after a successful `acquire`. -/
def readOp (r : Reader) : Op → Option (Out × Reader)
  | .ensure _ => some (.done, r)
  | .take n => (r.bytes n).map fun (d, r) => (.data d, r)
  | .skip n => some (.done, r.skipBytes n)
  | .int8 => r.int8.map fun (v, r) => (.num v, r)
  | .int16 => r.int16.map fun (v, r) => (.num v, r)
  | .int24 => r.int24.map fun (v, r) => (.num v, r)
  | .int32 => r.int32.map fun (v, r) => (.num v, r)

/-- One client call. -/
def step (r : Reader) (op : Op) : Option (Out × Reader) := do
  let (e, r) ← r.acquire op.need
  if e = Err.SUCCESS then readOp r op else some (.err e, r)

/-- A client program. -/
def run (r : Reader) : List Op → Option (List Out × Reader)
  | [] => some ([], r)
  | op :: ops => do
    let (o, r) ← step r op
    let (os, r) ← run r ops
    return (o :: os, r)

/-! ### What must come out -/

/-- Bytes a successful call takes off the stream. -/
def Op.consumes : Op → Nat
  | .ensure _ => 0
  | op => op.need

/-- The result of a successful call whose bytes are `d`. -/
def specOut (d : List UInt8) : Op → Out
  | .ensure _ | .skip _ => .done
  | .take _ => .data d
  | _ => .num (beVal d)

/-- The program on a plain byte string, for a buffer of `cap` bytes: independent of fragmentation. -/
def specRun (cap : Nat) (closed : Err) : List UInt8 → List Op → List Out
  | _, [] => []
  | s, op :: ops =>
    if cap < op.need then .err Err.ERROR_IO_BUFFER_FULL :: specRun cap closed s ops
    else if s.length < op.need then .err closed :: specRun cap closed s ops
    else specOut (s.take op.consumes) op :: specRun cap closed (s.drop op.consumes) ops

/-- `outs` is an honest account of `stream`: every successful call got the next bytes of the stream, a failed call
took nothing, and `rest` is what is left. -/
def Explains : (stream : List UInt8) → List Op → List Out → (rest : List UInt8) → Prop
  | s, [], [], rest => rest = s
  | s, op :: ops, o :: outs, rest =>
    (∃ e, o = .err e ∧ e ≠ Err.SUCCESS ∧ Explains s ops outs rest) ∨
    (∃ d s', s = d ++ s' ∧ d.length = op.consumes ∧ o = specOut d op ∧ Explains s' ops outs rest)
  | _, _, _, _ => False

/-! ### Writers -/

/-- Client calls of the writer. -/
inductive WOp
  | int8 (v : Nat) | int16 (v : Nat) | int24 (v : Nat) | int32 (v : Nat)
  | bytes (d : List UInt8)
deriving DecidableEq, Repr

def wstep (w : Writer) : WOp → Option Writer
  | .int8 v => w.int8 v
  | .int16 v => w.int16 v
  | .int24 v => w.int24 v
  | .int32 v => w.int32 v
  | .bytes d => w.bytes d

def wrun (w : Writer) : List WOp → Option Writer
  | [] => some w
  | op :: ops => do
    let w ← wstep w op
    wrun w ops

/-- The bytes a write must produce: network byte order. -/
def WOp.image : WOp → List UInt8
  | .int8 v => beBytes 1 v
  | .int16 v => beBytes 2 v
  | .int24 v => beBytes 3 v
  | .int32 v => beBytes 4 v
  | .bytes d => d

def images (ops : List WOp) : List UInt8 := ops.flatMap WOp.image

/-- The read that matches a write. -/
def WOp.readBack : WOp → Op
  | .int8 _ => .int8 | .int16 _ => .int16 | .int24 _ => .int24 | .int32 _ => .int32
  | .bytes d => .take d.length

/-- What it must return: the value truncated to the width, or the bytes. -/
def WOp.value : WOp → Out
  | .int8 v => .num (v % 2 ^ 8) | .int16 v => .num (v % 2 ^ 16)
  | .int24 v => .num (v % 2 ^ 24) | .int32 v => .num (v % 2 ^ 32)
  | .bytes d => .data d

end Sps.ByteProg
