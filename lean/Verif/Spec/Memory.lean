import Verif.Model.Memory
/-! # Specification of the in-memory reader: a byte string consumed from the front -/
namespace Spec
open Sps

/-- The calls a client makes. -/
inductive MemOp
  | read (n : Nat)
  | readFully (n : Nat)
deriving DecidableEq, Repr

/-- The requested size. -/
def MemOp.n : MemOp → Nat
  | .read n => n
  | .readFully n => n

/-- Run a program on the model. -/
def memRun : MemIo → List MemOp → Option (List ReadRes × MemIo)
  | m, [] => some ([], m)
  | m, op :: ops => do
    let (o, m) ← (match op with | .read n => m.read n | .readFully n => m.readFully n)
    let (os, m) ← memRun m ops
    pure (o :: os, m)

/-- What each call must return, in terms of the bytes not delivered yet. -/
def memSpec : List UInt8 → List MemOp → List ReadRes
  | _, [] => []
  | rest, .read n :: ops =>
    if n = 0 then .err Err.ERROR_IO_BUFFER_FULL :: memSpec rest ops
    else if rest = [] then .err Err.ERROR_IO_EOF :: memSpec rest ops
    else .ok (rest.take n) :: memSpec (rest.drop n) ops
  | rest, .readFully n :: ops =>
    if n = 0 ∨ rest.length < n then .err Err.ERROR_IO_EOF :: memSpec rest ops
    else .ok (rest.take n) :: memSpec (rest.drop n) ops

/-- The bytes a list of results delivered. -/
def delivered : List ReadRes → List UInt8
  | [] => []
  | .ok d :: os => d ++ delivered os
  | .err _ :: os => delivered os

/-- The lines of a text: split at newlines; a final newline does not start another line. -/
def lines : List UInt8 → List (List UInt8)
  | [] => []
  | b :: bs => if b = 10 then [] :: lines bs else
    match lines bs with
    | [] => [[b]]
    | l :: ls => (b :: l) :: ls

/-- Call `read_line` `n` times. -/
def memLines : MemIo → Nat → Option (List ReadRes)
  | _, 0 => some []
  | m, n + 1 => m.readLine.bind fun x => (memLines x.2 n).map (x.1 :: ·)

/-- Call `read_line` `n` times on a file. -/
def fileLines : FileIo → Nat → List ReadRes
  | _, 0 => []
  | f, n + 1 => f.readLine.1 :: fileLines f.readLine.2 n

/-- The results of `n` calls when the lines are `ls`: the lines, then end of file for ever. -/
def lineResults (ls : List (List UInt8)) (n : Nat) : List ReadRes :=
  (ls.map ReadRes.ok ++ List.replicate n (ReadRes.err Err.ERROR_IO_EOF)).take n

end Spec
