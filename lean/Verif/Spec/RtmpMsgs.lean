import Verif.Spec.Rtmp
import Verif.Spec.Bits
import Verif.Model.RtmpMsgs
/-!
# What RTMP messages say

A reader for AMF0 (objects of plain values), the control messages of RTMP, and the answers a server owes to the commands of a client.
-/
namespace Spec.RtmpMsgs
open Sps

/-- A plain value; a number as the bits of its double. -/
inductive Atom
  | num (bits : Nat)
  | bool (b : Bool)
  | str (s : Text)
  | null
deriving DecidableEq, Repr

inductive Val
  | atom (a : Atom)
  | obj (fields : List (Text × Atom))
deriving DecidableEq, Repr

/-- A string with its length, two bytes, before it. -/
def short : List UInt8 → Option (Text × List UInt8)
  | a :: b :: l => if beVal [a, b] ≤ l.length then some (l.take (beVal [a, b]), l.drop (beVal [a, b])) else none
  | _ => none

def atom : List UInt8 → Option (Atom × List UInt8)
  | 0 :: l => if 8 ≤ l.length then some (.num (beVal (l.take 8)), l.drop 8) else none
  | 1 :: b :: l => some (.bool (b ≠ 0), l)
  | 2 :: l => (short l).map fun x => (.str x.1, x.2)
  | 5 :: l => some (.null, l)
  | _ => none

/-- The fields of an object: name and value, up to an empty name and the byte 9. -/
def fields : (fuel : Nat) → List UInt8 → Option (List (Text × Atom) × List UInt8)
  | 0, _ => none
  | _ + 1, 0 :: 0 :: 9 :: l => some ([], l)
  | n + 1, l => do
    let (k, l) ← short l
    let (v, l) ← atom l
    let (fs, l) ← fields n l
    return ((k, v) :: fs, l)

def value : List UInt8 → Option (Val × List UInt8)
  | 3 :: l => (fields (l.length + 1) l).map fun x => (.obj x.1, x.2)
  | l => (atom l).map fun x => (.atom x.1, x.2)

/-- Values up to the end. -/
def values : (fuel : Nat) → List UInt8 → Option (List Val)
  | _, [] => some []
  | 0, _ => none
  | n + 1, l => do
    let (v, l) ← value l
    return v :: (← values n l)

/-- What a message says. -/
inductive Says
  | chunkSize (n : Nat)
  | window (n : Nat)
  | bandwidth (n limit : Nat)
  | begin (stream : Nat)
  | pong (time : Nat)
  | command (vs : List Val)
  | data (vs : List Val)
deriving DecidableEq, Repr

/-- The meaning of a message by its type (RTMP 1.0, sections 5.4 and 7). -/
def meaning (m : RtmpOut) : Option Says :=
  match m.type, m.body with
  | 1, [a, b, c, d] => some (.chunkSize (beVal [a, b, c, d]))
  | 4, [0, 0, a, b, c, d] => some (.begin (beVal [a, b, c, d]))
  | 4, [0, 7, a, b, c, d] => some (.pong (beVal [a, b, c, d]))
  | 5, [a, b, c, d] => some (.window (beVal [a, b, c, d]))
  | 6, [a, b, c, d, l] => some (.bandwidth (beVal [a, b, c, d]) l.toNat)
  | 18, l => (values l.length l).map .data
  | 20, l => (values l.length l).map .command
  | _, _ => none

/-- A double that is this integer: its sign, exponent and fraction. -/
inductive Holds : (bits : Nat) → Int → Prop
  | zero : Holds 0 0
  | pos {e f n : Nat} : f < 2 ^ 52 → (2 ^ 52 + f) * 2 ^ e = n * 2 ^ 1075 → Holds (e * 2 ^ 52 + f) n
  | neg {e f n : Nat} : f < 2 ^ 52 → (2 ^ 52 + f) * 2 ^ e = n * 2 ^ 1075 → Holds (2 ^ 63 + e * 2 ^ 52 + f) (-n)

/-- The numbers 0, 1 and 31. -/
def zero : Val := .atom (.num 0)
def one : Val := .atom (.num 0x3ff0000000000000)
def thirtyOne : Atom := .num 0x403f000000000000

def str (s : String) : Val := .atom (.str (ascii s))
def field (k v : String) : Text × Atom := (ascii k, .str (ascii v))

/-- `_result` for the command with this transaction number. -/
def result (txn : Nat) (vs : List Val) : Says := .command (str "_result" :: .atom (.num txn) :: vs)
/-- `onStatus`. -/
def status (txn : Val) (code description : String) : Says :=
  .command [str "onStatus", txn, .atom .null, .obj [field "level" "status", field "code" code, field "description" description]]

/-- What a server owes to a command. It announces window and bandwidth `w` and `b`. The number of the stream is always 1. -/
def owed (w b : Nat) : RtmpCmd → List Says
  | .connect t _ _ => [.window w, .bandwidth b 2, .chunkSize 128,
      result t [.obj [field "fmsVer" "FMS/3,5,1,525", (ascii "capabilities", thirtyOne)], .obj [field "level" "status", field "code" "NetConnection.Connect.Success"]]]
  | .createStream t => [result t [.atom .null, one]]
  | .releaseStream t _ => [result t [.atom .null, zero]]
  | .fcPublish t _ => [result t [.atom .null, zero]]
  | .play _ _ => [status zero "NetStream.Play.Start" "Start live", .data [str "|RtmpSampleAccess", .atom (.bool true), .atom (.bool true)], .begin 1]
  | .publish t _ _ => [status (.atom (.num t)) "NetStream.Publish.Start" "Start publishing", .begin 1]

/-- What is owed to a message: to the command in it, if any. -/
def owedTo (w b : Nat) (m : AmfMsg) : List Says :=
  match Rtmp.decoded m with
  | some (_, some c) => owed w b c
  | _ => []

end Spec.RtmpMsgs
