import Verif.Model.RtmpTake
import Verif.Spec.RtmpChunk
/-!
# What a client sends

RTMP 1.0, 5.3: a message is cut into chunks of the size last announced by its sender (128 before that), the last one not longer. Chunks of messages on different channels may be mixed.
-/
namespace Spec.RtmpChunk
open Sps Sps.RtmpChunk

/-- A message that is being sent: its type, what of it was sent and what was not. -/
structure Half where
  type : Nat
  sent : List UInt8
  rest : List UInt8

/-- The messages that are being sent, by channel. -/
abbrev Halves := Nat → Option Half

/-- The message on a channel changes. -/
def Halves.set (hs : Halves) (c : Nat) (x : Option Half) : Halves := fun d => if d = c then x else hs d

/-- What a client sends whose chunks have `size` bytes now, with messages that are being sent: the messages completed, in order, and the size of its chunks afterwards. Chunk by chunk, on any channel: one that
begins a message and is not all of it, a whole message, one in the middle of a message, the last one. -/
inductive Wire : Nat → Halves → List RtmpRecv → List Sym → Nat → Prop
  | nil (size : Nat) (hs : Halves) : Wire size hs [] [] size
  | first {size : Nat} {hs : Halves} {ms : List RtmpRecv} {w : List Sym} {k : Nat} (c type stream : Nat) (a b : List UInt8) : hs c = none → a.length = size → b ≠ [] →
      Wire size (hs.set c (some ⟨type, a, b⟩)) ms w k → Wire size hs ms (.head c type stream (a ++ b).length :: a.map Sym.byte ++ w) k
  | whole {size : Nat} {hs : Halves} {ms : List RtmpRecv} {w : List Sym} {k : Nat} (c stream : Nat) (m : RtmpRecv) : hs c = none → m.body.length ≤ size →
      Wire ((announced m.type m.body).getD size) hs ms w k → Wire size hs (m :: ms) (.head c m.type stream m.body.length :: m.body.map Sym.byte ++ w) k
  | next {size : Nat} {hs : Halves} {ms : List RtmpRecv} {w : List Sym} {k : Nat} (c type : Nat) (sent a b : List UInt8) : hs c = some ⟨type, sent, a ++ b⟩ → a.length = size → b ≠ [] →
      Wire size (hs.set c (some ⟨type, sent ++ a, b⟩)) ms w k → Wire size hs ms (.more c :: a.map Sym.byte ++ w) k
  | last {size : Nat} {hs : Halves} {ms : List RtmpRecv} {w : List Sym} {k : Nat} (c : Nat) (m : RtmpRecv) (sent b : List UInt8) : hs c = some ⟨m.type, sent, b⟩ → b.length ≤ size → m.body = sent ++ b →
      Wire ((announced m.type m.body).getD size) (hs.set c none) ms w k → Wire size hs (m :: ms) (.more c :: b.map Sym.byte ++ w) k

/-- Nothing is being sent. -/
def idle : Halves := fun _ => none

/-- Announcements are of sizes between 1 and 2^31 - 1. -/
def Announces (m : RtmpRecv) : Prop := ∀ n, announced m.type m.body = some n → 0 < n ∧ n < 2 ^ 31

end Spec.RtmpChunk
