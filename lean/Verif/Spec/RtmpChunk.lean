import Verif.Model.RtmpChunk
/-!
# A reader of RTMP chunks

RTMP 1.0, 5.3 and 5.4.1: a message comes in chunks of the size last announced (128 before that), the last one shorter.
-/
namespace Spec.RtmpChunk
open Sps Sps.RtmpChunk

/-- Takes `n` bytes. -/
def bytes : Nat → List Sym → Option (List UInt8 × List Sym)
  | 0, w => some ([], w)
  | n + 1, .byte b :: w => (bytes n w).map fun (bs, w) => (b :: bs, w)
  | _, _ => none

/-- The chunks of a message of `left` bytes, of `size` bytes each: after each but the last the header of a further chunk of the same channel. -/
def body (channel size : Nat) : (fuel : Nat) → (left : Nat) → List Sym → Option (List UInt8 × List Sym)
  | 0, _, _ => none
  | fuel + 1, left, w =>
    if left ≤ size then bytes left w
    else match bytes size w with
      | some (bs, .more c :: w) => if c = channel then (body channel size fuel (left - size) w).map fun (bs', w) => (bs ++ bs', w) else none
      | _ => none

/-- The chunk size a message announces: one of type 1, with a number of 32 bits whose first bit is 0. -/
def announced (type : Nat) (b : List UInt8) : Option Nat :=
  if type = 1 then match b with
    | a :: b :: c :: d :: _ => some (a.toNat * 2 ^ 24 + b.toNat * 2 ^ 16 + c.toNat * 2 ^ 8 + d.toNat)
    | _ => none
  else none

/-- All messages. -/
def reads (size : Nat) : (fuel : Nat) → List Sym → Option (List RtmpOut)
  | _, [] => some []
  | fuel + 1, .head channel type stream len :: w =>
    match body channel size (len + 1) len w with
    | some (b, w) => (reads ((announced type b).getD size) fuel w).map fun ms => ⟨channel, type, stream, b⟩ :: ms
    | none => none
  | _, _ => none

/-- A message that may be sent: announcements are of sizes between 1 and 2^31 - 1 and go through `RtmpHook`, bandwidths have the four bytes that are looked at. -/
def Proper : Sending → Prop
  | .hook m => (∀ n, announced m.type m.body = some n → 0 < n ∧ n < 2 ^ 31) ∧ (m.type = 5 ∨ m.type = 6 → 4 ≤ m.body.length)
  | .lib m => m.type ≠ 1

/-- What this program sends to a client: the answers of a negotiation (C101), acknowledgements and answers to pings (C22), and media and metadata (types 8, 9, 18). -/
def Sends : Sending → Prop
  | m => (∃ (h : RtmpHook) (r : RtmpReply) (o : RtmpOut), r.message h = some o ∧ m = ofReply o r) ∨ m = .lib RtmpSent.pong.message ∨ (∃ b, m = .hook (RtmpSent.ack b).message) ∨
    (∃ o : RtmpOut, m = .hook o ∧ (o.type = 8 ∨ o.type = 9 ∨ o.type = 18))

end Spec.RtmpChunk
