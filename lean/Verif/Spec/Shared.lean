import Verif.Model.Shared
/-!
# What players of one packet should get
-/
namespace Sps.Spec.Shared
open Sps.Shared

/-- What a player gets of packet `p` if it is right: the RTMP message of the packet (none for a packet without a message), or the packet. -/
def right (p : AVPkt) : Viewer → Got
  | .flv => .tag p
  | .rtmp =>
    match RtmpMuxer.encode HEAD p with
    | (_, some m) => .msg m
    | (e, none) => .nothing e

/-- The bytes of the packet in it. -/
def bytes : Got → List UInt8
  | .msg m => m.body.getD []
  | .tag p => p.payload
  | .nothing _ => []

/-- The number of bytes the RTMP message has before the payload: two for audio; one or five for video. -/
def lead (p : AVPkt) : Nat :=
  if p.isScript then 0 else if p.isAudio then 2 else if p.isVideo then (if FlvMuxer.low 8 p.flags &&& 0xf0 = 0x50 then 1 else 5) else 0

/-- The packet with the last byte of each full chunk of 128 bytes of its message replaced, except when it is the last byte of the message. -/
def marked (p : AVPkt) : AVPkt :=
  { p with payload := p.payload.mapIdx fun i b =>
      if (i + lead p + 1) % 128 = 0 ∧ i + 1 < p.payload.length then (if p.isVideo then 0xc6 else 0xc4) else b }

/-- The packet has a message. -/
def Sendable (p : AVPkt) : Prop := p.isScript ∨ p.isAudio ∨ p.isVideo

instance (p : AVPkt) : Decidable (Sendable p) := by unfold Sendable; infer_instance

/-- What the players of a list get of a librtmp that writes into the packet: the packet is right until an RTMP player was sent it. -/
def inFact (p : AVPkt) : List Viewer → List Got
  | [] => []
  | .flv :: vs => right p .flv :: inFact p vs
  | .rtmp :: vs => right p .rtmp :: vs.map (right (marked p))

end Sps.Spec.Shared
