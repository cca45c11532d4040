import Verif.Spec.Rtp
import Verif.Model.RtpCodec
/-!
# Media over RTP with a codec that was agreed on
-/
namespace Spec.Rtp
open Sps

/-- An RTP packet with a payload type that is agreed on elsewhere (96 to 127, RFC 3551), without padding and extension. -/
structure dynamicDatagram (d : List UInt8) : Prop where
  valid : valid d
  type : 96 ≤ field d 9 7
  padding : field d 2 1 = 0
  extension : field d 3 1 = 0

/-- The datagrams as payloads with their headers; the `n`-th one meets the memory and the clock `env n`. -/
def calls (env : Nat → List UInt8 × Int) : Nat → List (List UInt8) → List Call
  | _, [] => []
  | n, p :: ps => { mem0 := (env n).1, now := (env n).2, header := header p, payload := payload p } :: calls env (n + 1) ps

/-- What RFC 6184 makes of the payloads up to the first error (`step` tells for one payload; `st` is the unit in progress): the error and all
packets. -/
def heard : Option (List UInt8) → List Call → Option (Err × List AVPkt)
  | _, [] => some (Err.SUCCESS, [])
  | st, c :: cs => (step (context c.now c.header.timestamp) st c.payload).bind fun (e, st, pk) =>
      if e ≠ Err.SUCCESS then some (e, pk) else (heard st cs).map fun (e, l) => (e, pk ++ l)

/-- The payload carries the access units `us` with their indices (RFC 3640, sizes of 13 bits, indices of 3). -/
structure aacDatagram (d : List UInt8) (us : List (Nat × List UInt8)) : Prop where
  datagram : dynamicDatagram d
  units : bitsOf (payload d) = aacBits us
  small : ∀ u ∈ us, u.1 < 8 ∧ u.2.length < 2 ^ 13
  few : us.length < 2 ^ 12

/-- The datagrams arrive one after the other at the demuxer until one is refused. -/
def arrive (env : Nat → List UInt8 × Int) : RtpCodecDemuxer → List (List UInt8) → Option (Err × RtpCodecDemuxer)
  | d, [] => some (Err.SUCCESS, d)
  | d, p :: ps => (d.datagram env p).bind fun (e, d) => if e ≠ Err.SUCCESS then some (e, d) else arrive env d ps

/-- A NAL unit of the types 1 to 23 with the forbidden bit clear; a sequence parameter set (7) says its profile and level. -/
def unitOk (u : List UInt8) : Prop :=
  ∃ b r, u = b :: r ∧ 1 ≤ b.toNat % 32 ∧ b.toNat % 32 ≤ 23 ∧ b.toNat < 128 ∧ (b.toNat % 32 = 7 → 4 ≤ (b :: r).length)

/-- A sender sends units, each in a packet of its own or in two or more fragments; with the packets a receiver should make of them: what the
parser answers to each unit, at the times of the packet that completes it. -/
inductive Sent : List Call → List AVPkt → Prop
  | nil : Sent [] []
  | single (c : Call) (cs : List Call) (pk : List AVPkt) (hu : unitOk c.payload) (h : Sent cs pk) :
      Sent (c :: cs) ((unitAnswer (context c.now c.header.timestamp) c.payload).2 ++ pk)
  | fragmented (xs : List Call) (last : Call) (cs : List Call) (pk : List AVPkt) (h : UInt8) (don : Option (UInt8 × UInt8)) (d : List UInt8)
      (ds : List (List UInt8)) (hd : ds ≠ []) (hl : (h :: d ++ ds.flatten).length ≤ 2 ^ 20) (hu : unitOk (h :: d ++ ds.flatten))
      (hp : (xs ++ [last]).map (·.payload) = fragments h don d ds) (hs : Sent cs pk) :
      Sent (xs ++ [last] ++ cs) ((unitAnswer (context last.now last.header.timestamp) (h :: d ++ ds.flatten)).2 ++ pk)

end Spec.Rtp
