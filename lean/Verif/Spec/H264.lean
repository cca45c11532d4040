import Verif.Spec.Bits
import Verif.Model.H264
/-!
# H.264 byte streams (ISO/IEC 14496-10 Annex B and 14496-15)
-/
namespace Spec.H264
open Sps

/-- A NAL unit as Annex B allows it between start codes: not empty, `forbidden_zero_bit` is 0, and no `00 00 01` inside. -/
structure unitOk (u : List UInt8) : Prop where
  nonempty : u ≠ []
  forbidden : ∀ b ∈ u.head?, b.toNat < 128
  code : ¬ [0, 0, 1] <:+: u

instance (u : List UInt8) : Decidable (unitOk u) :=
  decidable_of_iff (u ≠ [] ∧ (∀ b ∈ u.head?, b.toNat < 128) ∧ ¬ [0, 0, 1] <:+: u)
    ⟨fun ⟨a, b, c⟩ => ⟨a, b, c⟩, fun ⟨a, b, c⟩ => ⟨a, b, c⟩⟩

/-- Annex B: every unit after `z` zero bytes and the start code `00 00 01` (`z = 1` is the four-byte start code). -/
def annexB (us : List (Nat × List UInt8)) : List UInt8 :=
  us.flatMap fun (z, u) => List.replicate z 0 ++ [0, 0, 1] ++ u

/-- The units with the zero bytes that follow them. -/
def withZeros : List (Nat × List UInt8) → List (List UInt8)
  | [] => []
  | [(_, u)] => [u]
  | (_, u) :: (z, v) :: us => (u ++ List.replicate z 0) :: withZeros ((z, v) :: us)

/-- The last unit of a buffer: as `unitOk`, but its last byte may complete a start code behind which there is nothing. -/
structure lastOk (u : List UInt8) : Prop where
  nonempty : u ≠ []
  forbidden : ∀ b ∈ u.head?, b.toNat < 128
  code : ¬ [0, 0, 1] <:+: u.dropLast

/-- Bytes that are units, each behind a start code of three bytes. -/
inductive Coded : List UInt8 → List (List UInt8) → Prop
  | last {u : List UInt8} : lastOk u → Coded (0 :: 0 :: 1 :: u) [u]
  | more {u r : List UInt8} {us : List (List UInt8)} : unitOk u → Coded r us → Coded (0 :: 0 :: 1 :: (u ++ r)) (u :: us)

/-- The units of any buffer: less than four bytes have none; otherwise they are what comes behind the start codes, and what comes before the first is passed over.
A buffer for which there are no such units is not a byte stream of units. -/
def Found (b : List UInt8) (us : List (List UInt8)) : Prop :=
  (b.length < 4 ∧ us = []) ∨ ∃ before coded, b = before ++ coded ∧ ¬ [0, 0, 1] <:+: before ∧ Coded coded us

/-- `nal_unit_type`: the low five bits of the first byte. -/
def unitType (u : List UInt8) : Nat := match u with | [] => 0 | b :: _ => b.toNat % 32

/-- Units prefixed with their length in `w` bytes. -/
def prefixed (w : Nat) (us : List (List UInt8)) : List UInt8 := us.flatMap fun u => beBytes w u.length ++ u

/-- ISO/IEC 14496-15, AVCDecoderConfigurationRecord with one SPS and at most one PPS; the two reserved fields are
parameters. -/
def record (profile compat level reserved6 reserved3 : Nat) (sps : List UInt8) (pps : Option (List UInt8)) : List UInt8 :=
  [1, UInt8.ofNat profile, UInt8.ofNat compat, UInt8.ofNat level, UInt8.ofNat (4 * reserved6 + 3),
    UInt8.ofNat (32 * reserved3 + 1)] ++ beBytes 2 sps.length ++ sps ++
  (match pps with | none => [0] | some p => 1 :: beBytes 2 p.length ++ p)

/-- The last element that satisfies a test. -/
def lastOf {α : Type} (f : α → Bool) (l : List α) : Option α := (l.filter f).getLast?

/-- The FLV frame type of a NAL unit type that is sent on: 1 key frame (IDR slice), 2 inter frame (slice), 5 information (SEI). -/
def frameType (t : Nat) : Option Nat := if t = 5 then some 1 else if t = 1 then some 2 else if t = 6 then some 5 else none

/-- The packet of a unit: its length in four bytes and the unit, stamped with the times in milliseconds. -/
def unitPacket (ctx : CodecCtx) (u : List UInt8) : Option AVPkt :=
  (frameType (unitType u)).map fun f =>
    { stream := .video, pktType := 1, payload := beBytes 4 u.length ++ u, dts := ctx.dts.tdiv ctx.timebase,
      pts := ctx.pts.tdiv ctx.timebase, flags := 16 * f + 7, codec := 7 }

/-- The sequence header packet with a given record. -/
def headerPacket (d : List UInt8) : AVPkt :=
  { stream := .video, pktType := 0, payload := d, dts := 0, pts := 0, flags := 0x17, codec := 7 }

/-- The SPS and PPS of an access unit: the last of each type. -/
def spsOf (us : List (List UInt8)) : Option (List UInt8) := lastOf (fun u => unitType u == 7) us
def ppsOf (us : List (List UInt8)) : Option (List UInt8) := lastOf (fun u => unitType u == 8) us

/-- What the parser answers to an access unit: an SPS makes it emit a sequence header first (profile and level from the SPS,
*compatibility 0*), then the units that are sent on, in order. -/
def answer (ctx : CodecCtx) (us : List (List UInt8)) : Err × List AVPkt :=
  match spsOf us with
  | none => (Err.SUCCESS, us.filterMap (unitPacket ctx))
  | some sps =>
    match sps with
    | _ :: profile :: _ :: level :: _ =>
      (Err.SUCCESS, headerPacket (record profile.toNat 0 level.toNat 0 0 sps (ppsOf us)) :: us.filterMap (unitPacket ctx))
    | _ => (Err.ERROR_H264_ENCODER, [])

/-- The parser's answers to a history of calls. -/
def session (f : NaluParser → CodecCtx → List UInt8 → Option (Err × NaluParser × List AVPkt)) :
    NaluParser → List (CodecCtx × List UInt8) → Option (List (Err × List AVPkt))
  | _, [] => some []
  | p, (ctx, d) :: rest => (f p ctx d).bind fun (e, p, pk) => (session f p rest).map fun l => (e, pk) :: l

end Spec.H264
