import Verif.Spec.BProg
import Verif.Spec.H264
import Verif.Model.Rtp
/-!
# RTP (RFC 3550), H.264 over RTP (RFC 6184), AAC over RTP (RFC 3640) and RTCP (RFC 3550)
-/
namespace Spec.Rtp
open Sps

/-! ## RFC 3550, section 5.1 -/

/-- The csrc count. -/
def csrcCount (d : List UInt8) : Nat := field d 4 4

/-- The fields of the fixed header and the csrc list at their bit offsets. -/
def header (d : List UInt8) : RtpHeader where
  version := field d 0 2
  padding := field d 2 1
  extension := field d 3 1
  cc := csrcCount d
  mark := field d 8 1
  payloadType := field d 9 7
  seq := field d 16 16
  timestamp := field d 32 32
  ssrc := field d 64 32
  csrc := (List.range (csrcCount d)).map fun i => field d (96 + 32 * i) 32

/-- The bytes of the fixed header and the csrc list. -/
def fixedSize (d : List UInt8) : Nat := 12 + 4 * csrcCount d

/-- The length field of the extension: a number of 32-bit words. -/
def extWords (d : List UInt8) : Nat := field d (8 * fixedSize d + 16) 16

/-- The bytes before the payload. -/
def headSize (d : List UInt8) : Nat := fixedSize d + (if field d 3 1 = 1 then 4 + 4 * extWords d else 0)

/-- The bytes of padding: the last byte tells, if the padding bit is set. -/
def padSize (d : List UInt8) : Nat := if field d 2 1 = 1 then (d.getLastD 0).toNat else 0

/-- The payload of the packet. -/
def payload (d : List UInt8) : List UInt8 := (d.drop (headSize d)).take (d.length - headSize d - padSize d)

/-- The packet contains what its header announces. -/
structure valid (d : List UInt8) : Prop where
  fixed : fixedSize d ≤ d.length
  size : headSize d + padSize d ≤ d.length
  pad : field d 2 1 = 1 → 1 ≤ padSize d
  small : d.length < 2 ^ 29

/-! ## RFC 6184 -/

/-- What the H.264 parser makes of one NAL unit. A unit with the forbidden bit is refused. -/
def unitAnswer (ctx : CodecCtx) (u : List UInt8) : Err × List AVPkt :=
  match u with
  | [] => (Err.ERROR_H264_DECODER, [])
  | b :: _ => if 128 ≤ b.toNat then (Err.ERROR_H264_DECODER, []) else H264.answer ctx [u]

/-- The times given to the parser: the clock of the server as DTS and the time stamp of the packet as PTS. -/
def context (now : Int) (ts : Nat) : CodecCtx := { dts := now * 90, pts := ts, timebase := 90 }

/-- Section 5.8: a fragment of the unit with header byte `h`. FU-B carries a decoding order number. -/
def fragment (h : UInt8) (don : Option (UInt8 × UInt8)) (start fin : Bool) (d : List UInt8) : List UInt8 :=
  UInt8.ofNat (h.toNat / 32 * 32 + (if don.isSome then 29 else 28)) ::
  UInt8.ofNat ((if start then 128 else 0) + (if fin then 64 else 0) + h.toNat % 32) ::
  ((match don with | some (a, b) => [a, b] | none => []) ++ d)

/-- The fragments after the first. -/
def tailFragments (h : UInt8) : List (List UInt8) → List (List UInt8)
  | [] => []
  | [d] => [fragment h none false true d]
  | d :: ds => fragment h none false false d :: tailFragments h ds

/-- A unit `h :: body` sent in fragments that carry the pieces `d :: ds` of its body: the first one is marked as the start, the
last one as the end. -/
def fragments (h : UInt8) (don : Option (UInt8 × UInt8)) (d : List UInt8) (ds : List (List UInt8)) : List (List UInt8) :=
  fragment h don true false d :: tailFragments h ds

/-- Section 5.7.1: STAP-A, with the `F` and `NRI` bits in `top`. -/
def stapA (top : Nat) (us : List (List UInt8)) : List UInt8 :=
  UInt8.ofNat (top * 32 + 24) :: H264.prefixed 2 us

/-- What arrives at the payload decoder: the uninitialised memory a new buffer would get, the clock, the packet header and the
payload. -/
structure Call where
  mem0 : List UInt8
  now : Int
  header : RtpHeader
  payload : List UInt8

/-- The memory is the megabyte the code asks for, and the payload fits a datagram buffer. -/
def Call.ok (c : Call) : Prop := c.mem0.length = 2 ^ 20 ∧ c.payload.length < 2 ^ 29

/-- The answers to a history of payloads. -/
def session : Option CharBuf → List Call → Option (List (Err × List AVPkt) × Option CharBuf)
  | s, [] => some ([], s)
  | s, c :: cs => (RtpH264.decode c.mem0 c.now s c.header (BitCtx.init c.payload)).bind fun (e, s, pk) =>
      (session s cs).map fun (l, s) => ((e, pk) :: l, s)

/-- What the decoder does with a fragment, on plain byte strings: `st` is the unit in progress. The result is undefined when the
unit grows over a megabyte and when a FU-B is too short for its number. -/
def fragmentStep (ctx : CodecCtx) (st : Option (List UInt8)) (p : List UInt8) : Option (Err × Option (List UInt8) × List AVPkt) :=
  match p with
  | b0 :: b1 :: r =>
    let start := decide (128 ≤ b1.toNat)
    let fin := decide (64 ≤ b1.toNat % 128)
    if start ∧ st.isSome then some (Err.ERROR_RTP_DECODER_H264, st, [])
    else match (if start then some [UInt8.ofNat (b0.toNat / 32 * 32 + b1.toNat % 32)] else st) with
      | none => some (Err.SUCCESS, none, [])
      | some a =>
        if b0.toNat % 32 = 29 ∧ r.length < 2 then none
        else
          let u := a ++ (if b0.toNat % 32 = 29 then r.drop 2 else r)
          if 2 ^ 20 < u.length then none
          else if fin then
            let x := unitAnswer ctx u
            some (x.1, if x.1 = Err.SUCCESS then none else some u, x.2)
          else some (Err.SUCCESS, some u, [])
  | _ => some (Err.ERROR_IO_NOT_ENOUGH, st, [])

/-- What the decoder makes of an aggregation packet: a byte is taken for the size of a unit, and if that many bytes are left *all*
of them are taken for the unit. For STAP-A (type 24) and MTAP16 (26) the byte is the payload's own first byte, for STAP-B (25)
the low byte of the decoding order number, for MTAP24 (27) the byte after it. Undefined for packets without the number. -/
def aggregate (ctx : CodecCtx) (t : Nat) (p : List UInt8) : Option (Err × List AVPkt) :=
  let unit (n : UInt8) (r : List UInt8) := if r.length < n.toNat then (Err.ERROR_IO_NOT_ENOUGH, []) else unitAnswer ctx r
  if t = 24 then
    match p with
    | n :: r => some (unit n r)
    | [] => some (Err.SUCCESS, [])
  else if t = 25 then
    match p with
    | _ :: _ :: n :: r => some (unit n r)
    | [_, _] => some (Err.SUCCESS, [])
    | _ => none
  else if t = 26 then
    match p with
    | n :: _ :: _ :: _ :: r => some (unit n r)
    | [] => some (Err.SUCCESS, [])
    | _ => some (Err.ERROR_IO_NOT_ENOUGH, [])
  else
    match p with
    | _ :: _ :: _ :: n :: _ :: _ :: _ :: _ :: r => some (unit n r)
    | [_, _, _] => some (Err.SUCCESS, [])
    | _ :: _ :: _ :: _ => some (Err.ERROR_IO_NOT_ENOUGH, [])
    | _ => none

/-- What the decoder does with any payload, by the type of its first byte; `st` is the fragmented unit in progress. -/
def step (ctx : CodecCtx) (st : Option (List UInt8)) (p : List UInt8) : Option (Err × Option (List UInt8) × List AVPkt) :=
  match p with
  | [] => some (Err.ERROR_IO_NOT_ENOUGH, st, [])
  | b :: _ =>
    let t := b.toNat % 32
    if 1 ≤ t ∧ t ≤ 23 then some ((unitAnswer ctx p).1, st, (unitAnswer ctx p).2)
    else if 24 ≤ t ∧ t ≤ 27 then (aggregate ctx t p).map fun x => (x.1, st, x.2)
    else if t = 28 ∨ t = 29 then fragmentStep ctx st p
    else some (Err.ERROR_RTP_PROBE, st, [])

/-- The answers to a history of payloads, and the unit in progress after it. -/
def answers : Option (List UInt8) → List Call → Option (List (Err × List AVPkt) × Option (List UInt8))
  | st, [] => some ([], st)
  | st, c :: cs => (step (context c.now c.header.timestamp) st c.payload).bind fun (e, st, pk) =>
      (answers st cs).map fun (l, st) => ((e, pk) :: l, st)

/-! ## RFC 3640 -/

/-- AU-headers of 13 bits size and 3 bits index, then the units. -/
def aacBits (us : List (Nat × List UInt8)) : List Bool :=
  fieldBits ((16 * us.length, 16) :: us.flatMap fun u => [(u.2.length, 13), (u.1, 3)]) ++ bitsOf (us.flatMap (·.2))

/-- A frame as it is sent on. -/
def aacPacket (ts : Nat) (d : List UInt8) : AVPkt :=
  { stream := .audio, pktType := 1, payload := d, dts := (ts : Int) / 90, pts := (ts : Int) / 90, flags := 0xAF, codec := 10 }

/-! ## RFC 2250 -/

/-- The datagrams arrive one after the other at the demuxer until one is refused. -/
def deliver : RtpDemuxer → List (List UInt8) → Option (Err × RtpDemuxer)
  | d, [] => some (Err.SUCCESS, d)
  | d, p :: ps => (d.datagram p).bind fun (e, d) => if e ≠ Err.SUCCESS then some (e, d) else deliver d ps

/-- An RTP packet that carries whole transport stream packets: payload type 33, marker bit clear, no padding, no extension. -/
structure tsDatagram (d : List UInt8) : Prop where
  valid : valid d
  type : field d 9 7 = 33
  mark : field d 8 1 = 0
  padding : field d 2 1 = 0
  extension : field d 3 1 = 0
  whole : (payload d).length % 188 = 0

/-! ## RTCP, RFC 3550 section 6 -/

/-- The first packet of an RTCP buffer, by its header. -/
def rtcpCount (d : List UInt8) : Nat := field d 3 5
def rtcpType (d : List UInt8) : Nat := field d 8 8

/-- An RTCP packet that is all there (source descriptions only without content), below 512 MiB. -/
def rtcpWhole (d : List UInt8) : Bool :=
  decide (4 ≤ d.length) && decide (d.length < 2 ^ 29) &&
  ((rtcpType d == 200 && decide (28 + 20 * rtcpCount d ≤ d.length)) || (rtcpType d == 201 && decide (8 + 20 * rtcpCount d ≤ d.length)) ||
    (rtcpType d == 202 && rtcpCount d == 0) || rtcpType d == 203 || rtcpType d == 204)
/-- The length field: 32-bit words minus one. -/
def rtcpWords (d : List UInt8) : Nat := field d 16 16

/-- A compound buffer cut by the length fields; `none` if they do not fit. -/
def rtcpSplit : (fuel : Nat) → List UInt8 → Option (List (List UInt8))
  | _, [] => some []
  | 0, _ :: _ => none
  | fuel + 1, d =>
    let n := 4 * (rtcpWords d + 1)
    if d.length < 4 ∨ d.length < n then none else (rtcpSplit fuel (d.drop n)).map fun l => d.take n :: l

/-- Six words of a sender report after the header (section 6.4.1). -/
def word (d : List UInt8) (i : Nat) : Nat := field d (32 * i) 32

/-- A report block (section 6.4.1) at word `i`: the source, then the five words of statistics. -/
def reportBlock (d : List UInt8) (i : Nat) : Rtcp.Block where
  fraction := field d (32 * (i + 1)) 8
  lost := field d (32 * (i + 1) + 8) 24
  highest := word d (i + 2)
  jitter := word d (i + 3)
  lsr := word d (i + 4)
  dlsr := word d (i + 5)

end Spec.Rtp
