import Verif.Model.CharBuffer
import Verif.Model.H264
import Verif.Model.Aac
import Verif.Model.Ts
/-!
# Model of the RTP demuxer (`/repo/src/avformat/sps_avformat_rtp*.cpp`)

Reads go through the modelled `BitContext`; `none` is undefined behaviour or a failed `assert`. Log lines are left out.
The decoders append to a list of packets; the model returns what is appended, also with an error.
-/
namespace Sps
open BProg

namespace Rtp
/-- `is_rtp_mepgts`, `sps_avformat_rtp.cpp:33-35`. -/
def isTs (pt : Nat) : Bool := pt == 33
/-- `is_rtp_dynamic`, `sps_avformat_rtp.cpp:37-39`. -/
def isDynamic (pt : Nat) : Bool := decide (96 ≤ pt) && decide (pt ≤ 127)
/-- `is_rtcp`, `sps_avformat_rtp.cpp:41-43`. -/
def isRtcp (pt : Nat) : Bool := decide (200 ≤ pt) && decide (pt ≤ 204)
end Rtp

/-- `RtpPayloadHeader`, `sps_avformat_rtp.hpp:58-88`. -/
structure RtpHeader where
  version : Nat := 0
  padding : Nat := 0
  extension : Nat := 0
  cc : Nat := 0
  mark : Nat := 0
  payloadType : Nat := 0
  seq : Nat := 0
  timestamp : Nat := 0
  ssrc : Nat := 0
  csrc : List Nat := []
  profile : Nat := 0
  extLen : Nat := 0
  ext : List UInt8 := []
deriving DecidableEq, Repr

namespace RtpHeader

/-- The csrc loop, `sps_avformat_rtp.cpp:72-74`. -/
def csrcs : Nat → BProg (List Nat)
  | 0 => return []
  | n + 1 => do
    let x ← rd 32
    let xs ← csrcs n
    return x :: xs

/-- `RtpPayloadHeader::decode_extension`, `sps_avformat_rtp.cpp:88-113`. -/
def decodeExtension (h : RtpHeader) : BProg (Except Err RtpHeader) := do
  let e ← acq 4
  if e ≠ Err.SUCCESS then return .error e
  else
    let profile ← rd 16
    let len ← rd 16
    if len = 0 then return .ok { h with profile := profile, extLen := len }
    else
      let e ← acq len
      if e ≠ Err.SUCCESS then return .error e
      else
        let d ← rdBytes len
        return .ok { h with profile := profile, extLen := len, ext := d }

/-- `RtpPayloadHeader::decode`, `sps_avformat_rtp.cpp:45-86`. -/
def decode : BProg (Except Err RtpHeader) := do
  let e ← acq 12
  if e ≠ Err.SUCCESS then return .error e
  else
    let version ← rd 2
    let padding ← rd 1
    let extension ← rd 1
    let cc ← rd 4
    let mark ← rd 1
    let pt ← rd 7
    let seq ← rd 16
    let ts ← rd 32
    let ssrc ← rd 32
    let e ← acq (cc * 4)
    if e ≠ Err.SUCCESS then return .error e
    else
      let cs ← csrcs cc
      let h : RtpHeader := { version := version, padding := padding, extension := extension, cc := cc, mark := mark,
                             payloadType := pt, seq := seq, timestamp := ts, ssrc := ssrc, csrc := cs }
      if extension > 0 then decodeExtension h else return .ok h

/-- `IRtpDecoder::decode(buffer, size, pkts)` up to the payload, `sps_avformat_rtpdec.cpp:40-56`; `ok` is `match`. -/
def front (ok : Nat → Bool) : BProg (Except Err RtpHeader) := do
  let e ← acq 12
  if e ≠ Err.SUCCESS then return .error e
  else
    let r ← decode
    match r with
    | .error e => return .error e
    | .ok h => if ok h.payloadType = false then return .error Err.ERROR_RTP_PAYLOAD_TYPE else return .ok h

/-- `IRtpDecoder::decode`, `sps_avformat_rtpdec.cpp:40-59`, with `body` for the `decode` of the payload type. -/
def packet {α : Type} (ok : Nat → Bool) (st : α) (body : RtpHeader → BitCtx → Option (Err × α × List AVPkt)) (p : List UInt8) :
    Option (Err × α × List AVPkt) :=
  ((front ok).run (BitCtx.init p)).bind fun (r, c) =>
    match r with
    | .error e => some (e, st, [])
    | .ok h => body h c

end RtpHeader

namespace RtpH264

/-- The bytes `bc.pos()`, `bc.size()`. -/
def rest (c : BitCtx) : Option (List UInt8 × BitCtx) := c.readBytes c.size

/-- `NaluRtpDecoder::decode`, `sps_avformat_rtpdec_h264_hevc.cpp:65-87`; `now` is `get_time()`. Returns the context after it:
on success everything is skipped. The parser is a new one on every call. -/
def nalu (now : Int) (ts : Nat) (c : BitCtx) : Option (Err × BitCtx × List AVPkt) :=
  (rest c).bind fun (d, c') =>
    (H264Parser.encodeRawNalu {} { dts := now * 90, pts := ts, timebase := 90 } d).map fun (e, _, pk) =>
      (e, if e = Err.SUCCESS then c' else c, pk)

/-- The loop of `StapRtpDecoder::decode`, `sps_avformat_rtpdec_h264_hevc.cpp:97-110`. A pass reads at least a byte. -/
def stapLoop (now : Int) (ts : Nat) : (fuel : Nat) → BitCtx → (out : List AVPkt) → Option (Err × List AVPkt)
  | 0, _, _ => none
  | fuel + 1, c, out =>
    if c.size = 0 then some (Err.SUCCESS, out)
    else
      (c.readBits 8).bind fun (n, c) =>
        if c.acquire n ≠ Err.SUCCESS then some (c.acquire n, out)
        else
          (nalu now ts c).bind fun (e, c, pk) =>
            if e ≠ Err.SUCCESS then some (e, out ++ pk) else stapLoop now ts fuel c (out ++ pk)

/-- `StapRtpDecoder::decode`, `sps_avformat_rtpdec_h264_hevc.cpp:89-113`; `STAP_B` is 25. -/
def stap (tp : Nat) (now : Int) (ts : Nat) (c : BitCtx) : Option (Err × List AVPkt) :=
  (if tp = 25 then c.skipReadBytes 2 else some c).bind fun c => stapLoop now ts (c.buf.length + 1) c []

/-- The loop of `MtapRtpDecoder::decode`, `sps_avformat_rtpdec_h264_hevc.cpp:125-146`, with `off = offset_len`. -/
def mtapLoop (off : Nat) (now : Int) (ts : Nat) : (fuel : Nat) → BitCtx → (out : List AVPkt) → Option (Err × List AVPkt)
  | 0, _, _ => none
  | fuel + 1, c, out =>
    if c.size = 0 then some (Err.SUCCESS, out)
    else if c.acquire (1 + 1 + off) ≠ Err.SUCCESS then some (c.acquire (1 + 1 + off), out)
    else
      (c.readBits 8).bind fun (n, c) => (c.readBits 8).bind fun (_, c) =>
      (c.readBits (if off = 3 then 24 else 16)).bind fun (_, c) =>
        if c.acquire n ≠ Err.SUCCESS then some (c.acquire n, out)
        else
          (nalu now ts c).bind fun (e, c, pk) =>
            if e ≠ Err.SUCCESS then some (e, out ++ pk) else mtapLoop off now ts fuel c (out ++ pk)

/-- `MtapRtpDecoder::decode`, `sps_avformat_rtpdec_h264_hevc.cpp:116-148`; `MTAP16` is 26, `MTAP24` 27. -/
def mtap (tp : Nat) (now : Int) (ts : Nat) (c : BitCtx) : Option (Err × List AVPkt) :=
  (if tp = 27 then c.skipReadBytes 3 else some c).bind fun c => mtapLoop (if tp = 26 then 2 else 3) now ts (c.buf.length + 1) c []

/-- `FuDecoder`, `sps_avformat_rtpdec_h264_hevc.hpp:74-99`: `FuIndicator` and `FuHeader` (the reserved bit is not used). -/
structure Fu where
  f : Nat
  nri : Nat
  indType : Nat
  s : Nat
  e : Nat
  type : Nat
deriving DecidableEq, Repr

/-- The reads of `FuDecoder::decode`, `sps_avformat_rtpdec_h264_hevc.cpp:45-52`. -/
def fuFields : BProg Fu := do
  let f ← rd 1
  let nri ← rd 2
  let it ← rd 5
  let s ← rd 1
  let e ← rd 1
  let _ ← rd 1
  let tp ← rd 5
  return { f := f, nri := nri, indType := it, s := s, e := e, type := tp }

/-- `nal_header`, `sps_avformat_rtpdec_h264_hevc.cpp:184`. -/
def nalHeader (fu : Fu) : UInt8 := UInt8.ofNat ((fu.f <<< 7) ||| (fu.nri <<< 5) ||| fu.type)

/-- The start of a unit, `sps_avformat_rtpdec_h264_hevc.cpp:167-189`; `mem0` is the uninitialised memory of the new buffer
(`RTP_NALU_MAX_LENGTH`, 1 MiB). -/
def fuStart (mem0 : List UInt8) (fu : Fu) (pkt : Option CharBuf) : Option (Except Err (Option CharBuf)) :=
  if fu.s = 1 then
    match pkt with
    | some _ => some (.error Err.ERROR_RTP_DECODER_H264)
    | none => ((CharBuf.ofCap mem0 0).append [nalHeader fu]).map fun b => .ok (some b)
  else some (.ok pkt)

/-- The rest of `FuRtpDecoder::decode`, `sps_avformat_rtpdec_h264_hevc.cpp:191-218`. -/
def fuData (now : Int) (ts : Nat) (fu : Fu) (pkt : Option CharBuf) (c : BitCtx) : Option (Err × Option CharBuf × List AVPkt) :=
  match pkt with
  | none => some (Err.SUCCESS, none, [])
  | some b =>
    (rest c).bind fun (d, _) => (b.append d).bind fun b =>
      if fu.e = 1 then
        (nalu now ts (BitCtx.init b.content)).map fun (e, _, pk) =>
          (e, if e = Err.SUCCESS then none else some b, pk)
      else some (Err.SUCCESS, some b, [])

/-- `FuRtpDecoder::decode`, `sps_avformat_rtpdec_h264_hevc.cpp:154-219`; `FU_B` is 29. `pkt` is the buffer of the
`H264RtpDecoder` it refers to. -/
def fu (mem0 : List UInt8) (now : Int) (ts : Nat) (pkt : Option CharBuf) (c : BitCtx) : Option (Err × Option CharBuf × List AVPkt) :=
  if c.acquire 2 ≠ Err.SUCCESS then some (c.acquire 2, pkt, [])
  else
    (fuFields.run c).bind fun (f, c) =>
    (if f.indType = 29 then c.skipReadBytes 2 else some c).bind fun c =>
    (fuStart mem0 f pkt).bind fun r =>
      match r with
      | .error e => some (e, pkt, [])
      | .ok pkt => fuData now ts f pkt c

/-- The decoders `create_decoder` chooses from. -/
inductive Kind
  | nalu | stap | mtap | fu
deriving DecidableEq, Repr

/-- `H264RtpDecoder::create_decoder`, `sps_avformat_rtpdec_h264_hevc.cpp:221-250`. -/
def create (t : Nat) : Option Kind :=
  if 0 < t ∧ t < 24 then some .nalu
  else if t = 25 ∨ t = 24 then some .stap
  else if t = 26 ∨ t = 27 then some .mtap
  else if t = 28 ∨ t = 29 then some .fu
  else none

/-- `H264RtpDecoder::decode`, `sps_avformat_rtpdec_h264_hevc.cpp:262-287`. The state is the buffer `pkt`; `rtp_timestamp` is
stored but never used. -/
def decode (mem0 : List UInt8) (now : Int) (pkt : Option CharBuf) (h : RtpHeader) (c : BitCtx) :
    Option (Err × Option CharBuf × List AVPkt) :=
  if c.acquire 1 ≠ Err.SUCCESS then some (c.acquire 1, pkt, [])
  else
    (c.readBytes 1).bind fun (d, _) =>
      let t := (d.headD 0).toNat &&& 0x1f
      match create t with
      | none => some (Err.ERROR_RTP_PROBE, pkt, [])
      | some .nalu => (nalu now h.timestamp c).map fun (e, _, pk) => (e, pkt, pk)
      | some .stap => (stap t now h.timestamp c).map fun (e, pk) => (e, pkt, pk)
      | some .mtap => (mtap t now h.timestamp c).map fun (e, pk) => (e, pkt, pk)
      | some .fu => fu mem0 now h.timestamp pkt c

/-- `IRtpDecoder::decode` of an `H264RtpDecoder`, `sps_avformat_rtpdec.cpp:40-63`. -/
def packet (mem0 : List UInt8) (now : Int) (pkt : Option CharBuf) (p : List UInt8) : Option (Err × Option CharBuf × List AVPkt) :=
  RtpHeader.packet Rtp.isDynamic pkt (decode mem0 now pkt) p

end RtpH264

namespace RtpAac

/-- The loop of `RtpAacAuHeader::decode`, `sps_avformat_rtpdec_aac.cpp:73-79`: the sizes (the index is not used). -/
def sizes : Nat → BProg (List Nat)
  | 0 => return []
  | n + 1 => do
    let s ← rd 13
    let _ ← rd 3
    let r ← sizes n
    return s :: r

/-- `RtpAacAuHeader::decode`, `sps_avformat_rtpdec_aac.cpp:54-82`. -/
def auHeader : BProg (Except Err (List Nat)) := do
  let e ← acq 2
  if e ≠ Err.SUCCESS then return .error e
  else
    let bits ← rd 16
    let nb := ((bits + 7) / 8) / 2
    let e ← acq (2 * nb)
    if e ≠ Err.SUCCESS then return .error e
    else
      let l ← sizes nb
      return .ok l

/-- The loop of `AacRtpDecoder::decode`, `sps_avformat_rtpdec_aac.cpp:97-108`. -/
def units (ts : Nat) : List Nat → BitCtx → (out : List AVPkt) → Option (Err × List AVPkt)
  | [], _, out => some (Err.SUCCESS, out)
  | n :: ns, c, out =>
    if c.acquire n ≠ Err.SUCCESS then some (c.acquire n, out)
    else
      (c.readBytes n).bind fun (d, c) =>
        (AacParser.encodeRawAvc { dts := ts, pts := ts, timebase := 90 } d).bind fun (e, pk) =>
          if e ≠ Err.SUCCESS then some (e, out ++ pk) else units ts ns c (out ++ pk)

/-- `AacRtpDecoder::decode`, `sps_avformat_rtpdec_aac.cpp:87-111`. The parser keeps no state in `encode_raw_avc`. -/
def decode (h : RtpHeader) (c : BitCtx) : Option (Err × List AVPkt) :=
  (auHeader.run c).bind fun (r, c) =>
    match r with
    | .error e => some (e, [])
    | .ok ns => units h.timestamp ns c []

/-- `IRtpDecoder::decode` of an `AacRtpDecoder`, `sps_avformat_rtpdec.cpp:40-63`. -/
def packet (p : List UInt8) : Option (Err × List AVPkt) :=
  (RtpHeader.packet Rtp.isDynamic () (fun h c => (decode h c).map fun (e, pk) => (e, (), pk)) p).map fun (e, _, pk) => (e, pk)

end RtpAac

/-! ## The transport stream demuxer with its parsers -/

/-- The data members of `TsDemuxer` that its handler uses, `sps_avformat_tsdec.hpp:72-80`. -/
structure TsCodec where
  video : NaluParser := {}
  audio : AacParser := {}
  queue : List AVPkt := []
deriving DecidableEq, Repr

namespace TsCodec

/-- `TsDemuxer::on_h264`, `sps_avformat_tsdec.cpp:153-173`. -/
def onH264 (d : PesDone) (buf : List UInt8) (st : TsCodec) : Option (Err × TsCodec) :=
  (H264Parser.encodeAvc st.video { dts := d.dts, pts := d.pts, timebase := 90 } buf).map fun (e, v, pk) =>
    if e ≠ Err.SUCCESS then (e, { st with video := v }) else (e, { st with video := v, queue := st.queue ++ pk })

/-- `TsDemuxer::on_aac`, `sps_avformat_tsdec.cpp:175-197`. -/
def onAac (d : PesDone) (buf : List UInt8) (st : TsCodec) : Option (Err × TsCodec) :=
  (st.audio.encodeAvc { dts := d.dts, pts := d.pts, timebase := 90 } buf).map fun (e, a, pk) =>
    if e ≠ Err.SUCCESS then (e, { st with audio := a }) else (e, { st with audio := a, queue := st.queue ++ pk })

/-- `TsDemuxer::on_pes_complete`, `sps_avformat_tsdec.cpp:133-151`. -/
def onPes (d : PesDone) (st : TsCodec) : Option (Err × TsCodec) :=
  match d.codecInput with
  | .nothing => some (Err.SUCCESS, st)
  | .uninitialised => none
  | .bytes b => if d.streamType = 0x1b then onH264 d b st else onAac d b st

/-- The handlers of a `TsDemuxer` made with `ph = nullptr`, `sps_avformat_tsdec.cpp:52`; without a packet handler
`TsContext::decode` ends with the program's result (`sps_avformat_ts.cpp:778-783`). -/
def handler : TsHandler TsCodec := { onPes := onPes, onPkt := fun _ _ _ st => some (Err.SUCCESS, st) }

/-- `TsDemuxer::pop`, `sps_avformat_tsdec.cpp:123-131`. -/
def pop (st : TsCodec) : Option (AVPkt × TsCodec) :=
  match st.queue with
  | [] => none
  | p :: q => some (p, { st with queue := q })

end TsCodec

namespace RtpTs

/-- `MpegtsRtpDecodder::decode`, `sps_avformat_rtpdec_ts.cpp:40-56`, on the payload bytes. -/
def decode (c : TsCtx) (st : TsCodec) (_h : RtpHeader) (bc : BitCtx) : Option (Err × (TsCtx × TsCodec) × List AVPkt) :=
  (bc.readBytes bc.size).bind fun (d, _) =>
    (TsCtx.decodeAll TsCodec.handler (d.length + 1) c st d).map fun (e, c, st) =>
      if e ≠ Err.SUCCESS then (e, (c, st), []) else (e, (c, { st with queue := [] }), st.queue)

/-- `IRtpDecoder::decode` of an `MpegtsRtpDecodder`, `sps_avformat_rtpdec.cpp:40-59`. -/
def packet (c : TsCtx) (st : TsCodec) (p : List UInt8) : Option (Err × (TsCtx × TsCodec) × List AVPkt) :=
  RtpHeader.packet Rtp.isTs (c, st) (decode c st) p

end RtpTs

namespace Rtcp

/-- `RtcpHead`, `sps_avformat_rtpdec_rtcp.hpp:31-37`. -/
structure Head where
  version : Nat
  padding : Nat
  count : Nat
  pt : Nat
  length : Nat
deriving DecidableEq, Repr

/-- `RtcpSRReportBlock`, `sps_avformat_rtpdec_rtcp.hpp:54-66`. -/
structure Block where
  fraction : Nat
  lost : Nat
  highest : Nat
  jitter : Nat
  lsr : Nat
  dlsr : Nat
deriving DecidableEq, Repr

/-- What a packet decodes to. -/
inductive Report
  | sr (ssrc msw lsw rtp pkts octets : Nat) (blocks : List Block)
  | rr (ssrc : Nat) (blocks : List Block)
  | other
deriving DecidableEq, Repr

/-- `RtcpHeadDecoder::decode`, `sps_avformat_rtpdec_rtcp.cpp:33-48`. -/
def head : BProg (Except Err Head) := do
  let e ← acq 4
  if e ≠ Err.SUCCESS then return .error Err.ERROR_RTP_PROBE
  else
    let v ← rd 2
    let p ← rd 1
    let c ← rd 5
    let pt ← rd 8
    let len ← rd 16
    return .ok { version := v, padding := p, count := c, pt := pt, length := len }

/-- `RtcpSRReportBlock::decode`, `sps_avformat_rtpdec_rtcp.cpp:54-68`; its result is not looked at. A block that was not
decoded is uninitialised: the callers make sure beforehand that it is. -/
def block : BProg Block := do
  let _ ← acq 20
  let f ← rd 8
  let l ← rd 24
  let h ← rd 32
  let j ← rd 32
  let s ← rd 32
  let d ← rd 32
  return { fraction := f, lost := l, highest := h, jitter := j, lsr := s, dlsr := d }

/-- The loops, `sps_avformat_rtpdec_rtcp.cpp:87-91` and `114-118`. -/
def blocks : Nat → BProg (List Block)
  | 0 => return []
  | n + 1 => do
    let b ← block
    let bs ← blocks n
    return b :: bs

/-- `RtcpSRDecoder::decode`, `sps_avformat_rtpdec_rtcp.cpp:70-94`. -/
def sr (h : Head) : BProg (Except Err Report) := do
  let e ← acq (24 + h.count * 20)
  if e ≠ Err.SUCCESS then return .error e
  else
    let a ← rd 32
    let b ← rd 32
    let c ← rd 32
    let d ← rd 32
    let p ← rd 32
    let o ← rd 32
    let bs ← blocks h.count
    return .ok (.sr a b c d p o bs)

/-- `RtcpRRDecoder::decode`, `sps_avformat_rtpdec_rtcp.cpp:103-121`. -/
def rr (h : Head) : BProg (Except Err Report) := do
  let e ← acq (4 + h.count * 20)
  if e ≠ Err.SUCCESS then return .error e
  else
    let a ← rd 32
    let bs ← blocks h.count
    return .ok (.rr a bs)

/-- `RtcpRtpDecoder::decode`, `sps_avformat_rtpdec_rtcp.cpp:196-233`.
* SDES (`152-167`) with a chunk uses the iterator `sdes.end()`: undefined.
* BYE and APP (`176-190`) only move the local context, which is not used again. -/
def decode (p : List UInt8) : Option (Except Err Report) :=
  (head.run (BitCtx.init p)).bind fun (r, c) =>
    match r with
    | .error e => some (.error e)
    | .ok h =>
      if h.pt = 200 then ((sr h).run c).map (·.1)
      else if h.pt = 201 then ((rr h).run c).map (·.1)
      else if h.pt = 202 then if h.count = 0 then some (.ok .other) else none
      else if h.pt = 203 then some (.ok .other)
      else if h.pt = 204 then some (.ok .other)
      else some (.error Err.ERROR_RTP_PROBE)

end Rtcp

/-- `RtpDemuxer` as the server uses it: without `init_codec`, which nothing calls, the payload decoder is the transport stream
one. `ts = none` is an empty `rtp_decoder`, `sps_avformat_rtpdec.hpp:82-88`. -/
structure RtpDemuxer where
  ts : Option (TsCtx × TsCodec) := none
  queue : List AVPkt := []
deriving DecidableEq, Repr

namespace RtpDemuxer

/-- The body of the loop of `read_packet` after the datagram `p` was read, `sps_avformat_rtpdec.cpp:119-137`, with
`init_rtp_decode` (`88-96`). -/
def datagram (d : RtpDemuxer) (p : List UInt8) : Option (Err × RtpDemuxer) :=
  match p[1]? with
  | none => none
  | some b =>
    if Rtp.isRtcp b.toNat then
      (Rtcp.decode p).map fun r =>
        match r with
        | .error e => (e, d)
        | .ok _ => (Err.SUCCESS, d)
    else
      match d.ts with
      | none =>
        if b.toNat ≠ 33 then some (Err.ERROR_RTP_PROBE, d)
        else (RtpTs.packet TsCtx.create {} p).map fun (e, s, pk) => (e, { ts := some s, queue := d.queue ++ pk })
      | some (c, st) => (RtpTs.packet c st p).map fun (e, s, pk) => (e, { ts := some s, queue := d.queue ++ pk })

/-- `RtpDemuxer::read_packet`, `sps_avformat_rtpdec.cpp:102-142`, with the reader of the constructor (`65-69`: a rewindable
buffer of `RTP_MAX_LENGTH` bytes). One unit of fuel per pass. -/
def readPacket : (fuel : Nat) → Reader → RtpDemuxer → Option (Err × Option AVPkt × Reader × RtpDemuxer)
  | 0, _, _ => none
  | fuel + 1, r, d =>
    let r := { r with buf := r.buf.clear }
    match d.queue with
    | p :: q => some (Err.SUCCESS, some p, r, { d with queue := q })
    | [] =>
      (r.acquire 12).bind fun (e, r) =>
        if e ≠ Err.SUCCESS then some (e, none, r, d)
        else
          (r.bytes r.size).bind fun (p, _) =>
            (datagram d p).bind fun (e, d) =>
              if e ≠ Err.SUCCESS then some (e, none, r, d) else readPacket fuel r d

/-- A caller that reads up to `n` packets and stops at the first error, with what it got. -/
def session (fuel : Nat) : (n : Nat) → Reader → RtpDemuxer → Option (Err × List AVPkt × RtpDemuxer)
  | 0, _, d => some (Err.SUCCESS, [], d)
  | n + 1, r, d =>
    (readPacket fuel r d).bind fun (e, b, r, d) =>
      if e ≠ Err.SUCCESS then some (e, [], d)
      else (session fuel n r d).map fun (e, bs, d) => (e, b.toList ++ bs, d)

end RtpDemuxer
end Sps
