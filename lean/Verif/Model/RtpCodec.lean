import Verif.Model.Rtp
/-!
# The RTP demuxer for a codec that was told beforehand

`Model/Rtp` has the demuxer as the server uses it, which finds transport streams by itself. Here is the rest of it: a caller that
knows the codec says so with `init_codec` (as a session description would tell).
-/
namespace Sps

/-- What `rtp_decoder` points to, `sps_avformat_rtpdec.hpp:82-88`: the decoder with its state. -/
inductive RtpDecoder
  | ts (s : TsCtx × TsCodec)
  | h264 (pkt : Option CharBuf)
  | aac
deriving DecidableEq, Repr

/-- `RtpDemuxer`, `sps_avformat_rtpdec.hpp:68-89`. `n` counts the media packets given to decoders so far: what a new buffer contains and
what the clock shows at that moment are given by an environment `Nat → List UInt8 × Int`. -/
structure RtpCodecDemuxer where
  dec : Option RtpDecoder := none
  n : Nat := 0
  queue : List AVPkt := []
deriving DecidableEq, Repr

namespace RtpCodecDemuxer

/-- `RtpDemuxer::init_codec`, `sps_avformat_rtpdec.cpp:71-86`; `AVCODEC_H264` is 7, `AVCODEC_AAC` is 10
(`sps_avcodec_parser.hpp:35-37`). The branch for AAC has no `break` and goes on with that for other codecs. -/
def initCodec (id : Nat) (d : RtpCodecDemuxer) : Err × RtpCodecDemuxer :=
  if id = 7 then (Err.SUCCESS, { d with dec := some (.h264 none) })
  else if id = 10 then (Err.ERROR_RTP_PROBE, { d with dec := some .aac })
  else (Err.ERROR_RTP_PROBE, d)

/-- `rtp_decoder->decode`, `sps_avformat_rtpdec.cpp:135`, for the decoder there is. -/
def decode (env : Nat → List UInt8 × Int) (x : RtpDecoder) (d : RtpCodecDemuxer) (p : List UInt8) : Option (Err × RtpCodecDemuxer) :=
  match x with
  | .ts (c, st) => (RtpTs.packet c st p).map fun (e, s, pk) => (e, { dec := some (.ts s), n := d.n + 1, queue := d.queue ++ pk })
  | .h264 pkt => (RtpH264.packet (env d.n).1 (env d.n).2 pkt p).map fun (e, s, pk) => (e, { dec := some (.h264 s), n := d.n + 1, queue := d.queue ++ pk })
  | .aac => (RtpAac.packet p).map fun (e, pk) => (e, { dec := some .aac, n := d.n + 1, queue := d.queue ++ pk })

/-- The body of the loop of `read_packet` after the datagram `p` was read, `sps_avformat_rtpdec.cpp:119-137`, with
`init_rtp_decode` (`88-96`). -/
def datagram (env : Nat → List UInt8 × Int) (d : RtpCodecDemuxer) (p : List UInt8) : Option (Err × RtpCodecDemuxer) :=
  match p[1]? with
  | none => none
  | some b =>
    if Rtp.isRtcp b.toNat then
      (Rtcp.decode p).map fun r =>
        match r with
        | .error e => (e, d)
        | .ok _ => (Err.SUCCESS, d)
    else
      match d.dec with
      | none => if b.toNat ≠ 33 then some (Err.ERROR_RTP_PROBE, d) else decode env (.ts (TsCtx.create, {})) d p
      | some x => decode env x d p

/-- `RtpDemuxer::read_packet`, `sps_avformat_rtpdec.cpp:102-142`. One unit of fuel per pass. -/
def readPacket (env : Nat → List UInt8 × Int) : (fuel : Nat) → Reader → RtpCodecDemuxer → Option (Err × Option AVPkt × Reader × RtpCodecDemuxer)
  | 0, _, _ => none
  | fuel + 1, r, d =>
    let r := { r with buf := r.buf.clear }
    match d.queue with
    | p :: q => some (Err.SUCCESS, some p, r, { d with queue := q })
    | [] =>
      (r.acquire 12).bind fun (e, r) =>
        if e ≠ Err.SUCCESS then some (e, none, r, d)
        else
          (r.bytes r.size).bind fun (p, _) =>
            (datagram env d p).bind fun (e, d) =>
              if e ≠ Err.SUCCESS then some (e, none, r, d) else readPacket env fuel r d

/-- A caller that reads up to `n` packets and stops at the first error, with what it got. -/
def session (env : Nat → List UInt8 × Int) (fuel : Nat) : (n : Nat) → Reader → RtpCodecDemuxer → Option (Err × List AVPkt × RtpCodecDemuxer)
  | 0, _, d => some (Err.SUCCESS, [], d)
  | n + 1, r, d =>
    (readPacket env fuel r d).bind fun (e, b, r, d) =>
      if e ≠ Err.SUCCESS then some (e, [], d)
      else (session env fuel n r d).map fun (e, bs, d) => (e, b.toList ++ bs, d)

end RtpCodecDemuxer
end Sps
