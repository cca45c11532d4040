import Verif.Model.Err
import Verif.Model.Io
import Verif.Model.Text
/-!
# Builds with FFmpeg: remuxing

`/repo/src/avformat/sps_avformat_ffmpeg{,_dec,_enc}.cpp`, which take the place of the program's own formats when it is built with `FFMPEG_ENABLED`
(`/repo/src/install/sps_install_avformat.cpp:43-72`). FFmpeg itself is not part of the repository. Of it are described: the arithmetic of times (`av_rescale_q`), and that a
muxer takes the packets it is given and decides the time bases of its streams when it writes its header. Allocations succeed.
-/
namespace Sps

/-- `AVRational` as a time base: `num / den` seconds. -/
structure TimeBase where
  num : Nat
  den : Nat
deriving DecidableEq, Repr

/-- `AVMediaType`. -/
inductive Media
  | unknown | video | audio | data | subtitle | attachment
deriving DecidableEq, Repr

/-- `AVStream`: `codecpar` (its type, and the rest as it is) and `time_base`. -/
structure FfStream where
  media : Media
  params : List UInt8
  tb : TimeBase
deriving DecidableEq, Repr

/-- `::AVPacket` of FFmpeg. -/
structure FfPkt where
  index : Nat
  pts : Int
  dts : Int
  key : Bool
  data : List UInt8
deriving DecidableEq, Repr

namespace Ff

/-- `AV_NOPTS_VALUE`, which is `INT64_MIN`. -/
def NOPTS : Int := -9223372036854775808
/-- `INT64_MAX`. -/
def MAX : Int := 9223372036854775807

/-- FFmpeg's `av_rescale_rnd` with `AV_ROUND_NEAR_INF`: `a * b / c` rounded to the nearest number, halves away from zero; `INT64_MIN` if it is too large. -/
def rescale (a b c : Int) : Int :=
  if c ≤ 0 ∨ b < 0 then NOPTS
  else
    let v := ((if a < 0 then -a else a) * b + c / 2) / c
    if v > MAX then NOPTS else if a < 0 then -v else v

/-- FFmpeg's `av_rescale_q`. -/
def rescaleQ (a : Int) (p q : TimeBase) : Int := rescale a (p.num * q.den) (q.num * p.den)

/-- FFmpeg's `av_rescale_q_rnd` with `AV_ROUND_PASS_MINMAX`. -/
def rescalePass (a : Int) (p q : TimeBase) : Int := if a = NOPTS ∨ a = MAX then a else rescaleQ a p q

end Ff

/-- `AVStreamType`, as far as `from_ffmpeg` (`sps_avformat_ffmpeg.cpp:35-46`) makes it. -/
inductive FfType
  | video | audio | nb
deriving DecidableEq, Repr

def FfType.of : Media → FfType
  | .video => .video
  | .audio => .audio
  | _ => .nb

/-- `FFmpegPacket`, `sps_avformat_ffmpeg.cpp:48-103`: the packet of FFmpeg, `time_base`, and the fields of `AVPacket`. -/
structure FfPacket where
  pkt : FfPkt
  tb : TimeBase
  type : FfType
  pts : Int
  dts : Int
deriving DecidableEq, Repr

namespace FfPacket

/-- `is_video`, `sps_avformat_ffmpeg.cpp:69-71`. -/
def isVideo (p : FfPacket) : Bool := p.type = .video
/-- `is_audio`, `sps_avformat_ffmpeg.cpp:73-75`. -/
def isAudio (_ : FfPacket) : Bool := false
/-- `is_keyframe`, `sps_avformat_ffmpeg.cpp:81-83`. -/
def isKeyframe (p : FfPacket) : Bool := p.isVideo && p.pkt.key

end FfPacket

/-- `FFmpegAVDemuxer::read_packet`, `sps_avformat_ffmpeg_dec.cpp:92-115`, on what `av_read_frame` returns (`none`: an error). The time base of the packet is that of the stream
when the times are converted to it. `none` is a stream that is not there. -/
def Ff.readPacket (streams : List FfStream) : Option FfPkt → Option (Except Err FfPacket)
  | none => some (.error Err.ERROR_FFMPEG_READ)
  | some p => (streams[p.index]?).bind fun s =>
    some (.ok { pkt := p, tb := s.tb, type := FfType.of s.media, pts := Ff.rescalePass p.pts s.tb s.tb, dts := Ff.rescalePass p.dts s.tb s.tb })

/-- `FFmpegAVMuxer`, `sps_avformat_ffmpeg_enc.hpp:37-75`: the streams of the output and `stream_mapping`; what FFmpeg was given; what its writes will return. -/
structure FfMuxer where
  outs : List FfStream := []
  mapping : List Int := []
  sent : List FfPkt := []
  answers : List Bool := []
deriving DecidableEq, Repr

/-- How a call goes: it returns, it ends the process (`exit(0)`), or it is undefined. -/
inductive FfOut (α : Type)
  | ret (a : α)
  | exits
  | undef
deriving DecidableEq, Repr

namespace FfMuxer

/-- `on_av_stream`, `sps_avformat_ffmpeg_enc.cpp:187-219`. A new stream has no time base until the header is written. -/
def onStream (m : FfMuxer) (s : FfStream) : FfMuxer :=
  if s.media ≠ .audio ∧ s.media ≠ .video ∧ s.media ≠ .subtitle ∧ s.media ≠ .data then { m with mapping := m.mapping ++ [-1] }
  else { m with outs := m.outs ++ [{ s with tb := ⟨0, 1⟩ }], mapping := m.mapping ++ [(m.mapping.length : Int)] }

/-- `set_av_ctx`, `sps_avformat_ffmpeg_enc.cpp:135-158`. -/
def setCtx (m : FfMuxer) (ss : List FfStream) : FfMuxer := ss.foldl onStream m

/-- `write_header`, `sps_avformat_ffmpeg_enc.cpp:77-84`: FFmpeg sets the time bases as the format needs them. -/
def writeHeader (m : FfMuxer) (tbs : Nat → TimeBase) : FfMuxer := { m with outs := m.outs.mapIdx fun i s => { s with tb := tbs i } }

/-- `av_packet_rescale_ts` of FFmpeg: a time that is not given stays so. -/
def rescaleTs (p : FfPkt) (a b : TimeBase) : FfPkt :=
  { p with pts := if p.pts ≠ Ff.NOPTS then Ff.rescaleQ p.pts a b else p.pts, dts := if p.dts ≠ Ff.NOPTS then Ff.rescaleQ p.dts a b else p.dts }

/-- `write_packet`, `sps_avformat_ffmpeg_enc.cpp:86-129`. `none` is a packet that is not FFmpeg's: the cast gives a null pointer. -/
def writePacket (m : FfMuxer) : Option FfPacket → FfOut (Err × FfMuxer)
  | none => .undef
  | some p =>
    match m.mapping[p.pkt.index]? with
    | none => .ret (Err.SUCCESS, m)
    | some i =>
      if i < 0 then .ret (Err.SUCCESS, m)
      else match m.outs[p.pkt.index]? with
        | none => .undef
        | some s =>
          let q := rescaleTs p.pkt p.tb s.tb
          if q.dts < 0 ∨ q.pts < 0 then .exits
          else match m.answers with
            | [] => .ret (Err.SUCCESS, { m with sent := m.sent ++ [q] })
            | true :: as => .ret (Err.SUCCESS, { m with sent := m.sent ++ [q], answers := as })
            | false :: as => .ret (Err.ERROR_FFMPEG_WRITE, { m with answers := as })

/-- Packets one after another, until a write fails (`StreamEncoder::encode`, `/repo/src/module/stream/sps_stream.cpp:72-104`, on what its queue gives). -/
def writes (m : FfMuxer) : List FfPacket → FfOut (Err × FfMuxer)
  | [] => .ret (Err.SUCCESS, m)
  | p :: ps => match m.writePacket (some p) with
    | .ret (e, m) => if e ≠ Err.SUCCESS then .ret (e, m) else writes m ps
    | .exits => .exits
    | .undef => .undef

/-- `FFmpegAVOutputFormat::create2`, `sps_avformat_ffmpeg_enc.cpp:275-285`, with `init`, lines 160-181: `known` is whether FFmpeg has a format for the URL. If not, the object is
destroyed with `pb` a null pointer, and `free_ffmpeg_ctx` (lines 258-262) reads `pb->buffer`. -/
def create (known : Bool) : FfOut FfMuxer := if known then .ret {} else .undef

end FfMuxer

/-- `FFmpegAVDemuxer::read_data`, `sps_avformat_ffmpeg_dec.cpp:48-66`, on a transport: the number FFmpeg is told, and the bytes. -/
def Ff.readData (io : Io) (size : Nat) : Int × List UInt8 × Io :=
  match io.read size with
  | (.ok bs, io) => ((bs.length : Int), bs, io)
  | (.err e, io) => (-(e : Int), [], io)

end Sps
