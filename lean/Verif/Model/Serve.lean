import Verif.Model.Stream
import Verif.Model.Server
import Verif.Model.Register
import Verif.Model.Http
import Verif.Model.Flv
import Verif.Model.Source
import Verif.Model.Rtmp
import Verif.Model.TsTap
/-!
# Serving stream requests over HTTP, RTMP and SRT

`/repo/src/module/stream/sps_stream_handler.cpp`, `/repo/src/module/stream/sps_stream.cpp`,
`/repo/src/module/http/sps_http_stream_phase_handler.cpp`, `/repo/src/module/rtmp/sps_rtmp_stream_handler.cpp`,
`/repo/src/module/srt/sps_srt_stream_handler.cpp`: how a request becomes a publisher or a
player of the stream world, and what is written to its connection.
-/
namespace Sps

namespace StreamHandler

/-- `StreamHandler::get_cache_key`, `sps_stream_handler.cpp:38-43`. -/
def key (u : Url) : Key := cacheKey u.host u.path u.ext

/-- What becomes of a publish request. -/
inductive Admit
  | refused (e : Err)
  | accepted (cid : Nat) (fmt : Reg)
deriving DecidableEq, Repr

/-- `StreamHandler::publish` up to the decode loop, `sps_stream_handler.cpp:55-81`. `ins` are the registered input formats, `junk` the
memory behind the extension (see `Format.matches'`). -/
def publish (ins : List Reg) (junk : Text) (h : Conf.Module) (u : Url) (w : World) : Admit × World :=
  if !Host.publish h || !Host.supportPublish h u.ext then (.refused Err.ERROR_STREAM_PUBLISH_NOT_SUPPORT, w)
  else match Format.create ins u.ext junk with
    | none => (.refused Err.ERROR_AVFORMAT_DEMUX_NOT_EXISTS, w)
    | some f =>
      match w.publish (key u) with
      | (w, .published cid) => (.accepted cid f, w)
      | (w, _) => (.refused Err.ERROR_HTTP_HAS_SOURCE, w)

/-- What becomes of a play request. -/
inductive Join
  | refused (e : Err)
  | pull                                  -- waits for an upstream pull
  | joined (c cid : Nat) (fmt : Reg)
deriving DecidableEq, Repr

/-- `StreamHandler::play` from line 97 to the encode loop, `sps_stream_handler.cpp:97-115`, `ret` being the result of `start_edge` (success
if there was no need for it). -/
def attach (outs : List Reg) (junk : Text) (ret : Err) (u : Url) (w : World) : Join × World :=
  if (w.reg.find (key u)).isNone ∨ ret ≠ Err.SUCCESS then (.refused Err.ERROR_STREAM_SOURCE_NOT_EXITS, w)
  else match Format.create outs u.ext junk with
    | none => (.refused Err.ERROR_AVFORMAT_ENCODER_NOT_EXISTS, w)
    | some f =>
      match w.play (key u) with
      | (w, .joined c cid) => (.joined c cid f, w)
      | (w, _) => (.refused Err.ERROR_STREAM_SOURCE_NOT_EXITS, w)

/-- `StreamHandler::play` up to the wait for a pull or the encode loop, `sps_stream_handler.cpp:87-115`. -/
def play (outs : List Reg) (junk : Text) (h : Conf.Module) (u : Url) (w : World) : Join × World :=
  if (w.reg.find (key u)).isNone ∧ Host.edge h then (.pull, (w.edgeRequest (key u)).1)
  else attach outs junk Err.SUCCESS u w

end StreamHandler

/-- The key of an SRT stream, `sps_srt_stream_handler.cpp:54` and `89` (`get_path` ends at a NUL, which URLs do not contain). -/
def srtKey (u : Url) : Key := u.host ++ u.path

/-- What a request was for, once its handler has returned. -/
inductive Role
  | nothing
  | player (c : Nat)          -- it played from queue `c`
  | publisher (cid : Nat)     -- it fed cache `cid`
  | rtmpPlayer (c : Nat) (sent : List RtmpMsg)     -- the same over RTMP, with the messages it was sent
  | rtmpPublisher (cid : Nat)
  | srtPlayer (c : Nat)
  | srtPublisher (cid : Nat)
deriving DecidableEq, Repr

/-- What a connection does while it serves a stream request. -/
inductive Job
  | done (was : Role) (ret : Err)                        -- the handler has returned `ret`
  | waits (u : Url) (tag : List UInt8) (own : Option Nat)         -- for the pull; the pull it has started itself
  | flvPub (cid : Nat) (rd : SReader HttpSrc) (headed : Bool)     -- `StreamDecoder::decode` with the FLV demuxer
  | pub (cid : Nat)                                      -- with another demuxer
  | view (c : Nat) (mux : FlvMuxer)                      -- `StreamEncoder::encode` with the FLV muxer
  | nullView (c : Nat)                                   -- with the RTMP muxer, whose writer is null
  | rtmpWaits (u : Url) (fails : List Err) (own : Option Nat)     -- an RTMP player waits for the pull
  | rtmpPub (cid : Nat) (ms : List RtmpMsg) (closed : Err)        -- `StreamDecoder::decode` with the RTMP demuxer on an RTMP connection
  | rtmpView (c : Nat) (snk : MsgSink)                   -- `StreamEncoder::encode` with the RTMP muxer on an RTMP connection
  | otherView (c : Nat)                                  -- with another muxer on an RTMP connection (not with the installed formats, C61)
  | srtPub (cid : Nat) (rd : Reader) (ctx : TsCtx) (st : TsCodec)   -- `SrtServerStreamHandler::publish` with its demuxer; the raw cache is `cid + 1`
  | srtView (c : Nat)                                    -- `SrtServerStreamHandler::play`

/-- Pieces of the stream world that are part of this job and are nobody else's business: only the publisher puts packets into its cache, only
the player takes from its queue, only the player that started a pull drops its reference. -/
def Job.owns : Job → WOp → Bool
  | .waits _ _ own, .edgeDrop e => own == some e
  | .flvPub d _ _, .put cid _ => d == cid
  | .flvPub d _ _, .unpublish cid => d == cid
  | .view d _, .dump c => d == c
  | .view d _, .leave c => d == c
  | .nullView d, .dump c => d == c
  | .nullView d, .leave c => d == c
  | .rtmpWaits _ _ own, .edgeDrop e => own == some e
  | .rtmpPub d _ _, .put cid _ => d == cid
  | .rtmpPub d _ _, .unpublish cid => d == cid
  | .rtmpView d _, .dump c => d == c
  | .rtmpView d _, .leave c => d == c
  | .srtPub d _ _ _, .put cid _ => d == cid || d + 1 == cid
  | .srtPub d _ _ _, .unpublish cid => d == cid
  | .srtView d, .dump c => d == c
  | .srtView d, .leave c => d == c
  | _, _ => false

/-- The protocol of a request. For RTMP: whether the client publishes (`RtmpContext::publishing`), the messages it will send after the negotiation, and how receiving
fails then. -/
inductive Via
  | http
  | rtmp (publishing : Bool) (ms : List RtmpMsg) (closed : Err)
  | srt
deriving DecidableEq, Repr

/-- A request as it reaches the handler: the host that serves it, the URL and headers, what comes behind the header, how writes to the connection will fail, and the
memory of the buffers a demuxer (`mem`) or muxer (`tag`) would get. Of an RTMP request, `url` has the extension `-` (`sps_rtmp_stream_handler.cpp:69`; see `Names.rtmp`),
and `io`, `mem` and `tag` are not used. Of an SRT request, `url` is what `get_url_by_streamid` made of the stream id (`Names.srt`), `host` and `tag` are not used. -/
structure Req where
  host : Conf.Module
  url : Url
  io : Io
  fails : List Err
  mem : List UInt8
  tag : List UInt8
  via : Via := .http

/-- A stream request: what it does, its response object, and what was written to its connection. (For RTMP the last two are not used.) -/
structure Conn where
  job : Job
  rsp : HttpRsp
  snk : Sink

/-- All of the server that stream requests see. -/
structure Sys where
  w : World
  conns : List Conn

/-- What does not change: the registered formats, the reason phrases, and the memory behind extensions. -/
structure Site.Env where
  ins : List Reg
  outs : List Reg
  reason : Int → Text
  junk : Text

namespace HttpStream

/-- `HttpResponseSocket::write` as a writer for the muxers, `sps_http_socket.cpp:217-258`. -/
def write (reason : Int → Text) (x : HttpRsp × Sink) (d : List UInt8) : Err × (HttpRsp × Sink) :=
  let (e, r, s) := x.1.write reason d x.2
  (e, (r, s))

/-- `HttpStreamPhaseHandler::handler` after the stream handler returned `ret`, `sps_http_stream_phase_handler.cpp:50-68`. -/
def finish (reason : Int → Text) (ret : Err) (r : HttpRsp) (s : Sink) : Err × HttpRsp × Sink :=
  if ret = Err.ERROR_STREAM_PUBLISH_NOT_SUPPORT then (r.init 403 none (-1) false).writeHeader reason s
  else if ret = Err.ERROR_STREAM_SOURCE_NOT_EXITS then (r.init 404 none (-1) false).writeHeader reason s
  else (ret, r, s)

/-- The handler returns `ret`. -/
def close (reason : Int → Text) (was : Role) (ret : Err) (r : HttpRsp) (s : Sink) : Conn :=
  let (e, r, s) := finish reason ret r s
  ⟨.done was e, r, s⟩

/-- The request's body as the demuxer's reader: `HttpRequestSocket`, `sps_http_stream_phase_handler.cpp:42-44` (the response object around
it, lines 45-46, passes reads on). -/
def body (q : Req) : HttpSrc := ⟨.server, { chunked := q.url.isChunked, cl := q.url.contentLength }, q.io⟩

/-- The response a handler starts with, `sps_http_stream_phase_handler.cpp:43-48`. -/
def rsp0 : HttpRsp := HttpRsp.init {} 200 none (-1) false

end HttpStream

namespace Sys
open HttpStream

/-- A server without requests. -/
def init : Sys := ⟨World.init, []⟩

/-- Pieces of the execution. -/
inductive Op
  /-- a piece of anything else: publishers and players of other protocols, pulls -/
  | other (op : WOp)
  /-- a request arrives -/
  | request (q : Req)
  /-- the wait for a pull is over; `ret` is what `start_edge` returned -/
  | wake (i : Nat) (ret : Err)
  /-- one pass of the loop of a publisher or player -/
  | run (i : Nat)

/-- Pieces that belong to a connection here. -/
def owned (s : Sys) (op : WOp) : Bool := s.conns.any fun k => k.job.owns op

/-- A player has joined: `StreamEncoder::encode` writes the header, `sps_stream.cpp:72-79`; on an error the player leaves,
`sps_stream_handler.cpp:115-118`. -/
def startView (env : Site.Env) (w : World) (c : Nat) (f : Reg) (tag : List UInt8) (r : HttpRsp) (s : Sink) :
    World × List (WOp × WOut) × Conn :=
  if f.word = ascii "flv" then
    match FlvMuxer.writeHeaderTo (write env.reason) none (r, s) with
    | (e, (r, s)) =>
      if e ≠ Err.SUCCESS then ((w.leave c).1, [(.leave c, (w.leave c).2)], close env.reason (.player c) e r s)
      else (w, [], ⟨.view c (FlvMuxer.create tag), r, s⟩)
  else (w, [], ⟨.nullView c, r, s⟩)

/-- What follows from `StreamHandler::attach`. -/
def afterAttach (env : Site.Env) (k : Key) (x : StreamHandler.Join × World) (tag : List UInt8) (r : HttpRsp) (s : Sink) :
    World × List (WOp × WOut) × Conn :=
  match x with
  | (.joined c cid f, w) =>
    match startView env w c f tag r s with
    | (w, l, k') => (w, (.play k, .joined c cid) :: l, k')
  | (.refused e, w) => (w, [], close env.reason .nothing e r s)
  | (.pull, w) => (w, [], ⟨.done .nothing Err.SUCCESS, r, s⟩)   -- not an answer of `attach`

/-- An HTTP request, `HttpStreamPhaseHandler::handler`, `sps_http_stream_phase_handler.cpp:39-69`. -/
def httpRequest (env : Site.Env) (s : Sys) (q : Req) : Sys × List (WOp × WOut) :=
  let k := StreamHandler.key q.url
  let snk : Sink := { out := [], fails := q.fails }
  if q.url.method = ascii "POST" then
    match StreamHandler.publish env.ins env.junk q.host q.url s.w with
    | (.accepted cid f, w) =>
      let job := if f.word = ascii "flv" then Job.flvPub cid (SReader.on q.mem (body q)) false else Job.pub cid
      (⟨w, s.conns ++ [⟨job, rsp0, snk⟩]⟩, [(.publish k, .published cid)])
    | (.refused e, w) => (⟨w, s.conns ++ [close env.reason .nothing e rsp0 snk]⟩, [])
  else
    match StreamHandler.play env.outs env.junk q.host q.url s.w with
    | (.pull, w) =>
      let own := match (s.w.edgeRequest k).2 with | .edgeStarted e => some e | _ => none
      (⟨w, s.conns ++ [⟨.waits q.url q.tag own, rsp0, snk⟩]⟩, [(.edgeRequest k, (s.w.edgeRequest k).2)])
    | x =>
      match afterAttach env k x q.tag rsp0 snk with
      | (w, l, c) => (⟨w, s.conns ++ [c]⟩, l)

/-- A connection without a response object. -/
def bare (j : Job) : Conn := ⟨j, rsp0, { out := [], fails := [] }⟩

/-- What follows from `StreamHandler::attach` for an RTMP player. `RtmpAVMuxer::write_header`, `/repo/src/avformat/sps_avformat_rtmpenc.cpp:42-44`, writes nothing. -/
def rtmpAttach (k : Key) (x : StreamHandler.Join × World) (fails : List Err) : World × List (WOp × WOut) × Conn :=
  match x with
  | (.joined c cid f, w) =>
    (w, [(.play k, .joined c cid)], bare (if f.word = ascii "-" then .rtmpView c { out := [], fails := fails } else .otherView c))
  | (.refused e, w) => (w, [], bare (.done .nothing e))
  | (.pull, w) => (w, [], bare (.done .nothing Err.SUCCESS))   -- not an answer of `attach`

/-- An RTMP request, `RtmpServerStreamHandler::handler`, `sps_rtmp_stream_handler.cpp:54-75` (without ffmpeg), `StreamHandler::handler`,
`sps_stream_handler.cpp:51-54`. -/
def rtmpRequest (env : Site.Env) (s : Sys) (q : Req) (publishing : Bool) (ms : List RtmpMsg) (closed : Err) : Sys × List (WOp × WOut) :=
  let k := StreamHandler.key q.url
  if publishing then
    match StreamHandler.publish env.ins env.junk q.host q.url s.w with
    | (.accepted cid f, w) =>
      (⟨w, s.conns ++ [bare (if f.word = ascii "-" then .rtmpPub cid ms closed else .pub cid)]⟩, [(.publish k, .published cid)])
    | (.refused e, w) => (⟨w, s.conns ++ [bare (.done .nothing e)]⟩, [])
  else
    match StreamHandler.play env.outs env.junk q.host q.url s.w with
    | (.pull, w) =>
      let own := match (s.w.edgeRequest k).2 with | .edgeStarted e => some e | _ => none
      (⟨w, s.conns ++ [bare (.rtmpWaits q.url q.fails own)]⟩, [(.edgeRequest k, (s.w.edgeRequest k).2)])
    | x =>
      match rtmpAttach k x q.fails with
      | (w, l, c) => (⟨w, s.conns ++ [c]⟩, l)

/-- An SRT request, `SrtServerStreamHandler::handler`, `sps_srt_stream_handler.cpp:39-50`, with `publish`, lines 52-70, and `play`, lines 87-98, up to their loops. The
host's configuration is not looked at. -/
def srtRequest (s : Sys) (q : Req) : Sys × List (WOp × WOut) :=
  let k := srtKey q.url
  let snk : Sink := { out := [], fails := q.fails }
  if q.url.method = ascii "request" then
    match s.w.play (tsKey k) with
    | (w, .joined c cid) => (⟨w, s.conns ++ [⟨.srtView c, rsp0, snk⟩]⟩, [(.play (tsKey k), .joined c cid)])
    | (w, _) => (⟨w, s.conns ++ [⟨.done .nothing Err.ERROR_RTMP_HAS_SOURCE, rsp0, snk⟩]⟩, [])
  else
    match s.w.publishSrt k with
    | (w, .published cid) =>
      (⟨w, s.conns ++ [⟨.srtPub cid (TsDemuxer.reader q.mem q.io) TsCtx.create {}, rsp0, snk⟩]⟩, [(.publishSrt k, .published cid)])
    | (w, _) => (⟨w, s.conns ++ [⟨.done .nothing Err.ERROR_RTMP_HAS_SOURCE, rsp0, snk⟩]⟩, [])

/-- A request. -/
def request (env : Site.Env) (s : Sys) (q : Req) : Sys × List (WOp × WOut) :=
  match q.via with
  | .http => s.httpRequest env q
  | .rtmp publishing ms closed => s.rtmpRequest env q publishing ms closed
  | .srt => s.srtRequest q

/-- A player leaves `start_edge`: the reference to the pull it has started goes, `sps_stream_edge.cpp:135-156`. -/
def dropPull (w : World) : Option Nat → World × List (WOp × WOut)
  | none => (w, [])
  | some e => ((w.edgeDrop e).1, [(.edgeDrop e, (w.edgeDrop e).2)])

/-- The wait for a pull is over, `sps_stream_handler.cpp:92-115`. -/
def wake (env : Site.Env) (s : Sys) (i : Nat) (ret : Err) : Sys × List (WOp × WOut) :=
  match s.conns[i]? with
  | some ⟨.waits u tag own, r, snk⟩ =>
    match dropPull s.w own with
    | (w, l0) =>
      match afterAttach env (StreamHandler.key u) (StreamHandler.attach env.outs env.junk ret u w) tag r snk with
      | (w, l, c) => (⟨w, s.conns.set i c⟩, l0 ++ l)
  | some ⟨.rtmpWaits u fails own, _, _⟩ =>
    match dropPull s.w own with
    | (w, l0) =>
      match rtmpAttach (StreamHandler.key u) (StreamHandler.attach env.outs env.junk ret u w) fails with
      | (w, l, c) => (⟨w, s.conns.set i c⟩, l0 ++ l)
  | _ => (s, [])

/-- A publisher's loop ends: `sps_stream_handler.cpp:82-84`. -/
def endPub (env : Site.Env) (s : Sys) (i cid : Nat) (e : Err) (r : HttpRsp) (snk : Sink) : Sys × List (WOp × WOut) :=
  (⟨(s.w.unpublish cid).1, s.conns.set i (close env.reason (.publisher cid) e r snk)⟩, [(.unpublish cid, (s.w.unpublish cid).2)])

/-- A pass of `StreamDecoder::decode`, `sps_stream.cpp:37-60`; `none`: memory outside the buffer is accessed. -/
def runPub (env : Site.Env) (s : Sys) (i cid : Nat) (rd : SReader HttpSrc) (headed : Bool) (r : HttpRsp) (snk : Sink) :
    Option (Sys × List (WOp × WOut)) :=
  if headed then
    (FlvDemuxer.readPacket.runOn rd).map fun x =>
      match x with
      | ((_, some p), rd) =>
        (⟨(s.w.put cid p).1, s.conns.set i ⟨.flvPub cid rd true, r, snk⟩⟩, [(.put cid p, (s.w.put cid p).2)])
      | ((e, none), _) => endPub env s i cid e r snk
  else
    (FlvDemuxer.readHeader.runOn rd).map fun x =>
      match x with
      | ((_, some _), rd) => (⟨s.w, s.conns.set i ⟨.flvPub cid rd true, r, snk⟩⟩, [])
      | ((e, none), _) => endPub env s i cid e r snk

/-- A player's loop ends with `e`: `sps_stream_handler.cpp:115-118`. -/
def endView (env : Site.Env) (s : Sys) (w : World) (l : List (WOp × WOut)) (i c : Nat) (e : Err) (r : HttpRsp) (snk : Sink) :
    Sys × List (WOp × WOut) :=
  (⟨(w.leave c).1, s.conns.set i (close env.reason (.player c) e r snk)⟩, l ++ [(.leave c, (w.leave c).2)])

/-- A pass of `StreamEncoder::encode`, `sps_stream.cpp:81-99`, after its wait: nothing pending means the time is over. -/
def runView (env : Site.Env) (s : Sys) (i c : Nat) (mux : FlvMuxer) (r : HttpRsp) (snk : Sink) : Option (Sys × List (WOp × WOut)) :=
  match s.w.dump c with
  | (w, .pkts []) => some (endView env s w [(.dump c, .pkts [])] i c Err.ERROR_SOCKET_TIMEOUT r snk)
  | (w, .pkts ps) =>
    (mux.writePacketsTo (write env.reason) ps (r, snk)).map fun x =>
      match x with
      | (e, mux, (r, snk)) =>
        if e ≠ Err.SUCCESS then endView env s w [(.dump c, .pkts ps)] i c e r snk
        else (⟨w, s.conns.set i ⟨.view c mux, r, snk⟩⟩, [(.dump c, .pkts ps)])
  | _ => some (s, [])

/-- The same with the RTMP muxer: `RtmpAVMuxer`'s constructor casts the HTTP response to an RTMP connection, which gives null
(`/repo/src/avformat/sps_avformat_rtmpenc.cpp:37-40`), and `write_packet` uses it without a look (line 146). `none`: null is
dereferenced. Only packets that are neither script, audio nor video pass. (The head area of the packets is long enough.) -/
def runNull (env : Site.Env) (s : Sys) (i c : Nat) (r : HttpRsp) (snk : Sink) : Option (Sys × List (WOp × WOut)) :=
  match s.w.dump c with
  | (w, .pkts []) => some (endView env s w [(.dump c, .pkts [])] i c Err.ERROR_SOCKET_TIMEOUT r snk)
  | (w, .pkts ps) =>
    if ps.any fun p => p.isScript || p.isAudio || p.isVideo then none else some (⟨w, s.conns⟩, [(.dump c, .pkts ps)])
  | _ => some (s, [])

/-- A pass of `StreamDecoder::decode`, `sps_stream.cpp:37-60`, on an RTMP connection; `RtmpDemuxer::read_header`,
`/repo/src/avformat/sps_avformat_rtmpdec.cpp:41-43`, reads nothing. `none`: memory outside a message is accessed. -/
def runRtmpPub (s : Sys) (i cid : Nat) (ms : List RtmpMsg) (closed : Err) : Option (Sys × List (WOp × WOut)) :=
  (RtmpDemuxer.readPacket closed ms).map fun x =>
    match x with
    | ((_, some p), ms) => (⟨(s.w.put cid p).1, s.conns.set i (bare (.rtmpPub cid ms closed))⟩, [(.put cid p, (s.w.put cid p).2)])
    | ((e, none), _) => (⟨(s.w.unpublish cid).1, s.conns.set i (bare (.done (.rtmpPublisher cid) e))⟩, [(.unpublish cid, (s.w.unpublish cid).2)])

/-- Packets are written to an RTMP player until the first error. The packets are shared between players; sending does not change them (C81, C82). -/
def rtmpWrite : List AVPkt → MsgSink → Err × MsgSink
  | [], snk => (Err.SUCCESS, snk)
  | p :: ps, snk =>
    match RtmpMuxer.writePacket 20 p snk with
    | (e, snk) => if e ≠ Err.SUCCESS then (e, snk) else rtmpWrite ps snk

/-- An RTMP player's loop ends: `sps_stream_handler.cpp:115-118`. -/
def endRtmpView (s : Sys) (w : World) (l : List (WOp × WOut)) (i c : Nat) (e : Err) (snk : MsgSink) : Sys × List (WOp × WOut) :=
  (⟨(w.leave c).1, s.conns.set i (bare (.done (.rtmpPlayer c snk.out) e))⟩, l ++ [(.leave c, (w.leave c).2)])

/-- A pass of `StreamEncoder::encode`, `sps_stream.cpp:81-99`, on an RTMP connection. -/
def runRtmpView (s : Sys) (i c : Nat) (snk : MsgSink) : Option (Sys × List (WOp × WOut)) :=
  match s.w.dump c with
  | (w, .pkts []) => some (endRtmpView s w [(.dump c, .pkts [])] i c Err.ERROR_SOCKET_TIMEOUT snk)
  | (w, .pkts ps) =>
    some <| match rtmpWrite ps snk with
      | (e, snk) =>
        if e ≠ Err.SUCCESS then endRtmpView s w [(.dump c, .pkts ps)] i c e snk
        else (⟨w, s.conns.set i (bare (.rtmpView c snk))⟩, [(.dump c, .pkts ps)])
  | _ => some (s, [])

/-- Packets are put into a cache one after the other. -/
def putAll (cid : Nat) : World → List AVPkt → World × List (WOp × WOut)
  | w, [] => (w, [])
  | w, p :: ps =>
    match putAll cid (w.put cid p).1 ps with
    | (w', l) => (w', (.put cid p, (w.put cid p).2) :: l)

/-- An SRT publisher's loop ends: `sps_srt_stream_handler.cpp:81-84`; `w` and `l`: what happened before in this piece. -/
def endSrtPub (s : Sys) (w : World) (l : List (WOp × WOut)) (i cid : Nat) (e : Err) (r : HttpRsp) (snk : Sink) : Sys × List (WOp × WOut) :=
  (⟨(w.unpublish cid).1, s.conns.set i ⟨.done (.srtPublisher cid) e, r, snk⟩⟩, l ++ [(.unpublish cid, (w.unpublish cid).2)])

/-- A pass of the loop in `TsDemuxer::read_packet`, `/repo/src/avformat/sps_avformat_tsdec.cpp:65-91`, called by `SrtServerStreamHandler::publish`,
`sps_srt_stream_handler.cpp:72-79`: a packet that waits is put into the cache, or else 188 bytes are read and decoded, which may put a packet into the raw cache.
`none`: undefined behaviour in the demuxer. -/
def runSrtPub (s : Sys) (i cid : Nat) (rd : Reader) (ctx : TsCtx) (st : TsCodec) (r : HttpRsp) (snk : Sink) : Option (Sys × List (WOp × WOut)) :=
  match st.pop with
  | some (p, st) => some (⟨(s.w.put cid p).1, s.conns.set i ⟨.srtPub cid rd ctx st, r, snk⟩⟩, [(.put cid p, (s.w.put cid p).2)])
  | none =>
    (rd.acquire 188).bind fun x =>
      match x with
      | (e, rd) =>
        if e ≠ Err.SUCCESS then some (s.endSrtPub s.w [] i cid e r snk)
        else (rd.bytes 188).bind fun y =>
          (TsCtx.decodeAll TsTap.handler 189 ctx (st, []) y.1).map fun z =>
            match z with
            | (e, ctx, st, raw) =>
              match putAll (cid + 1) s.w raw with
              | (w, l) =>
                if e ≠ Err.SUCCESS then s.endSrtPub w l i cid e r snk
                else (⟨w, s.conns.set i ⟨.srtPub cid { rd with buf := rd.buf.clear } ctx st, r, snk⟩⟩, l)

/-- Packets are written to an SRT player until the first error, `sps_srt_stream_handler.cpp:110-116`. -/
def srtWrite : List AVPkt → Sink → Err × Sink
  | [], snk => (Err.SUCCESS, snk)
  | p :: ps, snk =>
    match snk.write p.payload with
    | (e, snk) => if e ≠ Err.SUCCESS then (e, snk) else srtWrite ps snk

/-- An SRT player's loop ends: `sps_srt_stream_handler.cpp:119-121`. -/
def endSrtView (s : Sys) (w : World) (l : List (WOp × WOut)) (i c : Nat) (e : Err) (r : HttpRsp) (snk : Sink) : Sys × List (WOp × WOut) :=
  (⟨(w.leave c).1, s.conns.set i ⟨.done (.srtPlayer c) e, r, snk⟩⟩, l ++ [(.leave c, (w.leave c).2)])

/-- A pass of the loop of `SrtServerStreamHandler::play`, `sps_srt_stream_handler.cpp:100-117`, after its wait: nothing pending means the time is over. -/
def runSrtView (s : Sys) (i c : Nat) (r : HttpRsp) (snk : Sink) : Sys × List (WOp × WOut) :=
  match s.w.dump c with
  | (w, .pkts []) => s.endSrtView w [(.dump c, .pkts [])] i c Err.ERROR_SOCKET_TIMEOUT r snk
  | (w, .pkts ps) =>
    match srtWrite ps snk with
    | (e, snk) =>
      if e ≠ Err.SUCCESS then s.endSrtView w [(.dump c, .pkts ps)] i c e r snk
      else (⟨w, s.conns.set i ⟨.srtView c, r, snk⟩⟩, [(.dump c, .pkts ps)])
  | _ => (s, [])

/-- A piece; `none` is undefined behaviour. -/
def step (env : Site.Env) (s : Sys) : Op → Option (Sys × List (WOp × WOut))
  | .other op => if s.owned op then some (s, []) else some (⟨(s.w.step op).1, s.conns⟩, [(op, (s.w.step op).2)])
  | .request q => some (s.request env q)
  | .wake i ret => some (s.wake env i ret)
  | .run i =>
    match s.conns[i]? with
    | some ⟨.flvPub cid rd headed, r, snk⟩ => s.runPub env i cid rd headed r snk
    | some ⟨.view c mux, r, snk⟩ => s.runView env i c mux r snk
    | some ⟨.nullView c, r, snk⟩ => s.runNull env i c r snk
    | some ⟨.rtmpPub cid ms closed, _, _⟩ => s.runRtmpPub i cid ms closed
    | some ⟨.rtmpView c snk, _, _⟩ => s.runRtmpView i c snk
    | some ⟨.srtPub cid rd ctx st, r, snk⟩ => s.runSrtPub i cid rd ctx st r snk
    | some ⟨.srtView c, r, snk⟩ => some (s.runSrtView i c r snk)
    | _ => some (s, [])

/-- An execution, with the log of what happened to the streams. -/
def run (env : Site.Env) : Sys → List Op → Option (Sys × List (WOp × WOut))
  | s, [] => some (s, [])
  | s, op :: ops => do
    let (s, l) ← s.step env op
    let (s, l') ← run env s ops
    return (s, l ++ l')

end Sys
end Sps
