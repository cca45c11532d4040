import Verif.Model.Serve
import Verif.Model.Names
import Verif.Model.HttpConn
/-!
# Relaying streams from an upstream server

`StreamEdge::handler`, `/repo/src/module/stream/sps_stream_edge.cpp:45-81`, joined to the stream requests of `Model/Serve`: what was a piece of "anything else"
there (a pull opens, puts a packet, ends) is here what the coroutine of the pull does with the answer of the upstream server.
-/
namespace Sps

/-- What `open` of the protocol object gives and `response()` says: `HttpUrlProtocol::open`, `/repo/src/io/url/sps_io_url_http.cpp:58-97`, with the framing the
header announces and the connection behind it (`mute`: it succeeds, but there is no response); `RtmpUrlProtocol`, `/repo/src/io/url/sps_io_url_rtmp.cpp:41-63, 97-99`, and `FileURLProtocol`,
`/repo/src/io/url/sps_io_url_file.cpp:40-68`, have no response. -/
inductive Answer
  | failed
  | mute
  | opened (status : Nat) (chunked : Bool) (cl : Int) (io : Io)

/-- The answer that `HttpUrlProtocol::open`, `/repo/src/io/url/sps_io_url_http.cpp:59-97`, makes of what an upstream server does. `none`: it reads forever. A response
that `http_parser` takes nothing of leaves `rsp` null, and `open` returns 0. -/
def Answer.get (p : Parsers) (u : Url) (up : Upstream) : Option Answer :=
  match HttpClient.open p u up with
  | .error _ => none
  | .ok (.inl _, _) => some .failed
  | .ok (.inr none, _) => some .mute
  | .ok (.inr (some (h, io)), _) => some (.opened h.status.toNat h.chunked h.cl io)

/-- What `StreamEdge::handler` does then. -/
inductive Verdict
  | ends
  | decodes (fmt : Reg)
  | undef               -- null is dereferenced
deriving DecidableEq, Repr

/-- `StreamEdge::handler` up to the decode loop, `sps_stream_edge.cpp:45-75`, for the URL `u`. `success()` of an HTTP response is that of the status
(`/repo/src/module/http/sps_http_parser.cpp:29-31`). The demuxer is created without a look at the result (line 70-72). -/
def Edge.verdict (protocols ins : List Reg) (junk : Text) (u : Url) (a : Answer) : Verdict :=
  match Protocol.create protocols u.schema with
  | none => .ends
  | some p =>
    match a with
    | .failed => .ends
    | .mute => .undef
    | .opened status _ _ _ =>
      if p.word ≠ ascii "http" then .undef
      else if status ≠ 200 then .ends
      else match Format.create ins u.ext junk with
        | none => .undef
        | some f => .decodes f

/-- The URL of a pull: `StreamEdgeEnter::start_edge`, `sps_stream_edge.cpp:138-150`. `none`: it cannot be parsed, and no pull is made; in `Model/Stream` a pull is made
that ends at once, which nobody can tell from that. -/
def Edge.target (parser : Text → Option UrlFields) (h : Conf.Module) (u : Url) : Option Url := Names.parseUrl parser {} (Host.edgeUrl h u)

/-- The coroutine of a pull. -/
inductive Pull
  | asks (u : Option Url)                                          -- waits for the answer of the upstream server
  | reads (cid : Nat) (rd : SReader HttpSrc) (headed : Bool)       -- `StreamDecoder::decode` with the FLV demuxer
  | other (cid : Nat)                                              -- with another demuxer
  | over (cid : Option Nat)                                        -- has ended; the cache it fed with the FLV demuxer

/-- All of the server that stream requests see, with the pulls by their numbers. -/
structure Relay where
  sys : Sys
  pulls : List Pull

/-- What does not change. -/
structure Relay.Env where
  site : Site.Env
  protocols : List Reg
  parser : Text → Option UrlFields

namespace Relay

/-- A server without requests. -/
def init : Relay := ⟨Sys.init, []⟩

/-- Pieces of the execution. -/
inductive Op
  /-- a piece of `Model/Serve`; `u` is the URL of the pull, should it be one that a player of another protocol asks for -/
  | sys (op : Sys.Op) (u : Option Url)
  /-- the upstream server answers pull `e`; `mem` is the memory of the demuxer's buffer -/
  | answer (e : Nat) (a : Answer) (mem : List UInt8)
  /-- one pass of the loop of pull `e` -/
  | pass (e : Nat)

/-- The pull feeds the cache. -/
def feeds (cid : Nat) : Pull → Bool
  | .reads c _ _ => c == cid
  | _ => false

/-- Pieces that are not anything else's business here. -/
def reserved (r : Relay) : Sys.Op → Bool
  | .other (.put cid _) => r.pulls.any (feeds cid)
  | .other (.edgeOpen _) => true
  | .other (.edgeEnd _) => true
  | _ => false

/-- The URL of a pull that the piece starts. -/
def asked (env : Env) (u : Option Url) : Sys.Op → Option Url
  | .request q => Edge.target env.parser q.host q.url
  | _ => u

/-- The pulls that were started. -/
def started (u : Option Url) (l : List (WOp × WOut)) : List Pull := l.filterMap fun x => match x.2 with | .edgeStarted _ => some (.asks u) | _ => none

/-- Does a piece of `Model/Serve` for a pull. -/
def also (env : Env) (r : Relay) (e : Nat) (op : WOp) (p : Pull) : Option (Relay × List (WOp × WOut)) :=
  (r.sys.step env.site (.other op)).map fun (s, l) => (⟨s, r.pulls.set e p⟩, l)

/-- The upstream server answers, `sps_stream_edge.cpp:59-75`. -/
def answer (env : Env) (r : Relay) (e : Nat) (a : Answer) (mem : List UInt8) (u : Option Url) : Option (Relay × List (WOp × WOut)) :=
  match u with
  | none => r.also env e (.edgeEnd e) (.over none)
  | some u =>
    match Edge.verdict env.protocols env.site.ins env.site.junk u a, a with
    | .undef, _ => none
    | .decodes f, .opened _ ch cl io =>
      let cid := r.sys.w.caches.length
      r.also env e (.edgeOpen e) (if f.word = ascii "flv" then .reads cid (SReader.on mem ⟨.client, { chunked := ch, cl := cl }, io⟩) false else .other cid)
    | _, _ => r.also env e (.edgeEnd e) (.over none)

/-- A pass of `StreamDecoder::decode`, `/repo/src/module/stream/sps_stream.cpp:37-60`, and at its end `sps_stream_edge.cpp:77-80`. -/
def pass (env : Env) (r : Relay) (e cid : Nat) (rd : SReader HttpSrc) (headed : Bool) : Option (Relay × List (WOp × WOut)) :=
  if headed then
    (FlvDemuxer.readPacket.runOn rd).bind fun x =>
      match x with
      | ((_, some p), rd) => r.also env e (.put cid p) (.reads cid rd true)
      | ((_, none), _) => r.also env e (.edgeEnd e) (.over (some cid))
  else
    (FlvDemuxer.readHeader.runOn rd).bind fun x =>
      match x with
      | ((_, some _), rd) => some (⟨r.sys, r.pulls.set e (.reads cid rd true)⟩, [])
      | ((_, none), _) => r.also env e (.edgeEnd e) (.over (some cid))

/-- A piece; `none` is undefined behaviour. -/
def step (env : Env) (r : Relay) : Op → Option (Relay × List (WOp × WOut))
  | .sys op u =>
    if r.reserved op then some (r, [])
    else (r.sys.step env.site op).map fun (s, l) => (⟨s, r.pulls ++ started (asked env u op) l⟩, l)
  | .answer e a mem =>
    match r.pulls[e]? with
    | some (.asks u) => r.answer env e a mem u
    | _ => some (r, [])
  | .pass e =>
    match r.pulls[e]? with
    | some (.reads cid rd headed) => r.pass env e cid rd headed
    | some (.other _) => r.also env e (.edgeEnd e) (.over none)
    | _ => some (r, [])

/-- An execution, with the log of what happened to the streams. -/
def run (env : Env) : Relay → List Op → Option (Relay × List (WOp × WOut))
  | r, [] => some (r, [])
  | r, op :: ops => do
    let (r, l) ← r.step env op
    let (r, l') ← run env r ops
    return (r, l ++ l')

end Relay
end Sps
