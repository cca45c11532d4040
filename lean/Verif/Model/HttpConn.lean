import Verif.Model.Http
import Verif.Model.Names
import Verif.Model.Server
/-!
# An HTTP connection from its bytes to its answers

The phases an HTTP server registers (`HttpModule::install`, `/repo/src/module/http/sps_http_module.cpp:91-95`): the header of a request is read and
parsed, then the host selected; the host's type decides about the rest. `Connection::handler` does this again and again.

`http_parser` is not part of the repository: its three uses are parameters (`Parsers`). The stream handler is a parameter, too: it is the subject of
`Model/Serve`.
-/
namespace Sps
open Conf

/-- What `http_parser_execute` makes of a request header: how many bytes it took (it stops at an error), and what its callbacks were given
(`/repo/src/module/http/sps_http_parser.cpp:219-253`; see `HttpHead.calls`). -/
structure HttpReqIn where
  count : Nat
  method : Text
  target : Text
  headers : List Header
deriving DecidableEq, Repr

/-- The uses of `http_parser`: `http_parser_parse_url`, `http_parser_execute` on the header of a request and of a response (how many bytes it took,
and the fields `parse_response` reads, `/repo/src/module/http/sps_http_parser.cpp:96-109`), and `http_status_str`. -/
structure Parsers where
  url : Text → Option UrlFields
  req : Text → HttpReqIn
  rsp : Text → Nat × HttpHeadIn
  reason : Int → Text

/-- What becomes of a connection to an upstream: it is not made; or writes to it fail as listed, and `io` comes back. -/
inductive Upstream
  | down
  | up (fails : List Err) (io : Io)
deriving DecidableEq, Repr

namespace HttpClient

/-- `HttpUrlProtocol::open`, `/repo/src/io/url/sps_io_url_http.cpp:59-97`. The response is `none` if the parser took nothing of the header: `parse_header`
then returns 0, which line 86 takes for a failure and the caller for `SUCCESS`. `.error` is `SUCCESS` never. The second result is what was written to
the upstream. -/
def «open» (p : Parsers) (u : Url) : Upstream → Except Phase.Stop ((Int ⊕ Option (HttpHeadIn × Io)) × List UInt8)
  | .down => .ok (.inl Err.ERROR_HTTP_SOCKET_CONNECT, [])
  | .up fails io =>
    match ({ out := [], fails := fails } : Sink).write (openText u) with
    | (e, s) =>
      if e ≠ Err.SUCCESS then .ok (.inl e, s.out)
      else match HttpHead.parse 2048 io with
        | none => .error .hang
        | some (.error e, _) => .ok (.inl e, s.out)
        | some (.ok head, io) => .ok (.inr (if (p.rsp head).1 = 0 then none else some ((p.rsp head).2, io)), s.out)

end HttpClient

/-- A connection and what the handlers see of it: what arrives, what was written, the request of the context
(`IConnection::context`, `/repo/src/module/server/sps_server_handler.cpp:33-39`); further, what the upstreams will do, one for each use, and which were
connected to (address, port, and the bytes written to them). -/
structure HttpConn where
  io : Io
  snk : Sink
  req : Option Url := none
  ups : List Upstream := []
  asked : List (Text × Int × List UInt8) := []

/-- What a server is made of: the parsers, its hosts and the stream handler: for a host and a request, what it does with what is left on the connection. -/
structure HttpSite where
  parsers : Parsers
  router : Router
  stream : Module → Url → Io → Sink → Except Phase.Stop (Err × HttpRsp × Io × Sink)

namespace HttpSite

/-- `Io.size`: the bytes that will arrive, and the number of pieces and errors. -/
def fuel : List IoEv → Nat
  | [] => 2
  | .data d :: evs => d.length + 1 + fuel evs
  | .err _ :: evs => 1 + fuel evs

/-- `HttpParsePhaseHandler::handler`, `/repo/src/module/http/sps_http_phase_handler.cpp:37-58`, with
`/repo/src/module/http/sps_http_parser.cpp:133-201`. A parser that takes no byte makes `parse_header` return 0: the handler returns it in line 44, and for
the caller 0 is `SPS_PHASE_CONTINUE`. The context is not changed then. -/
def parse (p : Parsers) : Phase.Handler HttpConn := fun c =>
  match HttpHead.parse 2048 c.io with
  | none => .error .hang
  | some (.error e, io) => .ok (e, { c with io := io })
  | some (.ok head, io) =>
    let r := p.req head
    if r.count = 0 then .ok (Phase.SUCCESS, { c with io := io })
    else .ok (Phase.CONTINUE, { c with io := io, req := some (Names.http p.url r.method r.target r.headers) })

/-- `Http404PhaseHandler::handler`, `/repo/src/module/http/sps_http_phase_handler.cpp:64-81`; the result of the write is only logged. -/
def notFound (p : Parsers) : Phase.Handler HttpConn := fun c =>
  match (HttpRsp.init {} 404 none 0 false).writeHeader p.reason c.snk with
  | (_, _, snk) => .ok (Phase.NO_CONTINUE, { c with snk := snk })

/-- `HttpProxyPhaseHandler::handler`, `/repo/src/module/http/sps_http_proxy_phase_handler.cpp:42-97`. The URL of an HTTP request begins with `http:`; if it could
not be parsed there is no scheme, hence no protocol. An address that is empty is replaced by the host (`/repo/src/io/url/sps_io_url_http.cpp:61-62`). Line 69
reads through a null pointer if there is no response. -/
def proxy (p : Parsers) (h : Module) (u : Url) : Phase.Handler HttpConn := fun c =>
  if u.schema ≠ ascii "http" then .ok (Err.ERROR_UPSTREAM_NOT_FOUND, c)
  else match c.ups with
    | [] => .error .hang
    | up :: ups =>
      let (ip, port) := Host.proxyAddress h
      match HttpClient.open p u up with
      | .error x => .error x
      | .ok (r, w) =>
        let c := { c with ups := ups, asked := c.asked ++ [(if ip = [] then u.host else ip, port, w)] }
        match r with
        | .inl e => .ok (e, c)
        | .inr none => .error .crash
        | .inr (some (rsp, io)) =>
          match HttpProxy.respond p.reason (fuel io.evs) rsp io c.snk with
          | none => .error .hang
          | some (.ok (), _, snk) => .ok (Phase.NO_CONTINUE, { c with snk := snk })
          | some (.error e, _, snk) => .ok (e, { c with snk := snk })

/-- `HttpStreamPhaseHandler::handler`, `/repo/src/module/http/sps_http_stream_phase_handler.cpp:39-69`, around the stream handler. -/
def streaming (s : HttpSite) (h : Module) (u : Url) : Phase.Handler HttpConn := fun c =>
  match s.stream h u c.io c.snk with
  | .error x => .error x
  | .ok (ret, rsp, io, snk) =>
    match HttpStream.finish s.parsers.reason ret rsp snk with
    | (e, _, snk) => .ok (e, { c with io := io, snk := snk })

/-- `HttpAdapterPhaseHandler::handler`, `/repo/src/module/http/sps_http_adapter_phase_handler.cpp:39-48`; `HttpApiPhaseHandler::handler`,
`/repo/src/module/http/sps_http_api_phase_handler.cpp:32-34`. -/
def adapter (s : HttpSite) (h : Module) (u : Url) : Phase.Handler HttpConn := fun c =>
  match Host.adapter h with
  | .streaming => s.streaming h u c
  | .api => .ok (Err.ERROR_HTTP_RSP_NOT_OK, c)
  | .proxying => proxy s.parsers h u c

/-- `HostRouterPhaseHandler::handler`, `/repo/src/module/host/sps_host_router_handler.cpp:39-53`, with the handlers `HttpModule::install` gives it. Line 40 reads
through a null pointer if there is no context. -/
def route (s : HttpSite) : Phase.Handler HttpConn := fun c =>
  match c.req with
  | none => .error .crash
  | some u => match s.router.find u.host with
    | none => notFound s.parsers c
    | some h => s.adapter h u c

/-- The phases, `/repo/src/module/http/sps_http_module.cpp:94-95`. -/
def phases (s : HttpSite) : List (Phase.Handler HttpConn) := [parse s.parsers, s.route]

/-- A connection, `Connection::handler`: at most `n` requests. -/
def serve (s : HttpSite) (n : Nat) (c : HttpConn) : Option (Except Phase.Stop (Int × HttpConn)) := Phase.connection s.phases n c

end HttpSite
end Sps
