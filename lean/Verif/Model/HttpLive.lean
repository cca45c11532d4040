import Verif.Model.HttpConn
import Verif.Model.Serve
/-!
# An HTTP connection up to the stream

`Model/HttpConn` has the phases of a connection with the stream handler as a parameter; `Model/Serve` has the stream handler. Here is the request that the one hands to the other.
-/
namespace Sps

/-- What becomes of a request: the phases end with a result before there is a host, no host block serves it, a host block that is no `stream` host does, or it is handed to the stream handler. -/
inductive HttpArrival
  | ended (ret : Int)
  | unknown
  | other (h : Conf.Module)
  | stream (q : Req)

namespace HttpSite

/-- The phases `/repo/src/module/http/sps_http_module.cpp:94-95` up to the call of the stream handler: `HttpParsePhaseHandler::handler`, `/repo/src/module/http/sps_http_phase_handler.cpp:37-58`,
`HostRouterPhaseHandler::handler`, `/repo/src/module/host/sps_host_router_handler.cpp:39-53`, `HttpAdapterPhaseHandler::handler`, `/repo/src/module/http/sps_http_adapter_phase_handler.cpp:39-48`, and
`HttpStreamPhaseHandler::handler`, `/repo/src/module/http/sps_http_stream_phase_handler.cpp:39-49`. `mem` and `tag` are the memory that a demuxer or muxer would get. -/
def arrive (s : HttpSite) (mem tag : List UInt8) (c : HttpConn) : Except Phase.Stop HttpArrival :=
  match parse s.parsers c with
  | .error x => .error x
  | .ok (ret, c) =>
    if ret ≠ Phase.CONTINUE then .ok (.ended ret)
    else match c.req with
      | none => .error .crash
      | some u => match s.router.find u.host with
        | none => .ok .unknown
        | some h => match Host.adapter h with
          | .streaming => .ok (.stream { host := h, url := u, io := c.io, fails := c.snk.fails, mem := mem, tag := tag })
          | _ => .ok (.other h)

end HttpSite
end Sps
