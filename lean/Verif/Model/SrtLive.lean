import Verif.Model.Names
import Verif.Model.Server
/-!
# An SRT connection up to the stream

The two phases of an SRT connection: the stream id becomes a request, and the host block that serves it is looked for.
-/
namespace Sps

/-- What does not change: `http_parser_parse_url`, and the host blocks. -/
structure SrtSite where
  parser : Text → Option UrlFields
  router : Router

/-- What becomes of a connection: it ends with an error, or it is handed to the stream handler. -/
inductive SrtArrival
  | refused (e : Err)
  | stream (q : Req)

namespace SrtSite

/-- The phases `/repo/src/module/srt/sps_srt_module.cpp:89-95` up to the call of the stream handler: `SrtPrepareHandler::handler`,
`/repo/src/module/srt/sps_srt_server_handler.cpp:114-134`, and `HostRouterPhaseHandler::handler`, `/repo/src/module/host/sps_host_router_handler.cpp:39-53`,
without a handler for hosts that are not found. `id` is what `srt_getsockflag(SRTO_STREAMID)` gives; `io` and `fails` are how reads and writes of the socket
go; `mem` and `tag` are the memory that a demuxer or muxer would get. A URL for which `substr` throws (`Names.parseUrl`) is among those refused. -/
def arrive (s : SrtSite) (id : Text) (io : Io) (fails : List Err) (mem tag : List UInt8) : SrtArrival :=
  match Names.srt s.parser id with
  | none => .refused Err.ERROR_SRT_STREAM_ID
  | some u => match s.router.find u.host with
    | none => .refused Err.ERROR_HOST_NOT_EXISTS
    | some h => .stream { host := h, url := u, io := io, fails := fails, mem := mem, tag := tag, via := .srt }

end SrtSite
end Sps
