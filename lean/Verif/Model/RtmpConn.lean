import Verif.Model.Names
import Verif.Model.Server
import Verif.Model.RtmpMsgs
/-!
# An RTMP connection up to the stream

The phases of an RTMP server, `/repo/src/module/rtmp/sps_rtmp_module.cpp:95-101`: handshake and negotiation, then the choice of the host.
-/
namespace Sps

/-- What comes from an RTMP client. librtmp is not part of the repository: `shake` is what its handshake returns, `talk` are the messages it takes from the connection, one after the other, and `closed`
is what receiving returns after them. `later n size` is what it takes from the connection, and how receiving ends, after the first `n` messages, if the object is replaced by a new one that expects chunks
of that size. `fails` is what sends return during the negotiation, `lost` after it. -/
structure RtmpCaller where
  shake : Err := Err.SUCCESS
  talk : List AmfMsg
  closed : Err
  later : Nat → Int → List RtmpMsg × Err
  fails : List Err := []
  lost : List Err := []

/-- What becomes of a connection, and what it was answered so far. -/
inductive RtmpArrival
  | refused (ret : Int) (sent : List RtmpReply)
  | stream (q : Req) (sent : List RtmpReply)

/-- The server: `parser` is `http_parser_parse_url`. -/
structure RtmpSite where
  parser : Text → Option UrlFields
  router : Router

namespace RtmpSite

/-- `RtmpPrepareHandler::handler`, `/repo/src/module/rtmp/sps_rtmp_server_handler.cpp:50-83`, then `HostRouterPhaseHandler::handler`, `/repo/src/module/host/sps_host_router_handler.cpp:39-53`, with
`RtmpServer404Handler::handler`, `sps_rtmp_server_handler.cpp:39-43`, or, up to the call of the stream handler, `RtmpServerStreamHandler::handler`, `/repo/src/module/rtmp/sps_rtmp_stream_handler.cpp:68-72`.
The media are read with the new hook of the context (`RtmpPrepared.prepare`). What the old hook knows is not followed here: it is not used any more. `none`: undefined behaviour while commands are decoded. -/
def arrive (site : RtmpSite) (c : RtmpCaller) : Option RtmpArrival :=
  if c.shake ≠ Err.SUCCESS then some (.refused Err.ERROR_RTMP_HANDSHAKE [])
  else (PreRequest.connect c.closed { fails := c.fails } c.talk).map fun x =>
    match x with
    | (e, pre, rest) =>
      if e ≠ Err.SUCCESS then .refused e pre.sent
      else
        let p := RtmpPrepared.prepare RtmpHook.create pre
        match Names.rtmp site.parser p with
        | none => .refused (-1) pre.sent
        | some u => match site.router.find u.host with
          | none => .refused Err.ERROR_UPSTREAM_NOT_FOUND pre.sent
          | some h =>
            let m := c.later (c.talk.length - rest.length) p.hook.inChunk
            .stream { host := h, url := u, io := { evs := [], closed := c.closed }, fails := c.lost, mem := List.replicate 64 0, tag := List.replicate 29 0,
                      via := .rtmp p.publishing m.1 m.2 } pre.sent

end RtmpSite
end Sps
