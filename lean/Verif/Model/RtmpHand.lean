import Verif.Model.RtmpIo
/-!
# Model of the hand-over from the negotiation of an RTMP connection to its stream (`/repo/src/module/rtmp/sps_rtmp_server_handler.cpp`)
-/
namespace Sps
namespace RtmpSkt

/-- `RtmpContext::RtmpContext`, `/repo/src/module/rtmp/sps_rtmp_server.cpp:32-36`: a new `RtmpHook` (`/repo/src/avformat/sps_avformat_librtmp.cpp:88-105`) for the same socket. -/
def handOver (h : RtmpSkt) : RtmpSkt := { h with error := Err.SUCCESS }

/-- `RtmpPrepareHandler::handler`, `/repo/src/module/rtmp/sps_rtmp_server_handler.cpp:50-83`: handshake and negotiation on one `RtmpHook`, what follows on another one. What the library of the first one has
got and not used goes away with it: the program `media` of the second one has only what the negotiation returned (`a`). The calls of both. -/
def session {α β : Type} (h : RtmpSkt) (talk : RtmpLib α) (media : α → RtmpLib β) : β × RtmpSkt × List RtmpCall × List RtmpCall :=
  match h.run talk with
  | (a, h, cs) => match h.handOver.run (media a) with
    | (b, h, cs') => (b, h, cs, cs')

end RtmpSkt
end Sps
