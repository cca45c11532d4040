import Verif.Model.Rtp
/-!
# The transport stream demuxer with a copy of its packets

`/repo/src/avformat/sps_avformat_tsdec.cpp`, as `SrtServerStreamHandler::publish` uses it.
-/
namespace Sps

namespace TsCache

/-- `TsCache::on_packet`, `sps_avformat_tsdec.cpp:42-50`: the packet for the raw cache. `pusi` is a bit, so `pusi >> 31` is 0. `AVPacket::create` copies the
bytes; flags and codec are its defaults (`sps_avformat_packet.hpp:92-102`). -/
def packet (p : List UInt8) (type pusi : Nat) : AVPkt :=
  { stream := if type = 1 then .pes else .psi, pktType := (type ||| (pusi >>> 31) : Nat), payload := p, dts := 0, pts := 0, flags := 0, codec := 0 }

end TsCache

namespace TsTap

/-- The handlers of `TsDemuxer demuxer(c.socket, ts_handler)`, `/repo/src/module/srt/sps_srt_stream_handler.cpp:68-70`: the second part of the state are the packets
for the raw cache. Putting a packet into a cache succeeds, `sps_avformat_cache.cpp:75-88`. -/
def handler : TsHandler (TsCodec × List AVPkt) where
  onPes d s := (TsCodec.onPes d s.1).map fun (e, st) => (e, st, s.2)
  onPkt p type pusi s := some (Err.SUCCESS, s.1, s.2 ++ [TsCache.packet p type pusi])

end TsTap
end Sps
