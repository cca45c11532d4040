import Verif.Model.Rtmp
/-!
# One packet in memory, sent to several players

The caches hand the same `PAVPacket` to all players. The RTMP muxer puts its sub-header before the payload and lets librtmp send from the memory of the packet
(`/repo/src/avformat/sps_avformat_rtmpenc.cpp:47-152`; the copy in lines 51-61 is disabled). librtmp by itself changes that memory (comment in line 53); the version
the repository is built with (`/repo/.gitmodules`, a fork that is not part of the repository) has a switch against it, which `RtmpHook` turns on.
-/
namespace Sps

/-- The memory of an `AVPacket`: the allocation of `head + size` bytes, and the other fields (the payload of `info` is not used). -/
structure Shared where
  mem : List UInt8
  head : Nat
  info : AVPkt
deriving DecidableEq, Repr

namespace Shared
open FlvMuxer (low)

/-- `FLV_HEAD_TAG_SIZE`, `/repo/src/avformat/sps_avformat_packet.hpp:36`. -/
def HEAD : Nat := 20

/-- `AVPacket::create`, `/repo/src/avformat/sps_avformat_packet.cpp:34-51`; `junk` is the head area. -/
def create (p : AVPkt) (junk : List UInt8) : Shared := ⟨junk ++ p.payload, junk.length, p⟩

/-- The packet as it is seen now. -/
def pkt (s : Shared) : AVPkt := { s.info with payload := s.mem.drop s.head }

/-- `m_nChannel`, `sps_avformat_rtmpenc.cpp:76`, `89`, `106`. -/
def channel (p : AVPkt) : Nat := if p.isVideo then 6 else 4

end Shared

/-! ## librtmp

Not part of the repository. `RTMP_SendPacket` as in librtmp's `rtmp.c`, for a message with a full header (`RTMP_PACKET_SIZE_LARGE`) on a
channel below 64. With the switch `m_pktReadonly` of the fork it is taken to send the same and to write nothing into the packet. -/
namespace Librtmp

/-- `m_pktReadonly` as the constructor of `RtmpHook` sets it ("not change the packet"), `/repo/src/avformat/sps_avformat_librtmp.cpp:104`. -/
def READONLY : Bool := true

/-- `m_outChunkSize`: 128 from the start, and what `send_set_chunked_size` announces (`/repo/src/avformat/sps_avformat_librtmp.cpp:493-520`), so that
`on_send_packet` (lines 132-152) does not change it (C126). -/
def CHUNK : Nat := 128

/-- The header of the first chunk: 12 bytes, and 4 for a time that does not fit in three bytes. `m_nInfoField2` is 1 (`sps_avformat_rtmpenc.cpp:70`). -/
def header (chan ts size type : Nat) : List UInt8 :=
  let t := min ts 0xffffff
  [UInt8.ofNat chan, UInt8.ofNat (t / 65536), UInt8.ofNat (t / 256), UInt8.ofNat t,
    UInt8.ofNat (size / 65536), UInt8.ofNat (size / 256), UInt8.ofNat size, UInt8.ofNat type, 1, 0, 0, 0] ++
    (if ts ≥ 0xffffff then [UInt8.ofNat (ts / 16777216), UInt8.ofNat (ts / 65536), UInt8.ofNat (ts / 256), UInt8.ofNat ts] else [])

/-- The chunk loop: `left` bytes from `pos` are to be sent. The one-byte header of each further chunk is put into the memory before it (some
versions of librtmp put five bytes there when the time is extended; not modelled). Returns what the
chunks carry, and the memory. -/
def chunks (chan : Nat) : (fuel : Nat) → (mem : List UInt8) → (pos left : Nat) → List UInt8 × List UInt8
  | 0, mem, _, _ => ([], mem)
  | fuel + 1, mem, pos, left =>
    let n := min left CHUNK
    let d := (mem.drop pos).take n
    if left - n = 0 then (d, mem)
    else
      let (r, mem) := chunks chan fuel (mem.set (pos + n - 1) (UInt8.ofNat (0xc0 ||| chan))) (pos + n) (left - n)
      (d ++ r, mem)

/-- `RTMP_SendPacket` of the message of `size` bytes at `off`. Without the switch the header `hdr` is put before the message; `none`: it does not fit there. -/
def send (readonly : Bool) (chan : Nat) (hdr mem : List UInt8) (off size : Nat) : Option (List UInt8 × List UInt8) :=
  if readonly then some ((mem.drop off).take size, mem)
  else if hdr.length ≤ off then some (chunks chan (size + 1) (mem.take (off - hdr.length) ++ hdr ++ mem.drop off) off size) else none

end Librtmp

namespace Shared
open FlvMuxer (low)

/-- A player of the packet: over RTMP or over HTTP-FLV. -/
inductive Viewer
  | rtmp
  | flv
deriving DecidableEq, Repr

/-- What a player was sent: an RTMP message, or the packet in a tag. -/
inductive Got
  | msg (m : RtmpMsg)
  | tag (p : AVPkt)
  | nothing (e : Err)
deriving DecidableEq, Repr

/-- The packet is written to a player: `RtmpAVMuxer::write_packet`, `sps_avformat_rtmpenc.cpp:47-152`, or `FlvAVMuxer::write_packet`,
`sps_avformat_flvenc.cpp:73-174`, which only reads the packet. The RTMP sub-header is put before the payload (lines 95-97, 121-132). -/
def write (readonly : Bool) (s : Shared) : Viewer → Option (Got × Shared)
  | .flv => some (.tag s.pkt, s)
  | .rtmp =>
    match RtmpMuxer.encode s.head s.pkt with
    | (e, none) => some (.nothing e, s)
    | (_, some m) =>
      let body := m.body.getD []
      let off := s.head + s.pkt.payload.length - body.length
      (Librtmp.send readonly (channel s.info) (Librtmp.header (channel s.info) m.ts body.length m.type) (s.mem.take off ++ body) off body.length).map fun (sent, mem) =>
        (.msg { m with body := some sent }, { s with mem := mem })

/-- One player after another. -/
def writeAll (readonly : Bool) : Shared → List Viewer → Option (List Got × Shared)
  | s, [] => some ([], s)
  | s, v :: vs => do
    let (g, s) ← s.write readonly v
    let (gs, s) ← writeAll readonly s vs
    return (g :: gs, s)

end Shared

/-! ## Players at the same time

A write to a socket waits when the peer is slow, and other players are served meanwhile. -/

/-- A player that is being sent the packet: `size` bytes from `off` on, and what it was sent so far. -/
structure Sending where
  viewer : Shared.Viewer
  off : Nat
  size : Nat
  sent : List UInt8
deriving DecidableEq, Repr

/-- The packet and the players that were or are being sent it. -/
structure Serving where
  pkt : Shared
  sends : List Sending
deriving DecidableEq, Repr

/-- A piece of the work: sending to a new player begins; or the `i`-th player's socket takes up to `n` more bytes. -/
inductive Serving.Turn
  | start (v : Shared.Viewer)
  | more (i n : Nat)
deriving DecidableEq, Repr

namespace Serving

/-- `RtmpAVMuxer::write_packet`, `sps_avformat_rtmpenc.cpp:63-144`, up to the call of `writer->write`: the sub-header is put before the payload; and `FlvAVMuxer::write_packet`,
`sps_avformat_flvenc.cpp:73-174`, which only reads the packet. A packet without a message is not sent. -/
def start (s : Serving) : Shared.Viewer → Serving
  | .flv => { s with sends := s.sends ++ [⟨.flv, s.pkt.head, s.pkt.pkt.payload.length, []⟩] }
  | .rtmp =>
    match RtmpMuxer.encode s.pkt.head s.pkt.pkt with
    | (_, none) => s
    | (_, some m) =>
      let body := m.body.getD []
      let off := s.pkt.head + s.pkt.pkt.payload.length - body.length
      ⟨{ s.pkt with mem := s.pkt.mem.take off ++ body }, s.sends ++ [⟨.rtmp, off, body.length, []⟩]⟩

/-- The next bytes of a player are read from the memory of the packet and sent; with `m_pktReadonly` (`Librtmp.READONLY`) nothing is written there. The bytes of the
chunk headers are left out. -/
def more (s : Serving) (i n : Nat) : Serving :=
  { s with sends := s.sends.modify i fun g => { g with sent := g.sent ++ (s.pkt.mem.drop (g.off + g.sent.length)).take (min n (g.size - g.sent.length)) } }

/-- One piece. -/
def step (s : Serving) : Turn → Serving
  | .start v => s.start v
  | .more i n => s.more i n

/-- Pieces one after the other, in any order. -/
def run (s : Serving) (ts : List Turn) : Serving := ts.foldl step s

end Serving
end Sps
