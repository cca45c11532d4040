import Verif.Model.Io
import Verif.Model.Flv
/-!
# Model of the connection of an RTMP library with a transport (`/repo/src/avformat/sps_avformat_librtmp.cpp`)

librtmp is not part of the repository. It is given functions for reading and writing and calls them as it likes: any program over these calls.
-/
namespace Sps

/-- What librtmp does until it returns: calls of `RTMPSockBuf_Fill` (with room for `n` bytes; -1 is `none`) and of `RTMPSockBuf_Send` (-1 is `false`). -/
inductive RtmpLib (α : Type) : Type
  | done (a : α)
  | fill (n : Nat) (k : Option (List UInt8) → RtmpLib α)
  | send (bytes : List UInt8) (k : Bool → RtmpLib α)

/-- `RtmpHook`, `/repo/src/avformat/sps_avformat_librtmp.hpp`, the part for input and output: the transport `skt` and `error`. -/
structure RtmpSkt where
  io : Io
  sink : Sink
  error : Err := Err.SUCCESS

/-- A call of the library and what came of it. -/
inductive RtmpCall
  | got (room : Nat) (bytes : List UInt8)
  | notGot (e : Err)
  | sent (bytes : List UInt8)
  | notSent (e : Err)
deriving DecidableEq, Repr

namespace RtmpSkt

/-- `SPS_RTMPSockBuf_Fill`, `/repo/src/avformat/sps_avformat_librtmp.cpp:775-794`. -/
def fill (h : RtmpSkt) (n : Nat) : Option (List UInt8) × RtmpSkt × RtmpCall :=
  match h.io.read n with
  | (.ok bs, io) => (some bs, { h with io := io, error := Err.SUCCESS }, .got n bs)
  | (.err e, io) => (none, { h with io := io, error := e }, .notGot e)

/-- `SPS_RTMPSockBuf_Send`, `/repo/src/avformat/sps_avformat_librtmp.cpp:761-773`. -/
def send (h : RtmpSkt) (bs : List UInt8) : Bool × RtmpSkt × RtmpCall :=
  match h.sink.write bs with
  | (e, sink) => (e = Err.SUCCESS, { h with sink := sink, error := e }, if e = Err.SUCCESS then .sent bs else .notSent e)

/-- The library runs. -/
def run {α : Type} (h : RtmpSkt) : RtmpLib α → α × RtmpSkt × List RtmpCall
  | .done a => (a, h, [])
  | .fill n k => match h.fill n with
    | (r, h, c) => match run h (k r) with
      | (a, h, cs) => (a, h, c :: cs)
  | .send bs k => match h.send bs with
    | (r, h, c) => match run h (k r) with
      | (a, h, cs) => (a, h, c :: cs)

/-- `RtmpHook::recv_packet`, `/repo/src/avformat/sps_avformat_librtmp.cpp:522-551`, without `on_recv_packet` (C22): the calls of `RTMP_ReadPacket` up to a failure (`none`) or a
complete packet are one program. -/
def recvPacket {α : Type} (h : RtmpSkt) (lib : RtmpLib (Option α)) : Err × Option α × RtmpSkt :=
  match h.run lib with
  | (some p, h, _) => (Err.SUCCESS, some p, h)
  | (none, h, _) => (h.error, none, h)

/-- `RtmpHook::send_packet`, `/repo/src/avformat/sps_avformat_librtmp.cpp:557-563`, without `on_send_packet`, which always succeeds. -/
def sendPacket (h : RtmpSkt) (lib : RtmpLib Bool) : Err × RtmpSkt :=
  match h.run lib with
  | (true, h, _) => (Err.SUCCESS, h)
  | (false, h, _) => (h.error, h)

/-- `RtmpHook::server_handshake`, `/repo/src/avformat/sps_avformat_librtmp.cpp:184-190`; the same for `client_connect`, lines 565-590, with another error. -/
def handshake (h : RtmpSkt) (lib : RtmpLib Bool) : Err × RtmpSkt :=
  match h.run lib with
  | (true, h, _) => (Err.SUCCESS, h)
  | (false, h, _) => (if h.error ≠ Err.SUCCESS then h.error else Err.ERROR_RTMP_HANDSHAKE, h)

end RtmpSkt
end Sps
