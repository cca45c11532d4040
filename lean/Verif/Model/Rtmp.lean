import Verif.Model.Flv
import Verif.Model.Text
/-!
# Model of RTMP media messages, commands and flow control

`/repo/src/avformat/sps_avformat_rtmpdec.cpp`, `sps_avformat_rtmpenc.cpp`, `sps_avformat_librtmp.cpp`,
`sps_avformat_librtmp_packet.cpp`, `/repo/src/module/rtmp/sps_rtmp_server_handler.cpp`.

librtmp itself (chunking, handshake, AMF bytes) is not part of the repository: a message is what `RTMP_ReadPacket`
delivers and `RTMP_SendPacket` takes, an AMF object is what `AMF_Decode` delivers.
-/
namespace Sps

/-- What the code uses of an `RTMPPacket` (`librtmp/rtmp.h`): `m_packetType`, `m_nTimeStamp` (`uint32_t`) and the body;
`none` is a null `m_body`. -/
structure RtmpMsg where
  type : Nat
  ts : Nat
  body : Option (List UInt8)
deriving DecidableEq, Repr

namespace RtmpDemuxer
open RProg

/-- The packet made from what is left of the message, `sps_avformat_rtmpdec.cpp:130-135`. -/
def rest (st : StreamType) (pktType flags codec : Nat) (dts pts : Int) : RProg (Err × Option AVPkt) := do
  let n ← rdSize
  let d ← rdBytes n
  return (Err.SUCCESS, some { stream := st, pktType := pktType, payload := d, dts := dts, pts := pts, flags := flags, codec := codec })

/-- The video branch, `sps_avformat_rtmpdec.cpp:84-136`. -/
def video (dts : Int) : RProg (Err × Option AVPkt) := do
  let e ← acq 1
  if e ≠ Err.SUCCESS then return (e, none)
  let flag ← rd8
  let frameType := flag &&& 0xf0
  let codec := flag &&& 0x0f
  if codec ≠ 7 ∧ codec ≠ 12 then return (Err.ERROR_FLV_VIDEO_CODECID, none)
  if frameType ≠ 0x50 then
    let e ← acq 4
    if e ≠ Err.SUCCESS then return (e, none)
    let pktType ← rd8
    let cts ← rd24
    rest .video pktType flag codec dts (dts + FlvDemuxer.signExtend24 cts)
  else rest .video 0 flag codec dts dts

/-- The audio branch, `sps_avformat_rtmpdec.cpp:137-167`. The packet type is read without `acquire`. -/
def audio (dts : Int) : RProg (Err × Option AVPkt) := do
  let e ← acq 1
  if e ≠ Err.SUCCESS then return (e, none)
  let flag ← rd8
  let codec := (flag &&& 0xf0) >>> 4
  if codec ≠ 10 then return (Err.ERROR_FLV_AUDIO_CODECID, none)
  let pktType ← rd8
  rest .audio pktType flag codec dts dts

/-- One message, `sps_avformat_rtmpdec.cpp:73-179`: `none` when it is skipped. `is_video`, `is_audio`, `is_script` are
`sps_avformat_librtmp_packet.cpp:134-145`. -/
def branch (m : RtmpMsg) : Option (RProg (Err × Option AVPkt)) :=
  match m.body with
  | none => none
  | some _ =>
    if m.type = 9 then some (video m.ts)
    else if m.type = 8 then some (audio m.ts)
    else if m.type = 18 ∨ m.type = 15 then some (rest .subtitle 0 0 0 m.ts m.ts)
    else none

/-- `RtmpDemuxer::read_packet`, `sps_avformat_rtmpdec.cpp:45-188`, over the messages to come; then the protocol fails with
`closed`. Returns also the messages not read yet. -/
def readPacket (closed : Err) : List RtmpMsg → Option ((Err × Option AVPkt) × List RtmpMsg)
  | [] => some ((closed, none), [])
  | m :: ms =>
    match branch m with
    | none => readPacket closed ms
    | some p => (p.run (Reader.create (m.body.getD []))).map fun x => (x.1, ms)

/-- Read until the first error, at most `n` packets, `module/stream/sps_stream.cpp:49-57`. -/
def readPackets (closed : Err) : Nat → List RtmpMsg → Option (List AVPkt × Err)
  | 0, _ => some ([], Err.SUCCESS)
  | n + 1, ms => do
    let ((e, p), ms) ← readPacket closed ms
    match p with
    | none => return ([], e)
    | some p =>
      let (ps, e) ← readPackets closed n ms
      return (p :: ps, e)

end RtmpDemuxer

/-- The protocol the muxer writes to (`RtmpUrlProtocol::write`, `io/url/sps_io_url_rtmp.cpp:87-95`): the messages sent, and
what the coming sends return (then success). -/
structure MsgSink where
  out : List RtmpMsg
  fails : List Err
deriving DecidableEq, Repr

namespace MsgSink
/-- `RtmpUrlProtocol::write`. -/
def write (s : MsgSink) (m : RtmpMsg) : Err × MsgSink :=
  match s.fails with
  | [] => (Err.SUCCESS, { s with out := s.out ++ [m] })
  | e :: fs => if e = Err.SUCCESS then (e, { out := s.out ++ [m], fails := fs }) else (e, { s with fails := fs })
end MsgSink

namespace RtmpMuxer
open FlvMuxer (low)

/-- The three bytes of the composition offset as the code writes them, `sps_avformat_rtmpenc.cpp:119-125`. -/
def ctsBytes (p : AVPkt) : List UInt8 :=
  let cts := (low 32 (p.pts - p.dts) + 0xff800000) % 2 ^ 32 ^^^ 0xff800000
  [UInt8.ofNat (cts &&& 0x0f00), UInt8.ofNat (cts &&& 0xf0), UInt8.ofNat (cts &&& 0x0f)]

/-- The message for a packet whose head area has `head` bytes, `sps_avformat_rtmpenc.cpp:63-144`: an error, nothing
(unknown stream type) or a message. The sub-header is written into the head area, in front of the payload. -/
def encode (head : Nat) (p : AVPkt) : Err × Option RtmpMsg :=
  let msg (t : Nat) (pre : List UInt8) : RtmpMsg := { type := t, ts := low 32 p.dts, body := some (pre ++ p.payload) }
  if p.isScript then (Err.SUCCESS, some (msg 18 []))
  else if p.isAudio then
    if head < 2 then (Err.ERROR_RTMP_HEAD_TOO_SHORT, none)
    else (Err.SUCCESS, some (msg 8 [UInt8.ofNat (low 8 p.flags), if p.isAudioHeader then 0 else 1]))
  else if p.isVideo then
    if head < 5 then (Err.ERROR_RTMP_HEAD_TOO_SHORT, none)
    else if low 8 p.flags &&& 0xf0 ≠ 0x50 then
      (Err.SUCCESS, some (msg 9 ([UInt8.ofNat (low 8 p.flags), if p.isVideoHeader then 0 else 1] ++ ctsBytes p)))
    else (Err.SUCCESS, some (msg 9 [UInt8.ofNat (low 8 p.flags)]))
  else (Err.SUCCESS, none)

/-- `RtmpAVMuxer::write_packet`, `sps_avformat_rtmpenc.cpp:47-152`. -/
def writePacket (head : Nat) (p : AVPkt) (snk : MsgSink) : Err × MsgSink :=
  match encode head p with
  | (e, none) => (e, snk)
  | (_, some m) => snk.write m

/-- Write packets until the first error, `module/stream/sps_stream.cpp:72-102`. -/
def writePackets (head : Nat) : List AVPkt → MsgSink → Err × MsgSink
  | [], snk => (Err.SUCCESS, snk)
  | p :: ps, snk =>
    let (e, snk) := writePacket head p snk
    if e ≠ Err.SUCCESS then (e, snk) else writePackets head ps snk

end RtmpMuxer

/-! ## AMF commands -/

/-- An AMF value, as far as the code looks at it; `num` is the bit pattern of the double. -/
inductive AmfVal
  | num (bits : Nat)
  | str (s : List UInt8)
  | obj (props : List (List UInt8 × AmfVal × Int))
  | null
  | other (type : Nat)

/-- `AMFObjectProperty` (`librtmp/amf.h`): a name, a value and `p_UTCoffset` (which librtmp sets for dates only). -/
abbrev AmfProp := List UInt8 × AmfVal × Int

namespace Amf

/-- `get_amf_prop(prop, AVal*)`, `sps_avformat_librtmp_packet.cpp:52-62`; `AMF_INVALID` is `0xff`. -/
def getStr (p : AmfProp) : Err × List UInt8 :=
  if p.2.2 = 0xff then (Err.ERROR_RTMP_AMF_PROP_NOT_FOUND, [])
  else match p.2.1 with
    | .str s => (Err.SUCCESS, s)
    | _ => (Err.ERROR_RTMP_AMF_PROP_TYPE, [])

/-- `get_amf_prop(prop, double*)`, `sps_avformat_librtmp_packet.cpp:64-74`. -/
def getNum (p : AmfProp) : Err × Nat :=
  if p.2.2 = 0xff then (Err.ERROR_RTMP_AMF_PROP_NOT_FOUND, 0)
  else match p.2.1 with
    | .num n => (Err.SUCCESS, n)
    | _ => (Err.ERROR_RTMP_AMF_PROP_TYPE, 0)

/-- `get_amf_prop(prop, AMFObject**)`, `sps_avformat_librtmp_packet.cpp:40-50`; `none` in the second component is the
object of a null property, whose memory is not initialised. -/
def getObj (p : AmfProp) : Err × Option (List AmfProp) :=
  if p.2.2 = 0xff then (Err.ERROR_RTMP_AMF_PROP_NOT_FOUND, none)
  else match p.2.1 with
    | .obj o => (Err.SUCCESS, some o)
    | .null => (Err.SUCCESS, none)
    | _ => (Err.ERROR_RTMP_AMF_PROP_TYPE, none)

/-- `get_amf_string`, `sps_avformat_librtmp_packet.cpp:83-88`, with librtmp's `AMF_GetProp`: the first property of that
name; the value returned for an absent one is not a string. -/
def getNamedStr (o : List AmfProp) (name : List UInt8) : Err × List UInt8 :=
  match o.find? (fun p => p.1 == name) with
  | some p => getStr p
  | none => (Err.ERROR_RTMP_AMF_PROP_TYPE, [])

end Amf

/-- The command objects, `sps_avformat_librtmp_packet.hpp:152-215`. `txn` is the transaction id. -/
inductive RtmpCmd
  | connect (txn : Nat) (app tcUrl : List UInt8)
  | createStream (txn : Nat)
  | play (txn : Nat) (stream : List UInt8)
  | publish (txn : Nat) (stream type : List UInt8)
  | releaseStream (txn : Nat) (stream : List UInt8)
  | fcPublish (txn : Nat) (stream : List UInt8)
deriving DecidableEq, Repr

namespace RtmpCmd
open Amf

/-- `CommandRtmpPacket::from`, `sps_avformat_librtmp_packet.cpp:285-322`, up to `invoke_from`: name, transaction id,
command object. -/
def fromHead (props : List AmfProp) : Err × List UInt8 × Nat × Option (List AmfProp) :=
  match props with
  | p0 :: p1 :: p2 :: _ =>
    let (e, name) := getStr p0
    if e ≠ Err.SUCCESS then (e, [], 0, none)
    else
      let (e, txn) := getNum p1
      if e ≠ Err.SUCCESS then (e, [], 0, none)
      else
        let (e, o) := getObj p2
        if e ≠ Err.SUCCESS then (Err.ERROR_RTMP_AMF_CMD_CONVERT, [], 0, none) else (Err.SUCCESS, name, txn, o)
  | _ => (Err.ERROR_RTMP_AMF_CMD_CONVERT, [], 0, none)

/-- `NetStreamRtmpPacket::invoke_from`, `sps_avformat_librtmp_packet.cpp:363-386`; the name has been compared already. -/
def netStream (props : List AmfProp) : Err × List UInt8 :=
  match props[3]? with
  | none => (Err.ERROR_RTMP_AMF_CMD_CONVERT, [])
  | some p => let (e, s) := getStr p; if e ≠ Err.SUCCESS then (Err.ERROR_RTMP_AMF_CMD_CONVERT, []) else (Err.SUCCESS, s)

/-- The rest of `PublishRtmpPacket::invoke_from`, `sps_avformat_librtmp_packet.cpp:404-416`: the fifth property is looked at
only when there are more than five. -/
def publishType (props : List AmfProp) : Err × List UInt8 :=
  if props.length > 5 then
    match props[4]? with
    | none => (Err.ERROR_RTMP_AMF_CMD_CONVERT, [])
    | some p => let (e, s) := getStr p; if e ≠ Err.SUCCESS then (Err.ERROR_RTMP_AMF_CMD_CONVERT, []) else (Err.SUCCESS, s)
  else (Err.SUCCESS, [])

/-- `AmfRtmpPacket::convert_self`, `sps_avformat_librtmp_packet.cpp:209-274`, with the `invoke_from` of each command
(`328-417`). `none` is a look into the uninitialised object of a null property. -/
def convertSelf (props : List AmfProp) : Option (Err × Option RtmpCmd) :=
  match props with
  | [] => some (Err.ERROR_RTMP_AMF_CMD_CONVERT, none)
  | p0 :: _ =>
    let (e, name) := getStr p0
    if e ≠ Err.SUCCESS then some (e, none)
    else
      let fail : Option (Err × Option RtmpCmd) := some (Err.ERROR_RTMP_AMF_CMD_CONVERT, none)
      let head := fromHead props
      let txn := head.2.2.1
      let stream := netStream props
      if name = ascii "connect" then
        if head.1 ≠ Err.SUCCESS then fail
        else match head.2.2.2 with
          | none => none
          | some o =>
            let (e, app) := getNamedStr o (ascii "app")
            if e ≠ Err.SUCCESS then fail
            else
              let (e, url) := getNamedStr o (ascii "tcUrl")
              if e ≠ Err.SUCCESS then fail else some (Err.SUCCESS, some (.connect txn app url))
      else if name = ascii "createStream" then
        if head.1 ≠ Err.SUCCESS then fail else some (Err.SUCCESS, some (.createStream txn))
      else if name = ascii "play" then
        if head.1 ≠ Err.SUCCESS ∨ stream.1 ≠ Err.SUCCESS then fail else some (Err.SUCCESS, some (.play txn stream.2))
      else if name = ascii "publish" then
        if head.1 ≠ Err.SUCCESS ∨ stream.1 ≠ Err.SUCCESS then fail
        else
          let ty := publishType props
          if ty.1 ≠ Err.SUCCESS then fail else some (Err.SUCCESS, some (.publish txn stream.2 ty.2))
      else if name = ascii "releaseStream" then
        if head.1 ≠ Err.SUCCESS ∨ stream.1 ≠ Err.SUCCESS then fail
        else some (Err.SUCCESS, some (.releaseStream txn stream.2))
      else if name = ascii "FCPublish" then
        if head.1 ≠ Err.SUCCESS ∨ stream.1 ≠ Err.SUCCESS then fail else some (Err.SUCCESS, some (.fcPublish txn stream.2))
      else some (Err.SUCCESS, none)

/-- `RtmpPacketDecoder::decode`, `sps_avformat_librtmp_packet.cpp:479-531`, as far as it makes commands: `amf` is the result
of `AMF_Decode`/`AMF3_Decode` on the body, `none` when it fails, and `len` the length of the body. Messages that are not AMF give
success and no command. `AmfRtmpPacket::decode` (181-207) logs the first two bytes of a body that cannot be decoded, whatever its length: a
read outside a shorter body is `none`. -/
def decode (type : Nat) (amf : Option (List AmfProp)) (len : Nat := 2) : Option (Err × Option RtmpCmd) :=
  if type = 18 ∨ type = 20 ∨ type = 15 ∨ type = 17 then
    match amf with
    | none => if len < 2 then none else some (Err.ERROR_RTMP_AMF_DECODE, none)
    | some props => convertSelf props
  else some (Err.SUCCESS, none)

end RtmpCmd

/-! ## Flow control -/

/-- What the hook does while it receives: answer a ping, acknowledge. -/
inductive RtmpSent
  | pong
  | ack (body : List UInt8)
deriving DecidableEq, Repr

/-- The fields of `RtmpHook` and its `RTMP` that flow control uses, all of type `int`. -/
structure RtmpHook where
  inChunk : Int := 128
  serverBW : Int := 6000000
  clientBW : Int := 5000000
  nextAcked : Int := 5000000
  bytesIn : Int := 0
deriving DecidableEq, Repr

/-- A received message: its type and body, the bytes librtmp took from the transport for it, and what a send made while it
is processed returns. -/
structure RtmpRecv where
  type : Nat
  body : List UInt8
  nIn : Nat
  sendErr : Err := Err.SUCCESS
deriving DecidableEq, Repr

namespace RtmpHook

/-- The constructor, `sps_avformat_librtmp.cpp:88-105`. The chunk size is librtmp's default. -/
def create : RtmpHook := {}

/-- librtmp's `AMF_DecodeInt32` on a body, as `int`; `none` when the body is shorter. -/
def int32At (b : List UInt8) (off : Nat) : Option Int :=
  match b.drop off with
  | a :: b :: c :: d :: _ => some (i32 (((a.toNat * 256 + b.toNat) * 256 + c.toNat) * 256 + d.toNat))
  | _ => none

/-- librtmp's `AMF_EncodeInt32`. -/
def encodeInt32 (x : Int) : List UInt8 :=
  let n := FlvMuxer.low 32 x
  [UInt8.ofNat (n / 2 ^ 24), UInt8.ofNat (n / 2 ^ 16), UInt8.ofNat (n / 2 ^ 8), UInt8.ofNat n]

/-- `RtmpHook::ack`, `sps_avformat_librtmp.cpp:422-453`. Signed overflow of `next_acked` is `none`. Whether the send
succeeds is not looked at by the caller. -/
def ack (h : RtmpHook) : Option (RtmpHook × List RtmpSent) :=
  if h.nextAcked > h.bytesIn then some (h, [])
  else if h.bytesIn + h.clientBW ≥ 2 ^ 31 then none
  else some ({ h with nextAcked := h.bytesIn + h.clientBW }, [.ack (encodeInt32 h.bytesIn)])

/-- `RtmpHook::on_recv_packet`, `sps_avformat_librtmp.cpp:154-182`, after librtmp has added the bytes of the message to
`m_nBytesIn` (`int`; overflow is `none`). -/
def onRecv (h : RtmpHook) (m : RtmpRecv) : Option (Err × RtmpHook × List RtmpSent) := do
  if h.bytesIn + m.nIn ≥ 2 ^ 31 then none
  else
    let h := { h with bytesIn := h.bytesIn + m.nIn }
    if m.type = 4 ∧ m.body.length ≥ 6 ∧ m.body.take 2 = [0, 6] then some (m.sendErr, h, [.pong])
    else
      let h ←
        if m.type = 1 then
          if m.body.length ≥ 4 then (int32At m.body 0).map fun n => { h with inChunk := n } else some h
        else if m.type = 5 then (int32At m.body 0).map fun n => { h with serverBW := n }
        else if m.type = 6 then (int32At m.body 0).map fun n => { h with clientBW := n, nextAcked := n }
        else some h
      let (h, s) ← h.ack
      return (Err.SUCCESS, h, s)

/-- Messages received one after another, until `recv_packet` (`sps_avformat_librtmp.cpp:522-551`) fails. -/
def recvAll : RtmpHook → List RtmpRecv → Option (Err × RtmpHook × List RtmpSent)
  | h, [] => some (Err.SUCCESS, h, [])
  | h, m :: ms => do
    let (e, h, s) ← h.onRecv m
    if e ≠ Err.SUCCESS then return (e, h, s)
    else
      let (e, h, s') ← recvAll h ms
      return (e, h, s ++ s')

end RtmpHook

/-! ## The negotiation before a stream starts -/

/-- What the server sends during the negotiation, `sps_avformat_librtmp.cpp:192-410, 455-520`. -/
inductive RtmpReply
  | ackWindow | peerBandwidth | chunkSize
  | connectResult (txn : Nat)
  | result (txn id : Nat)
  | playStart (txn : Nat)
  | sampleAccess | streamBegin
  | publishStart (txn : Nat)
deriving DecidableEq, Repr

/-- `RtmpPreRequest`, `sps_rtmp_server_handler.hpp`, with what was sent and what the coming sends return. -/
structure PreRequest where
  tcUrl : List UInt8 := []
  streamParams : List UInt8 := []
  playing : Bool := false
  publishing : Bool := false
  sent : List RtmpReply := []
  fails : List Err := []
deriving DecidableEq, Repr

/-- A received message: type, decoded AMF properties, and the length of the body. -/
structure AmfMsg where
  type : Nat
  amf : Option (List AmfProp)
  len : Nat := 2

namespace PreRequest

/-- A send: recorded, and answered by the next entry of `fails`. -/
def send (s : PreRequest) (r : RtmpReply) : Err × PreRequest :=
  match s.fails with
  | [] => (Err.SUCCESS, { s with sent := s.sent ++ [r] })
  | e :: fs => (e, { s with sent := s.sent ++ [r], fails := fs })

/-- Several sends, up to the first failure. -/
def sendAll (s : PreRequest) : List RtmpReply → Err × PreRequest
  | [] => (Err.SUCCESS, s)
  | r :: rs =>
    let (e, s) := s.send r
    if e ≠ Err.SUCCESS then (e, s) else sendAll s rs

/-- The first loop of `RtmpPreRequest::connect`, `sps_rtmp_server_handler.cpp:103-126`: messages up to the `connect`
command. `closed` is what `recv_packet` returns after the last message. Returns also the messages not read. -/
def waitConnect (closed : Err) (s : PreRequest) : List AmfMsg → Option (Err × Nat × PreRequest × List AmfMsg)
  | [] => some (closed, 0, s, [])
  | m :: ms => do
    let (e, c) ← RtmpCmd.decode m.type m.amf m.len
    if e ≠ Err.SUCCESS then return (e, 0, s, ms)
    else match c with
      | some (.connect txn _ url) => return (Err.SUCCESS, txn, { s with tcUrl := url }, ms)
      | _ => waitConnect closed s ms

/-- The second loop, `sps_rtmp_server_handler.cpp:144-203`, with the `on_recv_*` functions (`206-300`). The transaction
identifiers of `result` are doubles; `id` is the number sent with it. -/
def serve (closed : Err) (s : PreRequest) : List AmfMsg → Option (Err × PreRequest × List AmfMsg)
  | [] => some (closed, s, [])
  | m :: ms => do
    let (e, c) ← RtmpCmd.decode m.type m.amf m.len
    if e ≠ Err.SUCCESS then return (e, s, ms)
    else match c with
      | some (.createStream txn) =>
        let (e, s) := s.send (.result txn 1)
        if e ≠ Err.SUCCESS then return (e, s, ms) else serve closed s ms
      | some (.play txn st) =>
        let (e, s) := { s with streamParams := 47 :: st }.sendAll [.playStart txn, .sampleAccess, .streamBegin]
        if e ≠ Err.SUCCESS then return (e, s, ms) else return (Err.SUCCESS, { s with playing := true }, ms)
      | some (.fcPublish txn _) =>
        let (e, s) := s.send (.result txn 0)
        if e ≠ Err.SUCCESS then return (e, s, ms) else serve closed s ms
      | some (.releaseStream txn _) =>
        let (e, s) := s.send (.result txn 0)
        if e ≠ Err.SUCCESS then return (e, s, ms) else serve closed s ms
      | some (.publish txn st _) =>
        let (e, s) := { s with streamParams := 47 :: st }.sendAll [.publishStart txn, .streamBegin]
        if e ≠ Err.SUCCESS then return (e, s, ms) else return (Err.SUCCESS, { s with publishing := true }, ms)
      | _ => serve closed s ms

/-- `RtmpPreRequest::connect`, `sps_rtmp_server_handler.cpp:97-204`. -/
def connect (closed : Err) (s : PreRequest) (ms : List AmfMsg) : Option (Err × PreRequest × List AmfMsg) := do
  let (e, txn, s, ms) ← waitConnect closed s ms
  if e ≠ Err.SUCCESS then return (e, s, ms)
  else
    let (e, s) := s.sendAll [.ackWindow, .peerBandwidth, .chunkSize, .connectResult txn]
    if e ≠ Err.SUCCESS then return (e, s, ms) else serve closed s ms

end PreRequest

/-- What `RtmpPrepareHandler::handler` leaves for the phases after it, `sps_rtmp_server_handler.cpp:50-83`: the hook
(`RtmpContext`, `sps_rtmp_server.cpp:32-36`, makes a new one) and the URL to parse. -/
structure RtmpPrepared where
  hook : RtmpHook
  url : List UInt8
  playing : Bool
  publishing : Bool
deriving DecidableEq, Repr

/-- `RtmpPrepareHandler::handler`, `sps_rtmp_server_handler.cpp:50-83`, after the handshake; `hook` is the state of the hook
the negotiation used. -/
def RtmpPrepared.prepare (_hook : RtmpHook) (pre : PreRequest) : RtmpPrepared :=
  { hook := RtmpHook.create, url := pre.tcUrl ++ pre.streamParams, playing := pre.playing, publishing := pre.publishing }

end Sps
