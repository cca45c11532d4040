import Verif.Model.RtmpMsgs
/-!
# Model of the size of the chunks that are sent (`RtmpHook::on_send_packet`, `/repo/src/avformat/sps_avformat_librtmp.cpp`)

What librtmp sends is modelled as symbols: the header of a message (that of its first chunk), the header of a further chunk, and the bytes in them. How a header is written is librtmp's.
-/
namespace Sps
namespace RtmpChunk

/-- What is on the connection. -/
inductive Sym
  | head (channel type stream len : Nat)
  | more (channel : Nat)
  | byte (b : UInt8)
deriving DecidableEq, Repr

/-- The fields of librtmp's object that sending changes: `m_outChunkSize`, `m_nServerBW`, `m_nClientBW`, `m_bSendCounter`, as `RTMP_Init` and the constructor of `RtmpHook`
(`/repo/src/avformat/sps_avformat_librtmp.cpp:88-105`) set them. -/
structure Sender where
  outChunk : Int := 128
  serverBW : Int := 6000000
  clientBW : Int := 5000000
  counter : Bool := true
deriving DecidableEq, Repr

/-- The chunk loop of librtmp's `RTMP_SendPacket`: `size` bytes at most, then the header of a further chunk if something is left. -/
def chunks (channel size : Nat) : (fuel : Nat) → List UInt8 → List Sym
  | 0, _ => []
  | fuel + 1, body =>
    (body.take size).map Sym.byte ++
      (if body.length ≤ size then [] else Sym.more channel :: chunks channel size fuel (body.drop size))

/-- `RTMP_SendPacket`. With a chunk size that is not positive its loop does not end (or counts backwards): `none`. -/
def write (s : Sender) (m : RtmpOut) : Option (List Sym) :=
  if s.outChunk ≤ 0 ∧ m.body ≠ [] then none
  else some (Sym.head m.channel m.type m.stream m.body.length :: chunks m.channel s.outChunk.toNat (m.body.length + 1) m.body)

/-- `RtmpHook::on_send_packet`, `/repo/src/avformat/sps_avformat_librtmp.cpp:132-152`. `none`: read past the end of the body. -/
def onSend (s : Sender) (m : RtmpOut) : Option Sender :=
  if m.type = 1 then
    if m.body.length ≥ 4 then (RtmpHook.int32At m.body 0).map fun n => { s with outChunk := n } else some s
  else if m.type = 5 then (RtmpHook.int32At m.body 0).map fun n => { s with counter := true, serverBW := n }
  else if m.type = 6 then (RtmpHook.int32At m.body 0).map fun n => { s with counter := true, clientBW := n }
  else some s

/-- A message that is sent by `RtmpHook::send_packet`, `/repo/src/avformat/sps_avformat_librtmp.cpp:557-563`, or by the library itself (`RTMP_SendServerBW`, `RTMP_SendClientBW`, `RTMP_SendCtrl`,
in `send_ack_window_size`, `send_peer_bandwidth` and `send_pong`), which does not call `on_send_packet`. -/
inductive Sending
  | hook (m : RtmpOut)
  | lib (m : RtmpOut)
deriving DecidableEq, Repr

/-- The message. -/
def Sending.msg : Sending → RtmpOut
  | .hook m => m
  | .lib m => m

/-- One message is sent. -/
def send (s : Sender) (m : Sending) : Option (List Sym × Sender) :=
  match write s m.msg with
  | none => none
  | some w => match m with
    | .hook m => (onSend s m).map fun s => (w, s)
    | .lib _ => some (w, s)

/-- Messages are sent one after the other. -/
def sendAll (s : Sender) : List Sending → Option (List Sym × Sender)
  | [] => some ([], s)
  | m :: ms => match send s m with
    | none => none
    | some (w, s) => (sendAll s ms).map fun (w', s) => (w ++ w', s)

/-- How the answers of a negotiation are sent: see `Sending`. -/
def ofReply (m : RtmpOut) : RtmpReply → Sending
  | .ackWindow => .lib m
  | .peerBandwidth => .lib m
  | _ => .hook m

end RtmpChunk
end Sps
