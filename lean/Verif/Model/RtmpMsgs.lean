import Verif.Model.Rtmp
/-!
# The messages of an RTMP server, in bytes

`RtmpHook::send_*`, `/repo/src/avformat/sps_avformat_librtmp.cpp:192-520, 623-682`. Each builds its message in an array on the stack. The functions `AMF_Encode…` of librtmp (`amf.c`, not part of the
repository) return null when the array is too small, and the code goes on with that pointer: both that and an unchecked write beyond the array are `none`.
-/
namespace Sps

/-! Numbers of type `double`, as their 64 bits (IEEE 754): conversion from and to `int`, as far as the code needs it. -/
namespace Double

/-- The double of an integer below `2 ^ 53` in magnitude. -/
def ofInt (x : Int) : Nat :=
  let n := x.natAbs
  if n = 0 then 0
  else
    let k := Nat.log2 n
    (if x < 0 then 2 ^ 63 else 0) + (1023 + k) * 2 ^ 52 + (n * 2 ^ (52 - k) - 2 ^ 52)

/-- `double` to `int`: towards zero; `none` (undefined) if the result is not an `int`, also for infinity and NaN. -/
def toInt (b : Nat) : Option Int :=
  let neg := b / 2 ^ 63 % 2 = 1
  let e := b / 2 ^ 52 % 2 ^ 11
  let f := b % 2 ^ 52
  if e < 1023 then some 0
  else if e > 1054 then none
  else
    let n : Nat := (2 ^ 52 + f) * 2 ^ (e - 1023) / 2 ^ 52
    if neg then (if n ≤ 2 ^ 31 then some (-(n : Int)) else none) else (if n < 2 ^ 31 then some (n : Int) else none)

end Double

/-- `enc` and `pend`: the room left in the array, and what was written. -/
structure AmfEnc where
  room : Nat
  out : List UInt8 := []
deriving DecidableEq, Repr

namespace AmfEnc

/-- Bytes are written, if there is room for `need` of them. -/
def put (need : Nat) (bs : List UInt8) (c : AmfEnc) : Option AmfEnc :=
  if need ≤ c.room then some ⟨c.room - bs.length, c.out ++ bs⟩ else none

/-- The `w` low bytes of a number, most significant first. -/
def be : (w : Nat) → Nat → List UInt8
  | 0, _ => []
  | w + 1, v => UInt8.ofNat (v / 256 ^ w) :: be w v

/-- librtmp's `AMF_EncodeInt16`, `AMF_EncodeInt32`. -/
def int16 (n : Nat) : AmfEnc → Option AmfEnc := put 2 (be 2 n)
def int32 (x : Int) : AmfEnc → Option AmfEnc := put 4 (be 4 (FlvMuxer.low 32 x))
/-- librtmp's `AMF_EncodeNumber`, of the double with these bits. -/
def number (bits : Nat) : AmfEnc → Option AmfEnc := put 9 (0 :: be 8 bits)
/-- librtmp's `AMF_EncodeBoolean`. -/
def boolean (b : Bool) : AmfEnc → Option AmfEnc := put 2 [1, if b then 1 else 0]
/-- librtmp's `AMF_EncodeString`; it always asks for the room of a long one. -/
def string (s : List UInt8) : AmfEnc → Option AmfEnc :=
  put (s.length + 5) (if s.length < 65536 then 2 :: be 2 s.length ++ s else 12 :: be 4 s.length ++ s)
/-- librtmp's `AMF_EncodeNamedString` and `AMF_EncodeNamedNumber`: the name. -/
def name (s : List UInt8) : AmfEnc → Option AmfEnc := put (s.length + 2) (be 2 s.length ++ s)
/-- `AMF_EncodeNull`, `AMF_EncodeStartObject`, `AMF_EncodeEndObject`, `/repo/src/avformat/sps_avformat_librtmp_packet.cpp:97-112`, and `*enc++`: unchecked. -/
def raw (bs : List UInt8) : AmfEnc → Option AmfEnc := put bs.length bs

def named (n s : List UInt8) (c : AmfEnc) : Option AmfEnc := do (← c.name n).string s
def namedNum (n : List UInt8) (bits : Nat) (c : AmfEnc) : Option AmfEnc := do (← c.name n).number bits

end AmfEnc

/-- A message that is sent: chunk stream, type, message stream (`m_nInfoField2`) and body. -/
structure RtmpOut where
  channel : Nat
  type : Nat
  stream : Nat := 0
  body : List UInt8
deriving DecidableEq, Repr

namespace RtmpReply
open AmfEnc

/-- `char pbuf[n]`, with `RTMP_MAX_HEADER_SIZE` (18) bytes kept free at its beginning. -/
def array (n : Nat) : AmfEnc := { room := n - 18 }

/-- The body of an `onStatus` command, `sps_avformat_librtmp.cpp:218-233, 259-274`. -/
def onStatus (txn : Nat) (code description : List UInt8) : Option AmfEnc := do
  let c ← (array 512).string (ascii "onStatus")
  let c ← c.number txn
  let c ← c.raw [5]
  let c ← c.raw [3]
  let c ← c.named (ascii "level") (ascii "status")
  let c ← c.named (ascii "code") code
  let c ← c.named (ascii "description") description
  c.raw [0, 0, 9]

/-- What is sent. `send_ack_window_size` (480-491) and `send_peer_bandwidth` (192-202) leave it to librtmp's `RTMP_SendServerBW` and `RTMP_SendClientBW`: the fields
`m_nServerBW` and `m_nClientBW`, the latter with the kind of limit, 2 (dynamic). `send_set_chunked_size` (493-520), `send_connect_result` (342-410), `send_result` (455-478),
`send_play_start` (204-243), `send_sample_access` (284-312), `send_stream_begin` (314-340), `send_publish_start` (245-282). The argument of `send_play_start` and
`send_publish_start` is an `int`; only the latter uses it. -/
def message (h : RtmpHook) : RtmpReply → Option RtmpOut
  | .ackWindow => do return { channel := 2, type := 5, body := (← (array 256).int32 h.serverBW).out }
  | .peerBandwidth => do return { channel := 2, type := 6, body := (← (← (array 256).int32 h.clientBW).raw [2]).out }
  | .chunkSize => do return { channel := 2, type := 1, body := (← (array 64).int32 128).out }
  | .connectResult txn => do
    let c ← (array 512).string (ascii "_result")
    let c ← c.number txn
    let c ← c.raw [3]
    let c ← c.named (ascii "fmsVer") (ascii "FMS/3,5,1,525")
    let c ← c.namedNum (ascii "capabilities") (Double.ofInt 31)
    let c ← c.raw [0, 0, 9, 3]
    let c ← c.named (ascii "level") (ascii "status")
    let c ← c.named (ascii "code") (ascii "NetConnection.Connect.Success")
    let c ← c.raw [0, 0, 9]
    return { channel := 3, type := 20, body := c.out }
  | .result txn id => do
    let c ← (array 256).string (ascii "_result")
    let c ← c.number txn
    let c ← c.raw [5]
    let c ← c.number (Double.ofInt id)
    return { channel := 3, type := 20, body := c.out }
  | .playStart txn => do
    let _ ← Double.toInt txn
    return { channel := 3, type := 20, body := (← onStatus (Double.ofInt 0) (ascii "NetStream.Play.Start") (ascii "Start live")).out }
  | .sampleAccess => do
    let c ← (array 512).string (ascii "|RtmpSampleAccess")
    let c ← c.boolean true
    let c ← c.boolean true
    return { channel := 5, type := 18, body := c.out }
  | .streamBegin => do return { channel := 2, type := 4, body := (← (← (array 512).int16 0).int32 1).out }
  | .publishStart txn => do
    let n ← Double.toInt txn
    return { channel := 3, type := 20, body := (← onStatus (Double.ofInt n) (ascii "NetStream.Publish.Start") (ascii "Start publishing")).out }

/-- The replies of a negotiation, one after the other. -/
def messages (h : RtmpHook) : List RtmpReply → Option (List RtmpOut)
  | [] => some []
  | r :: rs => do return (← r.message h) :: (← messages h rs)

end RtmpReply

/-- `RtmpHook::send_pong`, `sps_avformat_librtmp.cpp:412-420`, and `RtmpHook::ack`, 422-453: what flow control sends. librtmp's `RTMP_SendCtrl(7, 0, 0)` sends the numbers 7 and 0. -/
def RtmpSent.message : RtmpSent → RtmpOut
  | .pong => { channel := 2, type := 4, body := [0, 7, 0, 0, 0, 0] }
  | .ack body => { channel := 2, type := 3, body := body }

/-- `RtmpHook::send_connect`, `sps_avformat_librtmp.cpp:623-682`; `txn` is `++transaction_id`. Nothing in the repository calls it. -/
def RtmpHook.sendConnect (txn : Nat) (app url : List UInt8) : Option RtmpOut := do
  let c ← (RtmpReply.array 256).string (ascii "connect")
  let c ← c.number (Double.ofInt txn)
  let c ← c.raw [3]
  let c ← c.named (ascii "app") app
  let c ← c.named (ascii "flashVer") (ascii "LNX 9,0,124,2")
  let c ← c.named (ascii "tcUrl") url
  let c ← (← c.name (ascii "fpad")).boolean false
  let c ← c.namedNum (ascii "capabilities") (Double.ofInt 15)
  let c ← c.namedNum (ascii "audioCodecs") (Double.ofInt 4071)
  let c ← c.namedNum (ascii "videoCodecs") (Double.ofInt 252)
  let c ← c.namedNum (ascii "objectEncoding") (Double.ofInt 0)
  let c ← c.raw [0, 0, 9]
  return { channel := 3, type := 20, body := c.out }

end Sps
