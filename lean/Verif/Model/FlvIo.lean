import Verif.Model.Rtmp
/-!
# Model of RTMP as a byte stream for FFmpeg

`/repo/src/io/url/sps_io_url_rtmp_ffmpeg.cpp`, the protocol the stream handler uses for RTMP when the server is built
with FFmpeg (`/repo/src/module/rtmp/sps_rtmp_stream_handler.cpp:57-69`). FFmpeg reads and writes FLV; the protocol turns
the messages of a publisher into an FLV file and an FLV file into messages for a player.

The byte reader and writer are used here on arrays whose lengths are checked first, so the model works on lists of bytes
(C05 and C06 are about them).
-/
namespace Sps

/-- A message received: what `RtmpMsg` has, and the message stream number (`m_nInfoField2`). -/
structure RtmpIn where
  msg : RtmpMsg
  stream : Nat
deriving DecidableEq, Repr

/-- The members of `FFmpegRtmpUrlProtocol`, `sps_io_url_rtmp_ffmpeg.hpp:58-64`, while it reads, and the messages to come.
`pkt` is the message and its body when `pkt.data()` is not null. `closed` is the error `recv_packet` gives after the last
message. `previous_size` is not used for reading. -/
structure FlvIo where
  inbox : List RtmpIn
  closed : Err
  headRead : Bool := false
  pkt : Option (RtmpIn × List UInt8) := none
  tagHead : List UInt8 := []
  off : Nat := 0
deriving DecidableEq, Repr

namespace FlvIo

/-- `static const char flv_header[]`, `sps_io_url_rtmp_ffmpeg.cpp:97-101`. -/
def header : List UInt8 := [70, 76, 86, 1, 5, 0, 0, 0, 9, 0, 0, 0, 0]

/-- `write_int24`: the low 24 bits, high byte first. -/
def int24 (v : Nat) : List UInt8 := [UInt8.ofNat (v >>> 16), UInt8.ofNat (v >>> 8), UInt8.ofNat v]

/-- `write_int32`. -/
def int32 (v : Nat) : List UInt8 := UInt8.ofNat (v >>> 24) :: int24 v

/-- `write_flv_tag`, `sps_io_url_rtmp_ffmpeg.cpp:53-71`, into an array of eleven bytes. -/
def writeTag (type size ts stream : Nat) : List UInt8 :=
  UInt8.ofNat type :: int24 size ++ int24 (ts &&& 0xffffff) ++ UInt8.ofNat (ts >>> 24) :: int24 stream

/-- `is_video`, `is_audio`, `is_script`, `sps_avformat_librtmp_packet.cpp:134-145`, for a message whose body is not
null. -/
def media (type : Nat) : Bool := type == 9 || type == 8 || type == 18 || type == 15

/-- The loop for the next message, `sps_io_url_rtmp_ffmpeg.cpp:121-145`, once a message is needed: messages are received
until one is audio, video or script. -/
def next (closed : Err) : List RtmpIn → Err × FlvIo
  | [] => (closed, { inbox := [], closed := closed, headRead := true })
  | m :: ms =>
    match m.msg.body with
    | some b =>
      if media m.msg.type then
        (Err.SUCCESS, { inbox := ms, closed := closed, headRead := true, pkt := some (m, b), off := 0,
                        tagHead := writeTag m.msg.type b.length m.msg.ts m.stream })
      else next closed ms
    | none => next closed ms

/-- The condition of the loop and the loop, `sps_io_url_rtmp_ffmpeg.cpp:121-145`. -/
def fetch (s : FlvIo) : Err × FlvIo :=
  match s.pkt with
  | none => next s.closed s.inbox
  | some (_, b) => if b.length + 11 + 4 = s.off then next s.closed s.inbox else (Err.SUCCESS, s)

/-- The pieces of the current tag, `sps_io_url_rtmp_ffmpeg.cpp:147-181`: head, data and previous size. `size` is below
2^31 (`std::min((int32_t) size, ...)`). -/
def pieces (s : FlvIo) (b : List UInt8) (size : Nat) : FlvIo × List UInt8 :=
  let n1 := if 0 < size ∧ s.off < 11 then min size (11 - s.off) else 0
  let p1 := (s.tagHead.drop s.off).take n1
  let off1 := s.off + n1
  let size1 := size - n1
  let n2 := if 0 < size1 ∧ 11 + b.length > off1 then min size1 (b.length + 11 - off1) else 0
  let p2 := (b.drop (off1 - 11)).take n2
  let off2 := off1 + n2
  let size2 := size1 - n2
  if size2 ≥ 4 then ({ s with off := off2 + 4 }, p1 ++ p2 ++ int32 (b.length + 11))
  else ({ s with off := off2 }, p1 ++ p2)

/-- `FFmpegRtmpUrlProtocol::read`, `sps_io_url_rtmp_ffmpeg.cpp:96-184`: the bytes put into the buffer are `nread` many. -/
def read (s : FlvIo) (size : Nat) : Err × FlvIo × List UInt8 :=
  if s.headRead = false then
    if size < 13 then (Err.ERROR_IO_NOT_ENOUGH, s, [])
    else (Err.SUCCESS, { s with headRead := true }, header)
  else
    match fetch s with
    | (e, s) =>
      if e ≠ Err.SUCCESS then (e, s, [])
      else match s.pkt with
        | none => (e, s, [])
        | some (_, b) => match pieces s b size with | (s, d) => (e, s, d)

/-- Reads of the given sizes one after another, whatever they return. -/
def reads (s : FlvIo) : List Nat → List (Err × List UInt8)
  | [] => []
  | n :: ns => match read s n with | (e, s, d) => (e, d) :: reads s ns

end FlvIo

/-- What the code sets of the packet it sends, `sps_io_url_rtmp_ffmpeg.cpp:229-238`; `m_hasAbsTimestamp` is 1 and
`m_headerType` is 0. -/
structure FlvSend where
  channel : Nat
  type : Nat
  ts : Nat
  stream : Nat
  body : List UInt8
deriving DecidableEq, Repr

namespace FlvOut

/-- A number of bytes, high byte first: `read_int24` and `read_int32`. -/
def number (l : List UInt8) : Nat := l.foldl (fun a b => a * 256 + b.toNat) 0

/-- One turn of the loop, `sps_io_url_rtmp_ffmpeg.cpp:217-246` with `parser_flv_head`, lines 36-50, without the sending:
the message and what is left. -/
def one (d : List UInt8) : Err × Option (FlvSend × List UInt8) :=
  if d.length < 11 then (Err.ERROR_IO_NOT_ENOUGH, none)
  else
    let type := number (d.take 1)
    let size := number ((d.drop 1).take 3)
    let ts := number ((d.drop 4).take 3) ||| (number ((d.drop 7).take 1) <<< 24)
    let d := d.drop 11
    if d.length < size + 4 then (Err.ERROR_FLV_TAG, none)
    else
      let body := d.take size
      let prev := number ((d.drop size).take 4)
      if prev ≠ size + 11 then (Err.ERROR_FLV_TAG, none)
      else (Err.SUCCESS, some ({ channel := if type = 8 ∨ type = 18 then 4 else 6, type := type, ts := ts, stream := 1, body := body },
        d.drop (size + 4)))

/-- The loop, `sps_io_url_rtmp_ffmpeg.cpp:216-247`. `answer` is what `send_packet` returns for a message: the messages
passed to it, in order. -/
def loop (answer : FlvSend → Err) : Nat → List UInt8 → List FlvSend × Err
  | 0, _ => ([], Err.SUCCESS)
  | fuel + 1, d =>
    if d.length = 0 then ([], Err.SUCCESS)
    else match one d with
      | (e, none) => ([], e)
      | (_, some (m, d)) =>
        if answer m ≠ Err.SUCCESS then ([m], answer m)
        else match loop answer fuel d with | (ms, e) => (m :: ms, e)

/-- `FFmpegRtmpUrlProtocol::write`, `sps_io_url_rtmp_ffmpeg.cpp:186-250`: `headRead` before and after, the messages passed
to `send_packet` and the result. -/
def write (answer : FlvSend → Err) (headRead : Bool) (d : List UInt8) : Bool × List FlvSend × Err :=
  if headRead = false then
    if d.length < 13 then (false, [], Err.ERROR_FLV_TAG)
    else match loop answer d.length (d.drop 13) with | (ms, e) => (true, ms, e)
  else match loop answer d.length d with | (ms, e) => (true, ms, e)

/-- Writes one after another, until one fails. -/
def writes (answer : FlvSend → Err) (headRead : Bool) : List (List UInt8) → List FlvSend × Err
  | [] => ([], Err.SUCCESS)
  | d :: ds =>
    match write answer headRead d with
    | (h, ms, e) =>
      if e ≠ Err.SUCCESS then (ms, e)
      else match writes answer h ds with | (ms', e) => (ms ++ ms', e)

end FlvOut
end Sps
