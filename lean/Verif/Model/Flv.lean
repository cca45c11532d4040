import Verif.Model.RProg
import Verif.Model.Packet
/-!
# Model of the FLV demuxer and muxer (`/repo/src/avformat/sps_avformat_flvdec.cpp`, `sps_avformat_flvenc.cpp`)
-/
namespace Sps

namespace FlvDemuxer
open RProg

/-- `FlvDemuxer::read_header`, `sps_avformat_flvdec.cpp:41-74`. The packet holds the nine bytes. When the probe fails the
code leaves the nine bytes in the reader; here they are consumed, and nothing reads on after that error. -/
def readHeader : RProg (Err × Option AVPkt) := do
  let e ← acq 9
  if e ≠ Err.SUCCESS then return (e, none)
  let d ← rdBytes 9
  if d.take 3 ≠ [70, 76, 86] then return (Err.ERROR_FLV_PROBE, none)
  return (Err.SUCCESS, some { msg := .header, stream := .nb, pktType := 0, payload := d, dts := 0, pts := 0,
                              flags := ((d[4]?.map UInt8.toNat).getD 0 : Nat), codec := 0 })

/-- `cts = (cts + 0xff800000) ^ 0xff800000` on a 24-bit `cts`, `sps_avformat_flvdec.cpp:166-168`: 32-bit wrapping
addition, then read as `int32_t`. -/
def signExtend24 (c : Nat) : Int := i32 ((c + 0xff800000) % 2 ^ 32 ^^^ 0xff800000)

/-- The end of `read_packet`, `sps_avformat_flvdec.cpp:189-207`; `dataSize` is what is left of the body. -/
def finish (st : StreamType) (pktType flags codec : Nat) (dts pts : Int) (dataSize : Int) : RProg (Err × Option AVPkt) := do
  if dataSize ≤ 0 then return (Err.ERROR_FLV_TAG, none)
  let d ← rdBytes dataSize.toNat
  return (Err.SUCCESS, some { stream := st, pktType := pktType, payload := d, dts := dts, pts := pts, flags := flags, codec := codec })

/-- The tag head, `sps_avformat_flvdec.cpp:93-109`: error, tag type, data size, time. -/
def readHead : RProg (Err × Nat × Nat × Int) := do
  let e ← acq 15
  if e ≠ Err.SUCCESS then return (e, 0, 0, 0)
  let _prev ← rd32
  let tag ← rd8
  let dataSize ← rd24
  let lo ← rd24
  let hi ← rd8
  let _sid ← rd24
  let e ← acq dataSize
  return (e, tag, dataSize, ((lo ||| ((hi <<< 24) % 2 ^ 32) : Nat) : Int))

/-- The rest of `read_packet`, `sps_avformat_flvdec.cpp:116-207`. -/
def readBody (tag dataSize : Nat) (dts : Int) : RProg (Err × Option AVPkt) :=
  if tag = 8 then do
    let flags ← rd8
    let codec := (flags &&& 0xf0) >>> 4
    if codec ≠ 10 then return (Err.ERROR_FLV_AUDIO_CODECID, none)
    let pktType ← rd8
    finish .audio pktType flags codec dts dts ((dataSize : Int) - 2)
  else if tag = 9 then do
    let flags ← rd8
    let codec := flags &&& 0x0f
    if codec ≠ 7 ∧ codec ≠ 12 then return (Err.ERROR_FLV_VIDEO_CODECID, none)
    if flags &&& 0xf0 ≠ 0x50 then
      let pktType ← rd8
      let cts ← rd24
      finish .video pktType flags codec dts (dts + signExtend24 cts) ((dataSize : Int) - 1 - 4)
    else finish .video 0 flags codec dts 0 ((dataSize : Int) - 1)
  else if tag = 18 then finish .subtitle 0 0 0 dts 0 dataSize
  else return (Err.ERROR_FLV_UNKNOWN_TAG_TYPE, none)

/-- `FlvDemuxer::read_packet`, `sps_avformat_flvdec.cpp:76-208`. -/
def readPacket : RProg (Err × Option AVPkt) := do
  let (e, tag, dataSize, dts) ← readHead
  if e ≠ Err.SUCCESS then return (e, none)
  readBody tag dataSize dts

/-- Read packets until the first error, at most `n`: the loop of `StreamDecoder::decode`, `module/stream/sps_stream.cpp:49-57`. -/
def readPackets : Nat → RProg (List AVPkt × Err)
  | 0 => return ([], Err.SUCCESS)
  | n + 1 => do
    let (e, p) ← readPacket
    match p with
    | none => return ([], e)
    | some p =>
      let (ps, e) ← readPackets n
      return (p :: ps, e)

/-- Header, then packets: `sps_stream.cpp:37-57`. -/
def session (n : Nat) : RProg (List AVPkt × Err) := do
  let (e, h) ← readHeader
  match h with
  | none => return ([], e)
  | some _ => readPackets n

end FlvDemuxer

/-- A writer (`IWriter`, `/repo/src/io/sps_io.hpp`): what was written, and what the coming writes will return (then success).
What part of a failed write reached the peer is not modelled. -/
structure Sink where
  out : List UInt8
  fails : List Err
deriving DecidableEq, Repr

namespace Sink
/-- `IWriter::write`. -/
def write (s : Sink) (d : List UInt8) : Err × Sink :=
  match s.fails with
  | [] => (Err.SUCCESS, { s with out := s.out ++ d })
  | e :: fs => if e = Err.SUCCESS then (e, { out := s.out ++ d, fails := fs }) else (e, { s with fails := fs })
end Sink

/-- `FlvAVMuxer`, `sps_avformat_flvenc.hpp:36-54`; `tag` is the memory of `tag_buffer`. -/
structure FlvMuxer where
  tag : List UInt8
  prev : Nat
  filterVideo : Bool := false
  filterMeta : Bool := false
  filterAudio : Bool := false
deriving DecidableEq, Repr

namespace FlvMuxer

/-- The constructor, `sps_avformat_flvenc.cpp:38-42`; `mem0` is the uninitialised tag buffer of 29 bytes. -/
def create (mem0 : List UInt8) : FlvMuxer := { tag := mem0, prev := 0 }

/-- `FlvAVMuxer::write_header`, `sps_avformat_flvenc.cpp:44-71`, on any writer: `write` is what `writer->write` does. -/
def writeHeaderTo {σ : Type} (write : σ → List UInt8 → Err × σ) (h : Option (List UInt8)) (snk : σ) : Err × σ :=
  match h with
  | some d => if d.length ≠ 9 then (Err.ERROR_FLV_PROBE, snk) else write snk d
  | none => write snk [70, 76, 86, 1, 5, 0, 0, 0, 9]

/-- `FlvAVMuxer::write_header`, `sps_avformat_flvenc.cpp:44-71`. -/
def writeHeader (h : Option (List UInt8)) (snk : Sink) : Err × Sink := writeHeaderTo Sink.write h snk

/-- Low `k` bits of an `int64_t`, as a `Nat`. -/
def low (k : Nat) (x : Int) : Nat := (x % (2 ^ k : Int)).toNat

/-- Tag type, `sps_avformat_flvenc.cpp:82-95`. -/
def tagType : StreamType → Option Nat
  | .video => some 9
  | .audio => some 8
  | .subtitle => some 18
  | _ => none

/-- The sub-header and its size, `sps_avformat_flvenc.cpp:124-148`. -/
def writeSub (w : Writer) (p : AVPkt) : Option (Writer × Nat) :=
  match p.stream with
  | .audio => do
    let w ← w.int8 (low 8 p.flags)
    let w ← w.int8 (low 8 p.pktType)
    return (w, 2)
  | .video => do
    let w ← w.int8 (low 8 p.flags)
    if low 8 p.flags &&& 0xf0 ≠ 0x50 then
      let w ← w.int8 (low 8 p.pktType)
      let w ← w.int24 (low 32 (p.pts - p.dts))
      return (w, 1 + 4)
    else return (w, 1)
  | _ => some (w, 0)

/-- The tag head, `sps_avformat_flvenc.cpp:109-151`: the filled buffer and the data size (`uint32_t`). -/
def writeHead (m : FlvMuxer) (p : AVPkt) (tagTy : Nat) : Option (Writer × Nat) := do
  let w : Writer := Writer.create m.tag
  let w ← w.int32 m.prev
  let w ← w.int8 tagTy
  let sizePos := w.fin
  let w := w.skip 3
  let w ← w.int24 (low 24 p.dts)
  let w ← w.int8 (low 32 p.dts / 2 ^ 24)
  let w ← w.int24 0
  let (w, sub) ← writeSub w p
  let n := (p.payload.length + sub) % 2 ^ 32
  let w ← w.poke sizePos [UInt8.ofNat (n >>> 16), UInt8.ofNat ((n &&& 0xffff) >>> 8), UInt8.ofNat (n &&& 0xff)]
  return (w, n)

/-- Filters, `sps_avformat_flvenc.cpp:97-107`. -/
def filtered (m : FlvMuxer) : StreamType → Bool
  | .video => m.filterVideo
  | .audio => m.filterAudio
  | .subtitle => m.filterMeta
  | _ => false

/-- `FlvAVMuxer::write_packet`, `sps_avformat_flvenc.cpp:73-175`, on any writer. -/
def writePacketTo {σ : Type} (write : σ → List UInt8 → Err × σ) (m : FlvMuxer) (p : AVPkt) (snk : σ) :
    Option (Err × FlvMuxer × σ) :=
  match tagType p.stream with
  | none => some (Err.ERROR_FLV_UNKNOWN_TAG_TYPE, m, snk)
  | some t =>
    if m.filtered p.stream then some (Err.SUCCESS, m, snk)
    else do
      let (w, n) ← writeHead m p t
      let m := { m with tag := w.mem, prev := 11 }
      let (e, snk) := write snk (w.mem.take w.fin)
      if e ≠ Err.SUCCESS then return (e, m, snk)
      let (e, snk) := write snk p.payload
      if e ≠ Err.SUCCESS then return (e, m, snk)
      return (e, { m with prev := (11 + n) % 2 ^ 32 }, snk)

/-- Write packets until the first error, `module/stream/sps_stream.cpp:72-102`, on any writer. -/
def writePacketsTo {σ : Type} (write : σ → List UInt8 → Err × σ) : FlvMuxer → List AVPkt → σ → Option (Err × FlvMuxer × σ)
  | m, [], snk => some (Err.SUCCESS, m, snk)
  | m, p :: ps, snk => do
    let (e, m, snk) ← m.writePacketTo write p snk
    if e ≠ Err.SUCCESS then return (e, m, snk) else writePacketsTo write m ps snk

/-- `FlvAVMuxer::write_packet`, `sps_avformat_flvenc.cpp:73-175`. -/
def writePacket (m : FlvMuxer) (p : AVPkt) (snk : Sink) : Option (Err × FlvMuxer × Sink) := writePacketTo Sink.write m p snk

/-- Write packets until the first error, `module/stream/sps_stream.cpp:72-102`. -/
def writePackets (m : FlvMuxer) (ps : List AVPkt) (snk : Sink) : Option (Err × FlvMuxer × Sink) := writePacketsTo Sink.write m ps snk

end FlvMuxer
end Sps
