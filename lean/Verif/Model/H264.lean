import Verif.Model.Bits
import Verif.Model.BProg
import Verif.Model.Packet
/-!
# Model of the H.264 parser (`/repo/src/avcodec/sps_avcodec_h264_parser.{hpp,cpp}`)

`none` is an access outside a buffer, a failed `assert`, a division by zero or (never reached) an exhausted loop bound.
-/
namespace Sps

/-- `AVCodecContext`, `sps_avcodec_parser.hpp:42-48`. -/
structure CodecCtx where
  dts : Int
  pts : Int
  timebase : Int
deriving DecidableEq, Repr

/-- `H264NAL`, `sps_avcodec_h264_parser.hpp:75-100`: the bytes `nalu_buf[0 .. nalu_size)` and the header fields. -/
structure Nal where
  refIdc : Nat
  type : Nat
  data : List UInt8
deriving DecidableEq, Repr

namespace Nal

/-- The three reads of `H264NAL::parse_nal`, `sps_avcodec_h264_parser.cpp:70-72`. -/
def header : BProg (Nat × Nat × Nat) := do
  let f ← BProg.rd 1
  let r ← BProg.rd 2
  let t ← BProg.rd 5
  return (f, r, t)

/-- `H264NAL::parse_nal`, `sps_avcodec_h264_parser.cpp:60-81`. The context covers one byte (`:69`). On an error the unit is
dropped by every caller. -/
def parse (data : List UInt8) : Option (Err × Option Nal) :=
  if data.length < 1 then some (Err.ERROR_H264_DECODER, none)
  else
    (header.run (BitCtx.init (data.take 1))).map fun ((f, r, t), _) =>
      if f ≠ 0 then (Err.ERROR_H264_DECODER, none) else (Err.SUCCESS, some { refIdc := r, type := t, data := data })

/-- `is_pps`, `sps_avcodec_h264_parser.cpp:36-38`. -/
def isPps (n : Nal) : Bool := n.type == 8
/-- `is_sps`, `sps_avcodec_h264_parser.cpp:40-42`. -/
def isSps (n : Nal) : Bool := n.type == 7
/-- `is_idr`, `sps_avcodec_h264_parser.cpp:44-46`. -/
def isIdr (n : Nal) : Bool := n.type == 5
/-- `is_aud`, `sps_avcodec_h264_parser.cpp:48-50`. -/
def isAud (n : Nal) : Bool := n.type == 9
/-- `is_sei`, `sps_avcodec_h264_parser.cpp:52-54`. -/
def isSei (n : Nal) : Bool := n.type == 6
/-- `is_slice`, `sps_avcodec_h264_parser.cpp:56-58`. -/
def isSlice (n : Nal) : Bool := n.type == 1

end Nal

/-- `find_start_code`, `sps_avcodec_h264_parser.cpp:101-110`: `mem` is the memory at `buf`, the result the offset found.
The three bytes are looked at together (the code stops at the first that differs). -/
def findStartCode : (mem : List UInt8) → (sz : Nat) → Option (Option Nat)
  | _, 0 => some none
  | mem, sz + 1 =>
    if sz + 1 > 3 then
      match mem with
      | a :: b :: c :: _ =>
        if a = 0 ∧ b = 0 ∧ c = 1 then some (some 0)
        else (findStartCode (mem.drop 1) sz).map fun r => r.map (· + 1)
      | _ => none
    else some none

/-- `NALUParser`, `sps_avcodec_h264_parser.hpp:127-152`; `lenSize` is `nalu_length_size_minus_one` (`int8_t`). -/
structure NaluParser where
  isAvc : Bool := false
  lenSize : Int := -1
deriving DecidableEq, Repr

namespace NaluParser

/-- The bytes `[pos, pos + n)` of the buffer of a context that stands at a byte boundary. -/
def slice (c : BitCtx) (n : Nat) : Option (List UInt8) :=
  if c.remBits = 0 ∧ c.pos + n ≤ c.buf.length then some ((c.buf.drop c.pos).take n) else none

/-- `size_t` subtraction. -/
def sub64 (a b : Nat) : Nat := (2 ^ 64 + a - b % 2 ^ 64) % 2 ^ 64

/-- `sps_avcodec_h264_parser.cpp:205`: the start code is `s` bytes behind the position, `size` bytes are left, and the next
start code `e` bytes behind `s + 1`. -/
def unitSize (size s : Nat) : (e : Option Nat) → Nat
  | some e => sub64 (s + 1 + e - s) 3
  | none => sub64 (sub64 size s) 3

/-- The length of the next unit, `sps_avcodec_h264_parser.cpp:194-211`. `Except` with the returned error. -/
def nextSize (p : NaluParser) (c : BitCtx) : Option (Except Err (Nat × BitCtx)) :=
  if p.isAvc then
    (c.readBits ((p.lenSize + 1).toNat * 8)).map Except.ok
  else
    let mem := c.buf.drop c.pos
    (findStartCode mem c.size).bind fun start =>
      match start with
      | none => some (Except.error Err.ERROR_H264_DECODER)
      | some s =>
        (findStartCode (mem.drop (s + 1)) (sub64 (sub64 c.size s) 1)).bind fun e =>
          let n := unitSize c.size s e
          if c.pos + (s + 3) ≤ c.buf.length then
            (c.skipReadBytes ((s + 3 : Nat) : Int)).map fun c => Except.ok (n, c)
          else none

/-- The loop of `NALUParser::decode_data`, `sps_avcodec_h264_parser.cpp:193-224`. Every pass moves forward, so the length of
the buffer bounds the passes. `out` are the units already in the `NALUContext`. -/
def dataLoop (p : NaluParser) : (fuel : Nat) → BitCtx → (out : List Nal) → Option (Err × List Nal)
  | 0, _, _ => none
  | fuel + 1, c, out =>
    if c.acquire 4 ≠ Err.SUCCESS then some (Err.SUCCESS, out)
    else
      (nextSize p c).bind fun r =>
        match r with
        | Except.error e => some (e, out)
        | Except.ok (n, c) =>
          if c.acquire n ≠ Err.SUCCESS then some (Err.ERROR_H264_DECODER, out)
          else
            (slice c n).bind fun d => (Nal.parse d).bind fun r =>
              match r with
              | (_, some nal) => (c.skipReadBytes (n : Int)).bind fun c => dataLoop p fuel c (out ++ [nal])
              | (e, none) => some (e, out)

/-- `NALUParser::decode_data`, `sps_avcodec_h264_parser.cpp:182-225`. -/
def decodeData (p : NaluParser) (buf : List UInt8) (out : List Nal) : Option (Err × List Nal) :=
  if p.isAvc ∧ p.lenSize < 0 then some (Err.ERROR_H264_DECODER, out)
  else dataLoop p (buf.length + 1) (BitCtx.init buf) out

/-- One of the two loops of `decode_header`, `sps_avcodec_h264_parser.cpp:148-159` and `162-173`. -/
def setsLoop (p : NaluParser) : (n : Nat) → BitCtx → (out : List Nal) → Option (Err × BitCtx × List Nal)
  | 0, c, out => some (Err.SUCCESS, c, out)
  | n + 1, c, out =>
    (c.readBits 16).bind fun (v, c) =>
      let size := v + 2
      if c.acquire size ≠ Err.SUCCESS then some (Err.ERROR_H264_DECODER, c, out)
      else
        (slice c size).bind fun d => (decodeData p d out).bind fun (e, out) =>
          if e ≠ Err.SUCCESS then some (e, c, out)
          else (c.skipReadBytes (size : Int)).bind fun c => setsLoop p n c out

/-- The reads of `decode_header`, `sps_avcodec_h264_parser.cpp:138-147`: version, profile, compatibility, level, reserved,
length size, reserved, number of SPS. -/
def headFields (c : BitCtx) : Option (Nat × Nat × Nat × BitCtx) :=
  (c.readBits 8).bind fun (v, c) => (c.readBits 8).bind fun (_, c) => (c.readBits 8).bind fun (_, c) =>
  (c.readBits 8).bind fun (_, c) => (c.readBits 6).bind fun (_, c) => (c.readBits 2).bind fun (l, c) =>
  (c.readBits 3).bind fun (_, c) => (c.readBits 5).bind fun (n, c) => some (v, l, n, c)

/-- `NALUParser::decode_header`, `sps_avcodec_h264_parser.cpp:122-180`. -/
def decodeHeader (p : NaluParser) (buf : List UInt8) (out : List Nal) : Option (Err × NaluParser × List Nal) :=
  match buf with
  | [] => some (Err.ERROR_H264_DECODER, p, out)
  | b0 :: _ =>
    if b0 = 1 then
      let c := BitCtx.init buf
      if c.acquire 7 ≠ Err.SUCCESS then some (Err.ERROR_H264_DECODER, p, out)
      else
        (headFields c).bind fun (v, l, sps, c) =>
          let p : NaluParser := { isAvc := v != 0, lenSize := l }
          (setsLoop p sps c out).bind fun (e, c, out) =>
            if e ≠ Err.SUCCESS then some (e, p, out)
            else (c.readBits 8).bind fun (pps, c) => (setsLoop p pps c out).map fun (e, _, out) => (e, p, out)
    else
      let p := { p with isAvc := false }
      (decodeData p buf out).map fun (e, out) => (e, p, out)

/-- `NALUParser::decode`, `sps_avcodec_h264_parser.cpp:112-120`. -/
def decode (p : NaluParser) (buf : List UInt8) (isSeqHeader : Bool) (out : List Nal) : Option (Err × NaluParser × List Nal) :=
  if isSeqHeader then decodeHeader p buf out else (decodeData p buf out).map fun (e, out) => (e, p, out)

/-- Fill a packet of capacity `cap` through a `BitContext` and set its size to what was written,
`sps_avcodec_h264_parser.cpp:269-288` and `326-331`. The buffer of `create_empty_cap` is uninitialised; the model starts
from zeroes, which never show because only written bytes count in the size. -/
def fill (cap : Nat) (w : BitCtx → Option BitCtx) : Option (List UInt8) :=
  (w (BitCtx.init (List.replicate cap 0))).bind fun c =>
    if c.posOff < 0 then none
    else if c.posOff.toNat ≤ cap then some (c.buf.take c.posOff.toNat) else none

/-- The last unit that satisfies a test, as the loop at `sps_avcodec_h264_parser.cpp:231-237` leaves it. -/
def lastOf (f : Nal → Bool) (ns : List Nal) : Option Nal := ns.foldl (fun r n => if f n then some n else r) none

/-- The writes of the sequence header, `sps_avcodec_h264_parser.cpp:270-286`; `nalu_buf[1]` and `nalu_buf[3]` at `:271` and
`:273`. -/
def writeRecord (sps : List UInt8) (pps : Option (List UInt8)) (lenSize : Nat) (c : BitCtx) : Option BitCtx :=
  match sps[1]?, sps[3]? with
  | some profile, some level =>
    (c.writeBits 0x01 8).bind fun c => (c.writeBits profile.toNat 8).bind fun c => (c.writeBits 0x00 8).bind fun c =>
    (c.writeBits level.toNat 8).bind fun c => (c.writeBits lenSize 8).bind fun c => (c.writeBits 1 8).bind fun c =>
    (c.writeBits sps.length 16).bind fun c => (c.writeBytes sps).bind fun c =>
    match pps with
    | none => c.writeBits 0 8
    | some pps => (c.writeBits 1 8).bind fun c => (c.writeBits pps.length 16).bind fun c => c.writeBytes pps
  | _, _ => none

/-- The sequence header packet, `sps_avcodec_h264_parser.cpp:239-292`. Simplification: the `int` size `pkt_sz` is a `Nat`. -/
def seqHeader (sps : Nal) (pps : Option Nal) : Option (Except Err AVPkt) :=
  let cap := 5 + 1 + (2 + sps.data.length) + 1 + (pps.map fun p => 2 + p.data.length).getD 0
  if sps.data.length < 4 then some (Except.error Err.ERROR_H264_ENCODER)
  else (fill cap (writeRecord sps.data (pps.map (·.data)) 3)).map fun d =>
    Except.ok { stream := .video, pktType := 0, payload := d, dts := 0, pts := 0, flags := 0x17, codec := 7 }

/-- The flag byte of a unit that is emitted, `sps_avcodec_h264_parser.cpp:303-313`; `none` is `continue`. -/
def frameFlag (n : Nal) : Option Int :=
  if n.isIdr || n.isSlice then some (if n.isIdr then 0x17 else 0x27)
  else if n.isSei then some 0x57
  else none

/-- One unit, `sps_avcodec_h264_parser.cpp:316-332`. -/
def unitPkt (ctx : CodecCtx) (lenSize : Int) (flag : Int) (n : Nal) : Option AVPkt :=
  let w := (lenSize + 1).toNat
  if ctx.timebase = 0 then none
  else (fill (w + n.data.length) fun c => (c.writeBits n.data.length (8 * w)).bind fun c => c.writeBytes n.data).map fun d =>
    { stream := .video, pktType := 1, payload := d, dts := ctx.dts.tdiv ctx.timebase, pts := ctx.pts.tdiv ctx.timebase,
      flags := flag, codec := 7 }

/-- The second loop of `encode_avc`, `sps_avcodec_h264_parser.cpp:294-333`. -/
def unitsLoop (ctx : CodecCtx) : (lenSize : Int) → List Nal → (out : List AVPkt) → Option (Int × List AVPkt)
  | l, [], out => some (l, out)
  | l, n :: ns, out =>
    if n.isSps || n.isPps || n.isAud then unitsLoop ctx l ns out
    else
      let l := if l < 0 then 3 else l
      match frameFlag n with
      | none => unitsLoop ctx l ns out
      | some flag => (unitPkt ctx l flag n).bind fun pkt => unitsLoop ctx l ns (out ++ [pkt])

/-- `NALUParser::encode_avc`, `sps_avcodec_h264_parser.cpp:227-336`: the packets pushed. -/
def encodeAvc (p : NaluParser) (ctx : CodecCtx) (ns : List Nal) : Option (Err × NaluParser × List AVPkt) :=
  match lastOf Nal.isSps ns with
  | none => (unitsLoop ctx p.lenSize ns []).map fun (l, out) => (Err.SUCCESS, { p with lenSize := l }, out)
  | some sps =>
    (seqHeader sps (lastOf Nal.isPps ns)).bind fun r =>
      match r with
      | Except.error e => some (e, p, [])
      | Except.ok pkt => (unitsLoop ctx 3 ns [pkt]).map fun (l, out) => (Err.SUCCESS, { p with lenSize := l }, out)

end NaluParser

namespace H264Parser

/-- `H264AVCodecParser::encode_avc`, `sps_avcodec_h264_parser.cpp:346-357`; the parser is the `NALUParser` it owns. -/
def encodeAvc (p : NaluParser) (ctx : CodecCtx) (buf : List UInt8) : Option (Err × NaluParser × List AVPkt) :=
  (p.decode buf false []).bind fun (e, p, ns) =>
    if e ≠ Err.SUCCESS then some (e, p, []) else p.encodeAvc ctx ns

/-- `H264AVCodecParser::encode_raw_nalu`, `sps_avcodec_h264_parser.cpp:359-375`. -/
def encodeRawNalu (p : NaluParser) (ctx : CodecCtx) (buf : List UInt8) : Option (Err × NaluParser × List AVPkt) :=
  (Nal.parse buf).bind fun r =>
    match r with
    | (_, some nal) => p.encodeAvc ctx [nal]
    | (e, none) => some (e, p, [])

end H264Parser
end Sps
