import Verif.Model.H264
/-!
# Model of the AAC parser (`/repo/src/avcodec/sps_avcodec_aac_parser.{hpp,cpp}`)
-/
namespace Sps

/-- `AdtsFixedHeader`, `sps_avcodec_aac_parser.hpp:76-113`. `crc16` is read and never used, it is left out of the record. -/
structure Adts where
  id : Nat
  layer : Nat
  protectionAbsent : Nat
  profile : Nat
  freq : Nat
  privateBit : Nat
  channels : Nat
  original : Nat
  home : Nat
  copyrightBit : Nat
  copyrightStart : Nat
  frameLength : Nat
  fullness : Nat
  blocks : Nat
deriving DecidableEq, Repr

namespace Adts
open BProg

/-- `AdtsFixedHeader::decode`, `sps_avcodec_aac_parser.cpp:66-112`. -/
def decode : BProg (Except Err Adts) := do
  let e ← acq 7
  if e ≠ Err.SUCCESS then return Except.error Err.ERROR_AAC_DECODER else
  let sync ← rd 12
  if sync ≠ 0xfff then return Except.error Err.ERROR_AAC_DECODER else
  let id ← rd 1
  let layer ← rd 2
  let pa ← rd 1
  let profile ← rd 2
  let freq ← rd 4
  let priv ← rd 1
  let ch ← rd 3
  let orig ← rd 1
  let home ← rd 1
  let cb ← rd 1
  let cs ← rd 1
  let len ← rd 13
  let full ← rd 11
  let blocks ← rd 2
  let h : Adts := ⟨id, layer, pa, profile, freq, priv, ch, orig, home, cb, cs, len, full, blocks⟩
  if pa = 0 then
    let _ ← rd 16
    return Except.ok h
  else return Except.ok h

/-- `AdtsFixedHeader::operator==`, `sps_avcodec_aac_parser.cpp:57-64`: the first `=` is an assignment, so the left operand
changes and the result is what was assigned. -/
def eq (a b : Adts) : Bool × Adts :=
  let v := b.protectionAbsent ≠ 0 ∧ a.profile = b.profile ∧ a.freq = b.freq ∧ a.channels = b.channels ∧
    a.original = b.original ∧ a.home = b.home
  (decide v, { a with protectionAbsent := if v then 1 else 0 })

/-- `aac_header`, `sps_avcodec_aac_parser.cpp:138-151`: two uninitialised bytes, every bit of which is written. -/
def config (h : Adts) : Option (List UInt8) :=
  ((BitCtx.init [0, 0]).writeBits (h.profile + 1) 5).bind fun c => (c.writeBits h.freq 4).bind fun c =>
  (c.writeBits h.channels 4).bind fun c => (c.writeBits 0 3).bind fun c => some c.buf

end Adts

/-- `AacAVCodecParser`, `sps_avcodec_aac_parser.hpp:116-129`. -/
structure AacParser where
  header : Option Adts := none
deriving DecidableEq, Repr

namespace AacParser
open BProg

/-- `(AAC << 4) | FLV_SAMPLERATE_44100HZ | FLV_SAMPLESSIZE_16BIT | FLV_STEREO`, `sps_avcodec_aac_parser.cpp:139-140`. -/
def audioFlags : Int := 0xAF

/-- The sequence header packet, `sps_avcodec_aac_parser.cpp:153-163`. -/
def configPkt (d : List UInt8) : AVPkt :=
  { stream := .audio, pktType := 0, payload := d, dts := 0, pts := 0, flags := audioFlags, codec := 10 }

/-- A frame packet, `sps_avcodec_aac_parser.cpp:176-186` and `202-212`. -/
def framePkt (ctx : CodecCtx) (d : List UInt8) : AVPkt :=
  { stream := .audio, pktType := 1, payload := d, dts := ctx.dts.tdiv ctx.timebase, pts := ctx.dts.tdiv ctx.timebase,
    flags := audioFlags, codec := 10 }

/-- `if (!header || !(*header == tmp_header))`, `sps_avcodec_aac_parser.cpp:131-165`: the new `header` and the sequence
header packets. -/
def announce (p : AacParser) (h : Adts) : Option (AacParser × List AVPkt) :=
  match p.header with
  | none => (h.config).map fun d => ({ header := some h }, [configPkt d])
  | some old =>
    if (old.eq h).1 then some ({ header := some (old.eq h).2 }, [])
    else (h.config).map fun d => ({ header := some h }, [configPkt d])

/-- The loop of `encode_avc`, `sps_avcodec_aac_parser.cpp:123-192`. Every pass takes at least seven bytes, so the length of
the buffer bounds the passes. A frame length below the header size makes `AVPacket::create` copy a negative number of bytes:
`none`. -/
def loop (ctx : CodecCtx) : (fuel : Nat) → BitCtx → AacParser → (out : List AVPkt) → Option (Err × AacParser × List AVPkt)
  | 0, _, _, _ => none
  | fuel + 1, c, p, out =>
    if c.size = 0 then some (Err.SUCCESS, p, out)
    else
      (Adts.decode.run c).bind fun (r, c) =>
        match r with
        | Except.error e => some (e, p, out)
        | Except.ok h =>
          (announce p h).bind fun (p, pk) =>
            let out := out ++ pk
            if h.frameLength = 0 then some (Err.ERROR_AAC_DECODER, p, out)
            else
              let head := 7 + (if h.protectionAbsent = 1 then 0 else 2)
              if h.frameLength < head ∨ ctx.timebase = 0 then none
              else
                ((rdBytes (h.frameLength - head)).run c).bind fun (d, c) => loop ctx fuel c p (out ++ [framePkt ctx d])

/-- `AacAVCodecParser::encode_avc`, `sps_avcodec_aac_parser.cpp:118-195`. -/
def encodeAvc (p : AacParser) (ctx : CodecCtx) (buf : List UInt8) : Option (Err × AacParser × List AVPkt) :=
  loop ctx (buf.length + 1) (BitCtx.init buf) p []

/-- `AacAVCodecParser::encode_raw_avc`, `sps_avcodec_aac_parser.cpp:197-218`. -/
def encodeRawAvc (ctx : CodecCtx) (d : List UInt8) : Option (Err × List AVPkt) :=
  if ctx.timebase = 0 then none else some (Err.SUCCESS, [framePkt ctx d])

end AacParser
end Sps
