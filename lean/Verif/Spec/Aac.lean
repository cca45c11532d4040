import Verif.Spec.Bits
import Verif.Model.Aac
/-!
# ADTS (ISO/IEC 13818-7 / 14496-3)
-/
namespace Spec.Aac
open Sps

/-- The audio parameters of an ADTS header. -/
structure Params where
  profile : Nat
  freq : Nat
  channels : Nat
  original : Nat
  home : Nat
deriving DecidableEq, Repr

/-- An ADTS frame: header fields, checksum (present or not) and raw data. -/
structure Frame where
  id : Nat := 0
  layer : Nat := 0
  params : Params
  privateBit : Nat := 0
  copyrightBit : Nat := 0
  copyrightStart : Nat := 0
  fullness : Nat := 0x7ff
  blocks : Nat := 0
  crc : Option Nat := none
  data : List UInt8

/-- Bytes of the header: 7, or 9 with the checksum. -/
def Frame.headSize (f : Frame) : Nat := if f.crc.isSome then 9 else 7

/-- The bits of a frame: sync word, the fields of the fixed and the variable header, the checksum, the data. -/
def Frame.bits (f : Frame) : List Bool :=
  fieldBits [(0xfff, 12), (f.id, 1), (f.layer, 2), (if f.crc.isSome then 0 else 1, 1), (f.params.profile, 2), (f.params.freq, 4),
    (f.privateBit, 1), (f.params.channels, 3), (f.params.original, 1), (f.params.home, 1), (f.copyrightBit, 1),
    (f.copyrightStart, 1), (f.headSize + f.data.length, 13), (f.fullness, 11), (f.blocks, 2)] ++
  (match f.crc with | none => [] | some c => fieldBits [(c, 16)]) ++ bitsOf f.data

/-- Fields in range. -/
structure Frame.ok (f : Frame) : Prop where
  profile : f.params.profile < 4
  freq : f.params.freq < 16
  channels : f.params.channels < 8
  original : f.params.original < 2
  home : f.params.home < 2
  size : f.headSize + f.data.length < 2 ^ 13

/-- AudioSpecificConfig: object type, sampling frequency index, channel configuration and three zero bits. -/
def configBits (objectType freq channels : Nat) : List Bool := fieldBits [(objectType, 5), (freq, 4), (channels, 4), (0, 3)]

/-- A packet that carries an AudioSpecificConfig: AAC, packet type 0, without a time. -/
def isConfig (objectType freq channels : Nat) (p : AVPkt) : Prop :=
  p = { stream := .audio, pktType := 0, payload := p.payload, dts := 0, pts := 0, flags := 0xAF, codec := 10 } ∧
    bitsOf p.payload = configBits objectType freq channels

/-- The packet of a raw frame. -/
def framePacket (ctx : CodecCtx) (d : List UInt8) : AVPkt :=
  { stream := .audio, pktType := 1, payload := d, dts := ctx.dts.tdiv ctx.timebase, pts := ctx.dts.tdiv ctx.timebase,
    flags := 0xAF, codec := 10 }

/-- What is emitted for a list of frames, `last` the parameters announced last: a sequence header where the parameters are new,
or where the frame carries a checksum, and the raw frame. -/
def emitted (ctx : CodecCtx) : (last : Option Params) → List Frame → List AVPkt → Prop
  | _, [], out => out = []
  | last, f :: fs, out =>
    if last = some f.params ∧ f.crc = none then
      ∃ t, out = framePacket ctx f.data :: t ∧ emitted ctx (some f.params) fs t
    else
      ∃ c t, out = c :: framePacket ctx f.data :: t ∧ isConfig (f.params.profile + 1) f.params.freq f.params.channels c ∧
        emitted ctx (some f.params) fs t

/-- The parameters announced last after a list of frames. -/
def lastParams (last : Option Params) (fs : List Frame) : Option Params := fs.foldl (fun _ f => some f.params) last

end Spec.Aac
