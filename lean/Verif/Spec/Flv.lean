import Verif.Spec.Bits
import Verif.Model.Packet
import Verif.Model.Err
/-!
# FLV: the file format, as a specification

An FLV file is a nine byte header and then, for every tag: the size of the tag before it (4 bytes), the tag type
(1: 8 audio, 9 video, 18 script), the body length (3), the time stamp (low 3 bytes, then the high byte), a stream number
(3, zero) and the body.
-/
namespace Spec.Flv
open Sps

/-- `x` reduced to `k` bits. -/
def bits (k : Nat) (x : Int) : Nat := (x % (2 ^ k : Int)).toNat

/-- A `k`-bit two's complement number. -/
def signed (k : Nat) (n : Nat) : Int := if n < 2 ^ (k - 1) then n else (n : Int) - 2 ^ k

/-- The tag type of a packet. -/
def typeOf : StreamType → Nat
  | .audio => 8
  | .video => 9
  | _ => 18

/-- A video packet with frame type 5 is a command frame: it has neither packet type nor composition offset. -/
def isCommand (flags : Nat) : Bool := flags / 16 % 16 == 5

/-- The body of the tag of a packet. -/
def body (p : AVPkt) : List UInt8 :=
  match p.stream with
  | .audio => beBytes 1 (bits 8 p.flags) ++ beBytes 1 (bits 8 p.pktType) ++ p.payload
  | .video =>
    if isCommand (bits 8 p.flags) then beBytes 1 (bits 8 p.flags) ++ p.payload
    else beBytes 1 (bits 8 p.flags) ++ beBytes 1 (bits 8 p.pktType) ++ beBytes 3 (bits 24 (p.pts - p.dts)) ++ p.payload
  | _ => p.payload

/-- A tag, with the size of the tag before it. -/
def tag (prev type ts : Nat) (body : List UInt8) : List UInt8 :=
  beBytes 4 prev ++ beBytes 1 type ++ beBytes 3 body.length ++ beBytes 3 (ts % 2 ^ 24) ++ beBytes 1 (ts / 2 ^ 24) ++
    beBytes 3 0 ++ body

/-- The tags of the packets; the tag before the first one has size `prev`. -/
def chain (prev : Nat) : List AVPkt → List UInt8
  | [] => []
  | p :: ps => tag prev (typeOf p.stream) (bits 32 p.dts) (body p) ++ chain (11 + (body p).length) ps

/-- The default file header: version 1, audio and video, nine bytes long. -/
def fileHeader : List UInt8 := [70, 76, 86, 1, 5, 0, 0, 0, 9]

/-- Audio, video and script data are what FLV carries. -/
def carries (p : AVPkt) : Bool := p.stream == .audio || p.stream == .video || p.stream == .subtitle

/-- The packets FLV can carry without loss and the demuxer supports, with a demuxer buffer of `cap` bytes. -/
structure Supported (cap : Nat) (p : AVPkt) : Prop where
  msg : p.msg = .data
  dts : 0 ≤ p.dts ∧ p.dts < 2 ^ 32
  payload : p.payload ≠ []
  fits : (body p).length ≤ cap ∧ (body p).length < 2 ^ 24
  format :
    (p.stream = .audio ∧ (∃ fl : Nat, p.flags = fl ∧ fl < 256 ∧ fl / 16 = 10) ∧ p.codec = 10 ∧
      (0 ≤ p.pktType ∧ p.pktType < 256) ∧ p.pts = p.dts) ∨
    (p.stream = .video ∧ (∃ fl : Nat, p.flags = fl ∧ fl < 256 ∧ p.codec = (fl % 16 : Nat) ∧ (fl % 16 = 7 ∨ fl % 16 = 12) ∧
      (if isCommand fl then p.pktType = 0 ∧ p.pts = 0
       else 0 ≤ p.pktType ∧ p.pktType < 256 ∧ -2 ^ 23 ≤ p.pts - p.dts ∧ p.pts - p.dts < 2 ^ 23))) ∨
    (p.stream = .subtitle ∧ p.flags = 0 ∧ p.codec = 0 ∧ p.pktType = 0 ∧ p.pts = 0)

/-- What FLV keeps of a packet: the decode time modulo 2^32, the composition offset as a 24-bit signed number, one byte
of flags and packet type; scripts have only a time and a payload. -/
def wire (p : AVPkt) : AVPkt :=
  match p.stream with
  | .audio =>
    { stream := .audio, payload := p.payload, dts := bits 32 p.dts, pts := bits 32 p.dts, pktType := bits 8 p.pktType,
      flags := bits 8 p.flags, codec := (bits 8 p.flags / 16 : Nat) }
  | .video =>
    if isCommand (bits 8 p.flags) then
      { stream := .video, payload := p.payload, dts := bits 32 p.dts, pts := 0, pktType := 0, flags := bits 8 p.flags,
        codec := (bits 8 p.flags % 16 : Nat) }
    else
      { stream := .video, payload := p.payload, dts := bits 32 p.dts,
        pts := bits 32 p.dts + signed 24 (bits 24 (p.pts - p.dts)), pktType := bits 8 p.pktType, flags := bits 8 p.flags,
        codec := (bits 8 p.flags % 16 : Nat) }
  | st => { stream := st, payload := p.payload, dts := bits 32 p.dts, pts := 0, pktType := 0, flags := 0, codec := 0 }

/-- Tag types, codecs and body lengths the demuxer accepts: AAC audio with a two byte sub-header, H.264 or H.265 video with
a sub-header of five bytes (one byte for command frames), scripts; the payload is not empty. -/
def acceptable (ty : Nat) (b : List UInt8) : Bool :=
  (ty == 8 && 2 < b.length && b.head?.any fun f => f.toNat / 16 == 10) ||
  (ty == 9 && b.head?.any fun f => (f.toNat % 16 == 7 || f.toNat % 16 == 12) &&
    (if isCommand f.toNat then decide (1 < b.length) else decide (5 < b.length))) ||
  (ty == 18 && 0 < b.length)

/-- What the format says about a tag body. `tooShort es`: the body has no room for the sub-header, the tag must be
rejected, and `es` are the errors that may be reported. -/
inductive Verdict
  | accept (p : AVPkt)
  | reject (e : Err)
  | tooShort (es : List Err)
deriving DecidableEq, Repr

/-- Decision on a complete tag of type `ty`, time stamp `ts` and body `b`. -/
def judge (ty ts : Nat) (b : List UInt8) : Verdict :=
  if ty = 8 then
    match b with
    | [] => .tooShort [Err.ERROR_FLV_AUDIO_CODECID, Err.ERROR_FLV_TAG]
    | f :: r =>
      if f.toNat / 16 ≠ 10 then .reject Err.ERROR_FLV_AUDIO_CODECID
      else match r with
        | [] => .tooShort [Err.ERROR_FLV_TAG]
        | [_] => .reject Err.ERROR_FLV_TAG
        | t :: d => .accept { stream := .audio, pktType := t.toNat, payload := d, dts := ts, pts := ts, flags := f.toNat,
                              codec := 10 }
  else if ty = 9 then
    match b with
    | [] => .tooShort [Err.ERROR_FLV_VIDEO_CODECID, Err.ERROR_FLV_TAG]
    | f :: r =>
      if f.toNat % 16 ≠ 7 ∧ f.toNat % 16 ≠ 12 then .reject Err.ERROR_FLV_VIDEO_CODECID
      else if isCommand f.toNat then
        if r = [] then .reject Err.ERROR_FLV_TAG
        else .accept { stream := .video, pktType := 0, payload := r, dts := ts, pts := 0, flags := f.toNat,
                       codec := (f.toNat % 16 : Nat) }
      else match r with
        | t :: c0 :: c1 :: c2 :: d =>
          if d = [] then .reject Err.ERROR_FLV_TAG
          else .accept { stream := .video, pktType := t.toNat, payload := d, dts := ts,
                         pts := ts + signed 24 (beVal [c0, c1, c2]), flags := f.toNat, codec := (f.toNat % 16 : Nat) }
        | _ => .tooShort [Err.ERROR_FLV_TAG]
  else if ty = 18 then
    if b = [] then .reject Err.ERROR_FLV_TAG
    else .accept { stream := .subtitle, pktType := 0, payload := b, dts := ts, pts := 0, flags := 0, codec := 0 }
  else .reject Err.ERROR_FLV_UNKNOWN_TAG_TYPE

/-- The first tag of a byte string that the peer ends with `closed`, read with a buffer of `cap` bytes, and the rest. -/
def firstTag (cap : Nat) (closed : Err) (s : List UInt8) : Verdict × List UInt8 :=
  if s.length < 15 then (.reject closed, s)
  else
    let len := beVal ((s.drop 5).take 3)
    let r := s.drop 15
    if cap < len then (.reject Err.ERROR_IO_BUFFER_FULL, r)
    else if r.length < len then (.reject closed, r)
    else (judge (beVal ((s.drop 4).take 1)) (beVal ((s.drop 8).take 3) + 2 ^ 24 * beVal ((s.drop 11).take 1)) (r.take len),
          r.drop len)

/-- The first `n` packets of a sequence of tags and how reading ends: `[]` stands for "not ended", otherwise the possible
errors. The flag tells whether the end is a body too short for its sub-header. -/
def packets (cap : Nat) (closed : Err) : Nat → List UInt8 → List AVPkt × List Err × Bool
  | 0, _ => ([], [Err.SUCCESS], false)
  | n + 1, s =>
    match firstTag cap closed s with
    | (.accept p, r) => let x := packets cap closed n r; (p :: x.1, x.2)
    | (.reject e, _) => ([], [e], false)
    | (.tooShort es, _) => ([], es, true)

/-- The same for a whole file. -/
def file (cap : Nat) (closed : Err) (n : Nat) (s : List UInt8) : List AVPkt × List Err × Bool :=
  if s.length < 9 then ([], [closed], false)
  else if s.take 3 ≠ [70, 76, 86] then ([], [Err.ERROR_FLV_PROBE], false)
  else packets cap closed n (s.drop 9)

end Spec.Flv
