import Verif.Spec.H264
import Verif.Spec.Aac
import Verif.Spec.Ts
import Verif.Model.Rtp
/-!
# Audio and video in a transport stream
-/
namespace Spec.TsCodec
open Sps

/-- The content of a unit of a transport stream: NAL units behind start codes, or ADTS frames. -/
inductive Unit
  | video (ctx : CodecCtx) (us : List (Nat × List UInt8))
  | audio (ctx : CodecCtx) (fs : List Aac.Frame)

/-- The unit the transport stream layer reports as `d`: its stream type, its times (90 kHz clock) and its bytes. A video unit is
one without an announced length, below 64 KiB. -/
def isUnit : Unit → PesDone → Prop
  | .video ctx us, d => d.streamType = 0x1b ∧ ctx = { dts := d.dts, pts := d.pts, timebase := 90 } ∧ d.data = H264.annexB us ∧
      d.len = d.data.length ∧ us ≠ [] ∧ (∀ x ∈ us, H264.unitOk x.2) ∧ d.data.length < 2 ^ 16
  | .audio ctx fs, d => d.streamType = 0x0f ∧ ctx = { dts := d.dts, pts := d.pts, timebase := 90 } ∧
      bitsOf d.data = fs.flatMap Aac.Frame.bits ∧ (∀ f ∈ fs, f.ok) ∧ d.data.length < 2 ^ 32

/-- The units and the reports correspond one by one. -/
def areUnits : List Unit → List PesDone → Prop
  | [], [] => True
  | u :: us, d :: ds => isUnit u d ∧ areUnits us ds
  | _, _ => False

/-- The packets for the units: a video unit gives the packets of its NAL units with its times, an audio unit those of its frames;
`last` are the audio parameters announced last. -/
def flow : (last : Option Aac.Params) → List Unit → List AVPkt → Prop
  | _, [], out => out = []
  | last, .video ctx us :: r, out => ∃ t, out = (H264.answer ctx (H264.withZeros us)).2 ++ t ∧ flow last r t
  | last, .audio ctx fs :: r, out => ∃ a t, out = a ++ t ∧ Aac.emitted ctx last fs a ∧ flow (Aac.lastParams last fs) r t

/-- What a unit of a transport stream says, whatever its bytes are. -/
inductive Content
  | video (ctx : CodecCtx) (us : List (List UInt8))
  | audio (ctx : CodecCtx) (fs : List Aac.Frame)
  | other

/-- The unit `d` says `c`. The bytes of a video unit (as many as are given to the parser) are NAL units behind start codes, possibly with something before the first,
and a sequence parameter set has its four first bytes; those of an audio unit are ADTS frames; units of other types say nothing. -/
def says : Content → PesDone → Prop
  | .video ctx us, d => d.streamType = 0x1b ∧ ctx = { dts := d.dts, pts := d.pts, timebase := 90 } ∧ d.len ≤ d.data.length ∧
      H264.Found (d.data.take d.len) us ∧ ∀ s, H264.spsOf us = some s → 4 ≤ s.length
  | .audio ctx fs, d => d.streamType = 0x0f ∧ ctx = { dts := d.dts, pts := d.pts, timebase := 90 } ∧
      bitsOf d.data = fs.flatMap Aac.Frame.bits ∧ ∀ f ∈ fs, f.ok
  | .other, d => d.streamType ≠ 0x1b ∧ d.streamType ≠ 0x0f

/-- The units of a list say the things of another, one by one. -/
inductive allSay : List Content → List PesDone → Prop
  | nil : allSay [] []
  | cons {c : Content} {d : PesDone} {cs : List Content} {ds : List PesDone} : says c d → allSay cs ds → allSay (c :: cs) (d :: ds)

/-- The packets for what the units say, as in `flow`. -/
def sent : (last : Option Aac.Params) → List Content → List AVPkt → Prop
  | _, [], out => out = []
  | last, .video ctx us :: r, out => ∃ t, out = (H264.answer ctx us).2 ++ t ∧ sent last r t
  | last, .audio ctx fs :: r, out => ∃ a t, out = a ++ t ∧ Aac.emitted ctx last fs a ∧ sent (Aac.lastParams last fs) r t
  | last, .other :: r, out => sent last r out

/-- A unit that RTMP can carry: its times are those of a 33-bit clock or absent (-1), the display time of video is less than 2^23 milliseconds from the decoding time, and there is no
supplemental information (SEI) in it. -/
def playable : Unit → Prop
  | .video ctx us => -1 ≤ ctx.dts ∧ ctx.dts < 2 ^ 33 ∧ -2 ^ 23 ≤ ctx.pts.tdiv 90 - ctx.dts.tdiv 90 ∧ ctx.pts.tdiv 90 - ctx.dts.tdiv 90 < 2 ^ 23 ∧ ∀ x ∈ us, H264.unitType x.2 ≠ 6
  | .audio ctx _ => -1 ≤ ctx.dts ∧ ctx.dts < 2 ^ 33

/-- What RTMP can carry, of what a unit says: as `playable`. -/
def carriable : Content → Prop
  | .video ctx us => -1 ≤ ctx.dts ∧ ctx.dts < 2 ^ 33 ∧ -2 ^ 23 ≤ ctx.pts.tdiv 90 - ctx.dts.tdiv 90 ∧ ctx.pts.tdiv 90 - ctx.dts.tdiv 90 < 2 ^ 23 ∧ ∀ u ∈ us, H264.unitType u ≠ 6
  | .audio ctx _ => -1 ≤ ctx.dts ∧ ctx.dts < 2 ^ 33
  | .other => True

end Spec.TsCodec
