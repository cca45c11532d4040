import Verif.Spec.Cache
import Verif.Spec.Flv
/-! # Which decoder configuration a frame is decoded with -/
namespace Spec.Decode
open Sps

/-- The decoder configuration of the video (AVC or HEVC sequence header): packet type 0, and not a command frame. -/
def videoConfig (p : AVPkt) : Bool := p.stream == .video && p.pktType == 0 && !Flv.isCommand (Flv.bits 8 p.flags)
/-- Video data. -/
def picture (p : AVPkt) : Bool := p.stream == .video && !(p.pktType == 0)
/-- The decoder configuration of the audio (AAC sequence header). -/
def audioConfig (p : AVPkt) : Bool := p.stream == .audio && p.pktType == 0
/-- Audio data. -/
def sound (p : AVPkt) : Bool := p.stream == .audio && !(p.pktType == 0)

/-- A decoder: every frame, with the configuration that it is decoded with, the last one before it. -/
def decoded (config frame : AVPkt → Bool) : Option AVPkt → List AVPkt → List (AVPkt × Option AVPkt)
  | _, [] => []
  | c, p :: ps =>
    if config p then decoded config frame (some p) ps
    else if frame p then (p, c) :: decoded config frame c ps
    else decoded config frame c ps

/-- What a decoder makes of the video of a stream, and of its audio. -/
def video (ps : List AVPkt) : List (AVPkt × Option AVPkt) := decoded videoConfig picture none ps
def audio (ps : List AVPkt) : List (AVPkt × Option AVPkt) := decoded audioConfig sound none ps

/-- Video command frames have a packet type other than 0, or there are none. -/
def noCommands (ps : List AVPkt) : Prop := ∀ p ∈ ps, p.stream = .video → p.pktType = 0 → Flv.isCommand (Flv.bits 8 p.flags) = false

/-- Behind the last key frame no configuration has come. -/
def settled (config : AVPkt → Bool) (ps : List AVPkt) : Prop :=
  ∀ a k b, ps = a ++ k :: b → isMedia k = true → isKey k = true → (∀ x ∈ b, isMedia x = true → isKey x = false) → ∀ x ∈ b, config x = false

end Spec.Decode
