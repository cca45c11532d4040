import Verif.Spec.Log
import Verif.Spec.RtmpConn
/-!
# The log during an RTMP negotiation
-/
namespace Spec.Log
open Sps Spec.Rtmp

/-- What should be said about a command that starts a stream: the stream it names after a `/` and, for `publish`, how. -/
def playPieces (stream : Text) : List Piece := [.lit (ascii "Play stream "), .text (47 :: stream), .lit (ascii ", playing: "), .num 0, .lit (ascii "\r\n")]
def publishPieces (stream how : Text) : List Piece :=
  [.lit (ascii "Publish stream "), .text (47 :: stream), .lit (ascii ", "), .text how, .lit (ascii ", playing "), .num 0, .lit (ascii "\r\n")]

/-- The command of a message that starts a stream, and what should be said about it. -/
inductive Says : AmfMsg → List Piece → Prop
  | play {m t s} : decoded m = some (Err.SUCCESS, some (.play t s)) → Says m (playPieces s)
  | publish {m t s y} : decoded m = some (Err.SUCCESS, some (.publish t s y)) → Says m (publishPieces s y)

/-- Texts of the C library without `%`. -/
def Plain (t : Text) : Prop := (0 : UInt8) ∉ t ∧ (37 : UInt8) ∉ t

/-- No message names a stream, or a way of publishing, that is not plain. -/
def PlainTalk (ms : List AmfMsg) : Prop := ∀ m ∈ ms, ∀ ps, Says m ps → ∀ x, Piece.text x ∈ ps → Plain x

/-- The file of the lines. -/
abbrev rtmpFile : Text := ascii "sps_rtmp_server_handler.cpp"

/-- What the negotiation said: nothing, if it ended without a stream, or the line about the message read last, which names the stream. -/
def Told (w : LogAt) (before : PreRequest) (ms : List AmfMsg) (r : Err × PreRequest × List AmfMsg) (l : Text) : Prop :=
  (l = [] ∧ r.1 ≠ Err.SUCCESS ∧ r.2.1.streamParams = before.streamParams) ∨ ∃ a m ps, ms = a ++ m :: r.2.2 ∧ Says m ps ∧ Prints w.time (origin rtmpFile w ++ ps) l

end Spec.Log
