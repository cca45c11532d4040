import Verif.Spec.Flv
import Verif.Model.Rtmp
/-!
# RTMP: media messages, commands, acknowledgements, negotiation, as a specification
-/
namespace Spec.Rtmp
open Sps
open Spec.Flv (bits signed isCommand)

/-- The packets RTMP can carry without loss and the demuxer supports: AAC audio, H.264 or H.265 video with a composition
offset of 24 bits (command frames have none), script data. -/
structure Supported (p : AVPkt) : Prop where
  msg : p.msg = .data
  dts : 0 ≤ p.dts ∧ p.dts < 2 ^ 32
  size : p.payload.length < 2 ^ 31
  format :
    (p.stream = .audio ∧ (∃ fl : Nat, p.flags = fl ∧ fl < 256 ∧ fl / 16 = 10) ∧ p.codec = 10 ∧
      (p.pktType = 0 ∨ p.pktType = 1) ∧ p.pts = p.dts) ∨
    (p.stream = .video ∧ (∃ fl : Nat, p.flags = fl ∧ fl < 256 ∧ p.codec = (fl % 16 : Nat) ∧ (fl % 16 = 7 ∨ fl % 16 = 12) ∧
      (if isCommand fl then p.pktType = 0 ∧ p.pts = p.dts
       else (p.pktType = 0 ∨ p.pktType = 1) ∧ -2 ^ 23 ≤ p.pts - p.dts ∧ p.pts - p.dts < 2 ^ 23))) ∨
    (p.stream = .subtitle ∧ p.flags = 0 ∧ p.codec = 0 ∧ p.pktType = 0 ∧ p.pts = p.dts)

/-- What a media message means. `tooShort`: it has no room for its sub-header. -/
inductive Verdict
  | skip
  | accept (p : AVPkt)
  | reject (e : Err)
  | tooShort
deriving DecidableEq, Repr

/-- The meaning of a message of type `ty`, time `ts` and body `b`: a video body is a byte of flags (low half: codec), and
unless it is a command frame the packet type and a signed 24-bit offset; an audio body is a byte of flags (high half:
codec) and the packet type; script data is a payload. -/
def judge (m : RtmpMsg) : Verdict :=
  match m.body with
  | none => .skip
  | some b =>
    if m.type = 9 then
      match b with
      | [] => .reject Err.ERROR_IO_BUFFER_FULL
      | f :: r =>
        if f.toNat % 16 ≠ 7 ∧ f.toNat % 16 ≠ 12 then .reject Err.ERROR_FLV_VIDEO_CODECID
        else if isCommand f.toNat then
          .accept { stream := .video, pktType := 0, payload := r, dts := m.ts, pts := m.ts, flags := f.toNat,
                    codec := (f.toNat % 16 : Nat) }
        else match r with
          | t :: c0 :: c1 :: c2 :: d =>
            .accept { stream := .video, pktType := t.toNat, payload := d, dts := m.ts,
                      pts := m.ts + signed 24 (beVal [c0, c1, c2]), flags := f.toNat, codec := (f.toNat % 16 : Nat) }
          | _ => .reject Err.ERROR_IO_BUFFER_FULL
    else if m.type = 8 then
      match b with
      | [] => .reject Err.ERROR_IO_BUFFER_FULL
      | f :: r =>
        if f.toNat / 16 ≠ 10 then .reject Err.ERROR_FLV_AUDIO_CODECID
        else match r with
          | [] => .tooShort
          | t :: d => .accept { stream := .audio, pktType := t.toNat, payload := d, dts := m.ts, pts := m.ts, flags := f.toNat,
                                codec := 10 }
    else if m.type = 18 ∨ m.type = 15 then
      .accept { stream := .subtitle, pktType := 0, payload := b, dts := m.ts, pts := m.ts, flags := 0, codec := 0 }
    else .skip

/-- The result for the first message that is not skipped, and the messages after it; `none`: it is too short. -/
def first (closed : Err) : List RtmpMsg → Option ((Err × Option AVPkt) × List RtmpMsg)
  | [] => some ((closed, none), [])
  | m :: ms =>
    match judge m with
    | .skip => first closed ms
    | .accept p => some ((Err.SUCCESS, some p), ms)
    | .reject e => some ((e, none), ms)
    | .tooShort => none

/-- The packets that messages carry: of every media message, up to the first that is malformed. -/
def media : List RtmpMsg → List AVPkt
  | [] => []
  | m :: ms =>
    match judge m with
    | .skip => media ms
    | .accept p => p :: media ms
    | .reject _ => []
    | .tooShort => []

/-- The composition offset of a packet is one that the server does not change when it sends the packet to an RTMP player: there is none, or it is 0 to 15. -/
def KeepsOffset (p : AVPkt) : Prop := p.stream = .video → isCommand (bits 8 p.flags) = false → 0 ≤ p.pts - p.dts ∧ p.pts - p.dts < 16

/-- A message means a packet, up to its composition offset if that is not 0 to 15. -/
def Carries (p : AVPkt) (m : RtmpMsg) : Prop := ∃ pts, judge m = .accept { p with pts := pts } ∧ (pts = p.pts ↔ KeepsOffset p)

/-! ## Commands -/

/-- The value of a property is looked at only if it is valid. -/
def valid (p : AmfProp) : Prop := p.2.2 ≠ 0xff

/-- The string property of that name (the first of that name). -/
def strProp (o : List AmfProp) (name : String) (s : List UInt8) : Prop :=
  ∃ before p after, o = before ++ p :: after ∧ (∀ q ∈ before, q.1 ≠ ascii name) ∧ p.1 = ascii name ∧ p.2.1 = .str s ∧ valid p

/-- A command object or null. -/
def objOrNull : AmfVal → Prop
  | .obj _ => True
  | .null => True
  | _ => False

/-- `Command vs c`: the values `vs` of a message are the RTMP command `c`: its name, a transaction number, the command
object, and the arguments of that command. The fifth value of `publish`, when it is there, is the publishing type. -/
inductive Command : List AmfVal → RtmpCmd → Prop
  | connect {t o app url r} : strProp o "app" app → strProp o "tcUrl" url →
      Command (.str (ascii "connect") :: .num t :: .obj o :: r) (.connect t app url)
  | createStream {t o r} : objOrNull o → Command (.str (ascii "createStream") :: .num t :: o :: r) (.createStream t)
  | play {t o s r} : objOrNull o → Command (.str (ascii "play") :: .num t :: o :: .str s :: r) (.play t s)
  | publish {t o s} : objOrNull o → Command [.str (ascii "publish"), .num t, o, .str s] (.publish t s [])
  | publishAs {t o s ty r} : objOrNull o →
      Command (.str (ascii "publish") :: .num t :: o :: .str s :: .str ty :: r) (.publish t s ty)
  | releaseStream {t o s r} : objOrNull o →
      Command (.str (ascii "releaseStream") :: .num t :: o :: .str s :: r) (.releaseStream t s)
  | fcPublish {t o s r} : objOrNull o → Command (.str (ascii "FCPublish") :: .num t :: o :: .str s :: r) (.fcPublish t s)

/-- The command names. -/
def names : List (List UInt8) :=
  ["connect", "createStream", "play", "publish", "releaseStream", "FCPublish"].map ascii

/-! ## Acknowledgements -/

/-- Something received: `n` bytes of a message, or a message of `n` bytes that sets the window to `w`. -/
inductive Ev
  | data (n : Nat)
  | window (n w : Nat)
deriving DecidableEq, Repr

/-- The totals to acknowledge: with window `w`, `last` acknowledged and `total` received, an acknowledgement is due when
the bytes since the last one reach the window. -/
def acks (w last total : Nat) : List Ev → List Nat
  | [] => []
  | .data n :: es => if total + n - last ≥ w then (total + n) :: acks w (total + n) (total + n) es else acks w last (total + n) es
  | .window n w' :: es =>
    if total + n - last ≥ w' then (total + n) :: acks w' (total + n) (total + n) es else acks w' last (total + n) es

/-- Bytes received. -/
def received : List Ev → Nat
  | [] => 0
  | .data n :: es => n + received es
  | .window n _ :: es => n + received es

/-- All windows in force are at most `b`. -/
def windowsBelow (b : Nat) : List Ev → Bool
  | [] => true
  | .data _ :: es => windowsBelow b es
  | .window _ w :: es => decide (w ≤ b) && windowsBelow b es

end Spec.Rtmp

namespace Spec.Rtmp
open Sps

/-- `Means m e`: the received message `m` is, for flow control, `e`: a message that sets the window to `w`, or any other message
that is not a ping. (A message of type 5 has a body of four bytes.) -/
inductive Means : RtmpRecv → Ev → Prop
  | data {m} : m.type ≠ 6 → ¬ (m.type = 4 ∧ m.body.take 2 = [0, 6]) → (m.type = 5 → 4 ≤ m.body.length) → Means m (.data m.nIn)
  | window {m w r} : m.type = 6 → m.body = beBytes 4 w ++ r → w < 2 ^ 31 → Means m (.window m.nIn w)

/-! ## Negotiation -/

/-- What a message decodes to. -/
def decoded (m : AmfMsg) : Option (Err × Option RtmpCmd) := RtmpCmd.decode m.type m.amf m.len

/-- A message without effect before `connect`: it decodes and is not `connect`. -/
def idle (m : AmfMsg) : Prop := ∃ c, decoded m = some (Err.SUCCESS, c) ∧ ∀ t a u, c ≠ some (.connect t a u)

/-- The answer to a message after `connect` that does not start the stream. -/
def replies (m : AmfMsg) : List RtmpReply :=
  match decoded m with
  | some (_, some (.createStream t)) => [.result t 1]
  | some (_, some (.releaseStream t _)) => [.result t 0]
  | some (_, some (.fcPublish t _)) => [.result t 0]
  | _ => []

/-- A message after `connect` that does not start the stream. -/
def setup (m : AmfMsg) : Prop :=
  ∃ c, decoded m = some (Err.SUCCESS, c) ∧ (∀ t s, c ≠ some (.play t s)) ∧ (∀ t s y, c ≠ some (.publish t s y))

/-- The command that starts the stream: the stream it names, whether it plays, and the answers to it. -/
inductive Starts : AmfMsg → (stream : List UInt8) → (play : Bool) → List RtmpReply → Prop
  | play {m t s} : decoded m = some (Err.SUCCESS, some (.play t s)) → Starts m s true [.playStart t, .sampleAccess, .streamBegin]
  | publish {m t s y} : decoded m = some (Err.SUCCESS, some (.publish t s y)) → Starts m s false [.publishStart t, .streamBegin]

end Spec.Rtmp

namespace Spec.Rtmp
open Sps

/-- The part of the property the code satisfies: no property has `p_UTCoffset` 255, `publish` does not have exactly five
properties, and the command object of `connect` is not null. -/
structure InScope (props : List AmfProp) : Prop where
  valid : ∀ p ∈ props, Rtmp.valid p
  five : ∀ p r, props = p :: r → p.2.1 = .str (ascii "publish") → props.length ≠ 5
  null : ∀ p q t r, props = p :: q :: t :: r → p.2.1 = .str (ascii "connect") → t.2.1 ≠ .null

end Spec.Rtmp
