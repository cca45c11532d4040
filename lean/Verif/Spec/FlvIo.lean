import Verif.Spec.Flv
import Verif.Model.FlvIo
/-!
# Messages and the FLV file they make

The file of a sequence of messages: the nine byte header, a zero, and for every message its tag (type, body length, time in
the order low three bytes and high byte, stream number, body) followed by the length of the tag.
-/
namespace Spec.FlvIo
open Sps

/-- A tag as FLV has it. -/
structure Tag where
  type : Nat
  ts : Nat
  stream : Nat
  body : List UInt8
deriving DecidableEq, Repr

/-- The numbers fit in their fields. -/
structure Tag.Fits (t : Tag) : Prop where
  type : t.type < 2 ^ 8
  ts : t.ts < 2 ^ 32
  stream : t.stream < 2 ^ 24
  body : t.body.length < 2 ^ 24

/-- A tag and its length after it. -/
def Tag.bytes (t : Tag) : List UInt8 :=
  beBytes 1 t.type ++ beBytes 3 t.body.length ++ beBytes 3 (t.ts % 2 ^ 24) ++ beBytes 1 (t.ts / 2 ^ 24) ++
    beBytes 3 t.stream ++ t.body ++ beBytes 4 (t.body.length + 11)

/-- Tags one after another. -/
def chain (ts : List Tag) : List UInt8 := ts.flatMap Tag.bytes

/-- The file of the tags. -/
def file (ts : List Tag) : List UInt8 := Spec.Flv.fileHeader ++ beBytes 4 0 ++ chain ts

/-- The tag of a message: audio (8), video (9) and script data (18, and 15 in AMF3), when there is a body. -/
def tagOf (m : RtmpIn) : Option Tag :=
  match m.msg.body with
  | some b => if m.msg.type ∈ [8, 9, 15, 18] then some { type := m.msg.type, ts := m.msg.ts, stream := m.stream, body := b } else none
  | none => none

/-- The tags of the messages. -/
def tags (ms : List RtmpIn) : List Tag := ms.filterMap tagOf

/-- The message of a tag, on stream 1; audio and scripts on chunk stream 4, everything else on 6. -/
def message (t : Tag) : FlvSend :=
  { channel := if t.type ∈ [8, 18] then 4 else 6, type := t.type, ts := t.ts, stream := 1, body := t.body }

/-- The file format's own rules for a tag: type audio, video or script, and stream number zero. -/
def Tag.Standard (t : Tag) : Prop := t.type ∈ [8, 9, 18] ∧ t.stream = 0

end Spec.FlvIo
