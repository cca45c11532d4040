import Verif.Lemmas.FlvIo
/-!
# C104: RTMP as an FLV file for FFmpeg

With FFmpeg, the media of an RTMP publisher are read as an FLV file and the FLV file for an RTMP player is written, both
through `FFmpegRtmpUrlProtocol`. The full claim: for every sequence of messages and in whatever pieces it is read, what is
read is an FLV file of the publisher's audio, video and script messages; in whatever pieces it is written, an FLV file reaches
the player as the messages of its tags.

Proved: for all messages and read sizes (`C104_read_partial`), for writes of whole tags (`C104_write_partial`), and what
every other write does (`C104_any_write`). Missing: the negations below.
-/
namespace Verif
open Sps Spec Spec.FlvIo FlvIoLemmas

/-- For every sequence of messages of the publisher and every sequence of read sizes: what has been read is the beginning of
the file of the publisher's audio, video and script messages, and no read returns more than it was asked for. When the reads
ask for at least 13 bytes, each returns at least one byte or, after the whole file, the error the connection ended with; as many
reads as the file has bytes deliver all of it.

Missing: reads of up to three bytes, writes that end inside a tag, stream numbers and AMF3 data
(the negations of C104). -/
theorem C104_read_partial (inbox : List RtmpIn) (closed : Err) (hc : closed ≠ Err.SUCCESS) (sizes : List Nat) :
    let rs := FlvIo.reads { inbox := inbox, closed := closed } sizes
    let got := rs.flatMap (·.2)
    let whole := file (tags inbox)
    got <+: whole ∧ List.Forall₂ (fun n r => r.2.length ≤ n) sizes rs ∧
    ((∀ n ∈ sizes, 13 ≤ n) →
      (∀ r ∈ rs, (r.1 = Err.SUCCESS ∧ r.2 ≠ []) ∨ (r.1 = closed ∧ r.2 = [])) ∧
      (whole.length ≤ sizes.length → got = whole) ∧ (closed ∈ rs.map (·.1) → got = whole)) := by
  have hi : Inv { inbox := inbox, closed := closed } := ⟨fun _ => rfl, fun m b h => by cases h⟩
  have hr : rest { inbox := inbox, closed := closed } = file (tags inbox) := rfl
  have := reads_ok _ hi hc sizes
  rw [hr] at this
  exact this

/-- A publisher's script, audio, a command in between and video. -/
def exampleInbox : List RtmpIn :=
  [⟨⟨18, 0, some [2, 0, 1, 65]⟩, 1⟩, ⟨⟨8, 23, some [0xaf, 1, 7]⟩, 1⟩, ⟨⟨20, 0, some [2]⟩, 0⟩, ⟨⟨9, 2 ^ 24 + 5, some [0x17, 1, 0, 0, 0, 9]⟩, 1⟩]

example : (FlvIo.reads { inbox := exampleInbox, closed := 5 } [20, 16, 14, 600, 600, 600]).map (fun r => (r.1, r.2.length)) =
    [(0, 13), (0, 15), (0, 4), (0, 18), (0, 21), (5, 0)] := by decide +kernel

example : (FlvIo.reads { inbox := exampleInbox, closed := 5 } [20, 16, 14, 600, 600, 600]).flatMap (·.2) =
    [70, 76, 86, 1, 5, 0, 0, 0, 9, 0, 0, 0, 0,
     18, 0, 0, 4, 0, 0, 0, 0, 0, 0, 1, 2, 0, 1, 65, 0, 0, 0, 15,
     8, 0, 0, 3, 0, 0, 23, 0, 0, 0, 1, 0xaf, 1, 7, 0, 0, 0, 14,
     9, 0, 0, 6, 0, 0, 5, 1, 0, 0, 1, 0x17, 1, 0, 0, 0, 9, 0, 0, 0, 17] := by decide +kernel

/-- An FLV file written in pieces of whole tags, the first one with the 13 bytes of the header before it: every tag reaches
the player as one message of its type, time and body, in order, and every write succeeds.

Missing: reads of up to three bytes, writes that end inside a tag, stream numbers and AMF3 data
(the negations of C104). -/
theorem C104_write_partial (answer : FlvSend → Err) (header : List UInt8) (hh : header.length = 13) (first : List Tag)
    (groups : List (List Tag)) (hf : ∀ t ∈ first ++ groups.flatten, t.Fits)
    (ha : ∀ t ∈ first ++ groups.flatten, answer (message t) = Err.SUCCESS) :
    FlvOut.writes answer false ((header ++ chain first) :: groups.map chain) =
      ((first ++ groups.flatten).map message, Err.SUCCESS) := by
  have h1 := write_header answer header hh first (fun t h => hf t (by simp [h])) (fun t h => ha t (by simp [h]))
  have h2 := writes_chain answer groups
    (fun g hg t ht => hf t (List.mem_append_right _ (List.mem_flatten.2 ⟨g, hg, ht⟩)))
    (fun g hg t ht => ha t (List.mem_append_right _ (List.mem_flatten.2 ⟨g, hg, ht⟩)))
  simp only [FlvOut.writes, h1, h2, ne_eq, not_true_eq_false, if_false, List.map_append]

def exampleTags : List Tag := [⟨18, 0, 0, [2, 0, 1, 65]⟩, ⟨8, 23, 0, [0xaf, 1, 7]⟩, ⟨9, 2 ^ 24 + 5, 0, [0x17, 1, 0, 0, 0, 9]⟩]

example : ∀ t ∈ exampleTags, t.Fits := by
  intro t ht
  simp only [exampleTags, List.mem_cons, List.not_mem_nil, or_false] at ht
  rcases ht with rfl | rfl | rfl <;> exact ⟨by decide, by decide, by decide, by decide⟩

example : FlvOut.writes (fun _ => 0) false [FlvIo.header ++ chain (exampleTags.take 1), chain (exampleTags.drop 1)] =
    ([⟨4, 18, 0, 1, [2, 0, 1, 65]⟩, ⟨4, 8, 23, 1, [0xaf, 1, 7]⟩, ⟨6, 9, 2 ^ 24 + 5, 1, [0x17, 1, 0, 0, 0, 9]⟩], 0) := by
  decide +kernel

/-- What any write after the header does: it begins with whole tags, which are sent as messages one by one. When that is all, the
write succeeds. When something else follows, and it is not the beginning of a longer write with one more whole tag, the write fails
after them. When a message is refused the write fails with that error and nothing after it is sent. -/
theorem C104_any_write (answer : FlvSend → Err) (d : List UInt8) :
    ∃ ts rest, (∀ t ∈ ts, t.Fits) ∧ d = chain ts ++ rest ∧ (FlvOut.write answer true d).2.1 = ts.map message ∧
      (((FlvOut.write answer true d).2.2 = Err.SUCCESS ∧ rest = [] ∧ ∀ t ∈ ts, answer (message t) = Err.SUCCESS) ∨
       ((FlvOut.write answer true d).2.2 ∈ [Err.ERROR_IO_NOT_ENOUGH, Err.ERROR_FLV_TAG] ∧ rest ≠ [] ∧
          (∀ t ∈ ts, answer (message t) = Err.SUCCESS) ∧ ∀ t : Tag, t.Fits → ¬ t.bytes <+: rest) ∨
       (∃ ts' t, ts = ts' ++ [t] ∧ (∀ t ∈ ts', answer (message t) = Err.SUCCESS) ∧
          (FlvOut.write answer true d).2.2 = answer (message t) ∧ answer (message t) ≠ Err.SUCCESS)) := by
  have h : FlvOut.write answer true d = (true, (FlvOut.loop answer d.length d).1, (FlvOut.loop answer d.length d).2) := by
    simp [FlvOut.write]
  rw [h]
  exact loop_any answer d.length d (Nat.le_refl _)

example : FlvOut.write (fun m => if m.type = 8 then 7 else 0) true (chain exampleTags) =
    (true, [⟨4, 18, 0, 1, [2, 0, 1, 65]⟩, ⟨4, 8, 23, 1, [0xaf, 1, 7]⟩], 7) := by decide +kernel

/-- From publisher to player: when the file of a publisher's messages is written for a player as it was read (in one write),
the player gets a message with type, time and body of each of the publisher's audio, video and script messages, in order, and
nothing else. -/
theorem C104_roundtrip (inbox : List RtmpIn) (closed : Err) (hc : closed ≠ Err.SUCCESS) (sizes : List Nat)
    (hs : ∀ n ∈ sizes, 13 ≤ n) (hend : closed ∈ (FlvIo.reads { inbox := inbox, closed := closed } sizes).map (·.1))
    (hf : ∀ t ∈ tags inbox, t.Fits) :
    FlvOut.writes (fun _ => Err.SUCCESS) false
        [(FlvIo.reads { inbox := inbox, closed := closed } sizes).flatMap (·.2)] =
      ((tags inbox).map message, Err.SUCCESS) := by
  have h := ((C104_read_partial inbox closed hc sizes).2.2 hs).2.2 hend
  rw [h]
  have hw := C104_write_partial (fun _ => Err.SUCCESS) (Spec.Flv.fileHeader ++ beBytes 4 0) rfl (tags inbox) []
    (by simpa using hf) (by simp)
  simpa [file] using hw

example : (FlvOut.writes (fun _ => 0) false
    [(FlvIo.reads { inbox := exampleInbox, closed := 5 } [20, 16, 14, 600, 600, 600]).flatMap (·.2)]).1 =
    [⟨4, 18, 0, 1, [2, 0, 1, 65]⟩, ⟨4, 8, 23, 1, [0xaf, 1, 7]⟩, ⟨6, 9, 2 ^ 24 + 5, 1, [0x17, 1, 0, 0, 0, 9]⟩] := by
  decide +kernel

/-- Negation (pieces): reads of up to three bytes where only the length after a tag is left return nothing and succeed, for
ever. -/
theorem C104_negation_stall (k : Nat) :
    FlvIo.reads { inbox := [⟨⟨8, 23, some [0xaf, 1, 7]⟩, 1⟩], closed := 5 } (13 :: 14 :: List.replicate k 3) =
      (0, FlvIo.header) :: (0, [8, 0, 0, 3, 0, 0, 23, 0, 0, 0, 1, 0xaf, 1, 7]) :: List.replicate k (0, []) := by
  have fix : ∀ k, FlvIo.reads ⟨[], 5, true, some (⟨⟨8, 23, some [0xaf, 1, 7]⟩, 1⟩, [0xaf, 1, 7]),
      [8, 0, 0, 3, 0, 0, 23, 0, 0, 0, 1], 14⟩ (List.replicate k 3) = List.replicate k (0, []) := by
    intro k
    induction k with
    | zero => rfl
    | succ k ih =>
      rw [List.replicate_succ, List.replicate_succ, ← ih]
      rfl
  rw [← fix k]
  rfl

/-- Negation (pieces): an FLV file written in pieces that do not end with a tag fails. -/
theorem C104_negation_cut :
    FlvOut.writes (fun _ => 0) false [file exampleTags] = (exampleTags.map message, 0) ∧
    FlvOut.writes (fun _ => 0) false [(file exampleTags).take 40, (file exampleTags).drop 40] =
      (exampleTags.take 1 |>.map message, Err.ERROR_IO_NOT_ENOUGH) := by
  decide +kernel

/-- Negation (FLV): the tags carry the number of the message stream, which FLV has to be zero, and AMF3 data gets a tag type that
FLV does not have. -/
theorem C104_negation_standard :
    (∃ t : Tag, ¬ t.Standard ∧ FlvIo.reads { inbox := [⟨⟨9, 0, some [0x17]⟩, 1⟩], closed := 5 } [13, 600] =
      [(0, FlvIo.header), (0, t.bytes)]) ∧
    (∃ t : Tag, ¬ t.Standard ∧ FlvIo.reads { inbox := [⟨⟨15, 0, some [0, 2]⟩, 0⟩], closed := 5 } [13, 600] =
      [(0, FlvIo.header), (0, t.bytes)]) := by
  refine ⟨⟨⟨9, 0, 1, [0x17]⟩, fun h => absurd h.2 (by decide), by decide +kernel⟩,
    ⟨⟨15, 0, 0, [0, 2]⟩, fun h => absurd h.1 (by decide), by decide +kernel⟩⟩

end Verif
