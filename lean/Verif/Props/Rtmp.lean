import Verif.Lemmas.RtmpAck
/-!
# RTMP (C21-C23, C63)
-/
namespace Sps.RtmpProps
open Spec RtmpDemuxer RtmpMuxer

/-! ## C21: media messages -/

/-- C21, for composition offsets of 0 to 15. Packets RTMP can carry, written as messages and read back, come back unchanged
and in order. Missing: other offsets, which the muxer corrupts (`C21_what_survives`). -/
theorem C21_round_trip_partial (head : Nat) (hh : 5 ≤ head) (ps : List AVPkt) (hp : ∀ p ∈ ps, Rtmp.Supported p)
    (ho : ∀ p ∈ ps, p.stream = .video → Flv.isCommand (Flv.bits 8 p.flags) = false → 0 ≤ p.pts - p.dts ∧ p.pts - p.dts < 16)
    (closed : Err) :
    ∃ ms, RtmpMuxer.writePackets head ps { out := [], fails := [] } = (Err.SUCCESS, { out := ms, fails := [] }) ∧
      RtmpDemuxer.readPackets closed (ps.length + 1) ms = some (ps, closed) := by
  obtain ⟨ms, h1, h2, h3⟩ := writePackets_spec head hh ps hp []
  refine ⟨ms, by simpa using h1, ?_⟩
  refine readPackets_accept closed ms ps h2 ?_
  rw [h3]
  apply List.map_congr_left
  intro p hpm
  have := (offsetBack_iff p (hp p hpm)).2 (ho p hpm)
  rw [this]

/-- An H.264 key frame with composition offset `o`. -/
def frame (o : Int) : AVPkt :=
  { stream := .video, pktType := 1, payload := [1, 2, 3], dts := 1000, pts := 1000 + o, flags := 0x17, codec := 7 }

theorem frame_supported (o : Int) (h1 : -2 ^ 23 ≤ o) (h2 : o < 2 ^ 23) : Rtmp.Supported (frame o) := by
  refine ⟨rfl, by simp [frame], by simp [frame], .inr (.inl ⟨rfl, 0x17, rfl, by decide, rfl, by decide, ?_⟩)⟩
  have : Flv.isCommand 0x17 = false := rfl
  simp only [this, Bool.false_eq_true, if_false]
  exact ⟨.inr rfl, by simp only [frame]; omega, by simp only [frame]; omega⟩

example : ∀ p ∈ [frame 0, frame 15], Rtmp.Supported p := by
  intro p hp
  simp only [List.mem_cons, List.not_mem_nil, or_false] at hp
  rcases hp with rfl | rfl <;> exact frame_supported _ (by decide) (by decide)
example : ∀ p ∈ [frame 0, frame 15], p.stream = .video → Flv.isCommand (Flv.bits 8 p.flags) = false →
    0 ≤ p.pts - p.dts ∧ p.pts - p.dts < 16 := by decide

/-- C21, what survives: of every packet RTMP can carry, type, flags, codec, payload and decode time always come back; the
composition offset comes back exactly when it is between 0 and 15, or the packet has none. -/
theorem C21_what_survives (head : Nat) (hh : 5 ≤ head) (p : AVPkt) (hp : Rtmp.Supported p) (closed : Err) :
    ∃ m pts, encode head p = (Err.SUCCESS, some m) ∧
      RtmpDemuxer.readPacket closed [m] = some ((Err.SUCCESS, some { p with pts := pts }), []) ∧
      (pts = p.pts ↔ (p.stream = .video → Flv.isCommand (Flv.bits 8 p.flags) = false →
        0 ≤ p.pts - p.dts ∧ p.pts - p.dts < 16)) := by
  obtain ⟨m, e1, ⟨b, e2, e3⟩, e4⟩ := encode_spec head hh p hp
  refine ⟨m, p.dts + offsetBack p, e1, ?_, offsetBack_iff p hp⟩
  rw [readPacket_eq]
  · simp [Rtmp.first, e4]
  · intro m' hm b' hb
    simp only [List.mem_singleton] at hm
    subst hm
    rw [e2] at hb; cases hb
    have := hp.size
    omega

example : Rtmp.Supported (frame (-40)) := frame_supported _ (by decide) (by decide)

/-- C21, the disagreement: a key frame shown 40 ms after it is decoded comes back 8200 ms after. -/
theorem C21_negation_offset :
    Rtmp.Supported (frame 40) ∧ ∃ m, encode 20 (frame 40) = (Err.SUCCESS, some m) ∧
      RtmpDemuxer.readPacket Err.ERROR_IO_EOF [m] = some ((Err.SUCCESS, some { frame 40 with pts := 1000 + 8200 }), []) := by
  refine ⟨frame_supported _ (by decide) (by decide), _, rfl, ?_⟩
  decide +kernel

/-- C21, reading: for every sequence of messages, `read_packet` skips the messages that are not media and returns for the
first media message what the format says; it leaves its memory only when the format says the body has no room for its
sub-header. -/
theorem C21_demux_decision (closed : Err) (ms : List RtmpMsg) (hl : ∀ m ∈ ms, ∀ b, m.body = some b → b.length < 2 ^ 64) :
    RtmpDemuxer.readPacket closed ms = Rtmp.first closed ms := readPacket_eq closed ms hl

example : ∀ m ∈ [(⟨20, 0, some [1]⟩ : RtmpMsg), ⟨9, 5, some [0x17, 1, 0, 0, 40, 9]⟩], ∀ b, m.body = some b → b.length < 2 ^ 64 := by
  intro m hm b hb
  simp only [List.mem_cons, List.not_mem_nil, or_false] at hm
  rcases hm with rfl | rfl <;> (simp at hb; subst hb; decide)
example : Rtmp.first Err.ERROR_IO_EOF [⟨20, 0, some [1]⟩, ⟨9, 5, some [0x17, 1, 0, 0, 40, 9]⟩] =
    some ((Err.SUCCESS, some { stream := .video, pktType := 1, payload := [9], dts := 5, pts := 45, flags := 0x17, codec := 7 }), []) := by
  decide +kernel

/-- C21, the disagreement in reading: an AAC message of one byte makes the demuxer read outside the message. -/
theorem C21_negation_short_audio :
    RtmpDemuxer.readPacket Err.ERROR_IO_EOF [⟨8, 0, some [0xaf]⟩] = none := by decide

/-! ## C23: commands -/

open RtmpCmd Amf Rtmp

/-- C23. A message becomes a command exactly when its values are that command in the sense of RTMP, and the command object
holds exactly the fields of the message; a message whose first value is a string that is none of the six names is accepted
and ignored; everything else is an error. Missing (`InScope`): see the two disagreements below. -/
theorem C23_dispatch_partial (props : List AmfProp) (hs : InScope props) :
    ∃ e r, convertSelf props = some (e, r) ∧
      (∀ c, (e = Err.SUCCESS ∧ r = some c) ↔ Command (props.map (·.2.1)) c) ∧
      (r.isSome → e = Err.SUCCESS) ∧
      ((e = Err.SUCCESS ∧ r = none) ↔ ∃ n vs, props.map (·.2.1) = .str n :: vs ∧ n ∉ names) := by
  obtain ⟨e, r, h⟩ := convertSelf_total hs
  refine ⟨e, r, h, fun c => ⟨?_, ?_⟩, ?_, ?_⟩
  · rintro ⟨rfl, rfl⟩; exact (convertSelf_sound hs h).2
  · intro hc
    have := convertSelf_complete hs hc
    rw [h] at this
    simpa using this
  · intro hr
    obtain ⟨c, rfl⟩ := Option.isSome_iff_exists.1 hr
    exact (convertSelf_sound hs h).1
  · rw [← convertSelf_ignores hs, h]
    simp

/-- The properties of `publish live/a`, and then `more`. -/
def publishProps (more : List AmfProp) : List AmfProp :=
  [([], .str (ascii "publish"), 0), ([], .num 5, 0), ([], .null, 0), ([], .str (ascii "a"), 0)] ++ more

example : InScope (publishProps []) :=
  ⟨by simp [publishProps, valid], by intro p r h; simp [publishProps] at h ⊢, by
    intro p q t r h hp; simp [publishProps] at h; rw [← h.1] at hp; simp [ascii] at hp⟩
example : convertSelf (publishProps []) = some (Err.SUCCESS, some (.publish 5 (ascii "a") [])) := by decide +kernel

/-- Disagreement: `publish` with the usual five properties loses the publishing type (the code asks for more than five,
`sps_avformat_librtmp_packet.cpp`). -/
theorem C23_negation_publish_type :
    Command ((publishProps [([], .str (ascii "live"), 0)]).map (·.2.1)) (.publish 5 (ascii "a") (ascii "live")) ∧
    convertSelf (publishProps [([], .str (ascii "live"), 0)]) = some (Err.SUCCESS, some (.publish 5 (ascii "a") [])) :=
  ⟨.publishAs trivial, by decide +kernel⟩

/-- Disagreement: `connect` with a null command object looks for `app` in an object that was never initialised. -/
theorem C23_negation_connect_null :
    convertSelf [([], .str (ascii "connect"), 0), ([], .num 1, 0), ([], .null, 0)] = none := by decide +kernel

end Sps.RtmpProps

namespace Sps.RtmpProps
open Spec Rtmp RtmpHook

/-! ## C22: acknowledgements -/

/-- C22. Whatever messages arrive, the acknowledgements sent are exactly those that are due: one each time the bytes since
the last reach the window (5,000,000 until the peer sets it), carrying the total. Missing: pings, windows set after the first
acknowledgement, and totals of 2 GB (see the disagreements). -/
theorem C22_ack_window_partial (ms : List RtmpRecv) (es : List Ev) (hm : List.Forall₂ Means ms es)
    (b : Nat) (hb : 5000000 ≤ b) (hw : windowsBelow b es = true) (ho : received es + b < 2 ^ 31)
    (hfirst : ∀ i n w, es[i]? = some (.window n w) → acks 5000000 0 0 (es.take i) = []) :
    ∃ h', recvAll RtmpHook.create ms = some (Err.SUCCESS, h', (acks 5000000 0 0 es).map fun n => .ack (beBytes 4 n)) :=
  recvAll_spec b hm 5000000 0 0 RtmpHook.create rfl rfl rfl (Nat.le_refl _) hb hw (by omega)
    (fun i n w h => ⟨rfl, hfirst i n w h⟩)

/-- `n` bytes of video. -/
def video (n : Nat) : RtmpRecv := { type := 9, body := [], nIn := n }
/-- The window is set to `w`. -/
def setWindow (w : Nat) : RtmpRecv := { type := 6, body := beBytes 4 w ++ [2], nIn := 17 }

theorem means_video (n : Nat) : Means (video n) (.data n) := .data (m := video n) (by simp [video]) (by simp [video]) (by simp [video])
theorem means_window (w : Nat) (h : w < 2 ^ 31) : Means (setWindow w) (.window 17 w) := .window (m := setWindow w) rfl rfl h

example : ∃ h', recvAll RtmpHook.create [setWindow 1000, video 900, video 100, video 500, video 600] =
    some (Err.SUCCESS, h', [.ack (beBytes 4 1017), .ack (beBytes 4 2117)]) := by
  obtain ⟨h', h⟩ := C22_ack_window_partial [setWindow 1000, video 900, video 100, video 500, video 600]
    [.window 17 1000, .data 900, .data 100, .data 500, .data 600]
    (.cons (means_window _ (by omega)) (.cons (means_video _) (.cons (means_video _) (.cons (means_video _) (.cons (means_video _) .nil)))))
    5000000 (Nat.le_refl _) (by decide) (by decide) (by
      intro i n w h
      match i with
      | 0 => rfl
      | 1 | 2 | 3 | 4 => simp at h
      | i + 5 => simp at h)
  exact ⟨h', h⟩

/-- Disagreement: a window set after an acknowledgement is counted from the start of the connection, so the next message is
acknowledged at once, 600 bytes after the last acknowledgement, with a window of 2000. -/
theorem C22_negation_window_after_ack :
    (recvAll RtmpHook.create [setWindow 1000, video 2000, setWindow 2000, video 583]).map (·.2.2) =
      some [.ack (beBytes 4 2017), .ack (beBytes 4 2034)] ∧
    acks 5000000 0 0 [.window 17 1000, .data 2000, .window 17 2000, .data 583] = [2017] := by
  constructor <;> decide +kernel

/-- Disagreement: the message RTMP uses to announce the window, Window Acknowledgement Size (type 5), has no effect on
acknowledgements, whatever it says. -/
theorem C22_negation_type5 (w : Nat) (n : Nat) (hn : 16 + n < 5000000) :
    (recvAll RtmpHook.create [{ type := 5, body := beBytes 4 w, nIn := 16 }, video n]).map (·.2.2) = some [] := by
  obtain ⟨h', h⟩ := C22_ack_window_partial [{ type := 5, body := beBytes 4 w, nIn := 16 }, video n] [.data 16, .data n]
    (.cons (.data (by simp) (by simp) (by simp [beBytes_length])) (.cons (means_video n) .nil)) 5000000 (Nat.le_refl _) rfl
    (by simp [received]; omega) (by
      intro i n w h
      match i with
      | 0 | 1 => simp at h
      | i + 2 => simp at h)
  rw [h]
  simp [acks]
  exact hn

/-- A ping. -/
def ping (n : Nat) : RtmpRecv := { type := 4, body := [0, 6, 0, 0, 0, 0], nIn := n }

/-- Disagreement: a ping request that completes the window is answered but not acknowledged. -/
theorem C22_negation_ping :
    (recvAll RtmpHook.create [setWindow 1000, ping 2000]).map (·.2.2) = some [.pong] ∧
    acks 5000000 0 0 [.window 17 1000, .data 2000] = [2017] := by
  constructor <;> decide +kernel

/-- Disagreement: after 2 GB the counter overflows, which is undefined. -/
theorem C22_negation_overflow (h : RtmpHook) (n : Nat) (ho : h.bytesIn + n ≥ 2 ^ 31) : h.onRecv (video n) = none := by
  unfold onRecv video
  rw [if_pos ho]

example : recvAll RtmpHook.create [video (2 ^ 31)] = none := by decide +kernel

/-! ## C63: the negotiation -/

open PreRequest in
/-- C63, for a transport that sends. A connection gets past the negotiation exactly when its messages are: some without
effect, `connect`, some that set the connection up, and `play` or `publish`. The request then is for the `tcUrl` of the
`connect` and the stream of the `play` or `publish`, the messages after that are left to the media phase, and the answers
are exactly those RTMP prescribes, in order. -/
theorem C63_negotiation (closed : Err) (hc : closed ≠ Err.SUCCESS) (ms : List AmfMsg) (s' : PreRequest) (rest : List AmfMsg) :
    PreRequest.connect closed {} ms = some (Err.SUCCESS, s', rest) ↔
      ∃ pre con txn app url mid start st play fin,
        ms = pre ++ con :: mid ++ start :: rest ∧
        (∀ m ∈ pre, idle m) ∧ decoded con = some (Err.SUCCESS, some (.connect txn app url)) ∧
        (∀ m ∈ mid, setup m) ∧ Starts start st play fin ∧
        s' = { tcUrl := url, streamParams := 47 :: st, playing := play, publishing := !play,
               sent := [.ackWindow, .peerBandwidth, .chunkSize, .connectResult txn] ++ mid.flatMap replies ++ fin, fails := [] } := by
  unfold PreRequest.connect
  constructor
  · intro h
    rcases hw : waitConnect closed {} ms with _ | ⟨e, txn, s, ms1⟩
    · simp [hw] at h
    · simp only [hw, Option.bind_eq_bind, Option.bind_some] at h
      by_cases he : e = Err.SUCCESS
      · subst he
        obtain ⟨pre, con, app, url, e1, e2, e3, e4⟩ := (waitConnect_spec closed hc _ _ _ _ _).1 hw
        rw [if_neg (by simp), sendAll_ok _ (by rw [e4]), if_neg (by simp), serve_spec closed hc _ _ (by rw [e4])] at h
        obtain ⟨mid, m, st, play, fin, f1, f2, f3, f4⟩ := h
        refine ⟨pre, con, txn, app, url, mid, m, st, play, fin, by rw [e1, f1]; simp, e2, e3, f2, f3, ?_⟩
        rw [f4, e4]; simp
      · rw [if_pos (by simpa using he)] at h
        simp at h; exact absurd h.1 he
  · rintro ⟨pre, con, txn, app, url, mid, m, st, play, fin, e1, e2, e3, f2, f3, rfl⟩
    have hw := (waitConnect_spec closed hc {} ms txn { tcUrl := url } (mid ++ m :: rest)).2
      ⟨pre, con, app, url, by rw [e1]; simp, e2, e3, rfl⟩
    rw [hw]
    simp only [Option.bind_eq_bind, Option.bind_some]
    rw [if_neg (by simp), sendAll_ok _ rfl, if_neg (by simp), serve_spec closed hc _ _ rfl]
    exact ⟨mid, m, st, play, fin, rfl, f2, f3, by simp⟩

/-- C63, whatever the sends return: after an error the connection neither plays nor publishes; after success it does exactly
one of the two. -/
theorem C63_one_role (closed : Err) (hc : closed ≠ Err.SUCCESS) (fails : List Err) (ms : List AmfMsg) (e : Err) (s' : PreRequest)
    (rest : List AmfMsg) (h : PreRequest.connect closed { fails := fails } ms = some (e, s', rest)) :
    (e ≠ Err.SUCCESS → s'.playing = false ∧ s'.publishing = false) ∧ (e = Err.SUCCESS → s'.playing = !s'.publishing) := by
  unfold PreRequest.connect at h
  rcases hw : PreRequest.waitConnect closed { fails := fails } ms with _ | ⟨e1, txn, s, ms1⟩
  · simp [hw] at h
  · have k := PreRequest.waitConnect_keeps _ _ _ hw
    simp only [hw, Option.bind_eq_bind, Option.bind_some] at h
    split at h
    · rename_i he
      simp at h
      obtain ⟨rfl, rfl, _⟩ := h
      exact ⟨fun _ => ⟨k.1, k.2.1⟩, fun h => absurd h he⟩
    · have k2 := PreRequest.sendAll_keeps s [.ackWindow, .peerBandwidth, .chunkSize, .connectResult txn]
      split at h
      · rename_i he
        simp at h
        obtain ⟨rfl, rfl, _⟩ := h
        exact ⟨fun _ => ⟨k2.1.trans k.1, k2.2.trans k.2.1⟩, fun h => absurd h he⟩
      · exact PreRequest.serve_flags closed hc _ _ (k2.1.trans k.1) (k2.2.trans k.2.1) h

/-- A `connect` to `rtmp://h/live`. -/
def connectMsg : AmfMsg :=
  { type := 20
    amf := some [([], .str (ascii "connect"), 0), ([], .num 1, 0),
      ([], .obj [(ascii "app", .str (ascii "live"), 0), (ascii "tcUrl", .str (ascii "rtmp://h/live"), 0)], 0)] }
/-- `createStream`. -/
def createMsg : AmfMsg := { type := 20, amf := some [([], .str (ascii "createStream"), 0), ([], .num 4, 0), ([], .null, 0)] }
/-- `publish a`. -/
def publishMsg : AmfMsg := { type := 20, amf := some (publishProps []) }

/-- What these messages negotiate. -/
def negotiated : PreRequest where
  tcUrl := ascii "rtmp://h/live"
  streamParams := ascii "/a"
  publishing := true
  sent := [.ackWindow, .peerBandwidth, .chunkSize, .connectResult 1, .result 4 1, .publishStart 5, .streamBegin]

example : PreRequest.connect Err.ERROR_SOCKET_CLOSED {} [createMsg, connectMsg, createMsg, publishMsg] = some (Err.SUCCESS, negotiated, []) := by
  rw [C63_negotiation _ (by decide)]
  refine ⟨[createMsg], connectMsg, 1, ascii "live", ascii "rtmp://h/live", [createMsg], publishMsg, ascii "a", false, _, rfl,
    ?_, by decide +kernel, ?_, .publish (t := 5) (y := []) (by decide +kernel), ?_⟩
  · simp only [List.mem_singleton, forall_eq]
    exact ⟨some (.createStream 4), by decide +kernel, by simp⟩
  · simp only [List.mem_singleton, forall_eq]
    exact ⟨some (.createStream 4), by decide +kernel, by simp, by simp⟩
  · decide +kernel

/-- Disagreement: a command of one byte that is not AMF makes the server read past the end of the message, for a line of the log, however the
connection went before. -/
theorem C63_negation_one_byte (closed : Err) (s : PreRequest) (ms rest : List AmfMsg) (hi : ∀ m ∈ ms, idle m) :
    PreRequest.connect closed s (ms ++ { type := 20, amf := none, len := 1 } :: rest) = none := by
  have : PreRequest.waitConnect closed s (ms ++ { type := 20, amf := none, len := 1 } :: rest) = none := by
    induction ms with
    | nil => rfl
    | cons m ms ih =>
      obtain ⟨c, hd, hc⟩ := hi m (by simp)
      have ih := ih fun x hx => hi x (by simp [hx])
      rw [List.cons_append, PreRequest.waitConnect]
      unfold decoded at hd
      rw [hd]
      simp only [Option.bind_eq_bind, Option.bind_some, ne_eq, not_true_eq_false, if_false]
      exact ih
  unfold PreRequest.connect
  rw [this]
  rfl

example : ∀ m ∈ [createMsg], idle m := by
  simp only [List.mem_singleton, forall_eq]
  exact ⟨some (.createStream 4), by decide +kernel, by simp⟩

/-- Disagreement: the chunk size the peer announced during the negotiation is lost: the media phase gets a new hook, which
expects the default of 128. -/
theorem C63_negation_chunk_size :
    ∃ h, recvAll RtmpHook.create [{ type := 1, body := beBytes 4 4096, nIn := 16 }] = some (Err.SUCCESS, h, []) ∧
      h.inChunk = 4096 ∧ ∀ pre, (RtmpPrepared.prepare h pre).hook.inChunk = 128 :=
  ⟨{ inChunk := 4096, bytesIn := 16 }, by decide +kernel, rfl, fun _ => rfl⟩

end Sps.RtmpProps
