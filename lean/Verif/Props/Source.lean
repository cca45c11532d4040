import Verif.Lemmas.Source
import Verif.Props.Flv
/-!
# Streams in HTTP bodies (C78, C79)

The demuxer runs on the modelled `BytesReader` over the modelled body reader of either side: `server` is the body of an upload
(`HttpRequestSocket`), `client` that of a pull (`HttpUrlProtocol`).
-/
namespace Sps.SourceProps
open Spec Spec.Http ByteProg FlvDemuxer FlvMuxer FlvProps

/-- The demuxer's reader over a body with this framing. -/
def over (side : HttpSide) (mem0 : List UInt8) (ch : Bool) (cl : Int) (io : Io) : SReader HttpSrc := SReader.on mem0 ⟨side, { chunked := ch, cl := cl }, io⟩

theorem session_body {ch : Bool} {cl : Int} {io : Io} {body : List UInt8} {closed : Err} (h : BodyArrives ch cl io body closed) (side : HttpSide)
    (mem0 : List UInt8) (hm : 15 ≤ mem0.length) (hm2 : mem0.length < 2 ^ 63) (n : Nat) :
    match Flv.file mem0.length closed n body with
    | (ps, es, short) => (short = true ∧ (session n).runOn (over side mem0 ch cl io) = none) ∨
        ∃ e r', (session n).runOn (over side mem0 ch cl io) = some ((ps, e), r') ∧ e ∈ es := by
  obtain ⟨hcl, R, hR, k, hk⟩ := HttpSrc.serves_body h side
  exact session_sim (RProg.sim_source hR mem0.length) hcl hm n (SReader.Holds.init hm2 hk)

/-- **C78**, any bytes. What the demuxer makes of a body depends on the bytes carried only: the packets and the error at the end are those
of the file format (`Flv.file`, which knows neither chunks nor pieces), unless a tag is too short for its own fields (see C19). -/
theorem C78_bytes (side : HttpSide) (ch : Bool) (cl : Int) (io : Io) (body : List UInt8) (closed : Err) (h : BodyArrives ch cl io body closed)
    (mem0 : List UInt8) (hm : 15 ≤ mem0.length) (hm2 : mem0.length < 2 ^ 63) (n : Nat) (ps : List AVPkt) (e : Err)
    (hf : Flv.file mem0.length closed n body = (ps, [e], false)) :
    ∃ r, (session n).runOn (over side mem0 ch cl io) = some ((ps, e), r) := by
  have := session_body h side mem0 hm hm2 n
  rw [hf] at this
  rcases this with ⟨x, _⟩ | ⟨e', r, c1, c2⟩
  · cases x
  · simp only [List.mem_singleton] at c2
    subst c2
    exact ⟨r, c1⟩

/-- **C78**, packets. Mux packets that FLV can carry and send the file as a body in any framing, chunks and pieces: the demuxer on
the other side returns the packets, in order and in their wire form, and then the end of the body. -/
theorem C78_packets (tagMem : List UInt8) (ht : tagMem.length = 29) (h : Option (List UInt8))
    (hh : (headerOf h).length = 9) (hflv : (headerOf h).take 3 = [70, 76, 86]) (mem0 : List UInt8) (hm : 15 ≤ mem0.length)
    (hm2 : mem0.length < 2 ^ 63) (ps : List AVPkt) (hs : ∀ p ∈ ps, Flv.Supported mem0.length (Flv.wire p)) :
    ∃ s1 m s2, writeHeader h { out := [], fails := [] } = (Err.SUCCESS, s1) ∧
      writePackets (FlvMuxer.create tagMem) ps s1 = some (Err.SUCCESS, m, s2) ∧
      ∀ side ch cl io closed, BodyArrives ch cl io s2.out closed → ∀ n, ps.length < n →
        ∃ r, (session n).runOn (over side mem0 ch cl io) = some ((ps.map Flv.wire, closed), r) := by
  have hp : ∀ p ∈ ps, Flv.carries p = true ∧ (Flv.body p).length < 2 ^ 24 := by
    intro p hq
    have := hs p hq
    refine ⟨?_, by rw [← wire_body]; exact this.fits.2⟩
    have := supported_carries this
    rw [carries_iff] at this ⊢
    rwa [wire_stream] at this
  obtain ⟨e1, s1, a1, -, a3, a4⟩ := C18_tag_chain tagMem ht false false false h hh ps hp []
  obtain ⟨e2, m, s2, b1, -, b3, b4⟩ := a4 (a3 rfl)
  refine ⟨s1, m, s2, ?_, ?_, ?_⟩
  · rw [a1, a3 rfl]
  · rw [b4 rfl] at b1; exact b1
  · intro side ch cl io closed hb n hn
    have hout := b3 (b4 rfl)
    have hk : (ps.filter fun p => !((p.stream == .video && false) || (p.stream == .audio && false) || (p.stream == .subtitle && false))) = ps := by
      rw [List.filter_eq_self]; intro p _; simp
    rw [hk] at hout
    rw [hout] at hb
    obtain ⟨k, rfl⟩ : ∃ k, n = (ps.map Flv.wire).length + (k + 1) := ⟨n - ps.length - 1, by rw [List.length_map]; omega⟩
    refine C78_bytes side ch cl io _ closed hb mem0 hm hm2 _ _ _ ?_
    unfold Flv.file
    rw [if_neg (by simp [hh]), if_neg (by rw [List.take_append_of_le_length (by omega)]; simp [hflv]),
      List.drop_append_of_le_length (by omega), List.drop_of_length_le (by omega), List.nil_append, ← chain_wire]
    apply packets_chain
    intro p hq
    obtain ⟨q, hq1, rfl⟩ := List.mem_map.1 hq
    exact hs q hq1

/-- A script and a video tag behind the file header, cut into three chunks, one of them with an extension, and delivered in pieces that
respect neither tags nor chunks; another request follows. -/
def upload : Io :=
  { evs := [.data (ascii "9;x=1\r\nFLV"), .data ([1, 5, 0, 0, 0, 9] ++ ascii "\r\n10\r\n" ++ [0, 0, 0, 0, 18, 0, 0, 3, 0, 0, 0, 0, 0, 0, 0, 2] ++ ascii "\r"),
      .data (ascii "\n1B\r\n" ++ [0, 10, 0, 0, 0, 14, 9, 0, 0, 10, 2, 3]), .data ([4, 1, 0, 0, 0, 0x17, 1, 255, 255, 216, 0, 0, 0, 1, 101] ++ ascii "\r\n0\r\n"),
      .data (ascii "\r\nPOST /")], closed := Err.ERROR_SOCKET_CLOSED }

example : ((session 5).runOn (over .server (List.replicate 32 0) true (-1) upload)).map (·.1) =
    some (sample.take 2, Err.ERROR_HTTP_RES_EOF) ∧
    ((session 5).runOn (over .client (List.replicate 32 0) true (-1) upload)).map (·.1) =
    some (sample.take 2, Err.ERROR_HTTP_RES_EOF) := by decide +kernel

example : ∃ body, BodyArrives true (-1) upload body Err.ERROR_HTTP_RES_EOF ∧
    Flv.file 32 Err.ERROR_HTTP_RES_EOF 5 body = (sample.take 2, [Err.ERROR_HTTP_RES_EOF], false) := by
  refine ⟨content [(ascii "9;x=1", ascii "FLV" ++ [1, 5, 0, 0, 0, 9]), (ascii "10", [0, 0, 0, 0, 18, 0, 0, 3, 0, 0, 0, 0, 0, 0, 0, 2]),
    (ascii "1B", [0, 10, 0, 0, 0, 14, 9, 0, 0, 10, 2, 3, 4, 1, 0, 0, 0, 0x17, 1, 255, 255, 216, 0, 0, 0, 1, 101])], ?_, by decide +kernel⟩
  refine .chunks (-1) (z := ascii "0") (t := ascii "POST /") (e := Err.ERROR_SOCKET_CLOSED) ⟨?_, ⟨ascii "0", [], by decide +kernel⟩, by decide +kernel⟩
    ⟨by decide +kernel, by decide +kernel, by decide +kernel, rfl⟩
  intro c hc
  simp only [List.mem_cons, List.not_mem_nil, or_false] at hc
  rcases hc with rfl | rfl | rfl
  · exact ⟨by decide +kernel, ⟨ascii "9", ascii ";x=1", by decide +kernel⟩, by decide +kernel, by decide +kernel⟩
  · exact ⟨by decide +kernel, ⟨ascii "10", [], by decide +kernel⟩, by decide +kernel, by decide +kernel⟩
  · exact ⟨by decide +kernel, ⟨ascii "1B", [], by decide +kernel⟩, by decide +kernel, by decide +kernel⟩

/-! ## C79: connections that are lost -/

/-- The file with this header and these packets. -/
def flvFile (hdr : List UInt8) (ps : List AVPkt) : List UInt8 := hdr ++ Flv.chain 0 ps

/-- Of the file `part` has arrived: that are the tags of the first `i` packets, and not all of the next. -/
structure Arrived (hdr : List UInt8) (ps : List AVPkt) (part : List UInt8) (i : Nat) : Prop where
  pre : part <+: flvFile hdr ps
  le : i ≤ ps.length
  some : (flvFile hdr (ps.take i)).length ≤ part.length
  all : i < ps.length → part.length < (flvFile hdr (ps.take (i + 1))).length

theorem file_cut {cap : Nat} {closed : Err} {hdr part : List UInt8} {ps : List AVPkt} {i : Nat} (hh : hdr.length = 9) (hflv : hdr.take 3 = [70, 76, 86])
    (hs : ∀ p ∈ ps, Flv.Supported cap p) (h : Arrived hdr ps part i) (n : Nat) (hn : i < n) :
    Flv.file cap closed n part = (ps.take i, [closed], false) := by
  have h1 := h.some
  have h2 := h.all
  unfold flvFile at h1 h2
  simp only [List.length_append] at h1 h2
  obtain ⟨t, rfl⟩ : hdr <+: part := List.prefix_of_prefix_length_le (List.prefix_append _ _) h.pre (by omega)
  have hp := (List.prefix_append_right_inj _).1 h.pre
  rw [List.length_append] at h1 h2
  unfold Flv.file
  rw [if_neg (by simp [hh]), if_neg (by rw [List.take_append_of_le_length (by omega)]; simp [hflv]),
    List.drop_append_of_le_length (by omega), List.drop_of_length_le (by omega), List.nil_append]
  exact packets_cut cap closed i ps 0 t hs hp h.le (by omega) (fun h => by have := h2 h; omega) n hn

/-- **C79**, a stream read from a connection, or an HTTP body that ends with the connection, with a length or in chunks: when the connection is
lost, the packets whose tags had arrived are returned, and then the error. For chunks it is proved for the body of a request (`server`), and for
connections that are not lost in the line end behind a chunk.

Missing: connections lost in the line end behind a chunk, and chunks read by a client (the
negations of C79). -/
theorem C79_lost_partial (side : HttpSide) (ch : Bool) (cl : Int) (io : Io) (part : List UInt8) (e : Err)
    (h : BodyArrives ch cl io part e ∨ (BodyCut ch cl io part e ∧ (side = .server ∨ ch = false)))
    (hdr : List UInt8) (hh : hdr.length = 9) (hflv : hdr.take 3 = [70, 76, 86]) (mem0 : List UInt8) (hm : 15 ≤ mem0.length) (hm2 : mem0.length < 2 ^ 63)
    (ps : List AVPkt) (hs : ∀ p ∈ ps, Flv.Supported mem0.length p) (i : Nat) (hi : Arrived hdr ps part i) (n : Nat) (hn : i < n) :
    ∃ r, (session n).runOn (over side mem0 ch cl io) = some ((ps.take i, e), r) := by
  have key : ∃ R : Bool → HttpSrc → List UInt8 → Prop, e ≠ Err.SUCCESS ∧ Serves e R ∧ ∃ k, R k ⟨side, { chunked := ch, cl := cl }, io⟩ part := by
    rcases h with h | ⟨h, hsd⟩
    · obtain ⟨a, R, b, c⟩ := HttpSrc.serves_body h side
      exact ⟨R, a, b, c⟩
    · obtain ⟨a, R, b, c⟩ := HttpSrc.serves_cut h side hsd
      exact ⟨R, a, b, c⟩
  obtain ⟨R, hcl, hR, k, hk⟩ := key
  have := session_sim (RProg.sim_source hR mem0.length) hcl hm n (SReader.Holds.init hm2 hk)
  rw [file_cut hh hflv hs hi n hn] at this
  rcases this with ⟨x, _⟩ | ⟨e', r, c1, c2⟩
  · cases x
  · simp only [List.mem_singleton] at c2
    subst c2
    exact ⟨r, c1⟩

/-- **C79**, a stream read from a connection without HTTP. -/
theorem C79_socket (io : Io) (part : List UInt8) (e : Err) (h : Arrives io part e) (hdr : List UInt8) (hh : hdr.length = 9)
    (hflv : hdr.take 3 = [70, 76, 86]) (mem0 : List UInt8) (hm : 15 ≤ mem0.length) (hm2 : mem0.length < 2 ^ 63)
    (ps : List AVPkt) (hs : ∀ p ∈ ps, Flv.Supported mem0.length p) (i : Nat) (hi : Arrived hdr ps part i) (n : Nat) (hn : i < n) :
    ∃ r, (session n).run (Reader.onIo mem0 io) = some ((ps.take i, e), r) := by
  obtain ⟨h1, h2, h3, rfl⟩ := h
  have hsp := session_spec (closed_ne h1) hm n (OnIo.init mem0 io hm2 h1) (noErr_init h2)
  rw [pending_onIo, h3, file_cut hh hflv hs hi n hn] at hsp
  rcases hsp with ⟨x, _⟩ | ⟨e', r, c1, c2⟩
  · cases x
  · simp only [List.mem_singleton] at c2
    subst c2
    exact ⟨r, c1⟩

/-- A file with two packets. -/
def two : List UInt8 := flvFile (ascii "FLV" ++ [1, 5, 0, 0, 0, 9]) (sample.take 2)

/-- A chunk of 27 bytes (the first packet), and a part of a chunk of 25 bytes (the second). -/
def lost : Io :=
  { evs := [.data (ascii "1b\r\nF"), .data ((two.take 20).drop 1), .data ((two.take 27).drop 20 ++ ascii "\r\n1"), .data (ascii "9\r\n"),
      .data ((two.take 40).drop 27)], closed := Err.ERROR_SOCKET_CLOSED }

example : ((session 5).runOn (over .server (List.replicate 32 0) true (-1) lost)).map (·.1) = some (sample.take 1, Err.ERROR_SOCKET_CLOSED) := by decide +kernel

example : BodyCut true (-1) lost (two.take 40) Err.ERROR_SOCKET_CLOSED ∧ Arrived (ascii "FLV" ++ [1, 5, 0, 0, 0, 9]) (sample.take 2) (two.take 40) 1 := by
  refine ⟨?_, ⟨List.take_prefix _ _, by decide +kernel, by decide +kernel, by decide +kernel⟩⟩
  have : two.take 40 = content [(ascii "1b", two.take 27)] ++ (two.take 40).drop 27 := by decide +kernel
  rw [this]
  refine .data (-1) (l := ascii "19") (n := 25) ?_ ⟨ascii "19", [], by decide +kernel⟩ (by decide +kernel) (by decide) (by decide +kernel)
    ⟨by decide +kernel, by decide +kernel, by decide +kernel, rfl⟩
  intro c hc
  simp only [List.mem_cons, List.not_mem_nil, or_false] at hc
  subst hc
  exact ⟨by decide +kernel, ⟨ascii "1b", [], by decide +kernel⟩, by decide +kernel, by decide +kernel⟩

/-- **C79**, a connection that is lost between the data of a chunk and its line end: the packet has arrived, but is not returned. -/
theorem C79_negation_crlf : ((session 5).runOn (over .server (List.replicate 32 0) true (-1)
      { evs := [.data (ascii "1b\r\n"), .data (two.take 27), .data (ascii "\r")], closed := Err.ERROR_SOCKET_CLOSED })).map (·.1) =
    some ([], Err.ERROR_SOCKET_CLOSED) ∧ Arrived (ascii "FLV" ++ [1, 5, 0, 0, 0, 9]) (sample.take 2) (two.take 27) 1 :=
  ⟨by decide +kernel, List.take_prefix _ _, by decide +kernel, by decide +kernel, by decide +kernel⟩

/-- **C79**, the client: of a chunk that is cut nothing is returned, although a packet has arrived. -/
theorem C79_negation_client : ((session 5).runOn (over .client (List.replicate 64 0) true (-1)
      { evs := [.data (ascii "34\r\n"), .data (two.take 40)], closed := Err.ERROR_SOCKET_CLOSED })).map (·.1) = some ([], Err.ERROR_SOCKET_CLOSED) ∧
    ((session 5).runOn (over .server (List.replicate 64 0) true (-1)
      { evs := [.data (ascii "34\r\n"), .data (two.take 40)], closed := Err.ERROR_SOCKET_CLOSED })).map (·.1) = some (sample.take 1, Err.ERROR_SOCKET_CLOSED) := by
  decide +kernel

end Sps.SourceProps
