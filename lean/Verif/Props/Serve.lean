import Verif.Lemmas.ServeInv
import Verif.Spec.Server
import Verif.Props.Register
/-!
# Stream requests over HTTP (C74-C77)
-/
namespace Sps.ServeProps
open Spec Spec.Server HttpStream World StreamProps Sys

/-! ## C74: who may publish -/

/-- **C74.** A publish request is admitted exactly if the host is a source, takes the extension, there is a demuxer for the extension, and the
stream has no source yet. -/
theorem C74_admitted (ins : List Reg) (junk : Text) (h : Conf.Module) (u : Url) (w : World) (a : Text)
    (ha : h.conf (ascii "edge_avformat") = some (.str a)) :
    (∃ cid f w', StreamHandler.publish ins junk h u w = (.accepted cid f, w')) ↔
      opt h "role" "source" ∧ (a = ascii "all" ∨ a = u.ext) ∧ (∃ f, Format.create ins u.ext junk = some f) ∧
        w.reg.find (StreamHandler.key u) = none := by
  have h1 : Host.publish h = true ↔ opt h "role" "source" := by
    unfold Host.publish Host.text opt
    cases hr : h.conf (ascii "role") with
    | none => simp; decide
    | some v => cases v <;> simp <;> decide
  have h2 : Host.supportPublish h u.ext = true ↔ a = ascii "all" ∨ a = u.ext := by
    unfold Host.supportPublish Host.text
    simp [ha]
  unfold StreamHandler.publish
  by_cases hp : Host.publish h = true
  · by_cases hs : Host.supportPublish h u.ext = true
    · simp only [hp, hs, Bool.not_true, Bool.or_self, Bool.false_eq_true, if_false]
      have c1 := h1.1 hp
      have c2 := h2.1 hs
      cases hf : Format.create ins u.ext junk with
      | none => simp
      | some f =>
        simp only [World.publish]
        cases hw : w.reg.find (StreamHandler.key u) with
        | none => simp [c1, c2]
        | some c => simp
    · simp only [hp, hs, Bool.not_true, Bool.not_false, Bool.or_true, if_true]
      simp [mt h2.2 hs]
  · simp only [hp, Bool.not_false, Bool.true_or, if_true]
    simp [mt h1.2 hp]

/-- What an admitted publisher gets: a new cache under the key of its URL; nothing else is registered or removed. -/
theorem C74_effect (ins : List Reg) (junk : Text) (h : Conf.Module) (u : Url) (w w' : World) (cid : Nat) (f : Reg)
    (he : StreamHandler.publish ins junk h u w = (.accepted cid f, w')) (k : Key) :
    cid = w.caches.length ∧ w'.clients = w.clients ∧ w'.edges = w.edges ∧
      w'.reg.find k = if k = StreamHandler.key u then some cid else w.reg.find k := by
  obtain ⟨h1, h2, -⟩ := publish_accepted he
  simp only [World.step, World.publish] at h2
  split at h2
  · simp at h2
  · simp only [Prod.mk.injEq, WOut.published.injEq] at h2
    obtain ⟨rfl, rfl⟩ := h2
    refine ⟨rfl, rfl, rfl, ?_⟩
    simp only [World.newCache]
    rw [Assoc.find_insert]

/-- A refused publisher changes nothing, and is told the first reason that applies. -/
theorem C74_refused (ins : List Reg) (junk : Text) (h : Conf.Module) (u : Url) (w w' : World) (e : Err)
    (he : StreamHandler.publish ins junk h u w = (.refused e, w')) :
    w' = w ∧ e = (if ¬ (Host.publish h ∧ Host.supportPublish h u.ext) then Err.ERROR_STREAM_PUBLISH_NOT_SUPPORT
      else if Format.create ins u.ext junk = none then Err.ERROR_AVFORMAT_DEMUX_NOT_EXISTS else Err.ERROR_HTTP_HAS_SOURCE) := by
  refine ⟨publish_refused he, ?_⟩
  unfold StreamHandler.publish at he
  split at he
  · rename_i hc
    simp only [Prod.mk.injEq, StreamHandler.Admit.refused.injEq] at he
    rw [if_pos (by simpa [Bool.or_eq_true, imp_iff_not_or] using hc)]
    exact he.1.symm
  · rename_i hc
    rw [if_neg (by simpa using hc)]
    split at he
    · rename_i hf
      simp only [Prod.mk.injEq, StreamHandler.Admit.refused.injEq] at he
      rw [if_pos hf]
      exact he.1.symm
    · rename_i f hf
      rw [if_neg (by simp [hf])]
      split at he
      · simp at he
      · simp only [Prod.mk.injEq, StreamHandler.Admit.refused.injEq] at he
        exact he.1.symm

/-- A host block with the given role that takes every format. -/
def host (role : String) : Conf.Module := .mk .host (ascii "a.com")
  (fun n => if n = ascii "role" then some (.str (ascii role)) else if n = ascii "edge_avformat" then some (.str (ascii "all")) else none) []

/-- A request for `/live/x.<ext>`. -/
def urlOf (method ext : String) : Url :=
  { method := ascii method, host := ascii "a.com", path := ascii ("/live/x." ++ ext), ext := ascii ext }

/-- The formats of the program. -/
def site : Site.Env :=
  { ins := Format.inputs 1 2 3, outs := Format.outputs 1 2, junk := [],
    reason := fun n => if n = 200 then ascii "OK" else if n = 403 then ascii "Forbidden" else ascii "Not Found" }

example : (host "source").conf (ascii "edge_avformat") = some (.str (ascii "all")) ∧
    (StreamHandler.publish site.ins site.junk (host "source") (urlOf "POST" "flv") World.init).1 = .accepted 0 ⟨1, ascii "flv"⟩ ∧
    (StreamHandler.publish site.ins site.junk (host "edge") (urlOf "POST" "flv") World.init).1 = .refused Err.ERROR_STREAM_PUBLISH_NOT_SUPPORT ∧
    (StreamHandler.publish site.ins site.junk (host "source") (urlOf "POST" "mp4") World.init).1 = .refused Err.ERROR_AVFORMAT_DEMUX_NOT_EXISTS ∧
    (StreamHandler.publish site.ins site.junk (host "source") (urlOf "POST" "flv") (World.init.publish (ascii "a.com/live/x")).1).1 =
      .refused Err.ERROR_HTTP_HAS_SOURCE := by decide +kernel

/-- **C74** (players). A play request on a host that is no edge, or whose stream is there, is attached exactly if the stream has a source and
there is a muxer for the extension; on an edge a stream that is not there is pulled. A request that is not attached and not pulled changes
nothing. -/
theorem C74_play (outs : List Reg) (junk : Text) (h : Conf.Module) (u : Url) (w : World)
    (hw : ∀ cid, w.reg.find (StreamHandler.key u) = some cid → cid < w.caches.length) :
    ((∃ c cid f w', StreamHandler.play outs junk h u w = (.joined c cid f, w')) ↔
      (∃ cid, w.reg.find (StreamHandler.key u) = some cid) ∧ ∃ f, Format.create outs u.ext junk = some f) ∧
    ((StreamHandler.play outs junk h u w).1 = .pull ↔ w.reg.find (StreamHandler.key u) = none ∧ opt h "role" "edge") ∧
    (∀ e w', StreamHandler.play outs junk h u w = (.refused e, w') → w' = w) ∧
    (∀ c cid f w', StreamHandler.play outs junk h u w = (.joined c cid f, w') → c = w.clients.length ∧
      w.reg.find (StreamHandler.key u) = some cid ∧ Format.create outs u.ext junk = some f ∧ w' = (w.play (StreamHandler.key u)).1) := by
  have hedge : Host.edge h = true ↔ opt h "role" "edge" := by
    unfold Host.edge Host.text opt
    cases h.conf (ascii "role") with
    | none => simp; decide +kernel
    | some v => cases v <;> simp <;> try decide +kernel
  unfold StreamHandler.play
  cases hf : w.reg.find (StreamHandler.key u) with
  | none =>
    by_cases he : Host.edge h = true
    · simp [he, hedge.1 he]
    · have he' : ¬ opt h "role" "edge" := mt hedge.2 he
      simp [he, he', StreamHandler.attach, hf]
  | some cid =>
    have hlt := hw cid hf
    cases hc : Format.create outs u.ext junk with
    | none => simp [StreamHandler.attach, hf, hc]
    | some f =>
      simp [StreamHandler.attach, hf, hc, World.play_eq, List.getElem?_eq_getElem hlt]
      rintro _ _ _ _ rfl rfl rfl rfl
      simp

/-- **C74**, an SRT publisher is admitted on a host that refuses publishers: only the key counts (`sps_srt_stream_handler.cpp:52-70`). -/
theorem C74_negation_srt : ∃ (h : Conf.Module) (u : Url) (w : World),
    (StreamHandler.publish site.ins site.junk h u w).1 = .refused Err.ERROR_STREAM_PUBLISH_NOT_SUPPORT ∧
      (w.publishSrt (StreamHandler.key u)).2 = .published 0 :=
  ⟨host "edge", urlOf "POST" "ts", World.init, by decide +kernel⟩

/-! ## C75: what a client is told -/

theorem finish_refusal (reason : Int → Text) (fails : List Err) (hf : fails = []) :
    finish reason Err.ERROR_STREAM_PUBLISH_NOT_SUPPORT rsp0 { out := [], fails := fails } =
      (Err.SUCCESS, { rsp0 with status := 403, sent := true }, { out := refusal "403" (reason 403), fails := [] }) ∧
    finish reason Err.ERROR_STREAM_SOURCE_NOT_EXITS rsp0 { out := [], fails := fails } =
      (Err.SUCCESS, { rsp0 with status := 404, sent := true }, { out := refusal "404" (reason 404), fails := [] }) := by
  subst hf
  have h403 : Text.decInt 403 = ascii "403" := by decide +kernel
  have h404 : Text.decInt 404 = ascii "404" := by decide +kernel
  constructor
  · unfold finish
    rw [if_pos rfl]
    simp [HttpRsp.writeHeader, Sink.write, HttpRsp.init, HttpRsp.headText, HttpRsp.framing, rsp0, refusal, h403, Text.crlf]
  · unfold finish
    rw [if_neg (by decide), if_pos rfl]
    simp [HttpRsp.writeHeader, Sink.write, HttpRsp.init, HttpRsp.headText, HttpRsp.framing, rsp0, refusal, h404, Text.crlf]

/-- **C75** (403). A publisher that the host does not take is told 403, and nothing else happens.

Missing: silent refusals, refusals without a length, publishers, and the format `-` (the negations
of C75). -/
theorem C75_forbidden_partial (env : Site.Env) (s : Sys) (q : Req) (hvia : q.via = .http) (hm : q.url.method = ascii "POST") (hf : q.fails = [])
    (hh : ¬ (Host.publish q.host ∧ Host.supportPublish q.host q.url.ext)) :
    s.request env q = (⟨s.w, s.conns ++ [⟨.done .nothing Err.SUCCESS, { rsp0 with status := 403, sent := true },
      { out := refusal "403" (env.reason 403), fails := [] }⟩]⟩, []) := by
  unfold request
  simp only [hvia]
  unfold httpRequest
  have hp : StreamHandler.publish env.ins env.junk q.host q.url s.w = (.refused Err.ERROR_STREAM_PUBLISH_NOT_SUPPORT, s.w) := by
    unfold StreamHandler.publish
    rw [if_pos]
    simpa [Bool.or_eq_true, imp_iff_not_or] using hh
  simp only [if_pos hm, hp, close, (finish_refusal env.reason q.fails hf).1]

/-- **C75** (404). A player of a stream without a source is told 404 by a host that does not pull, and nothing else happens.

Missing: silent refusals, refusals without a length, publishers, and the format `-` (the negations
of C75). -/
theorem C75_absent_partial (env : Site.Env) (s : Sys) (q : Req) (hvia : q.via = .http) (hm : q.url.method ≠ ascii "POST") (hf : q.fails = [])
    (hh : s.w.reg.find (StreamHandler.key q.url) = none) (he : ¬ opt q.host "role" "edge") :
    s.request env q = (⟨s.w, s.conns ++ [⟨.done .nothing Err.SUCCESS, { rsp0 with status := 404, sent := true },
      { out := refusal "404" (env.reason 404), fails := [] }⟩]⟩, []) := by
  have hedge : Host.edge q.host = false := by
    have : ¬ Host.edge q.host = true := by
      intro h
      apply he
      unfold Host.edge Host.text at h
      unfold opt
      cases hr : q.host.conf (ascii "role") with
      | none => rw [hr] at h; revert h; decide
      | some v =>
        rw [hr] at h
        cases v with
        | str t => simp at h; rw [h]
        | _ => revert h; simp; decide
    simpa using this
  unfold request
  simp only [hvia]
  unfold httpRequest
  have hp : StreamHandler.play env.outs env.junk q.host q.url s.w = (.refused Err.ERROR_STREAM_SOURCE_NOT_EXITS, s.w) := by
    unfold StreamHandler.play
    rw [if_neg (by simp [hedge])]
    unfold StreamHandler.attach
    rw [if_pos (by simp [hh])]
  simp only [if_neg hm, hp, afterAttach, close, (finish_refusal env.reason q.fails hf).2]

/-- **C75** (404 after a pull). If the pull fails, or there is no source once the player has dropped its reference to the pull, it is told
404, and nothing else happens to the streams than that the reference is dropped.

Missing: silent refusals, refusals without a length, publishers, and the format `-` (the negations
of C75). -/
theorem C75_pull_failed_partial (env : Site.Env) (s : Sys) (i : Nat) (ret : Err) (u : Url) (tag : List UInt8) (own : Option Nat)
    (hi : s.conns[i]? = some ⟨.waits u tag own, rsp0, { out := [], fails := [] }⟩)
    (hh : ((s.w.run (own.toList.map .edgeDrop)).1.reg.find (StreamHandler.key u)) = none ∨ ret ≠ Err.SUCCESS) :
    s.wake env i ret = (⟨(s.w.run (own.toList.map .edgeDrop)).1, s.conns.set i ⟨.done .nothing Err.SUCCESS, { rsp0 with status := 404, sent := true },
      { out := refusal "404" (env.reason 404), fails := [] }⟩⟩, (s.w.run (own.toList.map .edgeDrop)).2) := by
  have hd : dropPull s.w own = s.w.run (own.toList.map .edgeDrop) := by
    cases own <;> simp [dropPull, World.run, World.step]
  unfold wake
  simp only [hi, hd]
  generalize s.w.run (own.toList.map .edgeDrop) = x at *
  obtain ⟨w, l⟩ := x
  have hp : StreamHandler.attach env.outs env.junk ret u w = (.refused Err.ERROR_STREAM_SOURCE_NOT_EXITS, w) := by
    unfold StreamHandler.attach
    rw [if_pos (by rcases hh with h | h <;> simp [h])]
  simp only [hp, afterAttach, close, (finish_refusal env.reason [] rfl).2, List.append_nil]

/-- **C75** (200). A player of a stream with a source, in a format the FLV muxer takes, gets the head and the FLV header at once.

Missing: silent refusals, refusals without a length, publishers, and the format `-` (the negations
of C75). -/
theorem C75_playing_partial (env : Site.Env) (s : Sys) (q : Req) (hvia : q.via = .http) (hm : q.url.method ≠ ascii "POST") (hf : q.fails = []) (cid : Nat)
    (hh : s.w.reg.find (StreamHandler.key q.url) = some cid) (hc : cid < s.w.caches.length) (f : Reg)
    (hfmt : Format.create env.outs q.url.ext env.junk = some f) (hflv : f.word = ascii "flv") :
    ∃ r, s.request env q = (⟨(s.w.play (StreamHandler.key q.url)).1, s.conns ++ [⟨.view s.w.clients.length (FlvMuxer.create q.tag), r,
      { out := flvResponse env.reason [], fails := [] }⟩]⟩, [(.play (StreamHandler.key q.url), .joined s.w.clients.length cid)]) := by
  obtain ⟨e, ⟨r, snk⟩, sent, a1, a2, a3, a4, -, a6⟩ := writeHeader_spec env.reason { out := [], fails := q.fails } (by simp [hf])
  obtain ⟨b1, b2⟩ := a6 hf
  obtain ⟨c1, -⟩ := a4 b1
  have hsnk : snk = { out := flvResponse env.reason [], fails := [] } := by
    have e1 : snk.fails = [] := b2
    have e2 : snk.out = flvResponse env.reason [] := by
      have : snk.out = [] ++ sent := a2
      rw [this, c1]; simp [flvResponse, Flv.chain]
    cases snk
    simp_all
  have hcc := List.getElem?_eq_getElem hc
  unfold request
  simp only [hvia]
  unfold httpRequest
  simp only [if_neg hm, StreamHandler.play, hh, StreamHandler.attach, hfmt, World.play_eq, hcc]
  simp only [Option.isNone_some, Bool.false_eq_true, false_and, if_false, false_or, ne_eq, not_true_eq_false]
  simp only [afterAttach, startView, if_pos hflv, a1, b1, ne_eq, not_true_eq_false, if_false]
  exact ⟨r, by rw [hsnk]⟩

/-- A state with the stream `a.com/live/x`. -/
def live : Sys := ⟨(World.init.publish (ascii "a.com/live/x")).1, []⟩

/-- A request without a body. -/
def get (role method ext : String) : Req :=
  { host := host role, url := urlOf method ext, io := { evs := [], closed := 1 }, fails := [], mem := List.replicate 64 0, tag := List.replicate 29 0 }

example : ReqOk (get "source" "GET" "flv") := ⟨by decide +kernel, by decide +kernel, by simp [get], by simp [get]⟩

/-- What the first request of a state got. -/
def answer (s : Sys) (q : Req) : Option (Option Err × List UInt8) :=
  ((s.request site q).1.conns.getLast?).map fun k => (match k.job with | .done _ e => some e | _ => none, k.snk.out)

example : answer Sys.init (get "edge" "POST" "flv") = some (some 0, ascii "HTTP/1.1 403 Forbidden\r\nServer: sps\r\n\r\n") ∧
    answer Sys.init (get "source" "GET" "flv") = some (some 0, ascii "HTTP/1.1 404 Not Found\r\nServer: sps\r\n\r\n") ∧
    answer live (get "source" "GET" "flv") = some (none, ascii "HTTP/1.1 200 OK\r\nServer: sps\r\n\r\nFLV" ++ [1, 5, 0, 0, 0, 9]) ∧
    answer Sys.init (get "edge" "GET" "flv") = some (none, []) ∧
    Host.publish (host "edge") = false ∧ live.w.reg.find (StreamHandler.key (urlOf "GET" "flv")) = some 0 := by decide +kernel

/-- On an edge a player starts a pull; the pull fails, and the player is told 404. -/
def failing : List Op := [.request (get "edge" "GET" "flv"), .other (.edgeEnd 0), .wake 0 Err.SUCCESS]

example : (Sys.run site Sys.init failing).map (fun x => (x.1.conns.map fun k => k.snk.out, x.2)) =
    some ([ascii "HTTP/1.1 404 Not Found\r\nServer: sps\r\n\r\n"],
      [(.edgeRequest (ascii "a.com/live/x"), .edgeStarted 0), (.edgeEnd 0, .ok), (.edgeDrop 0, .ok)]) := by decide +kernel

/-- **C75**, refusals for any other reason are not answered: a second publisher, a publisher or a player of an unknown format get nothing. -/
theorem C75_negation_silent : answer live (get "source" "POST" "flv") = some (some Err.ERROR_HTTP_HAS_SOURCE, []) ∧
    answer Sys.init (get "source" "POST" "mp4") = some (some Err.ERROR_AVFORMAT_DEMUX_NOT_EXISTS, []) ∧
    answer live (get "source" "GET" "ts") = some (some Err.ERROR_AVFORMAT_ENCODER_NOT_EXISTS, []) := by decide +kernel

/-- **C75**, a refusal has neither a length nor chunks, though the connection stays open (the handler returns success): by the rules of HTTP
the client waits for a body until the connection ends. -/
theorem C75_negation_length : ∃ out, answer Sys.init (get "source" "GET" "flv") = some (some Err.SUCCESS, out) ∧
    out = ascii "HTTP/1.1 404 Not Found\r\nServer: sps\r\n\r\n" := ⟨_, by decide +kernel, rfl⟩

/-! ### A sample execution -/

/-- A sequence header and two pictures. -/
def pkts : List AVPkt :=
  [{ stream := .video, pktType := 0, payload := [1, 2, 3], dts := 0, pts := 0, flags := 0x17, codec := 7 },
   { stream := .video, pktType := 1, payload := [4, 5], dts := 40, pts := 80, flags := 0x17, codec := 7 },
   { stream := .video, pktType := 1, payload := [6], dts := 80, pts := 80, flags := 0x27, codec := 7 }]

/-- The body of a publisher: an FLV file with these packets, in two chunks. -/
def chunks : List (List UInt8 × List UInt8) :=
  [(ascii "1d", Flv.fileHeader ++ (Flv.chain 0 pkts).take 20), (ascii "2E;last", (Flv.chain 0 pkts).drop 20)]

/-- A publisher that sends it, in pieces that do not respect the chunks. -/
def post : Req :=
  let wire := Http.coded chunks (ascii "0")
  let q := get "source" "POST" "flv"
  { q with url := { q.url with headers := [(ascii "Transfer-Encoding", ascii "chunked")] }, io := { evs := [.data (wire.take 1), .data ((wire.drop 1).take 36), .data (wire.drop 37)], closed := 7 } }

theorem post_arrives : Http.BodyArrives post.url.isChunked post.url.contentLength post.io (Flv.fileHeader ++ Flv.chain 0 pkts) Err.ERROR_HTTP_RES_EOF := by
  have h1 : Http.content chunks = Flv.fileHeader ++ Flv.chain 0 pkts := by decide +kernel
  have h2 : post.url.isChunked = true := by decide +kernel
  have h3 : Arrives post.io (Http.coded chunks (ascii "0") ++ []) 7 := ⟨by decide +kernel, by decide +kernel, by decide +kernel, rfl⟩
  rw [h2, ← h1]
  refine .chunks _ ⟨?_, ⟨ascii "0", [], by decide +kernel⟩, by decide +kernel⟩ h3
  intro c hc
  simp only [chunks, List.mem_cons, List.not_mem_nil, or_false] at hc
  rcases hc with rfl | rfl
  · exact ⟨by decide +kernel, ⟨ascii "1d", [], by decide +kernel⟩, by decide +kernel, by decide +kernel⟩
  · exact ⟨by decide +kernel, ⟨ascii "2E", ascii ";last", by decide +kernel⟩, by decide +kernel, by decide +kernel⟩

theorem post_sends : Sends post (Flv.fileHeader ++ Flv.chain 0 pkts) Err.ERROR_HTTP_RES_EOF := .inl post_arrives

/-- The publisher sends its header and two packets, a player joins, the rest is published, the player reads twice, the publisher leaves, and the
player's time runs out. -/
def story : List Sys.Op :=
  [.request post, .run 0, .run 0, .run 0, .request (get "source" "GET" "flv"), .run 1, .run 0, .run 1, .run 0, .run 1]

/-- What is left of a connection in the end. -/
def ending (k : Conn) : Option Role × List UInt8 := (match k.job with | .done r _ => some r | _ => none, k.snk.out)

/-- **C75**, a player can crash the server: the extension `-a` is taken for the RTMP format, and with the next packet the RTMP muxer uses its
writer, which is null on an HTTP connection. -/
theorem C75_negation_crash : (Sys.run site Sys.init [.request post, .run 0, .run 0, .run 0, .request (get "source" "GET" "-a")]).isSome ∧
    Sys.run site Sys.init [.request post, .run 0, .run 0, .run 0, .request (get "source" "GET" "-a"), .run 1] = none := by
  have h : ∀ x : Option (Sys × Log), x.isNone = true → x = none := fun x hx => by cases x <;> simp_all
  exact ⟨by decide +kernel, h _ (by decide +kernel)⟩

/-- **C75**, a publisher is never answered: the one of the sample execution uploads its file, and its handler returns without a response. -/
theorem C75_negation_post : ((Sys.run site Sys.init story).map fun x => (x.1.conns[0]?.map ending, publishedTo 0 x.2)) =
    some (some (some (.publisher 0), []), pkts) := by decide +kernel

/-! ## C76: the bytes a player gets -/

/-- **C76.** In every execution, for every order of arrivals, publications, reads and departures: a connection that plays has been sent the
response head, the FLV header and, as one chain of tags, exactly the packets it took from its queue; those and the ones still in the queue are
what it is entitled to (the start-up packets of its stream when it joined, then everything published since). -/
theorem C76_playing {env : Site.Env} {ops : List Sys.Op} (hop : ∀ q ∈ requestsOf ops, ReqOk q) {s : Sys} {L : Log}
    (he : Sys.run env Sys.init ops = some (s, L)) (hfit : fitsFlv L) {i : Nat} {k : Conn} (hi : s.conns[i]? = some k) {c : Nat} {m : FlvMuxer}
    (hk : k.job = .view c m) :
    ∃ ps, k.snk.out = flvResponse env.reason ps ∧ ps ++ pendingOf s.w c = entitled c [] L := by
  have h := run_init hop he hfit
  have hlt := get_len hi
  rw [h.len] at hlt
  have hc := h.ok i k _ hi (List.getElem?_eq_getElem hlt)
  unfold ConnOk at hc
  rw [hk] at hc
  refine ⟨received c L, hc.2.2.2.1, ?_⟩
  have := C12_delivery (L.map Prod.fst) c
  rw [h.world] at this
  exact this

/-- **C76**, after the end (the client went away, or nothing was published for too long): what was sent is an initial part of the response for
the packets it was entitled to. -/
theorem C76_played {env : Site.Env} {ops : List Sys.Op} (hop : ∀ q ∈ requestsOf ops, ReqOk q) {s : Sys} {L : Log}
    (he : Sys.run env Sys.init ops = some (s, L)) (hfit : fitsFlv L) {i : Nat} {k : Conn} (hi : s.conns[i]? = some k) {c : Nat} {e : Err}
    (hk : k.job = .done (.player c) e) : k.snk.out <+: flvResponse env.reason (entitled c [] L) := by
  have h := run_init hop he hfit
  have hlt := get_len hi
  rw [h.len] at hlt
  have hc := h.ok i k _ hi (List.getElem?_eq_getElem hlt)
  unfold ConnOk at hc
  rw [hk] at hc
  have := C12_delivery (L.map Prod.fst) c
  rw [h.world] at this
  rw [← this]
  exact List.IsPrefix.trans hc.2 (flvResponse_prefix _ _ _)

/-- A player never crashes the server: its passes are always defined (the RTMP muxer on HTTP aside, see `C75_negation_crash`). -/
theorem C76_defined {env : Site.Env} {ops : List Sys.Op} (hop : ∀ q ∈ requestsOf ops, ReqOk q) {s : Sys} {L : Log}
    (he : Sys.run env Sys.init ops = some (s, L)) (hfit : fitsFlv L) {i : Nat} {k : Conn} (hi : s.conns[i]? = some k) {c : Nat} {m : FlvMuxer}
    (hk : k.job = .view c m) : (s.step env (.run i)).isSome := by
  have h := run_init hop he hfit
  have hlt := get_len hi
  rw [h.len] at hlt
  have hc := h.ok i k _ hi (List.getElem?_eq_getElem hlt)
  obtain ⟨job, r, snk⟩ := k
  subst hk
  obtain ⟨-, -, h3, -, h5, -, -, -⟩ := hc
  simp only [Sys.step, hi, runView]
  split
  · rfl
  · rename_i w ps _ hd
    have hE : ¬ isRefusal Err.ERROR_FLV_UNKNOWN_TAG_TYPE := by unfold isRefusal; decide
    have hworld : World.init.run ((L ++ [(WOp.dump c, WOut.pkts ps)]).map Prod.fst) = (w, L ++ [(WOp.dump c, WOut.pkts ps)]) := by
      rw [List.map_append, run_append, h.world]
      simp [World.run, dump_pkts hd]
    have hsmall : ∀ p ∈ ps, (Flv.body p).length < 2 ^ 24 := by
      intro p hp
      refine received_small hworld ?_ c p ?_
      · intro cid' p' hp'
        rw [publishedTo_append, published_other _ (by simp), List.append_nil] at hp'
        exact hfit cid' p' hp'
      · rw [received_append, received_pkts]
        exact List.mem_append_right _ hp
    obtain ⟨e, m', x, sent, a1, -⟩ := FlvMuxer.writePacketsTo_spec (appends_http env.reason) hE ps m (r, snk) h5 h3 hsmall
    rw [a1]
    rfl
  · rfl

/-! ## C77: from the publisher's body to the players -/

/-- **C77** (publishing). In every execution, what a connection with an FLV body has published are the packets at the beginning of that FLV
file, each once and in order, however the body is framed (chunks, length, neither) and arrives, and whatever else goes on. -/
theorem C77_published {env : Site.Env} {ops : List Sys.Op} (hop : ∀ q ∈ requestsOf ops, ReqOk q) {s : Sys} {L : Log}
    (he : Sys.run env Sys.init ops = some (s, L)) (hfit : fitsFlv L) {i : Nat} {k : Conn} (hi : s.conns[i]? = some k) {q : Req}
    (hq : (requestsOf ops)[i]? = some q) {b : List UInt8} {cl : Err} (hb : Sends q b cl) {cid : Nat}
    (hk : (∃ rd hd, k.job = .flvPub cid rd hd) ∨ ∃ e, k.job = .done (.publisher cid) e) :
    (.publish (StreamHandler.key q.url), .published cid) ∈ L ∧ ∃ n, publishedTo cid L = uploaded q b cl n := by
  have h := run_init hop he hfit
  have hc := h.ok i k q hi hq
  unfold ConnOk at hc
  rcases hk with ⟨rd, hd, hk⟩ | ⟨e, hk⟩
  · rw [hk] at hc
    obtain ⟨h1, -, h5⟩ := hc
    exact ⟨h1, _, (h5 b cl hb).uploaded⟩
  · rw [hk] at hc
    obtain ⟨h1, -, h3⟩ := hc
    obtain ⟨n, h3⟩ := h3 b cl hb
    exact ⟨h1, n, h3 n (Nat.le_refl _)⟩

/-- **C77** (nothing is left out). When the connection has stopped publishing, all packets of the file were published: reading more of it, any
number `n` of packets from some on, gives no other packets. -/
theorem C77_complete {env : Site.Env} {ops : List Sys.Op} (hop : ∀ q ∈ requestsOf ops, ReqOk q) {s : Sys} {L : Log}
    (he : Sys.run env Sys.init ops = some (s, L)) (hfit : fitsFlv L) {i : Nat} {k : Conn} (hi : s.conns[i]? = some k) {q : Req}
    (hq : (requestsOf ops)[i]? = some q) {b : List UInt8} {cl : Err} (hb : Sends q b cl) {cid : Nat} {e : Err}
    (hk : k.job = .done (.publisher cid) e) : ∃ n0, ∀ n, n0 ≤ n → publishedTo cid L = uploaded q b cl n := by
  have hc := (run_init hop he hfit).ok i k q hi hq
  unfold ConnOk at hc
  rw [hk] at hc
  exact hc.2.2 b cl hb

/-- A publisher whose connection is lost inside the second chunk, after two packets and half of the third. -/
def lostPost : Req :=
  { post with io := { evs := [.data (Http.chunk (ascii "1d", Flv.fileHeader ++ (Flv.chain 0 pkts).take 20) ++ (ascii "2E;last" ++ Http.crlf ++ ((Flv.chain 0 pkts).drop 20).take 40))], closed := 7 } }

theorem lostPost_sends : Sends lostPost (Flv.fileHeader ++ (Flv.chain 0 pkts).take 60) 7 := by
  have h2 : lostPost.url.isChunked = true := by decide +kernel
  have h1 : Flv.fileHeader ++ (Flv.chain 0 pkts).take 60 = Http.content [(ascii "1d", Flv.fileHeader ++ (Flv.chain 0 pkts).take 20)] ++ ((Flv.chain 0 pkts).drop 20).take 40 := by decide +kernel
  right
  rw [h2, h1]
  refine .data (l := ascii "2E;last") (n := 46) _ ?_ ⟨ascii "2E", ascii ";last", by decide +kernel⟩ (by decide +kernel) (by decide) (by decide +kernel)
    ⟨by decide +kernel, by decide +kernel, by decide +kernel, rfl⟩
  intro c hc
  simp only [List.mem_cons, List.not_mem_nil, or_false] at hc
  subst hc
  exact ⟨by decide +kernel, ⟨ascii "1d", [], by decide +kernel⟩, by decide +kernel, by decide +kernel⟩

/-- The two whole packets are published, and the publisher is told how its connection ended. -/
example : ((Sys.run site Sys.init [.request lostPost, .run 0, .run 0, .run 0, .run 0]).map fun x => (publishedTo 0 x.2, x.1.conns.map fun k => match k.job with | .done r e => some (r, e) | _ => none)) =
    some (pkts.take 2, [some (.publisher 0, 7)]) ∧ (∀ n, 3 ≤ n → n ≤ 5 → uploaded lostPost (Flv.fileHeader ++ (Flv.chain 0 pkts).take 60) 7 n = pkts.take 2) := by decide +kernel

/-- What a player has been given of a cache with the start-up packets `f`. -/
theorem joined_received {env : Site.Env} {rqs : List Req} {L : Log} {s : Sys} (h : SInv env rqs L s) {cid c : Nat} (f : List AVPkt → List AVPkt)
    (hf : ∀ op L1 L2, L = L1 ++ (op, .joined c cid) :: L2 → startupOf cid L1 = f (publishedTo cid L1)) (hjoin : ∃ op, (op, .joined c cid) ∈ L) :
    ∃ a, a ≤ (publishedTo cid L).length ∧
      received c L <+: f ((publishedTo cid L).take a) ++ (publishedTo cid L).drop a ∧
      ((.leave c, .ok) ∉ L → pendingOf s.w c = [] → received c L = f ((publishedTo cid L).take a) ++ (publishedTo cid L).drop a) := by
  obtain ⟨op, hjoin⟩ := hjoin
  have hsplit := entitled_split c cid op (L.map Prod.fst) (w := World.init) (past := []) (Nat.zero_le _)
  rw [h.world] at hsplit
  obtain ⟨L1, L2, e1, e2⟩ := hsplit hjoin
  have e1 : L = L1 ++ (op, .joined c cid) :: L2 := e1
  have e2 : entitled c [] L = startupOf cid ([] ++ L1) ++ untilLeave c cid L2 := e2
  have hd := C12_delivery (L.map Prod.fst) c
  rw [h.world] at hd
  have hd : received c L ++ pendingOf s.w c = entitled c [] L := hd
  have hpl : publishedTo cid L = publishedTo cid L1 ++ publishedTo cid L2 := by
    rw [e1, publishedTo_append]
    congr 1
    cases op <;> rfl
  have hst := hf op L1 L2 e1
  have htake : (publishedTo cid L).take (publishedTo cid L1).length = publishedTo cid L1 := by
    rw [hpl, List.take_left]
  have hdrop : (publishedTo cid L).drop (publishedTo cid L1).length = publishedTo cid L2 := by
    rw [hpl, List.drop_left]
  refine ⟨(publishedTo cid L1).length, by rw [hpl]; simp, ?_, ?_⟩
  · rw [htake, hdrop, ← hst]
    rw [e2, List.nil_append] at hd
    obtain ⟨t, ht⟩ := untilLeave_prefix c cid L2
    rw [← ht, ← List.append_assoc, ← hd, List.append_assoc]
    exact List.prefix_append _ _
  · intro h8 hpend
    rw [hpend, List.append_nil] at hd
    rw [hd, e2, htake, hdrop, List.nil_append, hst, untilLeave_all]
    intro hx
    apply h8
    rw [e1]
    exact List.mem_append_right _ (List.mem_cons_of_mem _ hx)

/-- What a player has been given of a cache that a publisher or a pull feeds. -/
theorem player_received {env : Site.Env} {rqs : List Req} {L : Log} {s : Sys} (h : SInv env rqs L s) {cid c : Nat} {op0 : WOp}
    (hmem : (op0, .published cid) ∈ L) (hjoin : ∃ op, (op, .joined c cid) ∈ L) :
    ∃ a, a ≤ (publishedTo cid L).length ∧
      received c L <+: startup ((publishedTo cid L).take a) ++ (publishedTo cid L).drop a ∧
      ((.leave c, .ok) ∉ L → pendingOf s.w c = [] → received c L = startup ((publishedTo cid L).take a) ++ (publishedTo cid L).drop a) := by
  have hraw : isRaw cid L = false := by
    cases hr : isRaw cid L with
    | false => rfl
    | true =>
      obtain ⟨k', n', m1, m2⟩ := isRaw_mem hr
      have hp := given_not_raw (op0 := op0) cid (L.map Prod.fst) World.init
      rw [h.world] at hp
      exact absurd m2 (hp hmem k' n' m1)
  refine joined_received h startup (fun op L1 L2 e1 => ?_) hjoin
  unfold startupOf
  rw [e1] at hraw
  rw [isRaw_prefix cid L1 _ hraw]
  simp

/-- What a player has been given of the raw cache of an SRT publisher. -/
theorem raw_received {env : Site.Env} {rqs : List Req} {L : Log} {s : Sys} (h : SInv env rqs L s) {cid c : Nat} {k : Key}
    (hmem : (.publishSrt k, .published cid) ∈ L) (hjoin : ∃ op, (op, .joined c (cid + 1)) ∈ L) :
    ∃ a, a ≤ (publishedTo (cid + 1) L).length ∧
      received c L <+: startupRaw ((publishedTo (cid + 1) L).take a) ++ (publishedTo (cid + 1) L).drop a ∧
      ((.leave c, .ok) ∉ L → pendingOf s.w c = [] → received c L = startupRaw ((publishedTo (cid + 1) L).take a) ++ (publishedTo (cid + 1) L).drop a) := by
  refine joined_received h startupRaw (fun op L1 L2 e1 => ?_) hjoin
  unfold startupOf
  have hw := h.world
  rw [e1] at hw hmem
  rw [if_pos (raw_before hw hmem)]

theorem flvResponse_of_prefix (reason : Int → Text) {ps qs : List AVPkt} (h : ps <+: qs) : flvResponse reason ps <+: flvResponse reason qs := by
  obtain ⟨t, rfl⟩ := h
  exact flvResponse_prefix _ _ _

/-- What a player over HTTP gets of a cache that a plain publisher or a pull feeds. -/
theorem player_gets {env : Site.Env} {ops : List Sys.Op} (hop : ∀ q ∈ requestsOf ops, ReqOk q) {s : Sys} {L : Log}
    (he : Sys.run env Sys.init ops = some (s, L)) (hfit : fitsFlv L) {j : Nat} {player : Conn}
    (hj : s.conns[j]? = some player) {cid c : Nat} {op0 : WOp} (hmem : (op0, .published cid) ∈ L)
    (hjoin : ∃ op, (op, .joined c cid) ∈ L) :
    ∃ a, a ≤ (publishedTo cid L).length ∧
      ((∃ m, player.job = .view c m) ∨ (∃ e, player.job = .done (.player c) e) →
        player.snk.out <+: flvResponse env.reason (startup ((publishedTo cid L).take a) ++ (publishedTo cid L).drop a)) ∧
      ((∃ m, player.job = .view c m) ∧ pendingOf s.w c = [] →
        player.snk.out = flvResponse env.reason (startup ((publishedTo cid L).take a) ++ (publishedTo cid L).drop a)) := by
  have h := run_init hop he hfit
  obtain ⟨a, ha, h1, h2⟩ := player_received h hmem hjoin
  have hlt := get_len hj
  rw [h.len] at hlt
  have hc := h.ok j player _ hj (List.getElem?_eq_getElem hlt)
  unfold ConnOk at hc
  refine ⟨a, ha, ?_, ?_⟩
  · rintro (⟨m, hm⟩ | ⟨e, hm⟩)
    · rw [hm] at hc
      obtain ⟨-, -, -, h4, -⟩ := hc
      rw [h4]
      exact flvResponse_of_prefix _ h1
    · rw [hm] at hc
      exact hc.2.trans (flvResponse_of_prefix _ h1)
  · rintro ⟨⟨m, hm⟩, hpend⟩
    rw [hm] at hc
    obtain ⟨-, -, -, h4, -, -, -, h8⟩ := hc
    rw [h4, h2 h8 hpend]

/-- **C77** (end to end). In every execution, for a publisher with an FLV body and a player that joined its stream: there is a number `a` of
packets of the publisher's file, those published when the player joined, such that the player has been sent the response head, an FLV header, the
start-up packets among the first `a` and then the packets that follow, in order, once each: all that were published since if it plays and has
read its queue, an initial part of that otherwise. -/
theorem C77_end_to_end {env : Site.Env} {ops : List Sys.Op} (hop : ∀ q ∈ requestsOf ops, ReqOk q) {s : Sys} {L : Log}
    (he : Sys.run env Sys.init ops = some (s, L)) (hfit : fitsFlv L) {i j : Nat} {pub player : Conn} (hi : s.conns[i]? = some pub)
    (hj : s.conns[j]? = some player) {q : Req} (hq : (requestsOf ops)[i]? = some q) {b : List UInt8} {cl : Err} (hb : Sends q b cl) {cid c : Nat}
    (hpub : (∃ rd hd, pub.job = .flvPub cid rd hd) ∨ ∃ e, pub.job = .done (.publisher cid) e)
    (hjoin : ∃ op, (op, .joined c cid) ∈ L) :
    ∃ n a, publishedTo cid L = uploaded q b cl n ∧ a ≤ (uploaded q b cl n).length ∧
      ((∃ m, player.job = .view c m) ∨ (∃ e, player.job = .done (.player c) e) →
        player.snk.out <+: flvResponse env.reason (startup ((uploaded q b cl n).take a) ++ (uploaded q b cl n).drop a)) ∧
      ((∃ m, player.job = .view c m) ∧ pendingOf s.w c = [] →
        player.snk.out = flvResponse env.reason (startup ((uploaded q b cl n).take a) ++ (uploaded q b cl n).drop a)) := by
  obtain ⟨hmem, n, hn⟩ := C77_published hop he hfit hi hq hb hpub
  obtain ⟨a, ha⟩ := player_gets hop he hfit hj hmem hjoin
  rw [hn] at ha
  exact ⟨n, a, hn, ha⟩

theorem fitsFlv_of_all {l : Log} (h : (l.all fun x => match x.1 with | .put _ p => decide ((Flv.body p).length < 2 ^ 24) | _ => true) = true) :
    fitsFlv l := by
  intro cid p hp
  induction l with
  | nil => simp [publishedTo] at hp
  | cons x l ih =>
    obtain ⟨op, o⟩ := x
    simp only [List.all_cons, Bool.and_eq_true] at h
    have ih := ih h.2
    cases op <;> cases o <;> simp only [publishedTo] at hp <;> first | exact ih hp | skip
    split at hp
    · rcases List.mem_cons.1 hp with hp | hp
      · subst hp; simpa using h.1
      · exact ih hp
    · exact ih hp

/-- The hypotheses are met by the sample execution, and this is what is sent: the player joined after two packets, of which both are start-up
packets, and got the third. -/
example : (∀ q ∈ requestsOf story, ReqOk q) ∧
    (uploaded post (Flv.fileHeader ++ Flv.chain 0 pkts) Err.ERROR_HTTP_RES_EOF 3 = pkts) ∧
    (Sys.run site Sys.init story).map (fun x => x.1.conns.map ending) =
      some [(some (.publisher 0), []), (some (.player 0), flvResponse site.reason pkts)] ∧
    (∃ s L, Sys.run site Sys.init story = some (s, L) ∧ fitsFlv L ∧ (.play (ascii "a.com/live/x"), .joined 0 0) ∈ L ∧ publishedTo 0 L = pkts) := by
  refine ⟨?_, by decide +kernel, by decide +kernel, ?_⟩
  · intro q hq
    simp [requestsOf, story] at hq
    rcases hq with rfl | rfl
    · exact ⟨by decide +kernel, by decide +kernel, by simp [post, get], by simp [post, get]⟩
    · exact ⟨by decide +kernel, by decide +kernel, by simp [get], by simp [get]⟩
  · have h : ((Sys.run site Sys.init story).map fun x => decide ((.play (ascii "a.com/live/x"), .joined 0 0) ∈ x.2 ∧ publishedTo 0 x.2 = pkts ∧
        (x.2.all fun x => match x.1 with | .put _ p => decide ((Flv.body p).length < 2 ^ 24) | _ => true) = true)) = some true := by decide +kernel
    cases hr : Sys.run site Sys.init story with
    | none => rw [hr] at h; simp at h
    | some x =>
      rw [hr] at h
      simp only [Option.map_some, Option.some.injEq, decide_eq_true_eq] at h
      exact ⟨x.1, x.2, rfl, fitsFlv_of_all h.2.2, h.1, h.2.1⟩

end Sps.ServeProps
