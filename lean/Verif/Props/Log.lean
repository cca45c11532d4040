import Verif.Lemmas.Log
import Verif.Lemmas.HttpReaders
import Verif.Lemmas.SrtLive
import Verif.Props.RtmpConn
import Verif.Props.HttpConn
/-!
# C113: what is logged about requests
-/
namespace Sps.Log
open Spec Spec.Log Spec.HttpConn

/-- **C113**, any line: what is printed, for every message put together from fixed text, texts and numbers. Of the time and the message, cut at 4095 bytes, every second `%` is missing, and
printing is undefined if there is a `%` without another behind it. -/
theorem C113_exact (t : LogTime) (ht : Moment t) (ps : List Piece) (hok : ∀ p ∈ ps, p.Ok) :
    ∃ s m, Stamped t s ∧ Shown ps m ∧ ∀ o, Log.printf t (fmt ps) (args ps) = some o ↔ Halved ((s ++ m).take 4095) o := by
  obtain ⟨m, h1, h2⟩ := format_pieces ps hok
  refine ⟨stamp t, m, stamped ht, h1, fun o => ?_⟩
  unfold printf
  rw [h2]
  exact format_iff _ o

/-- **C113**, any line whose texts have no `%`: it is printed as composed. Missing: texts with `%`, see the negations. -/
theorem C113_printed_partial (t : LogTime) (ht : Moment t) (ps : List Piece) (hok : ∀ p ∈ ps, p.Ok) (hc : ∀ x, Piece.text x ∈ ps → (37 : UInt8) ∉ x) :
    ∃ out, Log.printf t (fmt ps) (args ps) = some out ∧ Prints t ps out := printf_clean t ht ps hok hc

theorem origin_ok {file : Text} {w : LogAt} (hf : (0 : UInt8) ∉ file) (hw : At w) : ∀ p ∈ origin file w, p.Ok := by
  have h1 := hw.1
  have h2 := hw.2.1
  intro p hp
  simp only [origin, List.mem_cons, List.not_mem_nil, or_false] at hp
  rcases hp with rfl | rfl | rfl | rfl | rfl | rfl | rfl
  · show (37 : UInt8) ∉ ascii "["; decide
  · exact hf
  · show (37 : UInt8) ∉ ascii ":"; decide
  · show (w.line : Int).natAbs < 2 ^ 64; omega
  · show (37 : UInt8) ∉ ascii "] ["; decide
  · show w.id.natAbs < 2 ^ 64; omega
  · show (37 : UInt8) ∉ ascii "] "; decide

theorem graph_ne0 {t : Text} (h : ∀ b ∈ t, Names.graph b) : (0 : UInt8) ∉ t := fun hm => by
  have := h 0 hm
  revert this
  unfold Names.graph
  decide

theorem ask_ok {a : Ask} (ok : a.Ok) : ∀ p ∈ httpLine a, p.Ok := by
  have hq : ∀ b ∈ a.query.getD [], Names.graph b := by
    cases h : a.query with
    | none => simp
    | some q => exact fun b hb => ((ok.query q h).2 b hb).1
  have hport : ((((a.port.bind (Http.decValue 0)).getD 80 : Nat) : Int)).natAbs < 2 ^ 64 := by
    cases h : a.port with
    | none => decide
    | some d =>
      obtain ⟨n, hn, -, hv⟩ := ok.port d h
      simp only [Option.bind_some, hv, Option.getD_some, Int.natAbs_natCast]
      omega
  intro p hp
  simp only [httpLine, List.mem_cons, List.not_mem_nil, or_false] at hp
  rcases hp with rfl | rfl | rfl | rfl | rfl | rfl | rfl | rfl | rfl | rfl | rfl | rfl | rfl | rfl | rfl | rfl | rfl
  · show (37 : UInt8) ∉ ascii "Request "; decide
  · show (0 : UInt8) ∉ []; simp
  · show (37 : UInt8) ∉ ascii ":"; decide
  · exact hport
  · show (37 : UInt8) ∉ ascii " "; decide
  · exact graph_ne0 (HttpConn.method_chars ok).2
  · show (37 : UInt8) ∉ ascii " "; decide
  · exact graph_ne0 (HttpConn.host_chars ok.host)
  · show (37 : UInt8) ∉ ascii " "; decide
  · exact graph_ne0 (HttpConn.target_chars ok)
  · show (37 : UInt8) ∉ ascii " "; decide
  · exact graph_ne0 hq
  · show (37 : UInt8) ∉ ascii ", chunked "; decide
  · show (0 : Int).natAbs < 2 ^ 64; decide
  · show (37 : UInt8) ∉ ascii ", content-length "; decide
  · show (-1 : Int).natAbs < 2 ^ 64; decide
  · show (37 : UInt8) ∉ ascii "\r\n"; decide

theorem host_percent {h : Text} (ok : Names.hostOk h) : (37 : UInt8) ∉ h := fun hm => by
  have := ok.2 37 hm
  revert this
  unfold Names.hostChar Names.letter
  decide

theorem method_percent {a : Ask} (ok : a.Ok) : (37 : UInt8) ∉ a.method := by
  have := ok.method
  simp only [List.mem_cons, List.not_mem_nil, or_false] at this
  rcases this with h | h | h | h | h <;> (rw [h]; decide)

/-- **C113**, HTTP requests without a `%` in their target, at every server, however the bytes arrive: the line says method, host, target and query as they were sent, and logging changes nothing.

Missing: clients that send a `%` (the negations of C113), and the lines about errors. -/
theorem C113_http_partial (p : Parsers) (hp : Reads p) (a : Ask) (ok : a.Ok) (hno : (37 : UInt8) ∉ a.target) (w : LogAt) (hw : At w) (c : Sps.HttpConn) (rest : List UInt8) (cl : Err)
    (ha : Arrives c.io (a.text ++ rest) cl) :
    ∃ r l, HttpSite.parseLogged p w c = .ok (r, l) ∧ HttpSite.parse p c = .ok r ∧ (∃ u, r.2.req = some u ∧ u.host = a.host ∧ u.url = a.target) ∧ Arrives r.2.io rest cl ∧
      Prints w.time (origin (ascii "sps_http_phase_handler.cpp") w ++ httpLine a) l := by
  obtain ⟨u, io', h1, h2, h3, h4, h5⟩ := parse_logged hp ok w ha
  have hall : ∀ q ∈ origin (ascii "sps_http_phase_handler.cpp") w ++ httpLine a, q.Ok := by
    intro q hq
    rcases List.mem_append.1 hq with hq | hq
    · exact origin_ok (by decide) hw q hq
    · exact ask_ok ok q hq
  have hc : ∀ x, Piece.text x ∈ origin (ascii "sps_http_phase_handler.cpp") w ++ httpLine a → (37 : UInt8) ∉ x := by
    intro x hx
    simp only [origin, httpLine, List.mem_append, List.mem_cons, List.not_mem_nil, or_false, reduceCtorEq, false_or, Piece.text.injEq] at hx
    rcases hx with rfl | rfl | rfl | rfl | rfl | rfl
    · decide
    · simp
    · exact method_percent ok
    · exact host_percent ok.host
    · exact hno
    · intro hm
      apply hno
      unfold Ask.target
      cases h : a.query with
      | none => rw [h] at hm; simp at hm
      | some q => rw [h] at hm; simp only [Option.getD_some] at hm; simp [Names.opt, hm]
  obtain ⟨l, k1, k2⟩ := printf_clean w.time hw.2.2 _ hall hc
  rw [k1] at h5
  exact ⟨_, l, h5, h1, ⟨u, rfl, h3, h4⟩, h2, k2⟩

/-- **C113** fails for HTTP: every request whose target has a `%` that is not doubled, as in every escaped character, makes the log read arguments that are not there. -/
theorem C113_negation_http (p : Parsers) (hp : Reads p) (a : Ask) (ok : a.Ok) (hper : Percent a.target) (w : LogAt) (hw : At w) (c : Sps.HttpConn) (rest : List UInt8) (cl : Err)
    (ha : Arrives c.io (a.text ++ rest) cl) : HttpSite.parseLogged p w c = .error .crash := by
  obtain ⟨u, io', -, -, -, -, h5⟩ := parse_logged hp ok w ha
  obtain ⟨x, b, y, he, hx, hb⟩ := hper
  have hall : ∀ q ∈ origin (ascii "sps_http_phase_handler.cpp") w ++ httpLine a, q.Ok := by
    intro q hq
    rcases List.mem_append.1 hq with hq | hq
    · exact origin_ok (by decide) hw q hq
    · exact ask_ok ok q hq
  have hlen : a.method.length + a.host.length + x.length ≤ 2048 := by
    have := ok.short
    have e : a.text = a.method ++ ascii " " ++ (x ++ 37 :: b :: y) ++ ascii " HTTP/1.1" ++ Http.crlf ++ (a.before.map HttpConn.line).flatMap (· ++ Http.crlf) ++
        (ascii "Host" ++ ascii ": " ++ (a.host ++ Names.opt 58 a.port)) ++ Http.crlf ++ (a.after.map HttpConn.line).flatMap (· ++ Http.crlf) ++ Http.crlf := by
      unfold Ask.text Ask.first Ask.fields Ask.hostField Http.head HttpConn.line
      rw [he]
      simp [List.flatMap_append]
    rw [e] at this
    simp only [List.length_append, List.length_cons] at this
    omega
  have key := printf_percent w.time (origin (ascii "sps_http_phase_handler.cpp") w ++
      [.lit (ascii "Request "), .text [], .lit (ascii ":"), .num (((a.port.bind (Http.decValue 0)).getD 80 : Nat) : Int), .lit (ascii " "), .text a.method, .lit (ascii " "), .text a.host,
       .lit (ascii " ")])
    [.lit (ascii " "), .text (a.query.getD []), .lit (ascii ", chunked "), .num 0, .lit (ascii ", content-length "), .num (-1), .lit (ascii "\r\n")] x (b :: y)
    (by rw [← he]; simpa [httpLine] using hall)
    (by
      intro z hz
      simp only [origin, List.mem_append, List.mem_cons, List.not_mem_nil, or_false, reduceCtorEq, false_or, Piece.text.injEq] at hz
      rcases hz with rfl | rfl | rfl | rfl
      · decide
      · simp
      · exact method_percent ok
      · exact host_percent ok.host)
    hx ⟨b, y, rfl, hb⟩
    (by
      simp only [origin, List.cons_append, List.nil_append, room]
      have l1 : (ascii "[").length = 1 := rfl
      have l2 : (ascii "sps_http_phase_handler.cpp").length = 26 := rfl
      have l3 : (ascii ":").length = 1 := rfl
      have l4 : (ascii "] [").length = 3 := rfl
      have l5 : (ascii "] ").length = 2 := rfl
      have l6 : (ascii "Request ").length = 8 := rfl
      have l7 : (ascii " ").length = 1 := rfl
      have l8 : ([] : Text).length = 0 := rfl
      omega)
  rw [← he] at key
  have e : (origin (ascii "sps_http_phase_handler.cpp") w ++
      [.lit (ascii "Request "), .text [], .lit (ascii ":"), .num (((a.port.bind (Http.decValue 0)).getD 80 : Nat) : Int), .lit (ascii " "), .text a.method, .lit (ascii " "), .text a.host,
       .lit (ascii " ")]) ++ .text a.target :: [.lit (ascii " "), .text (a.query.getD []), .lit (ascii ", chunked "), .num 0, .lit (ascii ", content-length "), .num (-1), .lit (ascii "\r\n")] =
      origin (ascii "sps_http_phase_handler.cpp") w ++ httpLine a := by
    rw [List.append_assoc]; rfl
  rw [e] at key
  rw [h5, key]

/-! ## RTMP -/

/-- The URL an RTMP client asks for. -/
def urlOf (cl : RtmpConn.User) : Text := Names.Parts.text ⟨ascii "rtmp", cl.stream.host, cl.port, cl.stream.path, cl.query⟩

theorem url_ne0 {cl : RtmpConn.User} (ok : cl.Ok) : (0 : UInt8) ∉ urlOf cl := by
  have h1 := graph_ne0 (HttpConn.host_chars ok.stream.host)
  have h2 := graph_ne0 (HttpConn.port_chars ok.port)
  have h3 : (0 : UInt8) ∉ cl.stream.path := graph_ne0 fun b hb => ((Sps.Names.Stream.pathOk ok.stream).2 b hb).1
  have h4 : (0 : UInt8) ∉ Names.opt 63 cl.query := by
    cases h : cl.query with
    | none => simp [Names.opt]
    | some q =>
      have : (0 : UInt8) ∉ q := graph_ne0 fun b hb => ((ok.query q h).2 b hb).1
      simp [Names.opt, this]
  have h5 : (0 : UInt8) ∉ ascii "rtmp" ++ ascii "://" := by decide
  unfold urlOf Names.Parts.text
  simp only [List.mem_append, not_or] at h5 ⊢
  exact ⟨⟨⟨⟨⟨h5.1, h5.2⟩, h1⟩, h2⟩, h3⟩, h4⟩

theorem rtmp_ok {ip : Text} {port : Int} {url : Text} (h1 : (0 : UInt8) ∉ ip) (h2 : port.natAbs < 2 ^ 64) (h3 : (0 : UInt8) ∉ url) : ∀ p ∈ rtmpLine ip port url, p.Ok := by
  intro p hp
  simp only [rtmpLine, List.mem_cons, List.not_mem_nil, or_false] at hp
  rcases hp with rfl | rfl | rfl | rfl | rfl | rfl | rfl
  · show (37 : UInt8) ∉ ascii "Request client "; decide
  · exact h1
  · show (37 : UInt8) ∉ ascii ":"; decide
  · exact h2
  · show (37 : UInt8) ∉ ascii ", "; decide
  · exact h3
  · show (37 : UInt8) ∉ ascii "\r\n"; decide

theorem rtmp_logged (site : RtmpSite) (hp : Names.ReadsUrls site.parser) (w : LogAt) (ip : Text) (port : Int) (c : RtmpCaller) (cl : RtmpConn.User) (ok : cl.Ok) (ms : List AmfMsg)
    (hc : Sps.RtmpConn.Calls c cl ms) :
    ∃ a, site.arrive c = some a ∧ site.arriveLogged w ip port c =
      (Log.printf w.time (fmt (origin (ascii "sps_rtmp_server_handler.cpp") w ++ rtmpLine ip port (urlOf cl)))
        (args (origin (ascii "sps_rtmp_server_handler.cpp") w ++ rtmpLine ip port (urlOf cl)))).map (a, ·) := by
  obtain ⟨_, _, u, _, _, _, hu⟩ := Sps.RtmpConn.arrives site hp c cl ok ms hc
  refine ⟨_, hu, ?_⟩
  obtain ⟨more, ht⟩ := hc.talk
  obtain ⟨pre, con, txn, app, mid, start, fin, h1, h2, h3, h4, h5⟩ := hc.asks
  have hn := (RtmpProps.C63_negotiation c.closed hc.closed c.talk _ more).2
    ⟨pre, con, txn, app, _, mid, start, _, _, fin, by rw [ht, h1]; simp, h2, h3, h4, h5, rfl⟩
  have e : Names.Parts.text ⟨ascii "rtmp", cl.stream.host, cl.port, cl.stream.app, none⟩ ++ 47 :: (cl.stream.name ++ Names.opt 63 cl.query) = urlOf cl := by
    simp [urlOf, Names.Parts.text, Names.opt, Names.Stream.path]
  have hok : Names.Parts.Ok ⟨ascii "rtmp", cl.stream.host, cl.port, cl.stream.path, cl.query⟩ :=
    ⟨Sps.Names.schema_rtmp.1, ok.stream.host, ok.port, Sps.Names.Stream.pathOk ok.stream, ok.query⟩
  obtain ⟨r, g1, -, -, -⟩ := Sps.Names.parseUrl_parts hp hok Sps.Names.schema_rtmp.2 {}
  unfold RtmpSite.arriveLogged
  rw [if_neg (by simp [hc.shake]), hc.fails, hn]
  simp only [ne_eq, not_true_eq_false, if_false, Names.rtmp, RtmpPrepared.prepare]
  rw [e]
  have g1' : Sps.Names.parseUrl site.parser {} (urlOf cl) = some r := g1
  rw [g1']
  simp only [Option.map_some, hu]
  have hl : RtmpSite.requestLine w ip port (urlOf cl) = Log.printf w.time (fmt (origin (ascii "sps_rtmp_server_handler.cpp") w ++ rtmpLine ip port (urlOf cl)))
      (args (origin (ascii "sps_rtmp_server_handler.cpp") w ++ rtmpLine ip port (urlOf cl))) :=
    trace_pieces w _ _ (rtmpLine ip port (urlOf cl)) (rtmp_fmt ..)
  rw [hl]
  generalize Log.printf _ _ _ = o
  cases o <;> rfl

/-- The address of a client is a text of the C library without `%`, and its port a number. -/
structure Peer (ip : Text) (port : Int) : Prop where
  text : (0 : UInt8) ∉ ip ∧ (37 : UInt8) ∉ ip
  short : ip.length ≤ 64
  port : port.natAbs < 2 ^ 64

/-- **C113**, RTMP clients whose URL has no `%`: the line says the address of the client and the URL, and what becomes of the client is what becomes of it without logging.

Missing: clients that send a `%` (the negations of C113), and the lines about errors. -/
theorem C113_rtmp_partial (site : RtmpSite) (hp : Names.ReadsUrls site.parser) (w : LogAt) (hw : At w) (ip : Text) (port : Int) (hpeer : Peer ip port) (c : RtmpCaller) (cl : RtmpConn.User) (ok : cl.Ok)
    (ms : List AmfMsg) (hc : Sps.RtmpConn.Calls c cl ms) (hno : (37 : UInt8) ∉ urlOf cl) :
    ∃ a l, site.arrive c = some a ∧ site.arriveLogged w ip port c = some (a, l) ∧
      Prints w.time (origin (ascii "sps_rtmp_server_handler.cpp") w ++ rtmpLine ip port (urlOf cl)) l := by
  obtain ⟨a, h1, h2⟩ := rtmp_logged site hp w ip port c cl ok ms hc
  obtain ⟨l, k1, k2⟩ := printf_clean w.time hw.2.2 (origin (ascii "sps_rtmp_server_handler.cpp") w ++ rtmpLine ip port (urlOf cl))
    (by
      intro q hq
      rcases List.mem_append.1 hq with hq | hq
      · exact origin_ok (by decide) hw q hq
      · exact rtmp_ok hpeer.text.1 hpeer.port (url_ne0 ok) q hq)
    (by
      intro x hx
      simp only [origin, rtmpLine, List.mem_append, List.mem_cons, List.not_mem_nil, or_false, reduceCtorEq, false_or, Piece.text.injEq] at hx
      rcases hx with rfl | rfl | rfl
      · decide
      · exact hpeer.text.2
      · exact hno)
  rw [k1] at h2
  exact ⟨a, l, h1, h2, k2⟩

/-- **C113** fails for RTMP: a `%` that is not doubled, in the first 3000 bytes of the URL of a client that would be served, and the server prints what is not there. -/
theorem C113_negation_rtmp (site : RtmpSite) (hp : Names.ReadsUrls site.parser) (w : LogAt) (hw : At w) (ip : Text) (port : Int) (hpeer : Peer ip port) (c : RtmpCaller) (cl : RtmpConn.User) (ok : cl.Ok)
    (ms : List AmfMsg) (hc : Sps.RtmpConn.Calls c cl ms) (x : Text) (b : UInt8) (y : Text) (he : urlOf cl = x ++ 37 :: b :: y) (hx : (37 : UInt8) ∉ x) (hb : b ≠ 37) (hlen : x.length ≤ 3000) :
    (∃ a, site.arrive c = some a) ∧ site.arriveLogged w ip port c = none := by
  obtain ⟨a, h1, h2⟩ := rtmp_logged site hp w ip port c cl ok ms hc
  have hall : ∀ q ∈ origin (ascii "sps_rtmp_server_handler.cpp") w ++ rtmpLine ip port (urlOf cl), q.Ok := by
    intro q hq
    rcases List.mem_append.1 hq with hq | hq
    · exact origin_ok (by decide) hw q hq
    · exact rtmp_ok hpeer.text.1 hpeer.port (url_ne0 ok) q hq
  have key := printf_percent w.time (origin (ascii "sps_rtmp_server_handler.cpp") w ++ [.lit (ascii "Request client "), .text ip, .lit (ascii ":"), .num port, .lit (ascii ", ")])
    [.lit (ascii "\r\n")] x (b :: y)
    (by rw [← he]; simpa [rtmpLine] using hall)
    (by
      intro z hz
      simp only [origin, List.mem_append, List.mem_cons, List.not_mem_nil, or_false, reduceCtorEq, false_or, Piece.text.injEq] at hz
      rcases hz with rfl | rfl
      · decide
      · exact hpeer.text.2)
    hx ⟨b, y, rfl, hb⟩
    (by
      simp only [origin, List.cons_append, List.nil_append, room]
      have l1 : (ascii "[").length = 1 := rfl
      have l2 : (ascii "sps_rtmp_server_handler.cpp").length = 27 := rfl
      have l3 : (ascii ":").length = 1 := rfl
      have l4 : (ascii "] [").length = 3 := rfl
      have l5 : (ascii "] ").length = 2 := rfl
      have l6 : (ascii "Request client ").length = 15 := rfl
      have l7 : (ascii ", ").length = 2 := rfl
      have := hpeer.short
      omega)
  rw [← he] at key
  have e : (origin (ascii "sps_rtmp_server_handler.cpp") w ++ [.lit (ascii "Request client "), .text ip, .lit (ascii ":"), .num port, .lit (ascii ", ")]) ++ .text (urlOf cl) :: [.lit (ascii "\r\n")] =
      origin (ascii "sps_rtmp_server_handler.cpp") w ++ rtmpLine ip port (urlOf cl) := by
    rw [List.append_assoc]; rfl
  rw [e] at key
  refine ⟨⟨a, h1⟩, ?_⟩
  rw [h2, key]
  rfl

/-! ## SRT -/

theorem srt_ok {id url mode : Text} (h1 : (0 : UInt8) ∉ id) (h2 : (0 : UInt8) ∉ url) (h3 : (0 : UInt8) ∉ mode) : ∀ p ∈ srtLine id url mode, p.Ok := by
  intro p hp
  simp only [srtLine, List.mem_cons, List.not_mem_nil, or_false] at hp
  rcases hp with rfl | rfl | rfl | rfl | rfl | rfl | rfl
  · show (37 : UInt8) ∉ ascii "success parse srt streamid "; decide
  · exact h1
  · show (37 : UInt8) ∉ ascii ", url "; decide
  · exact h2
  · show (37 : UInt8) ∉ ascii ", mode "; decide
  · exact h3
  · show (37 : UInt8) ∉ ascii "\r\n"; decide

/-- What an id names is in it. -/
theorem last_mem {k v : Text} {a : SrtLive.Id} (h : Spec.Net.Last k a.pairs v) : ∀ b ∈ v, b ∈ a.text := by
  intro b hb
  rcases h with ⟨x, c, h, -⟩ | ⟨-, rfl⟩
  · unfold SrtLive.Id.text Spec.Net.renderTrail
    rw [h]
    simp [hb]
  · simp at hb

theorem srt_logged (s : SrtSite) (hp : Names.ReadsUrls s.parser) (w : LogAt) (a : SrtLive.Id) (st : Names.Stream) (mode : Text) (af : a.For st mode) (io : Io) (fails : List Err) (mem tag : List UInt8) :
    s.arriveLogged w a.text io fails mem tag =
      (Log.printf w.time (fmt (origin (ascii "sps_srt_server_handler.cpp") w ++ srtLine a.text (ascii "srt://" ++ (st.host ++ st.path)) mode))
        (args (origin (ascii "sps_srt_server_handler.cpp") w ++ srtLine a.text (ascii "srt://" ++ (st.host ++ st.path)) mode))).map (s.arrive a.text io fails mem tag, ·) := by
  obtain ⟨u, hu, -⟩ := Sps.SrtLive.id_url hp af
  have hne : a.pairs ≠ [] := by
    intro h
    have hr := af.resource
    rw [h] at hr
    have hpos : st.host ++ st.path ≠ [] := by
      intro h
      obtain ⟨t, ht⟩ := Sps.Names.pathOk.slash (Sps.Names.Stream.pathOk af.stream)
      rw [ht] at h
      simp at h
    rcases hr with ⟨x, c, h1, -⟩ | ⟨-, h1⟩
    · simp at h1
    · exact hpos h1
  have h0 := C55_negation_last (ascii "#!::") (by decide) a.pairs hne af.words a.rest af.rest
  obtain ⟨method, h1, -, -⟩ := C55_params_partial (ascii "#!::") (by decide) a.pairs hne af.words _ mode af.resource af.mode
  have hreq : SrtId.request a.text = some (ascii "srt://" ++ (st.host ++ st.path), method) := by
    unfold SrtLive.Id.text; rw [h0, h1]
  have hm : SrtId.last (ascii "m") (SrtId.params [] [] (a.text.drop 4)) = mode := by
    have : a.text.drop 4 = Spec.Net.renderTrail a.pairs ++ a.rest := by
      unfold SrtLive.Id.text
      rw [List.append_assoc]
      rfl
    rw [this, SrtId.params_render _ _ af.words, SrtId.params_open _ _ _ af.rest, List.append_nil, SrtId.last_eq af.mode]
  unfold SrtSite.arriveLogged
  rw [hreq, hu]
  simp only [hm]
  have hl : SrtSite.requestLine w a.text (ascii "srt://" ++ (st.host ++ st.path)) mode =
      Log.printf w.time (fmt (origin (ascii "sps_srt_server_handler.cpp") w ++ srtLine a.text (ascii "srt://" ++ (st.host ++ st.path)) mode))
        (args (origin (ascii "sps_srt_server_handler.cpp") w ++ srtLine a.text (ascii "srt://" ++ (st.host ++ st.path)) mode)) :=
    trace_pieces w _ _ (srtLine a.text (ascii "srt://" ++ (st.host ++ st.path)) mode) (srt_fmt ..)
  rw [hl]

theorem srt_all {a : SrtLive.Id} {st : Names.Stream} {mode : Text} (af : a.For st mode) (h0 : (0 : UInt8) ∉ a.text) {w : LogAt} (hw : At w) :
    ∀ q ∈ origin (ascii "sps_srt_server_handler.cpp") w ++ srtLine a.text (ascii "srt://" ++ (st.host ++ st.path)) mode, q.Ok := by
  intro q hq
  rcases List.mem_append.1 hq with hq | hq
  · exact origin_ok (by decide) hw q hq
  · refine srt_ok h0 ?_ (fun h => h0 (last_mem af.mode _ h)) q hq
    intro h
    rcases List.mem_append.1 h with h | h
    · revert h; decide
    · exact h0 (last_mem af.resource _ h)

/-- **C113**, SRT clients whose stream id has no `%`: the line says the id, the URL and the mode, and what becomes of the client is what becomes of it without logging.

Missing: clients that send a `%` (the negations of C113), and the lines about errors. -/
theorem C113_srt_partial (s : SrtSite) (hp : Names.ReadsUrls s.parser) (w : LogAt) (hw : At w) (a : SrtLive.Id) (st : Names.Stream) (mode : Text) (af : a.For st mode) (h0 : (0 : UInt8) ∉ a.text)
    (hno : (37 : UInt8) ∉ a.text) (io : Io) (fails : List Err) (mem tag : List UInt8) :
    ∃ l, s.arriveLogged w a.text io fails mem tag = some (s.arrive a.text io fails mem tag, l) ∧
      Prints w.time (origin (ascii "sps_srt_server_handler.cpp") w ++ srtLine a.text (ascii "srt://" ++ (st.host ++ st.path)) mode) l := by
  obtain ⟨l, k1, k2⟩ := printf_clean w.time hw.2.2 _ (srt_all af h0 hw)
    (by
      intro x hx
      simp only [origin, srtLine, List.mem_append, List.mem_cons, List.not_mem_nil, or_false, reduceCtorEq, false_or, Piece.text.injEq] at hx
      rcases hx with rfl | rfl | rfl | rfl
      · decide
      · exact hno
      · intro h
        rcases List.mem_append.1 h with h | h
        · revert h; decide
        · exact hno (last_mem af.resource _ h)
      · exact fun h => hno (last_mem af.mode _ h))
  rw [srt_logged s hp w a st mode af, k1]
  exact ⟨l, rfl, k2⟩

/-- **C113** fails for SRT: a `%` that is not doubled in the stream id (ids have up to 512 bytes), and the server prints what is not there. -/
theorem C113_negation_srt (s : SrtSite) (hp : Names.ReadsUrls s.parser) (w : LogAt) (hw : At w) (a : SrtLive.Id) (st : Names.Stream) (mode : Text) (af : a.For st mode) (h0 : (0 : UInt8) ∉ a.text)
    (hper : Percent a.text) (hlen : a.text.length ≤ 512) (io : Io) (fails : List Err) (mem tag : List UInt8) : s.arriveLogged w a.text io fails mem tag = none := by
  obtain ⟨x, b, y, he, hx, hb⟩ := hper
  have hall := srt_all af h0 hw
  have hxl : x.length ≤ 512 := by
    rw [he, List.length_append] at hlen
    omega
  rw [srt_logged s hp w a st mode af]
  generalize a.text = id at *
  subst he
  have key := printf_percent w.time (origin (ascii "sps_srt_server_handler.cpp") w ++ [.lit (ascii "success parse srt streamid ")])
    [.lit (ascii ", url "), .text (ascii "srt://" ++ (st.host ++ st.path)), .lit (ascii ", mode "), .text mode, .lit (ascii "\r\n")] x (b :: y)
    (by simpa [srtLine] using hall)
    (by
      intro z hz
      simp only [origin, List.mem_append, List.mem_cons, List.not_mem_nil, or_false, reduceCtorEq, false_or, Piece.text.injEq] at hz
      subst hz
      decide)
    hx ⟨b, y, rfl, hb⟩
    (by
      simp only [origin, List.cons_append, List.nil_append, room]
      have l1 : (ascii "[").length = 1 := rfl
      have l2 : (ascii "sps_srt_server_handler.cpp").length = 26 := rfl
      have l3 : (ascii ":").length = 1 := rfl
      have l4 : (ascii "] [").length = 3 := rfl
      have l5 : (ascii "] ").length = 2 := rfl
      have l6 : (ascii "success parse srt streamid ").length = 27 := rfl
      omega)
  have e : (origin (ascii "sps_srt_server_handler.cpp") w ++ [.lit (ascii "success parse srt streamid ")]) ++ .text (x ++ 37 :: b :: y) ::
      [.lit (ascii ", url "), .text (ascii "srt://" ++ (st.host ++ st.path)), .lit (ascii ", mode "), .text mode, .lit (ascii "\r\n")] =
      origin (ascii "sps_srt_server_handler.cpp") w ++ srtLine (x ++ 37 :: b :: y) (ascii "srt://" ++ (st.host ++ st.path)) mode := by
    rw [List.append_assoc]; rfl
  rw [e] at key
  rw [key]
  rfl

/-! ## Lines -/

def now : LogTime := ⟨2026, 11, 6, 9, 5, 7, 42⟩
def here : LogAt := ⟨now, 52, 3⟩
theorem at_here : At here := ⟨by decide, by decide, by unfold Moment; decide⟩

/-- A message of the program with a doubled `%` in what a client sent: one of the two is missing. -/
example : Log.printf now (ascii "url %s\r\n") [.str (ascii "/a%%b")] = some (ascii "[2026-11-06 09:05:07.042] url /a%b\r\n") := by decide +kernel

/-- Two requests: one is logged, the other has an escaped space. -/
def plainAsk : Ask := { method := ascii "GET", path := ascii "/live/x.flv", query := some (ascii "k=1"), host := ascii "a.com", port := some (ascii "8081") }
def spaceAsk : Ask := { method := ascii "GET", path := ascii "/live/my%20stream.flv", host := ascii "a.com" }
theorem plainAsk_ok : plainAsk.Ok :=
  ⟨by decide, by decide +kernel, by intro t h; cases h; unfold Names.graph; decide +kernel, by decide +kernel, by intro t h; cases h; exact ⟨8081, by decide, by decide, by decide +kernel⟩,
    by intro f hf; simp [plainAsk] at hf, by decide +kernel⟩
theorem spaceAsk_ok : spaceAsk.Ok :=
  ⟨by decide, by decide +kernel, by intro t h; simp [spaceAsk] at h, by decide +kernel, by intro t h; simp [spaceAsk] at h, by intro f hf; simp [spaceAsk] at hf, by decide +kernel⟩

/-- The connection that brings a request. -/
def connOf (a : Ask) : Sps.HttpConn := { io := { evs := [.data a.text], closed := Err.ERROR_IO_EOF }, snk := { out := [], fails := [] } }

example : (match HttpSite.parseLogged Sps.HttpConn.readers here (connOf plainAsk) with | .ok (_, l) => l | _ => []) =
    Log.stamp now ++ ascii "[sps_http_phase_handler.cpp:52] [3] Request :8081 GET a.com /live/x.flv?k=1 k=1, chunked 0, content-length -1\r\n" := by decide +kernel
example : (37 : UInt8) ∉ plainAsk.target := by decide +kernel
example : Percent spaceAsk.target := ⟨ascii "/live/my", 50, ascii "0stream.flv", by decide +kernel, by decide +kernel, by decide⟩
/-- The escaped space ends the process. -/
example : (match HttpSite.parseLogged Sps.HttpConn.readers here (connOf spaceAsk) with | .error .crash => true | _ => false) = true := by decide +kernel

/-- An RTMP client of `rtmp://a.com/live/x`. -/
example : (37 : UInt8) ∉ urlOf (Sps.RtmpConn.user true) ∧ Peer (ascii "10.0.0.7") 50000 := ⟨by decide +kernel, ⟨by decide +kernel, by decide +kernel, by decide⟩⟩
example : (Sps.RtmpConn.server.arriveLogged here (ascii "10.0.0.7") 50000 (Sps.RtmpConn.caller true)).map (·.2) =
    some (Log.stamp now ++ ascii "[sps_rtmp_server_handler.cpp:52] [3] Request client 10.0.0.7:50000, rtmp://a.com/live/x\r\n") := by decide +kernel

/-- A player of the stream `100%sure`. -/
def sure : RtmpConn.User := { stream := ⟨ascii "a.com", ascii "/live", ascii "100%sure"⟩, publishes := false }
theorem sure_ok : sure.Ok := ⟨⟨by decide +kernel, by decide +kernel, by decide +kernel, by decide +kernel, by decide +kernel⟩, by intro t h; simp [sure] at h, by intro t h; simp [sure] at h⟩
def sureTalk : List AmfMsg :=
  [Sps.RtmpMsgs.cmd "connect" 0x3ff0000000000000 [.obj [(ascii "app", .str (ascii "live"), 0), (ascii "tcUrl", .str (ascii "rtmp://a.com/live"), 0)]],
   Sps.RtmpMsgs.cmd "play" 0x4014000000000000 [.null, .str (ascii "100%sure")]]
def sureCaller : RtmpCaller where
  talk := sureTalk
  closed := Err.ERROR_IO_EOF
  later _ _ := ([], Err.ERROR_IO_EOF)
theorem sure_calls : Sps.RtmpConn.Calls sureCaller sure sureTalk :=
  ⟨rfl, (by decide : Err.ERROR_IO_EOF ≠ Err.SUCCESS), rfl,
    ⟨[], _, 0x3ff0000000000000, ascii "live", [], _, _, rfl, by simp, by decide +kernel, by simp, .play (t := 0x4014000000000000) (by decide +kernel)⟩, [], by simp [sureCaller]⟩
example : (∃ a, Sps.RtmpConn.server.arrive sureCaller = some a) ∧ Sps.RtmpConn.server.arriveLogged here (ascii "10.0.0.7") 50000 sureCaller = none :=
  C113_negation_rtmp Sps.RtmpConn.server Sps.Names.readsUrls_readUrl here at_here _ _ ⟨by decide +kernel, by decide +kernel, by decide⟩ sureCaller sure sure_ok sureTalk sure_calls
    (ascii "rtmp://a.com/live/100") 115 (ascii "ure") (by decide +kernel) (by decide +kernel) (by decide) (by decide +kernel)

/-- SRT clients. -/
def plainId : SrtLive.Id := ⟨[(ascii "h", ascii "a.com/live/x"), (ascii "m", ascii "request")], []⟩
def percentId : SrtLive.Id := ⟨[(ascii "u", ascii "50%"), (ascii "h", ascii "a.com/live/x")], []⟩
theorem plainId_for : plainId.For Sps.RtmpConn.stream (ascii "request") :=
  ⟨Sps.RtmpConn.stream_ok, by unfold Spec.Net.word; decide +kernel, by decide +kernel, .inl ⟨[], [(ascii "m", ascii "request")], rfl, by decide +kernel⟩,
    .inl ⟨[(ascii "h", ascii "a.com/live/x")], [], rfl, by decide +kernel⟩⟩
theorem percentId_for : percentId.For Sps.RtmpConn.stream [] :=
  ⟨Sps.RtmpConn.stream_ok, by unfold Spec.Net.word; decide +kernel, by decide +kernel, .inl ⟨[(ascii "u", ascii "50%")], [], rfl, by decide +kernel⟩, .inr ⟨by decide +kernel, rfl⟩⟩
def srtServer : SrtSite := ⟨Sps.Names.readUrl, Router.new.history [ServeProps.host "source"]⟩
example : (0 : UInt8) ∉ plainId.text ∧ (37 : UInt8) ∉ plainId.text ∧ (0 : UInt8) ∉ percentId.text ∧ percentId.text.length ≤ 512 := by decide +kernel
example : (srtServer.arriveLogged here plainId.text { evs := [], closed := Err.ERROR_IO_EOF } [] [] []).map (·.2) =
    some (Log.stamp now ++ ascii "[sps_srt_server_handler.cpp:52] [3] success parse srt streamid #!::h=a.com/live/x,m=request,, url srt://a.com/live/x, mode request\r\n") := by decide +kernel
example : srtServer.arriveLogged here percentId.text { evs := [], closed := Err.ERROR_IO_EOF } [] [] [] = none :=
  C113_negation_srt srtServer Sps.Names.readsUrls_readUrl here at_here percentId _ _ percentId_for (by decide +kernel)
    ⟨ascii "#!::u=50", 44, ascii "h=a.com/live/x,", by decide +kernel, by decide +kernel, by decide⟩ (by decide +kernel) _ _ _ _

end Sps.Log
