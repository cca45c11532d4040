import Verif.Lemmas.HttpEnds
import Verif.Lemmas.HttpReaders
/-!
# C99: HTTP connections
-/
namespace Sps.HttpConn
open Spec Spec.Http Spec.Names Spec.HttpConn

/-- **C99**, requests without a body that say nothing about connection and framing, for unknown hosts and for proxied hosts whose upstream answers with a body
that has a length or is in chunks. However the bytes arrive: every request gets its answer, in the order of the requests, and nothing else is written; each answer can be told
from the next; each proxied request was sent on once; and when the client closes, the connection ends with that error. Missing: see the negations. -/
theorem C99_answers_partial (s : HttpSite) (hs : List Conf.Module) (hp : Reads s.parsers) (hz : ∀ h ∈ hs, (0 : UInt8) ∉ h.name) (hr : s.router = Router.new.history hs)
    (as : List Ask) (us : List Upstream) (rs : List (Nat × List UInt8)) (qs : List (Text × Int × List UInt8)) (hsv : Served (Server.choose hs) as us rs qs)
    (io : Io) (cl : Err) (ha : Arrives io (as.flatMap Ask.text) cl) :
    ∃ c bss, s.serve (as.length + 1) { io := io, snk := { out := [], fails := [] }, ups := us } = some (.ok (-(cl : Int), c)) ∧
      c.snk.out = bss.flatten ∧ List.Forall₂ (fun r bs => Answer r.1 r.2 bs) rs bss ∧ c.asked = qs ∧ c.ups = [] := by
  have key : ∀ (as : List Ask) (us : List Upstream) (rs : List (Nat × List UInt8)) (qs : List (Text × Int × List UInt8)), Served (Server.choose hs) as us rs qs →
      ∀ c : Sps.HttpConn, Arrives c.io (as.flatMap Ask.text) cl → c.snk.fails = [] → c.ups = us →
      ∃ c' bss, Phase.connection s.phases (as.length + 1) c = some (.ok (-(cl : Int), c')) ∧ c'.snk.out = c.snk.out ++ bss.flatten ∧
        List.Forall₂ (fun r bs => Answer r.1 r.2 bs) rs bss ∧ c'.asked = c.asked ++ qs ∧ c'.ups = [] := by
    intro as us rs qs hsv
    induction hsv with
    | nil =>
      intro c ha hf hu
      obtain ⟨io', h1⟩ := parse_end s.parsers ha
      have hne : -(cl : Int) ≠ Phase.SUCCESS := by
        have := arrives_ne ha
        show -(cl : Int) ≠ 0
        intro h
        exact this (Int.natCast_eq_zero.1 (Int.neg_eq_zero.1 h))
      have hne1 : -(cl : Int) ≠ Phase.NO_CONTINUE := by
        show -(cl : Int) ≠ 1
        omega
      refine ⟨{ c with io := io' }, [], ?_, by simp, .nil, by simp, hu⟩
      have := C53_stop [] (HttpSite.parse s.parsers) [s.route] c c { c with io := io' } _ (.nil _) h1 hne
      rw [if_neg hne1] at this
      show Phase.connection s.phases 1 c = _
      unfold Phase.connection
      rw [show s.phases = [] ++ HttpSite.parse s.parsers :: [s.route] from rfl, this]
      simp only
      rw [if_pos hne]
    | unknown ok hc _ ih =>
      intro c ha hf hu
      rw [List.flatMap_cons] at ha
      obtain ⟨bs, u, io', h1, h2, h3⟩ := (handler_ask hp hz hr ok c ha hf).1 hc
      obtain ⟨c', bss, k1, k2, k3, k4, k5⟩ := ih { c with io := io', req := some u, snk := { c.snk with out := c.snk.out ++ bs } } h2 hf hu
      refine ⟨c', bs :: bss, ?_, ?_, .cons h3 k3, k4, k5⟩
      · rw [List.length_cons]
        unfold Phase.connection
        rw [h1]
        exact k1
      · rw [k2]; simp
    | proxied ok hc hh rok hio _ ih =>
      intro c ha hf hu
      rw [List.flatMap_cons] at ha
      obtain ⟨bs, u, io', h1, h2, h3⟩ := (handler_ask hp hz hr ok c ha hf).2 _ _ _ _ _ _ _ _ hc hh rok hio hu
      obtain ⟨c', bss, k1, k2, k3, k4, k5⟩ := ih { c with io := io', req := some u, ups := _, asked := _, snk := { c.snk with out := c.snk.out ++ bs } } h2 hf rfl
      refine ⟨c', bs :: bss, ?_, ?_, .cons h3 k3, ?_, k5⟩
      · rw [List.length_cons]
        unfold Phase.connection
        rw [h1]
        exact k1
      · rw [k2]; simp
      · rw [k4]; simp
  obtain ⟨c', bss, k1, k2, k3, k4, k5⟩ := key as us rs qs hsv { io := io, snk := { out := [], fails := [] }, ups := us } ha rfl rfl
  exact ⟨c', bss, k1, by simpa using k2, k3, by simpa using k4, k5⟩

/-- **C99**, every connection ends, whatever arrives and whatever upstreams send, if `http_parser` takes at least a byte of every header and the stream handler returns: a
request takes at least four bytes. (The list of upstreams is long enough for every request.) Missing: see `C99_negation_crash`. -/
theorem C99_ends_partial (s : HttpSite) (hreq : ∀ t, (s.parsers.req t).count ≠ 0) (hrsp : ∀ t, (s.parsers.rsp t).1 ≠ 0) (hst : Returns s) (c : Sps.HttpConn)
    (hok : ioOk c.io = true) (hups : ∀ x ∈ c.ups, upOk x) (hn : left c.io / 4 ≤ c.ups.length) :
    ∃ e c', s.serve (left c.io / 4 + 1) c = some (.ok (e, c')) :=
  serve_ends s hreq hrsp hst _ c hok hups hn (Nat.lt_succ_self _)

/-! ## Examples -/

/-- A host whose requests go to `10.0.0.1:8080`. -/
def proxied : Conf.Module := .mk .host (ascii "a.com")
  (fun n => if n = ascii "type" then some (.str (ascii "proxy")) else if n = ascii "pass_proxy" then some (.str (ascii "10.0.0.1:8080")) else none) []
/-- A host with streams. -/
def streams : Conf.Module := .mk .host (ascii "s.com") (fun n => if n = ascii "type" then some (.str (ascii "stream")) else none) []

/-- A site with these hosts and no stream. -/
def site : HttpSite :=
  { parsers := readers, router := Router.new.history [proxied, streams], stream := fun _ _ io snk => .ok (Err.ERROR_STREAM_SOURCE_NOT_EXITS, {}, io, snk) }

def askA : Ask := { method := ascii "GET", path := ascii "/x", query := some (ascii "k=1"), host := ascii "a.com", port := some (ascii "80"), after := [(ascii "X-Id", ascii "7 8")] }
def askB : Ask := { method := ascii "GET", path := ascii "/y", host := ascii "b.org", before := [(ascii "Accept", ascii "text/html")] }

theorem askA_ok : askA.Ok := by
  refine ⟨by decide +kernel, by decide +kernel, fun t h => ?_, by decide +kernel, fun t h => ?_, ?_, by decide +kernel⟩
  · cases h; exact ⟨by decide +kernel, by unfold graph; decide +kernel⟩
  · cases h; exact ⟨80, by decide +kernel⟩
  · unfold plain nameOk valueOk letter graph; decide +kernel

theorem askB_ok : askB.Ok := by
  refine ⟨by decide +kernel, by decide +kernel, fun t h => ?_, by decide +kernel, fun t h => ?_, ?_, by decide +kernel⟩
  · cases h
  · cases h
  · unfold plain nameOk valueOk letter graph; decide +kernel

def reply : Reply := { status := 200, digits := ascii "200", phrase := ascii "OK", after := [(ascii "Server", ascii "up")], body := .sized (ascii "5") (ascii "hello") }

theorem reply_ok : reply.Ok := by
  refine ⟨by decide, by decide +kernel, ?_, ?_, (by unfold reply Body.Ok; decide +kernel), by decide +kernel⟩
  · unfold valueOk graph; decide +kernel
  · unfold plain nameOk valueOk letter graph; decide +kernel

theorem proxied_to : ProxyTo proxied (ascii "10.0.0.1") 8080 := by
  refine ⟨by unfold Server.opt; decide +kernel, ⟨ascii "10.0.0.1:8080", by decide +kernel, ?_⟩, (fun m hm => by cases hm)⟩
  have := Server.Address.port (ascii "10.0.0.1") (ascii "8080") 8080 80 (by decide +kernel) (by decide +kernel) (by decide +kernel) (by decide)
  have e : ascii "10.0.0.1" ++ 58 :: ascii "8080" = ascii "10.0.0.1:8080" := by decide +kernel
  rw [e] at this
  exact this

def upstream : Upstream := .up [] { evs := [.data (ascii "HTTP/1.1 200 OK\r\nContent-Length: 5\r\nServer: up\r\n\r\nhel"), .data (ascii "lo")], closed := 1 }

/-- Three requests, the first and the last for the proxied host. -/
theorem sample_served : Served (Server.choose [proxied, streams]) [askA, askB, askA] [upstream, upstream]
    [(200, ascii "hello"), (404, []), (200, ascii "hello")] [(ascii "10.0.0.1", 8080, askA.forward), (ascii "10.0.0.1", 8080, askA.forward)] := by
  have ha : Arrives { evs := [.data (ascii "HTTP/1.1 200 OK\r\nContent-Length: 5\r\nServer: up\r\n\r\nhel"), .data (ascii "lo")], closed := 1 } (reply.text ++ []) 1 :=
    ⟨by decide +kernel, by decide +kernel, by decide +kernel, by decide +kernel⟩
  have hc : Server.choose [proxied, streams] askA.host = some proxied := rfl
  have hb : Server.choose [proxied, streams] askB.host = none := rfl
  exact .proxied askA_ok hc proxied_to reply_ok ha (.unknown askB_ok hb (.proxied askA_ok hc proxied_to reply_ok ha .nil))

/-- How a connection ends, to look at. -/
inductive Seen
  | runs
  | crash
  | hang
  | ends (e : Int) (out : List UInt8) (asked : List (Text × Int × List UInt8))
deriving DecidableEq

/-- A client that sends this and closes. -/
def visit (n : Nat) (ups : List Upstream) (pieces : List Text) : Seen :=
  match site.serve n { io := { evs := pieces.map IoEv.data, closed := 1 }, snk := { out := [], fails := [] }, ups := ups } with
  | none => .runs
  | some (.error .crash) => .crash
  | some (.error .hang) => .hang
  | some (.ok (e, c)) => .ends e c.snk.out c.asked

def sent : Text := ascii "GET /x?k=1 HTTP/1.1\r\nHost: a.com\r\nX-Id: 7 8\r\nAccept: */\r\nContent-Length: 0\r\n\r\n"

example : [askA, askB, askA].flatMap Ask.text = ascii "GET /x?k=1 HTTP/1.1\r\nHost: a.com:80\r\nX-Id: 7 8\r\n\r\nGET /y HTTP/1.1\r\nAccept: text/html\r\nHost: b.org\r\n\r\nGET /x?k=1 HTTP/1.1\r\nHost: a.com:80\r\nX-Id: 7 8\r\n\r\n" := by
  decide +kernel

/-- The three requests, pipelined, in two pieces. -/
example : visit 4 [upstream, upstream] [([askA, askB, askA].flatMap Ask.text).take 70, ([askA, askB, askA].flatMap Ask.text).drop 70] =
    .ends (-1) (ascii "HTTP/1.1 200 OK\r\nContent-Length: 5\r\nServer: up\r\n\r\nhelloHTTP/1.1 404 Not Found\r\nContent-Length: 0\r\nServer: sps\r\n\r\nHTTP/1.1 200 OK\r\nContent-Length: 5\r\nServer: up\r\n\r\nhello")
      [(ascii "10.0.0.1", 8080, sent), (ascii "10.0.0.1", 8080, sent)] := by decide +kernel

example : askA.forward = sent := by decide +kernel

/-- The hypotheses of `C99_ends_partial`. -/
example : Returns site ∧ upOk upstream := ⟨fun h u io snk hok => ⟨_, _, io, snk, rfl, hok, Nat.le_refl _⟩, by unfold upOk upstream; decide +kernel⟩

/-! ## What goes wrong -/

/-- **C99**, a header `http_parser` takes nothing of ends the process if it is the first on its connection: the result 0 lets the next phase run, and there is no request. -/
theorem C99_negation_crash (s : HttpSite) (c : Sps.HttpConn) (hreq : c.req = none) (t : List UInt8) (io' : Io) (h : HttpHead.parse 2048 c.io = some (.ok t, io'))
    (h0 : (s.parsers.req t).count = 0) (n : Nat) : s.serve (n + 1) c = some (.error .crash) := by
  have hp : HttpSite.parse s.parsers c = .ok (Phase.CONTINUE, { c with io := io' }) := by
    unfold HttpSite.parse
    rw [h]
    simp only [h0, if_true]
  have hr : s.route { c with io := io' } = .error .crash := by
    unfold HttpSite.route
    simp only [hreq]
  exact (C53_gone [HttpSite.parse s.parsers] s.route [] c _ .crash (.cons hp (.nil _)) hr n).2

/-- Twelve bytes do. -/
example : visit 1 [] [ascii "\u0016\u0003 hello\r\n\r\n"] = .crash ∧ visit 1 [upstream] [ascii "1234\r\n\r\n"] = .crash := by decide +kernel

/-- **C99**, on a connection that has been used it serves the request before once more. -/
theorem C99_negation_replay : ∃ n ups, visit n ups [askA.text, ascii "1234\r\n\r\n"] =
    .ends (-1) (ascii "HTTP/1.1 200 OK\r\nContent-Length: 5\r\nServer: up\r\n\r\nhelloHTTP/1.1 200 OK\r\nContent-Length: 5\r\nServer: up\r\n\r\nhello")
      [(ascii "10.0.0.1", 8080, sent), (ascii "10.0.0.1", 8080, sent)] := ⟨3, [upstream, upstream], by decide +kernel⟩

/-- **C99**, a request with a body for an unknown or a proxied host: the body is not forwarded, and is then taken for the next request. -/
theorem C99_negation_body : ∃ n ups, visit n ups [ascii "POST /p HTTP/1.1\r\nHost: b.org\r\nContent-Length: 55\r\n\r\n", askA.text] =
    .ends (-1) (ascii "HTTP/1.1 404 Not Found\r\nContent-Length: 0\r\nServer: sps\r\n\r\nHTTP/1.1 200 OK\r\nContent-Length: 5\r\nServer: up\r\n\r\nhello") [(ascii "10.0.0.1", 8080, sent)] :=
  ⟨3, [upstream], by decide +kernel⟩

/-- **C99**, when the upstream cannot be reached the client gets no answer. -/
theorem C99_negation_down : ∃ n ups, visit n ups [askA.text, askB.text] = .ends Err.ERROR_HTTP_SOCKET_CONNECT [] [(ascii "10.0.0.1", 8080, [])] :=
  ⟨3, [.down], by decide +kernel⟩

/-- **C99**, an upstream whose answer `http_parser` takes nothing of ends the process. -/
theorem C99_negation_upstream : ∃ n ups, visit n ups [askA.text] = .crash :=
  ⟨3, [.up [] { evs := [.data (ascii "SSH-2.0-x\r\n\r\n")], closed := 1 }], by decide +kernel⟩

/-- **C99**, behind an answer without content from an upstream the connection ends: the next request gets no answer. -/
theorem C99_negation_empty : ∃ n ups, visit n ups [askA.text, askB.text] =
    .ends Err.ERROR_IO_BUFFER_FULL (ascii "HTTP/1.1 302 OK\r\nContent-Length: 0\r\nLocation: /z\r\nServer: sps\r\n\r\n") [(ascii "10.0.0.1", 8080, sent)] :=
  ⟨3, [.up [] { evs := [.data (ascii "HTTP/1.1 302 Found\r\nContent-Length: 0\r\nLocation: /z\r\n\r\n")], closed := 1 }], by decide +kernel⟩

/-- **C99**, `Connection: close` is not heeded: the request behind it is served. -/
theorem C99_negation_close : ∃ n, visit n [] [ascii "GET /y HTTP/1.1\r\nHost: b.org\r\nConnection: close\r\n\r\n", askB.text] =
    .ends (-1) (ascii "HTTP/1.1 404 Not Found\r\nContent-Length: 0\r\nServer: sps\r\n\r\nHTTP/1.1 404 Not Found\r\nContent-Length: 0\r\nServer: sps\r\n\r\n") [] :=
  ⟨3, by decide +kernel⟩

/-- **C99**, a request whose header is larger than 2048 bytes gets no answer. -/
theorem C99_negation_long (s : HttpSite) (lines : List (List UInt8)) (hne : lines ≠ []) (hl : ∀ l ∈ lines, lineOk l) (h : 2048 < (head lines).length) (c : Sps.HttpConn)
    (t : List UInt8) (cl : Err) (ha : Arrives c.io (head lines ++ t) cl) (n : Nat) : ∃ io', s.serve (n + 1) c = some (.ok (-1, { c with io := io' })) := by
  obtain ⟨r, io', h1, -, h2⟩ := C42_exact 2048 lines hne hl t c.io cl ha
  refine ⟨io', ?_⟩
  have hp : HttpSite.parse s.parsers c = .ok (-1, { c with io := io' }) := by unfold HttpSite.parse; rw [h1, h2 h]
  have hh := C53_stop [] (HttpSite.parse s.parsers) [s.route] c c _ _ (.nil _) hp (by decide)
  unfold HttpSite.serve Phase.connection
  rw [show s.phases = [] ++ HttpSite.parse s.parsers :: [s.route] from rfl, hh]
  rfl

/-- **C99**, a refusal of the stream handler on a connection that stays open: the answer has neither a length nor chunks, so a client cannot know that it has ended. -/
theorem C99_negation_unframed : visit 2 [] [ascii "GET /live/x.flv HTTP/1.1\r\nHost: s.com\r\n\r\n"] = .ends (-1) (ascii "HTTP/1.1 404 Not Found\r\nServer: sps\r\n\r\n") [] ∧
    ∀ status body, ¬ Answer status body (ascii "HTTP/1.1 404 Not Found\r\nServer: sps\r\n\r\n") := by
  refine ⟨by decide +kernel, fun status body h => ?_⟩
  have key : ∀ (first : List UInt8) (fields : List Header) (rest : List UInt8), framing fields ≠ [] →
      ascii "HTTP/1.1 404 Not Found\r\nServer: sps\r\n\r\n" ≠ head (first :: fields.map line) ++ rest := by
    intro first fields rest hf he
    obtain ⟨f, hm⟩ := List.exists_mem_of_ne_nil _ hf
    obtain ⟨hm, hn⟩ := List.mem_filter.1 hm
    obtain ⟨a, b, rfl⟩ := List.append_of_mem hm
    have hi : ∃ x y, ascii "HTTP/1.1 404 Not Found\r\nServer: sps\r\n\r\n" = x ++ (f.1 ++ y) := by
      refine ⟨first ++ crlf ++ (a.map line).flatMap (· ++ crlf), ascii ": " ++ f.2 ++ crlf ++ (b.map line).flatMap (· ++ crlf) ++ crlf ++ rest, ?_⟩
      rw [he]
      simp [head, line]
    obtain ⟨x, y, hx⟩ := hi
    have hlen : f.1.length = 14 ∨ f.1.length = 17 := by
      have hl : (lower f.1).length = f.1.length := by simp [lower]
      simp only [List.mem_cons, List.not_mem_nil, or_false, decide_eq_true_eq] at hn
      rcases hn with h | h
      · left; rw [← hl, h]; decide +kernel
      · right; rw [← hl, h]; decide +kernel
    have hd : f.1 = ((ascii "HTTP/1.1 404 Not Found\r\nServer: sps\r\n\r\n").drop x.length).take f.1.length := by
      rw [hx, List.drop_left, List.take_left]
    have hxl : x.length < 40 := by
      have := congrArg List.length hx
      rw [show (ascii "HTTP/1.1 404 Not Found\r\nServer: sps\r\n\r\n").length = 39 by decide +kernel] at this
      simp only [List.length_append] at this
      omega
    have t1 : ∀ i < 40, lower (((ascii "HTTP/1.1 404 Not Found\r\nServer: sps\r\n\r\n").drop i).take 14) ∉ [ascii "content-length", ascii "transfer-encoding"] := by decide +kernel
    have t2 : ∀ i < 40, lower (((ascii "HTTP/1.1 404 Not Found\r\nServer: sps\r\n\r\n").drop i).take 17) ∉ [ascii "content-length", ascii "transfer-encoding"] := by decide +kernel
    have hn : lower f.1 ∈ [ascii "content-length", ascii "transfer-encoding"] := by simpa using hn
    rcases hlen with h | h
    · rw [h] at hd
      exact t1 _ hxl (hd ▸ hn)
    · rw [h] at hd
      exact t2 _ hxl (hd ▸ hn)
  generalize hb : ascii "HTTP/1.1 404 Not Found\r\nServer: sps\r\n\r\n" = bs at h
  cases h with
  | sized h1 h2 h3 h4 h5 => exact key _ _ _ (by rw [h3]; simp) hb
  | coded h1 h2 h3 h4 h5 => exact key _ _ _ h3 hb

end Sps.HttpConn
