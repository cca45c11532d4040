import Verif.Lemmas.HttpWrite
import Verif.Lemmas.Url
/-!
# URLs and HTTP
-/
namespace Sps
open Spec Spec.Http

/-! ## C41: queries -/

/-- **C41.** Parsing a URL with a query made of pairs (no `=` in a key, no `&` in a value) gives these pairs, in order, whatever
the other parts of the URL are. -/
theorem C41_query (u : Url) (url : Text) (f : UrlFields) (r : Url) (ps : List Header) (hps : ∀ p ∈ ps, 61 ∉ p.1 ∧ 38 ∉ p.2)
    (hf : f.query = some (renderQuery ps)) (hu : u.pp = []) (hp : Url.parse u url f = some r) : r.pp = ps := by
  unfold Url.parse at hp
  rw [hf] at hp
  simp only [Option.getD_some, hu, List.nil_append] at hp
  rw [Url.query_render ps _ hps (by omega)] at hp
  split at hp
  · split at hp
    · cases hp
    · cases hp; rfl
  · cases hp; rfl

/-- **C41**, lookup: the value of the first pair with that key, or nothing. -/
theorem C41_lookup (u : Url) (k : Text) :
    (∀ a v c, u.pp = a ++ (k, v) :: c → (∀ p ∈ a, p.1 ≠ k) → u.getParam k = v) ∧ ((∀ p ∈ u.pp, p.1 ≠ k) → u.getParam k = []) := by
  unfold Url.getParam
  exact ⟨fun a v c h ha => by rw [h]; exact Url.lookup_first k v c a ha, fun h => Url.lookup_none k _ h⟩

/-- **C41**, a pair without `=` is not kept apart: `a&b=c` has the single key `a&b`. -/
theorem C41_negation_flag : (Url.parse {} (ascii "http://h/p?a&b=c") { schema := some (ascii "http"), host := some (ascii "h"), path := some (ascii "/p"), query := some (ascii "a&b=c") }).map
    (fun u => (u.pp, u.getParam (ascii "b"))) = some ([(ascii "a&b", ascii "c")], []) := by decide +kernel

example : (Url.parse {} (ascii "http://h/p.flv?x=1&y=a=b&x=") { schema := some (ascii "http"), host := some (ascii "h"), path := some (ascii "/p.flv"), query := some (ascii "x=1&y=a=b&x=") }).map
    (fun u => (u.pp, u.getParam (ascii "x"))) = some ([(ascii "x", ascii "1"), (ascii "y", ascii "a=b"), (ascii "x", [])], ascii "1") ∧
    renderQuery [(ascii "x", ascii "1"), (ascii "y", ascii "a=b"), (ascii "x", [])] = ascii "x=1&y=a=b&x=" := by decide +kernel

/-! ## C42: the header reader -/

/-- **C42.** On every transport the header reader comes to an end, and what it took from the stream is at most the configured
maximum and goes at most up to the end of the first `CRLFCRLF`; a successful call took exactly what it gives to the parser. -/
theorem C42_never_past (max : Nat) (io : Io) (hok : ioOk io = true) :
    ∃ r d io', HttpHead.parse max io = some (r, io') ∧ streamOf io.evs = d ++ streamOf io'.evs ∧ d.length ≤ max ∧
      (∀ a c, d = a ++ headEnd ++ c → c = []) ∧ (∀ h, r = .ok h → h = d) := by
  obtain ⟨r, d, io', h1, h2, h3, h4, h5, h6, h7⟩ := HttpHead.read_any max (max + 1) 4 [] io hok (by decide) (by decide) (by decide)
    (fun x hx hi => by have := hi.length_le; simp [headEnd, crlf] at this hx; omega) (by simp) (by simp)
  exact ⟨r, d, io', h1, h4, by simpa using h5, by simpa using h6, by simpa using h7⟩

/-- **C42**, headers with CRLF line ends: the reader stops exactly behind the empty line if the header is not larger than the
maximum, and reports a header that is too large. -/
theorem C42_exact (max : Nat) (lines : List (List UInt8)) (hne : lines ≠ []) (hl : ∀ l ∈ lines, lineOk l) (body : List UInt8) (io : Io) (cl : Err)
    (ha : Arrives io (head lines ++ body) cl) :
    ∃ r io', HttpHead.parse max io = some (r, io') ∧ ((head lines).length ≤ max → r = .ok (head lines) ∧ Arrives io' body cl) ∧
      (max < (head lines).length → r = .error (-1)) := by
  obtain ⟨r, io', h1, h2, h3, _⟩ := HttpHead.read_clean max (HttpHead.clean_head lines hl) (HttpHead.first_head lines hl) (HttpHead.end_head lines hne)
    (arrives_ne ha) (max + 1) 4 [] (head lines) (head lines ++ body) io rfl (Or.inl (List.prefix_append _ _)) ha (by decide) (by decide) (by decide)
    (fun x hx hi => by have := hi.length_le; simp [headEnd, crlf] at this hx; omega) (by simp) (by simp)
  refine ⟨r, io', h1, fun hm => ?_, fun hm => h3 hm (List.prefix_append _ _)⟩
  have := h2 hm (List.prefix_append _ _)
  rwa [List.drop_left] at this

/-- **C42**, a connection that ends inside the header: its error, negated. -/
theorem C42_cut (max : Nat) (lines : List (List UInt8)) (hne : lines ≠ []) (hl : ∀ l ∈ lines, lineOk l) (hm : (head lines).length ≤ max)
    (s x : List UInt8) (hx : x ≠ []) (hs : head lines = s ++ x) (io : Io) (cl : Err) (ha : Arrives io s cl) :
    ∃ io', HttpHead.parse max io = some (.error (-(cl : Int)), io') := by
  obtain ⟨r, io', h1, _, _, h4⟩ := HttpHead.read_clean max (HttpHead.clean_head lines hl) (HttpHead.first_head lines hl) (HttpHead.end_head lines hne)
    (arrives_ne ha) (max + 1) 4 [] (head lines) s io rfl (Or.inr ⟨x, hs.symm⟩) ha (by decide) (by decide) (by decide)
    (fun x hx hi => by have := hi.length_le; simp [headEnd, crlf] at this hx; omega) (by simp) (by simp)
  have := h4 hm (fun hp => by
    have := hp.length_le
    rw [hs, List.length_append] at this
    cases x with
    | nil => exact hx rfl
    | cons => simp at this)
  rw [this] at h1
  exact ⟨io', h1⟩

/-- **C42**, with other line ends the header may be cut: a CR or LF in the wrong place makes the reader stop inside it. -/
theorem C42_negation_bare :
    (HttpHead.parse 2048 { evs := [.data (ascii "GET /abc HTTP/1.1\nX\n: y\r\n\r\n")], closed := 1 }).map (·.1) = some (.ok (ascii "GET /abc HTTP/1.1\nX\n")) ∧
    (HttpHead.parse 2048 { evs := [.data (ascii "GET / HTTP/1.1\r\nA:\rxy\nB: z\r\n\r\n")], closed := 1 }).map (·.1) = some (.ok (ascii "GET / HTTP/1.1\r\nA:\rxy\n")) := by
  decide +kernel

example : head [ascii "GET /a HTTP/1.1", ascii "Host: x"] = ascii "GET /a HTTP/1.1\r\nHost: x\r\n\r\n" ∧
    (∀ l ∈ [ascii "GET /a HTTP/1.1", ascii "Host: x"], lineOk l) ∧
    HttpHead.parse 2048 { evs := [.data (ascii "GET /a HTTP/1.1\r\nHo"), .data (ascii "st: x\r\n\r"), .data (ascii "\nbody")], closed := 1 } =
      some (.ok (ascii "GET /a HTTP/1.1\r\nHost: x\r\n\r\n"), { evs := [.data (ascii "body")], closed := 1 }) ∧
    (HttpHead.parse 20 { evs := [.data (ascii "GET /a HTTP/1.1\r\nHost: x\r\n\r\n")], closed := 1 }).map (·.1) = some (.error (-1)) ∧
    (HttpHead.parse 2048 { evs := [.data (ascii "GET /a HTTP/1.1\r\nHost: x\r\n")], closed := 7 }).map (·.1) = some (.error (-7)) := by
  decide +kernel

/-! ## C43: chunked bodies -/

/-- **C43**, reading, both sides: a body in chunked coding (whatever size lines up to 31 characters), in any pieces, read with any
buffer sizes: what is returned is always the front of the content; the end is reported with the last byte returned and exactly the
body consumed; and enough reads get there. -/
theorem C43_read (side : HttpSide) (cl0 : Int) (cs : List (List UInt8 × List UInt8)) (z : List UInt8) (hok : codedOk cs z) (t : List UInt8) (io : Io) (cl : Err)
    (ha : Arrives io (coded cs z ++ t) cl) (ns : List Nat) (hn : ∀ n ∈ ns, 0 < n) :
    ∃ e out b io', HttpBody.session side ns { chunked := true, cl := cl0 } io = some (e, out, b, io') ∧ out <+: content cs ∧
      (e = Err.SUCCESS ∨ e = Err.ERROR_HTTP_RES_EOF ∧ out = content cs ∧ Arrives io' t cl) ∧
      ((content cs).length + 2 ≤ ns.length → e = Err.ERROR_HTTP_RES_EOF) :=
  HttpBody.session_chunked side rfl rfl rfl hok ha ns hn

/-- **C43**, reading when the connection ends early: the front of the content, then the error of the transport; the end of the
body is reported only if all of it had arrived. -/
theorem C43_cut (side : HttpSide) (cl0 : Int) (cs : List (List UInt8 × List UInt8)) (z : List UInt8) (hok : codedOk cs z) (s m t : List UInt8)
    (hs : s ++ m = coded cs z ++ t) (hm : m ≠ []) (io : Io) (cl : Err) (ha : Arrives io s cl) (ns : List Nat) (hn : ∀ n ∈ ns, 0 < n) :
    ∃ e out b io', HttpBody.session side ns { chunked := true, cl := cl0 } io = some (e, out, b, io') ∧ out <+: content cs ∧
      (e = Err.SUCCESS ∨ e = cl ∨ e = Err.ERROR_HTTP_RES_EOF ∧ out = content cs ∧ coded cs z <+: s) :=
  HttpBody.session_chunked_cut side rfl rfl rfl hok hs hm ha ns hn

/-- **C43**, writing: non-empty writes, then an empty one, are a chunked coding of what was written. -/
theorem C43_written (reason : Int → Text) (ds : List (List UInt8)) (hd : ∀ d ∈ ds, d ≠ [] ∧ d.length < 2 ^ 64) (r : HttpRsp) (hs : r.sent = true) (hc : r.chunked = true)
    (out : List UInt8) : ∃ cs z, codedOk cs z ∧ cs.map (·.2) = ds ∧
      HttpRsp.writes reason (ds ++ [[]]) r { out := out, fails := [] } = ((ds ++ [[]]).map fun _ => Err.SUCCESS, r, { out := out ++ coded cs z, fails := [] }) := by
  refine ⟨HttpRsp.hexed ds, Text.hex 0, HttpRsp.hexed_ok ds hd, HttpRsp.hexed_map ds, ?_⟩
  rw [HttpRsp.writes_sent reason (ds ++ [[]]) r { out := out, fails := [] } hs rfl, hc, HttpRsp.wire_coded]

/-- The lines of a response header. -/
def rspLines (reason : Int → Text) (r : HttpRsp) : List (List UInt8) :=
  (ascii "HTTP/1.1 " ++ Text.decInt r.status ++ ascii " " ++ reason r.status) :: r.fields.map fun h => h.1 ++ ascii ": " ++ h.2

/-- Reason and fields without CR and LF. -/
def rspPlain (reason : Int → Text) (r : HttpRsp) : Prop :=
  (∀ b ∈ reason r.status, b ≠ CR ∧ b ≠ LF) ∧ ∀ h ∈ r.headers, (∀ b ∈ h.1, b ≠ CR ∧ b ≠ LF) ∧ ∀ b ∈ h.2, b ≠ CR ∧ b ≠ LF

theorem headText_head (reason : Int → Text) (r : HttpRsp) (h : rspPlain reason r) :
    r.headText reason = head (rspLines reason r) ∧ ∀ l ∈ rspLines reason r, lineOk l := by
  constructor
  · rw [HttpRsp.headText_fields]
    unfold head rspLines
    rw [List.flatMap_cons, List.flatMap_map]
    simp only [List.append_assoc]
    congr 6
    congr 1
    funext a
    simp only [fieldLine, List.append_assoc]
  · have t1 : ∀ b ∈ ascii "HTTP/1.1 ", b ≠ CR ∧ b ≠ LF := by decide +kernel
    have t2 : ∀ b ∈ ascii " ", b ≠ CR ∧ b ≠ LF := by decide +kernel
    have t3 : ∀ b ∈ ascii ": ", b ≠ CR ∧ b ≠ LF := by decide +kernel
    have t4 : (∀ b ∈ ascii "Transfer-Encoding", b ≠ CR ∧ b ≠ LF) ∧ (∀ b ∈ ascii "chunked", b ≠ CR ∧ b ≠ LF) ∧ (∀ b ∈ ascii "Content-Length", b ≠ CR ∧ b ≠ LF) ∧
      (∀ b ∈ ascii "Server", b ≠ CR ∧ b ≠ LF) ∧ (∀ b ∈ ascii "sps", b ≠ CR ∧ b ≠ LF) := by decide +kernel
    have hf : ∀ f ∈ r.fields, (∀ b ∈ f.1, b ≠ CR ∧ b ≠ LF) ∧ ∀ b ∈ f.2, b ≠ CR ∧ b ≠ LF := by
      intro f hf
      unfold HttpRsp.fields at hf
      rcases List.mem_append.mp hf with hf | hf
      · rcases List.mem_append.mp hf with hf | hf
        · split at hf
          · simp only [List.mem_singleton] at hf; subst hf; exact ⟨t4.1, t4.2.1⟩
          · split at hf
            · simp only [List.mem_singleton] at hf; subst hf; exact ⟨t4.2.2.1, Text.decInt_line _⟩
            · cases hf
        · exact h.2 f (List.mem_filter.mp hf).1
      · split at hf
        · cases hf
        · simp only [List.mem_singleton] at hf; subst hf; exact ⟨t4.2.2.2.1, t4.2.2.2.2⟩
    intro l hl
    unfold rspLines at hl
    rcases List.mem_cons.mp hl with rfl | hl
    · refine ⟨fun h0 => by have := congrArg List.length h0; simp [show (ascii "HTTP/1.1 ").length = 9 from by decide +kernel] at this, fun b hb => ?_⟩
      simp only [List.mem_append] at hb
      rcases hb with ((hb | hb) | hb) | hb
      · exact t1 b hb
      · exact Text.decInt_line _ b hb
      · exact t2 b hb
      · exact h.1 b hb
    · obtain ⟨f, hfm, rfl⟩ := List.mem_map.mp hl
      refine ⟨fun h0 => by have := congrArg List.length h0; simp [show (ascii ": ").length = 2 from by decide +kernel] at this, fun b hb => ?_⟩
      simp only [List.mem_append] at hb
      rcases hb with (hb | hb) | hb
      · exact (hf f hfm).1 b hb
      · exact t3 b hb
      · exact (hf f hfm).2 b hb

/-- **C43**, the round trip: the bytes of a chunked response made of non-empty writes and a last empty one, on any transport in any
pieces and with anything behind: the header reader takes the header, and reading the body with any buffer sizes returns what was
written, then the end, and leaves what is behind. -/
theorem C43_round_trip (reason : Int → Text) (r : HttpRsp) (hs : r.sent = false) (hc : r.chunked = true) (hp : rspPlain reason r)
    (ds : List (List UInt8)) (hd : ∀ d ∈ ds, d ≠ [] ∧ d.length < 2 ^ 64)
    (side : HttpSide) (max : Nat) (t : List UInt8) (io : Io) (cl : Err) (ns : List Nat) (hn : ∀ n ∈ ns, 0 < n) :
    ∃ h w, (HttpRsp.writes reason (ds ++ [[]]) r { out := [], fails := [] }).2.2 = { out := h ++ w, fails := [] } ∧
      (h.length ≤ max → Arrives io (h ++ w ++ t) cl →
        ∃ io1 e out b io2, HttpHead.parse max io = some (.ok h, io1) ∧
          HttpBody.session side ns { chunked := true, cl := -1 } io1 = some (e, out, b, io2) ∧ out <+: ds.flatten ∧
          (e = Err.SUCCESS ∨ e = Err.ERROR_HTTP_RES_EOF ∧ out = ds.flatten ∧ Arrives io2 t cl) ∧
          (ds.flatten.length + 2 ≤ ns.length → e = Err.ERROR_HTTP_RES_EOF)) := by
  obtain ⟨d, ds', hds⟩ : ∃ d ds', ds ++ [[]] = d :: ds' := by
    cases ds with
    | nil => exact ⟨_, _, rfl⟩
    | cons d ds => exact ⟨_, _, rfl⟩
  refine ⟨r.headText reason, coded (HttpRsp.hexed ds) (Text.hex 0), ?_, ?_⟩
  · rw [hds, HttpRsp.writes_new reason d ds' r { out := [], fails := [] } hs rfl, ← hds, hc, HttpRsp.wire_coded]
    rfl
  · intro hm ha
    obtain ⟨h1, h2⟩ := headText_head reason r hp
    rw [h1, List.append_assoc] at ha
    obtain ⟨x, io1, g1, g2, _⟩ := C42_exact max (rspLines reason r) (by simp [rspLines]) h2 _ io cl ha
    obtain ⟨rfl, g3⟩ := g2 (h1 ▸ hm)
    obtain ⟨e, out, b, io2, k1, k2, k3, k4⟩ := C43_read side (-1) (HttpRsp.hexed ds) (Text.hex 0) (HttpRsp.hexed_ok ds hd) t io1 cl g3 ns hn
    rw [HttpRsp.hexed_content] at k2 k3 k4
    exact ⟨io1, e, out, b, io2, by rw [h1]; exact g1, k1, k2, k3, k4⟩

/-- **C43**, an empty write in the middle ends the body for the reader; the rest is not read. -/
theorem C43_negation_empty :
    let out := (HttpRsp.writes (fun _ => ascii "OK") [ascii "ab", [], ascii "cd"] { sent := true, chunked := true, cl := -1 } { out := [], fails := [] }).2.2.out
    (HttpBody.session .client [9, 9, 9, 9] { chunked := true, cl := -1 } { evs := [.data out], closed := 1 }).map (fun x => (x.1, x.2.1)) =
      some (Err.ERROR_HTTP_RES_EOF, ascii "ab") := by decide +kernel

example : (HttpRsp.writes (fun _ => ascii "OK") [ascii "hello world, hello", ascii "!", []] { chunked := true, cl := -1 } { out := [], fails := [] }).2.2.out =
      ascii "HTTP/1.1 200 OK\r\nTransfer-Encoding: chunked\r\nServer: sps\r\n\r\n12\r\nhello world, hello\r\n1\r\n!\r\n0\r\n\r\n" ∧
    (HttpBody.session .server [5, 20, 7, 7, 7, 7] { chunked := true, cl := -1 } { evs := [.data (ascii "12\r\nhel"), .data (ascii "lo world, hello\r"), .data (ascii "\n1\r\n!\r\n0\r\n\r\nnext")], closed := 1 }) =
      some (Err.ERROR_HTTP_RES_EOF, ascii "hello world, hello!", { chunked := true, cl := -1, eof := true }, { evs := [.data (ascii "next")], closed := 1 }) ∧
    (HttpBody.session .client [5, 20, 7, 7, 7, 7] { chunked := true, cl := -1 } { evs := [.data (ascii "12\r\nhel"), .data (ascii "lo world, hello\r"), .data (ascii "\n1\r\n!\r\n0\r\n\r\nnext")], closed := 1 }) =
      some (Err.ERROR_HTTP_RES_EOF, ascii "hello world, hello!", { chunked := true, cl := -1, eof := true }, { evs := [.data (ascii "next")], closed := 1 }) := by
  decide +kernel

example : codedOk [(ascii "1A;name=x", List.replicate 26 7)] (ascii "000") where
  sizes c hc := by
    simp only [List.mem_singleton] at hc
    subst hc
    exact ⟨by decide, ⟨ascii "1A", ascii ";name=x", by decide +kernel⟩, by decide +kernel, by decide⟩
  last := ⟨ascii "000", [], by decide +kernel⟩
  short := by decide +kernel

/-! ## C44: bodies with a length -/

/-- **C44.** With an announced length `n > 0`, in any pieces and with any buffer sizes: the reads return the first `n` bytes, then the
end, and leave what is behind. (`n` below 2^31, the range of the `int` that keeps it.)

Missing: `n = 0`, which gives an error instead of the end (`C44_negation_zero`). -/
theorem C44_exact_partial (side : HttpSide) (body t : List UInt8) (h0 : body ≠ []) (hl : body.length < 2 ^ 31) (io : Io) (cl : Err) (ha : Arrives io (body ++ t) cl)
    (ns : List Nat) (hn : ∀ n ∈ ns, 0 < n) :
    ∃ e out b io', HttpBody.session side ns { chunked := false, cl := body.length } io = some (e, out, b, io') ∧ out <+: body ∧
      (e = Err.SUCCESS ∨ e = Err.ERROR_HTTP_RES_EOF ∧ out = body ∧ Arrives io' t cl) ∧ (body.length + 1 ≤ ns.length → e = Err.ERROR_HTTP_RES_EOF) :=
  HttpBody.session_length side hl ns _ io body hn rfl rfl (by simpa using h0) (by simp) ha

/-- **C44**, on every transport, errors and early ends included, and with any buffer sizes: what is returned is what was taken from the
stream, never more than announced, and the end is reported only after all of it. -/
theorem C44_never_more (side : HttpSide) (n : Nat) (hl : n < 2 ^ 31) (io : Io) (hok : ioOk io = true)
    (hne : (∀ e, .err e ∈ io.evs → e ≠ Err.ERROR_HTTP_RES_EOF) ∧ io.closed ≠ Err.ERROR_HTTP_RES_EOF) (ns : List Nat) :
    ∃ e out b io', HttpBody.session side ns { chunked := false, cl := n } io = some (e, out, b, io') ∧ streamOf io.evs = out ++ streamOf io'.evs ∧
      out.length ≤ n ∧ (e = Err.ERROR_HTTP_RES_EOF → out.length = n) := by
  obtain ⟨e, out, b, io', h1, h2, h3, h4⟩ := HttpBody.session_length_any side hl ns { chunked := false, cl := n } io hok rfl rfl (by simp) (fun h => by cases h) hne
  simp only [Nat.zero_add] at h3 h4
  exact ⟨e, out, b, io', h1, h2, h3, h4⟩

/-- **C44**, without a length: everything up to the end of the connection, then its error. -/
theorem C44_unlimited (side : HttpSide) (cl0 : Int) (hc : cl0 < 0) (s : List UInt8) (io : Io) (cl : Err) (ha : Arrives io s cl) (ns : List Nat) (hn : ∀ n ∈ ns, 0 < n) :
    ∃ e out b io', HttpBody.session side ns { chunked := false, cl := cl0 } io = some (e, out, b, io') ∧ out <+: s ∧
      (e = Err.SUCCESS ∨ e = cl ∧ out = s) ∧ (s.length + 1 ≤ ns.length → e = cl) :=
  HttpBody.session_unlimited side ns _ io s hn rfl hc rfl ha

/-- **C44**, a length of 0 is not the end of the body but an error, whatever arrives. -/
theorem C44_negation_zero (side : HttpSide) (n : Nat) (io : Io) :
    HttpBody.read side { chunked := false, cl := 0 } n io = some (Err.ERROR_IO_BUFFER_FULL, [], { chunked := false, cl := 0 }, io) := by
  simp [HttpBody.read, subSz, Io.read]

example : (HttpBody.session .server [3, 100] { chunked := false, cl := 11 } { evs := [.data (ascii "he"), .data (ascii "llo worldGET")], closed := 1 }) =
    some (Err.SUCCESS, ascii "hello world", { chunked := false, cl := 11, nread := 11, eof := true }, { evs := [.data (ascii "GET")], closed := 1 }) ∧
    ((HttpBody.session .server [3, 100, 1] { chunked := false, cl := 11 } { evs := [.data (ascii "he"), .data (ascii "llo worldGET")], closed := 1 }).map (·.1)) =
    some Err.ERROR_HTTP_RES_EOF := by decide +kernel

/-! ## C45: the response writer -/

/-- **C45.** For every non-empty history of writes (none failing), the wire has one header, then the body: the data as it is, or one
chunk for each write. -/
theorem C45_once (reason : Int → Text) (ds : List (List UInt8)) (hds : ds ≠ []) (hd : ∀ d ∈ ds, d.length < 2 ^ 64) (r : HttpRsp) (hs : r.sent = false) :
    ∃ body, (HttpRsp.writes reason ds r { out := [], fails := [] }).2.2 = { out := r.headText reason ++ body, fails := [] } ∧
      (r.chunked = false → body = ds.flatten) ∧
      (r.chunked = true → ∃ cs : List (List UInt8 × List UInt8), cs.map (·.2) = ds ∧ (∀ c ∈ cs, sizeLine c.1 c.2.length ∧ c.1.length ≤ 31) ∧ body = cs.flatMap chunk) := by
  obtain ⟨d, ds', rfl⟩ : ∃ d ds', ds = d :: ds' := by
    cases ds with
    | nil => exact absurd rfl hds
    | cons d ds' => exact ⟨d, ds', rfl⟩
  rw [HttpRsp.writes_new reason d ds' r { out := [], fails := [] } hs rfl]
  refine ⟨HttpRsp.wire r.chunked (d :: ds'), rfl, fun hc => by rw [hc]; rfl, fun hc => ?_⟩
  refine ⟨HttpRsp.hexed (d :: ds'), HttpRsp.hexed_map _, ?_, by rw [hc]; rfl⟩
  intro c hcm
  obtain ⟨x, hx, rfl⟩ := List.mem_map.mp hcm
  exact Text.sizeLine_hex _ (hd x hx)

/-- **C45**, the next response on a connection: after `init` the header is sent again, with what was given, whatever was sent before. -/
theorem C45_again (reason : Int → Text) (ds : List (List UInt8)) (hds : ds ≠ []) (old : HttpRsp) (status : Int) (headers : List Header) (cl : Int) :
    (HttpRsp.writes reason ds (old.init status (some headers) cl false) { out := [], fails := [] }).2.2 =
      { out := HttpRsp.headText reason { status := status, cl := cl, chunked := false, headers := headers } ++ ds.flatten, fails := [] } ∧
    ∃ body, (HttpRsp.writes reason ds (old.init status (some headers) cl true) { out := [], fails := [] }).2.2 =
      { out := HttpRsp.headText reason { status := status, cl := cl, chunked := true, headers := headers } ++ body, fails := [] } := by
  obtain ⟨d, ds', rfl⟩ : ∃ d ds', ds = d :: ds' := by
    cases ds with
    | nil => exact absurd rfl hds
    | cons d ds' => exact ⟨d, ds', rfl⟩
  rw [HttpRsp.writes_new reason d ds' _ { out := [], fails := [] } rfl rfl, HttpRsp.writes_new reason d ds' _ { out := [], fails := [] } rfl rfl]
  exact ⟨rfl, _, rfl⟩

/-- **C45**, the header: status line, then fields, of which exactly one, as configured, tells where the body ends; the other fields
are those given and `Server` if it was not. Missing: given fields that themselves tell where the body ends (see below), except a
`Content-Length` where the writer makes its own. -/
theorem C45_header_partial (reason : Int → Text) (r : HttpRsp) (hte : ∀ h ∈ r.headers, h.1 ≠ ascii "Transfer-Encoding")
    (hcl : r.chunked = true ∨ r.cl < 0 → ∀ h ∈ r.headers, h.1 ≠ ascii "Content-Length") (hsm : r.cl < 2 ^ 31) :
    ∃ (fields : List Header) (status : List UInt8), r.headText reason = ascii "HTTP/1.1 " ++ status ++ ascii " " ++ reason r.status ++ crlf ++ fields.flatMap fieldLine ++ crlf ∧
      (∀ n : Nat, r.status = n → n < 2 ^ 64 → decValue 0 status = some n) ∧
      (r.chunked = true → fields.filter isFraming = [(ascii "Transfer-Encoding", ascii "chunked")]) ∧
      (r.chunked = false → ∀ n : Nat, r.cl = n → ∃ v, decValue 0 v = some n ∧ fields.filter isFraming = [(ascii "Content-Length", v)]) ∧
      (r.chunked = false → r.cl < 0 → fields.filter isFraming = []) ∧
      fields.filter (fun h => !isFraming h) = r.headers.filter (fun h => !isFraming h) ++
        (if r.headers.any (fun h => h.1 == ascii "Server") then [] else [(ascii "Server", ascii "sps")]) := by
  have n1 : isFraming (ascii "Server", ascii "sps") = false := by decide +kernel
  have n2 : isFraming (ascii "Transfer-Encoding", ascii "chunked") = true := by decide +kernel
  have n3 : ∀ v, isFraming (ascii "Content-Length", v) = true := by intro v; simp [isFraming]
  have srvT : (if r.headers.any (fun h => h.1 == ascii "Server") then [] else [(ascii "Server", ascii "sps")] : List Header).filter isFraming = [] := by
    split
    · rfl
    · simp [n1]
  have srvF : (if r.headers.any (fun h => h.1 == ascii "Server") then [] else [(ascii "Server", ascii "sps")] : List Header).filter (fun h => !isFraming h) =
      (if r.headers.any (fun h => h.1 == ascii "Server") then [] else [(ascii "Server", ascii "sps")]) := by
    split
    · rfl
    · simp [n1]
  have mid : ((r.headers.filter fun h => !(h.1 == ascii "Content-Length" && (!r.chunked && decide (0 ≤ r.cl)))).filter isFraming) = [] := by
    rw [List.filter_filter, List.filter_eq_nil_iff]
    intro h hm
    have h1 := hte h hm
    by_cases hc : r.chunked = true ∨ r.cl < 0
    · have h2 := hcl hc h hm
      simp [isFraming, h1, h2]
    · have c1 : r.chunked = false := by cases hq : r.chunked with | false => rfl | true => exact absurd (Or.inl hq) hc
      have c2 : 0 ≤ r.cl := by
        refine Classical.byContradiction fun hq => hc (Or.inr (by omega))
      simp [isFraming, h1, c1, c2]
  have midF : ((r.headers.filter fun h => !(h.1 == ascii "Content-Length" && (!r.chunked && decide (0 ≤ r.cl)))).filter fun h => !isFraming h) =
      r.headers.filter fun h => !isFraming h := by
    rw [List.filter_filter]
    apply List.filter_congr
    intro h _
    cases hq : h.1 == ascii "Content-Length" with
    | false => simp
    | true => simp [isFraming, hq]
  refine ⟨r.fields, Text.decInt r.status, HttpRsp.headText_fields reason r, fun n h1 h2 => by rw [h1]; exact Text.decInt_value n h2, ?_, ?_, ?_, ?_⟩
  · intro hc
    unfold HttpRsp.fields
    rw [List.filter_append, List.filter_append, mid, srvT, if_pos hc]
    simp [n2]
  · intro hc n hn
    refine ⟨Text.decInt r.cl, by rw [hn]; exact Text.decInt_value n (by omega), ?_⟩
    unfold HttpRsp.fields
    rw [List.filter_append, List.filter_append, mid, srvT, if_neg (by rw [hc]; decide), if_pos (by omega)]
    simp [n3]
  · intro hc hn
    unfold HttpRsp.fields
    rw [List.filter_append, List.filter_append, mid, srvT, if_neg (by rw [hc]; decide), if_neg (by omega)]
    rfl
  · unfold HttpRsp.fields
    rw [List.filter_append, List.filter_append, midF, srvF]
    congr 1
    split
    · simp [n2]
    · split
      · simp [n3]
      · rfl

/-- **C45**, a proxied chunked response says `Transfer-Encoding` twice. -/
theorem C45_negation_twice :
    (HttpProxy.respond (fun _ => ascii "OK") 10 { status := 200, cl := -1, chunked := true, headers := [(ascii "Transfer-Encoding", ascii "chunked")] }
      { evs := [.data (ascii "0\r\n\r\n")], closed := 1 } { out := [], fails := [] }).map (·.2.2.out) =
    some (ascii "HTTP/1.1 200 OK\r\nTransfer-Encoding: chunked\r\nTransfer-Encoding: chunked\r\nServer: sps\r\n\r\n0\r\n\r\n") := by decide +kernel

/-- **C45**, when writing the header fails, the next write sends a body without header. -/
theorem C45_negation_failed : (HttpRsp.writes (fun _ => ascii "OK") [ascii "a", ascii "b"] { cl := 1 } { out := [], fails := [5] }).2.2.out = ascii "b" := by decide +kernel

example : (HttpRsp.writes (fun _ => ascii "Not Found") [ascii "a", [], ascii "b"] { status := 404, cl := 2, headers := [(ascii "X", ascii "1"), (ascii "Content-Length", ascii "9")] } { out := [], fails := [] }).2.2.out =
    ascii "HTTP/1.1 404 Not Found\r\nContent-Length: 2\r\nX: 1\r\nServer: sps\r\n\r\nab" := by decide +kernel

/-! ## C46: header lookup -/

/-- **C46.** Lookup gives the value of the first field with that name, or nothing; erasing removes exactly that field. -/
theorem C46_first (u : Url) (k : Text) :
    (∀ a v c, u.headers = a ++ (k, v) :: c → (∀ h ∈ a, h.1 ≠ k) → u.getHeader k = v ∧ (u.eraseHeader k) = { u with headers := a ++ c }) ∧
    ((∀ h ∈ u.headers, h.1 ≠ k) → u.getHeader k = [] ∧ u.eraseHeader k = u) := by
  unfold Url.getHeader Url.eraseHeader
  refine ⟨fun a v c h ha => ?_, fun h => ?_⟩
  · rw [h]; exact ⟨Url.lookup_first k v c a ha, by rw [Url.erase_first k v c a ha]⟩
  · exact ⟨Url.lookup_none k _ h, by rw [Url.erase_none k _ h]⟩

/-- **C46**, what follows from it: chunked, and the length. -/
theorem C46_derived (u : Url) :
    (u.isChunked = true ↔ u.getHeader (ascii "Transfer-Encoding") = ascii "chunked") ∧
    (u.getHeader (ascii "Content-Length") = [] → u.contentLength = -1) ∧
    (∀ n, u.getHeader (ascii "Content-Length") ≠ [] → decValue 0 (u.getHeader (ascii "Content-Length")) = some n → n < 2 ^ 31 → u.contentLength = n) := by
  refine ⟨by simp [Url.isChunked], fun h => by simp [Url.contentLength, h], fun n h1 h2 h3 => ?_⟩
  unfold Url.contentLength
  simp only
  rw [if_neg h1, Text.atoi_dec h1 h2 h3]

/-- **C46**, names are compared as they are, though HTTP does not distinguish case. -/
theorem C46_case : ({ headers := [(ascii "content-length", ascii "5"), (ascii "transfer-encoding", ascii "chunked")] } : Url).contentLength = -1 ∧
    ({ headers := [(ascii "content-length", ascii "5"), (ascii "transfer-encoding", ascii "chunked")] } : Url).isChunked = false := by decide +kernel

example : ({ headers := [(ascii "A", ascii "1"), (ascii "Content-Length", ascii "120"), (ascii "A", ascii "2")] } : Url).contentLength = 120 ∧
    ({ headers := [(ascii "A", ascii "1"), (ascii "Content-Length", ascii "120"), (ascii "A", ascii "2")] } : Url).getHeader (ascii "A") = ascii "1" ∧
    (({ headers := [(ascii "A", ascii "1"), (ascii "Content-Length", ascii "120"), (ascii "A", ascii "2")] } : Url).eraseHeader (ascii "A")).headers =
      [(ascii "Content-Length", ascii "120"), (ascii "A", ascii "2")] := by decide +kernel

/-! ## C47: the proxy -/

/-- The response header the proxy writes for an upstream header. -/
def proxyHead (reason : Int → Text) (h : HttpHeadIn) : List UInt8 := ({ status := h.status, cl := h.cl, chunked := h.chunked, headers := h.headers } : HttpRsp).headText reason

theorem respond_eq (reason : Int → Text) (h : HttpHeadIn) (io : Io) (fuel : Nat) :
    HttpProxy.respond reason fuel h io { out := [], fails := [] } =
      (HttpProxy.relay reason fuel { chunked := h.chunked, cl := h.cl } io { status := h.status, sent := true, cl := h.cl, chunked := h.chunked, headers := h.headers }
        { out := proxyHead reason h, fails := [] }).map fun (x, io, s) =>
      (match x with
        | .inl e => .error e
        | .inr e => if e = Err.ERROR_HTTP_RES_EOF ∨ e = Err.SUCCESS then .ok () else .error e, io, s) := rfl

/-- **C47**, chunked: whatever chunks the upstream used and however they arrived, the handler succeeds, takes exactly the upstream's
body, and writes a header and a body from which any client reads the same content. -/
theorem C47_chunked (reason : Int → Text) (h : HttpHeadIn) (hc : h.chunked = true) (cs : List (List UInt8 × List UInt8)) (z t : List UInt8) (hok : codedOk cs z)
    (io : Io) (cl : Err) (ha : Arrives io (coded cs z ++ t) cl) (fuel : Nat) (hf : (content cs).length + 2 ≤ fuel) :
    ∃ io' body, HttpProxy.respond reason fuel h io { out := [], fails := [] } = some (.ok (), io', { out := proxyHead reason h ++ body, fails := [] }) ∧
      Arrives io' t cl ∧
      ∀ side ns io2 t2 cl2, (∀ n ∈ ns, 0 < n) → Arrives io2 (body ++ t2) cl2 →
        ∃ e out b io3, HttpBody.session side ns { chunked := true, cl := h.cl } io2 = some (e, out, b, io3) ∧ out <+: content cs ∧
          (e = Err.SUCCESS ∨ e = Err.ERROR_HTTP_RES_EOF ∧ out = content cs ∧ Arrives io3 t2 cl2) ∧ ((content cs).length + 2 ≤ ns.length → e = Err.ERROR_HTTP_RES_EOF) := by
  have hp : HttpBody.Pending { chunked := true, cl := h.cl } io (content cs) t cl [] cs z := ⟨rfl, rfl, rfl, rfl, fun h => absurd rfl h, by decide, by simpa using ha, hok⟩
  obtain ⟨io', ds, k1, k2, k3, k4⟩ := HttpProxy.relay_chunked reason fuel _ io _ _ cs
    { status := h.status, sent := true, cl := h.cl, chunked := true, headers := h.headers } { out := proxyHead reason h, fails := [] } hp rfl rfl rfl hf
  refine ⟨io', coded (HttpRsp.hexed ds) (Text.hex 0), ?_, k4, ?_⟩
  · rw [respond_eq, hc, k1]
    rfl
  · intro side ns io2 t2 cl2 hn ha2
    obtain ⟨e, out, b, io3, g1, g2, g3, g4⟩ := C43_read side h.cl (HttpRsp.hexed ds) (Text.hex 0)
      (HttpRsp.hexed_ok ds fun d hd => ⟨(k3 d hd).1, Nat.lt_of_le_of_lt (k3 d hd).2 (by decide)⟩) t2 io2 cl2 ha2 ns hn
    rw [HttpRsp.hexed_content, k2] at g2 g3 g4
    exact ⟨e, out, b, io3, g1, g2, g3, g4⟩

/-- **C47**, with a length: exactly the announced body follows the header. -/
theorem C47_length (reason : Int → Text) (h : HttpHeadIn) (hc : h.chunked = false) (body t : List UInt8) (h0 : body ≠ []) (hl : body.length < 2 ^ 31) (hcl : h.cl = body.length)
    (io : Io) (cl : Err) (ha : Arrives io (body ++ t) cl) (fuel : Nat) (hf : body.length + 1 ≤ fuel) :
    ∃ io', HttpProxy.respond reason fuel h io { out := [], fails := [] } = some (.ok (), io', { out := proxyHead reason h ++ body, fails := [] }) ∧ Arrives io' t cl := by
  obtain ⟨io', k1, k2⟩ := HttpProxy.relay_length reason hl fuel { chunked := false, cl := h.cl } io body
    { status := h.status, sent := true, cl := h.cl, chunked := false, headers := h.headers } { out := proxyHead reason h, fails := [] } rfl hcl (by simpa using h0) (by simp) ha rfl rfl rfl hf
  refine ⟨io', ?_, k2⟩
  rw [respond_eq, hc, k1]
  rfl

/-- **C47**, neither: everything the upstream sends until it closes follows the header (the handler then reports the closing as its
error). -/
theorem C47_unlimited (reason : Int → Text) (h : HttpHeadIn) (hc : h.chunked = false) (hcl : h.cl < 0) (body : List UInt8)
    (io : Io) (cl : Err) (ha : Arrives io body cl) (fuel : Nat) (hf : body.length + 1 ≤ fuel) :
    ∃ io' res, HttpProxy.respond reason fuel h io { out := [], fails := [] } = some (res, io', { out := proxyHead reason h ++ body, fails := [] }) ∧
      (cl ≠ Err.ERROR_HTTP_RES_EOF → res = .error cl) := by
  obtain ⟨io', k1⟩ := HttpProxy.relay_unlimited reason fuel { chunked := false, cl := h.cl } io body
    { status := h.status, sent := true, cl := h.cl, chunked := false, headers := h.headers } { out := proxyHead reason h, fails := [] } rfl hcl rfl ha rfl rfl rfl hf
  refine ⟨io', if cl = Err.ERROR_HTTP_RES_EOF ∨ cl = Err.SUCCESS then .ok () else .error cl, ?_, fun hne => if_neg (by rintro (h | h); exacts [hne h, arrives_ne ha h])⟩
  rw [respond_eq, hc, k1]
  rfl

/-- **C47**, an empty body with length 0: only the header (and the handler reports an error). -/
theorem C47_empty (reason : Int → Text) (h : HttpHeadIn) (hc : h.chunked = false) (hcl : h.cl = 0) (io : Io) (fuel : Nat) (hf : 0 < fuel) :
    HttpProxy.respond reason fuel h io { out := [], fails := [] } = some (.error Err.ERROR_IO_BUFFER_FULL, io, { out := proxyHead reason h, fails := [] }) := by
  match fuel, hf with
  | fuel + 1, _ =>
    rw [respond_eq]
    unfold HttpProxy.relay
    rw [hc, hcl, C44_negation_zero, Option.bind_some]
    simp only
    rw [if_pos (by decide)]
    rfl

example : (HttpProxy.respond (fun _ => ascii "OK") 20 { status := 200, cl := -1, chunked := true, headers := [(ascii "X", ascii "1")] }
      { evs := [.data (ascii "3\r\nab"), .data (ascii "c\r\n2;x\r\nde\r\n0\r\n\r\n")], closed := 1 } { out := [], fails := [] }) =
    some (.ok (), { evs := [], closed := 1 }, { out := ascii "HTTP/1.1 200 OK\r\nTransfer-Encoding: chunked\r\nX: 1\r\nServer: sps\r\n\r\n3\r\nabc\r\n2\r\nde\r\n0\r\n\r\n", fails := [] }) := by
  decide +kernel

/-! ## C69: the proxied request -/

/-- **C69.** The request sent upstream has the client's method and URL in its first line, the host, and all fields of the client but
`Host`, in order. Missing: the body, and the two lines that follow (see below). -/
theorem C69_request_partial (u : Url) :
    ∃ rest, HttpClient.openText u = u.method ++ ascii " " ++ u.url ++ ascii " HTTP/1.1" ++ crlf ++ fieldLine (ascii "Host", u.host) ++
      (u.headers.filter fun h => h.1 != ascii "Host").flatMap fieldLine ++ rest := by
  refine ⟨ascii "Accept: */" ++ crlf ++ ascii "Content-Length: " ++ Text.dec 0 ++ crlf ++ crlf, ?_⟩
  have e1 : Text.crlf = crlf := rfl
  have e2 : (HttpRsp.headerLine : Header → Text) = fieldLine := rfl
  have e3 : ascii "Host: " = ascii "Host" ++ ascii ": " := by decide +kernel
  unfold HttpClient.openText HttpClient.request
  rw [e1, e2, e3]
  simp only [fieldLine, List.append_assoc, List.length_nil]

/-- **C69**, the client's body is announced but not sent, and a second `Content-Length` (and a mutilated `Accept`) added. -/
theorem C69_negation_body : HttpClient.openText { method := ascii "POST", url := ascii "/a", host := ascii "h", headers := [(ascii "Host", ascii "h"), (ascii "Content-Length", ascii "5")] } =
    ascii "POST /a HTTP/1.1\r\nHost: h\r\nContent-Length: 5\r\nAccept: */\r\nContent-Length: 0\r\n\r\n" := by decide +kernel

/-! ## C70: URLs -/

/-- The usual port of a scheme. -/
def usualPort : List (List UInt8 × Int) := [(ascii "http", 80), (ascii "https", 443), (ascii "rtmp", 1935)]

/-- **C70.** For every URL that is not `file:`, parsed into a new object: scheme, host and path are the parts of the URL, the port
that given or else the usual one of the scheme (0 if there is none), and the request target is path and query joined as they
were.

Missing: URLs with `file:` (`C70_negation_file`). -/
theorem C70_parts_partial (url : Text) (f : UrlFields) (hs : f.schema ≠ some (ascii "file")) :
    ∃ r, Url.parse {} url f = some r ∧ r.schema = f.schema.getD [] ∧ r.host = f.host.getD [] ∧ r.path = f.path.getD [] ∧ r.params = f.query.getD [] ∧
      (∀ p : Nat, f.port = some p → r.port = p) ∧
      (f.port = none → ∀ s p, (s, p) ∈ usualPort → f.schema = some s → r.port = p) ∧
      (f.port = none → (∀ x ∈ usualPort, f.schema ≠ some x.1) → r.port = 0) ∧
      (f.query.getD [] = [] → r.url = f.path.getD []) ∧ (∀ q, f.query = some q → q ≠ [] → r.url = f.path.getD [] ++ ascii "?" ++ q) ∧
      r.method = ascii "GET" := by
  have hns : f.schema.getD [] ≠ ascii "file" := by
    cases hq : f.schema with
    | none => decide +kernel
    | some s => intro h; exact hs (by rw [hq]; exact congrArg some h)
  unfold Url.parse
  simp only
  rw [if_neg hns]
  refine ⟨_, rfl, rfl, rfl, rfl, rfl, ?_, ?_, ?_, ?_, ?_, rfl⟩
  · intro p hp; simp only [hp]
  · intro hp s p hm hq
    simp only [hp, hq, Option.getD_some]
    simp only [usualPort, List.mem_cons, List.not_mem_nil, or_false, Prod.mk.injEq] at hm
    rcases hm with ⟨rfl, rfl⟩ | ⟨rfl, rfl⟩ | ⟨rfl, rfl⟩ <;> decide +kernel
  · intro hp hx
    simp only [hp]
    have h1 := hx (ascii "http", 80) (by simp [usualPort])
    have h2 := hx (ascii "https", 443) (by simp [usualPort])
    have h3 := hx (ascii "rtmp", 1935) (by simp [usualPort])
    unfold Url.defaultPort
    cases hq : f.schema with
    | none => decide +kernel
    | some s =>
      rw [hq] at h1 h2 h3
      simp only [ne_eq, Option.some.injEq] at h1 h2 h3
      rw [Option.getD_some, if_neg h1, if_neg h2, if_neg h3]
  · intro hq
    simp only [hq, if_pos, List.append_nil]
  · intro q hq hne
    simp only [hq, Option.getD_some, if_neg hne]
    rw [show ascii "?" = [63] from by decide +kernel]
    simp

/-- **C70**, the extension: what is behind the last dot of the path. -/
theorem C70_ext (url : Text) (f : UrlFields) (r : Url) (hp : Url.parse {} url f = some r) :
    (∀ a e, f.path = some (a ++ 46 :: e) → 46 ∉ e → r.ext = e) ∧ (46 ∉ f.path.getD [] → r.ext = []) := by
  have hr : r.ext = (Text.afterLast 46 (f.path.getD [])).getD [] := by
    unfold Url.parse at hp
    simp only at hp
    split at hp
    · split at hp
      · cases hp
      · cases hp; rfl
    · cases hp; rfl
  rw [hr]
  exact ⟨fun a e h he => by rw [h, Option.getD_some, Text.afterLast_at 46 a e he]; rfl, fun h => by rw [Text.afterLast_none 46 _ h]; rfl⟩

/-- **C70**, `file:` URLs: the name of the file loses its first character, so an absolute path becomes a relative one. -/
theorem C70_negation_file (p : List UInt8) (f : UrlFields) (hs : f.schema = some (ascii "file")) (c : UInt8) :
    (Url.parse {} (ascii "file://" ++ c :: p) f).map (·.url) = some p := by
  have e : ascii "file://" = [102, 105, 108, 101, 58, 47, 47] := by decide +kernel
  unfold Url.parse
  rw [hs, e]
  simp

example : Url.parse {} (ascii "rtmp://h:99/live/a.b.flv?x=1") { schema := some (ascii "rtmp"), host := some (ascii "h"), port := some 99, path := some (ascii "/live/a.b.flv"), query := some (ascii "x=1") } =
    some { url := ascii "/live/a.b.flv?x=1", method := ascii "GET", schema := ascii "rtmp", port := 99, host := ascii "h", path := ascii "/live/a.b.flv", ext := ascii "flv", params := ascii "x=1", pp := [(ascii "x", ascii "1")] } ∧
    (Url.parse {} (ascii "file:///tmp/a.flv") { schema := some (ascii "file"), path := some (ascii "/tmp/a.flv") }).map (·.url) = some (ascii "tmp/a.flv") := by decide +kernel

end Sps
