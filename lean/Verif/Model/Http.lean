import Verif.Model.Url
import Verif.Model.Bytes
import Verif.Model.Flv
/-!
# Model of HTTP: header reader, body readers, response writer, proxy

`/repo/src/module/http/sps_http_parser.cpp`, `sps_http_socket.cpp`, `sps_http_proxy_phase_handler.cpp`,
`/repo/src/io/url/sps_io_url_http.cpp`, `/repo/src/io/sps_io_socket.cpp`.

`http_parser` is not part of the repository: the model of the header reader ends with the bytes given to it, that of the clients
starts with the status, length and header list it found.
-/
namespace Sps

namespace Io

/-- `Socket::read_fully`, `sps_io_socket.cpp:79-94`, with the bytes read so far. A pass without progress is possible only on a
transport that breaks the contract of `read`; `none` is a loop without end. -/
def readFully : (fuel : Nat) → Io → (size : Nat) → (got : List UInt8) → Option (Err × List UInt8 × Io)
  | 0, _, _, _ => none
  | fuel + 1, io, size, got =>
    match io.read (subSz size got.length) with
    | (.err e, io) => some (e, got, io)
    | (.ok d, io) =>
      if got.length + d.length < size then readFully fuel io size (got ++ d) else some (Err.SUCCESS, got ++ d, io)

/-- A call of `read_fully`. -/
def full (io : Io) (size : Nat) : Option (Err × List UInt8 × Io) := readFully (size + 1) io size []

end Io

namespace HttpHead

/-- The next `state` after a read, by the bytes at the end of the buffer (last first), `sps_http_parser.cpp:151-171`; `none` is
`break`. The assignment `state = 4` in line 163 is without effect: what follows assigns again or leaves the loop. -/
def next (c0 c1 c2 c3 : UInt8) : Option Nat :=
  if c0 ≠ 10 ∧ c0 ≠ 13 then some 4
  else if c0 = 13 then
    if c1 = 10 ∧ c2 = 13 then some 1 else some 3
  else if c2 ≠ 10 ∧ c3 ≠ 13 then some 2 else none

/-- The loop of `HttpParser::parse_header(io, ht)`, `sps_http_parser.cpp:137-172`, with the bytes read so far (`buf`,
`buf_read`). `.ok` are the bytes given to `http_parser`; `.error` the (negative) result. -/
def read (max : Nat) : (fuel : Nat) → (state : Nat) → (buf : List UInt8) → Io → Option (Except Int (List UInt8) × Io)
  | 0, _, _, _ => none
  | fuel + 1, state, buf, io =>
    if (state : Int) > (max : Int) - (buf.length : Int) then some (.error (-1), io)
    else
      (io.full state).bind fun (e, d, io) =>
        if e ≠ Err.SUCCESS then some (.error (-(e : Int)), io)
        else
          let buf := buf ++ d
          match buf.reverse with
          | c0 :: c1 :: c2 :: c3 :: _ =>
            match next c0 c1 c2 c3 with
            | none => some (.ok buf, io)
            | some state => read max fuel state buf io
          | _ => none

/-- `HttpParser::parse_header(io, ht)` of a new parser (`max_header` is 2048), `sps_http_parser.cpp:125-181`. -/
def parse (max : Nat) (io : Io) : Option (Except Int (List UInt8) × Io) := read max (max + 1) 4 [] io

/-- A call `http_parser` makes back, `sps_http_parser.cpp:233-253`. -/
inductive Call
  | field (t : Text)
  | value (t : Text)
deriving DecidableEq, Repr

/-- `on_header_field` and `on_header_value`, `sps_http_parser.cpp:233-253`: `key` is `head.key`. -/
def calls : (key : Text) → List Call → List Header
  | _, [] => []
  | _, .field t :: r => calls t r
  | key, .value t :: r => (key, t) :: calls key r

end HttpHead

/-- The body readers: `HttpRequestSocket` (`sps_http_socket.hpp:51-57`) and `HttpUrlProtocol` (`sps_io_url_http.hpp:57-64`).
`cl` is the `int` `content_length`. -/
structure HttpBody where
  chunked : Bool
  cl : Int
  nread : Nat := 0
  size : Nat := 0      -- `nb_chunked_size`
  left : Nat := 0      -- `nb_chunked_left`
  eof : Bool := false
deriving DecidableEq, Repr

/-- Which of the two. -/
inductive HttpSide
  | server   -- `HttpRequestSocket`
  | client   -- `HttpUrlProtocol`
deriving DecidableEq, Repr

namespace HttpBody

/-- The loop of `read_chunked_length`, `sps_http_socket.cpp:100-108`, `sps_io_url_http.cpp:150-158`: at most 33 bytes, up to and
including the first line feed. -/
def line : (fuel : Nat) → Io → (got : List UInt8) → Option (Err × List UInt8 × Io)
  | 0, _, _ => none
  | fuel + 1, io, got =>
    match io.read 1 with
    | (.err e, io) => some (e, got, io)
    | (.ok d, io) =>
      if d.getLast? ≠ some 10 ∧ got.length + 1 < 33 then line fuel io (got ++ d) else some (Err.SUCCESS, got ++ d, io)

/-- `read_chunked_length`, `sps_http_socket.cpp:95-125`, `sps_io_url_http.cpp:145-175`. -/
def readLength (b : HttpBody) (io : Io) : Option (Err × HttpBody × Io) :=
  (line 34 io []).bind fun (e, l, io) =>
    if e ≠ Err.SUCCESS then some (e, b, io)
    else if l.getLast? ≠ some 10 then some (Err.ERROR_HTTP_CHUNKED_LENGTH_LARGE, b, io)
    else if l.length < 2 ∨ l.dropLast.getLast? ≠ some 13 then some (Err.ERROR_HTTP_CHUNKED_INVALID, b, io)
    else
      let n := Text.strtoul16 l.dropLast.dropLast
      some (Err.SUCCESS, { b with left := n, size := n }, io)

/-- The end of `read_chunked_data`, `sps_http_socket.cpp:141-154`, `sps_io_url_http.cpp:190-203`, after the data `d` was read with
result `ret`. -/
def tail (b : HttpBody) (ret : Err) (d : List UInt8) (io : Io) : Option (Err × List UInt8 × HttpBody × Io) :=
  (if ret = Err.SUCCESS ∧ b.left = 0 then
    (io.full 2).map fun (e, t, io) => (if e = Err.SUCCESS ∧ t ≠ [13, 10] then Err.ERROR_HTTP_CHUNKED_INVALID else e, io)
  else some (ret, io)).map fun (ret, io) =>
    (ret, d, if ret = Err.SUCCESS ∧ b.size = 0 then { b with eof := true } else b, io)

/-- `read_chunked_data`, `sps_http_socket.cpp:127-155` (server), `sps_io_url_http.cpp:177-204` (client: `nread` is the size asked
for, also when the read fails). -/
def readData (side : HttpSide) (b : HttpBody) (size : Nat) (io : Io) : Option (Err × List UInt8 × HttpBody × Io) :=
  let n := min b.left size
  match side with
  | .server =>
    if b.size ≠ 0 then
      match io.read n with
      | (.ok d, io) => tail { b with left := subSz b.left d.length } Err.SUCCESS d io
      | (.err e, io) => tail b e [] io
    else tail b Err.SUCCESS [] io
  | .client =>
    if n ≠ 0 then (io.full n).bind fun (e, d, io) => tail { b with left := subSz b.left n } e d io
    else tail b Err.SUCCESS [] io

/-- `read_chunked`, `sps_http_socket.cpp:77-93`, `sps_io_url_http.cpp:127-143`. -/
def readChunked (side : HttpSide) (b : HttpBody) (size : Nat) (io : Io) : Option (Err × List UInt8 × HttpBody × Io) :=
  (if b.left = 0 then b.readLength io else some (Err.SUCCESS, b, io)).bind fun (e, b, io) =>
    if e ≠ Err.SUCCESS then some (e, [], b, io) else readData side b size io

/-- `read`, `sps_http_socket.cpp:45-71`, `sps_io_url_http.cpp:99-125`: the bytes put into the buffer (with an error: some of
them may be there). -/
def read (side : HttpSide) (b : HttpBody) (size : Nat) (io : Io) : Option (Err × List UInt8 × HttpBody × Io) :=
  if b.eof then some (Err.ERROR_HTTP_RES_EOF, [], b, io)
  else if b.chunked then readChunked side b size io
  else
    let size := if 0 ≤ b.cl then min (subSz b.cl.toNat b.nread) size else size
    match io.read size with
    | (.err e, io) => some (e, [], b, io)
    | (.ok d, io) =>
      let nread := b.nread + d.length
      some (Err.SUCCESS, d, { b with nread := nread, eof := if 0 ≤ b.cl then decide (b.cl.toNat ≤ nread) else b.eof }, io)

/-- A caller that reads with buffers of the given sizes until the first error, with what it got. -/
def session (side : HttpSide) : (sizes : List Nat) → HttpBody → Io → Option (Err × List UInt8 × HttpBody × Io)
  | [], b, io => some (Err.SUCCESS, [], b, io)
  | n :: ns, b, io =>
    (b.read side n io).bind fun (e, d, b, io) =>
      if e ≠ Err.SUCCESS then some (e, [], b, io)
      else (session side ns b io).map fun (e, ds, b, io) => (e, d ++ ds, b, io)

end HttpBody

/-- `HttpResponseSocket`, `sps_http_socket.hpp:70-76`. -/
structure HttpRsp where
  status : Int := 200
  sent : Bool := false
  cl : Int := 0
  chunked : Bool := false
  headers : List Header := []
deriving DecidableEq, Repr

namespace HttpRsp

/-- `HttpResponseSocket::init`, `sps_http_socket.cpp:163-173`. -/
def init (r : HttpRsp) (status : Int) (hd : Option (List Header)) (cl : Int) (chunked : Bool) : HttpRsp :=
  { r with status := status, cl := cl, chunked := chunked, sent := false, headers := hd.getD r.headers }

/-- One header line, `sps_http_socket.cpp:198`. -/
def headerLine (h : Header) : Text := h.1 ++ ascii ": " ++ h.2 ++ Text.crlf

/-- The framing line, `sps_http_socket.cpp:183-188`. -/
def framing (r : HttpRsp) : Text :=
  if r.chunked then ascii "Transfer-Encoding: chunked" ++ Text.crlf
  else if 0 ≤ r.cl then ascii "Content-Length: " ++ Text.decInt r.cl ++ Text.crlf
  else []

/-- The header text, `sps_http_socket.cpp:180-206`; `reason` is `http_status_str` of `http_parser`. -/
def headText (reason : Int → Text) (r : HttpRsp) : Text :=
  let contentSent := !r.chunked && decide (0 ≤ r.cl)
  ascii "HTTP/1.1 " ++ Text.decInt r.status ++ ascii " " ++ reason r.status ++ Text.crlf ++ r.framing ++
  (r.headers.filter fun h => !(h.1 == ascii "Content-Length" && contentSent)).flatMap headerLine ++
  (if r.headers.any (fun h => h.1 == ascii "Server") then [] else ascii "Server: sps" ++ Text.crlf) ++ Text.crlf

/-- `HttpResponseSocket::write_header`, `sps_http_socket.cpp:175-215`. -/
def writeHeader (reason : Int → Text) (r : HttpRsp) (s : Sink) : Err × HttpRsp × Sink :=
  let (e, s) := s.write (r.headText reason)
  (e, { r with sent := true }, s)

/-- The rest of `HttpResponseSocket::write` after the header, `sps_http_socket.cpp:225-257`. -/
def writeBody (chunked : Bool) (d : List UInt8) (s : Sink) : Err × Sink :=
  let (e, s) := if chunked then s.write (Text.hex d.length ++ Text.crlf) else (Err.SUCCESS, s)
  if e ≠ Err.SUCCESS then (e, s)
  else
    let (e, s) := if d.length > 0 then s.write d else (Err.SUCCESS, s)
    if e ≠ Err.SUCCESS then (e, s)
    else if chunked then s.write Text.crlf else (e, s)

/-- `HttpResponseSocket::write`, `sps_http_socket.cpp:217-258`. -/
def write (reason : Int → Text) (r : HttpRsp) (d : List UInt8) (s : Sink) : Err × HttpRsp × Sink :=
  let (e, r, s) := if r.sent then (Err.SUCCESS, r, s) else r.writeHeader reason s
  if e ≠ Err.SUCCESS then (e, r, s)
  else
    let (e, s) := writeBody r.chunked d s
    (e, r, s)

/-- A history of writes: the results, and what was written. -/
def writes (reason : Int → Text) : List (List UInt8) → HttpRsp → Sink → List Err × HttpRsp × Sink
  | [], r, s => ([], r, s)
  | d :: ds, r, s =>
    let (e, r, s) := r.write reason d s
    let (es, r, s) := writes reason ds r s
    (e :: es, r, s)

end HttpRsp

namespace HttpClient

/-- `http_request`, `sps_io_url_http.cpp:38-56`; the data is only counted. -/
def request (method url host data : Text) (headers : List Header) : Text :=
  method ++ ascii " " ++ url ++ ascii " HTTP/1.1" ++ Text.crlf ++ ascii "Host: " ++ host ++ Text.crlf ++
  (headers.filter fun h => h.1 != ascii "Host").flatMap HttpRsp.headerLine ++
  ascii "Accept: */" ++ Text.crlf ++ ascii "Content-Length: " ++ Text.dec data.length ++ Text.crlf ++ Text.crlf

/-- What `HttpUrlProtocol::open` writes, `sps_io_url_http.cpp:73-74`. -/
def openText (u : Url) : Text := request u.method u.url u.host [] u.headers

end HttpClient

/-- The result of `http_parser` on a response header, `sps_http_parser.cpp:96-109`. -/
structure HttpHeadIn where
  status : Int
  cl : Int
  chunked : Bool
  headers : List Header
deriving DecidableEq, Repr

namespace HttpProxy

/-- The loop of `HttpProxyPhaseHandler::handler`, `sps_http_proxy_phase_handler.cpp:84-90`. One unit of fuel per pass. `.inl` is the
`return ret` of a failed write, `.inr` the result of the last read. -/
def relay (reason : Int → Text) : (fuel : Nat) → HttpBody → Io → HttpRsp → Sink → Option ((Err ⊕ Err) × Io × Sink)
  | 0, _, _, _, _ => none
  | fuel + 1, b, io, r, s =>
    (b.read .client 1024 io).bind fun (e, d, b, io) =>
      if e ≠ Err.SUCCESS then some (.inr e, io, s)
      else
        let (e, r, s) := r.write reason d s
        if e ≠ Err.SUCCESS then some (.inl e, io, s) else relay reason fuel b io r s

/-- `HttpProxyPhaseHandler::handler` from the response header on, `sps_http_proxy_phase_handler.cpp:68-96`. The `sock` in between
(`HttpRequestSocket`) passes writes on. `Except.ok ()` is `SPS_PHASE_SUCCESS_NO_CONTINUE`. -/
def respond (reason : Int → Text) (fuel : Nat) (h : HttpHeadIn) (io : Io) (s : Sink) : Option (Except Err Unit × Io × Sink) :=
  let r := HttpRsp.init {} h.status (some h.headers) h.cl h.chunked
  let (e, r, s) := r.writeHeader reason s
  if e ≠ Err.SUCCESS then some (.error e, io, s)
  else
    (relay reason fuel { chunked := h.chunked, cl := h.cl } io r s).map fun (x, io, s) =>
      (match x with
        | .inl e => .error e
        | .inr e => if e = Err.ERROR_HTTP_RES_EOF ∨ e = Err.SUCCESS then .ok () else .error e, io, s)

end HttpProxy
end Sps
