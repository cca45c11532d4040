import Verif.Model.RProg
import Verif.Model.Http
/-!
# Demuxers over other readers than a socket

A demuxer's `BytesReader` reads from an `IReader` (`/repo/src/io/sps_io.hpp:43-68`). For a stream uploaded over HTTP that is the request
body (`HttpRequestSocket`, `sps_http_stream_phase_handler.cpp:41-48`), for a pull over HTTP the response body (`HttpUrlProtocol`,
`sps_stream_edge.cpp:51-72`). Unlike a socket these may return zero bytes successfully: the last chunk does.
-/
namespace Sps

/-- An `IReader`: `read s n` is the result of a read into a buffer of `n` bytes and the state after it; `none` is undefined behaviour. -/
class Source (σ : Type) where
  read : σ → Nat → Option (ReadRes × σ)

/-- A socket. -/
instance : Source Io := ⟨fun io n => some (io.read n)⟩

/-- An HTTP body with the connection it is read from. -/
structure HttpSrc where
  side : HttpSide
  body : HttpBody
  io : Io
deriving DecidableEq, Repr

/-- `HttpRequestSocket::read`, `sps_http_socket.cpp:45-71`, and `HttpUrlProtocol::read`, `sps_io_url_http.cpp:99-125`, seen by a caller
that does not look at the buffer after an error. -/
def HttpSrc.read (s : HttpSrc) (n : Nat) : Option (ReadRes × HttpSrc) :=
  (s.body.read s.side n s.io).map fun (e, d, b, io) => (if e = Err.SUCCESS then .ok d else .err e, { s with body := b, io := io })

instance : Source HttpSrc := ⟨HttpSrc.read⟩

/-- A `BytesReader` (`sps_io_bytes.hpp:89-121`) over a source. -/
structure SReader (σ : Type) where
  buf : AVBuf
  src : σ
deriving DecidableEq, Repr

namespace SReader
variable {σ α : Type}

/-- With a fresh rewindable buffer, as `Reader.onIo`. -/
def on (mem0 : List UInt8) (s : σ) : SReader σ := ⟨AVBuf.ofCap mem0 true, s⟩

/-- What only concerns the buffer is as in `Reader`. -/
def lift (f : Reader → Option (α × Reader)) (r : SReader σ) : Option (α × SReader σ) :=
  (f ⟨r.buf, none⟩).map fun (a, r') => (a, ⟨r'.buf, r.src⟩)

/-- The loop of `BytesReader::acquire`, `sps_io_bytes.cpp:183-196`. `none` when the passes given do not suffice. -/
def acquireLoop [Source σ] : (fuel : Nat) → SReader σ → (n : Nat) → Option (Err × SReader σ)
  | 0, _, _ => none
  | fuel + 1, r, n =>
    (Source.read r.src r.buf.remain).bind fun (x, s) =>
      match x with
      | .err e => some (e, { r with src := s })
      | .ok d => (r.buf.poke r.buf.fin d).bind fun b =>
        let r : SReader σ := ⟨b.append d.length, s⟩
        if r.buf.size < n then acquireLoop fuel r n else some (Err.SUCCESS, r)

/-- `BytesReader::acquire`, `sps_io_bytes.cpp:164-200`. Every pass but one adds at least a byte (an HTTP body is read successfully without a
byte at most once, `Lemmas/Source.lean`), so `n + 1` passes suffice. -/
def acquire [Source σ] (r : SReader σ) (n : Nat) : Option (Err × SReader σ) :=
  if r.buf.size ≥ n then some (Err.SUCCESS, r)
  else if r.buf.capSize < n then some (Err.ERROR_IO_BUFFER_FULL, r)
  else
    (if r.buf.noRewindCap < n then r.buf.rewind else some r.buf).bind fun b =>
      if b.noRewindCap ≥ n then acquireLoop (n + 1) { r with buf := b } n else none

end SReader

/-- Run on a reader over a source; `none` is undefined behaviour, or an access outside the buffer memory. -/
def RProg.runOn {σ α : Type} [Source σ] : RProg α → SReader σ → Option (α × SReader σ)
  | ret a, r => some (a, r)
  | acquire n k, r => (r.acquire n).bind fun (e, r) => (k e).runOn r
  | int8 k, r => (r.lift Reader.int8).bind fun (v, r) => (k v).runOn r
  | bytes n k, r => (r.lift (·.bytes n)).bind fun (d, r) => (k d).runOn r
  | skip n k, r => k.runOn { r with buf := r.buf.skip n }
  | size k, r => (k r.buf.size).runOn r

end Sps
