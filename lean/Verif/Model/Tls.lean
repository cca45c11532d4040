import Verif.Model.Source
import Verif.Model.Flv
import Verif.Model.Server
/-!
# TLS sockets

`StSSLSocket` and `StSSLServerSocket`, `/repo/src/sys/st/io/sps_sys_st_io_ssl.cpp`. OpenSSL itself is not part of the repository. It is modelled by what the code
sees of it: a handshake is a list of flights to receive and to send, and the record layer is a function from the bytes received to the bytes
they carry.
-/
namespace Sps

/-- What OpenSSL does in a handshake: receive `n` bytes, send bytes, or fail. -/
inductive Hs
  | recv (n : Nat)
  | send (b : List UInt8)
  | bad
deriving DecidableEq, Repr

/-- The record layer: the data carried by a prefix of what the peer sent; whether that prefix ends the connection (a closing alert, a bad
record); and how many bytes `SSL_read` returns of the `avail` bytes decoded, into a buffer of `size`. -/
structure Records where
  plain : List UInt8 → List UInt8
  ended : List UInt8 → Bool
  cut : List UInt8 → (avail size : Nat) → Nat

/-- `StSSLSocket`, `/repo/src/sys/st/io/sps_sys_st_io_ssl.hpp:72-122`: the memory buffers `rbio`, `wbio`; the rest of the handshake; the bytes the record
layer has taken from `rbio`, and how many of the decoded bytes were returned; the transport below (`io`), for reading and for writing. -/
structure Tls where
  script : List Hs
  rbio : List UInt8
  wbio : List UInt8
  raw : List UInt8
  taken : Nat
  io : Io
  snk : Sink
deriving DecidableEq, Repr

namespace Tls

/-- A new socket, `sps_sys_st_io_ssl.cpp:74-93`. -/
def new (script : List Hs) (io : Io) (snk : Sink) : Tls := ⟨script, [], [], [], 0, io, snk⟩

/-! ## Handshake -/

/-- `SSL_do_handshake` as `do_handshake`, `sps_sys_st_io_ssl.cpp:346-362`, sees it: it goes on as far as the bytes in `rbio` allow. -/
def advance : List Hs → (rbio wbio : List UInt8) → Err × List Hs × List UInt8 × List UInt8
  | [], r, w => (Err.SUCCESS, [], r, w)
  | .send b :: s, r, w => advance s r (w ++ b)
  | .recv n :: s, r, w =>
    if n ≤ r.length then advance s (r.drop n) w else (Err.ERROR_SSL_HANDSHAKE_CONTINUE, .recv (n - r.length) :: s, [], w)
  | .bad :: s, r, w => (Err.ERROR_SSL_HANDSHAKE, .bad :: s, r, w)

/-- `do_handshake`, `sps_sys_st_io_ssl.cpp:346-362`. -/
def doHandshake (t : Tls) : Err × Tls :=
  match advance t.script t.rbio t.wbio with
  | (e, s, r, w) => (e, { t with script := s, rbio := r, wbio := w })

/-- The loop of `handshake_util_write`, `sps_sys_st_io_ssl.cpp:267-296`. `none` when the passes given do not suffice. -/
def receiveLoop : (fuel : Nat) → Tls → Option (Err × Tls)
  | 0, _ => none
  | fuel + 1, t =>
    match t.io.read 1024 with
    | (.err e, io) => some (e, { t with io := io })
    | (.ok d, io) =>
      if d = [] then some (Err.ERROR_SSL_HANDSHAKE, { t with io := io })
      else
        let (e, t) := doHandshake { t with io := io, rbio := t.rbio ++ d }
        if e = Err.SUCCESS then some (e, t)
        else if e ≠ Err.ERROR_SSL_HANDSHAKE_CONTINUE then some (e, t)
        else if t.wbio ≠ [] then some (e, { t with rbio := [] })
        else receiveLoop fuel t

/-- `handshake_util_write`, `sps_sys_st_io_ssl.cpp:249-298`: receive until there is something to send. -/
def receive (fuel : Nat) (t : Tls) : Option (Err × Tls) :=
  let (e, t) := t.doHandshake
  if e = Err.SUCCESS then some (e, t)
  else if e ≠ Err.ERROR_SSL_HANDSHAKE_CONTINUE then some (e, t)
  else receiveLoop fuel t

/-- `handshake_util_read`, `sps_sys_st_io_ssl.cpp:300-344`: send what there is to send. -/
def send (t : Tls) : Err × Tls :=
  let (e, t) := t.doHandshake
  if e ≠ Err.SUCCESS ∧ e ≠ Err.ERROR_SSL_HANDSHAKE_CONTINUE then (e, t)
  else if t.wbio = [] then (Err.ERROR_SSL_HANDSHAKE, t)
  else
    let t := { t with rbio := [] }
    let (e', snk) := t.snk.write t.wbio
    if e' ≠ Err.SUCCESS then (e', { t with snk := snk })
    else (e, { t with snk := snk, wbio := [] })

/-- Go on after a step of the handshake unless it failed. -/
def goOn (e : Err) : Bool := e = Err.SUCCESS ∨ e = Err.ERROR_SSL_HANDSHAKE_CONTINUE

/-- `accept`, `sps_sys_st_io_ssl.cpp:196-247`, after the certificate is chosen. -/
def accept (fuel : Nat) (t : Tls) : Option (Err × Tls) := do
  let (e, t) ← t.receive fuel
  if !goOn e then return (e, t)
  let (e, t) := t.send
  if !goOn e then return (e, t)
  let (e, t) ← t.receive fuel
  if !goOn e then return (e, t)
  return t.send

/-- `handshake`, `sps_sys_st_io_ssl.cpp:130-194`: the client's side. -/
def connect (fuel : Nat) (t : Tls) : Option (Err × Tls) := do
  let (e, t) := t.send
  if !goOn e then return (e, t)
  let (e, t) ← t.receive fuel
  if !goOn e then return (e, t)
  let (e, t) := t.send
  if !goOn e then return (e, t)
  let (e, t) ← t.receive fuel
  if e ≠ Err.SUCCESS then return (e, t)
  if t.wbio ≠ [] then return (e, { t with rbio := [] })
  return (e, t)

/-! ## Data -/

/-- The loop of `read`, `sps_sys_st_io_ssl.cpp:419-450`; `SSL_read` takes all of `rbio`. `none` when the passes given do not suffice. -/
def readLoop (c : Records) : (fuel : Nat) → Tls → (size : Nat) → Option (ReadRes × Tls)
  | 0, _, _ => none
  | fuel + 1, t, size =>
    let t := { t with raw := t.raw ++ t.rbio, rbio := [] }
    let avail := (c.plain t.raw).drop t.taken
    if avail ≠ [] then
      let n := c.cut t.raw avail.length size
      some (.ok (avail.take n), { t with taken := t.taken + n })
    else if c.ended t.raw then some (.err Err.ERROR_SSL_READ, t)
    else match t.io.read size with
      | (.err e, io) => some (.err e, { t with io := io })
      | (.ok d, io) =>
        if d = [] then some (.err Err.ERROR_SSL_READ, { t with io := io })
        else readLoop c fuel { t with io := io, rbio := d } size

/-- The number of passes a read may take: one for each byte and event of the transport. -/
def passes (t : Tls) : Nat := (t.io.evs.map fun ev => match ev with | .data p => p.length + 1 | .err _ => 1).sum + 1

/-- `read`, `sps_sys_st_io_ssl.cpp:416-453`. -/
def read (c : Records) (t : Tls) (size : Nat) : Option (ReadRes × Tls) := readLoop c t.passes t size

/-- `read_fully`, `sps_sys_st_io_ssl.cpp:396-414`; `mem` is the caller's buffer: every read goes to its start. `none` when the passes given do not suffice. -/
def fully (c : Records) : (fuel : Nat) → Tls → (size n : Nat) → (mem : List UInt8) → Option (Err × Nat × List UInt8 × Tls)
  | 0, _, _, _, _ => none
  | fuel + 1, t, size, n, mem =>
    if n < size then
      match t.read c (size - n) with
      | none => none
      | some (.err e, t) => some (e, n, mem, t)
      | some (.ok d, t) => fully c fuel t size (n + d.length) (d ++ mem.drop d.length)
    else some (Err.SUCCESS, n, mem, t)

/-- `SSL_write`: how many bytes each call takes (`none`: it fails); a record is `wrap i d` for the `i`th record with data `d`. -/
structure Seal where
  wrap : Nat → List UInt8 → List UInt8

/-- The loop of `write`, `sps_sys_st_io_ssl.cpp:473-499`, with what the calls of `SSL_write` do; returns the number of the next record too. -/
def writeLoop (s : Seal) : (calls : List (Option Nat)) → (i : Nat) → Tls → (rest : List UInt8) → Option (Err × Nat × Tls)
  | [], _, _, _ => none
  | none :: _, i, t, _ => some (Err.ERROR_SSL_WRITE, i, t)
  | some n :: calls, i, t, rest =>
    let w := t.wbio ++ s.wrap i (rest.take n)
    let (e, snk) := t.snk.write w
    if e ≠ Err.SUCCESS then some (e, i + 1, { t with snk := snk, wbio := w })
    else
      let t := { t with snk := snk, wbio := [] }
      if n < rest.length then writeLoop s calls (i + 1) t (rest.drop n) else some (e, i + 1, t)

/-- `write`, `sps_sys_st_io_ssl.cpp:463-502`. -/
def write (s : Seal) (calls : List (Option Nat)) (i : Nat) (t : Tls) (buf : List UInt8) : Option (Err × Nat × Tls) :=
  if buf = [] then some (Err.ERROR_SSL_WRITE, i, t) else writeLoop s calls i t buf

/-! ## Certificates -/

/-- `HostModulesRouter::search`, `/repo/src/module/host/sps_host_module.cpp:243-259`: certificate and key file. -/
def search (r : Router) (name : Text) : Err × Text × Text :=
  match r.find name with
  | none => (Err.ERROR_SSL_CERT_NOT_FOUND, [], [])
  | some h =>
    let key := Host.text h (ascii "ssl_key_file")
    let crt := Host.text h (ascii "ssl_crt_file")
    if key = [] ∨ crt = [] then (Err.ERROR_SSL_CERT_NOT_FOUND, crt, key) else (Err.SUCCESS, crt, key)

/-- `ssl_servername_callback`, `sps_sys_st_io_ssl.cpp:48-72`, for a server whose hosts are `r`; `usable` says whether OpenSSL takes the files
(`do_ssl_verify`, lines 364-386). The certificate the client is shown. -/
def onName (r : Router) (usable : Text → Text → Bool) : (sni : Option Text) → Option (Text × Text)
  | none => none
  | some name =>
    match search r name with
    | (e, crt, key) => if e ≠ Err.SUCCESS then none else if usable crt key then some (crt, key) else none

/-- The choice in `accept`, `sps_sys_st_io_ssl.cpp:208-215`. Outer `none`: the handshake ends. -/
def certificate (searcher : Option Router) (own : Text × Text) (usable : Text → Text → Bool) (sni : Option Text) : Option (Option (Text × Text)) :=
  match searcher with
  | some r => some (onName r usable sni)
  | none => if usable own.1 own.2 then some (some own) else none

/-- What an HTTPS server shows: `ServerModule::post_install`, `/repo/src/module/server/sps_server_module.cpp:185-209`, gives the router and the server's own
files to `Server::init_ssl`, `/repo/src/module/server/sps_server.cpp:57-67`. -/
def shown (server : Conf.Module) (r : Router) (usable : Text → Text → Bool) (sni : Option Text) : Option (Option (Text × Text)) :=
  certificate (some r) (Host.text server (ascii "ssl_crt_file"), Host.text server (ascii "ssl_key_file")) usable sni

/-! ## Accepting -/

/-- A client that connected: its handshake succeeds, fails, or the client sends nothing for ever. -/
inductive Client
  | fine (id : Nat)
  | fails (id : Nat)
  | stalls (id : Nat)
deriving DecidableEq, Repr

/-- `StSSLAcceptor::handler`, `sps_sys_st_io_ssl.cpp:543-562`: what is pushed to `ready_sockets` when these clients connected, in order. The
handshake runs in the loop, on a socket without a time limit (`StTcpSocket`, `/repo/src/sys/st/io/sps_sys_st_io_tcp.cpp:223-227`; the limits are
set after `accept`, `sps_server.cpp:92-93`). -/
def acceptor : List Client → List Nat
  | [] => []
  | .fine i :: cs => i :: acceptor cs
  | .fails _ :: cs => acceptor cs
  | .stalls _ :: _ => []

end Tls
end Sps
