import Verif.Model.Io
import Verif.Model.Conf
import Verif.Model.Packet
/-!
# Time limits

The other parts of the model leave out time: a transport is a list of pieces and errors. Here the pieces come at given times, and the waits of the program end
at their limits. Times are counted in microseconds.
Simplifications: the clock and the limits are added without overflow (a limit other than `ST_UTIME_NO_TIMEOUT` is assumed below 2⁶³, which is what the
configuration can say without a wrong sign); a limit reached at the same moment as the data counts as reached.
-/
namespace Sps

/-- `ST_UTIME_NO_TIMEOUT`, `((st_utime_t) -1LL)` of state threads: no limit. It is the default of `StTcpSocket`, `/repo/src/sys/st/io/sps_sys_st_io_tcp.cpp:225`. -/
def noLimit : Nat := 2 ^ 64 - 1

/-- The limits of a socket: `set_recv_timeout`, `set_send_timeout`. -/
structure Limits where
  recv : Nat
  send : Nat
deriving DecidableEq, Repr

namespace Limits

/-- A new `StTcpSocket`, `/repo/src/sys/st/io/sps_sys_st_io_tcp.cpp:223-227`. -/
def fresh : Limits := ⟨noLimit, noLimit⟩

/-- An option of type `u64`, as an option object is read (it exists for a server, with its default). -/
def option (m : Conf.Module) (n : String) : Nat :=
  match m.conf (ascii n) with
  | some (.u64 v) => v
  | _ => 0

/-- `ServerModule::install`, `/repo/src/module/server/sps_server_module.cpp:148-149`, hands the options of the server to `Server::init(f, stm, rtm)`,
`/repo/src/module/server/sps_server.cpp:43-51`. -/
def ofServer (m : Conf.Module) : Limits :=
  let init (stm rtm : Nat) : Limits := ⟨rtm, stm⟩
  init (option m "send_timeout") (option m "recv_timeout")

/-- `Server::accept`, `/repo/src/module/server/sps_server.cpp:92-93`: an accepted socket gets the limits of the server; `StSSLSocket` and `Socket` hand them to
the transport below (`/repo/src/sys/st/io/sps_sys_st_io_ssl.cpp:388-390,455-457`, `/repo/src/io/sps_io_socket.cpp:100-118`). -/
def accepted (m : Conf.Module) : Limits :=
  let io := fresh
  let io := { io with recv := (ofServer m).recv }
  { io with send := (ofServer m).send }

/-- The transports of connections that the server opens. -/
inductive Out
  | tcp
  | https
deriving DecidableEq, Repr

/-- `ClientSocketFactory::create_ss`, `/repo/src/io/sps_io_socket.cpp:143-200`: `tm` limits the connecting; a TLS socket keeps it for reading and writing, a TCP
socket has none. `tm` is 10 s for the URLs of pulls and of proxying (`/repo/src/io/url/sps_io_url.hpp:102`). -/
def opened (o : Out) (tm : Nat) : Limits :=
  match o with
  | .tcp => fresh
  | .https => ⟨tm, tm⟩

end Limits

/-- What will come from a peer, and when; then the end, if any: an error (closing is `ERROR_SOCKET_CLOSED`) from some time on. `none`: nothing ever comes. -/
structure Timed where
  pieces : List (Nat × List UInt8)
  closes : Option (Nat × Err)
deriving DecidableEq, Repr

/-- A wait that began at `now` for something that happens at `at_`: when it returns, unless the limit is reached first. `lag`: the program notices an event later
than it happens (SRT: its sockets are polled every 10 ms, `/repo/src/sys/st/io/sps_sys_st_io_srt.cpp`). -/
def waitFor (limit now lag at_ : Nat) : Option Nat :=
  if at_ ≤ now then some now
  else if limit = noLimit ∨ at_ + lag < now + limit then some (at_ + lag)
  else none

namespace Timed

/-- `StTcpSocket::read`, `/repo/src/sys/st/io/sps_sys_st_io_tcp.cpp:268-293`, or `StSrtSocket::read`, at time `now`; `late`: the error when the limit is reached
(`ERROR_SOCKET_TIMEOUT`, or `ERROR_SRT_SOCKET_TIMEOUT`). Result: what is returned, when, and what will still come; `none`: it never returns. -/
def read (late : Err) (limit now lag size : Nat) (t : Timed) : Option (ReadRes × Nat × Timed) :=
  if size = 0 then some (.err Err.ERROR_IO_BUFFER_FULL, now, t)
  else match t.pieces with
    | (w, p) :: ps =>
      match waitFor limit now lag w with
      | some now =>
        if p.length ≤ size then some (.ok p, now, { t with pieces := ps })
        else some (.ok (p.take size), now, { t with pieces := (w, p.drop size) :: ps })
      | none => some (.err late, now + limit, t)
    | [] =>
      match t.closes with
      | some (w, e) =>
        match waitFor limit now lag w with
        | some now => some (.err e, now, t)
        | none => some (.err late, now + limit, t)
      | none => if limit = noLimit then none else some (.err late, now + limit, t)

end Timed

/-- What a peer takes: from which time on how many more bytes find room in the buffers; then possibly a time from which on writing fails. -/
structure Drain where
  room : List (Nat × Nat)
  breaks : Option Nat
deriving DecidableEq, Repr

/-- `st_write(fd, buf, n, limit)` of state threads: every wait for room may last as long as the limit. Result: the error, how many bytes were sent, when, and the room
left; `none`: it never returns. -/
def Drain.send (limit : Nat) (breaks : Option Nat) (now n : Nat) : List (Nat × Nat) → Option (Err × Nat × Nat × List (Nat × Nat))
  | [] =>
    match breaks with
    | some w =>
      match waitFor limit now 0 w with
      | some now => some (Err.ERROR_SOCKET_WRITE, 0, now, [])
      | none => some (Err.ERROR_SOCKET_TIMEOUT, 0, now + limit, [])
    | none => if limit = noLimit then none else some (Err.ERROR_SOCKET_TIMEOUT, 0, now + limit, [])
  | (w, k) :: r =>
    if k = 0 then Drain.send limit breaks now n r
    else match waitFor limit now 0 w with
      | none => some (Err.ERROR_SOCKET_TIMEOUT, 0, now + limit, (w, k) :: r)
      | some now =>
        if n ≤ k then some (Err.SUCCESS, n, now, (w, k - n) :: r)
        else (Drain.send limit breaks now (n - k) r).map fun x => (x.1, k + x.2.1, x.2.2)

/-- `StTcpSocket::write`, `/repo/src/sys/st/io/sps_sys_st_io_tcp.cpp:303-320`; writing nothing counts as an error. -/
def Drain.write (limit now n : Nat) (d : Drain) : Option (Err × Nat × Nat × Drain) :=
  if n = 0 then some (Err.ERROR_SOCKET_WRITE, 0, now, d)
  else (Drain.send limit d.breaks now n d.room).map fun x => (x.1, x.2.1, x.2.2.1, { d with room := x.2.2.2 })

/-- How long a player waits for packets: `get_client_streamcache(url, 10 * 1000 * 1000)`, `/repo/src/module/stream/sps_stream_handler.cpp:110`,
`/repo/src/module/srt/sps_srt_stream_handler.cpp:98`. -/
def playerWait : Nat := 10000000

/-- Packets that come to the queue of a player, and when. -/
structure Coming where
  queue : List AVPkt
  puts : List (Nat × AVPkt)
deriving DecidableEq, Repr

/-- What has been put into the queue by some time. -/
def Coming.advance (now : Nat) (c : Coming) : Coming :=
  ⟨c.queue ++ (c.puts.takeWhile fun x => x.1 ≤ now).map (·.2), c.puts.dropWhile fun x => x.1 ≤ now⟩

/-- `AVDumpCacheStream::dump`, `/repo/src/avformat/sps_avformat_cache.cpp:102-116`, at time `now`: with an empty queue it waits until it is woken by a packet
(`lag`: it runs later than the packet comes, and other packets may come meanwhile) or for the limit, then it takes all there is. Result: the packets, when, and what
will still come. -/
def Coming.dump (limit now lag : Nat) (c : Coming) : List AVPkt × Nat × Coming :=
  let c := c.advance now
  if c.queue ≠ [] then (c.queue, now, { c with queue := [] })
  else match c.puts with
    | [] => ([], now + limit, c)
    | (w, _) :: _ =>
      if w < now + limit then
        let c := c.advance (w + lag)
        (c.queue, w + lag, { c with queue := [] })
      else ([], now + limit, c)

/-- `StreamEncoder::encode`, `/repo/src/module/stream/sps_stream.cpp:81-99`: packets are taken and written until there are none. `work`: how long the pass writes, and
the lag of the wait. Result: the packets, and whether the player has been given up, and when. -/
def Coming.play : List (Nat × Nat) → Nat → Coming → List AVPkt × Option Nat
  | [], _, _ => ([], none)
  | (busy, lag) :: work, now, c =>
    match c.dump playerWait now lag with
    | ([], now, _) => ([], some now)
    | (ps, now, c) =>
      match Coming.play work (now + busy) c with
      | (qs, e) => (ps ++ qs, e)

end Sps
