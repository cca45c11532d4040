import Verif.Model.Assoc
import Verif.Model.Io
import Verif.Model.Url
/-!
# Sockets: SRT, UDP, TCP

The network and the libraries (`libsrt`, state threads) are outside: what they will do is given as lists of events.
-/
namespace Sps

/-! ## SRT stream ids -/

namespace SrtId

/-- The loop of `get_url_by_streamid`, `/repo/src/module/srt/sps_srt_server_handler.cpp:53-68`: `cur` is the text from `start` to
`p` and `key` is `param.key`. -/
def params (key cur : Text) : Text → List Header
  | [] => []
  | b :: r =>
    if b = 44 then (key, cur) :: params [] [] r
    else if b = 61 then params cur [] r
    else params key (cur ++ [b]) r

/-- The last value of a key (`for` loop, lines 72-78). -/
def last (k : Text) (ps : List Header) : Text := ps.foldl (fun v p => if p.1 = k then p.2 else v) []

/-- `get_url_by_streamid`, `/repo/src/module/srt/sps_srt_server_handler.cpp:36-104`, up to `RequestUrl::from`: the URL and the method;
`none` is the null pointer. -/
def request (id : Text) : Option (Text × Text) :=
  if id.length < 5 then none
  else
    let ps := params [] [] (id.drop 4)
    let url := last (ascii "h") ps
    let url := if url.take 5 ≠ ascii "srt://" then ascii "srt://" ++ url else url
    let mode := last (ascii "m") ps
    some (url, if mode = ascii "publish" then ascii "publish" else if mode = ascii "request" then ascii "request" else ascii "publish")

/-- What the request is for (`SrtServerStreamHandler::handler`, `/repo/src/module/srt/sps_srt_stream_handler.cpp:45-49`). -/
def plays (method : Text) : Bool := method = ascii "request"

end SrtId

/-! ## Reading a number of bytes -/

/-- `Socket::read_fully`, `/repo/src/io/sps_io_socket.cpp:79-94`, over any `read`; `got` is what is in the buffer. -/
def readFully {S : Type} (read : S → Nat → ReadRes × S) : (fuel : Nat) → S → (size : Nat) → (got : List UInt8) → Option (Err × List UInt8 × S)
  | 0, _, _, _ => none
  | fuel + 1, s, size, got =>
    match read s (size - got.length) with
    | (.err e, s) => some (e, got, s)
    | (.ok d, s) => if (got ++ d).length < size then readFully read fuel s size (got ++ d) else some (Err.SUCCESS, got ++ d, s)

/-! ## SRT sockets -/

/-- `StSrtSocket`, `/repo/src/sys/st/io/sps_sys_st_io_srt.hpp:151-187`: the messages to come (each at most 1316 bytes) and `read_buf`. -/
structure SrtSock where
  io : Io
  buf : List UInt8
deriving DecidableEq, Repr

namespace SrtSock

/-- `SRT_LIVE_DEF_PLSIZE` of libsrt. -/
def PLSIZE : Nat := 1316

/-- `StSrtSocket::read`, `/repo/src/sys/st/io/sps_sys_st_io_srt.cpp:707-741`. `st_srt_read`, lines 353-383, returns the next message
(it waits as long as there is none) or an error. -/
def read (s : SrtSock) (size : Nat) : ReadRes × SrtSock :=
  if 0 < s.buf.length then (.ok (s.buf.take size), { s with buf := s.buf.drop size })
  else if size < PLSIZE then
    match s.io.read PLSIZE with
    | (.err e, io) => (.err e, { s with io := io })
    | (.ok d, io) => (.ok (d.take size), { s with io := io, buf := d.drop size })
  else match s.io.read size with
    | (.err e, io) => (.err e, { s with io := io })
    | (.ok d, io) => (.ok d, { s with io := io })

/-- Writing bytes at the start of a buffer. -/
def put (d mem : List UInt8) : List UInt8 := d ++ mem.drop d.length

/-- The loop of `StSrtSocket::read_fully`, `/repo/src/sys/st/io/sps_sys_st_io_srt.cpp:687-705`, with the caller's buffer. -/
def fully : (fuel : Nat) → SrtSock → (size n : Nat) → (mem : List UInt8) → Option (Err × List UInt8 × SrtSock)
  | 0, _, _, _, _ => none
  | fuel + 1, s, size, n, mem =>
    if n < size then
      match s.read (size - n) with
      | (.err e, s) => some (e, mem, s)
      | (.ok d, s) => fully fuel s size (n + d.length) (put d mem)
    else some (Err.SUCCESS, mem, s)

/-- `SRT_ERROR` (-1) of libsrt, returned as an error code. -/
def ERROR : Err := 2 ^ 32 - 1

/-- What a call of `srt_sendmsg` does: it takes bytes (at most those given), or it would block and `st_srt_epoll` returns `e` (0 when
the socket is writable), or it fails. -/
inductive Send
  | sent (n : Nat)
  | again (e : Err)
  | fail
deriving DecidableEq, Repr

/-- `st_srt_write`, `/repo/src/sys/st/io/sps_sys_st_io_srt.cpp:385-420`, on what is left of the buffer: the result, the messages
sent, the calls not made. `none`: more calls are made than given. -/
def write : List Send → List UInt8 → Option (Err × List (List UInt8) × List Send)
  | [], buf => if buf.isEmpty then some (Err.SUCCESS, [], []) else none
  | ev :: evs, buf =>
    if buf.isEmpty then some (Err.SUCCESS, [], ev :: evs)
    else
      let next := buf.take PLSIZE
      match ev with
      | .fail => some (ERROR, [], evs)
      | .again e => if e ≠ Err.SUCCESS then some (e, [], evs) else write evs buf
      | .sent n => match write evs (buf.drop (min n next.length)) with
        | some (e, ms, evs) => some (e, next.take n :: ms, evs)
        | none => none

end SrtSock

/-- `StUdpClientSocket::read`, `/repo/src/sys/st/io/sps_sys_st_io_udp.cpp:154-183`, on the datagrams to come: `recvfrom` drops what
does not fit. -/
def udpRead (io : Io) (size : Nat) : ReadRes × Io :=
  match io.evs with
  | [] => (.err io.closed, io)
  | .err e :: evs => (.err e, { io with evs := evs })
  | .data p :: evs =>
    if (p.take size).isEmpty then (.err Err.ERROR_SOCKET_READ, { io with evs := evs })
    else (.ok (p.take size), { io with evs := evs })

/-! ## SRT events -/

/-- A waiter: `SrtEventCondition`, `/repo/src/sys/st/io/sps_sys_st_io_srt.hpp:107-118`. -/
structure Waiter where
  id : Nat
  event : Nat
deriving DecidableEq, Repr

/-- `SrtStDispatch`, `/repo/src/sys/st/io/sps_sys_st_io_srt.hpp:123-149`: `conditions`, what libsrt was told to watch, the
waiters that were notified and do not run yet (with socket and `err`), the number of waiters so far. -/
structure Dispatch where
  conds : Assoc Nat (List Waiter)
  watch : Assoc Nat Nat
  woken : List (Waiter × Nat × Err)
  count : Nat
deriving DecidableEq, Repr

namespace Dispatch

/-- `SRT_EPOLL_IN` of libsrt. -/
def IN : Nat := 1
/-- `SRT_EPOLL_OUT` of libsrt. -/
def OUT : Nat := 4
/-- `SRT_EPOLL_ERR` of libsrt. -/
def ERR : Nat := 8
/-- `SRT_EPOLL_ETONLY` of libsrt. -/
def ET : Nat := 2 ^ 31

def init : Dispatch := ⟨[], [], [], 0⟩

/-- `get_exits_evt`, `/repo/src/sys/st/io/sps_sys_st_io_srt.cpp:593-605`. -/
def exits (d : Dispatch) (fd : Nat) : Nat :=
  match d.conds.find fd with
  | none => 0
  | some ws => ws.foldl (fun e w => e ||| w.event) 0

/-- `st_srt_epoll` up to the wait, `/repo/src/sys/st/io/sps_sys_st_io_srt.cpp:526-556`; `ok` is whether libsrt accepts the socket. -/
def wait (d : Dispatch) (fd event : Nat) (ok : Bool) : Dispatch :=
  if !ok then d
  else
    let evt := match d.conds.find fd with
      | none => event ||| ERR
      | some _ => d.exits fd ||| event ||| ERR ||| ET
    { d with
      conds := d.conds.insert fd ((d.conds.find fd).getD [] ++ [⟨d.count, event⟩])
      watch := d.watch.insert fd evt
      count := d.count + 1 }

/-- The rest of `st_srt_epoll` when the waiter runs again, `/repo/src/sys/st/io/sps_sys_st_io_srt.cpp:558-574`: what is watched afterwards.
(`epoll_update_usock` watches the socket whether or not it was watched before, as libsrt does.) -/
def leave (d : Dispatch) (fd : Nat) (w : Waiter) : Dispatch :=
  let d := match d.conds.find fd with
    | some ws => { d with conds := d.conds.insert fd (ws.filter (· ≠ w)) }
    | none => d
  if d.exits fd = 0 then { d with watch := d.watch.erase fd }
  else { d with watch := d.watch.insert fd (d.exits fd ||| ET) }

/-- The time of a waiter is over before it is notified: it leaves with an error. Nothing happens if it does not wait. -/
def timeout (d : Dispatch) (fd : Nat) (w : Waiter) : Dispatch × Option Err :=
  if w ∈ (d.conds.find fd).getD [] then (d.leave fd w, some Err.ERROR_SRT_SOCKET_TIMEOUT) else (d, none)

/-- A notified waiter runs again and returns (`/repo/src/sys/st/io/sps_sys_st_io_srt.cpp:558-590`). -/
def resume (d : Dispatch) (w : Waiter) : Dispatch × Option Err :=
  match d.woken.find? fun x => x.1 = w with
  | none => (d, none)
  | some x => ({ d with woken := d.woken.filter fun x => x.1 ≠ w }.leave x.2.1 w, some x.2.2)

/-- An event is reported, `SrtStDispatch::handler`, `/repo/src/sys/st/io/sps_sys_st_io_srt.cpp:613-659`; `err` is what
`st_srt_socket_error`, lines 52-65, makes of the state of the socket.
`epoll_remove_ssock` (line 620) is for sockets of the system: it does not change what is watched of SRT sockets. -/
def event (d : Dispatch) (fd events : Nat) (err : Err) : Dispatch :=
  match d.conds.find fd with
  | none => d
  | some ws =>
    let e := if events &&& ERR ≠ 0 then err else 0
    let notify := fun (w : Waiter) => decide (events &&& ERR ≠ 0 ∨ events &&& w.event ≠ 0)
    let rest := ws.filter fun w => !notify w
    { d with
      conds := if rest.isEmpty then d.conds.erase fd else d.conds.insert fd rest
      woken := d.woken ++ (ws.filter notify).map fun w => (w, fd, e) }

/-- What can happen. -/
inductive Op
  | wait (fd event : Nat) (ok : Bool)
  | event (fd events : Nat) (err : Err)
  | timeout (fd : Nat) (w : Waiter)
  | resume (w : Waiter)
deriving DecidableEq, Repr

/-- One step, and what a waiter that leaves returns. -/
def step (d : Dispatch) : Op → Dispatch × Option (Waiter × Err)
  | .wait fd e ok => (d.wait fd e ok, none)
  | .event fd es err => (d.event fd es err, none)
  | .timeout fd w => match d.timeout fd w with
    | (d, r) => (d, r.map fun e => (w, e))
  | .resume w => match d.resume w with
    | (d, r) => (d, r.map fun e => (w, e))

/-- A history: the end, and what the waiters returned, in order. -/
def run (d : Dispatch) : List Op → Dispatch × List (Waiter × Err)
  | [] => (d, [])
  | op :: ops => match d.step op with
    | (d, r) => match run d ops with
      | (d, rs) => (d, r.toList ++ rs)

end Dispatch

/-! ## UDP -/

/-- A datagram: who sent it, what `addr2string` makes of the control message (`/repo/src/sys/st/io/sps_sys_st_io_udp.cpp:218-231`;
the address is taken for a `sockaddr_in`, so this is mostly nothing and then `("", 0)`), and the data. -/
structure Dgram where
  peer : Text × Nat
  dst : Text × Nat
  data : List UInt8
deriving DecidableEq, Repr

/-- A `UdpSessionSocket` with its `StUdpSessionClientSocket`. -/
structure Session where
  key : Text
  queue : List (List UInt8)
  accepted : Bool
  alive : Bool
deriving DecidableEq, Repr

/-- `StUdpServerSocket`, `/repo/src/sys/st/io/sps_sys_st_io_udp.hpp:164-200`: `sessions` (by number of the session), all sessions ever made, `new_clients`. -/
structure Udp where
  map : Assoc Text Nat
  all : List Session
  fresh : List Nat
deriving DecidableEq, Repr

namespace Udp

/-- `buffer_max_list_size`. -/
def LIMIT : Nat := 4000
/-- `buffer_size`. -/
def SIZE : Nat := 4096

def init : Udp := ⟨[], [], []⟩

/-- `generate_key`, `/repo/src/sys/st/io/sps_sys_st_io_udp.cpp:432-435`. -/
def key (cip : Text) (cport : Nat) (dip : Text) (dport : Nat) : Text :=
  cip ++ ascii ":" ++ Text.dec cport ++ ascii "->" ++ dip ++ Text.dec dport

/-- The key of a datagram. `read` with seven arguments does not set `peer_ip` and `peer_port`
(`/repo/src/sys/st/io/sps_sys_st_io_udp.cpp:185-235`), which stay as they are initialised in lines 404-405. -/
def keyOf (d : Dgram) : Text := key [] 0 d.dst.1 d.dst.2

/-- What happens to an operation. -/
inductive Ev
  | queued (s : Nat)
  | dropped (s : Nat)
  | got (s : Nat) (data : List UInt8)
  | failed (s : Nat) (e : Err)
  | accepted (s : Nat)
  | destroyed (s : Nat)
  | nothing
  /-- `push` on a null pointer -/
  | null
deriving DecidableEq, Repr

/-- `StUdpSessionClientSocket::push`, `/repo/src/sys/st/io/sps_sys_st_io_udp.cpp:325-341`. -/
def push (u : Udp) (s : Nat) (data : List UInt8) : Udp × Ev :=
  match u.all[s]? with
  | none => (u, .null)
  | some x =>
    if !x.alive then (u, .null)
    else if LIMIT ≤ x.queue.length then (u, .dropped s)
    else ({ u with all := u.all.set s { x with queue := x.queue ++ [data] } }, .queued s)

/-- One pass of `StUdpServerSocket::handler`, `/repo/src/sys/st/io/sps_sys_st_io_udp.cpp:402-423`, with `search_or_create`, lines 437-453. -/
def arrive (u : Udp) (d : Dgram) : Udp × Ev :=
  match u.map.find (keyOf d) with
  | some s => u.push s (d.data.take SIZE)
  | none =>
    let s := u.all.length
    let u : Udp := { u with map := u.map.insert (keyOf d) s, all := u.all ++ [({ key := keyOf d, queue := [], accepted := false, alive := true } : Session)] }
    match u.push s (d.data.take SIZE) with
    | (u, e) => ({ u with fresh := u.fresh ++ [s] }, e)

/-- `StUdpSessionClientSocket::read`, `/repo/src/sys/st/io/sps_sys_st_io_udp.cpp:301-323`, when the wait for a datagram is over, on the
datagrams waiting. -/
def take (q : List (List UInt8)) (size : Nat) : ReadRes × List (List UInt8) :=
  match q with
  | [] => (.err Err.ERROR_SOCKET_TIMEOUT, [])
  | b :: r => if size < b.length then (.err Err.ERROR_SOCKET_BUFFER_SMALL, b :: r) else (.ok b, r)

/-- A read of a session. -/
def read (u : Udp) (s size : Nat) : Udp × Ev :=
  match u.all[s]? with
  | none => (u, .nothing)
  | some x =>
    if !x.alive then (u, .nothing)
    else match take x.queue size with
      | (.err e, _) => (u, .failed s e)
      | (.ok b, q) => ({ u with all := u.all.set s { x with queue := q } }, .got s b)

/-- `accept`, `/repo/src/sys/st/io/sps_sys_st_io_udp.cpp:389-399`. -/
def accept (u : Udp) : Udp × Ev :=
  match u.fresh with
  | [] => (u, .nothing)
  | s :: r => ({ u with fresh := r, all := match u.all[s]? with | some x => u.all.set s { x with accepted := true } | none => u.all }, .accepted s)

/-- The owner of an accepted session lets it go: `~UdpSessionSocket`, `/repo/src/sys/st/io/sps_sys_st_io_udp.cpp:352-354,428-430,455-460`. -/
def destroy (u : Udp) (s : Nat) : Udp × Ev :=
  match u.all[s]? with
  | none => (u, .nothing)
  | some x =>
    if x.accepted ∧ x.alive then
      ({ u with map := u.map.erase x.key, all := u.all.set s { x with alive := false } }, .destroyed s)
    else (u, .nothing)

/-- What can happen. -/
inductive Op
  | arrive (d : Dgram)
  | read (s size : Nat)
  | accept
  | destroy (s : Nat)
deriving DecidableEq, Repr

def step (u : Udp) : Op → Udp × Ev
  | .arrive d => u.arrive d
  | .read s n => u.read s n
  | .accept => u.accept
  | .destroy s => u.destroy s

/-- A history: the end, and what happened. -/
def run (u : Udp) : List Op → Udp × List (Op × Ev)
  | [] => (u, [])
  | op :: ops => match u.step op with
    | (u, e) => match run u ops with
      | (u, es) => (u, (op, e) :: es)

end Udp

/-- A `StUdpClientSocket` as its constructor leaves it, or after `connect`: the peer it was made for, `peer_addr`, `connected`. -/
structure UdpPeer where
  peer : Text × Int
  addr : Text × Nat
  connected : Bool
deriving DecidableEq, Repr

/-- The constructor, `/repo/src/sys/st/io/sps_sys_st_io_udp.cpp:97-114`: `peer_addr` has `INADDR_ANY` and the port, as 16 bits; `peer_ip` is not used for it. -/
def UdpPeer.new (ip : Text) (port : Int) : UdpPeer := ⟨(ip, port), (ascii "0.0.0.0", (port % 65536).toNat), false⟩

/-- `StUdpClientSocket::connect`, `/repo/src/sys/st/io/sps_sys_st_io_udp.cpp:125-132`, when the call of the system returns `e`; then the system sends what is sent without an address to
`peer_addr`. -/
def UdpPeer.connect (u : UdpPeer) (e : Err) : Err × UdpPeer := if e = 0 then (e, { u with connected := true }) else (e, u)

/-- What a call of `st_sendto` does: it takes bytes (at most those given) as one datagram, or it fails (`errno` decides the result, `/repo/src/sys/st/io/sps_sys_st_io_udp.cpp:253-262`). -/
inductive UdpPeer.Send
  | took (n : Nat)
  | timeout
  | interrupted
  | fails
deriving DecidableEq, Repr

/-- `StUdpClientSocket::write`, `/repo/src/sys/st/io/sps_sys_st_io_udp.cpp:246-268`, on what is left of the buffer: the result and the datagrams, each with where it goes (a connected socket sends
to where it is connected to, which is `peer_addr` as well). `none`: more calls are made than given. -/
def UdpPeer.write (u : UdpPeer) : List UdpPeer.Send → List UInt8 → Option (Err × List ((Text × Nat) × List UInt8))
  | [], buf => if buf.isEmpty then some (Err.SUCCESS, []) else none
  | c :: cs, buf =>
    if buf.isEmpty then some (Err.SUCCESS, [])
    else match c with
      | .timeout => some (Err.ERROR_SOCKET_TIMEOUT, [])
      | .interrupted => some (Err.ERROR_SOCKET_EINTR, [])
      | .fails => some (Err.ERROR_SOCKET_WRITE, [])
      | .took n => match UdpPeer.write u cs (buf.drop n) with
        | some (e, ms) => some (e, (u.addr, buf.take n) :: ms)
        | none => none

/-- The socket that a session writes with, `search_or_create`, `/repo/src/sys/st/io/sps_sys_st_io_udp.cpp:437-453`: made for the address that `handler` has for the sender of the first datagram,
which `read` with seven arguments does not set (lines 185-235 and 404-405). -/
def Udp.writer (_d : Dgram) : UdpPeer := UdpPeer.new [] 0

end Sps
