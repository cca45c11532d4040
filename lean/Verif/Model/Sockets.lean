import Verif.Model.Err
import Verif.Model.Text
/-!
# Opening sockets

What the program does to the sockets of the system when it listens or connects. Each call of the system succeeds or fails as the list `answers` says (and
succeeds when the list is at its end); the theorems hold for every list.
-/
namespace Sps

inductive SockKind
  | tcp | udp | srt
deriving DecidableEq, Repr

/-- An open socket. -/
structure Sock where
  id : Nat
  kind : SockKind
  port : Option Nat := none
  listens : Bool := false
  peer : Option (Text × Nat) := none
deriving DecidableEq, Repr

/-- The system: the open sockets, the number the next one will get (a simplification: systems use numbers again once they are free), the results of the coming calls. -/
structure Os where
  next : Nat
  socks : List Sock
  answers : List Bool
deriving DecidableEq, Repr

namespace Os

/-- Whether the next call succeeds. -/
def ask (os : Os) : Bool × Os :=
  match os.answers with
  | [] => (true, os)
  | a :: as => (a, { os with answers := as })

/-- `socket`, `srt_create_socket`. -/
def socket (os : Os) (k : SockKind) : Option Nat × Os :=
  match os.ask with
  | (true, os) => (some os.next, { os with next := os.next + 1, socks := os.socks ++ [({ id := os.next, kind := k } : Sock)] })
  | (false, os) => (none, os)

/-- `close`, `st_netfd_close`, `srt_close`. -/
def close (os : Os) (id : Nat) : Os := { os with socks := os.socks.filter (·.id ≠ id) }

/-- A call that changes a socket if it succeeds. -/
def change (os : Os) (id : Nat) (f : Sock → Sock) : Bool × Os :=
  match os.ask with
  | (true, os) => (true, { os with socks := os.socks.map fun s => if s.id = id then f s else s })
  | (false, os) => (false, os)

/-- `bind`; a port number is cut to 16 bits (`htons`). -/
def bind (os : Os) (id port : Nat) : Bool × Os := os.change id fun s => { s with port := some (port % 65536) }
def listen (os : Os) (id : Nat) : Bool × Os := os.change id fun s => { s with listens := true }
/-- `connect`, `srt_connect`; a port number is cut to 16 bits (`htons`). -/
def connect (os : Os) (id : Nat) (ip : Text) (port : Nat) : Bool × Os := os.change id fun s => { s with peer := some (ip, port % 65536) }

/-- `srt_bind_acquire`: the SRT socket takes the UDP socket over, and with it its port. -/
def acquire (os : Os) (id udp : Nat) : Bool × Os :=
  match os.ask with
  | (true, os) =>
    let port := (os.socks.find? (·.id = udp)).bind (·.port)
    (true, { os with socks := (os.socks.filter (·.id ≠ udp)).map fun s => if s.id = id then { s with port := port } else s })
  | (false, os) => (false, os)

end Os

/-- `st_tcp_create_fd`, `/repo/src/sys/st/io/sps_sys_st_io_tcp.cpp:69-81`, and `UdpFd::create_fd`, `/repo/src/sys/st/io/sps_sys_st_io_udp.cpp:34-49`. -/
def Os.create (os : Os) (k : SockKind) : Err × Option Nat × Os :=
  match os.socket k with
  | (none, os) => (Err.ERROR_SOCKET_CREATE, none, os)
  | (some id, os) => match os.ask with
    | (true, os) => (Err.SUCCESS, some id, os)
    | (false, os) => (Err.ERROR_ST_OPEN_SOCKET, none, os.close id)

/-- The options `SO_REUSEADDR` and, if asked for, `SO_REUSEPORT` (`/repo/src/sys/st/io/sps_sys_st_io_tcp.cpp:203-217`). -/
def Os.reuse (os : Os) (port : Bool) : Bool × Os :=
  match os.ask with
  | (false, os) => (false, os)
  | (true, os) => if port then os.ask else (true, os)

/-- `st_tcp_listen`, `/repo/src/sys/st/io/sps_sys_st_io_tcp.cpp:93-135` (called by `StTcpServerSocket::listen`, lines 331-349). The address is not used: the socket is bound
to every address of the machine. -/
def Os.tcpListen (os : Os) (port : Nat) (reusePort : Bool) : Err × Option Nat × Os :=
  match os.create .tcp with
  | (e, none, os) => (e, none, os)
  | (_, some id, os) => match os.reuse reusePort with
    | (false, os) => (Err.ERROR_SOCKET_SETREUSE, none, os.close id)
    | (true, os) => match os.bind id port with
      | (false, os) => (Err.ERROR_SOCKET_BIND, none, os.close id)
      | (true, os) => match os.listen id with
        | (false, os) => (Err.ERROR_SOCKET_LISTEN, none, os.close id)
        | (true, os) => (Err.SUCCESS, some id, os)

/-- `UdpFd::create_fd` with a port, `/repo/src/sys/st/io/sps_sys_st_io_udp.cpp:51-87`; the socket is closed by the destructor (lines 93-95). -/
def Os.udpBind (os : Os) (port : Nat) (reusePort : Bool) : Err × Option Nat × Os :=
  match os.create .udp with
  | (e, none, os) => (e, none, os)
  | (_, some id, os) => match os.reuse reusePort with
    | (false, os) => (Err.ERROR_SOCKET_SETREUSE, none, os.close id)
    | (true, os) => match os.bind id port with
      | (false, os) => (Err.ERROR_SOCKET_BIND, none, os.close id)
      | (true, os) => (Err.SUCCESS, some id, os)

/-- `st_tcp_connect`, `/repo/src/sys/st/io/sps_sys_st_io_tcp.cpp:137-182`; `dns` is `dns_resolve` (lines 47-63), empty when there is no address. -/
def Os.tcpConnect (os : Os) (dns : Text → Text) (server : Text) (port : Nat) : Err × Option Nat × Os :=
  match os.create .tcp with
  | (_, none, os) => (Err.ERROR_ST_OPEN_SOCKET, none, os)
  | (_, some id, os) =>
    if dns server = [] then (Err.ERROR_SYSTEM_IP_INVALID, none, os.close id)
    else match os.connect id (dns server) port with
      | (false, os) => (Err.ERROR_ST_CONNECT, none, os.close id)
      | (true, os) => (Err.SUCCESS, some id, os)

/-- The first half of `st_srt_listen`, `/repo/src/sys/st/io/sps_sys_st_io_srt.cpp:277-306`: a UDP socket is made, bound and given to the SRT socket. `false` is `goto failed`,
with the UDP socket (if there is one) closed (line 308). Without `reusePort` no option is set. -/
def Os.srtUdp (os : Os) (id port : Nat) (reusePort : Bool) : Bool × Os :=
  match os.socket .udp with
  | (none, os) => (false, os)
  | (some u, os) => match (if reusePort then os.reuse true else (true, os)) with
    | (false, os) => (false, os.close u)
    | (true, os) => match os.bind u port with
      | (false, os) => (false, os.close u)
      | (true, os) => match os.acquire id u with
        | (false, os) => (false, os.close u)
        | (true, os) => (true, os)

/-- `st_srt_listen`, `/repo/src/sys/st/io/sps_sys_st_io_srt.cpp:270-328`. The call of `srt_bind` in line 314 has `sizeof(self_addr) == SRT_ERROR`, which is 0, for the length of the
address; libsrt refuses an address without length. -/
def Os.srtListen (os : Os) (id port : Nat) (reusePort : Bool) : Err × Os :=
  match os.srtUdp id port reusePort with
  | (false, os) => if reusePort then (Err.ERROR_SRT_SOCKET_CREATE, os) else (Err.ERROR_SRT_SOCKET_BIND, os)
  | (true, os) => match os.listen id with
    | (false, os) => (Err.ERROR_SRT_SOCKET_LISTEN, os)
    | (true, os) => (Err.SUCCESS, os)

/-- `StSrtServerSocket::listen`, `/repo/src/sys/st/io/sps_sys_st_io_srt.cpp:771-780`, with `st_srt_create_fd` (lines 76-119, results of the options are not looked at). The second
result is `server_fd`. -/
def Os.srtServe (os : Os) (port : Nat) (reusePort : Bool) : Err × Option Nat × Os :=
  match os.socket .srt with
  | (none, os) => (Err.ERROR_ST_OPEN_SOCKET, none, os)
  | (some id, os) => match os.srtListen id port reusePort with
    | (e, os) => (e, some id, os)

/-- The destructor of a socket object: `StTcpServerSocket`, `/repo/src/sys/st/io/sps_sys_st_io_tcp.cpp:327-329`; `StSrtServerSocket`,
`/repo/src/sys/st/io/sps_sys_st_io_srt.cpp:767-769`. -/
def Os.drop (os : Os) : Option Nat → Os
  | none => os
  | some id => os.close id

/-- `st_srt_connect`, `/repo/src/sys/st/io/sps_sys_st_io_srt.cpp:121-170`, as it is called here: without a UDP socket of its own. `inet_pton` and the wait for the connection may
fail. -/
def Os.srtConnect (os : Os) (dns : Text → Text) (id : Nat) (server : Text) (port : Nat) (waited : Err) : Err × Os :=
  if dns server = [] then (Err.ERROR_SYSTEM_IP_INVALID, os)
  else match os.ask with
    | (false, os) => (Err.ERROR_SRT_SOCKET_CREATE, os)
    | (true, os) => match os.connect id (dns server) port with
      | (false, os) => (Err.ERROR_SRT_SOCKET_CONNECT, os)
      | (true, os) => (waited, os)

/-- The transports of `Transport`, `/repo/src/io/sps_io_socket.hpp:41-51`. -/
inductive Transport
  | tcp | srt | https | other
deriving DecidableEq, Repr

/-- `ClientSocketFactory::create_ss`, `/repo/src/io/sps_io_socket.cpp:144-205`. For TLS the handshake succeeds or fails like a call. -/
def Os.client (os : Os) (dns : Text → Text) (waited : Err) (t : Transport) (ip : Text) (port : Nat) : Option Nat × Os :=
  match t with
  | .tcp => match os.tcpConnect dns ip port with
    | (e, id, os) => if e ≠ Err.SUCCESS then (none, os) else (id, os)
  | .srt => match os.socket .srt with
    | (none, os) => (none, os)
    | (some id, os) => match os.srtConnect dns id ip port waited with
      | (e, os) => if e ≠ Err.SUCCESS then (none, os.close id) else (some id, os)
  | .https => match os.tcpConnect dns ip port with
    | (e, id, os) =>
      if e ≠ Err.SUCCESS then (none, os)
      else match os.ask with
        | (true, os) => (id, os)
        | (false, os) => (none, os.drop id)
  | .other => (none, os)

/-- `ServerSocketFactory::create_ss`, `/repo/src/io/sps_io_socket.cpp:207-231`, and `Server::listen`, `/repo/src/module/server/sps_server.cpp:70-80`. `none` is a call through a null
pointer. -/
def Os.serverListen (os : Os) (t : Transport) (port : Nat) (reusePort : Bool) : Option (Err × Option Nat × Os) :=
  match t with
  | .tcp => some (os.tcpListen port reusePort)
  | .srt => some (os.srtServe port reusePort)
  | .https => some (os.tcpListen port reusePort)
  | .other => none

end Sps
