import Verif.Model.Text
/-!
# The addresses of connections

`addr2string`, and `accept` of the listening sockets as far as the addresses go: what the line "Accept client" (`/repo/src/module/server/sps_server.cpp:96-99`) is made of.
-/
namespace Sps.Addr

/-- `struct sockaddr_in`: the family, and the bytes of the port and of the address, which are in network order (most significant first). -/
structure SockAddr where
  family : Nat
  port : UInt8 × UInt8
  ip : UInt8 × UInt8 × UInt8 × UInt8
deriving DecidableEq, Repr

def AF_INET : Nat := 2

/-- `addr.sin_port` as a number: the machine is little-endian. -/
def SockAddr.sinPort (a : SockAddr) : Nat := a.port.1.toNat + 256 * a.port.2.toNat

/-- `ntohs` of a little-endian machine. -/
def ntohs (x : Nat) : Nat := x % 256 * 256 + x / 256 % 256

/-- `inet_ntop` (of the C library) for the family IPv4; null for a family that is not known. IPv6 is not modelled: all listening sockets are `AF_INET`
(`/repo/src/sys/st/io/sps_sys_st_io_tcp.cpp:115`, `sps_sys_st_io_srt.cpp:273`). -/
def inetNtop (family : Nat) (ip : UInt8 × UInt8 × UInt8 × UInt8) : Option Text :=
  if family = AF_INET then
    some (Text.dec ip.1.toNat ++ [46] ++ Text.dec ip.2.1.toNat ++ [46] ++ Text.dec ip.2.2.1.toNat ++ [46] ++ Text.dec ip.2.2.2.toNat)
  else none

/-- `addr2string`, `/repo/src/io/sps_io_socket.cpp:36-46`; the strings given stay as they are when it fails. -/
def addr2string (a : SockAddr) (ip : Text) (port : Int) : Text × Int :=
  match inetNtop a.family a.ip with
  | none => (ip, port)
  | some t => (t, (ntohs a.sinPort : Nat))

/-- What a `Socket` knows of its ends, `/repo/src/io/sps_io_socket.hpp:62-64`. -/
structure Ends where
  peerIp : Text
  peerPort : Int
  selfIp : Text := []
  selfPort : Int := -1
deriving DecidableEq, Repr

/-- `StTcpServerSocket::accept`, `/repo/src/sys/st/io/sps_sys_st_io_tcp.cpp:350-382`, when `st_accept` gave the address `peer` and `getsockname` the address `self`. -/
def tcpAccept (peer self : SockAddr) : Ends :=
  let (cip, cport) := addr2string peer [] 0
  let (sip, sport) := addr2string self [] 0
  { peerIp := cip, peerPort := cport, selfIp := sip, selfPort := sport }

/-- `StSSLAcceptor::handler`, `/repo/src/sys/st/io/sps_sys_st_io_ssl.cpp:547-557`: the address of the client is that of the TCP socket, the own one is left out. -/
def sslAccept (peer self : SockAddr) : Ends :=
  let t := tcpAccept peer self
  { peerIp := t.peerIp, peerPort := t.peerPort }

/-- The results of the calls of `srt_accept` on a listening socket, one after the other: a connection; none yet, and what `st_srt_epoll` returns then; a failure. -/
inductive Call
  | conn (fd : Nat) (a : SockAddr)
  | again (ret : Int)
  | fail
deriving DecidableEq, Repr

/-- `st_srt_accept`, `/repo/src/sys/st/io/sps_sys_st_io_srt.cpp:330-351`: the number that is returned, and the address if it was written. `none`: still waits. -/
def stSrtAccept : List Call → Option (Int × Option SockAddr)
  | [] => none
  | .conn fd a :: _ => some (fd, some a)
  | .again ret :: es => if ret ≠ 0 then some (ret, none) else stSrtAccept es
  | .fail :: _ => some (-1, none)

/-- What comes of `StSrtServerSocket::accept`. -/
inductive Got
  /-- The coroutine waits. -/
  | waits
  /-- A socket for libsrt's socket `fd`. -/
  | socket (fd : Int) (e : Ends)
  /-- Memory is read that was never written. -/
  | undef
deriving DecidableEq, Repr

/-- `StSrtServerSocket::accept`, `sps_sys_st_io_srt.cpp:782-797`: the number is not looked at; `addr` is not initialised. -/
def srtAccept (es : List Call) : Got :=
  match stSrtAccept es with
  | none => .waits
  | some (_, none) => .undef
  | some (fd, some a) => .socket fd { peerIp := (inetNtop a.family a.ip).getD [], peerPort := a.sinPort }

end Sps.Addr
