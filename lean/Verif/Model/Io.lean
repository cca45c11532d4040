import Verif.Model.Err
/-!
# Transports

`IReader::read` (`/repo/src/io/sps_io.hpp:43-68`) is an interface; what a socket returns is decided by the network.
A transport is modelled by the list of what will happen on it: pieces of data becoming readable, and errors
(timeouts, resets). A `read(buf, size)` returns as much of the first piece as fits, or the error. This covers every
way the network can cut a stream into reads, since the pieces are arbitrary.
Contract assumed (it is what the TCP socket does, `/repo/src/sys/st/io/sps_sys_st_io_tcp.cpp:268-293`): a successful
read returns between 1 and `size` bytes; `size = 0` is `ERROR_IO_BUFFER_FULL`; a closed transport keeps failing.
-/
namespace Sps

/-- Something that happens on a transport. -/
inductive IoEv
  | data (bytes : List UInt8)
  | err (e : Err)
deriving DecidableEq, Repr

/-- A transport: what will still happen, then `closed` for ever. -/
structure Io where
  evs : List IoEv
  closed : Err
deriving DecidableEq, Repr

/-- Result of a `read`: an error, or the bytes received. -/
inductive ReadRes
  | ok (bytes : List UInt8)
  | err (e : Err)
deriving DecidableEq, Repr

namespace Io

/-- `IReader::read(buf, size, nread)` on a transport. -/
def read (io : Io) (size : Nat) : ReadRes × Io :=
  if size = 0 then (.err Err.ERROR_IO_BUFFER_FULL, io)
  else match io.evs with
    | [] => (.err io.closed, io)
    | .err e :: evs => (.err e, { io with evs := evs })
    | .data p :: evs =>
      if p.length ≤ size then (.ok p, { io with evs := evs })
      else (.ok (p.take size), { io with evs := .data (p.drop size) :: evs })

end Io
end Sps
