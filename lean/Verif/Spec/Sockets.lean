import Verif.Model.Sockets
/-! # What opening a socket should do -/
namespace Spec.Sockets
open Sps

/-- No open socket has a number that is still to be given. -/
def Fresh (os : Os) : Prop := ∀ s ∈ os.socks, s.id < os.next

/-- The first `n` calls succeed. -/
def allGood (os : Os) (n : Nat) : Prop := ∀ i : Nat, i < n → os.answers.getD i true = true

/-- Afterwards there is one socket more. -/
def Adds (os os' : Os) (s : Sock) : Prop := os'.socks = os.socks ++ [s] ∧ ∀ t ∈ os.socks, t.id ≠ s.id

/-- Afterwards the same sockets are open as before. -/
def Same (os os' : Os) : Prop := os'.socks = os.socks

/-- The system calls listening takes: a socket, its registration with the scheduler, one option or two, `bind`, `listen`; for SRT a socket, a UDP socket, no option or two, `bind`,
the handing over, `listen`. -/
def listenCalls : Transport → Bool → Nat
  | .srt, false => 5
  | .srt, true => 7
  | _, false => 5
  | _, true => 6

/-- What listening on a port of a transport should open. -/
def listener (t : Transport) (id port : Nat) : Sock :=
  { id := id, kind := if t = .srt then .srt else .tcp, port := some port, listens := true }

/-- The calls a client connection takes, if the name resolves. -/
def clientCalls : Transport → Nat
  | .tcp => 3 | .srt => 3 | .https => 4 | .other => 0

/-- Whether a client connection can be made: the transport is known, the name resolves, an SRT connection comes about, no call fails. -/
def clientGood (os : Os) (dns : Text → Text) (waited : Err) (t : Transport) (ip : Text) : Prop :=
  t ≠ .other ∧ dns ip ≠ [] ∧ (t = .srt → waited = Err.SUCCESS) ∧ allGood os (clientCalls t)

/-- What connecting should open. -/
def connection (t : Transport) (id : Nat) (addr : Text) (port : Nat) : Sock :=
  { id := id, kind := if t = .srt then .srt else .tcp, peer := some (addr, port) }

end Spec.Sockets
