import Verif.Model.Err
/-!
# Accepting connections and the lifetime of their handlers

`Server::accept`, `IConnHandler`, `ConnManager`, `ICoFactory::start` and `STCo::main_co`.
-/
namespace Sps.Accept

/-- What `accept` of the listening socket gives (`StTcpServerSocket::accept`, `/repo/src/sys/st/io/sps_sys_st_io_tcp.cpp:350-382`): a socket; a failed
`st_accept` (a null descriptor, which `st_netfd_fileno`, line 365, dereferences); a failed `getsockname` (line 366, a null pointer, which `Server::accept`
dereferences, `/repo/src/module/server/sps_server.cpp:92`). -/
inductive Got
  | socket
  | noFd
  | noName
deriving DecidableEq, Repr

/-- A coroutine of a connection: created (`STCo::start`, `/repo/src/sys/st/sps_sys_st_co.cpp:54-61`), in the handler, returned. -/
inductive Phase
  | created
  | running
  | returned
deriving DecidableEq, Repr

/-- A server: the coroutines by connection number, `ConnManager::objs` (`/repo/src/util/sps_util_typedef.hpp:68-86`, which holds the counted pointers), the
connections whose handler was called, and the connections that were closed (the last counted pointer to the handler object, which owns the socket, is gone), in order. -/
structure World where
  threads : List (Option Phase)
  registry : List Nat
  served : List Nat
  closed : List Nat
deriving DecidableEq, Repr

/-- A server after `Server::init` and `Server::listen`, `sps_server.cpp:43-51, 71-81`. -/
def World.new : World := ⟨[], [], [], []⟩

/-- What can happen next. Code between two blocking calls runs alone. -/
inductive Op
  /-- `accept` returns; `thread`: the new coroutine can be created. -/
  | accept (g : Got) (thread : Bool)
  /-- The scheduler enters the new coroutine of a connection. -/
  | enter (i : Nat)
  /-- The handler of a connection returns. -/
  | leave (i : Nat)
deriving DecidableEq, Repr

/-- The results of a step: the new state; undefined behaviour (null dereference); not possible in this state. -/
inductive Res
  | ok (w : World)
  | undef
  | never
deriving DecidableEq, Repr

/-- One turn of the loop of `Server::accept`, `sps_server.cpp:82-110`. `factory->create` (`/repo/src/module/server/sps_server_handler.cpp:72-74`) always gives an object.
When the coroutine cannot be created the only pointer, `h`, goes out of scope at `continue`, and the socket with it. Otherwise `reg` keeps the pointer. -/
def World.accept (w : World) (g : Got) (thread : Bool) : Res :=
  match g with
  | .noFd => .undef
  | .noName => .undef
  | .socket =>
    if thread then .ok { w with threads := w.threads ++ [some .created], registry := w.registry ++ [w.threads.length] }
    else .ok { w with threads := w.threads ++ [none], closed := w.closed ++ [w.threads.length] }

/-- `STCo::main_co` to the call of the handler, `sps_sys_st_co.cpp:63-75`: the coroutine knows the handler only by a weak pointer; if the object is gone nothing
is called. -/
def World.enter (w : World) (i : Nat) : Res :=
  match w.threads[i]? with
  | some (some .created) =>
    if i ∈ w.registry then .ok { w with threads := w.threads.set i (some .running), served := w.served ++ [i] }
    else .ok { w with threads := w.threads.set i (some .returned) }
  | _ => .never

/-- The end of `STCo::main_co`, `sps_sys_st_co.cpp:75-82`, with `IConnHandler::on_stop`, `sps_server.cpp:39-41`: the pointer leaves the registry, and the one of the
coroutine is the last. -/
def World.leave (w : World) (i : Nat) : Res :=
  match w.threads[i]? with
  | some (some .running) =>
    .ok { w with threads := w.threads.set i (some .returned), registry := w.registry.filter (· ≠ i), closed := w.closed ++ [i] }
  | _ => .never

/-- One step. -/
def World.step (w : World) : Op → Res
  | .accept g t => w.accept g t
  | .enter i => w.enter i
  | .leave i => w.leave i

/-- A history. -/
def World.run (w : World) : List Op → Res
  | [] => .ok w
  | o :: os => match w.step o with
    | .ok w' => w'.run os
    | r => r

end Sps.Accept
