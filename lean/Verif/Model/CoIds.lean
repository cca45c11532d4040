import Verif.Model.Assoc
/-!
# The numbers in log lines

Every log line has a number (`get_context_id`, `/repo/src/log/sps_log.hpp:66-76`) that stands for the coroutine that wrote it: `STContext`, `STCo::main_co`.
-/
namespace Sps

/-- `STContext`, `/repo/src/sys/st/sps_sys_st_co.hpp:34-42`: the numbers of the threads (by their address), and the next number, `static int id` of `set_id`
(`sps_sys_st_co.cpp:42-45`). -/
structure CoIds where
  ids : Assoc Nat Nat := []
  next : Nat := 0
deriving Repr

/-- What happens: a coroutine comes to its handler, on the thread at this address (`STCo::main_co`, `sps_sys_st_co.cpp:70-72`; threads whose handler is gone return before,
`:66-68`); its handler has returned (`:78-80`); a line is logged by a thread (`none`: `st_thread_self` is null, before the library is initialised). -/
inductive CoEv
  | enter (t : Nat)
  | leave (t : Nat)
  | line (t : Option Nat)
deriving DecidableEq, Repr

namespace CoIds

/-- `STContext::get_id`, `sps_sys_st_co.cpp:32-40`. -/
def getId (s : CoIds) (self : Option Nat) : Int :=
  match self with
  | none => -1
  | some t => match s.ids.find t with
    | some id => id
    | none => -1

/-- `STContext::set_id`, `sps_sys_st_co.cpp:42-45`. `none`: `id++` overflows an `int`. -/
def setId (s : CoIds) (t : Nat) : Option CoIds :=
  if s.next + 1 < 2 ^ 31 then some { ids := s.ids.insert t s.next, next := s.next + 1 } else none

/-- `STContext::remove_id`, `sps_sys_st_co.cpp:47-49`. -/
def removeId (s : CoIds) (t : Nat) : CoIds := { s with ids := s.ids.erase t }

/-- The numbers of the lines logged in an execution. -/
def run : CoIds → List CoEv → Option (CoIds × List Int)
  | s, [] => some (s, [])
  | s, .enter t :: es => (s.setId t).bind fun s => s.run es
  | s, .leave t :: es => (s.removeId t).run es
  | s, .line t :: es => (s.run es).map fun (s', l) => (s', s.getId t :: l)

end CoIds
end Sps
