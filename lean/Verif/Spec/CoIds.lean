import Verif.Model.CoIds
/-!
# Which coroutine wrote a line
-/
namespace Spec
open Sps

/-- How many coroutines have started. -/
def started (h : List CoEv) : Nat := h.countP fun e => match e with | .enter _ => true | _ => false

/-- The coroutine that runs on thread `t` after the history `h` (last event first), named by how many have started before it; `none` if there is none. The same thread
runs many coroutines, one after the other. -/
def runsOn (t : Nat) : (h : List CoEv) → Option Nat
  | [] => none
  | .enter u :: h => if u = t then some (started h) else runsOn t h
  | .leave u :: h => if u = t then none else runsOn t h
  | .line _ :: h => runsOn t h

/-- The coroutines that wrote the lines of the events `es` that come after the history `h`. -/
def authors : (h : List CoEv) → List CoEv → List (Option Nat)
  | _, [] => []
  | h, .line t :: es => (t.bind fun t => runsOn t h) :: authors (.line t :: h) es
  | h, e :: es => authors (e :: h) es

end Spec
