import Verif.Model.Relay
import Verif.Spec.Serve
/-!
# Specification of relaying
-/
namespace Spec
open Sps

/-- The requests of HTTP clients in an execution, in the order of their arrival. -/
def requestsIn (ops : List Relay.Op) : List Req := ops.filterMap fun | .sys (.request q) _ => some q | _ => none

/-- The buffers of pulls have a sensible size. -/
def buffersOk (ops : List Relay.Op) : Prop := ∀ e a mem, .answer e a mem ∈ ops → 15 ≤ mem.length ∧ mem.length < 2 ^ 63

/-- Pull `e` is answered, if at all, with a response of the status and framing given, whose body then comes from `io`; its buffer is `mem`. -/
def answered (ops : List Relay.Op) (e status : Nat) (chunked : Bool) (cl : Int) (io : Io) (mem : List UInt8) : Prop :=
  ∀ a m, .answer e a m ∈ ops → a = .opened status chunked cl io ∧ m = mem

/-- Pull `e` feeds the cache `cid`, or has done so, with the FLV demuxer. -/
def feeding (r : Relay) (e cid : Nat) : Prop := (∃ rd hd, r.pulls[e]? = some (.reads cid rd hd)) ∨ r.pulls[e]? = some (.over (some cid))

end Spec
