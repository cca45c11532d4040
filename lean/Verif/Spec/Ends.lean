import Verif.Spec.Serve
/-!
# Specification of how streams end
-/
namespace Spec
open Sps

/-- The turns that connection `i` gets. -/
def turns (i : Nat) (ops : List Sys.Op) : Nat := (ops.filter fun | .run j => j == i | _ => false).length

/-- What a publisher's connection can still receive, in bytes. -/
def bytesOf (io : Io) : Nat := (io.evs.map fun | .data p => p.length | .err _ => 0).sum

/-- An SRT connection that has ended says so: reading from it fails. -/
def Tells (q : Req) : Prop := q.via = .srt → q.io.closed ≠ Err.SUCCESS

/-- The connection publishes what it sends (an FLV file over HTTP, RTMP messages, a transport stream over SRT) as stream `cid`. -/
def Publishes (k : Conn) (cid : Nat) : Prop :=
  (∃ rd hd, k.job = .flvPub cid rd hd) ∨ (∃ ms cl, k.job = .rtmpPub cid ms cl) ∨ ∃ rd ctx st, k.job = .srtPub cid rd ctx st

/-- The connection published stream `cid` and its handler has returned. -/
def Ended (k : Conn) (cid : Nat) : Prop :=
  ∃ e, k.job = .done (.publisher cid) e ∨ k.job = .done (.rtmpPublisher cid) e ∨ k.job = .done (.srtPublisher cid) e

/-- The connection plays, over HTTP, RTMP or SRT, as client `c`. -/
def Plays (k : Conn) (c : Nat) : Prop := (∃ m, k.job = .view c m) ∨ (∃ snk, k.job = .rtmpView c snk) ∨ k.job = .srtView c

end Spec
