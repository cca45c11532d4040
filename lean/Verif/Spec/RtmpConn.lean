import Verif.Spec.Names
import Verif.Spec.Rtmp
import Verif.Spec.Server
/-!
# Clients of a stream
-/
namespace Spec.RtmpConn
open Sps Spec.Rtmp Spec.Names

/-- An RTMP client: the stream that it wants, the port and the query that it adds, and whether it publishes the stream. -/
structure User where
  stream : Stream
  port : Option Text := none
  query : Option Text := none
  publishes : Bool

structure User.Ok (c : User) : Prop where
  stream : c.stream.Ok
  port : portOk c.port
  query : queryOk c.query

/-- Its conversation: it connects to `rtmp://HOST[:port]/APP`, sets the connection up, and plays or publishes `NAME[?query]`. -/
def Asks (c : User) (ms : List AmfMsg) : Prop :=
  ∃ pre con txn app mid start fin, ms = pre ++ con :: mid ++ [start] ∧ (∀ m ∈ pre, idle m) ∧
    decoded con = some (Err.SUCCESS, some (.connect txn app (Parts.text ⟨ascii "rtmp", c.stream.host, c.port, c.stream.app, none⟩))) ∧
    (∀ m ∈ mid, setup m) ∧ Starts start (c.stream.name ++ opt 63 c.query) (!c.publishes) fin

/-- `GET /APP/NAME.flv[?query]` with `Host: HOST[:port]`. -/
structure Viewer where
  stream : Stream
  port : Option Text := none
  query : Option Text := none

structure Viewer.Ok (c : Viewer) : Prop where
  stream : c.stream.Ok
  port : portOk c.port
  query : queryOk c.query

/-- The target of its request. -/
def Viewer.target (c : Viewer) : Text := c.stream.path ++ ascii "." ++ ascii "flv" ++ opt 63 c.query

end Spec.RtmpConn
