import Verif.Model.Io
/-! # Specification of transports: the byte stream, independent of its fragmentation -/
namespace Spec
open Sps

/-- The bytes an event carries. -/
def evBytes : IoEv → List UInt8
  | .data p => p
  | .err _ => []

/-- The byte stream of a list of events: all data, in order. -/
def streamOf (evs : List IoEv) : List UInt8 := evs.flatMap evBytes

/-- A real event: a non-empty piece of data or a non-zero error code. -/
def evOk : IoEv → Bool
  | .data p => !p.isEmpty
  | .err e => e != 0

/-- A well-formed transport. -/
def ioOk (io : Io) : Bool := io.evs.all evOk && io.closed != 0

/-- No error happens before the end of the stream. -/
def noErr (evs : List IoEv) : Bool := evs.all fun | .data _ => true | .err _ => false

end Spec
