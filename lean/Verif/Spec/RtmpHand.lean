import Verif.Model.RtmpHand
import Verif.Spec.RtmpIo
/-!
# A library that reads when it needs something
-/
namespace Spec.RtmpIo
open Sps

/-- The library needs `need` more bytes: it reads nothing when it has got them, and does not end before. -/
def Frugal : Nat → List RtmpCall → Prop
  | need, [] => need = 0
  | need, .got _ bs :: cs => 0 < need ∧ Frugal (need - bs.length) cs
  | need, _ :: cs => Frugal need cs

end Spec.RtmpIo
