import Verif.Model.RtmpIo
import Verif.Spec.Io
/-!
# What a library sees of a connection
-/
namespace Spec.RtmpIo
open Sps

/-- The bytes the library got. -/
def received : List RtmpCall → List UInt8
  | [] => []
  | .got _ bs :: cs => bs ++ received cs
  | _ :: cs => received cs

/-- The bytes the library has been told are sent. -/
def sent : List RtmpCall → List UInt8
  | [] => []
  | .sent bs :: cs => bs ++ sent cs
  | _ :: cs => sent cs

/-- Every read the library was told has succeeded gave something, and no more than it had room for. -/
def fits (c : RtmpCall) : Prop := match c with
  | .got n bs => 0 < bs.length ∧ bs.length ≤ n
  | _ => True

/-- A call that failed, with its error. -/
def failure : RtmpCall → Option Err
  | .notGot e => some e
  | .notSent e => some e
  | _ => none

end Spec.RtmpIo
