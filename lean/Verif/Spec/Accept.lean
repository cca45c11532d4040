import Verif.Model.Accept
/-! # Connections of a history -/
namespace Sps.Spec.Accept
open Sps.Accept

/-- The `accept` results of a history, in order: connection `i` is the `i`-th. -/
def arrivals (ops : List Op) : List Bool := ops.filterMap fun o => match o with | .accept _ t => some t | _ => none

/-- The connections whose coroutine was entered, in order. -/
def entered (ops : List Op) : List Nat := ops.filterMap fun o => match o with | .enter i => some i | _ => none

/-- The connections whose handler returned, in order. -/
def left (ops : List Op) : List Nat := ops.filterMap fun o => match o with | .leave i => some i | _ => none

/-- No `accept` fails. -/
def Accepts (ops : List Op) : Prop := ∀ g t, .accept g t ∈ ops → g = .socket

end Sps.Spec.Accept
