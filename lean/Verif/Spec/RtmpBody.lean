import Verif.Model.RtmpBody
/-!
# Packets of the program and the memory for their bodies
-/
namespace Spec.RtmpBody
open Sps.RtmpBody

/-- Which packets there are, and whether they own their bodies. -/
abbrev Scope := Nat → Option Bool

/-- An operation a C++ program with these packets can write, as this one does: packets are received into owning packets, and only others are pointed to the memory of others (`lent`). -/
def allowed (sc : Scope) (lent : Nat → Prop) : Op → Prop
  | .new i _ => sc i = none
  | .recv i _ => sc i = some true
  | .lend i b => sc i = some false ∧ lent b
  | .use i => sc i ≠ none
  | .leave i => sc i ≠ none

/-- The packets afterwards. -/
def after (sc : Scope) : Op → Scope
  | .new i own => fun j => if j = i then some own else sc j
  | .leave i => fun j => if j = i then none else sc j
  | _ => sc

/-- Programs of such operations. -/
def Program (lent : Nat → Prop) : Scope → List Op → Prop
  | _, [] => True
  | sc, o :: os => allowed sc lent o ∧ Program lent (after sc o) os

/-- The packets at the end. -/
def ends (sc : Scope) (os : List Op) : Scope := os.foldl after sc

/-- The library fails in the first chunk of a message. -/
def breaksFirst : Op → Bool
  | .recv _ .failedFirst => true
  | _ => false

/-- No packets. -/
def none' : Scope := fun _ => none

end Spec.RtmpBody
