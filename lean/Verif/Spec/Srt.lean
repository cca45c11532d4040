import Verif.Spec.Ts
import Verif.Spec.Cache
/-!
# Specification of what an SRT player is sent

In terms of the 188-byte packets that the publisher sends.
-/
namespace Spec.Srt
open Spec.Ts

/-- The parts of a transport stream: program association, program maps, and the rest. -/
inductive Part
  | association
  | map
  | rest
deriving DecidableEq, Repr

/-- The packets that are passed on, of the packets that were sent: those of pids that are known by then, without those of streams that have no payload. -/
inductive Relayed : List (List UInt8) → List (Part × List UInt8) → Prop
  | nil : Relayed [] []
  | association {ps r p} : Relayed ps r → (header p).pid = 0 → Relayed (ps ++ [p]) (r ++ [(.association, p)])
  | map {ps r p} : Relayed ps r → (header p).pid ≠ 0 → Announced ps (header p).pid .pmt → Relayed (ps ++ [p]) (r ++ [(.map, p)])
  | rest {ps r p k} : Relayed ps r → (header p).pid ≠ 0 → ¬ Announced ps (header p).pid .pmt → Announced ps (header p).pid k → hasPayload p →
      Relayed (ps ++ [p]) (r ++ [(.rest, p)])
  | unknown {ps r p} : Relayed ps r → (∀ k, ¬ Announced ps (header p).pid k) → Relayed (ps ++ [p]) r
  | noPayload {ps r p} : Relayed ps r → (header p).pid ≠ 0 → ¬ Announced ps (header p).pid .pmt → ¬ hasPayload p → Relayed (ps ++ [p]) r

/-- The last element with a property, if any. -/
def latest {α : Type} (f : α → Bool) (l : List α) : List α := ((l.filter f).getLast?).toList

/-- What a player starts with: the latest association, the latest map, and all of the rest. -/
def start (r : List (Part × List UInt8)) : List (Part × List UInt8) :=
  latest (·.1 == .association) r ++ latest (·.1 == .map) r ++ r.filter (·.1 == .rest)

/-- The packets that are sent to a player that joins when `past` has been passed on and then stays while `next` is. -/
def played (past next : List (Part × List UInt8)) : List UInt8 := (start past ++ next).flatMap (·.2)

end Spec.Srt
