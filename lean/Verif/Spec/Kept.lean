import Verif.Spec.Stream
/-! # What the server keeps of its streams -/
namespace Spec.Kept
open Sps

/-- The packets a cache object refers to. -/
def held : Store → List AVPkt
  | .av g => g.script.toList ++ g.audio.toList ++ g.video.toList ++ g.q.pbs
  | .raw r => r.pat.toList ++ r.pmt.toList ++ r.q.pbs

/-- The packets kept for stream `cid`. -/
def keptOf (w : World) (cid : Nat) : List AVPkt :=
  match w.caches[cid]? with
  | none => []
  | some c => held c.store

/-- Of any `n` media packets one after another there is a key frame among them. -/
def Grouped (n : Nat) (ps : List AVPkt) : Prop := ∀ a g b, ps.filter isMedia = a ++ g ++ b → g.length = n → ∃ p ∈ g, isKey p = true

end Spec.Kept
