import Verif.Model.Ffmpeg
/-!
# Remuxing: what is kept
-/
namespace Spec.Ffmpeg
open Sps

/-- The distance of two times in seconds, `a` in one time base and `b` in another, is at most half a unit of the second: |a·p - b·q| ≤ q/2, without fractions. -/
def Near (a : Int) (p : TimeBase) (b : Int) (q : TimeBase) : Prop :=
  2 * ((a * p.num * q.den - b * q.num * p.den).natAbs : Int) ≤ q.num * p.den

/-- Streams that a container for media takes. -/
def Kept (s : FfStream) : Prop := s.media = .video ∨ s.media = .audio ∨ s.media = .subtitle ∨ s.media = .data

instance (s : FfStream) : Decidable (Kept s) := inferInstanceAs (Decidable (_ ∨ _))

/-- A packet of the input and the packet that should become of it in the output: the same content, in the output stream for its stream, at the same times. -/
structure Copy (ins outs : List FfStream) (a b : FfPkt) : Prop where
  data : b.data = a.data ∧ b.key = a.key
  stream : ∃ s t, ins[a.index]? = some s ∧ outs[b.index]? = some t ∧ t.media = s.media ∧ t.params = s.params ∧ Near a.pts s.tb b.pts t.tb ∧ Near a.dts s.tb b.dts t.tb

/-- Times can be expressed. -/
def Fits (a : Int) (p q : TimeBase) : Prop := 0 ≤ a ∧ a * p.num * q.den < Ff.MAX * q.num * p.den

/-- A time base of a stream. -/
def Good (p : TimeBase) : Prop := 0 < p.num ∧ 0 < p.den

/-- Packets with times, neither negative nor too large for the output, whose stream `i` has the time base `tbs i`. -/
structure Writable (ks : List FfStream) (tbs : Nat → TimeBase) (p : FfPkt) : Prop where
  times : ∀ s, ks[p.index]? = some s → Good s.tb ∧ Good (tbs p.index) ∧ Fits p.pts s.tb (tbs p.index) ∧ Fits p.dts s.tb (tbs p.index)

end Spec.Ffmpeg
