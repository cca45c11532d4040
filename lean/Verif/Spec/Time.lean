import Verif.Model.Time
import Verif.Spec.SiteFile
/-!
# Time limits: what they are for
-/
namespace Spec.Time
open Sps Sps.Conf Spec.Conf

/-- The time limit an option of a server block states: its last directive gives microseconds or `-1` for none; there is none without it. -/
def Limit (n : String) (server : List Tree) (l : Nat) : Prop :=
  match lastArg (ascii n) server with
  | none => l = noLimit
  | some a => Means .u64 a (.u64 l)

/-- The transport of a peer, without the times: its pieces, then its end; a peer that never ends the connection is one that ends with `late`. -/
def plain (late : Err) (t : Timed) : Io := { evs := t.pieces.map (fun x => .data x.2), closed := (t.closes.map (·.2)).getD late }

/-- When the next thing happens. -/
def next (t : Timed) : Option Nat :=
  match t.pieces with
  | (w, _) :: _ => some w
  | [] => t.closes.map (·.1)

/-- Nothing is noticed from `now` on for as long as the limit. -/
def Silent (t : Timed) (now limit lag : Nat) : Prop := ∀ w, next t = some w → now < w ∧ now + limit ≤ w + lag

/-- Something at `w` is in time after something at `before`: less than the limit later (less `lag`), or there is no limit. -/
def Soon (limit lag before w : Nat) : Prop := before ≤ w ∧ (limit = noLimit ∨ w + lag < before + limit)

/-- Every piece, and the end if there is one, comes in time after what came before it; without a limit, the peer ends the connection some time. -/
def InTime (limit lag : Nat) (before : Nat) : List (Nat × List UInt8) → Option (Nat × Err) → Prop
  | [], none => limit ≠ noLimit
  | [], some (w, _) => Soon limit lag before w
  | (w, _) :: ps, c => Soon limit lag before w ∧ InTime limit lag w ps c

/-- Any program that reads: it is busy for a while, reads at most `size` bytes, notices them with some lag and goes on with the result. -/
inductive Prog (L : Nat) (α : Type)
  | done (a : α)
  | ask (busy lag size : Nat) (ok : lag ≤ L) (k : ReadRes → Prog L α)

/-- Its result over a transport. -/
def Prog.plain {L : Nat} {α : Type} : Prog L α → Io → α
  | .done a, _ => a
  | .ask _ _ size _ k, io => (k (io.read size).1).plain (io.read size).2

/-- Its result, and when, over a transport with times. -/
def Prog.timed {L : Nat} {α : Type} (late : Err) (limit : Nat) : Prog L α → Nat → Timed → Option (α × Nat)
  | .done a, now, _ => some (a, now)
  | .ask busy lag size _ k, now, t => (t.read late limit (now + busy) lag size).bind fun x => (k x.1).timed late limit x.2.1 x.2.2

/-- Room for that many bytes in all. -/
def total (room : List (Nat × Nat)) : Nat := (room.map (·.2)).sum

/-- The peer makes room again and again, every time in time after the time before. -/
def Drains (limit : Nat) (before : Nat) : List (Nat × Nat) → Prop
  | [] => True
  | (w, k) :: r => Soon limit 0 before w ∧ 0 < k ∧ Drains limit w r

/-- Writes, one after the other, each after the program was busy for a while: the errors; `none`: one never returns. -/
def writes (limit : Nat) : List (Nat × Nat) → Nat → Drain → Option (List Err)
  | [], _, _ => some []
  | (busy, n) :: ws, now, d => (d.write limit (now + busy) n).bind fun x => (writes limit ws x.2.2.1 x.2.2.2).map (x.1 :: ·)

/-- Packets that came before some time, those waiting in the queue included. -/
def before (c : Coming) (t : Nat) : List AVPkt := c.queue ++ (c.puts.filter fun x => x.1 < t).map (·.2)

end Spec.Time
