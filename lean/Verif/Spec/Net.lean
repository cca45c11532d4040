import Verif.Model.Net
import Verif.Spec.Io
/-!
# Sockets: what a user relies on
-/
namespace Spec.Net
open Sps

/-- A key or value of a stream id: without `,` and `=`. -/
def word (t : Text) : Prop := 44 ∉ t ∧ 61 ∉ t

/-- Pairs, each followed by a comma. -/
def renderTrail (ps : List Header) : Text := ps.flatMap fun p => p.1 ++ 61 :: (p.2 ++ [44])

/-- `v` is the value of the last pair with key `k`; it is empty if there is none. -/
def Last (k : Text) (ps : List Header) (v : Text) : Prop :=
  (∃ a c, ps = a ++ (k, v) :: c ∧ ∀ p ∈ c, p.1 ≠ k) ∨ ((∀ p ∈ ps, p.1 ≠ k) ∧ v = [])

/-- A reader that hands out the bytes `pending` in order: a successful read of at most `n` bytes takes them from the front, a
failed one takes nothing. `Ok` is what the reader relies on. -/
structure Sound {S : Type} (Ok : S → Prop) (read : S → Nat → ReadRes × S) (pending : S → List UInt8) : Prop where
  ok : ∀ s n d s', Ok s → 0 < n → read s n = (.ok d, s') → d.length ≤ n ∧ pending s = d ++ pending s' ∧ Ok s'
  err : ∀ s n e s', Ok s → 0 < n → read s n = (.err e, s') → e ≠ Err.SUCCESS ∧ pending s = pending s'

/-- A waiter waits for events of a socket. -/
def Waits (d : Dispatch) (fd : Nat) (w : Waiter) : Prop := ∃ ws, d.conds.find fd = some ws ∧ w ∈ ws

/-- All bits of `ev` are in `e`. -/
def covers (e ev : Nat) : Prop := ∀ i, ev.testBit i = true → e.testBit i = true

/-- Why a waiter returns `e`: an event on its socket, of its kind or an error, was reported while it waited. -/
def Cause (ops : List Dispatch.Op) (w : Waiter) (e : Err) : Prop := ∃ pre fd es err post, ops = pre ++ .event fd es err :: post ∧
  Waits (Dispatch.init.run pre).1 fd w ∧ (es &&& Dispatch.ERR ≠ 0 ∧ e = err ∨ es &&& Dispatch.ERR = 0 ∧ es &&& w.event ≠ 0 ∧ e = Err.SUCCESS)

/-- The datagrams a history queued for a session, in order; of long ones only the first 4096 bytes are kept. -/
def queuedFor (s : Nat) : List (Udp.Op × Udp.Ev) → List (List UInt8)
  | [] => []
  | (.arrive d, .queued t) :: log => if t = s then d.data.take 4096 :: queuedFor s log else queuedFor s log
  | _ :: log => queuedFor s log

/-- The datagrams the reads of a session returned, in order. -/
def readBy (s : Nat) : List (Udp.Op × Udp.Ev) → List (List UInt8)
  | [] => []
  | (_, .got t b) :: log => if t = s then b :: readBy s log else readBy s log
  | _ :: log => readBy s log

/-- The datagrams waiting in a session. -/
def waiting (u : Udp) (s : Nat) : List (List UInt8) := match u.all[s]? with
  | some x => x.queue
  | none => []

end Spec.Net
