import Verif.Model.Stream
import Verif.Spec.Cache
/-!
# Specification of stream delivery, as functions of the log of an execution

The log is the list of atomic pieces with their answers; nothing here looks at the server's state.
-/
namespace Spec
open Sps

/-- A log. -/
abbrev Log := List (WOp × WOut)

/-- Packets published to cache `cid`. -/
def publishedTo (cid : Nat) : Log → List AVPkt
  | [] => []
  | (.put c p, .ok) :: l => if c = cid then p :: publishedTo cid l else publishedTo cid l
  | _ :: l => publishedTo cid l

/-- What player `c` has read. -/
def received (c : Nat) : Log → List AVPkt
  | [] => []
  | (.dump d, .pkts ps) :: l => if d = c then ps ++ received c l else received c l
  | _ :: l => received c l

/-- Packets published to cache `cid` until player `c` leaves. -/
def untilLeave (c cid : Nat) : Log → List AVPkt
  | [] => []
  | (.put d p, .ok) :: l => if d = cid then p :: untilLeave c cid l else untilLeave c cid l
  | (.leave d, .ok) :: l => if d = c then [] else untilLeave c cid l
  | _ :: l => untilLeave c cid l

/-- Whether a cache holds a raw transport stream: the second cache of an SRT publisher. -/
def isRaw (cid : Nat) : Log → Bool
  | [] => false
  | (.publishSrt _, .published n) :: l => (n + 1 == cid) || isRaw cid l
  | _ :: l => isRaw cid l

/-- The start-up packets for cache `cid` after the log `l`. -/
def startupOf (cid : Nat) (l : Log) : List AVPkt :=
  if isRaw cid l then startupRaw (publishedTo cid l) else startup (publishedTo cid l)

/-- What player `c` should get in all: start-up packets at the time it joined, then everything published while it was
joined. `past` is the log so far. -/
def entitled (c : Nat) : Log → Log → List AVPkt
  | _, [] => []
  | past, (op, o) :: l =>
    match o with
    | .joined d cid => if d = c then startupOf cid past ++ untilLeave c cid l else entitled c (past ++ [(op, o)]) l
    | _ => entitled c (past ++ [(op, o)]) l

/-- What is pending for player `c`. -/
def pendingOf (w : World) (c : Nat) : List AVPkt :=
  match w.clients[c]? with
  | none => []
  | some cl => cl.q.pbs

end Spec

namespace Spec
open Sps

/-- The key cache `cid` was published under by a connected publisher, while that publisher is connected. `acc` is the
answer for the log before. -/
def activeKeyFrom (cid : Nat) : Option Key → Log → Option Key
  | acc, [] => acc
  | acc, (.publish k, .published n) :: l => activeKeyFrom cid (if n = cid then some k else acc) l
  | acc, (.publishSrt k, .published n) :: l => activeKeyFrom cid (if n = cid then some k else acc) l
  | acc, (.unpublish n, .ok) :: l => activeKeyFrom cid (if n = cid then none else acc) l
  | acc, _ :: l => activeKeyFrom cid acc l

/-- The key of the publisher feeding `cid`, if it is connected at the end of the log. -/
def activeKey (cid : Nat) (l : Log) : Option Key := activeKeyFrom cid none l

/-- The key pull `e` was started for, while it lasts. -/
def pullKeyFrom (e : Nat) : Option Key → Log → Option Key
  | acc, [] => acc
  | acc, (.edgeRequest k, .edgeStarted d) :: l => pullKeyFrom e (if d = e then some k else acc) l
  | acc, (.edgeEnd d, .ok) :: l => pullKeyFrom e (if d = e then none else acc) l
  | acc, _ :: l => pullKeyFrom e acc l

/-- The key of pull `e`, if it is still running at the end of the log. -/
def pullKey (e : Nat) (l : Log) : Option Key := pullKeyFrom e none l

/-- The log shows that cache `cid` was created for key `k`: by a publisher of `k`, as the raw copy of an SRT publisher's
stream, or by an upstream pull that was started for `k`. -/
def madeUnder (cid : Nat) (k : Key) (l : Log) : Prop :=
  (.publish k, .published cid) ∈ l ∨ (.publishSrt k, .published cid) ∈ l ∨
  (∃ n k', cid = n + 1 ∧ k = tsKey k' ∧ (.publishSrt k', .published n) ∈ l) ∨
  (∃ e, (.edgeOpen e, .published cid) ∈ l ∧ (.edgeRequest k, .edgeStarted e) ∈ l)

/-- When the wait of a player that started a pull of `k` is over, no other pull of `k` has been started since. -/
def prompt (k : Key) (l : Log) : Prop := ∀ l1 l2 e o e', l = l1 ++ (.edgeDrop e, o) :: l2 → (.edgeRequest k, .edgeStarted e) ∈ l1 →
  (.edgeRequest k, .edgeStarted e') ∈ l1 → e' ≤ e

/-- A pull that was started for `k` has opened. -/
def pullOpened (k : Key) (l : Log) : Bool := l.any fun x =>
  match x with
  | (.edgeOpen e, .published _) => l.contains (.edgeRequest k, .edgeStarted e)
  | _ => false

/-- A pull of `k` takes its key or gives it up: it opens, ends after it has opened, or, having opened, is dropped by the player that started it. `l` is the log before that. -/
def pullTouches (k : Key) (l : Log) : WOp × WOut → Prop
  | (.edgeOpen e, .published _) => (.edgeRequest k, .edgeStarted e) ∈ l
  | (.edgeEnd e, .ok) => (.edgeRequest k, .edgeStarted e) ∈ l ∧ ∃ cid, (.edgeOpen e, .published cid) ∈ l
  | (.edgeDrop e, .ok) => (.edgeRequest k, .edgeStarted e) ∈ l ∧ ∃ cid, (.edgeOpen e, .published cid) ∈ l
  | _ => False

/-- Pulls of `k` and publishers of `k` keep apart: no pull takes the key or gives it up while a publisher is connected. -/
def apart (k : Key) (l : Log) : Prop := ∀ l1 x l2, l = l1 ++ x :: l2 → pullTouches k l1 x → ∀ cid, activeKey cid l1 ≠ some k

/-- A pull of `k` that has opened lasts. -/
def pulledNow (k : Key) (l : Log) : Prop := ∃ e cid, pullKey e l = some k ∧ (.edgeOpen e, .published cid) ∈ l

/-- The stream `k` is what is fed into cache `cid`: by a publisher that is connected, if pulls of `k` have kept apart from its publishers; or by a pull that lasts and that opened
while no publisher of `k` was connected, if the players that start pulls of `k` are prompt. -/
def isStream (cid : Nat) (k : Key) (l : Log) : Prop :=
  (activeKey cid l = some k ∧ apart k l) ∨
  ∃ l1 e l2, l = l1 ++ (.edgeOpen e, .published cid) :: l2 ∧ (∀ c, activeKey c l1 ≠ some k) ∧ pullKey e l = some k ∧ prompt k l

/-- A key that does not start like the key of the raw copy of an SRT stream, `ts://`. -/
def plainKey (k : Key) : Bool := !(tsKey []).isPrefixOf k

/-- Nothing but SRT publishers of `k` has made a stream with the key of the raw copy of `k`: nobody has published that key itself,
and no pull of it has opened. -/
def rawFree (k : Key) (l : Log) : Bool := (l.all fun x =>
  match x with
  | (.publish k', .published _) => k' != tsKey k
  | (.publishSrt k', .published _) => k' != tsKey k
  | _ => true) && !pullOpened (tsKey k) l

end Spec
