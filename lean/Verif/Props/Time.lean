import Verif.Lemmas.Time
import Verif.Props.SiteFile
/-!
# C114: time limits
-/
namespace Sps.Time
open Spec Spec.Conf Spec.Time Spec.SiteFile

/-- **C114**, the configuration. Whatever the layout of the file: the connections accepted by the server of a server block have the limits the block states, for receiving and for sending, and none where
it states none. (The servers and the server blocks are in the same order; a server listens on the port of its block.) -/
theorem C114_configured (file : Text) (ls : List Text) (hls : IsLines file ls) (hr : noRoot ls) (ts : List Conf.Tree) (hw : Writes ls ts) (hl : Legal .root ts) :
    ∃ root, Conf.initConf file = .ok root [] ∧ List.Forall₂ (fun m s => ∀ p r w, Port s p → Limit "recv_timeout" s r → Limit "send_timeout" s w →
      Setup.port m = p ∧ Limits.accepted m = ⟨r, w⟩) (Setup.all root) (allServers ts) := by
  obtain ⟨bs, e1, e2, -⟩ := SiteFile.all_servers hl
  refine ⟨_, (C49_file file ls hls hr _ _).2 ⟨ts, hw, hl, rfl, rfl⟩, ?_⟩
  show List.Forall₂ _ (Setup.all (build .root [] ts)) _
  rw [e1, e2]
  clear e1 e2
  induction bs with
  | nil => exact .nil
  | cons b bs ih =>
    refine .cons (fun p r w hp h1 h2 => ⟨SiteFile.port_eq hp, ?_⟩) ih
    have a1 := limit_eq (n := "recv_timeout") (a := b.1) (by decide +kernel) h1
    have a2 := limit_eq (n := "send_timeout") (a := b.1) (by decide +kernel) h2
    unfold Limits.accepted Limits.ofServer
    simp only [a1, a2]

/-- **C114**, a limit ends only waits that last as long. With a limit, every read returns by then. It fails with the time limit's error exactly when nothing is noticed from the peer for as long as the limit; otherwise it
returns what it returns without limits. `late` is that error, `lag` how much later than it happens something is noticed. -/
theorem C114_read (late : Err) (limit now lag size : Nat) (t : Timed) (hs : 0 < size) (hl : limit ≠ noLimit) :
    ∃ r w t', t.read late limit now lag size = some (r, w, t') ∧ now ≤ w ∧ w ≤ now + limit ∧
      (Silent t now limit lag → r = .err late ∧ w = now + limit ∧ t' = t) ∧
      (¬Silent t now limit lag → r = (Io.read (plain late t) size).1 ∧ plain late t' = (Io.read (plain late t) size).2) :=
  read_limit late t hs hl

/-- **C114**, peers that keep sending are not affected. If every piece comes in time after the one before, any program that reads, however busy it is in between, has the result it has over the transport without times; a
peer that falls silent for ever is, if there is a limit, one whose connection ends with the error of the limit. So what is proved about transports without times holds for these peers. -/
theorem C114_in_time {L : Nat} {α : Type} (late : Err) (limit now : Nat) (p : Prog L α) (t : Timed) (h : InTime limit L now t.pieces t.closes) :
    ∃ now', p.timed late limit now t = some (p.plain (plain late t), now') ∧ now ≤ now' :=
  prog_inTime late limit p now t ⟨now, Nat.le_refl _, h⟩

/-- **C114**, writing to peers that keep taking data: if they make room in time again and again, and enough of it, all writes (of at least a byte) succeed. -/
theorem C114_write (limit now : Nat) (ws : List (Nat × Nat)) (d : Drain) (h : Drains limit now d.room) (h0 : ∀ x ∈ ws, 0 < x.2) (ht : (ws.map (·.2)).sum ≤ total d.room) :
    writes limit ws now d = some (ws.map fun _ => Err.SUCCESS) :=
  writes_ok limit ws now d (.inr ⟨now, Nat.le_refl _, h⟩) h0 ht

/-- **C114**, writing to a peer that no longer takes data: with a limit, a write for which there is never enough room fails with the error of the limit, by the limit after the last room was made. -/
theorem C114_write_stalled (limit now n X : Nat) (room : List (Nat × Nat)) (hl : limit ≠ noLimit) (hX : ∀ x ∈ room, x.1 ≤ X) (hn : total room < n) :
    ∃ s w d, Drain.write limit now n ⟨room, none⟩ = some (Err.ERROR_SOCKET_TIMEOUT, s, w, d) ∧ s ≤ total room ∧ w ≤ max now X + limit := by
  obtain ⟨s, w, r, h1, h2, h3⟩ := send_stalled hl room now n X hX hn
  refine ⟨s, w, ⟨r, none⟩, ?_, h2, h3⟩
  unfold Drain.write
  simp only [if_neg (by omega : ¬n = 0), h1, Option.map_some]

/-- **C114**, players. Whatever comes to the queue of a player and whenever, and however long its writes take: it is sent the packets in order; it is given up only at a time `t` such that no packet came in the 10 s before
`t`, and then it has been sent everything that came before; every pass until then sends a packet, so that a player of a stream that has fallen silent is given up. -/
theorem C114_players (work : List (Nat × Nat)) (now : Nat) (c : Coming) (hs : c.puts.Pairwise fun x y => x.1 ≤ y.1) :
    ∃ ps e, Coming.play work now c = (ps, e) ∧ ps <+: c.queue ++ c.puts.map (·.2) ∧ (e = none → work.length ≤ ps.length) ∧
      ∀ t, e = some t → now + 10000000 ≤ t ∧ ps = before c t ∧ ∀ x ∈ c.puts, x.1 + 10000000 ≤ t ∨ t ≤ x.1 :=
  play_spec work now c hs

/-- **C114**, no limit means waiting for ever: a read from a silent peer does not return, nor does a write to a peer that takes nothing. -/
theorem C114_no_limit (late : Err) (now lag size n : Nat) (hs : 0 < size) (hn : 0 < n) :
    Timed.read late noLimit now lag size ⟨[], none⟩ = none ∧ Drain.write noLimit now n ⟨[], none⟩ = none := by
  refine ⟨?_, ?_⟩
  · simp only [Timed.read, if_neg (by omega : ¬size = 0), if_pos]
  · simp only [Drain.write, Drain.send, if_neg (by omega : ¬n = 0), if_pos]
    rfl

/-- **C114** fails for connections the server opens without TLS (pulls, proxying): no configuration gives them a limit, not even the one of the URL, so a read from an upstream that has fallen silent never returns. -/
theorem C114_negation_upstream (late : Err) (tm now lag size : Nat) (hs : 0 < size) :
    Timed.read late (Limits.opened .tcp tm).recv now lag size ⟨[], none⟩ = none :=
  (C114_no_limit late now lag size 1 hs (by decide)).1

/-- **C114**, with TLS they have the limit of the URL. -/
theorem C114_upstream_tls (late : Err) (tm now lag size : Nat) (ht : tm ≠ noLimit) (hs : 0 < size) :
    Timed.read late (Limits.opened .https tm).recv now lag size ⟨[], none⟩ = some (.err late, now + tm, ⟨[], none⟩) := by
  show Timed.read late tm now lag size ⟨[], none⟩ = _
  simp only [Timed.read, if_neg (by omega : ¬size = 0), if_neg ht]

/-! ## Examples -/

/-- A server with a limit of 5 s for receiving, none for sending. -/
def site : List Conf.Tree := [.block (ascii "rtmp") [] [.block (ascii "server") [] [.dir (ascii "listen_port") (ascii "1935"), .dir (ascii "recv_timeout") (ascii "5000000")]]]

example : ∀ s ∈ allServers site, Port s 1935 ∧ Limit "recv_timeout" s 5000000 ∧ Limit "send_timeout" s noLimit := by
  intro s hs
  have hs : s = [.dir (ascii "listen_port") (ascii "1935"), .dir (ascii "recv_timeout") (ascii "5000000")] := by
    have h : allServers site = [[.dir (ascii "listen_port") (ascii "1935"), .dir (ascii "recv_timeout") (ascii "5000000")]] := rfl
    rw [h] at hs
    simpa using hs
  subst hs
  refine ⟨?_, ?_, ?_⟩
  · unfold Port
    rw [show lastArg (ascii "listen_port") _ = some (ascii "1935") by decide +kernel]
    exact .int _ 1935 (by decide +kernel) (by decide +kernel) (by decide)
  · unfold Limit
    rw [show lastArg (ascii "recv_timeout") _ = some (ascii "5000000") by decide +kernel]
    exact .u64 _ 5000000 (by decide +kernel) (by decide +kernel) (by decide)
  · unfold Limit
    rw [show lastArg (ascii "send_timeout") _ = none by decide +kernel]

example : (match Conf.initConf (ascii "rtmp {\nserver {\nlisten_port 1935;\nrecv_timeout 5000000;\n}\n}\n") with
    | .ok root [] => (Setup.all root).map fun m => (Setup.port m, Limits.accepted m)
    | _ => []) = [(1935, ⟨5000000, 2 ^ 64 - 1⟩)] := by decide +kernel

/-- A publisher that sends three pieces, seconds apart, and vanishes. -/
def vanishing : Timed := ⟨[(1000000, [1, 2, 3]), (4000000, [4]), (8999999, [5, 6])], none⟩

example : InTime 5000000 0 0 vanishing.pieces vanishing.closes := by simp [InTime, Soon, vanishing, noLimit]

/-- A program that reads all there is. -/
def all : Nat → List UInt8 → Prog 0 (List UInt8 × Err)
  | 0, got => .done (got, 0)
  | n + 1, got => .ask 500 0 2 (by decide) fun
    | .ok bs => all n (got ++ bs)
    | .err e => .done (got, e)

example : (all 10 []).timed Err.ERROR_SOCKET_TIMEOUT 5000000 0 vanishing = some (([1, 2, 3, 4, 5, 6], Err.ERROR_SOCKET_TIMEOUT), 14000499) := by decide +kernel
example : (all 10 []).timed Err.ERROR_SOCKET_TIMEOUT 3000000 0 vanishing = some (([1, 2, 3, 4], Err.ERROR_SOCKET_TIMEOUT), 7000500) := by decide +kernel
example : (all 10 []).timed Err.ERROR_SOCKET_TIMEOUT noLimit 0 vanishing = none := by decide +kernel

example : Drains 5000000 0 [(1000, 10), (3000000, 10), (7000000, 4)] := by simp [Drains, Soon]
example : writes 5000000 [(10, 5), (10, 12), (10, 7)] 0 ⟨[(1000, 10), (3000000, 10), (7000000, 4)], none⟩ = some [0, 0, 0] := by decide +kernel
example : Drain.write 5000000 0 30 ⟨[(1000, 10), (3000000, 10), (7000000, 4)], none⟩ = some (Err.ERROR_SOCKET_TIMEOUT, 24, 12000000, ⟨[], none⟩) := by decide +kernel

/-- A packet. -/
def pkt (n : Nat) : AVPkt := { stream := .video, pktType := 1, payload := [1, 2], dts := n, pts := n, flags := 0x17, codec := 7 }

/-- Two packets in time, then a third after 11 s. -/
def coming : Coming := ⟨[pkt 0], [(2000000, pkt 1), (11000000, pkt 2), (22000001, pkt 3)]⟩

example : coming.puts.Pairwise fun x y => x.1 ≤ y.1 := by simp [coming]
example : Coming.play [(100, 0), (100, 0), (100, 0), (100, 0)] 0 coming = ([pkt 0, pkt 1, pkt 2], some 21000100) := by decide +kernel

end Sps.Time
