import Verif.Lemmas.Sockets
/-!
# C100: listening and connecting

For every result of every system call.
-/
namespace Sps.Sockets
open Spec.Sockets

/-- Listening on a port (below 65536, with a transport the program was built with) opens exactly one socket, which listens on that port, if every system call succeeds;
if one fails, it returns an error and, once the server object is gone, the sockets are those from before.

Missing: ports above 65535, transports that are not built in, and the second way to bind an SRT
listener (the negations of C100). -/
theorem C100_listen_partial (os : Os) (hf : Fresh os) (t : Transport) (ht : t ≠ .other) (port : Nat) (hp : port < 65536) (reusePort : Bool) :
    ∃ e fd os', os.serverListen t port reusePort = some (e, fd, os') ∧ (e = Err.SUCCESS ↔ allGood os (listenCalls t reusePort)) ∧
      (e = Err.SUCCESS → ∃ id, fd = some id ∧ Adds os os' (listener t id port) ∧ Fresh os') ∧
      (e ≠ Err.SUCCESS → Same os (os'.drop fd) ∧ Fresh (os'.drop fd)) := by
  have hm : port % 65536 = port := Nat.mod_eq_of_lt hp
  have tcp : ∀ t : Transport, t = .tcp ∨ t = .https → ∃ e fd os', some (os.tcpListen port reusePort) = some (e, fd, os') ∧
      (e = Err.SUCCESS ↔ allGood os (listenCalls t reusePort)) ∧ (e = Err.SUCCESS → ∃ id, fd = some id ∧ Adds os os' (listener t id port) ∧ Fresh os') ∧
      (e ≠ Err.SUCCESS → Same os (os'.drop fd) ∧ Fresh (os'.drop fd)) := by
    intro t ht
    have hc : listenCalls t reusePort = 4 + reuses reusePort := by rcases ht with rfl | rfl <;> cases reusePort <;> rfl
    have hl : listener t os.next port = { id := os.next, kind := .tcp, port := some (port % 65536), listens := true } := by
      rw [hm]; rcases ht with rfl | rfl <;> rfl
    refine ⟨(os.tcpListen port reusePort).1, (os.tcpListen port reusePort).2.1, (os.tcpListen port reusePort).2.2, rfl, ?_⟩
    rw [hc]
    rcases tcpListen_opens os hf port reusePort with ⟨hg, h1, h2, h3⟩ | ⟨hg, h1, h2, k, h3⟩
    · exact ⟨⟨fun _ => hg, fun _ => h1⟩, fun _ => ⟨os.next, h2, by rw [hl]; exact plus_adds hf h3, plus_fresh hf h3⟩, fun h => absurd h1 h⟩
    · refine ⟨⟨fun h => absurd h h1, fun h => absurd h hg⟩, fun h => absurd h h1, fun _ => ?_⟩
      rw [h2]
      exact ⟨h3.socks, back_fresh hf h3⟩
  cases t with
  | other => exact absurd rfl ht
  | tcp => exact tcp .tcp (.inl rfl)
  | https => exact tcp .https (.inr rfl)
  | srt =>
    have hc : listenCalls .srt reusePort = 2 + srtCalls reusePort := by cases reusePort <;> rfl
    refine ⟨(os.srtServe port reusePort).1, (os.srtServe port reusePort).2.1, (os.srtServe port reusePort).2.2, rfl, ?_⟩
    rw [hc]
    rcases srtServe_opens os hf port reusePort with ⟨hg, h1, h2, h3⟩ | ⟨hg, h1, k, h3⟩
    · rw [hm] at h3
      exact ⟨⟨fun _ => hg, fun _ => h1⟩, fun _ => ⟨os.next, h2, plus_adds hf h3, plus_fresh hf h3⟩, fun h => absurd h1 h⟩
    · exact ⟨⟨fun h => absurd h h1, fun h => absurd h hg⟩, fun h => absurd h h1, fun _ => ⟨h3.socks, back_fresh hf h3⟩⟩

/-- A UDP socket bound to a port (below 65536): exactly one, or an error and none. -/
theorem C100_udp (os : Os) (hf : Fresh os) (port : Nat) (hp : port < 65536) (reusePort : Bool) :
    ∃ e fd os', os.udpBind port reusePort = (e, fd, os') ∧ Fresh os' ∧ (e = Err.SUCCESS ↔ allGood os (if reusePort then 5 else 4)) ∧
      (e = Err.SUCCESS → ∃ id, fd = some id ∧ Adds os os' { id := id, kind := .udp, port := some port }) ∧
      (e ≠ Err.SUCCESS → fd = none ∧ Same os os') := by
  have hc : (if reusePort then 5 else 4) = 3 + reuses reusePort := by cases reusePort <;> rfl
  refine ⟨(os.udpBind port reusePort).1, (os.udpBind port reusePort).2.1, (os.udpBind port reusePort).2.2, rfl, ?_⟩
  rw [hc]
  rcases udpBind_opens os hf port reusePort with ⟨hg, h1, h2, h3⟩ | ⟨hg, h1, h2, k, h3⟩
  · refine ⟨plus_fresh hf h3, ⟨fun _ => hg, fun _ => h1⟩, fun _ => ⟨os.next, h2, ?_⟩, fun h => absurd h1 h⟩
    rw [Nat.mod_eq_of_lt hp] at h3
    exact plus_adds hf h3
  · exact ⟨back_fresh hf h3, ⟨fun h => absurd h h1, fun h => absurd h hg⟩, fun h => absurd h h1, fun _ => ⟨h2, h3.socks⟩⟩

/-- Connecting opens exactly one socket, which is connected to the port at the address the name resolves to, if the transport is known, the name resolves and every call
succeeds; else there is no connection, and the sockets are those from before. -/
theorem C100_connect (os : Os) (hf : Fresh os) (dns : Text → Text) (waited : Err) (t : Transport) (name : Text) (port : Nat) (hp : port < 65536) :
    ∃ fd os', os.client dns waited t name port = (fd, os') ∧ Fresh os' ∧ (fd ≠ none ↔ clientGood os dns waited t name) ∧
      (∀ id, fd = some id → Adds os os' (connection t id (dns name) port)) ∧ (fd = none → Same os os') := by
  refine ⟨(os.client dns waited t name port).1, (os.client dns waited t name port).2, rfl, ?_⟩
  rcases client_opens os hf dns waited t name port with ⟨hg, h1, k, n, h3, h4, h5⟩ | ⟨hg, h1, n, h3⟩
  · refine ⟨plus_fresh hf h3, ⟨fun _ => hg, fun _ h => by rw [h1] at h; cases h⟩, fun id hid => ?_, fun h => by rw [h1] at h; cases h⟩
    rw [h1] at hid
    cases hid
    rw [Nat.mod_eq_of_lt hp] at h3
    have hk : k = if t = .srt then .srt else .tcp := by
      by_cases hs : t = .srt
      · rw [if_pos hs]; exact h4.2 hs
      · rw [if_neg hs]
        cases k with
        | tcp => rfl
        | srt => exact absurd (h4.1 rfl) hs
        | udp => exact absurd rfl h5
    have := plus_adds hf h3
    rw [hk] at this
    exact this
  · exact ⟨back_fresh hf h3, ⟨fun h => absurd h1 h, fun h => absurd h hg⟩, (fun id hid => by rw [h1] at hid; cases hid), fun _ => h3.socks⟩

/-! ## A case that meets the hypotheses -/

/-- A system with one open socket. -/
def running (answers : List Bool) : Os := { next := 4, socks := [{ id := 3, kind := .tcp, port := some 80, listens := true }], answers := answers }

theorem running_fresh (answers : List Bool) : Fresh (running answers) := by
  intro s hs
  rw [List.mem_singleton.1 hs]
  exact Nat.lt_succ_self 3

/-- All goes well; binding fails; a UDP socket can not be taken over. -/
example : (running []).serverListen .tcp 8080 true =
    some (Err.SUCCESS, some 4, { next := 5, socks := (running []).socks ++ [{ id := 4, kind := .tcp, port := some 8080, listens := true }], answers := [] }) := by decide +kernel
example : (running [true, true, true, false]).serverListen .tcp 80 false = some (Err.ERROR_SOCKET_BIND, none, { running [] with next := 5 }) := by decide +kernel
example : (running []).serverListen .srt 10080 true =
    some (Err.SUCCESS, some 4, { next := 6, socks := (running []).socks ++ [{ id := 4, kind := .srt, port := some 10080, listens := true }], answers := [] }) := by decide +kernel
example : ((running [true, true, true, true, true, false]).serverListen .srt 10080 true).map (fun r => (r.1, r.2.2.drop r.2.1)) =
    some (Err.ERROR_SRT_SOCKET_CREATE, { running [] with next := 6 }) := by decide +kernel
example : ((running []).client (fun _ => ascii "10.0.0.7") Err.SUCCESS .https (ascii "up.example") 443).1 = some 4 := by decide +kernel
example : (running [true, true, true, false]).client (fun _ => ascii "10.0.0.7") Err.SUCCESS .https (ascii "up.example") 443 = (none, { running [] with next := 5 }) := by decide +kernel

/-! ## Where the full property fails -/

/-- A port of 65536 or more is not refused: the server listens on another port. -/
theorem C100_negation_port : ∃ os' s, (running []).serverListen .tcp 65616 false = some (Err.SUCCESS, some 4, os') ∧ s ∈ os'.socks ∧ s.id = 4 ∧ s.port = some 80 :=
  ⟨_, { id := 4, kind := .tcp, port := some 80, listens := true }, rfl, by decide +kernel, rfl, by decide +kernel⟩

/-- With a transport the program was not built with, listening is not an error but a call through a null pointer. -/
theorem C100_negation_transport (os : Os) (port : Nat) (r : Bool) : os.serverListen .other port r = none := rfl

/-- The second way to bind an SRT listener, meant for when the first fails, can not work: a single failed call ends in an error, whichever it is. -/
theorem C100_negation_second (os : Os) (hf : Fresh os) (port i : Nat) (hi : i < 5) (hb : os.answers.getD i true = false) :
    ∃ e fd os', os.serverListen .srt port false = some (e, fd, os') ∧ e ≠ Err.SUCCESS := by
  refine ⟨(os.srtServe port false).1, (os.srtServe port false).2.1, (os.srtServe port false).2.2, rfl, ?_⟩
  rcases srtServe_opens os hf port false with ⟨hg, h1, h2, h3⟩ | ⟨hg, h1, k, h3⟩
  · exact absurd hg (not_good i hi hb)
  · exact h1

end Sps.Sockets
