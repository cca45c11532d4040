import Verif.Lemmas.Net
/-! # Properties of the sockets: C55 - C59 -/
namespace Sps
open Spec Spec.Net

/-! ## C55: SRT stream ids -/

/-- The parameters of a stream id, each followed by a comma, decide the request: the resource is the last `h`, and the mode is the last
`m` (everything but `request` publishes). The first four characters are not looked at.
Partial: a last pair without a comma is lost (`C55_negation_last`), and a resource with `srt://` gets it twice. -/
theorem C55_params_partial (pre : Text) (hpre : pre.length = 4) (ps : List Header) (hne : ps ≠ []) (hw : ∀ p ∈ ps, word p.1 ∧ word p.2)
    (h m : Text) (hh : Last (ascii "h") ps h) (hm : Last (ascii "m") ps m) :
    ∃ method, SrtId.request (pre ++ renderTrail ps) = some (ascii "srt://" ++ h, method) ∧
      (m = ascii "request" → method = ascii "request") ∧ (m ≠ ascii "request" → method = ascii "publish") := by
  have hl : ¬(pre ++ renderTrail ps).length < 5 := by
    cases ps with
    | nil => exact absurd rfl hne
    | cons p ps =>
      simp [renderTrail]
      omega
  have hp : SrtId.params [] [] ((pre ++ renderTrail ps).drop 4) = ps := by
    rw [← hpre, List.drop_left, ← List.append_nil (renderTrail ps), SrtId.params_render ps [] hw]
    simp [SrtId.params]
  refine ⟨if m = ascii "publish" then ascii "publish" else if m = ascii "request" then ascii "request" else ascii "publish", ?_, ?_, ?_⟩
  · rw [SrtId.request, if_neg hl]
    simp only [hp, SrtId.last_eq hh, SrtId.last_eq hm, if_pos (SrtId.prefix_ne h)]
  · intro he
    rw [he]
    decide +kernel
  · intro he
    rw [if_neg he]
    split <;> rfl

/-- The text of the module's own comment with a comma after it. -/
example : SrtId.request (ascii "#!::h=live/livestream,m=request,") = some (ascii "srt://live/livestream", ascii "request") := by decide +kernel
example : ∃ ps : List Header, ascii "#!::h=live/livestream,m=request," = ascii "#!::" ++ renderTrail ps ∧ (∀ p ∈ ps, word p.1 ∧ word p.2) ∧
    Last (ascii "h") ps (ascii "live/livestream") ∧ Last (ascii "m") ps (ascii "request") :=
  ⟨[(ascii "h", ascii "live/livestream"), (ascii "m", ascii "request")], by decide +kernel, by unfold word; decide +kernel,
    .inl ⟨[], [(ascii "m", ascii "request")], rfl, by decide +kernel⟩, .inl ⟨[(ascii "h", ascii "live/livestream")], [], rfl, by decide +kernel⟩⟩

/-- Whatever follows the last comma is ignored, so a last pair without a comma has no effect. -/
theorem C55_negation_last (pre : Text) (hpre : pre.length = 4) (ps : List Header) (hne : ps ≠ []) (hw : ∀ p ∈ ps, word p.1 ∧ word p.2)
    (t : Text) (ht : 44 ∉ t) : SrtId.request (pre ++ renderTrail ps ++ t) = SrtId.request (pre ++ renderTrail ps) := by
  have hl : 5 ≤ (pre ++ renderTrail ps).length := by
    cases ps with
    | nil => exact absurd rfl hne
    | cons p ps =>
      simp [renderTrail]
      omega
  have h1 : ¬(pre ++ renderTrail ps ++ t).length < 5 := by
    rw [List.length_append]
    omega
  have hp : SrtId.params [] [] ((pre ++ renderTrail ps ++ t).drop 4) = SrtId.params [] [] ((pre ++ renderTrail ps).drop 4) := by
    rw [List.append_assoc, ← hpre, List.drop_left, List.drop_left, SrtId.params_render ps t hw, SrtId.params_open t _ _ ht]
    have := SrtId.params_render ps [] hw
    rw [List.append_nil] at this
    rw [this]
    rfl
  rw [SrtId.request, SrtId.request, if_neg h1, if_neg (by omega), hp]

/-- So a player that asks with the usual id publishes. -/
theorem C55_negation_player : SrtId.request (ascii "#!::h=live/livestream,m=request") = some (ascii "srt://live/livestream", ascii "publish") := by
  decide +kernel

/-- A resource with a schema gets the schema again. -/
theorem C55_negation_schema : SrtId.request (ascii "#!::h=srt://host/live/a,m=request,") = some (ascii "srt://srt://host/live/a", ascii "request") := by
  decide +kernel

/-- Ids with less than five characters are refused. -/
theorem C55_short (id : Text) : SrtId.request id = none ↔ id.length < 5 := by
  rw [SrtId.request]
  split <;> simp [*]

/-! ## C56: UDP sessions -/

/-- For every history and session: the datagrams read and then those waiting are the datagrams queued for it, in order of arrival. -/
theorem C56_fifo (ops : List Udp.Op) (s : Nat) :
    readBy s (Udp.init.run ops).2 ++ waiting (Udp.init.run ops).1 s = queuedFor s (Udp.init.run ops).2 := by
  rw [← Udp.fifo ops Udp.init s]
  simp [waiting, Udp.init]

/-- Every datagram that arrives is queued for the living session of its key, or dropped because 4000 datagrams wait there. -/
theorem C56_arrival (ops : List Udp.Op) (d : Dgram) : ∃ s x, ((Udp.init.run ops).1.arrive d).1.all[s]? = some x ∧ x.key = Udp.keyOf d ∧ x.alive = true ∧
    (((Udp.init.run ops).1.arrive d).2 = .queued s ∨
      ((Udp.init.run ops).1.arrive d).2 = .dropped s ∧ ((Udp.init.run ops).1.arrive d).1 = (Udp.init.run ops).1 ∧ (waiting (Udp.init.run ops).1 s).length = 4000) :=
  Udp.arrive_result (Udp.inv_run ops _ Udp.inv_init) d

/-- At every time at most 4000 datagrams wait in a session, living sessions have different keys, and a session keeps its key. -/
theorem C56_sessions (ops more : List Udp.Op) (s : Nat) (x : Session) (hx : (Udp.init.run ops).1.all[s]? = some x) :
    x.queue.length ≤ 4000 ∧ (∀ t y, (Udp.init.run ops).1.all[t]? = some y → x.alive = true → y.alive = true → x.key = y.key → s = t) ∧
      ∃ y, ((Udp.init.run ops).1.run more).1.all[s]? = some y ∧ y.key = x.key := by
  have h := Udp.inv_run ops _ Udp.inv_init
  refine ⟨h.short s x hx, ?_, Udp.key_run more _ hx⟩
  intro t y hy hax hay hk
  have h1 := h.alive s x hx hax
  have h2 := h.alive t y hy hay
  rw [hk, h2] at h1
  exact (Option.some.inj h1).symm

/-- A read of a living session returns the first datagram waiting if it fits; otherwise it fails and changes nothing. -/
theorem C56_read (u : Udp) (s n : Nat) (x : Session) (hx : u.all[s]? = some x) (ha : x.alive = true) :
    (∀ b q, x.queue = b :: q → b.length ≤ n → (u.read s n).2 = .got s b) ∧
    (∀ b q, x.queue = b :: q → n < b.length → u.read s n = (u, .failed s Err.ERROR_SOCKET_BUFFER_SMALL)) ∧
    (x.queue = [] → u.read s n = (u, .failed s Err.ERROR_SOCKET_TIMEOUT)) := by
  refine ⟨?_, ?_, ?_⟩
  · intro b q hq hl
    simp [Udp.read, hx, ha, hq, Udp.take, Nat.not_lt.2 hl]
  · intro b q hq hl
    simp [Udp.read, hx, ha, hq, Udp.take, hl]
  · intro hq
    simp [Udp.read, hx, ha, hq, Udp.take]

/-- The server hands out each session once, in the order they were made. -/
theorem C56_accept (ops : List Udp.Op) : ∃ n, (Udp.init.run ops).1.fresh = List.range' n ((Udp.init.run ops).1.all.length - n) ∧
    n ≤ (Udp.init.run ops).1.all.length ∧ (n < (Udp.init.run ops).1.all.length → (Udp.init.run ops).1.accept.2 = .accepted n) := by
  obtain ⟨n, h1, h2⟩ := (Udp.inv_run ops _ Udp.inv_init).fresh
  refine ⟨n, h1, h2, fun hn => ?_⟩
  cases hl : (Udp.init.run ops).1.all.length - n with
  | zero => omega
  | succ k =>
    rw [hl, List.range'_succ] at h1
    rw [Udp.accept, h1]

/-- The peer plays no part: datagrams of any two peers go to the same session. -/
theorem C56_negation_peer (u : Udp) (p q : Text × Nat) (dst : Text × Nat) (a : List UInt8) :
    u.arrive ⟨p, dst, a⟩ = u.arrive ⟨q, dst, a⟩ := rfl

/-- Two peers, one session: the reads return the datagrams of both. -/
theorem C56_negation_mixed :
    (Udp.init.run [.arrive ⟨(ascii "10.0.0.1", 1000), ([], 0), [1]⟩, .arrive ⟨(ascii "10.0.0.2", 2000), ([], 0), [2]⟩, .accept, .read 0 10, .read 0 10]).2.map (·.2) =
      [.queued 0, .queued 0, .accepted 0, .got 0 [1], .got 0 [2]] := by
  decide +kernel

/-- A datagram of more than 4096 bytes is cut and nobody is told. -/
theorem C56_negation_long (d : Dgram) (h : d.data.length = 4097) : (Udp.init.run [.arrive d, .accept, .read 0 65536]).2.map (·.2) = [.queued 0, .accepted 0, .got 0 (d.data.take 4096)] ∧
    d.data.take 4096 ≠ d.data := by
  refine ⟨?_, fun h' => ?_⟩
  · have hl : (d.data.take 4096).length = 4096 := by simp [h]
    simp [Udp.run, Udp.step, Udp.arrive, Udp.init, Assoc.find, Udp.push, Udp.LIMIT, Udp.accept, Udp.read, Udp.take, Udp.SIZE, h]
  · have := congrArg List.length h'
    simp [h] at this

example : ∃ d : Dgram, d.data.length = 4097 := ⟨⟨([], 0), ([], 0), List.replicate 4097 7⟩, List.length_replicate⟩

/-- Different addresses can have the same key, since nothing is between the address and the port. -/
theorem C56_negation_key : Udp.key (ascii "10.0.0.1") 5 (ascii "10.0.0.2") 34 = Udp.key (ascii "10.0.0.1") 5 (ascii "10.0.0.23") 4 := by
  decide +kernel

example : (Udp.init.run [.arrive ⟨(ascii "10.0.0.1", 1000), (ascii "10.0.0.9", 1), [1, 2, 3]⟩, .arrive ⟨(ascii "10.0.0.1", 1000), (ascii "10.0.0.9", 2), [4]⟩,
    .accept, .accept, .read 0 2, .read 0 3, .read 0 3, .destroy 0, .arrive ⟨(ascii "10.0.0.1", 1000), (ascii "10.0.0.9", 1), [5]⟩, .read 1 4, .accept]).2.map (·.2) =
    [.queued 0, .queued 1, .accepted 0, .accepted 1, .failed 0 Err.ERROR_SOCKET_BUFFER_SMALL, .got 0 [1, 2, 3], .failed 0 Err.ERROR_SOCKET_TIMEOUT, .destroyed 0, .queued 2, .got 1 [4], .accepted 2] := by
  decide +kernel

/-! ## C57: reading a number of bytes -/

/-- `read_fully` of a socket over any transport that hands out bytes in order: success means exactly the next `n` bytes; after a
failure, fewer than `n` bytes were read, and they are the next bytes of the stream.
Partial: `read_fully` of the SRT transport itself and that of plain UDP sockets do not have the property
(`C57_negation_srt`, `C57_negation_udp`). -/
theorem C57_fully_partial {S : Type} (Ok : S → Prop) (read : S → Nat → ReadRes × S) (pending : S → List UInt8) (hs : Sound Ok read pending)
    (fuel : Nat) (s : S) (hok : Ok s) (n : Nat) (hn : 0 < n) (e : Err) (d : List UInt8) (s' : S) (h : readFully read fuel s n [] = some (e, d, s')) :
    pending s = d ++ pending s' ∧ (e = Err.SUCCESS ∧ d.length = n ∨ e ≠ Err.SUCCESS ∧ d.length < n) :=
  readFully_sound hs n fuel s [] e d s' hok h hn

/-- TCP: for every way the stream is cut, `read_fully` returns, and success means exactly the next `n` bytes.

Missing: the SRT transport's own `read_fully`, plain UDP and TLS (the negations of C57). -/
theorem C57_tcp_partial (io : Io) (hio : ioOk io = true) (n : Nat) (hn : 0 < n) :
    ∃ e d io', readFully Io.read (n + 1) io n [] = some (e, d, io') ∧ streamOf io.evs = d ++ streamOf io'.evs ∧
      (e = Err.SUCCESS ∧ d.length = n ∨ e ≠ Err.SUCCESS ∧ d.length < n) := by
  cases h : readFully Io.read (n + 1) io n [] with
  | none => exact absurd h (readFully_returns io_sound (fun s n d s' h hn hr => (io_ok s n d s' h hn hr).1) n (n + 1) io [] hio hn (by simp))
  | some x => exact ⟨x.1, x.2.1, x.2.2, rfl, C57_fully_partial _ Io.read _ io_sound _ _ hio n hn _ _ _ h⟩

/-- SRT through the socket: for every sequence of messages, `read_fully` returns, and success means exactly the next `n` bytes.

Missing: the SRT transport's own `read_fully`, plain UDP and TLS (the negations of C57). -/
theorem C57_srt_partial (s : SrtSock) (hio : ioOk s.io = true) (n : Nat) (hn : 0 < n) :
    ∃ e d s', readFully SrtSock.read (n + 1) s n [] = some (e, d, s') ∧ s.buf ++ streamOf s.io.evs = d ++ (s'.buf ++ streamOf s'.io.evs) ∧
      (e = Err.SUCCESS ∧ d.length = n ∨ e ≠ Err.SUCCESS ∧ d.length < n) := by
  cases h : readFully SrtSock.read (n + 1) s n [] with
  | none => exact absurd h (readFully_returns srt_sound (fun s n d s' h hn hr => (srt_ok s n d s' h hn hr).1) n (n + 1) s [] hio hn (by simp))
  | some x => exact ⟨x.1, x.2.1, x.2.2, rfl, C57_fully_partial _ SrtSock.read _ srt_sound _ _ hio n hn _ _ _ h⟩

/-- Sessions of the UDP server: success means exactly the next `n` bytes of the datagrams waiting.

Missing: the SRT transport's own `read_fully`, plain UDP and TLS (the negations of C57). -/
theorem C57_session_partial (q q' : List (List UInt8)) (n fuel : Nat) (hn : 0 < n) (e : Err) (d : List UInt8)
    (h : readFully Udp.take fuel q n [] = some (e, d, q')) :
    q.flatten = d ++ q'.flatten ∧ (e = Err.SUCCESS ∧ d.length = n ∨ e ≠ Err.SUCCESS ∧ d.length < n) :=
  C57_fully_partial _ Udp.take _ queue_sound _ _ trivial n hn _ _ _ h

/-- `read_fully` of the SRT transport is right when the first read returns everything.

Missing: the SRT transport's own `read_fully`, plain UDP and TLS (the negations of C57). -/
theorem C57_one_partial (s s' : SrtSock) (n : Nat) (hn : 0 < n) (d mem : List UInt8) (hr : s.read n = (.ok d, s')) (hd : d.length = n) (fuel : Nat) :
    SrtSock.fully (fuel + 2) s n 0 mem = some (Err.SUCCESS, d ++ mem.drop n, s') := by
  rw [SrtSock.fully, if_pos hn, Nat.sub_zero, hr]
  simp only
  rw [SrtSock.fully, if_neg (by omega), SrtSock.put, hd]

/-- With two messages the second one overwrites the first one, and `read_fully` reports success. -/
theorem C57_negation_srt : (SrtSock.fully 9 ⟨⟨[.data [1, 2], .data [3, 4]], 1004⟩, []⟩ 4 0 [0, 0, 0, 0]).map (fun r => (r.1, r.2.1)) = some (Err.SUCCESS, [3, 4, 0, 0]) := by
  decide +kernel

/-- A plain UDP socket drops what does not fit: the fourth byte read is not the fourth byte sent. -/
theorem C57_negation_udp : (readFully udpRead 9 ⟨[.data [1, 2, 3], .data [4, 5, 6]], 1004⟩ 2 []).map (fun r => (r.1, r.2.1, (udpRead r.2.2 2).1)) =
    some (Err.SUCCESS, [1, 2], .ok [4, 5]) := by
  decide +kernel

example : readFully SrtSock.read 5 ⟨⟨[.data [1, 2], .data [3, 4, 5]], 1004⟩, []⟩ 4 [] = some (Err.SUCCESS, [1, 2, 3, 4], ⟨⟨[], 1004⟩, [5]⟩) := by decide +kernel
example : readFully Io.read 5 ⟨[.data [1, 2], .err 7, .data [3, 4, 5]], 1004⟩ 4 [] = some (7, [1, 2], ⟨[.data [3, 4, 5]], 1004⟩) := by decide +kernel
example : ioOk ⟨[.data [1, 2], .err 7, .data [3, 4, 5]], 1004⟩ = true := by decide +kernel
example : readFully Udp.take 5 [[1, 2], [], [3], [4, 5]] 3 [] = some (Err.SUCCESS, [1, 2, 3], [[4, 5]]) := by decide +kernel

/-- `n` reads of `size` bytes, one after the other, from a UDP client socket. -/
def udpReads (size : Nat) : Nat → Io → List ReadRes
  | 0, _ => []
  | n + 1, io => (udpRead io size).1 :: udpReads size n (udpRead io size).2

/-- **C56** (a client socket). Reads from a UDP client socket give one datagram each, in the order of arrival: all of it if it fits into what is asked for, its beginning otherwise; when there are no more
datagrams they fail as the socket does. (Empty datagrams count as failures: the second part.) -/
theorem C56_client_reads (size : Nat) (hs : 0 < size) (ds : List (List UInt8)) (closed : Err) :
    ∀ n, udpReads size (ds.length + n) ⟨ds.map .data, closed⟩ =
      (ds.map fun d => if d = [] then .err Err.ERROR_SOCKET_READ else .ok (d.take size)) ++ List.replicate n (.err closed) := by
  have hz : ∀ n, udpReads size n ⟨[], closed⟩ = List.replicate n (.err closed) := by
    intro n
    induction n with
    | zero => rfl
    | succ n ih => simp only [udpReads, udpRead, List.replicate_succ, ih]
  intro n
  induction ds with
  | nil => simpa using hz n
  | cons d ds ih =>
    rw [List.length_cons, Nat.add_right_comm, udpReads]
    cases d with
    | nil => simp only [List.map_cons, udpRead, List.take_nil, List.isEmpty_nil, if_true, ih, List.cons_append]
    | cons b d =>
      have : ((b :: d).take size).isEmpty = false := by
        cases size with
        | zero => omega
        | succ k => rfl
      simp only [List.map_cons, udpRead, this, ih, List.cons_append, reduceCtorEq, if_false, Bool.false_eq_true]

example : udpReads 4 4 ⟨[.data [1, 2], .data [3, 4, 5, 6, 7], .data [8]], 1004⟩ = [.ok [1, 2], .ok [3, 4, 5, 6], .ok [8], .err 1004] := by decide

/-! ## C109: writing to a UDP peer -/

/-- Whatever the system does: what was sent is an initial part of the buffer, in order, and after success all of it; every datagram has the one destination of the socket, whether it is connected or not. -/
theorem C109_bytes (u : UdpPeer) (cs : List UdpPeer.Send) (buf : List UInt8) (e : Err) (ms : List ((Text × Nat) × List UInt8)) (h : u.write cs buf = some (e, ms)) :
    (ms.map (·.2)).flatten <+: buf ∧ (e = Err.SUCCESS → (ms.map (·.2)).flatten = buf) ∧ ∀ m ∈ ms, m.1 = u.addr := by
  induction cs generalizing buf ms with
  | nil =>
    rw [UdpPeer.write] at h
    split at h
    · rename_i hb
      simp only [Option.some.injEq, Prod.mk.injEq] at h
      obtain ⟨rfl, rfl⟩ := h
      exact ⟨by simp, fun _ => by simpa using hb.symm, by simp⟩
    · simp at h
  | cons c cs ih =>
    rw [UdpPeer.write.eq_def] at h
    simp only at h
    split at h
    · rename_i hb
      simp only [Option.some.injEq, Prod.mk.injEq] at h
      obtain ⟨rfl, rfl⟩ := h
      exact ⟨by simp, fun _ => by simpa using hb.symm, by simp⟩
    · cases c with
      | took n =>
        simp only at h
        cases hw : u.write cs (buf.drop n) with
        | none => rw [hw] at h; simp at h
        | some x =>
          rw [hw] at h
          simp only [Option.some.injEq, Prod.mk.injEq] at h
          obtain ⟨rfl, rfl⟩ := h
          obtain ⟨h1, h2, h3⟩ := ih _ _ hw
          refine ⟨?_, fun he => ?_, ?_⟩
          · rw [List.map_cons, List.flatten_cons]
            conv => rhs; rw [← List.take_append_drop n buf]
            exact (List.prefix_append_right_inj _).2 h1
          · rw [List.map_cons, List.flatten_cons, h2 he, List.take_append_drop]
          · intro m hm
            rcases List.mem_cons.1 hm with rfl | hm
            · rfl
            · exact h3 m hm
      | timeout | interrupted | fails =>
        simp only [Option.some.injEq, Prod.mk.injEq] at h
        obtain ⟨rfl, rfl⟩ := h
        exact ⟨by simp, fun he => absurd he (by decide), by simp⟩

/-- One write is one datagram, if the system takes datagrams whole (as UDP does); a write of nothing sends nothing; an error of the system is reported and nothing is sent. -/
theorem C109_datagram (u : UdpPeer) (n : Nat) (cs : List UdpPeer.Send) (buf : List UInt8) :
    (buf ≠ [] → buf.length ≤ n → u.write (.took n :: cs) buf = some (Err.SUCCESS, [(u.addr, buf)])) ∧ u.write cs [] = some (Err.SUCCESS, []) ∧
    (buf ≠ [] → u.write (.timeout :: cs) buf = some (Err.ERROR_SOCKET_TIMEOUT, []) ∧ u.write (.interrupted :: cs) buf = some (Err.ERROR_SOCKET_EINTR, []) ∧
      u.write (.fails :: cs) buf = some (Err.ERROR_SOCKET_WRITE, [])) := by
  have h0 : ∀ cs, u.write cs [] = some (Err.SUCCESS, []) := by intro cs; cases cs <;> rfl
  refine ⟨fun hb hn => ?_, h0 cs, fun hb => ?_⟩
  · have he : buf.isEmpty = false := by simpa using hb
    rw [UdpPeer.write, he, List.drop_eq_nil_of_le hn, h0, List.take_of_length_le hn]
    rfl
  · have he : buf.isEmpty = false := by simpa using hb
    refine ⟨?_, ?_, ?_⟩ <;> · rw [UdpPeer.write, he]; rfl

/-- What holds of the destination: it has the port of the peer.

Missing: the address of the destination (`C109_negation_peer`, `C109_negation_session`). -/
theorem C109_port_partial (ip : Text) (port : Nat) (hp : port < 65536) (cs : List UdpPeer.Send) (buf : List UInt8) (e : Err) (ms : List ((Text × Nat) × List UInt8)) (c : Err)
    (h : ((UdpPeer.new ip port).connect c).2.write cs buf = some (e, ms)) : ∀ m ∈ ms, m.1 = (ascii "0.0.0.0", port) := by
  intro m hm
  rw [(C109_bytes _ _ _ _ _ h).2.2 m hm]
  have : (((port : Int) % 65536).toNat) = port := by omega
  unfold UdpPeer.connect
  split <;> simp [UdpPeer.new, this]

/-- C109 fails: no datagram goes to the peer, unless its address is that of "any address" (which is this machine); one byte is enough. -/
theorem C109_negation_peer (ip : Text) (port : Int) (hip : ip ≠ ascii "0.0.0.0") (cs : List UdpPeer.Send) (buf : List UInt8) (e : Err) (ms : List ((Text × Nat) × List UInt8))
    (h : (UdpPeer.new ip port).write cs buf = some (e, ms)) : ∀ m ∈ ms, m.1.1 ≠ ip := by
  intro m hm
  rw [(C109_bytes _ _ _ _ _ h).2.2 m hm]
  exact fun hh => hip hh.symm

/-- C109 fails: whoever sent the datagrams of a session, what is written to it goes to port 0 of no one. -/
theorem C109_negation_session (d : Dgram) (cs : List UdpPeer.Send) (buf : List UInt8) (e : Err) (ms : List ((Text × Nat) × List UInt8)) (h : (Udp.writer d).write cs buf = some (e, ms)) :
    ∀ m ∈ ms, m.1 = (ascii "0.0.0.0", 0) := fun m hm => (C109_bytes _ _ _ _ _ h).2.2 m hm

example : (UdpPeer.new (ascii "10.0.0.7") 5000).write [.took 9] [1, 2, 3] = some (Err.SUCCESS, [((ascii "0.0.0.0", 5000), [1, 2, 3])]) ∧
    (UdpPeer.new (ascii "10.0.0.7") 5000).write [.took 2, .interrupted] [1, 2, 3] = some (Err.ERROR_SOCKET_EINTR, [((ascii "0.0.0.0", 5000), [1, 2])]) ∧
    (Udp.writer ⟨(ascii "10.0.0.7", 5000), ([], 0), [1]⟩).write [.took 9] [1, 2, 3] = some (Err.SUCCESS, [((ascii "0.0.0.0", 0), [1, 2, 3])]) := ⟨rfl, rfl, rfl⟩

/-! ## C58: SRT messages -/

/-- For every buffer and everything libsrt does: the messages sent have at most 1316 bytes, they are the start of the buffer in order, and
after success the whole buffer. -/
theorem C58_messages (evs : List SrtSock.Send) (buf : List UInt8) (e : Err) (ms : List (List UInt8)) (r : List SrtSock.Send)
    (h : SrtSock.write evs buf = some (e, ms, r)) : (∀ m ∈ ms, m.length ≤ 1316) ∧ ms.flatten <+: buf ∧ (e = Err.SUCCESS → ms.flatten = buf) := by
  obtain ⟨rest, h1, h2, h3⟩ := write_spec evs buf e ms r h
  refine ⟨h3, ⟨rest, h1.symm⟩, fun he => ?_⟩
  rw [h1, h2 he, List.append_nil]

/-- When libsrt takes whole messages, all messages but the last one have 1316 bytes, and none is empty. -/
theorem C58_whole (evs : List SrtSock.Send) (buf : List UInt8) (ms : List (List UInt8)) (r : List SrtSock.Send)
    (h : SrtSock.write evs buf = some (Err.SUCCESS, ms, r)) (hw : ∀ n, .sent n ∈ evs → 1316 ≤ n) : (∀ m ∈ ms, m ≠ []) ∧ ∀ m ∈ ms.dropLast, m.length = 1316 :=
  write_whole evs buf _ ms r h hw rfl

/-- It succeeds if libsrt never fails: enough calls that take at least one byte, with any number of waits between them. -/
theorem C58_returns (evs : List SrtSock.Send) (hok : ∀ ev ∈ evs, ev = .again Err.SUCCESS ∨ ∃ n, 1 ≤ n ∧ ev = .sent n) (buf : List UInt8)
    (hl : buf.length ≤ (evs.filter fun ev => match ev with | .sent _ => true | _ => false).length) :
    ∃ ms r, SrtSock.write evs buf = some (Err.SUCCESS, ms, r) := by
  induction evs generalizing buf with
  | nil =>
    have : buf = [] := List.eq_nil_of_length_eq_zero (by simpa using hl)
    exact ⟨[], [], by rw [this]; rfl⟩
  | cons ev evs ih =>
    have hok' : ∀ ev ∈ evs, ev = .again Err.SUCCESS ∨ ∃ n, 1 ≤ n ∧ ev = .sent n := fun x hx => hok x (List.mem_cons_of_mem _ hx)
    rw [SrtSock.write]
    split
    · exact ⟨_, _, rfl⟩
    · rename_i hb
      have hb : 0 < buf.length := by
        cases buf with
        | nil => simp at hb
        | cons a b => simp
      rcases hok ev (List.mem_cons_self ..) with rfl | ⟨n, hn, rfl⟩
      · simp only [ne_eq, not_true_eq_false, if_false]
        exact ih hok' buf (by simpa using hl)
      · have : (buf.drop (min n (buf.take SrtSock.PLSIZE).length)).length ≤ (evs.filter fun ev => match ev with | .sent _ => true | _ => false).length := by
          simp [SrtSock.PLSIZE] at hl ⊢
          omega
        obtain ⟨ms, r, h⟩ := ih hok' _ this
        exact ⟨(buf.take SrtSock.PLSIZE).take n :: ms, r, by simp only [h]⟩

example : (SrtSock.write [.sent 1316, .again 0, .sent 1000, .sent 1316] (List.replicate 3000 7)).map (fun r => (r.1, r.2.1.map List.length)) =
    some (Err.SUCCESS, [1316, 1000, 684]) := by decide +kernel
example : (SrtSock.write [.sent 1316, .again 0, .fail] (List.replicate 3000 7)).map (fun r => (r.1, r.2.1.map List.length)) = some (SrtSock.ERROR, [1316]) := by decide +kernel

/-! ## C59: SRT events -/

/-- What a reported event does, in any state: exactly the waiters of that socket whose events were reported (all of them if an error was
reported) are notified, and all others go on waiting. -/
theorem C59_event (d : Dispatch) (fd es : Nat) (err : Err) :
    (∀ fd' w, Waits (d.event fd es err) fd' w ↔ Waits d fd' w ∧ ¬(fd' = fd ∧ (es &&& 8 ≠ 0 ∨ es &&& w.event ≠ 0))) ∧
    (∀ w fd' e, (w, fd', e) ∈ (d.event fd es err).woken ↔ (w, fd', e) ∈ d.woken ∨
      (fd' = fd ∧ Waits d fd w ∧ (es &&& 8 ≠ 0 ∧ e = err ∨ es &&& 8 = 0 ∧ es &&& w.event ≠ 0 ∧ e = Err.SUCCESS))) := by
  refine ⟨fun fd' w => Dispatch.waits_event d fd es err fd' w, fun w fd' e => ?_⟩
  rw [Dispatch.woken_event]
  have h8 : Dispatch.ERR = 8 := rfl
  rw [h8]
  apply or_congr Iff.rfl
  constructor
  · rintro ⟨w', h1, h2, h3⟩
    simp only [Prod.mk.injEq] at h3
    obtain ⟨rfl, rfl, rfl⟩ := h3
    refine ⟨rfl, h1, ?_⟩
    by_cases he : es &&& 8 = 0
    · exact .inr ⟨he, h2.resolve_left fun h => h he, by simp [he]⟩
    · exact .inl ⟨he, by simp [he]⟩
  · rintro ⟨rfl, h1, ⟨h2, rfl⟩ | ⟨h2, h3, rfl⟩⟩
    · exact ⟨w, h1, .inl h2, by simp [h2]⟩
    · exact ⟨w, h1, .inr h3, by simp [h2]⟩

/-- Over every history each waiter returns at most once. -/
theorem C59_once (ops : List Dispatch.Op) : ((Dispatch.init.run ops).2.map fun r => r.1.id).Nodup :=
  (Dispatch.results_once ops _ Dispatch.ids_init).1

/-- Over every history: a waiter returns with a timeout, or because an event it waits for or an error on its socket was reported while it
waited; what it returns says which. -/
theorem C59_cause (ops : List Dispatch.Op) (w : Waiter) (e : Err) (h : (w, e) ∈ (Dispatch.init.run ops).2) :
    e = Err.ERROR_SRT_SOCKET_TIMEOUT ∨ Cause ops w e := by
  have := Dispatch.results_cause ops [] (fun x hx => by simp [Dispatch.run, Dispatch.init] at hx) (w, e) h
  simpa using this

/-- Over every history: a notified waiter does return, with the result of the event. -/
theorem C59_resume (ops : List Dispatch.Op) (w : Waiter) (fd : Nat) (e : Err) (h : (w, fd, e) ∈ (Dispatch.init.run ops).1.woken) :
    ((Dispatch.init.run ops).1.resume w).2 = some e := by
  have hi := Dispatch.ids_run ops _ Dispatch.ids_init
  rw [Dispatch.resume]
  cases hf : (Dispatch.init.run ops).1.woken.find? fun x => x.1 = w with
  | none =>
    have := List.find?_eq_none.1 hf _ h
    simp at this
  | some x =>
    have h1 := List.mem_of_find?_eq_some hf
    have h2 := List.find?_some hf
    simp only [decide_eq_true_eq] at h2
    have := hi.once x h1 _ h (by rw [h2])
    rw [this]

/-- Over every history: what a waiter waits for is watched, so its event will be reported. Partial: errors need not be
(`C59_negation_error`). -/
theorem C59_watched_partial (ops : List Dispatch.Op) (hops : ∀ fd ok, .wait fd 0 ok ∉ ops) (fd : Nat) (w : Waiter) (h : Waits (Dispatch.init.run ops).1 fd w) :
    ∃ e, (Dispatch.init.run ops).1.watch.find fd = some e ∧ covers e w.event :=
  (Dispatch.watched_run ops _ (fun fd w hw => by simp [Dispatch.waits_iff, Dispatch.init, Assoc.find_nil] at hw) hops fd w h).2

/-- Errors are watched when a waiter comes, but no longer after another waiter of the socket has gone: the rest is not told about errors. -/
theorem C59_negation_error :
    (Dispatch.init.run [.wait 5 Dispatch.IN true, .wait 5 Dispatch.OUT true]).1.watch.find 5 = some (Dispatch.IN ||| Dispatch.OUT ||| Dispatch.ERR ||| Dispatch.ET) ∧
    (Dispatch.init.run [.wait 5 Dispatch.IN true, .wait 5 Dispatch.OUT true, .event 5 Dispatch.IN 0, .resume ⟨0, Dispatch.IN⟩]).1.watch.find 5 =
      some (Dispatch.OUT ||| Dispatch.ET) := by
  decide +kernel

example : (Dispatch.init.run [.wait 5 1 true, .wait 6 1 true, .wait 5 4 true, .event 5 1 0, .event 6 8 77, .resume ⟨0, 1⟩, .resume ⟨1, 1⟩, .resume ⟨0, 1⟩, .timeout 5 ⟨2, 4⟩]).2 =
    [(⟨0, 1⟩, 0), (⟨1, 1⟩, 77), (⟨2, 4⟩, Err.ERROR_SRT_SOCKET_TIMEOUT)] := by decide +kernel

end Sps
