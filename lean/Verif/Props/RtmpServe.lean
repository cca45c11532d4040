import Verif.Props.Serve
import Verif.Props.Names
import Verif.Props.Relay
import Mathlib.Data.List.Forall2
/-!
# C91-C94: RTMP clients of streams

C91: what an RTMP publisher's messages carry gets into the stream. C92: what is in the stream gets to an RTMP player. C93: from an RTMP publisher to RTMP players.
C94: between RTMP and HTTP-FLV, and from an upstream server to RTMP players.
-/
namespace Sps.RtmpServe
open Spec Rtmp Sys ServeProps StreamProps HttpStream World

/-- A connection publishes to the cache `cid`, or has done so, over RTMP. -/
def publishes (k : Conn) (cid : Nat) : Prop := (∃ ms cl, k.job = .rtmpPub cid ms cl) ∨ ∃ e, k.job = .done (.rtmpPublisher cid) e

/-- A connection plays as client `c`, or has done so, over RTMP, and was sent `sent`. -/
def plays (k : Conn) (c : Nat) (sent : List RtmpMsg) : Prop := (∃ fails, k.job = .rtmpView c ⟨sent, fails⟩) ∨ ∃ e, k.job = .done (.rtmpPlayer c sent) e

/-- It has not stopped. -/
def isPlaying (k : Conn) : Prop := ∃ c snk, k.job = .rtmpView c snk

/-! ## C91: publishing -/

/-- **C91** (publishing). In every execution, what an RTMP publisher has published are the packets that its media messages carry, from the first on, each once and in
order, whatever else goes on. -/
theorem C91_published {env : Site.Env} {ops : List Sys.Op} (hop : ∀ q ∈ requestsOf ops, ReqOk q) {s : Sys} {L : Log}
    (he : Sys.run env Sys.init ops = some (s, L)) (hfit : fitsFlv L) {i : Nat} {k : Conn} (hi : s.conns[i]? = some k) {q : Req}
    (hq : (requestsOf ops)[i]? = some q) {cid : Nat} (hk : publishes k cid) :
    (.publish (StreamHandler.key q.url), .published cid) ∈ L ∧ ∃ ms closed, q.via = .rtmp true ms closed ∧ publishedTo cid L <+: media ms := by
  have hc := (run_init hop he hfit).ok i k q hi hq
  unfold ConnOk at hc
  rcases hk with ⟨ms, cl, hk⟩ | ⟨e, hk⟩
  · rw [hk] at hc
    obtain ⟨h1, -, ms0, h2, h3, -⟩ := hc
    exact ⟨h1, ms0, cl, h2, h3 ▸ List.prefix_append _ _⟩
  · rw [hk] at hc
    obtain ⟨h1, -, ms, cl, h2, h3⟩ := hc
    exact ⟨h1, ms, cl, h2, h3 ▸ List.prefix_rfl⟩

/-- **C91** (nothing is left out). When the connection has stopped publishing, all that its messages carry, up to the first malformed one, was published. -/
theorem C91_complete {env : Site.Env} {ops : List Sys.Op} (hop : ∀ q ∈ requestsOf ops, ReqOk q) {s : Sys} {L : Log}
    (he : Sys.run env Sys.init ops = some (s, L)) (hfit : fitsFlv L) {i : Nat} {k : Conn} (hi : s.conns[i]? = some k) {q : Req}
    (hq : (requestsOf ops)[i]? = some q) {cid : Nat} {e : Err} (hk : k.job = .done (.rtmpPublisher cid) e) :
    ∃ ms closed, q.via = .rtmp true ms closed ∧ publishedTo cid L = media ms := by
  have hc := (run_init hop he hfit).ok i k q hi hq
  unfold ConnOk at hc
  rw [hk] at hc
  exact hc.2.2

/-- **C91** (no message crashes the server), for publishers without an audio message of one byte.

Missing: audio messages of one byte (`C91_negation_crash`). -/
theorem C91_defined_partial {env : Site.Env} {ops : List Sys.Op} (hop : ∀ q ∈ requestsOf ops, ReqOk q) {s : Sys} {L : Log}
    (he : Sys.run env Sys.init ops = some (s, L)) (hfit : fitsFlv L) {i : Nat} {k : Conn} (hi : s.conns[i]? = some k) {q : Req}
    (hq : (requestsOf ops)[i]? = some q) {cid : Nat} (hk : publishes k cid) {ms : List RtmpMsg} {closed : Err} (hv : q.via = .rtmp true ms closed)
    (hs : ∀ m ∈ ms, judge m ≠ .tooShort) : (s.step env (.run i)).isSome := by
  have hc := (run_init hop he hfit).ok i k q hi hq
  unfold ConnOk at hc
  obtain ⟨job, r, snk⟩ := k
  rcases hk with ⟨rest, cl, rfl⟩ | ⟨e, rfl⟩
  · obtain ⟨-, -, ms0, h2, -, pre, h3⟩ := hc
    rw [hv] at h2
    simp only [Via.rtmp.injEq, true_and] at h2
    obtain ⟨rfl, rfl⟩ := h2
    have hb : ∀ m ∈ rest, ∀ b, m.body = some b → b.length < 2 ^ 64 := by
      have := (hop q (List.mem_of_getElem? hq)).msgs
      rw [hv] at this
      intro m hm
      exact this m (by rw [h3]; exact List.mem_append_right _ hm)
    have hfirst : (first closed rest).isSome := by
      have hs : ∀ m ∈ rest, judge m ≠ .tooShort := fun m hm => hs m (by rw [h3]; exact List.mem_append_right _ hm)
      clear h3 hi hb
      induction rest with
      | nil => rfl
      | cons m rest ih =>
        have := hs m (by simp)
        simp only [first]
        cases hj : judge m with
        | skip => exact ih (fun m hm => hs m (by simp [hm]))
        | accept p => rfl
        | reject e => rfl
        | tooShort => exact absurd hj this
    simp only [Sys.step, hi, runRtmpPub, RtmpDemuxer.readPacket_eq closed rest hb]
    obtain ⟨x, hx⟩ := Option.isSome_iff_exists.1 hfirst
    rw [hx]
    rfl
  · simp [Sys.step, hi]

/-! ## C92: playing -/

/-- A list of messages that are the muxer's for packets that RTMP can carry. -/
theorem messages_carry (ps : List AVPkt) (h : ∀ p ∈ ps, Supported p) : List.Forall₂ Carries ps (messages ps) := by
  induction ps with
  | nil => exact .nil
  | cons p ps ih =>
    obtain ⟨m, e1, -, e4⟩ := RtmpMuxer.encode_spec 20 (by decide) p (h p (by simp))
    have : messages (p :: ps) = m :: messages ps := by simp [messages, e1]
    rw [this]
    exact .cons ⟨_, e4, RtmpMuxer.offsetBack_iff p (h p (by simp))⟩ (ih fun q hq => h q (by simp [hq]))

theorem messages_prefix_carry {ps : List AVPkt} (h : ∀ p ∈ ps, Supported p) {sent : List RtmpMsg} (hs : sent <+: messages ps) :
    ∃ qs, qs <+: ps ∧ List.Forall₂ Carries qs sent := by
  have hc := messages_carry ps h
  refine ⟨ps.take sent.length, List.take_prefix _ _, ?_⟩
  have := List.forall₂_take sent.length hc
  rwa [← List.prefix_iff_eq_take.1 hs] at this

/-- The state of an RTMP player. -/
theorem plays_ok {env : Site.Env} {rqs : List Req} {L : Log} {s : Sys} (h : SInv env rqs L s) {j : Nat} {k : Conn} (hj : s.conns[j]? = some k) {c : Nat}
    {sent : List RtmpMsg} (hk : plays k c sent) :
    sent <+: messages (received c L) ∧ (isPlaying k → sent = messages (received c L) ∧ (.leave c, .ok) ∉ L) := by
  have hlt := get_len hj
  rw [h.len] at hlt
  have hc := h.ok j k _ hj (List.getElem?_eq_getElem hlt)
  unfold ConnOk at hc
  rcases hk with ⟨fails, hk⟩ | ⟨e, hk⟩
  · rw [hk] at hc
    obtain ⟨-, -, h3, h8⟩ := hc
    exact ⟨h3 ▸ List.prefix_rfl, fun _ => ⟨h3, h8⟩⟩
  · rw [hk] at hc
    refine ⟨hc.2, ?_⟩
    rintro ⟨c', snk, hx⟩
    rw [hk] at hx
    simp at hx

/-- **C92.** In every execution, an RTMP player has been sent one message for each packet it was to get, in order, that carries it: for all of them but those
still pending if it plays, for an initial part otherwise. (Composition offsets other than 0 to 15 are not carried, see C21.)

Missing: composition offsets other than 0 to 15 (`C92_negation_offset`). -/
theorem C92_played_partial {env : Site.Env} {ops : List Sys.Op} (hop : ∀ q ∈ requestsOf ops, ReqOk q) {s : Sys} {L : Log}
    (he : Sys.run env Sys.init ops = some (s, L)) (hfit : fitsFlv L) {j : Nat} {k : Conn} (hj : s.conns[j]? = some k) {c : Nat} {sent : List RtmpMsg}
    (hk : plays k c sent) (hsup : ∀ p ∈ entitled c [] L, Supported p) :
    ∃ ps, List.Forall₂ Carries ps sent ∧ ps <+: entitled c [] L ∧ (isPlaying k → ps ++ pendingOf s.w c = entitled c [] L) := by
  have h := run_init hop he hfit
  obtain ⟨h1, h2⟩ := plays_ok h hj hk
  have hd := C12_delivery (L.map Prod.fst) c
  rw [h.world] at hd
  have hd : received c L ++ pendingOf s.w c = entitled c [] L := hd
  have hr : ∀ p ∈ received c L, Supported p := fun p hp => hsup p (by rw [← hd]; exact List.mem_append_left _ hp)
  by_cases hp : isPlaying k
  · obtain ⟨rfl, -⟩ := h2 hp
    exact ⟨_, messages_carry _ hr, hd ▸ List.prefix_append _ _, fun _ => hd⟩
  · obtain ⟨qs, q1, q2⟩ := messages_prefix_carry hr h1
    exact ⟨qs, q2, q1.trans (hd ▸ List.prefix_append _ _), fun hx => absurd hx hp⟩

/-- **C92** (playing does not crash the server): whatever was published, the next step of an RTMP player is defined. -/
theorem C92_defined {env : Site.Env} {s : Sys} {j : Nat} {k : Conn} (hj : s.conns[j]? = some k) {c : Nat} {sent : List RtmpMsg}
    (hk : plays k c sent) : (s.step env (.run j)).isSome := by
  obtain ⟨job, r, snk⟩ := k
  rcases hk with ⟨fails, rfl⟩ | ⟨e, rfl⟩
  · simp only [Sys.step, hj, runRtmpView]
    split <;> rfl
  · simp [Sys.step, hj]

/-! ## C93: from an RTMP publisher to RTMP players -/

/-- What an RTMP player gets of a cache that a publisher or a pull feeds. -/
theorem player_gets {env : Site.Env} {rqs : List Req} {L : Log} {s : Sys} (h : SInv env rqs L s) {j : Nat} {player : Conn} (hj : s.conns[j]? = some player)
    {cid c : Nat} {op0 : WOp} (hmem : (op0, .published cid) ∈ L) (hjoin : ∃ op, (op, .joined c cid) ∈ L)
    {sent : List RtmpMsg} (hp : plays player c sent) (hsup : ∀ p ∈ publishedTo cid L, Supported p) :
    ∃ a ps, a ≤ (publishedTo cid L).length ∧ List.Forall₂ Carries ps sent ∧
      ps <+: startup ((publishedTo cid L).take a) ++ (publishedTo cid L).drop a ∧
      (isPlaying player → pendingOf s.w c = [] → ps = startup ((publishedTo cid L).take a) ++ (publishedTo cid L).drop a) := by
  obtain ⟨a, ha, h1, h2⟩ := player_received h hmem hjoin
  obtain ⟨h3, h4⟩ := plays_ok h hj hp
  have hr : ∀ p ∈ received c L, Supported p := by
    intro p hp
    apply hsup
    rcases List.mem_append.1 (h1.subset hp) with hm | hm
    · exact List.mem_of_mem_take (mem_startup hm)
    · exact List.mem_of_mem_drop hm
  by_cases hpl : isPlaying player
  · obtain ⟨rfl, h8⟩ := h4 hpl
    exact ⟨a, _, ha, messages_carry _ hr, h1, fun _ hpend => h2 h8 hpend⟩
  · obtain ⟨qs, q1, q2⟩ := messages_prefix_carry hr h3
    exact ⟨a, qs, ha, q2, q1.trans h1, fun hx => absurd hx hpl⟩

/-- Who reads messages that carry packets whose offsets survive reads these packets. -/
theorem media_of_carries {ps : List AVPkt} {ms : List RtmpMsg} (h : List.Forall₂ Carries ps ms) (hk : ∀ p ∈ ps, KeepsOffset p) : media ms = ps := by
  induction h with
  | nil => rfl
  | cons hx _ ih =>
    rename_i p m ps ms _
    obtain ⟨pts, h1, h2⟩ := hx
    have := h2.2 (hk p (by simp))
    subst this
    simp only [media, h1]
    rw [ih fun q hq => hk q (by simp [hq])]

/-- **C93** (end to end). In every execution, for an RTMP publisher and an RTMP player that joined its stream: with the packets `F` that the publisher's messages carry
(those read so far), there is a number `a` of them, those published when the player joined, such that the player has been sent one message for each of the start-up
packets among the first `a` and then of the packets that follow, in order, that carries it: all that were published since if it plays and has read its queue, an
initial part of that otherwise.

Missing: composition offsets other than 0 to 15 (`C92_negation_offset`). -/
theorem C93_end_to_end_partial {env : Site.Env} {ops : List Sys.Op} (hop : ∀ q ∈ requestsOf ops, ReqOk q) {s : Sys} {L : Log}
    (he : Sys.run env Sys.init ops = some (s, L)) (hfit : fitsFlv L) {i j : Nat} {pub player : Conn} (hi : s.conns[i]? = some pub)
    (hj : s.conns[j]? = some player) {q : Req} (hq : (requestsOf ops)[i]? = some q) {cid c : Nat} (hpub : publishes pub cid)
    (hjoin : ∃ op, (op, .joined c cid) ∈ L) {sent : List RtmpMsg} (hplay : plays player c sent) {ms : List RtmpMsg} {closed : Err}
    (hv : q.via = .rtmp true ms closed) (hsup : ∀ p ∈ media ms, Supported p) :
    ∃ F a ps, F <+: media ms ∧ (¬ (∃ rest cl, pub.job = .rtmpPub cid rest cl) → F = media ms) ∧ a ≤ F.length ∧ List.Forall₂ Carries ps sent ∧
      ps <+: startup (F.take a) ++ F.drop a ∧ (isPlaying player → pendingOf s.w c = [] → ps = startup (F.take a) ++ F.drop a) := by
  obtain ⟨h1, ms', cl', h2, h3⟩ := C91_published hop he hfit hi hq hpub
  rw [hv] at h2
  simp only [Via.rtmp.injEq, true_and] at h2
  obtain ⟨rfl, rfl⟩ := h2
  obtain ⟨a, ps, h4⟩ := player_gets (run_init hop he hfit) hj h1 hjoin hplay (fun p hp => hsup p (h3.subset hp))
  refine ⟨_, a, ps, h3, ?_, h4⟩
  intro hn
  rcases hpub with hpub | ⟨e, hpub⟩
  · exact absurd ⟨_, _, hpub.choose_spec.choose_spec⟩ hn
  · obtain ⟨ms', cl', h5, h6⟩ := C91_complete hop he hfit hi hq hpub
    rw [hv] at h5
    simp only [Via.rtmp.injEq, true_and] at h5
    rw [h6, h5.1]

/-- **C93** (what players read). If the composition offsets of the publisher are 0 to 15, a player that reads the messages reads exactly the packets the publisher
has sent: the start-up packets, then those that follow.

Missing: composition offsets other than 0 to 15 (`C92_negation_offset`). -/
theorem C93_exact_partial {env : Site.Env} {ops : List Sys.Op} (hop : ∀ q ∈ requestsOf ops, ReqOk q) {s : Sys} {L : Log}
    (he : Sys.run env Sys.init ops = some (s, L)) (hfit : fitsFlv L) {i j : Nat} {pub player : Conn} (hi : s.conns[i]? = some pub)
    (hj : s.conns[j]? = some player) {q : Req} (hq : (requestsOf ops)[i]? = some q) {cid c : Nat} (hpub : publishes pub cid)
    (hjoin : ∃ op, (op, .joined c cid) ∈ L) {sent : List RtmpMsg} (hplay : plays player c sent) {ms : List RtmpMsg} {closed : Err}
    (hv : q.via = .rtmp true ms closed) (hsup : ∀ p ∈ media ms, Supported p ∧ KeepsOffset p) :
    ∃ F a, F <+: media ms ∧ a ≤ F.length ∧ media sent <+: startup (F.take a) ++ F.drop a ∧
      (isPlaying player → pendingOf s.w c = [] → media sent = startup (F.take a) ++ F.drop a) := by
  obtain ⟨F, a, ps, h1, -, h2, h3, h4, h5⟩ := C93_end_to_end_partial hop he hfit hi hj hq hpub hjoin hplay hv (fun p hp => (hsup p hp).1)
  have hm := media_of_carries h3 (by
    intro p hp
    apply (hsup p _).2
    apply h1.subset
    rcases List.mem_append.1 (h4.subset hp) with hm | hm
    · exact List.mem_of_mem_take (mem_startup hm)
    · exact List.mem_of_mem_drop hm)
  exact ⟨F, a, h1, h2, hm ▸ h4, fun x y => by rw [hm]; exact h5 x y⟩

/-! ## C94: between RTMP and HTTP -/

/-- **C94** (RTMP publisher, HTTP player). As C77, with the packets of the RTMP publisher's messages. -/
theorem C94_rtmp_to_http {env : Site.Env} {ops : List Sys.Op} (hop : ∀ q ∈ requestsOf ops, ReqOk q) {s : Sys} {L : Log}
    (he : Sys.run env Sys.init ops = some (s, L)) (hfit : fitsFlv L) {i j : Nat} {pub player : Conn} (hi : s.conns[i]? = some pub)
    (hj : s.conns[j]? = some player) {q : Req} (hq : (requestsOf ops)[i]? = some q) {cid c : Nat} (hpub : publishes pub cid)
    (hjoin : ∃ op, (op, .joined c cid) ∈ L) {ms : List RtmpMsg} {closed : Err} (hv : q.via = .rtmp true ms closed) :
    ∃ F a, F <+: media ms ∧ publishedTo cid L = F ∧ a ≤ F.length ∧
      ((∃ m, player.job = .view c m) ∨ (∃ e, player.job = .done (.player c) e) →
        player.snk.out <+: flvResponse env.reason (startup (F.take a) ++ F.drop a)) ∧
      ((∃ m, player.job = .view c m) ∧ pendingOf s.w c = [] → player.snk.out = flvResponse env.reason (startup (F.take a) ++ F.drop a)) := by
  obtain ⟨h1, ms', cl', h2, h3⟩ := C91_published hop he hfit hi hq hpub
  rw [hv] at h2
  simp only [Via.rtmp.injEq, true_and] at h2
  obtain ⟨rfl, rfl⟩ := h2
  obtain ⟨a, h4⟩ := ServeProps.player_gets hop he hfit hj h1 hjoin
  exact ⟨_, a, h3, rfl, h4⟩

/-- **C94** (HTTP publisher, RTMP player). As C93, with the packets of the FLV file that the publisher sends.

Missing: composition offsets other than 0 to 15, and RTMP pulls (`C94_negation_pull`). -/
theorem C94_http_to_rtmp_partial {env : Site.Env} {ops : List Sys.Op} (hop : ∀ q ∈ requestsOf ops, ReqOk q) {s : Sys} {L : Log}
    (he : Sys.run env Sys.init ops = some (s, L)) (hfit : fitsFlv L) {i j : Nat} {pub player : Conn} (hi : s.conns[i]? = some pub)
    (hj : s.conns[j]? = some player) {q : Req} (hq : (requestsOf ops)[i]? = some q) {b : List UInt8} {cl : Err} (hb : Sends q b cl) {cid c : Nat}
    (hpub : (∃ rd hd, pub.job = .flvPub cid rd hd) ∨ ∃ e, pub.job = .done (.publisher cid) e)
    (hjoin : ∃ op, (op, .joined c cid) ∈ L) {sent : List RtmpMsg} (hplay : plays player c sent)
    (hsup : ∀ p ∈ publishedTo cid L, Supported p) :
    ∃ n F a ps, F = uploaded q b cl n ∧ publishedTo cid L = F ∧ a ≤ F.length ∧ List.Forall₂ Carries ps sent ∧
      ps <+: startup (F.take a) ++ F.drop a ∧ (isPlaying player → pendingOf s.w c = [] → ps = startup (F.take a) ++ F.drop a) := by
  obtain ⟨h1, n, h2⟩ := C77_published hop he hfit hi hq hb hpub
  obtain ⟨a, ps, h4⟩ := player_gets (run_init hop he hfit) hj h1 hjoin hplay hsup
  exact ⟨n, _, a, ps, h2, rfl, h4⟩

/-- **C94** (upstream server, RTMP player). As C93, with the packets of the FLV file that the upstream server of a pull sends.

Missing: composition offsets other than 0 to 15, and RTMP pulls (`C94_negation_pull`). -/
theorem C94_pull_to_rtmp_partial {env : Relay.Env} {ops : List Relay.Op} (hop : ∀ q ∈ requestsIn ops, ReqOk q) (hb : buffersOk ops) {r : Relay} {L : Log}
    (he : Relay.run env Relay.init ops = some (r, L)) (hfit : fitsFlv L) {e cid status : Nat} (hf : feeding r e cid)
    {ch : Bool} {cl : Int} {io : Io} {mem : List UInt8} (ha : answered ops e status ch cl io mem) {b : List UInt8} {closed : Err}
    (hbody : Http.BodyComes ch cl io b closed) {j : Nat} {player : Conn} (hj : r.sys.conns[j]? = some player) {c : Nat} (hjoin : ∃ op, (op, .joined c cid) ∈ L)
    {sent : List RtmpMsg} (hplay : plays player c sent) (hsup : ∀ p ∈ publishedTo cid L, Supported p) :
    ∃ n F a ps, F = (Flv.file mem.length closed n b).1 ∧ publishedTo cid L = F ∧ a ≤ F.length ∧ List.Forall₂ Carries ps sent ∧
      ps <+: startup (F.take a) ++ F.drop a ∧ (isPlaying player → pendingOf r.sys.w c = [] → ps = startup (F.take a) ++ F.drop a) := by
  obtain ⟨h1, n, h2⟩ := RelayProps.C90_relayed hop hb he hfit hf ha hbody
  obtain ⟨sops, s1, s2⟩ := Relay.run_sys ops he
  obtain ⟨a, ps, h4⟩ := player_gets (run_init (by rw [s2]; exact hop) s1 hfit) hj h1 hjoin hplay hsup
  exact ⟨n, _, a, ps, h2, rfl, h4⟩

/-! ## Executions -/

/-- An RTMP client, its URL as the server makes it. -/
def client (role : String) (via : Via) : Req :=
  { host := host role, url := { host := ascii "a.com", path := ascii "/live/x", ext := ascii "-", schema := ascii "rtmp" }, io := { evs := [], closed := 1 }, fails := [],
    mem := List.replicate 64 0, tag := List.replicate 29 0, via := via }

/-- Messages: a command, the configuration of a video decoder, a key frame shown 5 ms after it is decoded, a frame. -/
def msgs : List RtmpMsg :=
  [⟨20, 0, some [1]⟩, ⟨9, 0, some [0x17, 0, 0, 0, 0, 1, 2, 3]⟩, ⟨9, 40, some [0x17, 1, 0, 0, 5, 4, 5]⟩, ⟨9, 80, some [0x27, 1, 0, 0, 0, 6]⟩]

/-- What they carry. -/
def carried : List AVPkt :=
  [{ stream := .video, pktType := 0, payload := [1, 2, 3], dts := 0, pts := 0, flags := 0x17, codec := 7 },
   { stream := .video, pktType := 1, payload := [4, 5], dts := 40, pts := 45, flags := 0x17, codec := 7 },
   { stream := .video, pktType := 1, payload := [6], dts := 80, pts := 80, flags := 0x27, codec := 7 }]

example : media msgs = carried := by decide +kernel

/-- The publisher publishes two packets, an RTMP player and an HTTP player join and play, the publisher goes on and ends, the players play the rest. -/
def broadcast : List Sys.Op :=
  [.request (client "source" (.rtmp true msgs Err.ERROR_IO_EOF)), .run 0, .run 0, .request (client "source" (.rtmp false [] 0)),
   .request (get "source" "GET" "flv"), .run 1, .run 2, .run 0, .run 1, .run 0, .run 2]

/-- What connections are and were sent. -/
def shown (k : Conn) : List Nat × List RtmpMsg × List UInt8 :=
  match k.job with
  | .rtmpView c snk => ([1, c], snk.out, [])
  | .done (.rtmpPublisher cid) _ => ([2, cid], [], [])
  | .view c _ => ([3, c], [], k.snk.out)
  | _ => ([], [], k.snk.out)

example : (Sys.run site Sys.init broadcast).map (fun x => x.1.conns.map shown) =
    some [([2, 0], [], []), ([1, 0], msgs.tail, []), ([3, 1], [], flvResponse site.reason carried)] := by decide +kernel

theorem carried_ok : ∀ p ∈ carried, Supported p ∧ KeepsOffset p := by
  intro p hp
  simp only [carried, List.mem_cons, List.not_mem_nil, or_false] at hp
  rcases hp with rfl | rfl | rfl
  · exact ⟨⟨rfl, by decide, by decide, .inr (.inl ⟨rfl, 0x17, rfl, by decide, by decide, by decide, by decide⟩)⟩, fun _ _ => by decide⟩
  · exact ⟨⟨rfl, by decide, by decide, .inr (.inl ⟨rfl, 0x17, rfl, by decide, by decide, by decide, by decide⟩)⟩, fun _ _ => by decide⟩
  · exact ⟨⟨rfl, by decide, by decide, .inr (.inl ⟨rfl, 0x27, rfl, by decide, by decide, by decide, by decide⟩)⟩, fun _ _ => by decide⟩

/-- The hypotheses of C91, C92, C93 and C94 (RTMP to HTTP) are met by it. -/
example : (∀ q ∈ requestsOf broadcast, ReqOk q) ∧ (∀ p ∈ media msgs, Supported p ∧ KeepsOffset p) ∧ (∀ m ∈ msgs, judge m ≠ .tooShort) ∧
    ∃ s L, Sys.run site Sys.init broadcast = some (s, L) ∧ fitsFlv L ∧ (∃ k, s.conns[0]? = some k ∧ publishes k 0) ∧
      (∃ k, s.conns[1]? = some k ∧ plays k 0 msgs.tail ∧ isPlaying k) ∧ (.play (ascii "a.com/live/x"), .joined 0 0) ∈ L ∧ pendingOf s.w 0 = [] ∧
      (∀ p ∈ entitled 0 [] L, Supported p) := by
  refine ⟨?_, ?_, by decide +kernel, ?_⟩
  · intro q hq
    simp [requestsOf, broadcast] at hq
    rcases hq with rfl | rfl | rfl
    · refine ⟨by decide +kernel, by decide +kernel, by simp [client], ?_⟩
      simp only [client]
      intro m hm b hb
      simp only [msgs, List.mem_cons, List.not_mem_nil, or_false] at hm
      rcases hm with rfl | rfl | rfl | rfl <;> (simp at hb; subst hb; decide)
    · exact ⟨by decide +kernel, by decide +kernel, by simp [client], by simp [client]⟩
    · exact ⟨by decide +kernel, by decide +kernel, by simp [ServeProps.get], by simp [ServeProps.get]⟩
  · have : media msgs = carried := by decide +kernel
    rw [this]; exact carried_ok
  · have h : ((Sys.run site Sys.init broadcast).map fun x => decide ((x.1.conns.map shown).take 2 = [([2, 0], [], []), ([1, 0], msgs.tail, [])] ∧
        (.play (ascii "a.com/live/x"), .joined 0 0) ∈ x.2 ∧ pendingOf x.1.w 0 = [] ∧ entitled 0 [] x.2 = carried ∧
        (x.2.all fun x => match x.1 with | .put _ p => decide ((Flv.body p).length < 2 ^ 24) | _ => true) = true)) = some true := by decide +kernel
    cases hr : Sys.run site Sys.init broadcast with
    | none => rw [hr] at h; simp at h
    | some x =>
      obtain ⟨s, L⟩ := x
      rw [hr] at h
      simp only [Option.map_some, Option.some.injEq, decide_eq_true_eq] at h
      obtain ⟨h1, h2, h3, h4, h5⟩ := h
      refine ⟨s, L, rfl, fitsFlv_of_all h5, ?_, ?_, h2, h3, by rw [h4]; exact fun p hp => (carried_ok p hp).1⟩
      · cases hc : s.conns with
        | nil => rw [hc] at h1; simp at h1
        | cons k ks =>
          rw [hc] at h1
          simp only [List.map_cons, List.take_succ_cons, List.cons.injEq] at h1
          refine ⟨k, rfl, ?_⟩
          have := h1.1
          unfold shown at this
          split at this <;> simp at this
          rename_i cid e hk
          subst this
          exact .inr ⟨e, hk⟩
      · cases hc : s.conns with
        | nil => rw [hc] at h1; simp at h1
        | cons k0 ks =>
          cases ks with
          | nil => rw [hc] at h1; simp at h1
          | cons k ks =>
            rw [hc] at h1
            simp only [List.map_cons, List.take_succ_cons, List.cons.injEq] at h1
            refine ⟨k, rfl, ?_⟩
            have := h1.2.1
            unfold shown at this
            split at this <;> simp at this
            rename_i c snk hk
            obtain ⟨rfl, h7⟩ := this
            obtain ⟨o, f⟩ := snk
            simp only at h7
            subst h7
            exact ⟨.inl ⟨f, hk⟩, ⟨_, _, hk⟩⟩

/-- An HTTP publisher and an RTMP player: the messages of its packets (the second has a composition offset of 40 ms, which the message gives as 8200 ms). -/
example : ((Sys.run site Sys.init [.request post, .request (client "source" (.rtmp false [] 0)), .run 0, .run 0, .run 0, .run 0, .run 1]).map fun x =>
      if publishedTo 0 x.2 = pkts then x.1.conns[1]?.map shown else none) =
    some (some ([1, 0], [⟨9, 0, some [0x17, 0, 0, 0, 0, 1, 2, 3]⟩, ⟨9, 40, some [0x17, 1, 0, 0x20, 8, 4, 5]⟩, ⟨9, 80, some [0x27, 1, 0, 0, 0, 6]⟩], [])) := by
  decide +kernel

/-- A pull that an HTTP player has started and an RTMP player of the same stream. -/
example : ((Relay.run RelayProps.env Relay.init (RelayProps.relayed.take 6 ++
      [.sys (.request { client "edge" (.rtmp false [] 0) with host := RelayProps.edgeHost }) none, .pass 0, .sys (.run 1) none])).map fun x =>
      if publishedTo 0 x.2 = pkts then x.1.sys.conns[1]?.map shown else none) =
    some (some ([1, 1], [⟨9, 0, some [0x17, 0, 0, 0, 0, 1, 2, 3]⟩, ⟨9, 40, some [0x17, 1, 0, 0x20, 8, 4, 5]⟩, ⟨9, 80, some [0x27, 1, 0, 0, 0, 6]⟩], [])) := by
  decide +kernel

example : ∀ p ∈ pkts, Supported p := by
  intro p hp
  simp only [pkts, List.mem_cons, List.not_mem_nil, or_false] at hp
  rcases hp with rfl | rfl | rfl
  · exact ⟨rfl, by decide, by decide, .inr (.inl ⟨rfl, 0x17, rfl, by decide, by decide, by decide, by decide⟩)⟩
  · exact ⟨rfl, by decide, by decide, .inr (.inl ⟨rfl, 0x17, rfl, by decide, by decide, by decide, by decide⟩)⟩
  · exact ⟨rfl, by decide, by decide, .inr (.inl ⟨rfl, 0x27, rfl, by decide, by decide, by decide, by decide⟩)⟩

/-- **C91**, the disagreement: an audio message of one byte makes the server read memory outside of the message. -/
theorem C91_negation_crash :
    Sys.run site Sys.init [.request (client "source" (.rtmp true [⟨8, 0, some [0xaf]⟩] Err.ERROR_IO_EOF)), .run 0] = none := by decide +kernel

/-- **C92**, the disagreement: of a key frame shown 40 ms after it is decoded, an RTMP player gets a message that says 8200 ms. -/
theorem C92_negation_offset :
    (Sys.run site Sys.init [.request (client "source" (.rtmp true [⟨9, 40, some [0x17, 1, 0, 0, 40, 4, 5]⟩] Err.ERROR_IO_EOF)),
      .request (client "source" (.rtmp false [] 0)), .run 0, .run 1]).map (fun x => x.1.conns[1]?.map shown) =
    some (some ([1, 0], [⟨9, 40, some [0x17, 1, 0, 0x20, 8, 4, 5]⟩], [])) := by decide +kernel

/-- A video frame with a time of 5 hours reaches an RTMP player. -/
example :
    (Sys.run site Sys.init [.request (client "source" (.rtmp true [⟨9, 18000000, some [0x17, 1, 0, 0, 0, 4, 5]⟩] Err.ERROR_IO_EOF)),
      .request (client "source" (.rtmp false [] 0)), .run 0, .run 1]).map (fun x => x.1.conns[1]?.map shown) =
    some (some ([1, 0], [⟨9, 18000000, some [0x17, 1, 0, 0, 0, 4, 5]⟩], [])) := by decide +kernel

/-- **C94**, the disagreement: an RTMP player that asks an edge for a stream that it has to pull crashes it once the upstream server answers: the pull is an RTMP one,
which has no response to ask for success. -/
theorem C94_negation_pull :
    (Relay.run RelayProps.env Relay.init [.sys (.request { client "edge" (.rtmp false [] 0) with host := RelayProps.edgeHost }) none]).isSome ∧
    Relay.run RelayProps.env Relay.init [.sys (.request { client "edge" (.rtmp false [] 0) with host := RelayProps.edgeHost }) none,
      .answer 0 RelayProps.upstream (List.replicate 64 0)] = none := by decide +kernel

end Sps.RtmpServe
