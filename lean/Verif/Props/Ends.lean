import Verif.Lemmas.EndsPlay
import Verif.Lemmas.Relay
import Verif.Props.RtmpServe
import Verif.Props.SrtServe
/-!
# Streams end (C115)
-/
namespace Sps.EndsProps
open Sys World HttpStream Spec StreamProps ServeProps

/-! ## Publishers -/

theorem publishes_feeds {k : Conn} {cid : Nat} (h : Publishes k cid) : ∃ x, Sys.feeds k.job = some x ∧ x.1 = cid ∧ ∀ (k' : Conn) (e : Err), k'.job = .done x.2 e → Ended k' cid := by
  rcases h with ⟨rd, hd, h⟩ | ⟨ms, cl, h⟩ | ⟨rd, ctx, st, h⟩
  · exact ⟨(cid, .publisher cid), by rw [h]; rfl, rfl, fun k' e h' => ⟨e, .inl h'⟩⟩
  · exact ⟨(cid, .rtmpPublisher cid), by rw [h]; rfl, rfl, fun k' e h' => ⟨e, .inr (.inl h')⟩⟩
  · exact ⟨(cid, .srtPublisher cid), by rw [h]; rfl, rfl, fun k' e h' => ⟨e, .inr (.inr h')⟩⟩

/-- **C115** (every publisher ends). In every execution, for every connection that publishes, over HTTP, RTMP or SRT: there is a number of turns after which, however
they are interleaved with whatever else goes on, its handler has returned and its stream was taken down. -/
theorem C115_publisher {env : Site.Env} {ops : List Sys.Op} (hop : ∀ q ∈ requestsOf ops, ReqOk q ∧ Tells q) {s : Sys} {L : Log} (he : Sys.run env Sys.init ops = some (s, L))
    {i : Nat} {k : Conn} (hi : s.conns[i]? = some k) {cid : Nat} (hk : Publishes k cid) :
    ∃ N, ∀ more s' l, Sys.run env s more = some (s', l) → N ≤ turns i more → ∃ k', s'.conns[i]? = some k' ∧ Ended k' cid ∧ ∃ o, (.unpublish cid, o) ∈ l := by
  obtain ⟨x, hx, rfl, hend⟩ := publishes_feeds hk
  have hs := run_sound ops he hop (by intro k hk; simp [Sys.init] at hk) k (List.mem_of_getElem? hi)
  obtain ⟨N, hN⟩ := sound_within hs hx
  refine ⟨N, fun more s' l hr ht => ?_⟩
  obtain ⟨k', e, h1, h2, h3⟩ := within_ends more hN hr hi hx ht
  exact ⟨k', h1, hend k' e h2, h3⟩

/-- **C115** (how many turns, HTTP). A request to publish an FLV file ends, from its arrival, within two turns and one for each 15 bytes that its connection delivers, in
whatever framing and whatever they contain. -/
theorem C115_http_bound (env : Site.Env) (s : Sys) (q : Req) (hq : ReqOk q) {s1 : Sys} {l1 : Log} (h1 : s.step env (.request q) = some (s1, l1)) {k : Conn}
    (hk : s1.conns[s.conns.length]? = some k) {cid : Nat} {rd : SReader HttpSrc} {hd : Bool} (hj : k.job = .flvPub cid rd hd)
    (more : List Sys.Op) {s' : Sys} {l : Log} (hr : Sys.run env s1 more = some (s', l)) (ht : 2 + bytesOf q.io / 15 ≤ turns s.conns.length more) :
    ∃ k', s'.conns[s.conns.length]? = some k' ∧ Ended k' cid ∧ ∃ o, (.unpublish cid, o) ∈ l := by
  obtain ⟨k0, e1, e2⟩ := request_begins env s q
  simp only [Sys.step, Option.some.injEq] at h1
  rw [h1] at e1
  rw [e1, List.getElem?_append_right (Nat.le_refl _), Nat.sub_self] at hk
  have hk := Option.some.inj hk
  subst hk
  rw [hj] at e2
  obtain ⟨rfl, rfl⟩ := e2
  have hw := within_flv_start (cid := cid) (1 + bytesOf q.io / 15) (SReader.on q.mem (body q)) (AVBuf.WF.ofCap _ _ hq.mem.2) (by
    have : (SReader.on q.mem (body q)).left = bytesOf q.io := by simp [SReader.left, SReader.on, AVBuf.ofCap, body, bytesOf, Io.left]; rfl
    omega)
  have hk1 : s1.conns[s.conns.length]? = some k0 := by rw [e1, List.getElem?_append_right (Nat.le_refl _), Nat.sub_self]; rfl
  obtain ⟨k', e, g1, g2, g3⟩ := within_ends more (x := (cid, .publisher cid)) (by rw [hj]; exact hw) hr hk1 (by rw [hj]; rfl) (by omega)
  exact ⟨k', g1, ⟨e, .inl g2⟩, g3⟩

/-- **C115** (how many turns, RTMP). A request to publish over RTMP ends, from its arrival, within one turn and one for each message that is received. -/
theorem C115_rtmp_bound (env : Site.Env) (s : Sys) (q : Req) {s1 : Sys} {l1 : Log} (h1 : s.step env (.request q) = some (s1, l1)) {k : Conn}
    (hk : s1.conns[s.conns.length]? = some k) {msgs ms : List RtmpMsg} {cl cl' : Err} (hv : q.via = .rtmp true msgs cl) {cid : Nat} (hj : k.job = .rtmpPub cid ms cl')
    (more : List Sys.Op) {s' : Sys} {l : Log} (hr : Sys.run env s1 more = some (s', l)) (ht : 1 + msgs.length ≤ turns s.conns.length more) :
    ∃ k', s'.conns[s.conns.length]? = some k' ∧ Ended k' cid ∧ ∃ o, (.unpublish cid, o) ∈ l := by
  obtain ⟨k0, e1, e2⟩ := request_begins env s q
  simp only [Sys.step, Option.some.injEq] at h1
  rw [h1] at e1
  rw [e1, List.getElem?_append_right (Nat.le_refl _), Nat.sub_self] at hk
  have hk := Option.some.inj hk
  subst hk
  rw [hj] at e2
  have e2 : q.via = .rtmp true ms cl' := e2
  rw [hv] at e2
  cases e2
  have hk1 : s1.conns[s.conns.length]? = some k0 := by rw [e1, List.getElem?_append_right (Nat.le_refl _), Nat.sub_self]; rfl
  obtain ⟨k', e, g1, g2, g3⟩ := within_ends more (x := (cid, .rtmpPublisher cid)) (by rw [hj]; exact within_rtmp (1 + msgs.length) msgs (by omega)) hr hk1 (by rw [hj]; rfl) ht
  exact ⟨k', g1, ⟨e, .inr (.inl g2)⟩, g3⟩

/-! ## Afterwards -/

theorem ended_view {env : Site.Env} {rqs : List Req} {L : Log} {s : Sys} (h : SInv env rqs L s) {i : Nat} {k : Conn} (hi : s.conns[i]? = some k) {cid : Nat} (hk : Ended k cid) :
    (∃ key src, s.w.view cid = some (key, src, false)) ∧ (∃ op, (op, .published cid) ∈ L) ∧
      ∀ e, k.job = .done (.srtPublisher cid) e → (∃ key src, s.w.view (cid + 1) = some (key, src, false)) ∧ ∃ key, (.publishSrt key, .published cid) ∈ L := by
  have hlt := get_len hi
  rw [h.len] at hlt
  have hc := h.ok i k _ hi (List.getElem?_eq_getElem hlt)
  unfold ConnOk at hc
  obtain ⟨e, hk | hk | hk⟩ := hk <;> rw [hk] at hc <;> simp only at hc
  · obtain ⟨h1, ⟨key, h2⟩, -⟩ := hc
    exact ⟨⟨_, _, h2⟩, ⟨_, h1⟩, fun e' he' => by rw [hk] at he'; cases he'⟩
  · obtain ⟨h1, ⟨key, h2⟩, -⟩ := hc
    exact ⟨⟨_, _, h2⟩, ⟨_, h1⟩, fun e' he' => by rw [hk] at he'; cases he'⟩
  · obtain ⟨h1, ⟨key, h2⟩, -⟩ := hc
    have h3 : Inv2 s.w ([] ++ L) := by have := run_inv2 (L.map Prod.fst) Inv2.init; rwa [h.world] at this
    exact ⟨⟨_, _, h2⟩, ⟨_, h1⟩, fun e' he' => ⟨⟨_, _, h3.twin _ _ _ h2⟩, _, h1⟩⟩

/-- **C115** (an ended stream is over). In every execution, once a publisher's handler has returned, nobody publishes its stream: its key is free of it, and nothing is ever added to the stream, whatever
else happens. -/
theorem C115_over {env : Site.Env} {ops : List Sys.Op} (hop : ∀ q ∈ requestsOf ops, ReqOk q) {s : Sys} {L : Log} (he : Sys.run env Sys.init ops = some (s, L)) (hfit : fitsFlv L)
    {i : Nat} {k : Conn} (hi : s.conns[i]? = some k) {cid : Nat} (hk : Ended k cid) :
    activeKey cid L = none ∧ ∀ wops, publishedTo cid (s.w.run wops).2 = [] := by
  have h := run_init hop he hfit
  obtain ⟨⟨key, src, hv⟩, -⟩ := ended_view h hi hk
  refine ⟨?_, fun wops => closed_quiet wops hv⟩
  have h3 : Inv2 s.w ([] ++ L) := by have := run_inv2 (L.map Prod.fst) Inv2.init; rwa [h.world] at this
  have := h3.active cid
  rw [hv] at this
  simpa using this

theorem plays_to {k : Conn} {c : Nat} (h : Plays k c) : ∃ n, playsTo k.job = some (n, c) := by
  rcases h with ⟨m, h⟩ | ⟨snk, h⟩ | h <;> rw [h] <;> exact ⟨_, rfl⟩

/-- **C115** (its players end). Once a publisher has ended, a connection that plays its stream, over HTTP or RTMP, or over SRT if it was an SRT publisher, has ended after two more turns of its own. -/
theorem C115_players {env : Site.Env} {ops : List Sys.Op} (hop : ∀ q ∈ requestsOf ops, ReqOk q) {s : Sys} {L : Log} (he : Sys.run env Sys.init ops = some (s, L))
    {i : Nat} {pub : Conn} (hi : s.conns[i]? = some pub) {cid : Nat} (hk : Ended pub cid) {j : Nat} {player : Conn} (hj : s.conns[j]? = some player) {c : Nat} (hp : Plays player c)
    (hjoin : (∃ op, (op, .joined c cid) ∈ L) ∨ (∃ e, pub.job = .done (.srtPublisher cid) e) ∧ ∃ op, (op, .joined c (cid + 1)) ∈ L)
    {more : List Sys.Op} (hmore : ∀ q ∈ requestsOf more, ReqOk q) {s' : Sys} {l : Log} (hr : Sys.run env s more = some (s', l)) (hfit : fitsFlv (L ++ l)) (ht : 2 ≤ turns j more) :
    ∃ k' was e, s'.conns[j]? = some k' ∧ k'.job = .done was e := by
  have h := run_init hop he (fitsFlv_prefix hfit)
  obtain ⟨v1, -, v2⟩ := ended_view h hi hk
  obtain ⟨n, hn⟩ := plays_to hp
  have fin : ∀ cid', (∃ op, (op, .joined c cid') ∈ L) → (∃ key src, s.w.view cid' = some (key, src, false)) → ∃ k' was e, s'.conns[j]? = some k' ∧ k'.job = .done was e := by
    rintro cid' ⟨op, hjo⟩ ⟨key, src, hv⟩
    have hc := joined_cache (op := op) (c := c) (cid := cid') (L.map Prod.fst) World.Inv.init
    rw [h.world] at hc
    obtain ⟨cl, hc1, hc2⟩ := hc hjo
    exact (ends_player more h hop hmore hr hfit hj hn hc1 hc2 hv (.inr ht)).1
  rcases hjoin with hjo | ⟨⟨e, he'⟩, hjo⟩
  · exact fin cid hjo v1
  · exact fin (cid + 1) hjo (v2 e he').1

/-- A healthy player of an ended stream, when it ends. -/
theorem last_turn {env : Site.Env} {ops : List Sys.Op} (hop : ∀ q ∈ requestsOf ops, ReqOk q) {s : Sys} {L : Log} (he : Sys.run env Sys.init ops = some (s, L))
    {j : Nat} {player : Conn} (hj : s.conns[j]? = some player) {n c : Nat} (hn : playsTo player.job = some (n, c)) (hh : Healthy player) {cid : Nat}
    (hv : ∃ key src, s.w.view cid = some (key, src, false)) (hjoin : ∃ op, (op, .joined c cid) ∈ L) (hcar : n = 0 → ∀ p ∈ pendingOf s.w c, Flv.carries p = true)
    {more : List Sys.Op} (hmore : ∀ q ∈ requestsOf more, ReqOk q) {s' : Sys} {l : Log} (hr : Sys.run env s more = some (s', l)) (hfit : fitsFlv (L ++ l)) (ht : 2 ≤ turns j more) :
    ∃ B t l1 k1, (∀ q ∈ requestsOf (ops ++ B), ReqOk q) ∧ Sys.run env Sys.init (ops ++ B) = some (t, L ++ l1) ∧ fitsFlv (L ++ l1) ∧ t.conns[j]? = some k1 ∧ playsTo k1.job = some (n, c) ∧
      pendingOf t.w c = [] ∧ s'.conns[j]? = some (over k1) ∧ publishedTo cid (L ++ l1) = publishedTo cid L := by
  have h := run_init hop he (fitsFlv_prefix hfit)
  obtain ⟨key, src, hv⟩ := hv
  obtain ⟨op, hjo⟩ := hjoin
  have hc := joined_cache (op := op) (c := c) (cid := cid) (L.map Prod.fst) World.Inv.init
  rw [h.world] at hc
  obtain ⟨cl, hc1, hc2⟩ := hc hjo
  obtain ⟨B1, B2, t, l1, l2, k1, rfl, rfl, e3, e4, e5, e6, e7⟩ := (ends_player more h hop hmore hr hfit hj hn hc1 hc2 hv (.inr ht)).2 hh hcar
  have hop' : ∀ q ∈ requestsOf (ops ++ B1), ReqOk q := by
    intro q hq
    rw [requestsOf, List.filterMap_append] at hq
    rcases List.mem_append.1 hq with hq | hq
    · exact hop q hq
    · exact hmore q (by rw [requestsOf, List.filterMap_append]; exact List.mem_append_left _ hq)
  have he' : Sys.run env Sys.init (ops ++ B1) = some (t, L ++ l1) := Relay.run_append_sys ops B1 he e3
  have hf' : fitsFlv (L ++ l1) := fitsFlv_prefix (b := l2) (by rw [List.append_assoc]; exact hfit)
  refine ⟨B1, t, l1, k1, hop', he', hf', e4, e5, e6, e7, ?_⟩
  have hq := closed_quiet (l1.map Prod.fst) hv
  rw [run_world h (run_init hop' he' hf')] at hq
  rw [publishedTo_append, hq, List.append_nil]

/-- **C115** (an HTTP player gets all of it). Once a publisher has ended, over whatever protocol, a player over HTTP to whose connection nothing fails to be written and that can be sent what was published (audio, video, script data) ends, after two turns
of its own, with the whole stream: with the response head, an FLV header, the start-up packets among those published before it joined, and then each of the packets that followed. -/
theorem C115_http_complete {env : Site.Env} {ops : List Sys.Op} (hop : ∀ q ∈ requestsOf ops, ReqOk q) {s : Sys} {L : Log} (he : Sys.run env Sys.init ops = some (s, L))
    {i : Nat} {pub : Conn} (hi : s.conns[i]? = some pub) {cid : Nat} (hk : Ended pub cid) {j : Nat} {player : Conn} (hj : s.conns[j]? = some player) {c : Nat} {m : FlvMuxer}
    (hp : player.job = .view c m) (hh : player.snk.fails = []) (hjoin : ∃ op, (op, .joined c cid) ∈ L) (hcar : ∀ p ∈ publishedTo cid L, Flv.carries p = true)
    {more : List Sys.Op} (hmore : ∀ q ∈ requestsOf more, ReqOk q) {s' : Sys} {l : Log} (hr : Sys.run env s more = some (s', l)) (hfit : fitsFlv (L ++ l)) (ht : 2 ≤ turns j more) :
    ∃ a k', a ≤ (publishedTo cid L).length ∧ s'.conns[j]? = some k' ∧ k'.job = .done (.player c) Err.ERROR_SOCKET_TIMEOUT ∧
      k'.snk.out = flvResponse env.reason (startup ((publishedTo cid L).take a) ++ (publishedTo cid L).drop a) := by
  have h := run_init hop he (fitsFlv_prefix hfit)
  obtain ⟨v1, ⟨op0, v3⟩, -⟩ := ended_view h hi hk
  have hcar' : ∀ p ∈ pendingOf s.w c, Flv.carries p = true := by
    intro p hm
    obtain ⟨op, hjo⟩ := hjoin
    have hsplit := entitled_split c cid op (L.map Prod.fst) (w := World.init) (past := []) (Nat.zero_le _)
    rw [h.world] at hsplit
    obtain ⟨L1, L2, e1, e2⟩ := hsplit hjo
    have e1 : L = L1 ++ (op, .joined c cid) :: L2 := e1
    have e2 : entitled c [] L = startupOf cid ([] ++ L1) ++ untilLeave c cid L2 := e2
    have hd := C12_delivery (L.map Prod.fst) c
    rw [h.world] at hd
    have hd : received c L ++ pendingOf s.w c = entitled c [] L := hd
    have hpl : publishedTo cid L = publishedTo cid L1 ++ publishedTo cid L2 := by
      rw [e1, publishedTo_append]
      congr 1
      cases op <;> rfl
    have hm : p ∈ startupOf cid ([] ++ L1) ++ untilLeave c cid L2 := by rw [← e2, ← hd]; exact List.mem_append_right _ hm
    apply hcar
    rw [hpl]
    rcases List.mem_append.1 hm with hm | hm
    · apply List.mem_append_left
      unfold startupOf at hm
      split at hm
      · exact mem_startupRaw hm
      · exact mem_startup hm
    · exact List.mem_append_right _ ((untilLeave_prefix c cid L2).subset hm)
  obtain ⟨B, t, l1, k1, g1, g2, g3, g4, g5, g6, g7, g8⟩ := last_turn hop he hj (n := 0) (c := c) (by rw [hp]; rfl) (by simp only [Healthy, hp]; exact hh) v1 hjoin (fun _ => hcar') hmore hr hfit ht
  obtain ⟨a, a1, -, a3⟩ := ServeProps.player_gets g1 g2 g3 g4 (List.mem_append_left l1 v3) (hjoin.imp fun op ho => List.mem_append_left _ ho)
  rw [g8] at a1 a3
  obtain ⟨job, r, snk⟩ := k1
  cases job <;> simp only [playsTo, reduceCtorEq, Option.some.injEq, Prod.mk.injEq, Nat.succ_ne_zero, false_and, OfNat.one_ne_ofNat, OfNat.ofNat_ne_zero, one_ne_zero] at g5
  obtain ⟨-, rfl⟩ := g5
  exact ⟨a, _, a1, g7, rfl, a3 ⟨⟨_, rfl⟩, g6⟩⟩

/-- **C115** (an RTMP player gets all of it): with one message for each packet, that carries it. -/
theorem C115_rtmp_complete {env : Site.Env} {ops : List Sys.Op} (hop : ∀ q ∈ requestsOf ops, ReqOk q) {s : Sys} {L : Log} (he : Sys.run env Sys.init ops = some (s, L))
    {i : Nat} {pub : Conn} (hi : s.conns[i]? = some pub) {cid : Nat} (hk : Ended pub cid) {j : Nat} {player : Conn} (hj : s.conns[j]? = some player) {c : Nat} {snk : MsgSink}
    (hp : player.job = .rtmpView c snk) (hh : snk.fails = []) (hjoin : ∃ op, (op, .joined c cid) ∈ L) (hsup : ∀ p ∈ publishedTo cid L, Rtmp.Supported p)
    {more : List Sys.Op} (hmore : ∀ q ∈ requestsOf more, ReqOk q) {s' : Sys} {l : Log} (hr : Sys.run env s more = some (s', l)) (hfit : fitsFlv (L ++ l)) (ht : 2 ≤ turns j more) :
    ∃ a k' sent, a ≤ (publishedTo cid L).length ∧ s'.conns[j]? = some k' ∧ k'.job = .done (.rtmpPlayer c sent) Err.ERROR_SOCKET_TIMEOUT ∧
      List.Forall₂ Rtmp.Carries (startup ((publishedTo cid L).take a) ++ (publishedTo cid L).drop a) sent := by
  have h := run_init hop he (fitsFlv_prefix hfit)
  obtain ⟨v1, ⟨op0, v3⟩, -⟩ := ended_view h hi hk
  obtain ⟨B, t, l1, k1, g1, g2, g3, g4, g5, g6, g7, g8⟩ := last_turn hop he hj (n := 1) (c := c) (by rw [hp]; rfl) (by simp only [Healthy, hp]; exact hh) v1 hjoin (fun h0 => by cases h0) hmore hr hfit ht
  obtain ⟨job, r, sk⟩ := k1
  cases job <;> simp only [playsTo, reduceCtorEq, Option.some.injEq, Prod.mk.injEq, Nat.succ_ne_zero, false_and, OfNat.ofNat_ne_one, zero_ne_one] at g5
  rename_i c' snk'
  obtain ⟨-, rfl⟩ := g5
  obtain ⟨a, ps, a1, a2, -, a4⟩ := RtmpServe.player_gets (run_init g1 g2 g3) g4 (List.mem_append_left l1 v3) (hjoin.imp fun op ho => List.mem_append_left _ ho) (sent := snk'.out) (.inl ⟨snk'.fails, rfl⟩)
    (by rw [g8]; exact hsup)
  rw [g8] at a1 a4
  rw [a4 ⟨_, _, rfl⟩ g6] at a2
  exact ⟨a, _, _, a1, g7, rfl, a2⟩

/-- **C115** (an SRT player gets all of it): the packets of the publisher's transport stream that are passed on, the tables first, unchanged. -/
theorem C115_srt_complete {env : Site.Env} {ops : List Sys.Op} (hop : ∀ q ∈ requestsOf ops, ReqOk q) {s : Sys} {L : Log} (he : Sys.run env Sys.init ops = some (s, L))
    {i : Nat} {pub : Conn} (hi : s.conns[i]? = some pub) {cid : Nat} {e : Err} (hk : pub.job = .done (.srtPublisher cid) e) {j : Nat} {player : Conn} (hj : s.conns[j]? = some player) {c : Nat}
    (hp : player.job = .srtView c) (hh : player.snk.fails = []) (hjoin : ∃ op, (op, .joined c (cid + 1)) ∈ L)
    {more : List Sys.Op} (hmore : ∀ q ∈ requestsOf more, ReqOk q) {s' : Sys} {l : Log} (hr : Sys.run env s more = some (s', l)) (hfit : fitsFlv (L ++ l)) (ht : 2 ≤ turns j more) :
    ∃ a k', a ≤ (publishedTo (cid + 1) L).length ∧ s'.conns[j]? = some k' ∧ k'.job = .done (.srtPlayer c) Err.ERROR_SOCKET_TIMEOUT ∧
      k'.snk.out = (startupRaw ((publishedTo (cid + 1) L).take a) ++ (publishedTo (cid + 1) L).drop a).flatMap (·.payload) := by
  have h := run_init hop he (fitsFlv_prefix hfit)
  obtain ⟨-, -, v⟩ := ended_view h hi (cid := cid) ⟨e, .inr (.inr hk)⟩
  obtain ⟨v1, key, v3⟩ := v e hk
  obtain ⟨B, t, l1, k1, g1, g2, g3, g4, g5, g6, g7, g8⟩ := last_turn hop he hj (n := 2) (c := c) (by rw [hp]; rfl) (by simp only [Healthy, hp]; exact hh) v1 hjoin (fun h0 => by cases h0) hmore hr hfit ht
  obtain ⟨job, r, sk⟩ := k1
  cases job <;> simp only [playsTo, reduceCtorEq, Option.some.injEq, Prod.mk.injEq, Nat.succ_ne_zero, false_and, OfNat.one_ne_ofNat, OfNat.zero_ne_ofNat] at g5
  obtain ⟨-, rfl⟩ := g5
  have hI := run_init g1 g2 g3
  obtain ⟨a, a1, -, a3⟩ := raw_received hI (List.mem_append_left l1 v3) (hjoin.imp fun op ho => List.mem_append_left _ ho)
  obtain ⟨-, a5⟩ := SrtServe.plays_ok hI g4 (.inl rfl)
  obtain ⟨a6, a7⟩ := a5 rfl
  rw [a3 a7 g6] at a6
  rw [g8] at a1 a6
  exact ⟨a, _, a1, g7, rfl, a6⟩

/-! ## An execution -/

/-- The publisher of the sample execution has sent its file and ended when the player has been sent two packets of it. -/
def before : List Sys.Op := [.request post, .run 0, .run 0, .run 0, .request (get "source" "GET" "flv"), .run 1, .run 0, .run 0]

/-- Two turns of the player, and a new publisher of the same key. -/
def after : List Sys.Op := [.request post, .run 1, .run 2, .run 1]

/-- What a connection does: it publishes (0), has published (1), plays (2), or something else. -/
def doing (k : Conn) : Nat × Nat :=
  match k.job with
  | .flvPub cid _ _ => (0, cid)
  | .done (.publisher cid) _ => (1, cid)
  | .view c _ => (2, c)
  | _ => (3, 0)

theorem doing_sound {k : Conn} {n : Nat} :
    (doing k = (0, n) → Publishes k n) ∧ (doing k = (1, n) → Ended k n) ∧ (doing k = (2, n) → ∃ m, k.job = .view n m) := by
  unfold doing
  refine ⟨fun h => ?_, fun h => ?_, fun h => ?_⟩ <;> split at h <;> simp only [Prod.mk.injEq, OfNat.ofNat_ne_zero, OfNat.ofNat_ne_one, OfNat.one_ne_ofNat, OfNat.zero_ne_ofNat, zero_ne_one, one_ne_zero,
    false_and, Nat.reduceEqDiff, true_and] at h
  · rename_i hj; subst h; exact .inl ⟨_, _, hj⟩
  · rename_i hj; subst h; exact ⟨_, .inl hj⟩
  · rename_i hj; subst h; exact ⟨_, hj⟩

theorem sample_ok : ∀ q ∈ requestsOf (before ++ after), ReqOk q ∧ Tells q := by
  intro q hq
  simp [requestsOf, before, after] at hq
  rcases hq with rfl | rfl | rfl
  · exact ⟨⟨by decide +kernel, by decide +kernel, by simp [post, ServeProps.get], by simp [post, ServeProps.get]⟩, fun h => by cases h⟩
  · exact ⟨⟨by decide +kernel, by decide +kernel, by simp [ServeProps.get], by simp [ServeProps.get]⟩, fun h => by cases h⟩
  · exact ⟨⟨by decide +kernel, by decide +kernel, by simp [post, ServeProps.get], by simp [post, ServeProps.get]⟩, fun h => by cases h⟩

/-- The hypotheses of C115_publisher and C115_http_bound are met at the beginning: its bytes allow at most 8 turns (it takes 5). -/
example : (∃ s l, Sys.init.step site (.request post) = some (s, l) ∧ ∃ k, s.conns[0]? = some k ∧ Publishes k 0) ∧ 2 + bytesOf post.io / 15 = 8 ∧
    (Sys.run site Sys.init (.request post :: List.replicate 4 (.run 0))).map (fun x => x.1.conns.map doing) = some [(0, 0)] ∧
    (Sys.run site Sys.init (.request post :: List.replicate 5 (.run 0))).map (fun x => x.1.conns.map doing) = some [(1, 0)] := by
  refine ⟨?_, by decide +kernel, by decide +kernel, by decide +kernel⟩
  have h : ((Sys.init.step site (.request post)).bind fun x => x.1.conns[0]?.map doing) = some (0, 0) := by decide +kernel
  obtain ⟨x, h1, h2⟩ := Option.bind_eq_some_iff.1 h
  obtain ⟨k, h3, h4⟩ := Option.map_eq_some_iff.1 h2
  exact ⟨x.1, x.2, h1, k, h3, doing_sound.1 h4⟩

/-- The hypotheses of C115_over, C115_players and C115_http_complete are met by the sample execution, and the player ends with the whole file, although the key is published again. -/
example : (∃ s L pub player m, Sys.run site Sys.init before = some (s, L) ∧ s.conns[0]? = some pub ∧ Ended pub 0 ∧ s.conns[1]? = some player ∧ player.job = .view 0 m ∧ player.snk.fails = [] ∧
      (.play (ascii "a.com/live/x"), .joined 0 0) ∈ L ∧ (∀ p ∈ publishedTo 0 L, Flv.carries p = true) ∧ pendingOf s.w 0 ≠ [] ∧
      ∃ s' l, Sys.run site s after = some (s', l) ∧ fitsFlv (L ++ l) ∧ 2 ≤ turns 1 after) ∧
    (Sys.run site Sys.init (before ++ after)).map (fun x => (x.1.conns.map ending).take 2) = some [(some (.publisher 0), []), (some (.player 0), flvResponse site.reason pkts)] := by
  refine ⟨?_, by decide +kernel⟩
  have h : ((Sys.run site Sys.init before).bind fun x => (Sys.run site x.1 after).map fun y =>
      decide (x.1.conns.map doing = [(1, 0), (2, 0)] ∧ (x.1.conns.all fun k => k.snk.fails = []) ∧ (.play (ascii "a.com/live/x"), .joined 0 0) ∈ x.2 ∧
        (publishedTo 0 x.2).all Flv.carries = true ∧ pendingOf x.1.w 0 ≠ [] ∧
        ((x.2 ++ y.2).all fun x => match x.1 with | .put _ p => decide ((Flv.body p).length < 2 ^ 24) | _ => true) = true)) = some true := by decide +kernel
  obtain ⟨x, h1, h2⟩ := Option.bind_eq_some_iff.1 h
  obtain ⟨y, h3, h4⟩ := Option.map_eq_some_iff.1 h2
  obtain ⟨g1, g2, g3, g4, g5, g6⟩ := of_decide_eq_true h4
  obtain ⟨pub, player, hx⟩ : ∃ a b, x.1.conns = [a, b] := by
    have hl := congrArg List.length g1
    rw [List.length_map] at hl
    exact List.length_eq_two.1 hl
  rw [hx] at g1 g2
  simp only [List.map_cons, List.map_nil, List.cons.injEq, and_true] at g1
  obtain ⟨m, hm⟩ := doing_sound.2.2 g1.2
  refine ⟨x.1, x.2, pub, player, m, h1, by rw [hx]; rfl, doing_sound.2.1 g1.1, by rw [hx]; rfl, hm, ?_, g3, List.all_eq_true.1 g4, g5, y.1, y.2, h3, fitsFlv_of_all g6, by decide +kernel⟩
  simp only [List.all_cons, Bool.and_eq_true, decide_eq_true_eq] at g2
  exact g2.2.1

/-- What ended connections were. -/
def result (k : Conn) : Option (Role × Err × List UInt8) := match k.job with | .done was e => some (was, e, k.snk.out) | _ => none

/-- The hypotheses of C115_rtmp_complete and C115_srt_complete are met after the execution `broadcast` of an SRT publisher (as shown with C95 to C97: the publisher has stopped, the players play), in which
no write fails; this is what two more turns of each player lead to. -/
example : (Sys.run site Sys.init SrtServe.broadcast).map (fun x => x.1.conns.map fun k => (k.snk.fails, match k.job with | .rtmpView _ snk => snk.fails | _ => [])) = some (List.replicate 4 ([], [])) ∧
    (Sys.run site Sys.init (SrtServe.broadcast ++ [.run 1, .run 1, .run 2, .run 2, .run 3, .run 3])).map (fun x => x.1.conns.map result) =
      some [some (.srtPublisher 0, Err.ERROR_IO_EOF, []), some (.srtPlayer 0, Err.ERROR_SOCKET_TIMEOUT, SrtServe.sent),
        some (.player 1, Err.ERROR_SOCKET_TIMEOUT, flvResponse site.reason SrtServe.carried), some (.rtmpPlayer 2 SrtServe.messages, Err.ERROR_SOCKET_TIMEOUT, [])] := by decide +kernel

/-- An RTMP publisher with four messages, three of them media: it publishes after three turns and has ended after four, within the five of C115_rtmp_bound. -/
example : RtmpServe.msgs.length = 4 ∧
    (Sys.run site Sys.init (.request (RtmpServe.client "source" (.rtmp true RtmpServe.msgs Err.ERROR_IO_EOF)) :: List.replicate 3 (.run 0))).map (fun x => x.1.conns.map result) = some [none] ∧
    (Sys.run site Sys.init (.request (RtmpServe.client "source" (.rtmp true RtmpServe.msgs Err.ERROR_IO_EOF)) :: List.replicate 4 (.run 0))).map (fun x => x.1.conns.map result) =
      some [some (.rtmpPublisher 0, Err.ERROR_IO_EOF, [])] := ⟨rfl, by decide +kernel, by decide +kernel⟩

end Sps.EndsProps
