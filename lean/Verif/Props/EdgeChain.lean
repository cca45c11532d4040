import Verif.Lemmas.EdgeChain
import Verif.Props.EdgeLive
import Verif.Spec.H264
/-!
# C111: a stream crosses any number of servers, each of which pulls it from the one before
-/
namespace Sps.EdgeChain
open Spec Spec.Http Spec.Names Spec.HttpConn Spec.HttpLive Spec.Edge Spec.Server StreamProps World Relay EdgeLive

/-- A server and what has gone on there: `ops`, with the outcome `r` and the log `log`. `cid` is the cache of the stream looked at. -/
structure Node where
  env : Relay.Env
  ops : List Relay.Op
  r : Relay
  log : Log
  cid : Nat

/-- An execution from the start, with packets that FLV has room for. -/
structure Node.Runs (n : Node) : Prop where
  ok : ∀ q ∈ requestsIn n.ops, ReqOk q
  run : Relay.run n.env Relay.init n.ops = some (n.r, n.log)
  fits : fitsFlv n.log

/-- All packets of the stream. -/
def Node.packets (n : Node) : List AVPkt := publishedTo n.cid n.log

/-- At the server `n` the request `q` for the stream came after `A`, when there was the stream (log `L1`); its connection is `conn`. -/
structure Comes (n : Node) (site : HttpSite) (request : List UInt8) (key : Text) (q : Req) (v : Option Url) (A D : List Relay.Op) (r1 : Relay) (L1 : Log) (conn : Conn) : Prop where
  plays : RtmpConn.Plays n.env.site
  parsers : ReadsSends site.parsers
  arrived : ∃ (c : HttpConn) (bytes : List UInt8) (e : Err) (mem tag : List UInt8), Arrives c.io (request ++ bytes) e ∧ site.arrive mem tag c = .ok (.stream q)
  ops : n.ops = A ++ .sys (.request q) v :: D
  before : Relay.run n.env Relay.init A = some (r1, L1)
  active : isStream n.cid key L1
  conn : n.r.sys.conns[(requestsIn A).length]? = some conn

/-- The server `n` pulls its stream from the server `o`: a player asked `n`, `n` asked `o`, and of what `o` sent `n` the bytes `sent` have arrived. -/
structure Link (o n : Node) where
  site : HttpSite
  a : Send
  st : Names.Stream
  q : Req
  origin : Text
  port : Option Text
  u : Url
  asked : Asked n.env site a st q origin port
  target : Edge.target n.env.parser q.host q.url = some u
  osite : HttpSite
  oq : Req
  v : Option Url
  A : List Relay.Op
  D : List Relay.Op
  r1 : Relay
  L1 : Log
  conn : Conn
  comes : Comes o osite (HttpClient.openText u) (origin ++ st.path) oq v A D r1 L1 conn
  phrase : valueOk (o.env.site.reason 200) ∧ (o.env.site.reason 200).length ≤ 2000
  up : Io
  sent : List UInt8
  closed : Err
  arrives : Arrives up sent closed
  part : sent <+: conn.snk.out
  p : Parsers
  mem : List UInt8
  e : Nat
  pulling : Pulling n.env p u up mem n.ops n.r n.log e n.cid

/-- Servers each of which pulls from the one before. -/
inductive Chain : Node → Node → Prop where
  | one {o n : Node} (hr : o.Runs) (l : Link o n) : Chain o n
  | more {o m n : Node} (c : Chain o m) (l : Link m n) : Chain o n

/-- Nothing is under way: the server asked has sent all, all of it has arrived, and the pull is over. -/
structure Link.Whole {o n : Node} (l : Link o n) (cap : Nat) : Prop where
  plays : ∃ k mux, l.conn.job = .view k mux ∧ pendingOf o.r.sys.w k = []
  all : l.sent = l.conn.snk.out
  over : n.r.pulls[l.e]? = some (.over (some n.cid))
  room : cap ≤ l.mem.length

inductive WholeChain (cap : Nat) : Node → Node → Prop where
  | one {o n : Node} (hr : o.Runs) (l : Link o n) (h : l.Whole cap) : WholeChain cap o n
  | more {o m n : Node} (c : WholeChain cap o m) (l : Link m n) (h : l.Whole cap) : WholeChain cap o n

theorem WholeChain.chain {cap : Nat} {o n : Node} (h : WholeChain cap o n) : Chain o n := by
  induction h with
  | one hr l _ => exact .one hr l
  | more _ l _ ih => exact .more ih l

theorem Chain.runs {o n : Node} (h : Chain o n) : n.Runs := by
  cases h with
  | one _ l => exact ⟨l.pulling.ok, l.pulling.run, l.pulling.fits⟩
  | more _ l => exact ⟨l.pulling.ok, l.pulling.run, l.pulling.fits⟩

/-- A request at a server that may pull itself is one at the server of C106. -/
theorem Comes.sys {n : Node} {site : HttpSite} {request : List UInt8} {key : Text} {q : Req} {v : Option Url} {A D : List Relay.Op} {r1 : Relay} {L1 : Log} {conn : Conn} (hr : n.Runs)
    (h : Comes n site request key q v A D r1 L1 conn) : ∃ SA SD, HttpLive.Comes n.env.site SA SD q r1.sys n.r.sys L1 n.log ∧ requestsOf SA = requestsIn A := by
  have hrun := hr.run
  rw [h.ops] at hrun
  have hsplit : ∀ (a b : List Relay.Op) (r : Relay) {r2 : Relay} {L : Log}, Relay.run n.env r (a ++ b) = some (r2, L) →
      ∃ r1 L1 L2, Relay.run n.env r a = some (r1, L1) ∧ Relay.run n.env r1 b = some (r2, L2) ∧ L = L1 ++ L2 := by
    intro a b
    induction a with
    | nil => exact fun r r2 L h => ⟨r, [], L, rfl, h, rfl⟩
    | cons op a ih =>
      intro r r2 L h
      simp only [List.cons_append, Relay.run, Option.bind_eq_bind, Option.bind_eq_some_iff, Option.pure_def, Option.some.injEq, Prod.mk.injEq, Prod.exists] at h ⊢
      obtain ⟨x, l, h1, y, l', h2, rfl, rfl⟩ := h
      obtain ⟨z, L1, L2, e1, e2, rfl⟩ := ih x h2
      exact ⟨z, l ++ L1, L2, ⟨x, l, h1, z, L1, e1, rfl, rfl⟩, e2, by rw [List.append_assoc]⟩
  obtain ⟨r1', L1', L2, e1, e2, e3⟩ := hsplit _ _ _ hrun
  rw [h.before] at e1
  cases e1
  obtain ⟨SA, a1, a2⟩ := Relay.run_sys A h.before
  simp only [Relay.run, Option.bind_eq_bind, Option.bind_eq_some_iff, Option.pure_def, Option.some.injEq, Prod.mk.injEq, Prod.exists] at e2
  obtain ⟨x, l, h1, y, l', h2, rfl, rfl⟩ := e2
  simp only [Relay.step, Relay.reserved, Bool.false_eq_true, if_false, Option.map_eq_some_iff, Prod.mk.injEq, Prod.exists] at h1
  obtain ⟨s2, l2, h1, rfl, rfl⟩ := h1
  obtain ⟨SD, d1, d2⟩ := Relay.run_sys D h2
  refine ⟨SA, SD, ⟨?_, a1, ?_, hr.fits⟩, a2⟩
  · intro x hx
    apply hr.ok
    rw [h.ops]
    have : requestsOf (SA ++ .request q :: SD) = requestsIn (A ++ .sys (.request q) v :: D) := by
      have e1 : requestsOf (SA ++ .request q :: SD) = requestsOf SA ++ q :: requestsOf SD := by simp [requestsOf]
      have e2 : requestsIn (A ++ .sys (.request q) v :: D) = requestsIn A ++ q :: requestsIn D := by simp [requestsIn]
      rw [e1, e2, a2, d2]
    rw [← this]
    exact hx
  · rw [e3]
    refine Relay.run_append_sys SA _ a1 ?_
    simp only [Sys.run, Option.bind_eq_bind, Option.bind_eq_some_iff, Option.pure_def, Option.some.injEq, Prod.mk.injEq, Prod.exists]
    exact ⟨s2, _, h1, _, l', d1, rfl, rfl⟩

/-- One link is C108. -/
theorem Link.relayed {o n : Node} (hr : o.Runs) (l : Link o n) : ∃ after, o.packets = publishedTo o.cid l.L1 ++ after ∧ n.packets <+: (startup (publishedTo o.cid l.L1) ++ after).map back := by
  obtain ⟨SA, SD, h1, h2⟩ := l.comes.sys hr
  exact C108_relayed_partial l.asked l.target ⟨l.comes.plays, l.comes.parsers, l.phrase, l.comes.arrived, h1, l.comes.active⟩ (conn := l.conn) (by rw [h2]; exact l.comes.conn) l.arrives l.part l.pulling

theorem Link.complete {o n : Node} (hr : o.Runs) (l : Link o n) {cap : Nat} (h : l.Whole cap) (hsup : ∀ x ∈ o.packets, Flv.Supported cap (Flv.wire x)) :
    ∃ after, o.packets = publishedTo o.cid l.L1 ++ after ∧ n.packets = (startup (publishedTo o.cid l.L1) ++ after).map Flv.wire := by
  obtain ⟨SA, SD, h1, h2⟩ := l.comes.sys hr
  obtain ⟨k, mux, h3, h4⟩ := h.plays
  exact C108_complete_partial l.asked l.target ⟨l.comes.plays, l.comes.parsers, l.phrase, l.comes.arrived, h1, l.comes.active⟩ (conn := l.conn) (by rw [h2]; exact l.comes.conn) ⟨mux, h3⟩ h4
    (by rw [← h.all]; exact l.arrives) l.pulling h.over fun x hx => by
      have := hsup x hx
      exact ⟨this.msg, this.dts, this.payload, ⟨Nat.le_trans this.fits.1 h.room, this.fits.2⟩, this.format⟩

/-- **C111** (relaying). However many servers a stream crosses, whatever goes on at each of them and however the bytes travel between them: the last has of it what one server that pulls from the first, and
begins to do so at some point, would have: an initial part of the start-up packets at that point and of all packets from then on, read back from their tags, in order, none twice and none left out.

Missing: supplemental information units of SRT publishers (`C111_negation_sei`), and the limits of
C108. -/
theorem C111_relayed_partial {o n : Node} (h : Chain o n) (hk : ∀ p ∈ o.packets, kept p) : ∃ k, n.packets <+: (startup (o.packets.take k) ++ o.packets.drop k).map back := by
  induction h with
  | one hr l =>
    obtain ⟨after, h1, h2⟩ := l.relayed hr
    refine ⟨(publishedTo o.cid l.L1).length, ?_⟩
    rw [h1, List.take_left, List.drop_left]
    exact h2
  | @more m n c l ih =>
    obtain ⟨k, t, h0⟩ := ih
    obtain ⟨after, h1, h2⟩ := l.relayed c.runs
    rw [h1] at h0
    obtain ⟨k', h3⟩ := slide hk h0
    refine ⟨k', h2.trans ?_⟩
    have h4 : startup (publishedTo m.cid l.L1) ++ after <+: (startup (o.packets.take k') ++ o.packets.drop k').map back := ⟨t, h3⟩
    rw [back_of_back h4]
    exact h4

/-- **C111** (nothing is left out). Of packets that FLV can carry: if each server has sent the next all, all of it has arrived and the pulls are over, then the last has all of these packets.

Missing: supplemental information units of SRT publishers (`C111_negation_sei`), and the limits of
C108. -/
theorem C111_complete_partial {cap : Nat} {o n : Node} (h : WholeChain cap o n) (hk : ∀ p ∈ o.packets, kept p) (hs : ∀ p ∈ o.packets, Flv.Supported cap (Flv.wire p)) :
    ∃ k, n.packets = (startup (o.packets.take k) ++ o.packets.drop k).map Flv.wire := by
  have h : ∃ k, n.packets = (startup (o.packets.take k) ++ o.packets.drop k).map back := by
    induction h with
    | one hr l hw =>
      obtain ⟨after, h1, h2⟩ := l.complete hr hw hs
      refine ⟨(publishedTo o.cid l.L1).length, ?_⟩
      rw [h2]
      have e : startup (o.packets.take (publishedTo o.cid l.L1).length) ++ o.packets.drop (publishedTo o.cid l.L1).length = startup (publishedTo o.cid l.L1) ++ after := by
        rw [h1, List.take_left, List.drop_left]
      rw [e]
      refine List.map_congr_left fun p hp => (back_wire (hk p ?_)).symm
      rw [← e] at hp
      exact mem_startup_all hp
    | @more m n c l hw ih =>
      obtain ⟨k, h0⟩ := ih
      have hback : ∀ p ∈ m.packets, back p = p ∧ Flv.Supported cap p := by
        intro p hp
        rw [h0] at hp
        obtain ⟨y, hy, rfl⟩ := List.mem_map.1 hp
        have := mem_startup_all hy
        exact ⟨back_back y, by rw [back_wire (hk y this)]; exact hs y this⟩
      have hwire : ∀ p ∈ m.packets, Flv.wire p = p := fun p hp => by rw [← back_wire (kept_of_back (hback p hp).1)]; exact (hback p hp).1
      obtain ⟨after, h1, h2⟩ := l.complete c.chain.runs hw (fun p hp => by rw [hwire p hp]; exact (hback p hp).2)
      rw [h1, ← List.append_nil (_ ++ _)] at h0
      obtain ⟨k', h3⟩ := slide hk h0
      refine ⟨k', ?_⟩
      rw [← h3, h2, List.append_nil]
      refine (List.map_congr_left fun p hp => hwire p ?_).trans (List.map_id _)
      rw [h1]
      rcases List.mem_append.1 hp with hp | hp
      · exact List.mem_append_left _ (mem_startup hp)
      · exact List.mem_append_right _ hp
  obtain ⟨k, h⟩ := h
  exact ⟨k, h.trans (List.map_congr_left fun p hp => back_wire (hk p (mem_startup_all hp)))⟩

/-- **C111** (players). A player of the last server is sent the bytes that a player of the first server is sent that comes at some point: the response head of the server it asks, the FLV file of the
start-up packets at that point and of all packets from then on; an initial part of that, or all of it if nothing is under way between the servers and the player has read its queue.

Missing: supplemental information units of SRT publishers (`C111_negation_sei`), and the limits of
C108. -/
theorem C111_player_partial {o n : Node} (h : Chain o n) (hk : ∀ p ∈ o.packets, kept p) {site : HttpSite} {player : Send} {st : Names.Stream} (for_ : player.For st) (hm : player.method ≠ ascii "POST")
    {q : Req} {v : Option Url} {A D : List Relay.Op} {r1 : Relay} {L1 : Log} {conn : Conn} (hc : Comes n site player.head (st.host ++ st.path) q v A D r1 L1 conn) :
    ∃ k j, ((∃ mux, conn.job = .view j mux) ∨ ∃ e, conn.job = .done (.player j) e) ∧ conn.snk.out <+: flvResponse n.env.site.reason (startup (o.packets.take k) ++ o.packets.drop k) ∧
      ((∃ mux, conn.job = .view j mux) → pendingOf n.r.sys.w j = [] → ∀ cap, WholeChain cap o n → (∀ p ∈ o.packets, Flv.Supported cap (Flv.wire p)) →
        ∃ k, conn.snk.out = flvResponse n.env.site.reason (startup (o.packets.take k) ++ o.packets.drop k)) := by
  have key : ∀ {ps : List AVPkt} (k : Nat), (startup (o.packets.take k) ++ o.packets.drop k).map back = ps →
      flvResponse n.env.site.reason ps = flvResponse n.env.site.reason (startup (o.packets.take k) ++ o.packets.drop k) := by
    rintro ps k rfl
    unfold flvResponse
    rw [chain_back]
  obtain ⟨SA, SD, h1, h2⟩ := hc.sys h.runs
  obtain ⟨c, bytes, e0, m0, t0, ha, hq⟩ := hc.arrived
  obtain ⟨conn', j, after, g1, g2, g3, g4, g5⟩ := HttpLive.C106_player_partial n.env.site hc.plays site hc.parsers _ _ for_ hm c bytes e0 ha m0 t0 q hq SA SD r1.sys n.r.sys L1 n.log h1 n.cid hc.active
  rw [h2, hc.conn] at g1
  cases g1
  obtain ⟨k, t, hl⟩ := C111_relayed_partial h hk
  have hg : n.packets = publishedTo n.cid L1 ++ after := g3
  rw [hg] at hl
  obtain ⟨k', hs⟩ := slide hk hl
  refine ⟨k', j, g2, ?_, fun hv hp cap hw hsup => ?_⟩
  · rw [← key k' hs.symm]
    exact g4.trans (Sys.flvResponse_prefix _ _ _)
  · obtain ⟨k, hl⟩ := C111_complete_partial hw hk hsup
    have hl : publishedTo n.cid L1 ++ after ++ [] = (startup (o.packets.take k) ++ o.packets.drop k).map back := by
      rw [List.append_nil, ← hg, hl]
      exact List.map_congr_left fun p hp => (back_wire (hk p (mem_startup_all hp))).symm
    obtain ⟨k', hs⟩ := slide hk hl
    rw [List.append_nil] at hs
    exact ⟨k', by rw [g5 hv hp, key k' hs.symm]⟩

/-- **C111** (what is kept). All packets that RTMP publishers and FLV files bring are of the kind that the theorems above ask for. -/
theorem C111_kept : (∀ (ms : List RtmpMsg), ∀ p ∈ Rtmp.media ms, kept p) ∧ (∀ (cap : Nat) (closed : Err) (n : Nat) (s : List UInt8), ∀ p ∈ (Flv.file cap closed n s).1, kept p) :=
  ⟨fun _ => kept_media, kept_file⟩

/-- **C111**, negation: supplemental information units (SEI) of an SRT publisher are not of that kind. Behind an edge they take the place of the decoder configuration: of an access unit with a parameter set,
a picture and such a unit, a player that joins at the server of the publisher gets the configuration, a player that joins at an edge does not. -/
theorem C111_negation_sei : ∃ (ctx : CodecCtx) (us : List (List UInt8)) (config : AVPkt), (H264.answer ctx us).1 = Err.SUCCESS ∧
    config ∈ startup (H264.answer ctx us).2 ∧ config.stream = .video ∧ config.pktType = 0 ∧ back config = config ∧ ¬ (config ∈ startup ((startup (H264.answer ctx us).2).map back)) :=
  ⟨{ dts := 0, pts := 0, timebase := 90 }, [[0x67, 0x42, 0, 0x1e], [0x65, 1, 2], [0x06, 5, 1]], H264.headerPacket (H264.record 0x42 0 0x1e 0 0 [0x67, 0x42, 0, 0x1e] none), by decide +kernel⟩

/-! ## An execution: a server, an edge of it, an edge of the edge, and a player there -/

/-- The outcome of what is done at a server. -/
def result (ops : List Relay.Op) : Relay × Log := (Relay.run RelayProps.env Relay.init ops).getD (Relay.init, [])

def node (ops : List Relay.Op) : Node := ⟨RelayProps.env, ops, (result ops).1, (result ops).2, 0⟩

def lift (ops : List Sys.Op) : List Relay.Op := ops.map fun o => .sys o none

/-- The host block of the second edge, which pulls from the first one. -/
def edgeBlock2 : Conf.Module := .mk .host (ascii "f.com")
  (fun n => if n = ascii "type" then some (.str (ascii "stream")) else if n = ascii "role" then some (.str (ascii "edge")) else
    if n = ascii "edge_avformat" then some (.str (ascii "all")) else if n = ascii "pass_proxy" then some (.str (ascii "e.com")) else
    if n = ascii "pass_url" then some (.str []) else none) []

def edgeSite2 : HttpSite := ⟨HttpConn.readers, Router.new.history [edgeBlock2], fun _ _ _ _ => .error .hang⟩

def asks2 : Send where
  method := ascii "GET"
  path := ascii "/live/x.flv"
  query := some (ascii "k=2")
  host := ascii "f.com"
  fields := [(ascii "Host", ascii "f.com"), (ascii "Accept", ascii "*/*")]

def atEdge2 : Names.Stream := ⟨ascii "f.com", ascii "/live", ascii "x"⟩

theorem asks_for2 : asks2.For atEdge2 := by
  refine ⟨⟨by decide +kernel, by decide +kernel, ?_, by decide +kernel, by intro t h; simp [asks2] at h, by decide +kernel, .inl (by decide +kernel), by intro b h; simp [asks2] at h,
    by decide +kernel⟩, ⟨by decide +kernel, by decide +kernel, by decide +kernel, by decide +kernel, by decide +kernel⟩, rfl, by decide +kernel⟩
  intro t h
  simp only [asks2, Option.some.injEq] at h
  subst h
  refine ⟨by decide +kernel, ?_⟩
  unfold Names.graph
  decide +kernel

theorem asks_arrives2 : Arrives (HttpLive.wires asks2.head).io (asks2.head ++ []) Err.ERROR_SOCKET_CLOSED := ⟨by decide +kernel, by decide +kernel, by decide +kernel, rfl⟩

def edgeReq2 : Req :=
  match edgeSite2.arrive (List.replicate 64 0) (List.replicate 29 0) (HttpLive.wires asks2.head) with
  | .ok (.stream q) => q
  | _ => ServeProps.get "source" "GET" "flv"

theorem arrive_asks2 : edgeSite2.arrive (List.replicate 64 0) (List.replicate 29 0) (HttpLive.wires asks2.head) = .ok (.stream edgeReq2) ∧ edgeReq2.host = edgeBlock2 := by
  obtain ⟨-, -, h⟩ := HttpLive.C106_admission_partial edgeSite2 HttpLive.readsSends_readers [edgeBlock2] (by decide +kernel) rfl asks2 _ asks_for2 _ _ _ asks_arrives2 (List.replicate 64 0) (List.replicate 29 0)
  obtain ⟨q, hq, hh, -⟩ := h edgeBlock2 rfl rfl
  simp only [edgeReq2, hq]
  exact ⟨trivial, hh⟩

theorem asked2 : Asked RelayProps.env edgeSite2 asks2 atEdge2 edgeReq2 (ascii "e.com") none where
  parser := Names.readsUrls_readUrl
  parsers := HttpLive.readsSends_readers
  for_ := asks_for2
  arrived := ⟨_, [], _, _, _, asks_arrives2, arrive_asks2.1⟩
  pulls := by
    rw [arrive_asks2.2]
    exact ⟨rfl, by decide +kernel, by decide +kernel, by intro m hm; simp [edgeBlock2, Conf.Module.inner] at hm, by decide +kernel, by intro t h; simp at h⟩
  short := by decide +kernel

/-- The request of the second edge, at the first. -/
def pull2 : Send := pulled asks2 (ascii "e.com")

theorem pull_for2 : pull2.For atEdge := pulled_for asks_for2 (by decide +kernel) (by decide +kernel)
theorem pull_arrives2 : Arrives (HttpLive.wires pull2.head).io (pull2.head ++ []) Err.ERROR_SOCKET_CLOSED := ⟨by decide +kernel, by decide +kernel, by decide +kernel, rfl⟩

def pullReq2 : Req :=
  match edgeSite.arrive (List.replicate 64 0) (List.replicate 29 0) (HttpLive.wires pull2.head) with
  | .ok (.stream q) => q
  | _ => ServeProps.get "source" "GET" "flv"

theorem arrive_pull2 : edgeSite.arrive (List.replicate 64 0) (List.replicate 29 0) (HttpLive.wires pull2.head) = .ok (.stream pullReq2) := by
  obtain ⟨-, -, h⟩ := HttpLive.C106_admission_partial edgeSite HttpLive.readsSends_readers [edgeBlock] (by decide +kernel) rfl pull2 _ pull_for2 _ _ _ pull_arrives2
    (List.replicate 64 0) (List.replicate 29 0)
  obtain ⟨q, hq, -⟩ := h edgeBlock rfl rfl
  simp only [pullReq2, hq]

def pullUrl2 : Url := (Edge.target RelayProps.env.parser edgeReq2.host edgeReq2.url).getD edgeReq2.url
def gotten2 : Answer := (Answer.get HttpConn.readers pullUrl2 (.up [] up)).getD .failed

theorem url_pull2 : Edge.target RelayProps.env.parser edgeReq2.host edgeReq2.url = some pullUrl2 ∧ HttpClient.openText pullUrl2 = pull2.head := by
  obtain ⟨-, u, h1, -, -, h2⟩ := asked2.target
  unfold pullUrl2
  rw [h1]
  exact ⟨rfl, h2⟩

/-- What is done at the three servers, before and after the request of the next one (at the last: of a player). -/
def A0 : List Relay.Op := lift HttpLive.opening
def D0 : List Relay.Op := lift HttpLive.ending
def A1 : List Relay.Op :=
  [.sys (.request edgeReq) none, .answer 0 gotten (List.replicate 64 0), .pass 0, .pass 0, .pass 0, .sys (.wake 0 0) none, .sys (.run 0) none, .pass 0, .sys (.run 0) none]
def A2 : List Relay.Op :=
  [.sys (.request edgeReq2) none, .answer 0 gotten2 (List.replicate 64 0), .pass 0, .pass 0, .pass 0, .sys (.wake 0 0) none, .sys (.run 0) none]
def ops0 : List Relay.Op := A0 ++ .sys (.request (HttpLive.reqFor pull.head)) none :: D0
def ops1 : List Relay.Op := A1 ++ .sys (.request pullReq2) none :: [.sys (.run 1) none, .pass 0]
def ops2 : List Relay.Op := A2 ++ .sys (.request edgeReq2) none :: [.sys (.run 1) none, .pass 0, .sys (.run 1) none, .pass 0]

theorem stream_pulled {k : Key} {L : Log} (h : L.take 2 = [(.edgeRequest k, .edgeStarted 0), (.edgeOpen 0, .published 0)]) (hp : pullKey 0 L = some k) (hc : promptCheck k L = true) : isStream 0 k L := by
  refine .inr ⟨[(.edgeRequest k, .edgeStarted 0)], 0, L.drop 2, ?_, ?_, hp, promptCheck_sound hc⟩
  · conv => lhs; rw [← List.take_append_drop 2 L, h]
    rfl
  · intro c
    simp [activeKey, activeKeyFrom]

theorem runs_of {ops : List Relay.Op} (hok : ∀ q ∈ requestsIn ops, ReqOk q) (h : (Relay.run RelayProps.env Relay.init ops).isSome = true)
    (hf : ((result ops).2.all fun x => match x.1 with | .put _ p => decide ((Flv.body p).length < 2 ^ 24) | _ => true) = true) : (node ops).Runs := by
  refine ⟨hok, ?_, ServeProps.fitsFlv_of_all hf⟩
  show Relay.run RelayProps.env Relay.init ops = some (result ops)
  unfold result
  obtain ⟨x, hx⟩ := Option.isSome_iff_exists.1 h
  rw [hx]
  rfl

theorem result_run {ops : List Relay.Op} (h : (Relay.run RelayProps.env Relay.init ops).isSome = true) : Relay.run RelayProps.env Relay.init ops = some (result ops) := by
  unfold result
  obtain ⟨x, hx⟩ := Option.isSome_iff_exists.1 h
  rw [hx]
  rfl

def plays (c : Option Conn) : Option Nat := c.bind fun c => match c.job with | .view n _ => some n | _ => none

theorem plays_view {c : Option Conn} {n : Nat} (h : plays c = some n) : ∃ conn mux, c = some conn ∧ conn.job = .view n mux := by
  cases c with
  | none => simp [plays] at h
  | some c =>
    simp only [plays, Option.bind_some] at h
    cases hj : c.job <;> rw [hj] at h <;> simp at h
    subst h
    exact ⟨c, _, rfl, hj⟩

theorem facts0 : (Relay.run RelayProps.env Relay.init A0).isSome = true ∧ (Relay.run RelayProps.env Relay.init ops0).isSome = true ∧
    ((result ops0).2.all fun x => match x.1 with | .put _ p => decide ((Flv.body p).length < 2 ^ 24) | _ => true) = true ∧
    activeKey 0 (result A0).2 = some (ascii "a.com/live/x") ∧ pullOpened (ascii "a.com/live/x") (result A0).2 = false ∧
    plays ((result ops0).1.sys.conns[1]?) = some 0 ∧ ((result ops0).1.sys.conns[1]?).map (fun c => c.snk.out) = some EdgeLive.answer ∧ pendingOf (result ops0).1.sys.w 0 = [] ∧
    publishedTo 0 (result ops0).2 = ServeProps.pkts := by decide +kernel

theorem facts1 : (Relay.run RelayProps.env Relay.init A1).isSome = true ∧ (Relay.run RelayProps.env Relay.init ops1).isSome = true ∧
    ((result ops1).2.all fun x => match x.1 with | .put _ p => decide ((Flv.body p).length < 2 ^ 24) | _ => true) = true ∧
    (result A1).2.take 2 = [(.edgeRequest (ascii "e.com/live/x"), .edgeStarted 0), (.edgeOpen 0, .published 0)] ∧ pullKey 0 (result A1).2 = some (ascii "e.com/live/x") ∧
    promptCheck (ascii "e.com/live/x") (result A1).2 = true ∧
    plays ((result ops1).1.sys.conns[1]?) = some 1 ∧ ((result ops1).1.sys.conns[1]?).map (fun c => c.snk.out) = some EdgeLive.answer ∧ pendingOf (result ops1).1.sys.w 1 = [] ∧
    ((result ops1).1.pulls.map fun p => match p with | .over c => c | _ => none) = [some 0] := by decide +kernel

theorem facts2 : (Relay.run RelayProps.env Relay.init A2).isSome = true ∧ (Relay.run RelayProps.env Relay.init ops2).isSome = true ∧
    ((result ops2).2.all fun x => match x.1 with | .put _ p => decide ((Flv.body p).length < 2 ^ 24) | _ => true) = true ∧
    (result A2).2.take 2 = [(.edgeRequest (ascii "f.com/live/x"), .edgeStarted 0), (.edgeOpen 0, .published 0)] ∧ pullKey 0 (result A2).2 = some (ascii "f.com/live/x") ∧
    promptCheck (ascii "f.com/live/x") (result A2).2 = true ∧
    plays ((result ops2).1.sys.conns[1]?) = some 1 ∧ ((result ops2).1.sys.conns[1]?).map (fun c => c.snk.out) = some EdgeLive.answer ∧ pendingOf (result ops2).1.sys.w 1 = [] ∧
    ((result ops2).1.pulls.map fun p => match p with | .over c => c | _ => none) = [some 0] := by decide +kernel

theorem conn_of {c : Option Conn} {n : Nat} {b : List UInt8} (h1 : plays c = some n) (h2 : c.map (fun c => c.snk.out) = some b) : ∃ conn, c = some conn ∧ (∃ mux, conn.job = .view n mux) ∧ conn.snk.out = b := by
  obtain ⟨conn, mux, rfl, hj⟩ := plays_view h1
  exact ⟨conn, rfl, ⟨mux, hj⟩, by simpa using h2⟩

theorem over_of {l : List Pull} (h : (l.map fun p => match p with | .over c => c | _ => none) = [some 0]) : l[0]? = some (.over (some 0)) := by
  cases l with
  | nil => simp at h
  | cons p ps =>
    simp only [List.map_cons, List.cons.injEq] at h
    cases p <;> simp_all

theorem up_arrives : Arrives up EdgeLive.answer Err.ERROR_SOCKET_CLOSED := ⟨by decide +kernel, by decide +kernel, by decide +kernel, rfl⟩

theorem got (u : Url) : ∃ a, Answer.get HttpConn.readers u (.up [] up) = some a := by
  obtain ⟨io, hg, -⟩ := get_full readsOpen_readers (okOpen_ok (phrase := ServeProps.site.reason 200) (by decide +kernel) (by decide +kernel)) u
    (up := up) (part := Flv.fileHeader ++ Flv.chain 0 ServeProps.pkts) (closed := Err.ERROR_SOCKET_CLOSED) ⟨by decide +kernel, by decide +kernel, by decide +kernel, rfl⟩
  exact ⟨_, hg⟩

theorem requests : requestsIn ops0 = [HttpLive.reqFor (HttpLive.posts.head ++ HttpLive.bodyBytes), HttpLive.reqFor pull.head] ∧ requestsIn ops1 = [edgeReq, pullReq2] ∧ requestsIn ops2 = [edgeReq2, edgeReq2] :=
  ⟨rfl, rfl, rfl⟩

theorem runs0 : (node ops0).Runs := by
  refine runs_of ?_ facts0.2.1 facts0.2.2.1
  rw [requests.1]
  intro q hq
  rcases List.mem_cons.1 hq with h | h
  · rw [h]; exact HttpLive.req_ok.1
  · rw [List.mem_singleton.1 h]; exact req_ok arrive_pull

theorem runs1 : (node ops1).Runs := by
  refine runs_of ?_ facts1.2.1 facts1.2.2.1
  rw [requests.2.1]
  intro q hq
  rcases List.mem_cons.1 hq with h | h
  · rw [h]; exact req_ok arrive_asks.1
  · rw [List.mem_singleton.1 h]; exact req_ok arrive_pull2

theorem runs2 : (node ops2).Runs := by
  refine runs_of ?_ facts2.2.1 facts2.2.2.1
  rw [requests.2.2]
  intro q hq
  rcases List.mem_cons.1 hq with h | h
  · rw [h]; exact req_ok arrive_asks2.1
  · rw [List.mem_singleton.1 h]; exact req_ok arrive_asks2.1

theorem parsers0 : ReadsSends HttpLive.server.parsers ∧ ReadsSends edgeSite.parsers ∧ ReadsSends edgeSite2.parsers := ⟨HttpLive.readsSends_readers, HttpLive.readsSends_readers, HttpLive.readsSends_readers⟩
theorem answer_eq : EdgeLive.answer = flvResponse RelayProps.env.site.reason ServeProps.pkts := rfl

attribute [local irreducible] result pullUrl pullUrl2 edgeReq edgeReq2 pullReq2 gotten gotten2 HttpLive.reqFor RelayProps.env EdgeLive.answer up edgeSite edgeSite2 HttpLive.server HttpConn.readers

theorem pulling1 : Pulling (node ops1).env HttpConn.readers pullUrl up (List.replicate 64 0) ops1 (node ops1).r (node ops1).log 0 0 where
  parsers := readsOpen_readers
  ok := runs1.ok
  buffers := by
    intro e a mem hm
    simp [ops1, A1] at hm
    rw [hm.2.2]
    decide +kernel
  run := runs1.run
  fits := runs1.fits
  feeds := .inr (over_of facts1.2.2.2.2.2.2.2.2.2)
  answer := by
    intro a m hm
    simp [ops1, A1] at hm
    obtain ⟨rfl, rfl⟩ := hm
    refine ⟨?_, rfl⟩
    obtain ⟨x, hx⟩ := got pullUrl
    with_unfolding_all unfold gotten
    rw [hx]
    rfl

theorem pulling2 : Pulling (node ops2).env HttpConn.readers pullUrl2 up (List.replicate 64 0) ops2 (node ops2).r (node ops2).log 0 0 where
  parsers := readsOpen_readers
  ok := runs2.ok
  buffers := by
    intro e a mem hm
    simp [ops2, A2] at hm
    rw [hm.2.2]
    decide +kernel
  run := runs2.run
  fits := runs2.fits
  feeds := .inr (over_of facts2.2.2.2.2.2.2.2.2.2)
  answer := by
    intro a m hm
    simp [ops2, A2] at hm
    obtain ⟨rfl, rfl⟩ := hm
    refine ⟨?_, rfl⟩
    obtain ⟨x, hx⟩ := got pullUrl2
    with_unfolding_all unfold gotten2
    rw [hx]
    rfl

theorem env_plays : RtmpConn.Plays RelayProps.env.site := RtmpConn.plays_installed 1 2 (by decide) _ (by decide +kernel)

theorem comes0 {conn : Conn} (hc : (node ops0).r.sys.conns[1]? = some conn) : Comes (node ops0) HttpLive.server (HttpClient.openText pullUrl) (ascii "a.com" ++ atEdge.path) (HttpLive.reqFor pull.head) none
    A0 D0 (result A0).1 (result A0).2 conn where
  plays := env_plays
  parsers := parsers0.1
  arrived := ⟨_, [], _, _, _, by rw [url_pull.2]; exact pull_arrives, arrive_pull⟩
  ops := rfl
  before := result_run facts0.1
  active := .inl ⟨facts0.2.2.2.1, (World.apart_of_none facts0.2.2.2.2.1).1⟩
  conn := hc

theorem comes1 {conn : Conn} (hc : (node ops1).r.sys.conns[1]? = some conn) : Comes (node ops1) edgeSite (HttpClient.openText pullUrl2) (ascii "e.com" ++ atEdge2.path) pullReq2 none
    A1 [.sys (.run 1) none, .pass 0] (result A1).1 (result A1).2 conn where
  plays := env_plays
  parsers := parsers0.2.1
  arrived := ⟨_, [], _, _, _, by rw [url_pull2.2]; exact pull_arrives2, arrive_pull2⟩
  ops := rfl
  before := result_run facts1.1
  active := stream_pulled facts1.2.2.2.1 facts1.2.2.2.2.1 facts1.2.2.2.2.2.1
  conn := hc

theorem comes2 {conn : Conn} (hc : (node ops2).r.sys.conns[1]? = some conn) : Comes (node ops2) edgeSite2 asks2.head (atEdge2.host ++ atEdge2.path) edgeReq2 none
    A2 [.sys (.run 1) none, .pass 0, .sys (.run 1) none, .pass 0] (result A2).1 (result A2).2 conn where
  plays := env_plays
  parsers := parsers0.2.2
  arrived := ⟨_, [], _, _, _, asks_arrives2, arrive_asks2.1⟩
  ops := rfl
  before := result_run facts2.1
  active := stream_pulled facts2.2.2.2.1 facts2.2.2.2.2.1 facts2.2.2.2.2.2.1
  conn := hc

/-- The hypotheses of C111 are met by a server, an edge of it and an edge of that edge: nothing is under way between them, and a player of the last gets the file of all three packets. -/
example : WholeChain 64 (node ops0) (node ops2) ∧ (node ops0).packets = ServeProps.pkts ∧ (∀ p ∈ (node ops0).packets, kept p) ∧ (∀ p ∈ (node ops0).packets, Flv.Supported 64 (Flv.wire p)) ∧
    ∃ conn, Comes (node ops2) edgeSite2 asks2.head (atEdge2.host ++ atEdge2.path) edgeReq2 none A2 [.sys (.run 1) none, .pass 0, .sys (.run 1) none, .pass 0] (result A2).1 (result A2).2 conn ∧
      (∃ mux, conn.job = .view 1 mux) ∧ pendingOf (node ops2).r.sys.w 1 = [] ∧ conn.snk.out = flvResponse RelayProps.env.site.reason ServeProps.pkts := by
  obtain ⟨c0, a0, a1, a2⟩ := conn_of facts0.2.2.2.2.2.1 facts0.2.2.2.2.2.2.1
  obtain ⟨c1, b0, b1, b2⟩ := conn_of facts1.2.2.2.2.2.2.1 facts1.2.2.2.2.2.2.2.1
  obtain ⟨c2, d0, d1, d2⟩ := conn_of facts2.2.2.2.2.2.2.1 facts2.2.2.2.2.2.2.2.1
  obtain ⟨m0, a1⟩ := a1
  obtain ⟨m1, b1⟩ := b1
  have hp : (node ops0).packets = ServeProps.pkts := facts0.2.2.2.2.2.2.2.2
  refine ⟨.more (m := node ops1) (.one runs0
      { site := edgeSite, a := asks, st := atEdge, q := edgeReq, origin := ascii "a.com", port := some (ascii "8080"), u := pullUrl, asked := asked, target := url_pull.1,
        osite := HttpLive.server, oq := HttpLive.reqFor pull.head, v := none, A := A0, D := D0, r1 := (result A0).1, L1 := (result A0).2, conn := c0, comes := comes0 a0,
        phrase := ⟨by decide +kernel, by decide +kernel⟩, up := up, sent := EdgeLive.answer, closed := Err.ERROR_SOCKET_CLOSED, arrives := up_arrives, part := by rw [a2]; exact List.prefix_refl _,
        p := HttpConn.readers, mem := List.replicate 64 0, e := 0, pulling := pulling1 }
      ⟨⟨0, m0, a1, facts0.2.2.2.2.2.2.2.1⟩, a2.symm, over_of facts1.2.2.2.2.2.2.2.2.2, by simp⟩)
      { site := edgeSite2, a := asks2, st := atEdge2, q := edgeReq2, origin := ascii "e.com", port := none, u := pullUrl2, asked := asked2, target := url_pull2.1,
        osite := edgeSite, oq := pullReq2, v := none, A := A1, D := [.sys (.run 1) none, .pass 0], r1 := (result A1).1, L1 := (result A1).2, conn := c1, comes := comes1 b0,
        phrase := ⟨by decide +kernel, by decide +kernel⟩, up := up, sent := EdgeLive.answer, closed := Err.ERROR_SOCKET_CLOSED, arrives := up_arrives, part := by rw [b2]; exact List.prefix_refl _,
        p := HttpConn.readers, mem := List.replicate 64 0, e := 0, pulling := pulling2 }
      ⟨⟨1, m1, b1, facts1.2.2.2.2.2.2.2.2.1⟩, b2.symm, over_of facts2.2.2.2.2.2.2.2.2.2, by simp⟩,
    hp, ?_, by rw [hp]; exact supported, c2, comes2 d0, d1, facts2.2.2.2.2.2.2.2.2.1, d2.trans answer_eq⟩
  rw [hp]
  have h : ∀ p ∈ ServeProps.pkts, back p = p := by decide +kernel
  exact fun p hp => kept_of_back (h p hp)

end Sps.EdgeChain
