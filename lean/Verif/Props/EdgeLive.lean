import Verif.Lemmas.Edge
import Verif.Props.HttpLive
/-!
# C108: an edge server and the server it pulls from, from the bytes of one player's request to what the players of the edge get
-/
namespace Sps.EdgeLive
open Spec Spec.Http Spec.Names Spec.HttpConn Spec.HttpLive Spec.Edge Spec.Server StreamProps World Relay

/-- A player's request for a stream of a host block that pulls from `origin` has arrived at the edge. -/
structure Asked (env : Relay.Env) (site : HttpSite) (a : Send) (st : Names.Stream) (q : Req) (origin : Text) (port : Option Text) : Prop where
  parser : ReadsUrls env.parser
  parsers : ReadsSends site.parsers
  for_ : a.For st
  arrived : ∃ (c : HttpConn) (bytes : List UInt8) (e : Err) (mem tag : List UInt8), Arrives c.io (a.head ++ bytes) e ∧ site.arrive mem tag c = .ok (.stream q)
  pulls : PullsFrom q.host origin port
  short : (pulled a origin).head.length ≤ 2048

theorem Asked.target {env : Relay.Env} {site : HttpSite} {a : Send} {st : Names.Stream} {q : Req} {origin : Text} {port : Option Text} (h : Asked env site a st q origin port) :
    q.url.schema = ascii "http" ∧ ∃ u, Edge.target env.parser q.host q.url = some u ∧ u.schema = ascii "http" ∧ u.ext = ascii "flv" ∧ HttpClient.openText u = (pulled a origin).head := by
  obtain ⟨c, bytes, e, mem, tag, ha, hq⟩ := h.arrived
  obtain ⟨io', h1, -⟩ := HttpLive.parse_send h.parsers h.for_.ok ha
  have hu : q.url = Names.http site.parsers.url a.method a.target a.fields := by
    unfold HttpSite.arrive at hq
    rw [h1] at hq
    simp only [ne_eq, not_true_eq_false, if_false] at hq
    split at hq
    · simp at hq
    · split at hq
      · simp only [Except.ok.injEq, HttpArrival.stream.injEq] at hq
        rw [← hq]
      · simp at hq
  obtain ⟨h2, h3⟩ := send_url' h.parsers h.for_.ok
  rw [← hu] at h2 h3
  exact ⟨h2, target_pulled h.parser h.for_ h.pulls h2 h3⟩

/-- **C108** (a pull begins). Whatever went on before: if nobody publishes the stream at the edge and no pull of it is going on, the request of a player makes the edge pull, and the player waits. -/
theorem C108_begins {env : Relay.Env} {ops : List Relay.Op} (hop : ∀ q ∈ requestsIn ops, ReqOk q) {r : Relay} {L : Log} (he : Relay.run env Relay.init ops = some (r, L))
    (hfit : fitsFlv L) {site : HttpSite} {a : Send} {st : Names.Stream} {q : Req} {origin : Text} {port : Option Text} (h : Asked env site a st q origin port) (hm : a.method ≠ ascii "POST")
    (hno : ∀ cid, activeKey cid L ≠ some (st.host ++ st.path)) (hnp : ∀ e, pullKey e L ≠ some (st.host ++ st.path)) (v : Option Url) :
    ∃ r' e conn u tag, r.step env (.sys (.request q) v) = some (r', [(.edgeRequest (st.host ++ st.path), .edgeStarted e)]) ∧ StreamHandler.key q.url = st.host ++ st.path ∧
      r'.sys.conns = r.sys.conns ++ [conn] ∧ conn.job = .waits u tag (some e) ∧ conn.snk.out = [] := by
  obtain ⟨c, bytes, e, mem, tag, ha, hq⟩ := h.arrived
  obtain ⟨k1, -, k3, -, -, k5, -⟩ := HttpLive.arrived h.parsers h.for_ ha hq
  obtain ⟨sops, s1, s2⟩ := Relay.run_sys ops he
  have inv := Sys.run_init (by rw [s2]; exact hop) s1 hfit
  obtain ⟨g1, -⟩ := C16_free (L.map Prod.fst) (st.host ++ st.path) (Names.not_raw h.for_.stream) (by rw [inv.world]; exact hno) (by rw [inv.world]; exact hnp)
  rw [inv.world] at g1
  simp only [World.step] at g1
  have hfree : r.sys.w.reg.find (st.host ++ st.path) = none := by
    cases hf : r.sys.w.reg.find (st.host ++ st.path) with
    | none => rfl
    | some i => rw [World.edgeRequest, hf] at g1; simp at g1
  have hedge : Host.edge q.host = true := by
    have := h.pulls.role
    unfold Server.opt at this
    unfold Host.edge Host.text
    simp [this]
  have hreq : r.sys.step env.site (.request q) = some (⟨(r.sys.w.edgeRequest (st.host ++ st.path)).1,
      r.sys.conns ++ [⟨.waits q.url q.tag (some r.sys.w.edges.length), HttpStream.rsp0, { out := [], fails := q.fails }⟩]⟩, [(.edgeRequest (st.host ++ st.path), .edgeStarted r.sys.w.edges.length)]) := by
    simp only [Sys.step, Sys.request, k5, Sys.httpRequest, k3, if_neg hm, StreamHandler.play, k1, hfree, Option.isNone_none, hedge, and_self, if_true, g1]
  have hstep : ∃ r', r.step env (.sys (.request q) v) = some (r', [(.edgeRequest (st.host ++ st.path), .edgeStarted r.sys.w.edges.length)]) ∧
      r'.sys.conns = r.sys.conns ++ [⟨.waits q.url q.tag (some r.sys.w.edges.length), HttpStream.rsp0, { out := [], fails := q.fails }⟩] := by
    simp only [Relay.step, Relay.reserved, Bool.false_eq_true, if_false, hreq, Option.map_some]
    exact ⟨_, rfl, rfl⟩
  obtain ⟨r', e1, e2⟩ := hstep
  exact ⟨r', _, _, q.url, q.tag, e1, k1, e2, rfl, rfl⟩

/-- **C108** (what the edge asks for). If a player's request makes the edge pull, then the edge connects to the configured address and sends it a request for the same path and query, as a request
for the stream of that name on the host `origin`. -/
theorem C108_asks {env : Relay.Env} {ops : List Relay.Op} (hop : ∀ q ∈ requestsIn ops, ReqOk q) (hb : buffersOk ops) {r : Relay} {L : Log} (he : Relay.run env Relay.init ops = some (r, L))
    (hfit : fitsFlv L) {site : HttpSite} {a : Send} {st : Names.Stream} {q : Req} {origin : Text} {port : Option Text} (h : Asked env site a st q origin port) {v : Option Url} {r' : Relay} {l : Log}
    (hs : r.step env (.sys (.request q) v) = some (r', l)) {e : Nat} (hl : (.edgeRequest (StreamHandler.key q.url), .edgeStarted e) ∈ l) :
    ∃ u, r'.pulls[e]? = some (.asks (some u)) ∧ u.schema = ascii "http" ∧ u.ext = ascii "flv" ∧ HttpClient.openText u = (pulled a origin).head ∧
      (pulled a origin).For ⟨origin, st.app, st.name⟩ ∧ Host.edgeAddress q.host q.url = (origin, (((port.bind (decValue 0)).getD 80 : Nat) : Int)) := by
  have h1 := RelayProps.C90_asks hop hb he hfit hs hl
  obtain ⟨hs, u, h2, h3, h4, h5⟩ := h.target
  refine ⟨u, by rw [h1, h2], h3, h4, h5, pulled_for h.for_ h.pulls.origin h.short, ?_⟩
  have h58 : (58 : UInt8) ∉ origin := by
    intro hm
    have := h.pulls.origin.2 58 hm
    revert this
    unfold hostChar letter
    decide
  refine (C72_address q.host q.url _ _ _ (.inl ⟨h.pulls.own, h.pulls.proxy⟩)).2 ?_
  have husual : Spec.Server.usualPort q.url.schema = 80 := by rw [hs]; decide +kernel
  rw [husual]
  cases hp : port with
  | none =>
    rw [show origin ++ Names.opt 58 none = origin by simp [Names.opt]]
    exact .plain _ _ h58
  | some t =>
    obtain ⟨n, n1, n2, n3⟩ := h.pulls.port t hp
    simp only [Option.bind_some, n3, Option.getD_some]
    exact .port origin t n 80 h58 n2 n3 (by omega)

/-- **C108** (the server asked). The server that the edge asks hands the request to the stream handler of the host block that is to serve `origin`, if this is a `stream` host, as a request to play the
stream that its publishers know as ORIGIN/APP/NAME. -/
theorem C108_admitted {env : Relay.Env} {site : HttpSite} {a : Send} {st : Names.Stream} {q : Req} {origin : Text} {port : Option Text} (h : Asked env site a st q origin port)
    (u : Url) (hu : Edge.target env.parser q.host q.url = some u)
    (osite : HttpSite) (hp : ReadsSends osite.parsers) (hs : List Conf.Module) (hz : ∀ h ∈ hs, (0 : UInt8) ∉ h.name) (hr : osite.router = Router.new.history hs) (b : Conf.Module)
    (hb : choose hs origin = some b) (ht : opt b "type" "stream") (c : HttpConn) (bytes : List UInt8) (e : Err) (ha : Arrives c.io (HttpClient.openText u ++ bytes) e) (mem tag : List UInt8) :
    ∃ oq, osite.arrive mem tag c = .ok (.stream oq) ∧ oq.host = b ∧ StreamHandler.key oq.url = origin ++ st.path ∧ oq.url.ext = ascii "flv" ∧ oq.url.method = ascii "GET" := by
  obtain ⟨-, u', h2, -, -, h5⟩ := h.target
  rw [hu] at h2
  cases h2
  rw [h5] at ha
  obtain ⟨oq, h1, h2, h3, h4, h5, -⟩ := (HttpLive.C106_admission_partial osite hp hs hz hr _ _ (pulled_for h.for_ h.pulls.origin h.short) c bytes e ha mem tag).2.2 b hb ht
  exact ⟨oq, h1, h2, h3, h4, h5⟩

/-- What goes on at the server that is asked: the bytes `request` have arrived, as a request for a stream that there is (`isStream`: someone publishes it, or it is itself pulled; `cid` is its cache). `A` was done before that, `D` since. -/
structure Origin (env : Site.Env) (site : HttpSite) (request : List UInt8) (key : Text) (q : Req) (A D : List Sys.Op) (s1 s : Sys) (L1 L : Log) (cid : Nat) : Prop where
  plays : RtmpConn.Plays env
  parsers : ReadsSends site.parsers
  phrase : valueOk (env.reason 200) ∧ (env.reason 200).length ≤ 2000
  arrived : ∃ (c : HttpConn) (bytes : List UInt8) (e : Err) (mem tag : List UInt8), Arrives c.io (request ++ bytes) e ∧ site.arrive mem tag c = .ok (.stream q)
  comes : HttpLive.Comes env A D q s1 s L1 L
  active : isStream cid key L1

/-- What goes on at the edge: the pull `e` feeds (or has fed) the cache `cid`; its answer is what came from the server asked. -/
structure Pulling (env : Relay.Env) (p : Parsers) (u : Url) (up : Io) (mem : List UInt8) (ops : List Relay.Op) (r : Relay) (L : Log) (e cid : Nat) : Prop where
  parsers : ReadsOpen p
  ok : ∀ q ∈ requestsIn ops, ReqOk q
  buffers : buffersOk ops
  run : Relay.run env Relay.init ops = some (r, L)
  fits : fitsFlv L
  feeds : feeding r e cid
  answer : answeredBy ops e p u up mem

/-- The answer of a pull that feeds a stream. -/
theorem Pulling.answered {env : Relay.Env} {p : Parsers} {u : Url} {up : Io} {mem : List UInt8} {ops : List Relay.Op} {r : Relay} {L : Log} {e cid : Nat}
    (h : Pulling env p u up mem ops r L e cid) : ∃ ch cl io, Answer.get p u (.up [] up) = some (.opened 200 ch cl io) ∧ answered ops e 200 ch cl io mem := by
  have hR := Relay.run_init h.ok h.buffers h.run h.fits
  have : ∃ ch cl io m, .answer e (.opened 200 ch cl io) m ∈ ops := by
    rcases h.feeds with ⟨rd, hd, hf⟩ | hf
    · obtain ⟨-, -, ch, cl, io, m, h3, -⟩ := hR.ok e _ hf
      exact ⟨ch, cl, io, m, h3⟩
    · obtain ⟨-, -, ch, cl, io, m, h3, -⟩ := hR.ok e _ hf
      exact ⟨ch, cl, io, m, h3⟩
  obtain ⟨ch, cl, io, m, h3⟩ := this
  obtain ⟨h4, rfl⟩ := h.answer _ _ h3
  refine ⟨ch, cl, io, h4, fun a m' hm => ?_⟩
  obtain ⟨h5, h6⟩ := h.answer _ _ hm
  rw [h4] at h5
  exact ⟨(Option.some.inj h5).symm, h6⟩

section
variable {oenv : Site.Env} {osite : HttpSite} {oq : Req} {A D : List Sys.Op} {s1 s : Sys} {L1 L : Log} {ocid : Nat}
  {env : Relay.Env} {site : HttpSite} {a : Send} {st : Names.Stream} {q : Req} {origin : Text} {port : Option Text} {u : Url}
  {p : Parsers} {up : Io} {sent : List UInt8} {closed : Err} {mem : List UInt8} {ops : List Relay.Op} {r : Relay} {EL : Log} {e cid : Nat}

/-- What the server asked has sent, and what of it has arrived. -/
theorem sent_part (h : Asked env site a st q origin port) (hu : Edge.target env.parser q.host q.url = some u)
    (ho : Origin oenv osite (HttpClient.openText u) (origin ++ st.path) oq A D s1 s L1 L ocid) {conn : Conn} (hc : s.conns[(requestsOf A).length]? = some conn)
    (harr : Arrives up sent closed) (hsent : sent <+: conn.snk.out) (hp : Pulling env p u up mem ops r EL e cid) :
    ∃ after io part, publishedTo ocid L = publishedTo ocid L1 ++ after ∧ sent = okHead oenv.reason ++ part ∧
      part <+: Flv.fileHeader ++ Flv.chain 0 (startup (publishedTo ocid L1) ++ after) ∧
      answered ops e 200 false (-1) io mem ∧ BodyArrives false (-1) io part closed ∧
      (∀ x ∈ startup (publishedTo ocid L1) ++ after, (Flv.body x).length < 2 ^ 24) := by
  obtain ⟨-, u', h2, -, -, h5⟩ := h.target
  rw [hu] at h2
  cases h2
  obtain ⟨c, bytes, e0, m0, t0, ha, hq⟩ := ho.arrived
  rw [h5] at ha
  obtain ⟨conn', n, after, g1, -, g3, g4, -⟩ := HttpLive.C106_player_partial oenv ho.plays osite ho.parsers _ _ (pulled_for h.for_ h.pulls.origin h.short)
    (by show ascii "GET" ≠ ascii "POST"; decide +kernel) c bytes e0 ha m0 t0 oq hq A D s1 s L1 L ho.comes ocid ho.active
  rw [hc] at g1
  cases g1
  have hs := hsent.trans g4
  unfold flvResponse at hs
  rw [okHead_open, List.append_assoc] at hs
  obtain ⟨ch, cl, io, k1, k2⟩ := hp.answered
  rcases get_open hp.parsers (okOpen_ok ho.phrase.1 ho.phrase.2) u harr hs k1 with hf | ⟨part, io', j1, j2, j3, j4⟩
  · simp at hf
  · simp only [Answer.opened.injEq] at j3
    obtain ⟨-, rfl, rfl, rfl⟩ := j3
    refine ⟨after, io, part, g3, by rw [okHead_open]; exact j1, j2, k2, .close (by decide) j4, fun x hx => ?_⟩
    refine ho.comes.fits ocid x ?_
    rw [g3]
    rcases List.mem_append.1 hx with hx | hx
    · exact List.mem_append_left _ (mem_startup hx)
    · exact List.mem_append_right _ hx

/-- **C108** (relaying). Whatever goes on at both servers and however the bytes travel: the stream that a pull makes at the edge is made of the packets that the server asked sends to its players, each once
and in order, read back from their tags: the start-up packets among those published when the request came, and those published since.

Missing: pulls that get in the way of publishers at the server asked (C14, C16), and RTMP pulls
(C89). -/
theorem C108_relayed_partial (h : Asked env site a st q origin port) (hu : Edge.target env.parser q.host q.url = some u)
    (ho : Origin oenv osite (HttpClient.openText u) (origin ++ st.path) oq A D s1 s L1 L ocid) {conn : Conn} (hc : s.conns[(requestsOf A).length]? = some conn)
    (harr : Arrives up sent closed) (hsent : sent <+: conn.snk.out) (hp : Pulling env p u up mem ops r EL e cid) :
    ∃ after, publishedTo ocid L = publishedTo ocid L1 ++ after ∧ publishedTo cid EL <+: (startup (publishedTo ocid L1) ++ after).map back := by
  obtain ⟨after, io, part, h1, -, h3, h4, h5, h6⟩ := sent_part h hu ho hc harr hsent hp
  obtain ⟨-, n, h7⟩ := RelayProps.C90_relayed hp.ok hp.buffers hp.run hp.fits hp.feeds h4 (.inl h5)
  refine ⟨after, h1, ?_⟩
  rw [h7]
  exact file_back _ _ _ _ _ h6 h3

/-- **C108** (nothing is left out). Of packets that FLV can carry: if the server has sent its player (the edge) all, all of it has arrived and the pull is over, then the stream at the edge is made of all
packets.

Missing: pulls that get in the way of publishers at the server asked (C14, C16), and RTMP pulls
(C89). -/
theorem C108_complete_partial (h : Asked env site a st q origin port) (hu : Edge.target env.parser q.host q.url = some u)
    (ho : Origin oenv osite (HttpClient.openText u) (origin ++ st.path) oq A D s1 s L1 L ocid) {conn : Conn} (hc : s.conns[(requestsOf A).length]? = some conn)
    {n : Nat} (hv : ∃ mux, conn.job = .view n mux) (hn : pendingOf s.w n = [])
    (harr : Arrives up conn.snk.out closed) (hp : Pulling env p u up mem ops r EL e cid) (hover : r.pulls[e]? = some (.over (some cid)))
    (hsup : ∀ x ∈ publishedTo ocid L, Flv.Supported mem.length (Flv.wire x)) :
    ∃ after, publishedTo ocid L = publishedTo ocid L1 ++ after ∧ publishedTo cid EL = (startup (publishedTo ocid L1) ++ after).map Flv.wire := by
  obtain ⟨-, u', h2, -, -, h5⟩ := h.target
  rw [hu] at h2
  cases h2
  obtain ⟨c, bytes, e0, m0, t0, ha, hq⟩ := ho.arrived
  rw [h5] at ha
  obtain ⟨conn', n', after', g1, g2, g3, -, g5⟩ := HttpLive.C106_player_partial oenv ho.plays osite ho.parsers _ _ (pulled_for h.for_ h.pulls.origin h.short)
    (by show ascii "GET" ≠ ascii "POST"; decide +kernel) c bytes e0 ha m0 t0 oq hq A D s1 s L1 L ho.comes ocid ho.active
  rw [hc] at g1
  cases g1
  obtain ⟨mux, hv⟩ := hv
  have hnn : n' = n := by
    rcases g2 with ⟨m, hm⟩ | ⟨x, hm⟩ <;> rw [hv] at hm
    · simp only [Job.view.injEq] at hm; exact hm.1.symm
    · simp at hm
  subst hnn
  have hout := g5 ⟨mux, hv⟩ hn
  obtain ⟨after, io, part, h1, h2, -, h4, h5, h6⟩ := sent_part h hu ho hc harr (List.prefix_refl _) hp
  have haf : after' = after := by
    rw [g3] at h1
    exact List.append_cancel_left h1
  subst haf
  have hpart : part = Flv.fileHeader ++ Flv.chain 0 (startup (publishedTo ocid L1) ++ after') := by
    rw [h2] at hout
    unfold flvResponse at hout
    rw [List.append_assoc] at hout
    exact List.append_cancel_left hout
  obtain ⟨n0, h7⟩ := RelayProps.C90_complete hp.ok hp.buffers hp.run hp.fits hover h4 (.inl h5)
  refine ⟨after', g3, ?_⟩
  generalize hps : startup (publishedTo ocid L1) ++ after' = ps at hpart ⊢
  have hs : ∀ x ∈ ps.map Flv.wire, Flv.Supported mem.length x := by
    intro x hx
    obtain ⟨y, hy, rfl⟩ := List.mem_map.1 hx
    apply hsup
    rw [← hps] at hy
    rw [g3]
    rcases List.mem_append.1 hy with hy | hy
    · exact List.mem_append_left _ (mem_startup hy)
    · exact List.mem_append_right _ hy
  have hA : SourceProps.Arrived Flv.fileHeader (ps.map Flv.wire) part ps.length := by
    have e : SourceProps.flvFile Flv.fileHeader (ps.map Flv.wire) = part := by
      unfold SourceProps.flvFile
      rw [FlvProps.chain_wire, hpart]
    refine ⟨by rw [e]; exact List.prefix_refl _, by simp, ?_, fun hlt => absurd hlt (by simp)⟩
    rw [List.take_of_length_le (by simp), e]
  have h8 := SourceProps.file_cut (cap := mem.length) (closed := closed) rfl rfl hs hA (max n0 (ps.length + 1)) (by omega)
  rw [h7 _ (Nat.le_max_left _ _), h8]
  exact List.take_of_length_le (by simp)

/-- **C108** (players of the edge). A player over HTTP that joined this stream at the edge is sent a response with an FLV file of start-up packets and then of the packets that follow, in order, once each:
all that the pull has read if it plays and has read its queue, an initial part otherwise. The packets are those of the server asked.

Missing: pulls that get in the way of publishers at the server asked (C14, C16), and RTMP pulls
(C89). -/
theorem C108_player_partial (h : Asked env site a st q origin port) (hu : Edge.target env.parser q.host q.url = some u)
    (ho : Origin oenv osite (HttpClient.openText u) (origin ++ st.path) oq A D s1 s L1 L ocid) {conn : Conn} (hc : s.conns[(requestsOf A).length]? = some conn)
    (harr : Arrives up sent closed) (hsent : sent <+: conn.snk.out) (hp : Pulling env p u up mem ops r EL e cid)
    {j : Nat} {player : Conn} (hj : r.sys.conns[j]? = some player) {c : Nat} (hjoin : ∃ op, (op, .joined c cid) ∈ EL) :
    ∃ after F k, publishedTo ocid L = publishedTo ocid L1 ++ after ∧ F <+: (startup (publishedTo ocid L1) ++ after).map back ∧ publishedTo cid EL = F ∧ k ≤ F.length ∧
      ((∃ m, player.job = .view c m) ∨ (∃ e, player.job = .done (.player c) e) →
        player.snk.out <+: flvResponse env.site.reason (startup (F.take k) ++ F.drop k)) ∧
      ((∃ m, player.job = .view c m) ∧ pendingOf r.sys.w c = [] →
        player.snk.out = flvResponse env.site.reason (startup (F.take k) ++ F.drop k)) := by
  obtain ⟨after, h1, h2⟩ := C108_relayed_partial h hu ho hc harr hsent hp
  obtain ⟨after', io, part, -, -, -, h4, h5, -⟩ := sent_part h hu ho hc harr hsent hp
  obtain ⟨F, k, n, -, f2, f3, f4, f5⟩ := RelayProps.C90_end_to_end hp.ok hp.buffers hp.run hp.fits hp.feeds h4 (.inl h5) hj hjoin
  exact ⟨after, F, k, h1, by rw [← f2]; exact h2, f2, f3, f4, f5⟩

end

/-- **C108** (a stream begins). As soon as the head of the answer of a server of this kind has arrived, the pull of an FLV stream feeds a stream at the edge, whatever comes behind. -/
theorem C108_opens {env : Relay.Env} {p1 p2 p3 f1 f2 f3 : Nat} (hp12 : p1 ≠ p2) (hp13 : p1 ≠ p3) (hp23 : p2 ≠ p3) (hf12 : f1 ≠ f2) (hf13 : f1 ≠ f3) (hf23 : f2 ≠ f3)
    (hprot : env.protocols = Registers.install (Protocol.installed p1 p2 p3)) (hins : env.site.ins = Registers.install (Format.inputs f1 f2 f3))
    {ops : List Relay.Op} (hop : ∀ q ∈ requestsIn ops, ReqOk q) (hb : buffersOk ops) {r : Relay} {L : Log} (he : Relay.run env Relay.init ops = some (r, L)) (hfit : fitsFlv L)
    {e : Nat} {u : Url} (hpull : r.pulls[e]? = some (.asks (some u))) (hschema : u.schema = ascii "http") (hext : u.ext = ascii "flv")
    {p : Parsers} (hp : ReadsOpen p) {reason : Int → Text} (hr : valueOk (reason 200) ∧ (reason 200).length ≤ 2000)
    {up : Io} {part : List UInt8} {closed : Err} (harr : Arrives up (okHead reason ++ part) closed) (mem : List UInt8) :
    ∃ a r' cid, Answer.get p u (.up [] up) = some a ∧ r.step env (.answer e a mem) = some (r', [(.edgeOpen e, .published cid)]) ∧ feeding r' e cid := by
  rw [okHead_open] at harr
  obtain ⟨io, h1, -⟩ := get_full hp (okOpen_ok hr.1 hr.2) u harr
  have hz : (0 : UInt8) ∉ u.ext := by rw [hext]; decide +kernel
  have hv := (RelayProps.C89_feeds hp12 hp13 hp23 hf12 hf13 hf23 u hz env.site.junk (.opened 200 false (-1) io) ⟨f1, ascii "flv"⟩).2
    ⟨hschema, ⟨_, _, _, rfl⟩, by simp [Format.inputs], by rw [hext]; exact List.prefix_refl _⟩
  rw [← hprot, ← hins] at hv
  obtain ⟨r', cid, h2, h3⟩ := RelayProps.C90_opens hop hb he hfit hpull rfl hv mem
  exact ⟨_, r', cid, h1, h2, h3⟩

/-- **C89**, a server that an edge asks can crash it with one answer, as can anyone who can answer in its place: a header that `http_parser` takes nothing of. The open succeeds and the
response is null. -/
theorem C89_negation_garbage {p1 p2 p3 f1 f2 f3 : Nat} (hp12 : p1 ≠ p2) (hp13 : p1 ≠ p3) (hp23 : p2 ≠ p3) (hf12 : f1 ≠ f2) (hf13 : f1 ≠ f3) (hf23 : f2 ≠ f3)
    {p : Parsers} {u : Url} (hu : u.schema = ascii "http") (hz : (0 : UInt8) ∉ u.ext) {lines : List (List UInt8)} (hne : lines ≠ []) (hl : ∀ l ∈ lines, lineOk l)
    (hm : (Http.head lines).length ≤ 2048) (h0 : (p.rsp (Http.head lines)).1 = 0) {up : Io} {t : List UInt8} {closed : Err} (harr : Arrives up (Http.head lines ++ t) closed) (junk : Text) :
    (Answer.get p u (.up [] up)).map (Edge.verdict (Registers.install (Protocol.installed p1 p2 p3)) (Registers.install (Format.inputs f1 f2 f3)) junk u) = some .undef := by
  rw [get_mute u hne hl hm h0 harr, Option.map_some, (RelayProps.C89_crashes hp12 hp13 hp23 hf12 hf13 hf23 u hz junk .mute).2]
  simp [hu]

/-! ## An execution: the server of `Props/HttpLive` and an edge of it -/

/-- The host block of an edge. -/
def edgeBlock : Conf.Module := .mk .host (ascii "e.com")
  (fun n => if n = ascii "type" then some (.str (ascii "stream")) else if n = ascii "role" then some (.str (ascii "edge")) else
    if n = ascii "edge_avformat" then some (.str (ascii "all")) else if n = ascii "pass_proxy" then some (.str (ascii "a.com:8080")) else
    if n = ascii "pass_url" then some (.str []) else none) []

def edgeSite : HttpSite := ⟨HttpConn.readers, Router.new.history [edgeBlock], fun _ _ _ _ => .error .hang⟩

/-- A player of the edge. -/
def asks : Send where
  method := ascii "GET"
  path := ascii "/live/x.flv"
  query := some (ascii "k=1")
  host := ascii "e.com"
  fields := [(ascii "Host", ascii "e.com"), (ascii "Accept", ascii "*/*")]

def atEdge : Names.Stream := ⟨ascii "e.com", ascii "/live", ascii "x"⟩

theorem asks_for : asks.For atEdge := by
  refine ⟨⟨by decide +kernel, by decide +kernel, ?_, by decide +kernel, by intro t h; simp [asks] at h, by decide +kernel, .inl (by decide +kernel), by intro b h; simp [asks] at h,
    by decide +kernel⟩, ⟨by decide +kernel, by decide +kernel, by decide +kernel, by decide +kernel, by decide +kernel⟩, rfl, by decide +kernel⟩
  intro t h
  simp only [asks, Option.some.injEq] at h
  subst h
  refine ⟨by decide +kernel, ?_⟩
  unfold Names.graph
  decide +kernel

theorem asks_arrives : Arrives (HttpLive.wires asks.head).io (asks.head ++ []) Err.ERROR_SOCKET_CLOSED := ⟨by decide +kernel, by decide +kernel, by decide +kernel, rfl⟩

/-- What becomes of its request. -/
def edgeReq : Req :=
  match edgeSite.arrive (List.replicate 64 0) (List.replicate 29 0) (HttpLive.wires asks.head) with
  | .ok (.stream q) => q
  | _ => ServeProps.get "source" "GET" "flv"

theorem arrive_asks : edgeSite.arrive (List.replicate 64 0) (List.replicate 29 0) (HttpLive.wires asks.head) = .ok (.stream edgeReq) ∧ edgeReq.host = edgeBlock := by
  obtain ⟨-, -, h⟩ := HttpLive.C106_admission_partial edgeSite HttpLive.readsSends_readers [edgeBlock] (by decide +kernel) rfl asks _ asks_for _ _ _ asks_arrives (List.replicate 64 0) (List.replicate 29 0)
  obtain ⟨q, hq, hh, -⟩ := h edgeBlock rfl rfl
  simp only [edgeReq, hq]
  exact ⟨trivial, hh⟩

theorem asked : Asked RelayProps.env edgeSite asks atEdge edgeReq (ascii "a.com") (some (ascii "8080")) where
  parser := Names.readsUrls_readUrl
  parsers := HttpLive.readsSends_readers
  for_ := asks_for
  arrived := ⟨_, [], _, _, _, asks_arrives, arrive_asks.1⟩
  pulls := by
    rw [arrive_asks.2]
    exact ⟨rfl, by decide +kernel, by decide +kernel, by intro m hm; simp [edgeBlock, Conf.Module.inner] at hm, by decide +kernel, by
      intro t h
      simp only [Option.some.injEq] at h
      subst h
      exact ⟨8080, by decide +kernel⟩⟩
  short := by decide +kernel

/-- The request of the edge, at the server that it asks. -/
def pull : Send := pulled asks (ascii "a.com")

theorem pull_for : pull.For RtmpConn.stream := pulled_for asks_for (by decide +kernel) (by decide +kernel)
theorem pull_arrives : Arrives (HttpLive.wires pull.head).io (pull.head ++ []) Err.ERROR_SOCKET_CLOSED := ⟨by decide +kernel, by decide +kernel, by decide +kernel, rfl⟩

theorem arrive_pull : HttpLive.server.arrive (List.replicate 64 0) (List.replicate 29 0) (HttpLive.wires pull.head) = .ok (.stream (HttpLive.reqFor pull.head)) := by
  obtain ⟨-, -, h⟩ := HttpLive.C106_admission_partial HttpLive.server HttpLive.readsSends_readers [HttpLive.streams] (by decide +kernel) rfl pull _ pull_for _ _ _ pull_arrives
    (List.replicate 64 0) (List.replicate 29 0)
  obtain ⟨q, hq, -⟩ := h HttpLive.streams rfl rfl
  simp only [HttpLive.reqFor, hq]

theorem req_ok {site : HttpSite} {bytes : List UInt8} {q : Req} (h : site.arrive (List.replicate 64 0) (List.replicate 29 0) (HttpLive.wires bytes) = .ok (.stream q)) : ReqOk q := by
  obtain ⟨-, a1, a2, a3, a4⟩ := HttpLive.C106_phases _ _ _ _ _ h
  refine ⟨?_, ?_, ?_, ?_⟩
  · rw [a3]; decide
  · rw [a2]; decide
  · rw [a1]; simp [HttpLive.wires]
  · rw [a4]; trivial

/-- What the server sends, and how it arrives at the edge. -/
def answer : List UInt8 := flvResponse ServeProps.site.reason ServeProps.pkts
def up : Io := { evs := [.data (answer.take 30), .data ((answer.drop 30).take 40), .data (answer.drop 70)], closed := Err.ERROR_SOCKET_CLOSED }

/-- The URL that the edge pulls, and the answer. -/
def pullUrl : Url := (Edge.target RelayProps.env.parser edgeReq.host edgeReq.url).getD edgeReq.url
def gotten : Answer := (Answer.get HttpConn.readers pullUrl (.up [] up)).getD .failed

/-- A player asks, the server answers, header and two packets are read, the player joins and plays, the third is read, a second player comes, the pull ends. -/
def edgeOps : List Relay.Op :=
  [.sys (.request edgeReq) none, .answer 0 gotten (List.replicate 64 0), .pass 0, .pass 0, .pass 0, .sys (.wake 0 0) none, .sys (.run 0) none, .pass 0,
   .sys (.run 0) none, .sys (.request edgeReq) none, .sys (.run 1) none, .pass 0]

theorem supported : ∀ x ∈ ServeProps.pkts, Flv.Supported 64 (Flv.wire x) := by
  have h : ∀ x ∈ ServeProps.pkts, Flv.wire x = x ∧ x.msg = .data ∧ (0 ≤ x.dts ∧ x.dts < 2 ^ 32) ∧ x.payload ≠ [] ∧ ((Flv.body x).length ≤ 64 ∧ (Flv.body x).length < 2 ^ 24) ∧
      x.stream = .video ∧ x.flags.toNat = x.flags ∧ x.flags.toNat < 256 ∧ x.codec = (x.flags.toNat % 16 : Nat) ∧ x.flags.toNat % 16 = 7 ∧ Flv.isCommand x.flags.toNat = false ∧
      0 ≤ x.pktType ∧ x.pktType < 256 ∧ -2 ^ 23 ≤ x.pts - x.dts ∧ x.pts - x.dts < 2 ^ 23 := by decide +kernel
  intro x hx
  obtain ⟨h1, h2, h3, h4, h5, h6, h7, h8, h9, h10, h11, h12⟩ := h x hx
  rw [h1]
  exact ⟨h2, h3, h4, h5, .inr (.inl ⟨h6, x.flags.toNat, h7.symm, h8, h9, .inl h10, by rw [if_neg (by rw [h11]; decide)]; exact h12⟩)⟩

theorem url_pull : Edge.target RelayProps.env.parser edgeReq.host edgeReq.url = some pullUrl ∧ HttpClient.openText pullUrl = pull.head := by
  obtain ⟨-, u, h1, -, -, h2⟩ := asked.target
  unfold pullUrl
  rw [h1]
  exact ⟨rfl, h2⟩

/-- The hypotheses of C108 are met on both sides: the edge pulls when two of three packets are published; two players of the edge get all of the file, and the pull is over. -/
example : ∃ s1 s L1 L conn r EL, Origin ServeProps.site HttpLive.server (HttpClient.openText pullUrl) (ascii "a.com/live/x") (HttpLive.reqFor pull.head) HttpLive.opening HttpLive.ending s1 s L1 L 0 ∧
    publishedTo 0 L1 = ServeProps.pkts.take 2 ∧ publishedTo 0 L = ServeProps.pkts ∧ s.conns[(requestsOf HttpLive.opening).length]? = some conn ∧ conn.snk.out = answer ∧
    (∃ mux, conn.job = .view 0 mux) ∧ pendingOf s.w 0 = [] ∧ Arrives up conn.snk.out Err.ERROR_SOCKET_CLOSED ∧
    Pulling RelayProps.env HttpConn.readers pullUrl up (List.replicate 64 0) edgeOps r EL 0 0 ∧ r.pulls[0]? = some (.over (some 0)) ∧
    publishedTo 0 EL = ServeProps.pkts ∧ (r.sys.conns.map fun k => k.snk.out) = [answer, answer] ∧ (∃ op, (op, .joined 0 0) ∈ EL) := by
  have h : ((Sys.run ServeProps.site Sys.init HttpLive.opening).map fun x => decide (publishedTo 0 x.2 = ServeProps.pkts.take 2 ∧
      activeKey 0 x.2 = some (ascii "a.com/live/x") ∧ pullOpened (ascii "a.com/live/x") x.2 = false)) = some true := by decide +kernel
  have g : ((Sys.run ServeProps.site Sys.init (HttpLive.opening ++ .request (HttpLive.reqFor pull.head) :: HttpLive.ending)).map fun x => decide (publishedTo 0 x.2 = ServeProps.pkts ∧
      (x.1.conns.map ServeProps.ending).drop 1 = [(none, answer)] ∧ (x.1.conns.map fun c => match c.job with | .view n _ => n | _ => 7).drop 1 = [0] ∧ pendingOf x.1.w 0 = [] ∧
      (x.2.all fun x => match x.1 with | .put _ p => decide ((Flv.body p).length < 2 ^ 24) | _ => true) = true)) = some true := by decide +kernel
  have k : ((Relay.run RelayProps.env Relay.init edgeOps).map fun x => decide ((.play (ascii "e.com/live/x"), .joined 0 0) ∈ x.2 ∧ publishedTo 0 x.2 = ServeProps.pkts ∧
      (x.2.all fun x => match x.1 with | .put _ p => decide ((Flv.body p).length < 2 ^ 24) | _ => true) = true ∧
      (x.1.pulls.map fun p => match p with | .over c => c | _ => none) = [some 0] ∧ (x.1.sys.conns.map fun k => k.snk.out) = [answer, answer])) = some true := by decide +kernel
  cases hr : Sys.run ServeProps.site Sys.init HttpLive.opening with
  | none => rw [hr] at h; simp at h
  | some x =>
  cases hr' : Sys.run ServeProps.site Sys.init (HttpLive.opening ++ .request (HttpLive.reqFor pull.head) :: HttpLive.ending) with
  | none => rw [hr'] at g; simp at g
  | some y =>
  cases hr2 : Relay.run RelayProps.env Relay.init edgeOps with
  | none => rw [hr2] at k; simp at k
  | some z =>
  rw [hr] at h
  rw [hr'] at g
  rw [hr2] at k
  simp only [Option.map_some, Option.some.injEq, decide_eq_true_eq] at h g k
  obtain ⟨h1, h2, h3⟩ := h
  obtain ⟨g1, g2, g3, g4, g7⟩ := g
  obtain ⟨k1, k2, k3, k4, k5⟩ := k
  obtain ⟨conn, hc, ho, hj⟩ : ∃ conn, y.1.conns[1]? = some conn ∧ conn.snk.out = answer ∧ ∃ mux, conn.job = .view 0 mux := by
    match hcs : y.1.conns with
    | [] => rw [hcs] at g2; simp at g2
    | [_] => rw [hcs] at g2; simp at g2
    | _ :: c :: t =>
      rw [hcs] at g2 g3
      simp only [List.map_cons, List.drop_succ_cons, List.drop_zero, List.cons.injEq, ServeProps.ending, Prod.mk.injEq] at g2 g3
      refine ⟨c, rfl, g2.1.2, ?_⟩
      have g8 := g3.1
      cases hj : c.job <;> rw [hj] at g8 <;> simp at g8
      exact ⟨_, by rw [g8]⟩
  have hover : z.1.pulls[0]? = some (.over (some 0)) := by
    cases hp : z.1.pulls with
    | nil => rw [hp] at k4; simp at k4
    | cons p ps =>
      rw [hp] at k4
      simp only [List.map_cons, List.cons.injEq] at k4
      cases p <;> simp_all
  refine ⟨x.1, y.1, x.2, y.2, conn, z.1, z.2, ⟨RtmpConn.plays_installed 1 2 (by decide) _ (by decide +kernel), HttpLive.readsSends_readers, ⟨by decide +kernel, by decide +kernel⟩,
    ⟨_, [], _, _, _, by rw [url_pull.2]; exact pull_arrives, arrive_pull⟩, ⟨?_, hr, hr', ServeProps.fitsFlv_of_all g7⟩, .inl ⟨h2, (World.apart_of_none h3).1⟩⟩, h1, g1, hc, ho, hj, g4, ?_,
    ⟨readsOpen_readers, ?_, ?_, hr2, ServeProps.fitsFlv_of_all k3, .inr hover, ?_⟩, hover, k2, k5, ⟨_, k1⟩⟩
  · intro q hq'
    have : q ∈ [HttpLive.reqFor (HttpLive.posts.head ++ HttpLive.bodyBytes), HttpLive.reqFor pull.head] := hq'
    rcases List.mem_cons.1 this with h | h
    · rw [h]; exact HttpLive.req_ok.1
    · rw [List.mem_singleton.1 h]; exact req_ok arrive_pull
  · rw [ho]
    exact ⟨by decide +kernel, by decide +kernel, by decide +kernel, rfl⟩
  · intro q hq
    simp [requestsIn, edgeOps] at hq
    rw [hq]
    exact req_ok arrive_asks.1
  · intro e a mem hm
    simp [edgeOps] at hm
    rw [hm.2.2]
    decide +kernel
  · intro a m hm
    simp [edgeOps] at hm
    obtain ⟨rfl, rfl⟩ := hm
    refine ⟨?_, rfl⟩
    obtain ⟨io, hg, -⟩ := get_full readsOpen_readers (okOpen_ok (phrase := ServeProps.site.reason 200) (by decide +kernel) (by decide +kernel)) pullUrl
      (up := up) (part := Flv.fileHeader ++ Flv.chain 0 ServeProps.pkts) (closed := Err.ERROR_SOCKET_CLOSED) ⟨by decide +kernel, by decide +kernel, by decide +kernel, rfl⟩
    unfold gotten
    rw [hg]
    rfl

/-- The hypotheses of `C108_begins` are met: when all this is over, the next player makes the edge pull anew. -/
example : ∃ r L, Relay.run RelayProps.env Relay.init edgeOps = some (r, L) ∧ (∀ cid, activeKey cid L ≠ some (atEdge.host ++ atEdge.path)) ∧ (∀ e, pullKey e L ≠ some (atEdge.host ++ atEdge.path)) ∧
    r.sys.w.edges.length = 1 ∧ asks.method ≠ ascii "POST" := by
  have k : ((Relay.run RelayProps.env Relay.init edgeOps).map fun x => decide ((World.init.run (x.2.map Prod.fst)).2 = x.2 ∧ (World.init.run (x.2.map Prod.fst)).1.edges = x.1.sys.w.edges ∧
      (x.2.all fun x => match x with | (.publish _, _) => false | (.publishSrt _, _) => false | _ => true) = true ∧ x.1.sys.w.edges = [⟨ascii "e.com/live/x", .done⟩])) = some true := by decide +kernel
  cases hr : Relay.run RelayProps.env Relay.init edgeOps with
  | none => rw [hr] at k; simp at k
  | some x =>
  rw [hr] at k
  simp only [Option.map_some, Option.some.injEq, decide_eq_true_eq] at k
  obtain ⟨k1, k2, k3, k4⟩ := k
  refine ⟨_, _, rfl, fun cid => ?_, fun e => ?_, by rw [k4]; rfl, by decide +kernel⟩
  · have : ∀ l : Log, (l.all fun x => match x with | (.publish _, _) => false | (.publishSrt _, _) => false | _ => true) = true → activeKeyFrom cid none l = none := by
      intro l
      induction l with
      | nil => intro _; rfl
      | cons y l ih =>
        intro h
        rw [List.all_cons, Bool.and_eq_true] at h
        obtain ⟨op, o⟩ := y
        cases op with
        | publish k => simp at h
        | publishSrt k => simp at h
        | _ => cases o <;> simp only [activeKeyFrom] <;> first | exact ih h.2 | (split <;> exact ih h.2)
    rw [activeKey, this _ k3]
    simp
  · have h4 := run_pulls (x.2.map Prod.fst) Pulls.init e
    rw [List.nil_append, k1, k2, k4] at h4
    rw [h4]
    cases e <;> simp

/-- A header that ends the edge: `http_parser` takes none of it. -/
example : (HttpConn.readers.rsp (Http.head [ascii "SSH-2.0-x"])).1 = 0 ∧ (∀ l ∈ [ascii "SSH-2.0-x"], lineOk l) ∧
    (RelayProps.env.protocols = Registers.install (Protocol.installed 1 2 3) ∧ RelayProps.env.site.ins = Registers.install (Format.inputs 1 2 3)) := by
  refine ⟨by decide +kernel, ?_, ?_⟩ <;> decide +kernel

end Sps.EdgeLive
