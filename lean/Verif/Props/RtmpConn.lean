import Verif.Lemmas.RtmpConn
import Verif.Props.Rtmp
import Verif.Props.RtmpMsgs
import Verif.Props.RtmpServe
import Verif.Props.Names
import Verif.Props.Server
import Verif.Props.Register
/-!
# C105: from an RTMP client's first command to what players get
-/
namespace Sps.RtmpConn
open Sps.RtmpProps Spec Rtmp Sys StreamProps World Names Spec.Names Spec.RtmpConn Spec.RtmpMsgs Sps.RtmpMsgs RtmpServe Spec.Server

/-- A caller whose handshake succeeds, to whom the server can send, and who holds the conversation of the client. -/
structure Calls (c : RtmpCaller) (cl : User) (ms : List AmfMsg) : Prop where
  shake : c.shake = Err.SUCCESS
  closed : c.closed ≠ Err.SUCCESS
  fails : c.fails = []
  asks : Asks cl ms
  talk : ∃ more, c.talk = ms ++ more

/-- The request of a caller. -/
def reqOf (c : RtmpCaller) (publishes : Bool) (n : Nat) (h : Conf.Module) (u : Url) : Req :=
  ⟨h, u, { evs := [], closed := c.closed }, c.lost, List.replicate 64 0, List.replicate 29 0, .rtmp publishes (c.later n 128).1 (c.later n 128).2⟩

theorem arrives (site : RtmpSite) (hp : ReadsUrls site.parser) (c : RtmpCaller) (cl : User) (ok : cl.Ok) (ms : List AmfMsg) (hc : Calls c cl ms) :
    ∃ pre, PreRequest.connect c.closed {} ms = some (Err.SUCCESS, pre, []) ∧
      ∃ u : Url, u.host = cl.stream.host ∧ u.ext = ascii "-" ∧ StreamHandler.key u = cl.stream.host ++ cl.stream.path ∧
        site.arrive c = some (match site.router.find cl.stream.host with
          | none => .refused Err.ERROR_UPSTREAM_NOT_FOUND pre.sent
          | some h => .stream (reqOf c cl.publishes ms.length h u) pre.sent) := by
  obtain ⟨more, ht⟩ := hc.talk
  obtain ⟨pre, con, txn, app, mid, start, fin, h1, h2, h3, h4, h5⟩ := hc.asks
  have hn := (C63_negotiation c.closed hc.closed c.talk _ more).2
    ⟨pre, con, txn, app, _, mid, start, _, _, fin, by rw [ht, h1]; simp, h2, h3, h4, h5, rfl⟩
  have hn' := (C63_negotiation c.closed hc.closed ms _ []).2
    ⟨pre, con, txn, app, _, mid, start, _, _, fin, by rw [h1], h2, h3, h4, h5, rfl⟩
  have hlen : c.talk.length - more.length = ms.length := by rw [ht]; simp
  refine ⟨_, hn', ?_⟩
  have e : Parts.text ⟨ascii "rtmp", cl.stream.host, cl.port, cl.stream.app, none⟩ ++ 47 :: (cl.stream.name ++ Spec.Names.opt 63 cl.query) =
      Parts.text ⟨ascii "rtmp", cl.stream.host, cl.port, cl.stream.path, cl.query⟩ := by
    simp [Parts.text, Spec.Names.opt, Stream.path]
  have hok : Parts.Ok ⟨ascii "rtmp", cl.stream.host, cl.port, cl.stream.path, cl.query⟩ :=
    ⟨schema_rtmp.1, ok.stream.host, ok.port, Stream.pathOk ok.stream, ok.query⟩
  obtain ⟨r, g1, g2, g3, -⟩ := parseUrl_parts hp hok schema_rtmp.2 {}
  refine ⟨{ r with ext := ascii "-" }, g2, rfl, ?_, ?_⟩
  · simp only [StreamHandler.key, cacheKey, g2, g3]
    rw [if_pos (Or.inl (by decide))]
  · unfold RtmpSite.arrive
    rw [if_neg (by simp [hc.shake]), hc.fails]
    rw [hn]
    simp only [Option.map_some, ne_eq, not_true_eq_false, if_false, Names.rtmp, RtmpPrepared.prepare]
    rw [e, g1]
    simp only [Option.map_some, g2, hlen]
    cases site.router.find cl.stream.host with
    | none => rfl
    | some h =>
      simp only [Bool.not_not]
      rfl

/-- **C105** (admission). A client that connects to `rtmp://HOST[:port]/APP` and plays or publishes `NAME[?query]` is served by the host block that is to serve HOST, for the stream that HTTP and SRT clients
know as HOST/APP/NAME, as a player or a publisher as it asked; what it sends after that are the media, in chunks of 128 bytes. Without such a host block it is refused. In any case every command got the
answer owed to it, with the window and the bandwidth that the server has then.

Missing: chunk sizes announced during the negotiation (`C63_negation_chunk_size`), pulls that get
in the way of publishers (C14), and the limits of C101 and C92. -/
theorem C105_admission_partial (site : RtmpSite) (hp : ReadsUrls site.parser) (hs : List Conf.Module) (hz : ∀ h ∈ hs, (0 : UInt8) ∉ h.name)
    (hr : site.router = Router.new.history hs) (c : RtmpCaller) (cl : User) (ok : cl.Ok) (ms : List AmfMsg) (hc : Calls c cl ms) :
    ∃ sent, (choose hs cl.stream.host = none → site.arrive c = some (.refused Err.ERROR_UPSTREAM_NOT_FOUND sent)) ∧
      (∀ h, choose hs cl.stream.host = some h → ∃ q, site.arrive c = some (.stream q sent) ∧ q.host = h ∧ StreamHandler.key q.url = cl.stream.host ++ cl.stream.path ∧
        q.via = .rtmp cl.publishes (c.later ms.length 128).1 (c.later ms.length 128).2 ∧ q.fails = c.lost) ∧
      ((∀ m ∈ ms, Usual m) → (ms.filter fun m => match decoded m with | some (_, some (.connect ..)) => true | _ => false).length ≤ 1 →
        ∀ (h : RtmpHook) (w b : Nat), h.serverBW = w → w < 2 ^ 32 → h.clientBW = b → b < 2 ^ 32 →
        ∃ before asked out, ms = before ++ asked ∧ (∀ m ∈ before, idle m) ∧ RtmpReply.messages h sent = some out ∧
          out.map meaning = (asked.flatMap (owedTo w b)).map some) := by
  obtain ⟨pre, h1, u, h2, h3, h4, h5⟩ := arrives site hp c cl ok ms hc
  rw [hr, C51_find hs hz] at h5
  refine ⟨pre.sent, fun hn => by rw [h5, hn], fun h hh => ⟨_, by rw [h5, hh], rfl, h4, rfl, rfl⟩, fun hu hone h w b e1 e2 e3 e4 => ?_⟩
  obtain ⟨before, asked, out, f1, f2, f3⟩ := C101_answers_partial c.closed hc.closed h w b e1 e2 e3 e4 ms hu hone pre [] h1
  exact ⟨before, asked, out, by simpa using f1, f2, f3⟩

/-- The server has the formats of RTMP and FLV. -/
structure Plays (env : Site.Env) : Prop where
  rtmp : ∃ f, Format.create env.outs (ascii "-") env.junk = some f ∧ f.word = ascii "-"
  flv : ∃ f, Format.create env.outs (ascii "flv") env.junk = some f ∧ f.word = ascii "flv"

/-- The program has them, wherever they lie in memory. -/
theorem plays_installed (a b : Nat) (hab : a ≠ b) (env : Site.Env) (h : env.outs = Registers.install (Format.outputs a b)) : Plays env := by
  have key : ∀ e : Text, (0 : UInt8) ∉ e → ∀ f, Format.create env.outs e env.junk = some f ↔ f ∈ Format.outputs a b ∧ f.word <+: e := by
    intro e he f
    rw [h]
    refine C61_unique_partial _ ?_ ?_ ?_ e env.junk he f
    · intro x hx y hy h
      simp only [Format.outputs, List.mem_cons, List.not_mem_nil, or_false] at hx hy
      rcases hx with rfl | rfl <;> rcases hy with rfl | rfl <;> first | rfl | exact absurd h hab | exact absurd h hab.symm
    · intro x hx y hy h
      simp only [Format.outputs, List.mem_cons, List.not_mem_nil, or_false] at hx hy
      rcases hx with rfl | rfl <;> rcases hy with rfl | rfl <;> first | rfl | (exfalso; simp only at h; revert h; decide +kernel)
    · intro x hx
      simp only [Format.outputs, List.mem_cons, List.not_mem_nil, or_false] at hx
      rcases hx with rfl | rfl <;> simp only <;> decide +kernel
  exact ⟨⟨⟨b, ascii "-"⟩, (key _ (by decide +kernel) _).2 ⟨by simp [Format.outputs], List.prefix_rfl⟩, rfl⟩,
    ⟨⟨a, ascii "flv"⟩, (key _ (by decide +kernel) _).2 ⟨by simp [Format.outputs], List.prefix_rfl⟩, rfl⟩⟩

theorem requestsOf_append (a b : List Sys.Op) : requestsOf (a ++ b) = requestsOf a ++ requestsOf b := List.filterMap_append

theorem fitsFlv_left {a b : Log} (h : fitsFlv (a ++ b)) : fitsFlv a := fun cid p hp => h cid p (by rw [publishedTo_append]; exact List.mem_append_left _ hp)

/-- While an RTMP publisher publishes, a player comes; then anything happens. -/
structure Meets (env : Site.Env) (A D : List Sys.Op) (qp qv : Req) (i cid : Nat) (s1 s : Sys) (L1 L : Log) : Prop where
  ok : ∀ q ∈ requestsOf (A ++ .request qv :: D), ReqOk q
  before : Sys.run env Sys.init A = some (s1, L1)
  run : Sys.run env Sys.init (A ++ .request qv :: D) = some (s, L)
  fits : fitsFlv L
  apart : Spec.apart (StreamHandler.key qp.url) L1
  asked : (requestsOf A)[i]? = some qp
  publishes : ∃ pub ms cl, s1.conns[i]? = some pub ∧ pub.job = .rtmpPub cid ms cl

theorem Meets.split {env : Site.Env} {A D : List Sys.Op} {qp qv : Req} {i cid : Nat} {s1 s : Sys} {L1 L : Log} (m : Meets env A D qp qv i cid s1 s L1 L) :
    ∃ L2, Sys.run env (s1.request env qv).1 D = some (s, L2) ∧ L = L1 ++ ((s1.request env qv).2 ++ L2) ∧ SInv env (requestsOf A) L1 s1 ∧
      SInv env (requestsOf (A ++ .request qv :: D)) L s := by
  obtain ⟨s1', L1', L2, e1, e2, e3⟩ := run_split env A (.request qv :: D) Sys.init m.run
  rw [m.before] at e1
  cases e1
  simp only [Sys.run, Sys.step, Option.bind_eq_bind, Option.bind_some] at e2
  cases hr : Sys.run env (s1.request env qv).1 D with
  | none => rw [hr] at e2; simp at e2
  | some x =>
    obtain ⟨s2, l2⟩ := x
    rw [hr] at e2
    simp at e2
    obtain ⟨rfl, rfl⟩ := e2
    refine ⟨l2, rfl, e3, run_init (fun q hq => m.ok q (by rw [requestsOf_append]; exact List.mem_append_left _ hq)) m.before (fitsFlv_left (e3 ▸ m.fits)), run_init m.ok m.run m.fits⟩

theorem Meets.joins {env : Site.Env} {A D : List Sys.Op} {qp qv : Req} {i cid : Nat} {s1 s : Sys} {L1 L : Log} (m : Meets env A D qp qv i cid s1 s L1 L)
    (hk : StreamHandler.key qv.url = StreamHandler.key qp.url) (hr : plainKey (StreamHandler.key qp.url) = true) :
    (s1.w.play (StreamHandler.key qv.url)).2 = .joined s1.w.clients.length cid ∧ (s1.w.reg.find (StreamHandler.key qv.url)).isSome ∧
      (.publish (StreamHandler.key qp.url), .published cid) ∈ L1 := by
  obtain ⟨L2, e1, e2, h1, h2⟩ := m.split
  obtain ⟨pub, ms, cl, hi, hj⟩ := m.publishes
  rw [hk]
  obtain ⟨a, b⟩ := h1.attaches hi m.asked hr m.apart (.inl ⟨ms, cl, hj⟩)
  refine ⟨a, b, ?_⟩
  have := h1.ok i pub qp hi m.asked
  unfold ConnOk at this
  rw [hj] at this
  exact this.1

/-- The publisher after all. -/
theorem Meets.publisher {env : Site.Env} {A D : List Sys.Op} {qp qv : Req} {i cid : Nat} {s1 s : Sys} {L1 L : Log} (m : Meets env A D qp qv i cid s1 s L1 L) :
    ∃ pub, s.conns[i]? = some pub ∧ RtmpServe.publishes pub cid ∧ (requestsOf (A ++ .request qv :: D))[i]? = some qp := by
  obtain ⟨L2, e1, e2, h1, h2⟩ := m.split
  obtain ⟨pub, ms, cl, hi, hj⟩ := m.publishes
  obtain ⟨s1', L1', L2', f1, f2, -⟩ := run_split env A (.request qv :: D) Sys.init m.run
  rw [m.before] at f1
  cases f1
  obtain ⟨pub', g1, g2⟩ := run_kind env _ f2 hi (x := (3, cid)) (by rw [hj]; rfl)
  refine ⟨pub', g1, ?_, ?_⟩
  · obtain ⟨job, r, snk⟩ := pub'
    simp only at g2
    cases job with
    | rtmpPub c ms cl => simp [kind] at g2; subst g2; exact .inl ⟨ms, cl, rfl⟩
    | done was e => cases was <;> simp [kind] at g2; subst g2; exact .inr ⟨e, rfl⟩
    | _ => simp [kind] at g2
  · rw [requestsOf_append, List.getElem?_append_left (List.getElem?_eq_some_iff.1 m.asked).1]
    exact m.asked

/-- **C105** (RTMP to RTMP). One client publishes a stream over RTMP, and while it does another one asks to play it: whatever else goes on before, meanwhile and after that, the player is sent one message for each
of the start-up packets among those published when it came, and then for each of those published since, in order, that carries it: all that were published since if it plays and has read its queue, an initial
part of that otherwise. What is published are the packets of the publisher's messages, in order: all of them when it has stopped, an initial part otherwise.

Missing: chunk sizes announced during the negotiation (`C63_negation_chunk_size`), pulls that get
in the way of publishers (C14), and the limits of C101 and C92. -/
theorem C105_rtmp_partial (env : Site.Env) (hf : Plays env) (site : RtmpSite) (hp : ReadsUrls site.parser)
    (publisher player : User) (okp : publisher.Ok) (okv : player.Ok) (h1 : publisher.publishes = true) (h2 : player.publishes = false) (same : player.stream = publisher.stream)
    (cp cv : RtmpCaller) (mp mv : List AmfMsg) (callp : Calls cp publisher mp) (callv : Calls cv player mv)
    (qp qv : Req) (sp sv : List RtmpReply) (ap : site.arrive cp = some (.stream qp sp)) (av : site.arrive cv = some (.stream qv sv))
    (A D : List Sys.Op) (i cid : Nat) (s1 s : Sys) (L1 L : Log) (m : Meets env A D qp qv i cid s1 s L1 L)
    (hsup : ∀ p ∈ media (cp.later mp.length 128).1, Supported p) :
    ∃ pub conn c sent after ps, s.conns[i]? = some pub ∧ publishes pub cid ∧ s.conns[(requestsOf A).length]? = some conn ∧ plays conn c sent ∧
      publishedTo cid L = publishedTo cid L1 ++ after ∧ publishedTo cid L <+: media (cp.later mp.length 128).1 ∧
      ((∀ ms cl, pub.job ≠ .rtmpPub cid ms cl) → publishedTo cid L = media (cp.later mp.length 128).1) ∧
      List.Forall₂ Carries ps sent ∧ ps <+: startup (publishedTo cid L1) ++ after ∧
      (isPlaying conn → pendingOf s.w c = [] → ps = startup (publishedTo cid L1) ++ after) := by
  obtain ⟨pre1, -, u1, -, x1, k1, a1⟩ := arrives site hp cp publisher okp mp callp
  obtain ⟨pre2, -, u2, -, x2, k2, a2⟩ := arrives site hp cv player okv mv callv
  have hqp : ∃ h, qp = reqOf cp true mp.length h u1 := by
    rw [a1] at ap
    split at ap
    · simp at ap
    · simp only [Option.some.injEq, RtmpArrival.stream.injEq] at ap
      exact ⟨_, by rw [← ap.1, h1]⟩
  have hqv : ∃ h, qv = reqOf cv false mv.length h u2 := by
    rw [a2] at av
    split at av
    · simp at av
    · simp only [Option.some.injEq, RtmpArrival.stream.injEq] at av
      exact ⟨_, by rw [← av.1, h2]⟩
  obtain ⟨hp', rfl⟩ := hqp
  obtain ⟨hv', rfl⟩ := hqv
  have hk : StreamHandler.key (reqOf cv false mv.length hv' u2).url = StreamHandler.key (reqOf cp true mp.length hp' u1).url := by
    show StreamHandler.key u2 = StreamHandler.key u1
    rw [k1, k2, same]
  obtain ⟨j1, j2, j3⟩ := m.joins hk (by show plainKey (StreamHandler.key u1) = true; rw [k1]; exact not_raw okp.stream)
  obtain ⟨L2, e1, e2, i1, i2⟩ := m.split
  obtain ⟨pub, p1, p2, p3⟩ := m.publisher
  obtain ⟨f, f1, f2⟩ := hf.rtmp
  have hreq := rtmp_joins (env := env) (s := s1) (q := reqOf cv false mv.length hv' u2) (ms := (cv.later mv.length 128).1) (cl := (cv.later mv.length 128).2) rfl j1 j2
    (f := f) (by show Format.create env.outs u2.ext env.junk = some f; rw [x2]; exact f1) f2
  rw [hreq] at e1 e2
  simp only at e1 e2
  have hget : (s1.conns ++ [bare (.rtmpView s1.w.clients.length { out := [], fails := (reqOf cv false mv.length hv' u2).fails })])[(requestsOf A).length]? =
      some (bare (.rtmpView s1.w.clients.length { out := [], fails := (reqOf cv false mv.length hv' u2).fails })) := by
    rw [← i1.len]
    simp
  obtain ⟨conn, c1, c2⟩ := run_kind env D e1 hget (x := (2, s1.w.clients.length)) rfl
  have hplays : ∃ sent, plays conn s1.w.clients.length sent := by
    obtain ⟨job, r, snk⟩ := conn
    simp only at c2
    cases job with
    | rtmpView c snk => simp [kind] at c2; subst c2; exact ⟨snk.out, .inl ⟨snk.fails, rfl⟩⟩
    | done was e =>
      cases was <;> simp [kind] at c2
      rename_i c sent
      subst c2
      exact ⟨sent, .inr ⟨e, rfl⟩⟩
    | _ => simp [kind] at c2
  obtain ⟨sent, hplays⟩ := hplays
  have e2' : L = L1 ++ (.play (StreamHandler.key (reqOf cv false mv.length hv' u2).url), .joined s1.w.clients.length cid) :: L2 := by rw [e2]; rfl
  subst e2'
  obtain ⟨after, r1, r2, r3⟩ := received_at i1.world rfl i2 j3
  obtain ⟨-, ms', cl', q1, q2⟩ := C91_published m.ok m.run m.fits p1 p3 p2
  have hms : ms' = (cp.later mp.length 128).1 := by
    have : (Via.rtmp true (cp.later mp.length 128).1 (cp.later mp.length 128).2) = .rtmp true ms' cl' := q1
    simp only [Via.rtmp.injEq, true_and] at this
    exact this.1.symm
  rw [hms] at q2
  have hsupL : ∀ p ∈ received s1.w.clients.length (L1 ++ (.play (StreamHandler.key (reqOf cv false mv.length hv' u2).url), .joined s1.w.clients.length cid) :: L2), Supported p := by
    intro p hp
    apply hsup
    apply q2.subset
    rw [r1]
    rcases List.mem_append.1 (r2.subset hp) with hm | hm
    · exact List.mem_append_left _ (mem_startup hm)
    · exact List.mem_append_right _ hm
  obtain ⟨t1, t2⟩ := plays_ok i2 c1 hplays
  have hstop : (∀ ms cl, pub.job ≠ .rtmpPub cid ms cl) → publishedTo cid (L1 ++ (.play (StreamHandler.key (reqOf cv false mv.length hv' u2).url), .joined s1.w.clients.length cid) :: L2) =
      media (cp.later mp.length 128).1 := by
    intro hn
    rcases p2 with ⟨a, b, hx⟩ | ⟨e, hx⟩
    · exact absurd hx (hn a b)
    · obtain ⟨ms'', cl'', y1, y2⟩ := C91_complete m.ok m.run m.fits p1 p3 hx
      have : (Via.rtmp true (cp.later mp.length 128).1 (cp.later mp.length 128).2) = .rtmp true ms'' cl'' := y1
      simp only [Via.rtmp.injEq, true_and] at this
      rw [y2, this.1]
  by_cases hpl : isPlaying conn
  · obtain ⟨t3, h8⟩ := t2 hpl
    subst t3
    exact ⟨pub, conn, _, _, after, _, p1, p2, c1, hplays, r1, q2, hstop, messages_carry _ hsupL, r2, fun _ hpend => r3 h8 hpend⟩
  · obtain ⟨qs, y1, y2⟩ := messages_prefix_carry hsupL t1
    exact ⟨pub, conn, _, _, after, qs, p1, p2, c1, hplays, r1, q2, hstop, y2, y1.trans r2, fun hx => absurd hx hpl⟩

/-- The URL of an HTTP player. -/
theorem viewer_url (parser : Text → Option UrlFields) (hp : ReadsUrls parser) (v : Viewer) (ok : v.Ok) (method : Text) (hm : method ≠ []) (headers : List Header)
    (hh : Url.lookup (ascii "Host") headers = v.stream.host ++ Spec.Names.opt 58 v.port) :
    (Names.http parser method v.target headers).method = method ∧ (Names.http parser method v.target headers).ext = ascii "flv" := by
  have e : ascii "http://" ++ Url.lookup (ascii "Host") headers ++ v.target = Parts.text ⟨ascii "http", v.stream.host, v.port, v.stream.path ++ 46 :: ascii "flv", v.query⟩ := by
    have h1 : ascii "http://" = ascii "http" ++ ascii "://" := by decide
    have h2 : ascii "." = [46] := by decide
    rw [hh, h1, Viewer.target, h2]
    simp [Parts.text]
  have hx : Spec.Names.pathChars (ascii "flv") := by decide
  have hok : Parts.Ok ⟨ascii "http", v.stream.host, v.port, v.stream.path ++ 46 :: ascii "flv", v.query⟩ :=
    ⟨schema_http.1, ok.stream.host, ok.port, pathOk_append (Stream.pathOk ok.stream) (dot_chars hx), ok.query⟩
  obtain ⟨r, h1, h2, h3, h4, h5⟩ := parseUrl_parts hp hok schema_http.2 { method := method, headers := headers }
  have hne : Url.lookup (ascii "Host") headers ≠ [] := by
    rw [hh]
    intro h
    exact ok.stream.host.1 (List.append_eq_nil_iff.1 h).1
  unfold Names.http
  simp only [ne_eq, hne, not_false_eq_true, if_true]
  rw [e, h1]
  rw [Text.afterLast_at 46 _ _ (by decide)] at h4
  exact ⟨h5 hm, h4⟩

/-- **C105** (RTMP to HTTP). One client publishes a stream over RTMP, and while it does another one requests `/APP/NAME.flv` of HOST: whatever else goes on before, meanwhile and after that, the player is sent
a response with an FLV file of the start-up packets among those published when it came, and then of those published since, in order: all that were published since if it plays and has read its queue, an
initial part otherwise. What is published are the packets of the publisher's messages, in order: all of them when it has stopped, an initial part otherwise.

Missing: chunk sizes announced during the negotiation (`C63_negation_chunk_size`), pulls that get
in the way of publishers (C14), and the limits of C101 and C92. -/
theorem C105_http_partial (env : Site.Env) (hf : Plays env) (site : RtmpSite) (hp : ReadsUrls site.parser) (publisher : User) (okp : publisher.Ok) (h1 : publisher.publishes = true)
    (player : Viewer) (okv : player.Ok) (same : player.stream = publisher.stream)
    (cp : RtmpCaller) (mp : List AmfMsg) (callp : Calls cp publisher mp) (qp : Req) (sp : List RtmpReply) (ap : site.arrive cp = some (.stream qp sp))
    (method : Text) (hm : method ≠ [] ∧ method ≠ ascii "POST") (headers : List Header) (hh : Url.lookup (ascii "Host") headers = player.stream.host ++ Spec.Names.opt 58 player.port)
    (qv : Req) (hv : qv.via = .http) (hu : qv.url = Names.http site.parser method player.target headers)
    (A D : List Sys.Op) (i cid : Nat) (s1 s : Sys) (L1 L : Log) (m : Meets env A D qp qv i cid s1 s L1 L) :
    ∃ pub conn c after, s.conns[i]? = some pub ∧ publishes pub cid ∧ s.conns[(requestsOf A).length]? = some conn ∧
      ((∃ mux, conn.job = .view c mux) ∨ ∃ e, conn.job = .done (.player c) e) ∧
      publishedTo cid L = publishedTo cid L1 ++ after ∧ publishedTo cid L <+: media (cp.later mp.length 128).1 ∧
      ((∀ ms cl, pub.job ≠ .rtmpPub cid ms cl) → publishedTo cid L = media (cp.later mp.length 128).1) ∧
      conn.snk.out <+: flvResponse env.reason (startup (publishedTo cid L1) ++ after) ∧
      ((∃ mux, conn.job = .view c mux) → pendingOf s.w c = [] → conn.snk.out = flvResponse env.reason (startup (publishedTo cid L1) ++ after)) := by
  obtain ⟨pre1, -, u1, -, x1, k1, a1⟩ := arrives site hp cp publisher okp mp callp
  have hqp : ∃ h, qp = reqOf cp true mp.length h u1 := by
    rw [a1] at ap
    split at ap
    · simp at ap
    · simp only [Option.some.injEq, RtmpArrival.stream.injEq] at ap
      exact ⟨_, by rw [← ap.1, h1]⟩
  obtain ⟨hp', rfl⟩ := hqp
  obtain ⟨v1, v2⟩ := viewer_url site.parser hp player okv method hm.1 headers hh
  have k2 : StreamHandler.key qv.url = player.stream.host ++ player.stream.path := by
    rw [hu]
    exact C80_http site.parser hp player.stream okv.stream (ascii "flv") ⟨by decide, by decide, by decide, by decide, by decide⟩ player.port player.query okv.port okv.query method headers hh
  have hk : StreamHandler.key qv.url = StreamHandler.key (reqOf cp true mp.length hp' u1).url := by
    show StreamHandler.key qv.url = StreamHandler.key u1
    rw [k1, k2, same]
  obtain ⟨j1, j2, j3⟩ := m.joins hk (by show plainKey (StreamHandler.key u1) = true; rw [k1]; exact not_raw okp.stream)
  obtain ⟨L2, e1, e2, i1, i2⟩ := m.split
  obtain ⟨pub, p1, p2, p3⟩ := m.publisher
  obtain ⟨f, f1, f2⟩ := hf.flv
  obtain ⟨k0, l0, g1, g2, g3⟩ := http_joins (env := env) (s := s1) (q := qv) hv (by rw [hu, v1]; exact hm.2) j1 j2 (f := f) (by rw [hu, v2]; exact f1) f2
  rw [g2] at e2
  have hget : (s1.request env qv).1.conns[(requestsOf A).length]? = some k0 := by
    rw [g1, ← i1.len]
    simp
  obtain ⟨conn, c1, c2⟩ := run_kind env D e1 hget g3
  have hplays : (∃ mux, conn.job = .view s1.w.clients.length mux) ∨ ∃ e, conn.job = .done (.player s1.w.clients.length) e := by
    obtain ⟨job, r, snk⟩ := conn
    simp only at c2
    cases job with
    | view c mux => simp [kind] at c2; subst c2; exact .inl ⟨mux, rfl⟩
    | done was e =>
      cases was <;> simp [kind] at c2
      subst c2
      exact .inr ⟨e, rfl⟩
    | _ => simp [kind] at c2
  have e2' : L = L1 ++ (.play (StreamHandler.key qv.url), .joined s1.w.clients.length cid) :: (l0 ++ L2) := by rw [e2]; rfl
  subst e2'
  obtain ⟨after, r1, r2, r3⟩ := received_at i1.world rfl i2 j3
  obtain ⟨-, ms', cl', q1, q2⟩ := C91_published m.ok m.run m.fits p1 p3 p2
  have hms : ms' = (cp.later mp.length 128).1 := by
    have : (Via.rtmp true (cp.later mp.length 128).1 (cp.later mp.length 128).2) = .rtmp true ms' cl' := q1
    simp only [Via.rtmp.injEq, true_and] at this
    exact this.1.symm
  rw [hms] at q2
  have hlt := (List.getElem?_eq_some_iff.1 c1).1
  rw [i2.len] at hlt
  have hc := i2.ok _ conn _ c1 (List.getElem?_eq_getElem hlt)
  unfold ConnOk at hc
  refine ⟨pub, conn, _, after, p1, p2, c1, hplays, r1, q2, ?_, ?_, ?_⟩
  · intro hn
    rcases p2 with ⟨a, b, hx⟩ | ⟨e, hx⟩
    · exact absurd hx (hn a b)
    · obtain ⟨ms'', cl'', y1, y2⟩ := C91_complete m.ok m.run m.fits p1 p3 hx
      have : (Via.rtmp true (cp.later mp.length 128).1 (cp.later mp.length 128).2) = .rtmp true ms'' cl'' := y1
      simp only [Via.rtmp.injEq, true_and] at this
      rw [y2, this.1]
  · rcases hplays with ⟨mux, hx⟩ | ⟨e, hx⟩
    · rw [hx] at hc
      obtain ⟨-, -, -, h4, -⟩ := hc
      rw [h4]
      exact ServeProps.flvResponse_of_prefix _ r2
    · rw [hx] at hc
      exact hc.2.trans (ServeProps.flvResponse_of_prefix _ r2)
  · rintro ⟨mux, hx⟩ hpend
    rw [hx] at hc
    obtain ⟨-, -, -, h4, -, -, -, h8⟩ := hc
    rw [h4, r3 h8 hpend]

/-- The program has the input format of RTMP, wherever it lies in memory. -/
theorem takes_installed (a b c : Nat) (hab : a ≠ b) (hac : a ≠ c) (hbc : b ≠ c) (env : Site.Env) (h : env.ins = Registers.install (Format.inputs a b c)) :
    ∃ f, Format.create env.ins (ascii "-") env.junk = some f ∧ f.word = ascii "-" := by
  refine ⟨⟨b, ascii "-"⟩, ?_, rfl⟩
  rw [h]
  refine (C61_unique_partial _ ?_ ?_ ?_ (ascii "-") env.junk (by decide +kernel) _).2 ⟨by simp [Format.inputs], List.prefix_rfl⟩
  · intro x hx y hy h
    simp only [Format.inputs, List.mem_cons, List.not_mem_nil, or_false] at hx hy
    rcases hx with rfl | rfl | rfl <;> rcases hy with rfl | rfl | rfl <;>
      first | rfl | exact absurd h hab | exact absurd h hab.symm | exact absurd h hac | exact absurd h hac.symm | exact absurd h hbc | exact absurd h hbc.symm
  · intro x hx y hy h
    simp only [Format.inputs, List.mem_cons, List.not_mem_nil, or_false] at hx hy
    rcases hx with rfl | rfl | rfl <;> rcases hy with rfl | rfl | rfl <;> first | rfl | (exfalso; simp only at h; revert h; decide +kernel)
  · intro x hx
    simp only [Format.inputs, List.mem_cons, List.not_mem_nil, or_false] at hx
    rcases hx with rfl | rfl | rfl <;> simp only <;> decide +kernel

theorem edge_off {h : Conf.Module} (he : ¬ opt h "role" "edge") : Host.edge h = false := by
  have : ¬ Host.edge h = true := by
    intro hx
    apply he
    unfold Host.edge Host.text at hx
    unfold Server.opt
    cases hr : h.conf (ascii "role") with
    | none => rw [hr] at hx; revert hx; decide
    | some v =>
      rw [hr] at hx
      cases v with
      | str t => simp at hx; rw [hx]
      | _ => revert hx; simp; decide
  simpa using this

/-- **C105** (no stream). While no one publishes the stream and no pull of it that has opened goes on, a client that asks a host that does not pull to play it gets no message (but the answers to its commands, which are those of
C105_admission_partial and say that the stream starts), and nothing else happens; its connection ends.

Missing: chunk sizes announced during the negotiation (`C63_negation_chunk_size`), pulls that get
in the way of publishers (C14), and the limits of C101 and C92. -/
theorem C105_absent_partial (env : Site.Env) (site : RtmpSite) (hp : ReadsUrls site.parser) (cl : User) (ok : cl.Ok) (hc : cl.publishes = false) (c : RtmpCaller) (ms : List AmfMsg)
    (call : Calls c cl ms) (q : Req) (sent : List RtmpReply) (hq : site.arrive c = some (.stream q sent)) (he : ¬ opt q.host "role" "edge")
    (A : List Sys.Op) (hok : ∀ x ∈ requestsOf A, ReqOk x) (s : Sys) (L : Log) (run : Sys.run env Sys.init A = some (s, L)) (fits : fitsFlv L)
    (hn : ¬ pulledNow (cl.stream.host ++ cl.stream.path) L) (hno : ∀ cid, activeKey cid L ≠ some (cl.stream.host ++ cl.stream.path)) :
    ∃ conn, (s.request env q).1.conns = s.conns ++ [conn] ∧ conn.job = .done .nothing Err.ERROR_STREAM_SOURCE_NOT_EXITS ∧ (s.request env q).1.w = s.w ∧ (s.request env q).2 = [] := by
  obtain ⟨pre1, -, u, -, x1, k1, a1⟩ := arrives site hp c cl ok ms call
  have hqp : ∃ h, q = reqOf c false ms.length h u := by
    rw [a1] at hq
    split at hq
    · simp at hq
    · simp only [Option.some.injEq, RtmpArrival.stream.injEq] at hq
      exact ⟨_, by rw [← hq.1, hc]⟩
  obtain ⟨h, rfl⟩ := hqp
  have inv := run_init hok run fits
  have hfree := stream_free inv.world (not_raw ok.stream) hno hn
  have hplay : StreamHandler.play env.outs env.junk h u s.w = (.refused Err.ERROR_STREAM_SOURCE_NOT_EXITS, s.w) := by
    unfold StreamHandler.play
    rw [if_neg (by rw [edge_off (h := h) he]; simp)]
    unfold StreamHandler.attach
    rw [if_pos (by rw [k1, hfree]; simp)]
  have hr : s.request env (reqOf c false ms.length h u) = (⟨s.w, s.conns ++ [bare (.done .nothing Err.ERROR_STREAM_SOURCE_NOT_EXITS)]⟩, []) := by
    have hv : (reqOf c false ms.length h u).via = .rtmp false (c.later ms.length 128).1 (c.later ms.length 128).2 := rfl
    unfold request
    simp only [hv]
    unfold rtmpRequest
    have hplay' : StreamHandler.play env.outs env.junk (reqOf c false ms.length h u).host (reqOf c false ms.length h u).url s.w = _ := hplay
    simp only [Bool.false_eq_true, if_false, hplay', rtmpAttach]
  rw [hr]
  exact ⟨_, rfl, rfl, rfl, rfl⟩

/-- **C105** (publishing). Whatever went on before, a client that wants to publish a stream over RTMP is let to publish it if its host block takes publishers of RTMP, no one publishes the stream and no pull of it
that has opened goes on; if its host block does not, or there is the stream already, it is turned away, and nothing else happens.

Missing: chunk sizes announced during the negotiation (`C63_negation_chunk_size`), pulls that get
in the way of publishers (C14), and the limits of C101 and C92. -/
theorem C105_publisher_partial (env : Site.Env) (hi : ∃ f, Format.create env.ins (ascii "-") env.junk = some f ∧ f.word = ascii "-") (site : RtmpSite) (hp : ReadsUrls site.parser)
    (cl : User) (ok : cl.Ok) (hc : cl.publishes = true) (c : RtmpCaller) (ms : List AmfMsg) (call : Calls c cl ms) (q : Req) (sent : List RtmpReply) (hq : site.arrive c = some (.stream q sent))
    (a : Text) (ha : q.host.conf (ascii "edge_avformat") = some (.str a))
    (A : List Sys.Op) (hok : ∀ x ∈ requestsOf A, ReqOk x) (s : Sys) (L : Log) (run : Sys.run env Sys.init A = some (s, L)) (fits : fitsFlv L) :
    ∃ conn, (s.request env q).1.conns = s.conns ++ [conn] ∧
      (opt q.host "role" "source" ∧ (a = ascii "all" ∨ a = ascii "-") ∧ (∀ cid, activeKey cid L ≠ some (cl.stream.host ++ cl.stream.path)) ∧ ¬ pulledNow (cl.stream.host ++ cl.stream.path) L →
        ∃ cid, conn.job = .rtmpPub cid (c.later ms.length 128).1 (c.later ms.length 128).2 ∧
          (s.request env q).2 = [(.publish (cl.stream.host ++ cl.stream.path), .published cid)] ∧ publishedTo cid L = []) ∧
      (¬ (opt q.host "role" "source" ∧ (a = ascii "all" ∨ a = ascii "-")) ∨ (∃ cid, isStream cid (cl.stream.host ++ cl.stream.path) L) →
        (∃ e, e ≠ Err.SUCCESS ∧ conn.job = .done .nothing e) ∧ (s.request env q).2 = [] ∧ (s.request env q).1.w = s.w) := by
  obtain ⟨pre1, -, u, -, x1, k1, a1⟩ := arrives site hp c cl ok ms call
  have hqp : ∃ h, q = reqOf c true ms.length h u := by
    rw [a1] at hq
    split at hq
    · simp at hq
    · simp only [Option.some.injEq, RtmpArrival.stream.injEq] at hq
      exact ⟨_, by rw [← hq.1, hc]⟩
  obtain ⟨h, rfl⟩ := hqp
  have inv := run_init hok run fits
  obtain ⟨f0, g1, g2⟩ := hi
  have hadm := ServeProps.C74_admitted env.ins env.junk h u s.w a ha
  rw [x1, k1] at hadm
  have hreq : s.request env (reqOf c true ms.length h u) = s.rtmpRequest env (reqOf c true ms.length h u) true (c.later ms.length 128).1 (c.later ms.length 128).2 := rfl
  rw [hreq]
  unfold rtmpRequest
  show ∃ conn, _
  simp only [if_true, reqOf]
  cases hpub : StreamHandler.publish env.ins env.junk h u s.w with
  | mk out w' =>
    rw [hpub] at hadm
    cases out with
    | accepted cid f =>
      have hf : f = f0 := by
        unfold StreamHandler.publish at hpub
        split at hpub
        · simp at hpub
        · rw [x1, g1] at hpub
          simp only at hpub
          split at hpub <;> simp at hpub
          exact hpub.1.2.symm
      have hcid := (ServeProps.C74_effect env.ins env.junk h u s.w w' cid f hpub []).1
      refine ⟨_, rfl, fun _ => ⟨cid, ?_, ?_, ?_⟩, fun hn => ?_⟩
      · simp only [hf, g2, bare, if_true]
      · simp only [k1]
      · exact (inv.inv.fresh cid (by omega)).1
      · exfalso
        obtain ⟨y1, y2, -, y4⟩ := hadm.1 ⟨_, _, _, rfl⟩
        rcases hn with hn | ⟨_, hn⟩
        · exact hn ⟨y1, y2⟩
        · have := (stream_joins inv.world (not_raw ok.stream) hn).2
          rw [y4] at this
          simp at this
    | refused e =>
      refine ⟨_, rfl, fun hy => ?_, fun _ => ⟨⟨e, ?_, rfl⟩, rfl, ?_⟩⟩
      · obtain ⟨_, _, _, hx⟩ := hadm.2 ⟨hy.1, hy.2.1, ⟨_, g1⟩, stream_free inv.world (not_raw ok.stream) hy.2.2.1 hy.2.2.2⟩
        simp at hx
      · rw [(ServeProps.C74_refused env.ins env.junk h u s.w w' e hpub).2]
        repeat' split
        all_goals decide
      · exact (ServeProps.C74_refused env.ins env.junk h u s.w w' e hpub).1

/-! ## An execution -/

/-- The stream `/live/x` of `a.com`. -/
def stream : Stream := ⟨ascii "a.com", ascii "/live", ascii "x"⟩

theorem stream_ok : stream.Ok := ⟨by decide +kernel, by decide +kernel, by decide +kernel, by decide +kernel, by decide +kernel⟩

/-- A client of it. -/
def user (publishes : Bool) : User := { stream := stream, publishes := publishes }

theorem user_ok (b : Bool) : (user b).Ok := ⟨stream_ok, by intro t h; simp [user] at h, by intro t h; simp [user] at h⟩

/-- Connects, creates a stream, publishes or plays. -/
def utters (publishes : Bool) : List AmfMsg :=
  [cmd "connect" 0x3ff0000000000000 [.obj [(ascii "app", .str (ascii "live"), 0), (ascii "tcUrl", .str (ascii "rtmp://a.com/live"), 0)]], create2,
   if publishes then cmd "publish" 0x4014000000000000 [.null, .str (ascii "x"), .str (ascii "live")] else cmd "play" 0x4014000000000000 [.null, .str (ascii "x")]]

theorem utters_asks (b : Bool) : Asks (user b) (utters b) := by
  have hm : ∀ m ∈ [create2], setup m := by
    simp only [List.mem_singleton, forall_eq]
    exact ⟨_, create2_decoded, by simp, by simp⟩
  cases b
  · exact ⟨[], _, 0x3ff0000000000000, ascii "live", [create2], _, _, rfl, by simp, by decide +kernel, hm, .play (t := 0x4014000000000000) (by decide +kernel)⟩
  · exact ⟨[], _, 0x3ff0000000000000, ascii "live", [create2], _, _, rfl, by simp, by decide +kernel, hm, .publish (t := 0x4014000000000000) (y := []) (by decide +kernel)⟩

/-- A client that sends these media after it has asked. -/
def caller (b : Bool) : RtmpCaller where
  talk := utters b
  closed := Err.ERROR_IO_EOF
  later n size := if n = 3 ∧ size = 128 ∧ b then (msgs, Err.ERROR_IO_EOF) else ([], Err.ERROR_IO_EOF)

theorem calls (b : Bool) : Calls (caller b) (user b) (utters b) := ⟨rfl, (by decide : Err.ERROR_IO_EOF ≠ Err.SUCCESS), rfl, utters_asks b, [], by simp [caller]⟩

/-- A server with one host block. -/
def server : RtmpSite := ⟨readUrl, Router.new.history [ServeProps.host "source"]⟩

/-- The request that becomes of the client. -/
def asks (b : Bool) : Req :=
  match server.arrive (caller b) with
  | some (.stream q _) => q
  | _ => client "source" (.rtmp b [] 0)

theorem asks_arrive (b : Bool) : ∃ sent, server.arrive (caller b) = some (.stream (asks b) sent) := by
  obtain ⟨sent, -, h, -⟩ := C105_admission_partial server readsUrls_readUrl [ServeProps.host "source"] (by decide +kernel) rfl (caller b) (user b) (user_ok b) (utters b) (calls b)
  obtain ⟨q, hq, -⟩ := h (ServeProps.host "source") (by cases b <;> rfl)
  exact ⟨sent, by rw [hq]; simp only [asks, hq]⟩

/-- What happens after the player came. -/
def rest : List Sys.Op := [.run 1, .run 0, .run 1, .run 0]

/-- The publisher came and has published two packets. -/
def start : List Sys.Op := [.request (asks true), .run 0, .run 0]

theorem asks_ok (b : Bool) : ReqOk (asks b) := by
  obtain ⟨sent, -, h, -⟩ := C105_admission_partial server readsUrls_readUrl [ServeProps.host "source"] (by decide +kernel) rfl (caller b) (user b) (user_ok b) (utters b) (calls b)
  refine ⟨by cases b <;> decide +kernel, by cases b <;> decide +kernel, ?_, ?_⟩
  · have : (asks b).fails = [] := by cases b <;> decide +kernel
    rw [this]; simp
  · obtain ⟨q, hq, -, -, hv, -⟩ := h (ServeProps.host "source") (by cases b <;> rfl)
    have : asks b = q := by simp only [asks, hq]
    rw [this, hv]
    intro m hm x hx
    have hm : m ∈ msgs := by
      cases b
      · simp [caller] at hm
      · simpa [caller, utters] using hm
    simp only [msgs, List.mem_cons, List.not_mem_nil, or_false] at hm
    rcases hm with rfl | rfl | rfl | rfl <;> (simp at hx; subst hx; decide)

theorem meets_of (qv : Req) (hq : ReqOk qv) (P : Sys → Bool)
    (g : ((Sys.run ServeProps.site Sys.init (start ++ .request qv :: rest)).map fun x => decide (publishedTo 0 x.2 = carried ∧ P x.1 = true ∧
      (x.2.all fun x => match x.1 with | .put _ p => decide ((Flv.body p).length < 2 ^ 24) | _ => true) = true)) = some true) :
    ∃ s1 s L1 L, Meets ServeProps.site start rest (asks true) qv 0 0 s1 s L1 L ∧ publishedTo 0 L1 = carried.take 2 ∧ publishedTo 0 L = carried ∧ P s = true := by
  have h : ((Sys.run ServeProps.site Sys.init start).map fun x => decide (publishedTo 0 x.2 = carried.take 2 ∧ pullOpened (StreamHandler.key (asks true).url) x.2 = false ∧
      (x.1.conns.map fun k => match k.job with | .rtmpPub cid _ _ => some cid | _ => none) = [some 0])) = some true := by decide +kernel
  cases hr : Sys.run ServeProps.site Sys.init start with
  | none => rw [hr] at h; simp at h
  | some x =>
    cases hr' : Sys.run ServeProps.site Sys.init (start ++ .request qv :: rest) with
    | none => rw [hr'] at g; simp at g
    | some y =>
      rw [hr] at h
      rw [hr'] at g
      simp only [Option.map_some, Option.some.injEq, decide_eq_true_eq] at h g
      obtain ⟨h1, h3, h2⟩ := h
      obtain ⟨g1, g2, g5⟩ := g
      refine ⟨x.1, y.1, x.2, y.2, ⟨?_, hr, hr', ServeProps.fitsFlv_of_all g5, (apart_of_none h3).1, rfl, ?_⟩, h1, g1, g2⟩
      · intro q hq'
        have : q = asks true ∨ q = qv := by simpa [requestsOf, start, rest] using hq'
        rcases this with rfl | rfl
        · exact asks_ok _
        · exact hq
      · cases hc : x.1.conns with
        | nil => rw [hc] at h2; simp at h2
        | cons k ks =>
          rw [hc] at h2
          simp only [List.map_cons, List.cons.injEq] at h2
          have := h2.1
          split at this
          · rename_i cid ms cl hk
            simp only [Option.some.injEq] at this
            subst this
            exact ⟨k, ms, cl, rfl, hk⟩
          · simp at this

/-- The hypotheses of C105 are met, and the player has got all that was published. -/
example : ∃ s1 s L1 L, Meets ServeProps.site start rest (asks true) (asks false) 0 0 s1 s L1 L ∧ publishedTo 0 L1 = carried.take 2 ∧ publishedTo 0 L = carried ∧
    decide (s.conns.map shown = [([2, 0], [], []), ([1, 0], msgs.tail, [])]) = true :=
  meets_of _ (asks_ok false) _ (by decide +kernel)

/-- A player of `http://a.com/live/x.flv`. -/
def viewer : Viewer := { stream := stream }

/-- Its request. -/
def views : Req := { ServeProps.get "source" "GET" "flv" with url := Names.http readUrl (ascii "GET") viewer.target [(ascii "Host", ascii "a.com")] }

example : viewer.Ok ∧ Url.lookup (ascii "Host") [(ascii "Host", ascii "a.com")] = viewer.stream.host ++ Spec.Names.opt 58 viewer.port ∧
    ∃ s1 s L1 L, Meets ServeProps.site start rest (asks true) views 0 0 s1 s L1 L ∧ publishedTo 0 L1 = carried.take 2 ∧ publishedTo 0 L = carried ∧
      decide (s.conns.map shown = [([2, 0], [], []), ([3, 0], [], flvResponse ServeProps.site.reason carried)]) = true :=
  ⟨⟨stream_ok, by intro t h; simp [viewer] at h, by intro t h; simp [viewer] at h⟩, by decide +kernel,
    meets_of _ ⟨by decide +kernel, by decide +kernel, by simp [views, ServeProps.get], by simp [views, ServeProps.get]⟩ _ (by decide +kernel)⟩

/-- The program has the formats; the publisher comes first, or while it publishes already. -/
example : Plays ServeProps.site ∧ (∃ f, Format.create ServeProps.site.ins (ascii "-") ServeProps.site.junk = some f ∧ f.word = ascii "-") ∧
    (asks true).host.conf (ascii "edge_avformat") = some (.str (ascii "all")) ∧ opt (asks true).host "role" "source" ∧
    Sys.run ServeProps.site Sys.init [] = some (Sys.init, []) ∧ (∀ cid, activeKey cid ([] : Log) ≠ some (stream.host ++ stream.path)) ∧
    ((Sys.run ServeProps.site Sys.init start).map fun x => activeKey 0 x.2) = some (some (stream.host ++ stream.path)) := by
  refine ⟨⟨⟨⟨2, ascii "-"⟩, by decide +kernel, rfl⟩, ⟨⟨1, ascii "flv"⟩, by decide +kernel, rfl⟩⟩, ⟨⟨2, ascii "-"⟩, by decide +kernel, rfl⟩, by decide +kernel, (by decide +kernel : (asks true).host.conf (ascii "role") = some (.str (ascii "source"))), rfl, ?_, by decide +kernel⟩
  intro cid
  simp [activeKey, activeKeyFrom]

/-- A player comes before anyone has published. -/
example : ∃ sent conn, server.arrive (caller false) = some (.stream (asks false) sent) ∧ (Sys.init.request ServeProps.site (asks false)).1.conns = [conn] ∧
    conn.job = .done .nothing Err.ERROR_STREAM_SOURCE_NOT_EXITS := by
  obtain ⟨sent, hs⟩ := asks_arrive false
  obtain ⟨conn, h1, h2, -⟩ := C105_absent_partial ServeProps.site server readsUrls_readUrl (user false) (user_ok false) rfl (caller false) (utters false) (calls false) (asks false) sent hs (by unfold Server.opt; decide +kernel)
    [] (by simp [requestsOf]) Sys.init [] rfl (fun cid p hp => by simp [publishedTo] at hp) (by rintro ⟨cid, h⟩; simp at h) (fun cid h => by simp [activeKey, activeKeyFrom] at h)
  exact ⟨sent, conn, hs, h1, h2⟩

end Sps.RtmpConn
