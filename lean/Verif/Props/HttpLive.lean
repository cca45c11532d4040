import Verif.Lemmas.HttpLive
/-!
# C106: live streams over HTTP, from the bytes of the request to those of the response
-/
namespace Sps.HttpLive
open Sps.RtmpConn Spec Rtmp Sys StreamProps World Spec.Http Spec.HttpConn Spec.HttpLive Spec.RtmpConn Spec.RtmpMsgs RtmpServe Spec.Server Sps.HttpConn

/-- **C106** (phases). If the model says that a request goes to the stream handler, then this is the call of the stream handler in the phases of the connection (C99). -/
theorem C106_phases (s : HttpSite) (mem tag : List UInt8) (c : Sps.HttpConn) (q : Req) (h : s.arrive mem tag c = .ok (.stream q)) :
    Phase.handler s.phases c = Phase.handler [s.streaming q.host q.url] { c with io := q.io, req := some q.url } ∧ q.fails = c.snk.fails ∧ q.mem = mem ∧ q.tag = tag ∧ q.via = .http := by
  unfold HttpSite.arrive at h
  cases hp : HttpSite.parse s.parsers c with
  | error x => rw [hp] at h; simp at h
  | ok x =>
    obtain ⟨ret, c'⟩ := x
    rw [hp] at h
    simp only at h
    have hsnk : ∃ io r, c' = { c with io := io, req := r } := by
      unfold HttpSite.parse at hp
      split at hp
      · simp at hp
      · simp only [Except.ok.injEq, Prod.mk.injEq] at hp
        exact ⟨_, c.req, hp.2.symm⟩
      · simp only at hp
        split at hp
        · simp only [Except.ok.injEq, Prod.mk.injEq] at hp
          exact ⟨_, c.req, hp.2.symm⟩
        · simp only [Except.ok.injEq, Prod.mk.injEq] at hp
          exact ⟨_, _, hp.2.symm⟩
    obtain ⟨io, r, rfl⟩ := hsnk
    split at h
    · simp at h
    · rename_i hret
      have hret : ret = Phase.CONTINUE := Decidable.not_not.1 hret
      subst hret
      cases r with
      | none => simp at h
      | some u =>
        simp only at h
        cases hf : s.router.find u.host with
        | none => rw [hf] at h; simp at h
        | some hst =>
          rw [hf] at h
          simp only at h
          cases ha : Host.adapter hst with
          | streaming =>
            rw [ha] at h
            simp only [Except.ok.injEq, HttpArrival.stream.injEq] at h
            subst h
            refine ⟨?_, rfl, rfl, rfl, rfl⟩
            have hr : s.route { c with io := io, req := some u } = s.streaming hst u { c with io := io, req := some u } := by
              unfold HttpSite.route HttpSite.adapter
              simp only [hf, ha]
            unfold HttpSite.phases
            rw [Phase.handler, hp]
            simp only
            rw [if_neg (by decide), if_pos trivial, Phase.handler, Phase.handler, hr]
          | api => rw [ha] at h; simp at h
          | proxying => rw [ha] at h; simp at h

/-- **C106** (admission). A request for `/APP/NAME.flv` of HOST, in whatever pieces it arrives, is handed to the stream handler of the host block that is to serve HOST if this is a `stream` host, as a request for
the stream that RTMP and SRT clients know as HOST/APP/NAME. A publisher's body is what the demuxer will read.

Missing: other spellings of field names (C46), headers above 2048 bytes (C42), pulls that get in
the way of publishers (C14, C16), and a response for publishers (`C75_negation_post`). -/
theorem C106_admission_partial (s : HttpSite) (hp : ReadsSends s.parsers) (hs : List Conf.Module) (hz : ∀ h ∈ hs, (0 : UInt8) ∉ h.name) (hr : s.router = Router.new.history hs)
    (a : Send) (st : Names.Stream) (af : a.For st) (c : Sps.HttpConn) (bytes : List UInt8) (e : Err) (ha : Arrives c.io (a.head ++ bytes) e) (mem tag : List UInt8) :
    (choose hs st.host = none → s.arrive mem tag c = .ok .unknown) ∧
    (∀ h, choose hs st.host = some h → opt h "type" "proxy" → s.arrive mem tag c = .ok (.other h)) ∧
    (∀ h, choose hs st.host = some h → opt h "type" "stream" → ∃ q, s.arrive mem tag c = .ok (.stream q) ∧ q.host = h ∧ StreamHandler.key q.url = st.host ++ st.path ∧ q.url.ext = ascii "flv" ∧
      q.url.method = a.method ∧ ∀ b closed, a.Brings bytes e b closed → Sends q b closed) := by
  obtain ⟨io', h1, h2⟩ := parse_send hp af.ok ha
  obtain ⟨u, h3, h4, h5, h6⟩ := send_url hp af.ok
  rw [h3] at h1
  have hfind : s.router.find u.host = choose hs st.host := by rw [hr, h4, af.host]; exact C51_find hs hz st.host
  have hl := (send_fields af.ok).1
  rw [af.host] at hl
  have ht : a.target = st.path ++ ascii "." ++ ascii "flv" ++ Names.opt 63 a.query := by rw [Send.target, af.path]
  have hkey : StreamHandler.key u = st.host ++ st.path := by
    rw [← h3, ht]
    exact Sps.Names.C80_http s.parsers.url hp.url st af.stream (ascii "flv") ⟨by decide, by decide, by decide, by decide, by decide⟩ a.port a.query af.ok.port af.ok.query a.method a.fields hl
  have hext : u.ext = ascii "flv" := by
    have := (viewer_url s.parsers.url hp.url ⟨st, a.port, a.query⟩ ⟨af.stream, af.ok.port, af.ok.query⟩ a.method (method_ne af.ok) a.fields hl).2
    rw [← h3, ht]
    exact this
  refine ⟨fun hc => ?_, fun h hc ho => ?_, fun h hc ho => ?_⟩
  · unfold HttpSite.arrive
    rw [h1]
    simp only [ne_eq, not_true_eq_false, if_false, hfind, hc]
  · unfold HttpSite.arrive
    rw [h1]
    simp only [ne_eq, not_true_eq_false, if_false, hfind, hc, (C71_dispatch_partial h).2 ho]
  · refine ⟨{ host := h, url := u, io := io', fails := c.snk.fails, mem := mem, tag := tag }, ?_, rfl, hkey, hext, h5, fun b closed hb => send_body af.ok h6 hb h2⟩
    unfold HttpSite.arrive
    rw [h1]
    simp only [ne_eq, not_true_eq_false, if_false, hfind, hc, (C71_dispatch_partial h).1 ho]

/-- What the arrival of a request for a stream gives. -/
theorem arrived {s : HttpSite} (hp : ReadsSends s.parsers) {a : Send} {st : Names.Stream} (af : a.For st) {c : Sps.HttpConn} {bytes : List UInt8} {e : Err} (ha : Arrives c.io (a.head ++ bytes) e)
    {mem tag : List UInt8} {q : Req} (hq : s.arrive mem tag c = .ok (.stream q)) :
    StreamHandler.key q.url = st.host ++ st.path ∧ q.url.ext = ascii "flv" ∧ q.url.method = a.method ∧ q.mem = mem ∧ q.fails = c.snk.fails ∧ q.via = .http ∧
      ∀ b closed, a.Brings bytes e b closed → Sends q b closed := by
  obtain ⟨io', h1, h2⟩ := parse_send hp af.ok ha
  obtain ⟨u, h3, h4, h5, h6⟩ := send_url hp af.ok
  rw [h3] at h1
  have hl := (send_fields af.ok).1
  rw [af.host] at hl
  have ht : a.target = st.path ++ ascii "." ++ ascii "flv" ++ Names.opt 63 a.query := by rw [Send.target, af.path]
  have hkey : StreamHandler.key u = st.host ++ st.path := by
    rw [← h3, ht]
    exact Sps.Names.C80_http s.parsers.url hp.url st af.stream (ascii "flv") ⟨by decide, by decide, by decide, by decide, by decide⟩ a.port a.query af.ok.port af.ok.query a.method a.fields hl
  have hext : u.ext = ascii "flv" := by
    have := (viewer_url s.parsers.url hp.url ⟨st, a.port, a.query⟩ ⟨af.stream, af.ok.port, af.ok.query⟩ a.method (method_ne af.ok) a.fields hl).2
    rw [← h3, ht]
    exact this
  unfold HttpSite.arrive at hq
  rw [h1] at hq
  simp only [ne_eq, not_true_eq_false, if_false] at hq
  cases hf : s.router.find u.host with
  | none => rw [hf] at hq; simp at hq
  | some h =>
    rw [hf] at hq
    simp only at hq
    cases had : Host.adapter h with
    | api => rw [had] at hq; simp at hq
    | proxying => rw [had] at hq; simp at hq
    | streaming =>
      rw [had] at hq
      simp only [Except.ok.injEq, HttpArrival.stream.injEq] at hq
      subst hq
      exact ⟨hkey, hext, h5, rfl, rfl, rfl, fun b closed hb => send_body af.ok h6 hb h2⟩

/-- Something happens (`A`), then a request comes, then anything happens (`D`). -/
structure Comes (env : Site.Env) (A D : List Sys.Op) (q : Req) (s1 s : Sys) (L1 L : Log) : Prop where
  ok : ∀ x ∈ requestsOf (A ++ .request q :: D), ReqOk x
  before : Sys.run env Sys.init A = some (s1, L1)
  run : Sys.run env Sys.init (A ++ .request q :: D) = some (s, L)
  fits : fitsFlv L

theorem Comes.split {env : Site.Env} {A D : List Sys.Op} {q : Req} {s1 s : Sys} {L1 L : Log} (m : Comes env A D q s1 s L1 L) :
    ∃ L2, Sys.run env (s1.request env q).1 D = some (s, L2) ∧ L = L1 ++ ((s1.request env q).2 ++ L2) ∧ SInv env (requestsOf A) L1 s1 ∧
      SInv env (requestsOf (A ++ .request q :: D)) L s := by
  obtain ⟨s1', L1', L2, e1, e2, e3⟩ := run_split env A (.request q :: D) Sys.init m.run
  rw [m.before] at e1
  cases e1
  simp only [Sys.run, Sys.step, Option.bind_eq_bind, Option.bind_some] at e2
  cases hr : Sys.run env (s1.request env q).1 D with
  | none => rw [hr] at e2; simp at e2
  | some x =>
    obtain ⟨s2, l2⟩ := x
    rw [hr] at e2
    simp at e2
    obtain ⟨rfl, rfl⟩ := e2
    refine ⟨l2, rfl, e3, run_init (fun x hq => m.ok x (by rw [requestsOf_append]; exact List.mem_append_left _ hq)) m.before (fitsFlv_left (e3 ▸ m.fits)), run_init m.ok m.run m.fits⟩

theorem active_mem {cid : Nat} {k : Key} : ∀ (L : Log) (acc : Option Key), activeKeyFrom cid acc L = some k → acc = some k ∨ ∃ op, (op, WOut.published cid) ∈ L := by
  intro L
  induction L with
  | nil => intro acc h; exact .inl h
  | cons x L ih =>
    intro acc h
    have step : ∀ acc', (acc' = some k → acc = some k ∨ ∃ op, (op, WOut.published cid) ∈ x :: L) → activeKeyFrom cid acc' L = some k →
        acc = some k ∨ ∃ op, (op, WOut.published cid) ∈ x :: L := by
      intro acc' h1 h2
      rcases ih acc' h2 with h3 | ⟨op, h3⟩
      · exact h1 h3
      · exact .inr ⟨op, List.mem_cons_of_mem _ h3⟩
    unfold activeKeyFrom at h
    split at h
    · rename_i heq; simp at heq
    · rename_i heq
      simp only [List.cons.injEq] at heq
      obtain ⟨rfl, rfl⟩ := heq
      refine step _ (fun h1 => ?_) h
      split at h1
      · rename_i hn; subst hn; exact .inr ⟨_, List.mem_cons_self ..⟩
      · exact .inl h1
    · rename_i heq
      simp only [List.cons.injEq] at heq
      obtain ⟨rfl, rfl⟩ := heq
      refine step _ (fun h1 => ?_) h
      split at h1
      · rename_i hn; subst hn; exact .inr ⟨_, List.mem_cons_self ..⟩
      · exact .inl h1
    · rename_i heq
      simp only [List.cons.injEq] at heq
      obtain ⟨rfl, rfl⟩ := heq
      refine step _ (fun h1 => ?_) h
      split at h1
      · simp at h1
      · exact .inl h1
    · rename_i heq
      simp only [List.cons.injEq] at heq
      obtain ⟨rfl, rfl⟩ := heq
      exact step _ .inl h

theorem stream_made {cid : Nat} {k : Key} {L : Log} (h : isStream cid k L) : ∃ op, (op, WOut.published cid) ∈ L := by
  rcases h with ⟨h, -⟩ | ⟨l1, e, l2, h, -⟩
  · rcases active_mem L none h with h | h
    · simp at h
    · exact h
  · exact ⟨.edgeOpen e, by rw [h]; simp⟩

theorem Comes.joins {env : Site.Env} {A D : List Sys.Op} {q : Req} {s1 s : Sys} {L1 L : Log} (m : Comes env A D q s1 s L1 L) {cid : Nat}
    (hk : isStream cid (StreamHandler.key q.url) L1) (hr : plainKey (StreamHandler.key q.url) = true) :
    (s1.w.play (StreamHandler.key q.url)).2 = .joined s1.w.clients.length cid ∧ (s1.w.reg.find (StreamHandler.key q.url)).isSome ∧ ∃ op, (op, .published cid) ∈ L1 := by
  obtain ⟨L2, e1, e2, h1, h2⟩ := m.split
  obtain ⟨a, b⟩ := Sys.stream_joins h1.world hr hk
  exact ⟨a, b, stream_made hk⟩

/-- **C106** (HTTP player). While there is a stream (`isStream`: someone publishes it, over whatever protocol, or a pull of it goes on), a client requests `/APP/NAME.flv` of HOST: whatever else goes on before, meanwhile and after that, it is sent a response
with an FLV file of the start-up packets among those published when it came, and then of those published since, in order: all of them if it plays and has read its queue, an initial part otherwise.

Missing: other spellings of field names (C46), headers above 2048 bytes (C42), pulls that get in
the way of publishers (C14, C16), and a response for publishers (`C75_negation_post`). -/
theorem C106_player_partial (env : Site.Env) (hf : Plays env) (site : HttpSite) (hp : ReadsSends site.parsers) (player : Send) (st : Names.Stream) (for_ : player.For st)
    (hm : player.method ≠ ascii "POST") (c : Sps.HttpConn) (bytes : List UInt8) (e : Err) (ha : Arrives c.io (player.head ++ bytes) e) (mem tag : List UInt8) (q : Req)
    (hq : site.arrive mem tag c = .ok (.stream q))
    (A D : List Sys.Op) (s1 s : Sys) (L1 L : Log) (m : Comes env A D q s1 s L1 L) (cid : Nat) (hk : isStream cid (st.host ++ st.path) L1) :
    ∃ conn n after, s.conns[(requestsOf A).length]? = some conn ∧ ((∃ mux, conn.job = .view n mux) ∨ ∃ e, conn.job = .done (.player n) e) ∧
      publishedTo cid L = publishedTo cid L1 ++ after ∧
      conn.snk.out <+: flvResponse env.reason (startup (publishedTo cid L1) ++ after) ∧
      ((∃ mux, conn.job = .view n mux) → pendingOf s.w n = [] → conn.snk.out = flvResponse env.reason (startup (publishedTo cid L1) ++ after)) := by
  obtain ⟨k1, k2, k3, -, -, k5, -⟩ := arrived hp for_ ha hq
  obtain ⟨j1, j2, op, j3⟩ := m.joins (by rw [k1]; exact hk) (by rw [k1]; exact Names.not_raw for_.stream)
  obtain ⟨L2, e1, e2, i1, i2⟩ := m.split
  obtain ⟨f, f1, f2⟩ := hf.flv
  obtain ⟨k0, l0, g1, g2, g3⟩ := http_joins (env := env) (s := s1) (q := q) k5 (by rw [k3]; exact hm) j1 j2 (f := f) (by rw [k2]; exact f1) f2
  rw [g2] at e2
  have hget : (s1.request env q).1.conns[(requestsOf A).length]? = some k0 := by
    rw [g1, ← i1.len]
    simp
  obtain ⟨conn, c1, c2⟩ := run_kind env D e1 hget g3
  have hplays : (∃ mux, conn.job = .view s1.w.clients.length mux) ∨ ∃ e, conn.job = .done (.player s1.w.clients.length) e := by
    obtain ⟨job, r, snk⟩ := conn
    simp only at c2
    cases job with
    | view c mux => simp [kind] at c2; subst c2; exact .inl ⟨mux, rfl⟩
    | done was e =>
      cases was <;> simp [kind] at c2
      subst c2
      exact .inr ⟨e, rfl⟩
    | _ => simp [kind] at c2
  have e2' : L = L1 ++ (.play (StreamHandler.key q.url), .joined s1.w.clients.length cid) :: (l0 ++ L2) := by rw [e2]; rfl
  subst e2'
  obtain ⟨after, r1, r2, r3⟩ := received_at i1.world rfl i2 j3
  have hlt := (List.getElem?_eq_some_iff.1 c1).1
  rw [i2.len] at hlt
  have hc := i2.ok _ conn _ c1 (List.getElem?_eq_getElem hlt)
  unfold ConnOk at hc
  refine ⟨conn, _, after, c1, hplays, r1, ?_, ?_⟩
  · rcases hplays with ⟨mux, hx⟩ | ⟨e, hx⟩
    · rw [hx] at hc
      obtain ⟨-, -, -, h4, -⟩ := hc
      rw [h4]
      exact ServeProps.flvResponse_of_prefix _ r2
    · rw [hx] at hc
      exact hc.2.trans (ServeProps.flvResponse_of_prefix _ r2)
  · rintro ⟨mux, hx⟩ hpend
    rw [hx] at hc
    obtain ⟨-, -, -, h4, -, -, -, h8⟩ := hc
    rw [h4, r3 h8 hpend]

/-- **C106** (no stream). While no one publishes the stream and no pull of it that has opened goes on, a player of a host that does not pull is answered 404, and nothing else happens.

Missing: other spellings of field names (C46), headers above 2048 bytes (C42), pulls that get in
the way of publishers (C14, C16), and a response for publishers (`C75_negation_post`). -/
theorem C106_absent_partial (env : Site.Env) (site : HttpSite) (hp : ReadsSends site.parsers) (player : Send) (st : Names.Stream) (for_ : player.For st)
    (hm : player.method ≠ ascii "POST") (c : Sps.HttpConn) (bytes : List UInt8) (e : Err) (ha : Arrives c.io (player.head ++ bytes) e) (hc : c.snk.fails = []) (mem tag : List UInt8) (q : Req)
    (hq : site.arrive mem tag c = .ok (.stream q)) (he : ¬ opt q.host "role" "edge")
    (A : List Sys.Op) (hok : ∀ x ∈ requestsOf A, ReqOk x) (s : Sys) (L : Log) (run : Sys.run env Sys.init A = some (s, L)) (fits : fitsFlv L)
    (hn : ¬ pulledNow (st.host ++ st.path) L) (hno : ∀ cid, activeKey cid L ≠ some (st.host ++ st.path)) :
    ∃ conn, (s.request env q).1.conns = s.conns ++ [conn] ∧ conn.job = .done .nothing Err.SUCCESS ∧ conn.snk.out = refusal "404" (env.reason 404) ∧
      (s.request env q).1.w = s.w ∧ (s.request env q).2 = [] := by
  obtain ⟨k1, k2, k3, -, k4, k5, -⟩ := arrived hp for_ ha hq
  have inv := run_init hok run fits
  have hfree := Sys.stream_free inv.world (Names.not_raw for_.stream) hno hn
  rw [← k1] at hfree
  rw [ServeProps.C75_absent_partial env s q k5 (by rw [k3]; exact hm) (by rw [k4, hc]) hfree he]
  exact ⟨_, rfl, rfl, rfl, rfl, rfl⟩

/-- **C106** (publishing). Whatever went on before, a client that posts to a stream is let to publish it if its host block takes publishers of FLV, no one publishes the stream and no pull of it that has opened goes on; players
will then find it. If its host block does not, or there is the stream already, it is turned away, and nothing else happens.

Missing: other spellings of field names (C46), headers above 2048 bytes (C42), pulls that get in
the way of publishers (C14, C16), and a response for publishers (`C75_negation_post`). -/
theorem C106_publisher_partial (env : Site.Env) (hi : ∃ f, Format.create env.ins (ascii "flv") env.junk = some f ∧ f.word = ascii "flv") (site : HttpSite) (hp : ReadsSends site.parsers)
    (publisher : Send) (st : Names.Stream) (for_ : publisher.For st) (hm : publisher.method = ascii "POST") (c : Sps.HttpConn) (bytes : List UInt8) (e : Err)
    (ha : Arrives c.io (publisher.head ++ bytes) e) (mem tag : List UInt8) (q : Req) (hq : site.arrive mem tag c = .ok (.stream q))
    (a : Text) (hav : q.host.conf (ascii "edge_avformat") = some (.str a))
    (A : List Sys.Op) (hok : ∀ x ∈ requestsOf A, ReqOk x) (s : Sys) (L : Log) (run : Sys.run env Sys.init A = some (s, L)) (fits : fitsFlv L) :
    ∃ conn, (s.request env q).1.conns = s.conns ++ [conn] ∧
      (opt q.host "role" "source" ∧ (a = ascii "all" ∨ a = ascii "flv") ∧ (∀ cid, activeKey cid L ≠ some (st.host ++ st.path)) ∧ ¬ pulledNow (st.host ++ st.path) L →
        ∃ cid rd, conn.job = .flvPub cid rd false ∧ activeKey cid (L ++ (s.request env q).2) = some (st.host ++ st.path) ∧ publishedTo cid L = []) ∧
      (¬ (opt q.host "role" "source" ∧ (a = ascii "all" ∨ a = ascii "flv")) ∨ (∃ cid, isStream cid (st.host ++ st.path) L) →
        (∃ e, conn.job = .done .nothing e) ∧ (s.request env q).2 = [] ∧ (s.request env q).1.w = s.w) := by
  obtain ⟨k1, k2, k3, -, k4, k5, -⟩ := arrived hp for_ ha hq
  have inv := run_init hok run fits
  obtain ⟨f0, g1, g2⟩ := hi
  have hadm := ServeProps.C74_admitted env.ins env.junk q.host q.url s.w a hav
  rw [k1, k2] at hadm
  unfold request
  simp only [k5]
  unfold httpRequest
  rw [if_pos (by rw [k3, hm])]
  cases hpub : StreamHandler.publish env.ins env.junk q.host q.url s.w with
  | mk out w' =>
    rw [hpub] at hadm
    cases out with
    | accepted cid f =>
      have hf : f = f0 := by
        unfold StreamHandler.publish at hpub
        split at hpub
        · simp at hpub
        · rw [k2, g1] at hpub
          simp only at hpub
          split at hpub <;> simp at hpub
          exact hpub.1.2.symm
      have hcid := (ServeProps.C74_effect env.ins env.junk q.host q.url s.w w' cid f hpub []).1
      refine ⟨_, rfl, fun _ => ⟨cid, SReader.on q.mem (HttpStream.body q), ?_, ?_, ?_⟩, fun hn => ?_⟩
      · simp only [hf, g2, if_true]
      · simp only [k1]
        unfold activeKey
        have happ : ∀ (l1 l2 : Log) (acc : Option Key), activeKeyFrom cid acc (l1 ++ l2) = activeKeyFrom cid (activeKeyFrom cid acc l1) l2 := by
          intro l1 l2
          induction l1 with
          | nil => intro acc; rfl
          | cons x l1 ih =>
            intro acc
            obtain ⟨o, r⟩ := x
            cases o <;> cases r <;> simp only [List.cons_append, activeKeyFrom] <;> exact ih _
        rw [happ]
        simp [activeKeyFrom]
      · exact (inv.inv.fresh cid (by omega)).1
      · exfalso
        obtain ⟨y1, y2, -, y4⟩ := hadm.1 ⟨_, _, _, rfl⟩
        rcases hn with hn | ⟨_, hn⟩
        · exact hn ⟨y1, y2⟩
        · have := (Sys.stream_joins inv.world (Names.not_raw for_.stream) hn).2
          rw [y4] at this
          simp at this
    | refused e =>
      refine ⟨_, rfl, fun hy => ?_, fun _ => ⟨?_, rfl, ?_⟩⟩
      · obtain ⟨_, _, _, hx⟩ := hadm.2 ⟨hy.1, hy.2.1, ⟨_, g1⟩, Sys.stream_free inv.world (Names.not_raw for_.stream) hy.2.2.1 hy.2.2.2⟩
        simp at hx
      · exact ⟨_, rfl⟩
      · exact (ServeProps.C74_refused env.ins env.junk q.host q.url s.w w' e hpub).1

theorem packets_take (cap : Nat) (closed : Err) : ∀ (n m : Nat), n ≤ m → ∀ s : List UInt8, (Flv.packets cap closed n s).1 = (Flv.packets cap closed m s).1.take n := by
  intro n
  induction n with
  | zero => intro m _ s; simp [Flv.packets]
  | succ n ih =>
    intro m hm s
    obtain ⟨m', rfl⟩ : ∃ m', m = m' + 1 := ⟨m - 1, by omega⟩
    rw [Flv.packets, Flv.packets]
    cases hx : Flv.firstTag cap closed s with
    | mk o r =>
      cases o with
      | accept p => simp only [List.take_succ_cons, ih m' (by omega) r]
      | reject e => simp
      | tooShort es => simp

/-- **C106** (what is published). A client that was let to publish a stream publishes the packets of the FLV file that its body is, in whatever framing, chunks and pieces it arrives: an initial part while it
publishes, and then all; while it publishes, it is the publisher of the stream. For a file of packets that FLV can carry these are those packets.

Missing: other spellings of field names (C46), headers above 2048 bytes (C42), pulls that get in
the way of publishers (C14, C16), and a response for publishers (`C75_negation_post`). -/
theorem C106_published_partial (env : Site.Env) (site : HttpSite) (hp : ReadsSends site.parsers) (publisher : Send) (st : Names.Stream) (for_ : publisher.For st)
    (c : Sps.HttpConn) (bytes b : List UInt8) (e closed : Err) (ha : Arrives c.io (publisher.head ++ bytes) e) (hb : publisher.Brings bytes e b closed) (mem tag : List UInt8) (q : Req)
    (hq : site.arrive mem tag c = .ok (.stream q))
    (ops : List Sys.Op) (hok : ∀ x ∈ requestsOf ops, ReqOk x) (s : Sys) (L : Log) (run : Sys.run env Sys.init ops = some (s, L)) (fits : fitsFlv L)
    (i : Nat) (asked : (requestsOf ops)[i]? = some q) (conn : Conn) (hi : s.conns[i]? = some conn) (cid : Nat) :
    ((∃ rd hd, conn.job = .flvPub cid rd hd) → activeKey cid L = some (st.host ++ st.path) ∧ ∃ n, publishedTo cid L = (Flv.file mem.length closed n b).1) ∧
    ((∃ e, conn.job = .done (.publisher cid) e) → ∃ n0, ∀ n, n0 ≤ n → publishedTo cid L = (Flv.file mem.length closed n b).1) ∧
    (∀ ps, b = Flv.fileHeader ++ Flv.chain 0 ps → (∀ p ∈ ps, Flv.Supported mem.length p) →
      ((∃ rd hd, conn.job = .flvPub cid rd hd) → publishedTo cid L <+: ps) ∧ ((∃ e, conn.job = .done (.publisher cid) e) → publishedTo cid L = ps)) := by
  obtain ⟨k1, k2, k3, k4, -, k5, k6⟩ := arrived hp for_ ha hq
  have hs := k6 b closed hb
  have inv := run_init hok run fits
  have h1 : (∃ rd hd, conn.job = .flvPub cid rd hd) → ∃ n, publishedTo cid L = (Flv.file mem.length closed n b).1 := by
    intro h
    obtain ⟨-, n, hn⟩ := ServeProps.C77_published hok run fits hi asked hs (.inl h)
    exact ⟨n, by rw [hn, uploaded, k4]⟩
  have h2 : (∃ e, conn.job = .done (.publisher cid) e) → ∃ n0, ∀ n, n0 ≤ n → publishedTo cid L = (Flv.file mem.length closed n b).1 := by
    rintro ⟨e, h⟩
    obtain ⟨n0, hn⟩ := ServeProps.C77_complete hok run fits hi asked hs h
    exact ⟨n0, fun n h => by rw [hn n h, uploaded, k4]⟩
  have hfile : ∀ ps, b = Flv.fileHeader ++ Flv.chain 0 ps → (∀ p ∈ ps, Flv.Supported mem.length p) → ∀ n, (Flv.file mem.length closed n b).1 = ps.take n := by
    intro ps hbs hsup n
    have hch := FlvDemuxer.packets_chain mem.length closed ps 0 hsup n
    have hlen : Flv.fileHeader.length = 9 := by decide
    subst hbs
    unfold Flv.file
    rw [if_neg (by simp [hlen]), if_neg (by rw [List.take_append_of_le_length (by omega)]; decide),
      List.drop_append_of_le_length (by omega), List.drop_of_length_le (by omega), List.nil_append, packets_take _ _ n (ps.length + (n + 1)) (by omega), hch]
  refine ⟨fun h => ⟨?_, h1 h⟩, h2, fun ps hbs hsup => ⟨fun h => ?_, fun h => ?_⟩⟩
  · obtain ⟨rd, hd, hj⟩ := h
    have hc := inv.ok i conn q hi asked
    unfold ConnOk at hc
    rw [hj] at hc
    obtain ⟨hm, ⟨key, hv⟩, -⟩ := hc
    have hK : InvK s.w L := by
      have := run_invK (L.map Prod.fst) InvK.init
      rw [inv.world] at this
      simpa using this
    have hkey : key = StreamHandler.key q.url := by
      have := (hK.made cid (StreamHandler.key q.url)).1 (.inl hm)
      simp only [keyOf] at this
      simp only [view] at hv
      cases hcc : s.w.caches[cid]? with
      | none => rw [hcc] at hv; simp at hv
      | some c =>
        rw [hcc] at hv this
        simp at hv this
        rw [← hv.1, this]
    have := inv.inv2.active cid
    rw [hv] at this
    simp at this
    rw [this, hkey, k1]
  · obtain ⟨n, hn⟩ := h1 h
    rw [hn, hfile ps hbs hsup n]
    exact List.take_prefix _ _
  · obtain ⟨n0, hn⟩ := h2 h
    rw [hn (max n0 ps.length) (by omega), hfile ps hbs hsup]
    exact List.take_of_length_le (by omega)

/-- **C106** (RTMP player). While there is a stream, as above, a client asks for it over RTMP: it is sent one message for each of the start-up packets among those published when it
came, and then for each of those published since, in order, that carries it: all of them if it plays and has read its queue, an initial part otherwise.

Missing: other spellings of field names (C46), headers above 2048 bytes (C42), pulls that get in
the way of publishers (C14, C16), and a response for publishers (`C75_negation_post`). -/
theorem C106_rtmp_player_partial (env : Site.Env) (hf : Plays env) (site : RtmpSite) (hp : Names.ReadsUrls site.parser) (player : User) (ok : player.Ok) (h2 : player.publishes = false)
    (cv : RtmpCaller) (mv : List AmfMsg) (callv : Calls cv player mv) (q : Req) (sv : List RtmpReply) (av : site.arrive cv = some (.stream q sv))
    (A D : List Sys.Op) (s1 s : Sys) (L1 L : Log) (m : Comes env A D q s1 s L1 L) (cid : Nat) (hk : isStream cid (player.stream.host ++ player.stream.path) L1)
    (hsup : ∀ p ∈ publishedTo cid L, Supported p) :
    ∃ conn n sent after ps, s.conns[(requestsOf A).length]? = some conn ∧ plays conn n sent ∧ publishedTo cid L = publishedTo cid L1 ++ after ∧
      List.Forall₂ Carries ps sent ∧ ps <+: startup (publishedTo cid L1) ++ after ∧ (isPlaying conn → pendingOf s.w n = [] → ps = startup (publishedTo cid L1) ++ after) := by
  obtain ⟨pre2, -, u2, -, x2, k2, a2⟩ := arrives site hp cv player ok mv callv
  have hqv : ∃ h, q = reqOf cv false mv.length h u2 := by
    rw [a2] at av
    split at av
    · simp at av
    · simp only [Option.some.injEq, RtmpArrival.stream.injEq] at av
      exact ⟨_, by rw [← av.1, h2]⟩
  obtain ⟨hv', rfl⟩ := hqv
  have k2 : StreamHandler.key (reqOf cv false mv.length hv' u2).url = player.stream.host ++ player.stream.path := k2
  obtain ⟨j1, j2, op, j3⟩ := m.joins (by rw [k2]; exact hk) (by rw [k2]; exact Names.not_raw ok.stream)
  obtain ⟨L2, e1, e2, i1, i2⟩ := m.split
  obtain ⟨f, f1, f2⟩ := hf.rtmp
  have hreq := rtmp_joins (env := env) (s := s1) (q := reqOf cv false mv.length hv' u2) (ms := (cv.later mv.length 128).1) (cl := (cv.later mv.length 128).2) rfl j1 j2
    (f := f) (by show Format.create env.outs u2.ext env.junk = some f; rw [x2]; exact f1) f2
  rw [hreq] at e1 e2
  simp only at e1 e2
  have hget : (s1.conns ++ [bare (.rtmpView s1.w.clients.length { out := [], fails := (reqOf cv false mv.length hv' u2).fails })])[(requestsOf A).length]? =
      some (bare (.rtmpView s1.w.clients.length { out := [], fails := (reqOf cv false mv.length hv' u2).fails })) := by
    rw [← i1.len]
    simp
  obtain ⟨conn, c1, c2⟩ := run_kind env D e1 hget (x := (2, s1.w.clients.length)) rfl
  have hplays : ∃ sent, plays conn s1.w.clients.length sent := by
    obtain ⟨job, r, snk⟩ := conn
    simp only at c2
    cases job with
    | rtmpView c snk => simp [kind] at c2; subst c2; exact ⟨snk.out, .inl ⟨snk.fails, rfl⟩⟩
    | done was e =>
      cases was <;> simp [kind] at c2
      rename_i c sent
      subst c2
      exact ⟨sent, .inr ⟨e, rfl⟩⟩
    | _ => simp [kind] at c2
  obtain ⟨sent, hplays⟩ := hplays
  have e2' : L = L1 ++ (.play (StreamHandler.key (reqOf cv false mv.length hv' u2).url), .joined s1.w.clients.length cid) :: L2 := by rw [e2]; rfl
  subst e2'
  obtain ⟨after, r1, r2, r3⟩ := received_at i1.world rfl i2 j3
  have hsupL : ∀ p ∈ received s1.w.clients.length (L1 ++ (.play (StreamHandler.key (reqOf cv false mv.length hv' u2).url), .joined s1.w.clients.length cid) :: L2), Supported p := by
    intro p hp
    apply hsup
    rw [r1]
    rcases List.mem_append.1 (r2.subset hp) with hm | hm
    · exact List.mem_append_left _ (mem_startup hm)
    · exact List.mem_append_right _ hm
  obtain ⟨t1, t2⟩ := plays_ok i2 c1 hplays
  by_cases hpl : isPlaying conn
  · obtain ⟨t3, h8⟩ := t2 hpl
    subst t3
    exact ⟨conn, _, _, after, _, c1, hplays, r1, messages_carry _ hsupL, r2, fun _ hpend => r3 h8 hpend⟩
  · obtain ⟨qs, y1, y2⟩ := messages_prefix_carry hsupL t1
    exact ⟨conn, _, _, after, qs, c1, hplays, r1, y2, y1.trans r2, fun hx => absurd hx hpl⟩

/-! ## An execution -/

/-- A host block for streams. -/
def streams : Conf.Module := .mk .host (ascii "a.com")
  (fun n => if n = ascii "type" then some (.str (ascii "stream")) else if n = ascii "role" then some (.str (ascii "source")) else
    if n = ascii "edge_avformat" then some (.str (ascii "all")) else none) []

/-- A server with it. -/
def server : HttpSite := ⟨readers, Router.new.history [streams], fun _ _ _ _ => .error .hang⟩

/-- The publisher: an FLV file in two chunks. -/
def posts : Send where
  method := ascii "POST"
  path := ascii "/live/x.flv"
  query := some (ascii "k=1")
  host := ascii "a.com"
  port := some (ascii "8080")
  fields := [(ascii "User-Agent", ascii "test 1.0"), (ascii "Transfer-Encoding", ascii "chunked"), (ascii "Host", ascii "a.com:8080"), (ascii "Connection", ascii "keep-alive")]
  body := some (.coded ServeProps.chunks (ascii "0"))

theorem body_ok : Body.Ok (.coded ServeProps.chunks (ascii "0")) := by
  refine ⟨?_, ⟨ascii "0", [], by decide +kernel⟩, by decide +kernel⟩
  intro c hc
  simp only [ServeProps.chunks, List.mem_cons, List.not_mem_nil, or_false] at hc
  rcases hc with rfl | rfl
  · exact ⟨by decide +kernel, ⟨ascii "1d", [], by decide +kernel⟩, by decide +kernel, by decide +kernel⟩
  · exact ⟨by decide +kernel, ⟨ascii "2E", ascii ";last", by decide +kernel⟩, by decide +kernel, by decide +kernel⟩

instance (t : Text) : Decidable (nameOk t) := by unfold nameOk Names.letter; infer_instance
instance (t : Text) : Decidable (valueOk t) := by unfold valueOk Names.graph; infer_instance

theorem posts_for : posts.For RtmpConn.stream := by
  refine ⟨⟨by decide +kernel, by decide +kernel, ?_, by decide +kernel, ?_, by decide +kernel, .inr (by decide +kernel), ?_, by decide +kernel⟩, RtmpConn.stream_ok, rfl, by decide +kernel⟩
  · intro t h
    simp only [posts, Option.some.injEq] at h
    subst h
    refine ⟨by decide +kernel, ?_⟩
    unfold Names.graph
    decide +kernel
  · intro t h
    simp only [posts, Option.some.injEq] at h
    subst h
    exact ⟨8080, by decide +kernel⟩
  · intro b h
    simp only [posts, Option.some.injEq] at h
    subst h
    exact .inl body_ok

/-- The player. -/
def gets : Send where
  method := ascii "GET"
  path := ascii "/live/x.flv"
  host := ascii "a.com"
  fields := [(ascii "Host", ascii "a.com"), (ascii "Accept", ascii "*/*")]

theorem gets_for : gets.For RtmpConn.stream :=
  ⟨⟨by decide +kernel, by decide +kernel, by intro t h; simp [gets] at h, by decide +kernel, by intro t h; simp [gets] at h, by decide +kernel, .inl (by decide +kernel), by intro b h; simp [gets] at h,
    by decide +kernel⟩, RtmpConn.stream_ok, rfl, by decide +kernel⟩

/-- Their connections: the bytes come in pieces that respect nothing. -/
def wires (bytes : List UInt8) : Sps.HttpConn :=
  { io := { evs := [.data (bytes.take 7), .data ((bytes.drop 7).take 150), .data (bytes.drop 157)].filter (· ≠ .data []), closed := Err.ERROR_SOCKET_CLOSED }, snk := { out := [], fails := [] } }

def bodyBytes : List UInt8 := coded ServeProps.chunks (ascii "0") ++ ascii "GET"

theorem posts_arrives : Arrives (wires (posts.head ++ bodyBytes)).io (posts.head ++ bodyBytes) Err.ERROR_SOCKET_CLOSED := ⟨by decide +kernel, by decide +kernel, by decide +kernel, rfl⟩
theorem gets_arrives : Arrives (wires gets.head).io (gets.head ++ []) Err.ERROR_SOCKET_CLOSED := ⟨by decide +kernel, by decide +kernel, by decide +kernel, rfl⟩
theorem posts_brings : posts.Brings bodyBytes Err.ERROR_SOCKET_CLOSED (Flv.fileHeader ++ Flv.chain 0 ServeProps.pkts) Err.ERROR_HTTP_RES_EOF := by
  rw [show Flv.fileHeader ++ Flv.chain 0 ServeProps.pkts = Body.content (.coded ServeProps.chunks (ascii "0")) by decide +kernel]
  exact Send.Brings.framed (a := posts) (body := .coded ServeProps.chunks (ascii "0")) (ascii "GET") rfl body_ok

/-- The connection may as well be lost inside the second chunk. -/
example : posts.Brings (Http.chunk (ascii "1d", Flv.fileHeader ++ (Flv.chain 0 ServeProps.pkts).take 20) ++ (ascii "2E;last" ++ crlf ++ ((Flv.chain 0 ServeProps.pkts).drop 20).take 40)) 7
    (Flv.fileHeader ++ (Flv.chain 0 ServeProps.pkts).take 60) 7 := by
  have h := Send.Brings.cutData (a := posts) (done := [(ascii "1d", Flv.fileHeader ++ (Flv.chain 0 ServeProps.pkts).take 20)]) (rest := []) (l := ascii "2E;last")
    (d := (Flv.chain 0 ServeProps.pkts).drop 20) (z := ascii "0") (p := ((Flv.chain 0 ServeProps.pkts).drop 20).take 40) (e := 7) rfl body_ok (List.take_prefix _ _) (by decide +kernel)
  rw [show Flv.fileHeader ++ (Flv.chain 0 ServeProps.pkts).take 60 = content [(ascii "1d", Flv.fileHeader ++ (Flv.chain 0 ServeProps.pkts).take 20)] ++
    ((Flv.chain 0 ServeProps.pkts).drop 20).take 40 by decide +kernel]
  simpa using h

/-- The request that becomes of the bytes. -/
def reqFor (bytes : List UInt8) : Req :=
  match server.arrive (List.replicate 64 0) (List.replicate 29 0) (wires bytes) with
  | .ok (.stream q) => q
  | _ => ServeProps.get "source" "GET" "flv"

theorem arrive_posts : server.arrive (List.replicate 64 0) (List.replicate 29 0) (wires (posts.head ++ bodyBytes)) = .ok (.stream (reqFor (posts.head ++ bodyBytes))) := by
  obtain ⟨-, -, h⟩ := C106_admission_partial server readsSends_readers [streams] (by decide +kernel) rfl posts _ posts_for _ _ _ posts_arrives (List.replicate 64 0) (List.replicate 29 0)
  obtain ⟨q, hq, -⟩ := h streams rfl rfl
  simp only [reqFor, hq]

theorem arrive_gets : server.arrive (List.replicate 64 0) (List.replicate 29 0) (wires gets.head) = .ok (.stream (reqFor gets.head)) := by
  obtain ⟨-, -, h⟩ := C106_admission_partial server readsSends_readers [streams] (by decide +kernel) rfl gets _ gets_for _ _ _ gets_arrives (List.replicate 64 0) (List.replicate 29 0)
  obtain ⟨q, hq, -⟩ := h streams rfl rfl
  simp only [reqFor, hq]

/-- The publisher has sent two packets when the player comes; then the player reads, the third is published, and so on. -/
def opening : List Sys.Op := [.request (reqFor (posts.head ++ bodyBytes)), .run 0, .run 0, .run 0]
def ending : List Sys.Op := [.run 1, .run 0, .run 1, .run 0]

theorem req_ok : ReqOk (reqFor (posts.head ++ bodyBytes)) ∧ ReqOk (reqFor gets.head) := by
  obtain ⟨-, a1, a2, a3, a4⟩ := C106_phases _ _ _ _ _ arrive_posts
  obtain ⟨-, b1, b2, b3, b4⟩ := C106_phases _ _ _ _ _ arrive_gets
  refine ⟨⟨?_, ?_, ?_, ?_⟩, ⟨?_, ?_, ?_, ?_⟩⟩
  · rw [a3]; decide
  · rw [a2]; decide
  · rw [a1]; simp [wires]
  · rw [a4]; trivial
  · rw [b3]; decide
  · rw [b2]; decide
  · rw [b1]; simp [wires]
  · rw [b4]; trivial

/-- The hypotheses of C106 are met: the player comes while the publisher has published two packets, and has got all of the file. -/
example : ∃ s1 s L1 L, Comes ServeProps.site opening ending (reqFor gets.head) s1 s L1 L ∧ isStream 0 (RtmpConn.stream.host ++ RtmpConn.stream.path) L1 ∧ publishedTo 0 L1 = ServeProps.pkts.take 2 ∧ publishedTo 0 L = ServeProps.pkts ∧
    (s.conns.map ServeProps.ending).drop 1 = [(none, flvResponse ServeProps.site.reason ServeProps.pkts)] ∧ s.conns.length = 2 := by
  have h : ((Sys.run ServeProps.site Sys.init opening).map fun x => decide (publishedTo 0 x.2 = ServeProps.pkts.take 2 ∧
      activeKey 0 x.2 = some (RtmpConn.stream.host ++ RtmpConn.stream.path) ∧ pullOpened (RtmpConn.stream.host ++ RtmpConn.stream.path) x.2 = false)) = some true := by decide +kernel
  have g : ((Sys.run ServeProps.site Sys.init (opening ++ .request (reqFor gets.head) :: ending)).map fun x => decide (publishedTo 0 x.2 = ServeProps.pkts ∧
      (x.1.conns.map ServeProps.ending).drop 1 = [(none, flvResponse ServeProps.site.reason ServeProps.pkts)] ∧ x.1.conns.length = 2 ∧
      (x.2.all fun x => match x.1 with | .put _ p => decide ((Flv.body p).length < 2 ^ 24) | _ => true) = true)) = some true := by decide +kernel
  cases hr : Sys.run ServeProps.site Sys.init opening with
  | none => rw [hr] at h; simp at h
  | some x =>
    cases hr' : Sys.run ServeProps.site Sys.init (opening ++ .request (reqFor gets.head) :: ending) with
    | none => rw [hr'] at g; simp at g
    | some y =>
      rw [hr] at h
      rw [hr'] at g
      simp only [Option.map_some, Option.some.injEq, decide_eq_true_eq] at h g
      obtain ⟨h1, h2, h3⟩ := h
      obtain ⟨g1, g2, g3, g6⟩ := g
      refine ⟨x.1, y.1, x.2, y.2, ⟨?_, hr, hr', ServeProps.fitsFlv_of_all g6⟩, .inl ⟨h2, (World.apart_of_none h3).1⟩, h1, g1, g2, g3⟩
      intro q hq'
      have : q ∈ [reqFor (posts.head ++ bodyBytes), reqFor gets.head] := hq'
      rcases List.mem_cons.1 this with h | h
      · rw [h]; exact req_ok.1
      · rw [List.mem_singleton.1 h]; exact req_ok.2

end Sps.HttpLive
