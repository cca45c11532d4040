import Verif.Lemmas.SrtLive
import Verif.Props.HttpLive
/-!
# C107: live streams over SRT, from the stream id to what players get
-/
namespace Sps.SrtLive
open Spec Spec.Names Spec.SrtLive Spec.Srt Sys StreamProps World SrtServe Spec.Server Sps.HttpLive Spec.HttpLive

/-- **C107** (admission). A client whose stream id names HOST/APP/NAME is handed to the stream handler, as a request for the stream that RTMP and HTTP clients know by this name, if there is a
host block that is to serve HOST; it will play if the mode is `request` and publish otherwise. If there is no host block, or the id is shorter than five characters, the connection ends.

Missing: what follows the last comma of an id (`C107_negation_mode`), resources with `srt://`
(C55), pulls that get in the way of publishers (C14), and the limits of C95 and C96. -/
theorem C107_admission_partial (s : SrtSite) (hp : ReadsUrls s.parser) (hs : List Conf.Module) (hz : ∀ h ∈ hs, (0 : UInt8) ∉ h.name) (hr : s.router = Router.new.history hs)
    (a : Id) (st : Stream) (mode : Text) (af : a.For st mode) (io : Io) (fails : List Err) (mem tag : List UInt8) :
    (choose hs st.host = none → s.arrive a.text io fails mem tag = .refused Err.ERROR_HOST_NOT_EXISTS) ∧
    (∀ h, choose hs st.host = some h → ∃ q, s.arrive a.text io fails mem tag = .stream q ∧ q.host = h ∧ srtKey q.url = st.host ++ st.path ∧ q.via = .srt ∧ q.io = io ∧
      (q.url.method = ascii "request" ↔ mode = ascii "request")) ∧
    (∀ id, id.length < 5 → s.arrive id io fails mem tag = .refused Err.ERROR_SRT_STREAM_ID) := by
  obtain ⟨u, h1, h2, h3, h4⟩ := id_url hp af
  have hfind : s.router.find u.host = choose hs st.host := by rw [hr, h2]; exact C51_find hs hz st.host
  refine ⟨fun hc => ?_, fun h hc => ?_, fun id hl => ?_⟩
  · unfold SrtSite.arrive
    simp only [h1, hfind, hc]
  · refine ⟨{ host := h, url := u, io := io, fails := fails, mem := mem, tag := tag, via := .srt }, ?_, rfl, h3, rfl, rfl, h4⟩
    unfold SrtSite.arrive
    simp only [h1, hfind, hc]
  · unfold SrtSite.arrive Sps.Names.srt
    rw [(C55_short id).2 hl]
    rfl

/-- **C107** (the usual id of a player). A client whose id ends with `m=request`, without a comma behind it, asks to play; it becomes a publisher of the stream. -/
theorem C107_negation_mode (s : SrtSite) (hp : ReadsUrls s.parser) (st : Stream) (ok : st.Ok) (hw : Net.word (st.host ++ st.path)) (io : Io) (fails : List Err) (mem tag : List UInt8) (q : Req)
    (hq : s.arrive (ascii "#!::h=" ++ (st.host ++ st.path) ++ ascii ",m=request") io fails mem tag = .stream q) : q.url.method ≠ ascii "request" ∧ srtKey q.url = st.host ++ st.path := by
  have af : Id.For ⟨[(ascii "h", st.host ++ st.path)], ascii "m=request"⟩ st [] := by
    refine ⟨ok, ?_, (by decide : (44 : UInt8) ∉ ascii "m=request"), .inl ⟨[], [], rfl, by simp⟩, .inr ⟨?_, rfl⟩⟩
    · intro p hp
      simp only [List.mem_singleton] at hp
      subst hp
      exact ⟨(by decide : (44 : UInt8) ∉ ascii "h" ∧ (61 : UInt8) ∉ ascii "h"), hw⟩
    · intro p hp
      simp only [List.mem_singleton] at hp
      subst hp
      exact (by decide : ascii "h" ≠ ascii "m")
  have e : ascii "#!::h=" ++ (st.host ++ st.path) ++ ascii ",m=request" = Id.text ⟨[(ascii "h", st.host ++ st.path)], ascii "m=request"⟩ := by
    have h1 : ascii "#!::h=" = ascii "#!::" ++ (ascii "h" ++ [61]) := by decide
    have h2 : ascii ",m=request" = 44 :: ascii "m=request" := by decide
    rw [h1, h2]
    simp [Id.text, Net.renderTrail]
  rw [e] at hq
  obtain ⟨h1, h2, -⟩ := arrived hp af hq
  exact ⟨fun h => absurd (h2.1 h) (by decide), h1⟩

/-- **C107** (publishing). Whatever went on before, a client that asks to publish a stream is let to do so if no one publishes the stream over whatever protocol and no pull of it that has opened goes on, and players
will then find it. If there is the stream already, it is turned away, and nothing else happens.

Missing: what follows the last comma of an id (`C107_negation_mode`), resources with `srt://`
(C55), pulls that get in the way of publishers (C14), and the limits of C95 and C96. -/
theorem C107_publisher_partial (env : Site.Env) (site : SrtSite) (hp : ReadsUrls site.parser) (id : Id) (st : Stream) (mode : Text) (for_ : id.For st mode) (hm : mode ≠ ascii "request")
    (io : Io) (fails : List Err) (mem tag : List UInt8) (q : Req) (hq : site.arrive id.text io fails mem tag = .stream q)
    (A : List Sys.Op) (hok : ∀ x ∈ requestsOf A, ReqOk x) (s : Sys) (L : Log) (run : Sys.run env Sys.init A = some (s, L)) (fits : fitsFlv L) :
    ∃ conn, (s.request env q).1.conns = s.conns ++ [conn] ∧
      ((∀ cid, activeKey cid L ≠ some (st.host ++ st.path)) → ¬ pulledNow (st.host ++ st.path) L →
        ∃ cid, (∃ rd ctx x, conn.job = .srtPub cid rd ctx x) ∧ activeKey cid (L ++ (s.request env q).2) = some (st.host ++ st.path) ∧ publishedTo cid L = [] ∧ publishedTo (cid + 1) L = []) ∧
      ((∃ cid, isStream cid (st.host ++ st.path) L) →
        conn.job = .done .nothing Err.ERROR_RTMP_HAS_SOURCE ∧ conn.snk.out = [] ∧ (s.request env q).2 = [] ∧ (s.request env q).1.w = s.w) := by
  obtain ⟨k1, k2, k3, -, -, -, -⟩ := arrived hp for_ hq
  have inv := run_init hok run fits
  have hmeth : ¬ q.url.method = ascii "request" := fun h => hm (k2.1 h)
  simp only [request, k3, srtRequest, if_neg hmeth, k1, publishSrt]
  cases hf : s.w.reg.find (st.host ++ st.path) with
  | none =>
    refine ⟨_, rfl, fun _ _ => ⟨s.w.caches.length, ⟨_, _, _, rfl⟩, ?_, ?_, ?_⟩, fun ⟨cid, hc⟩ => ?_⟩
    · simp only
      unfold activeKey
      have happ : ∀ (l1 l2 : Log) (acc : Option Key), activeKeyFrom s.w.caches.length acc (l1 ++ l2) = activeKeyFrom s.w.caches.length (activeKeyFrom s.w.caches.length acc l1) l2 := by
        intro l1 l2
        induction l1 with
        | nil => intro acc; rfl
        | cons x l1 ih =>
          intro acc
          obtain ⟨o, r⟩ := x
          cases o <;> cases r <;> simp only [List.cons_append, activeKeyFrom] <;> exact ih _
      rw [happ]
      simp [activeKeyFrom]
    · exact (inv.inv.fresh _ (by omega)).1
    · exact (inv.inv.fresh _ (by omega)).1
    · have := (Sys.stream_joins inv.world (Names.not_raw for_.stream) hc).2
      rw [hf] at this
      simp at this
  | some i =>
    refine ⟨_, rfl, fun hno hnp => ?_, fun _ => ⟨rfl, rfl, rfl, rfl⟩⟩
    have := Sys.stream_free inv.world (Names.not_raw for_.stream) hno hnp
    rw [hf] at this
    simp at this

/-- **C107** (what is published). A client that was let to publish a stream is its publisher while it publishes. Of the bytes that it sends, in whatever pieces they arrive, it has published the packets that
are to be passed on, each once, unchanged and in order, to SRT players, and the audio and video in them to all other players, for a number `n` of its packets: all of them when it has ended, up to one that
is not accepted.

Missing: what follows the last comma of an id (`C107_negation_mode`), resources with `srt://`
(C55), pulls that get in the way of publishers (C14), and the limits of C95 and C96. -/
theorem C107_published_partial (env : Site.Env) (site : SrtSite) (hp : ReadsUrls site.parser) (id : Id) (st : Stream) (mode : Text) (for_ : id.For st mode)
    (io : Io) (fails : List Err) (mem tag : List UInt8) (q : Req) (hq : site.arrive id.text io fails mem tag = .stream q) (b : List UInt8) (cl : Err) (hb : Arrives io b cl) (h0 : ownsPidZero b)
    (ops : List Sys.Op) (hok : ∀ x ∈ requestsOf ops, ReqOk x) (s : Sys) (L : Log) (run : Sys.run env Sys.init ops = some (s, L)) (fits : fitsFlv L)
    (i : Nat) (asked : (requestsOf ops)[i]? = some q) (conn : Conn) (hi : s.conns[i]? = some conn) (cid : Nat) (pub : publishes conn cid) :
    (¬ stopped conn → activeKey cid L = some (st.host ++ st.path)) ∧
    ∃ n r log c x, 188 * n ≤ b.length ∧ Relayed (Ts.chunks n b) r ∧ (publishedTo (cid + 1) L).map (·.payload) = r.map (·.2) ∧
      Ts.feed (Ts.recorder TsCodec.handler) TsCtx.create ([], {}) (Ts.chunks n b) = some (Err.SUCCESS, c, (log, x)) ∧
      (∀ us, Spec.TsCodec.areUnits us log → ∃ waiting, Spec.TsCodec.flow none us (publishedTo cid L ++ waiting) ∧ (stopped conn → waiting = [])) ∧
      (stopped conn → b.length < 188 * (n + 1) ∨ ∃ e x, e ≠ Err.SUCCESS ∧ Ts.feed TsTap.handler TsCtx.create ({}, []) (Ts.chunks (n + 1) b) = some (e, x)) := by
  obtain ⟨k1, -, -, k4, -⟩ := arrived hp for_ hq
  have inv := run_init hok run fits
  rw [← k4] at hb
  obtain ⟨h1, n, ctx, x, hf, hs⟩ := publishes_ok inv hi asked pub hb
  obtain ⟨r, hr, hx⟩ := fed_relayed hf (no_map h0 hf.1)
  obtain ⟨log, hl⟩ := TsTap.feed_recorder hf.2
  refine ⟨fun hns => ?_, n, r, log, ctx, _, hf.1, hr, ?_, hl, fun us hu => ⟨x.queue, C68_flow _ hl us hu, fun hst => (hs hst).1⟩, fun hst => ?_⟩
  · rcases pub with hj | ⟨e, hj⟩
    · rw [(pub_view inv hi asked hj).2.2, k1]
    · exact absurd ⟨_, _, hj⟩ hns
  · generalize publishedTo (cid + 1) L = raw at hx
    clear hr
    induction hx with
    | nil => rfl
    | cons a _ ih => simp [ih, a.1]
  · rcases (hs hst).2 with h | ⟨_, h⟩
    · exact .inl h
    · exact .inr h

/-- **C107** (SRT player). While a client publishes a stream over SRT, another asks to play it over SRT: whatever else goes on before, meanwhile and after that, it is sent the start-up packets among those that
had been passed on when it came (`r1`), and then those passed on since (`after`), unchanged, in order and once each: all of them if it plays and has read its queue, an initial part otherwise.

Missing: what follows the last comma of an id (`C107_negation_mode`), resources with `srt://`
(C55), pulls that get in the way of publishers (C14), and the limits of C95 and C96. -/
theorem C107_player_partial (env : Site.Env) (site : SrtSite) (hp : ReadsUrls site.parser) (st : Stream) (idp idv : Id) (mode : Text) (forp : idp.For st mode) (forv : idv.For st (ascii "request"))
    (iop iov : Io) (fp fv : List Err) (memp tagp memv tagv : List UInt8) (qp q : Req) (ap : site.arrive idp.text iop fp memp tagp = .stream qp) (av : site.arrive idv.text iov fv memv tagv = .stream q)
    (b : List UInt8) (cl : Err) (hb : Arrives iop b cl) (h0 : ownsPidZero b)
    (A D : List Sys.Op) (s1 s : Sys) (L1 L : Log) (m : Comes env A D q s1 s L1 L)
    (i : Nat) (asked : (requestsOf A)[i]? = some qp) (pub : Conn) (hi : s1.conns[i]? = some pub) (hpub : ∃ cid rd ctx x, pub.job = .srtPub cid rd ctx x)
    (hn : Spec.apart (st.host ++ st.path) L1) (hf : rawFree (st.host ++ st.path) L1 = true) :
    ∃ pub' conn c n1 n r1 after, s.conns[i]? = some pub' ∧ s.conns[(requestsOf A).length]? = some conn ∧ plays conn c ∧
      188 * n1 ≤ b.length ∧ Relayed (Ts.chunks n1 b) r1 ∧ 188 * n ≤ b.length ∧ Relayed (Ts.chunks n b) (r1 ++ after) ∧
      (stopped pub' → b.length < 188 * (n + 1) ∨ ∃ e x, e ≠ Err.SUCCESS ∧ Ts.feed TsTap.handler TsCtx.create ({}, []) (Ts.chunks (n + 1) b) = some (e, x)) ∧
      conn.snk.out <+: played r1 after ∧ (conn.job = .srtView c → pendingOf s.w c = [] → conn.snk.out = played r1 after) := by
  obtain ⟨p1, -, -, p4, -⟩ := arrived hp forp ap
  obtain ⟨k1, k2, k3, -⟩ := arrived hp forv av
  rw [← p4] at hb
  obtain ⟨cid, hjob⟩ := hpub
  obtain ⟨L2, e1, e2, i1, i2⟩ := m.split
  obtain ⟨v1, v2, -⟩ := pub_view i1 hi asked hjob
  rw [p1] at v1 v2
  have hj := raw_joins i1.world (Names.not_raw forp.stream) hn hf v2
  have hplay : s1.w.play (tsKey (st.host ++ st.path)) = ((s1.w.play (tsKey (st.host ++ st.path))).1, .joined s1.w.clients.length (cid + 1)) := by rw [← hj]
  have hreq : s1.request env q = (⟨(s1.w.play (tsKey (st.host ++ st.path))).1, s1.conns ++ [⟨.srtView s1.w.clients.length, HttpStream.rsp0, { out := [], fails := q.fails }⟩]⟩,
      [(.play (tsKey (st.host ++ st.path)), .joined s1.w.clients.length (cid + 1))]) := by
    simp only [request, k3, srtRequest, if_pos (k2.2 rfl), k1]
    rw [hplay]
  rw [hreq] at e1 e2
  simp only at e1 e2
  have hget : (s1.conns ++ [⟨.srtView s1.w.clients.length, HttpStream.rsp0, { out := [], fails := q.fails }⟩])[(requestsOf A).length]? =
      some (⟨.srtView s1.w.clients.length, HttpStream.rsp0, { out := [], fails := q.fails }⟩ : Conn) := by
    rw [← i1.len]
    simp
  have hgetp : (s1.conns ++ [⟨.srtView s1.w.clients.length, HttpStream.rsp0, { out := [], fails := q.fails }⟩])[i]? = some pub := by
    rw [List.getElem?_append_left (List.getElem?_eq_some_iff.1 hi).1]
    exact hi
  obtain ⟨conn, c1, c2⟩ := run_kind env D e1 hget (x := (4, s1.w.clients.length)) rfl
  obtain ⟨pub', d1, d2⟩ := run_kind env D e1 hgetp (x := (5, cid)) (by obtain ⟨rd, ctx, x, hjob⟩ := hjob; rw [hjob]; rfl)
  have hplays : plays conn s1.w.clients.length := by
    obtain ⟨job, r, snk⟩ := conn
    simp only at c2
    cases job with
    | srtView c => simp [kind] at c2; subst c2; exact .inl rfl
    | done was e =>
      cases was <;> simp [kind] at c2
      subst c2
      exact .inr ⟨e, rfl⟩
    | _ => simp [kind] at c2
  have hpubs : publishes pub' cid := by
    obtain ⟨job, r, snk⟩ := pub'
    simp only at d2
    cases job with
    | srtPub c rd ctx x => simp [kind] at d2; subst d2; exact .inl ⟨_, _, _, rfl⟩
    | done was e =>
      cases was <;> simp [kind] at d2
      subst d2
      exact .inr ⟨e, rfl⟩
    | _ => simp [kind] at d2
  have e2' : L = L1 ++ (.play (tsKey (st.host ++ st.path)), .joined s1.w.clients.length (cid + 1)) :: L2 := by rw [e2]; rfl
  subst e2'
  obtain ⟨after, r1, r2, r3⟩ := raw_received_at i1.world rfl i2 v1
  have asked' : (requestsOf (A ++ .request q :: D))[i]? = some qp := by
    rw [RtmpConn.requestsOf_append, List.getElem?_append_left (List.getElem?_eq_some_iff.1 asked).1]
    exact asked
  obtain ⟨-, n1, ctx1, x1, hf1, -⟩ := publishes_ok i1 hi asked (.inl hjob) hb
  obtain ⟨-, n, ctx, x, hf, hs⟩ := publishes_ok i2 d1 asked' hpubs hb
  obtain ⟨ra, ra1, ra2⟩ := fed_relayed hf1 (no_map h0 hf1.1)
  obtain ⟨rb, rb1, rb2⟩ := fed_relayed hf (no_map h0 hf.1)
  have hlen : ra.length ≤ rb.length := by
    rw [ra2.length_eq, rb2.length_eq, r1]
    simp
  have hpre : ra <+: rb := by
    rcases Nat.le_total n1 n with h | h
    · obtain ⟨t, ht⟩ := chunks_prefix b h
      rw [← ht] at rb1
      exact relayed_prefix rb1 ra1
    · obtain ⟨t, ht⟩ := chunks_prefix b h
      rw [← ht] at ra1
      have := relayed_prefix ra1 rb1
      rw [List.IsPrefix.eq_of_length this (Nat.le_antisymm this.length_le hlen)]
      exact List.prefix_rfl
  obtain ⟨rc, rfl⟩ := hpre
  have hrc : List.Forall₂ TsTap.Is rc after := by
    rw [r1] at rb2
    have := List.forall₂_drop ra.length rb2
    rwa [List.drop_left, ra2.length_eq, List.drop_left] at this
  have hpl : (startupRaw (publishedTo (cid + 1) L1) ++ after).flatMap (·.payload) = played ra rc := by
    unfold played
    apply TsTap.is_payload
    exact List.rel_append (TsTap.is_start ra2) hrc
  obtain ⟨h4, h5⟩ := SrtServe.plays_ok i2 c1 hplays
  refine ⟨pub', conn, _, n1, n, ra, rc, d1, c1, hplays, hf1.1, ra1, hf.1, rb1, ?_, ?_, ?_⟩
  · intro hst
    rcases (hs hst).2 with h | ⟨_, h⟩
    · exact .inl h
    · exact .inr h
  · rw [← hpl]
    exact h4.trans (flatMap_prefix _ r2)
  · intro hv hpend
    obtain ⟨h6, h7⟩ := h5 hv
    rw [h6, r3 h7 hpend, hpl]

/-- **C107** (no stream for SRT). While no one publishes the stream, or the one who publishes it does so over RTMP or HTTP, a client that asks to play it over SRT is turned away, and nothing else
happens.

Missing: what follows the last comma of an id (`C107_negation_mode`), resources with `srt://`
(C55), pulls that get in the way of publishers (C14), and the limits of C95 and C96. -/
theorem C107_absent_partial (env : Site.Env) (site : SrtSite) (hp : ReadsUrls site.parser) (id : Id) (st : Stream) (for_ : id.For st (ascii "request"))
    (io : Io) (fails : List Err) (mem tag : List UInt8) (q : Req) (hq : site.arrive id.text io fails mem tag = .stream q)
    (A : List Sys.Op) (hok : ∀ x ∈ requestsOf A, ReqOk x) (s : Sys) (L : Log) (run : Sys.run env Sys.init A = some (s, L)) (fits : fitsFlv L)
    (hn : Spec.apart (st.host ++ st.path) L) (hf : rawFree (st.host ++ st.path) L = true)
    (hno : (∀ cid, activeKey cid L ≠ some (st.host ++ st.path)) ∨
      ∃ (i : Nat) (pub : Conn) (cid : Nat), s.conns[i]? = some pub ∧ activeKey cid L = some (st.host ++ st.path) ∧ ((∃ ms cl, pub.job = .rtmpPub cid ms cl) ∨ ∃ rd hd, pub.job = .flvPub cid rd hd)) :
    ∃ conn, (s.request env q).1.conns = s.conns ++ [conn] ∧ conn.job = .done .nothing Err.ERROR_RTMP_HAS_SOURCE ∧ conn.snk.out = [] ∧ (s.request env q).1.w = s.w ∧ (s.request env q).2 = [] := by
  obtain ⟨k1, k2, k3, -⟩ := arrived hp for_ hq
  have inv := run_init hok run fits
  have hnone : s.w.reg.find (tsKey (st.host ++ st.path)) = none := by
    cases hr : s.w.reg.find (tsKey (st.host ++ st.path)) with
    | none => rfl
    | some j =>
      exfalso
      obtain ⟨cid, v1, v2, v3⟩ := raw_pub inv.world (Names.not_raw for_.stream) hn hf hr
      rcases hno with hno | ⟨i, pub, cid', hi, ha, hj⟩
      · exact hno cid v2
      · have hcid : cid' = cid := by
          obtain ⟨-, -, h3, -⟩ := C14_one_publisher_partial (L.map Prod.fst) cid (st.host ++ st.path) (Names.not_raw for_.stream) (by rw [inv.world]; exact hn) (by rw [inv.world]; exact v2)
          exact h3 cid' (by rw [inv.world]; exact ha)
        subst hcid
        have hlt := (List.getElem?_eq_some_iff.1 hi).1
        rw [inv.len] at hlt
        have hc := inv.ok i pub _ hi (List.getElem?_eq_getElem hlt)
        unfold ConnOk at hc
        rcases hj with ⟨ms, cl, hj⟩ | ⟨rd, hd, hj⟩ <;>
        · rw [hj] at hc
          obtain ⟨-, ⟨key, hv⟩, -⟩ := hc
          rw [v1] at hv
          simp at hv
  obtain ⟨conn, h1, h2, h3⟩ := C95_refused env s q k3 (by rw [if_pos (k2.2 rfl), k1]; exact hnone)
  simp only [Sys.step, Option.some.injEq] at h1
  rw [h1]
  exact ⟨conn, rfl, h2, h3, rfl, rfl⟩

/-- **C107** (HTTP player). While a client publishes a stream over SRT, another requests `/APP/NAME.flv` of HOST over HTTP: it is sent a response with an FLV file of the start-up packets among those
published when it came, and then of those published since, in order; these are the packets of the audio and video units in the packets of the SRT client.

Missing: what follows the last comma of an id (`C107_negation_mode`), resources with `srt://`
(C55), pulls that get in the way of publishers (C14), and the limits of C95 and C96. -/
theorem C107_http_player_partial (env : Site.Env) (hf : RtmpConn.Plays env) (site : SrtSite) (hp : ReadsUrls site.parser) (web : HttpSite) (hw : ReadsSends web.parsers) (st : Stream)
    (id : Id) (mode : Text) (forp : id.For st mode) (io : Io) (fails : List Err) (mem tag : List UInt8) (qp : Req) (ap : site.arrive id.text io fails mem tag = .stream qp)
    (b : List UInt8) (cl : Err) (hb : Arrives io b cl) (h0 : ownsPidZero b)
    (player : Send) (for_ : player.For st) (hm : player.method ≠ ascii "POST") (c : Sps.HttpConn) (bytes : List UInt8) (e : Err) (ha : Arrives c.io (player.head ++ bytes) e) (memv tagv : List UInt8) (q : Req)
    (hq : web.arrive memv tagv c = .ok (.stream q))
    (A D : List Sys.Op) (s1 s : Sys) (L1 L : Log) (m : Comes env A D q s1 s L1 L)
    (i : Nat) (asked : (requestsOf A)[i]? = some qp) (pub : Conn) (hi : s1.conns[i]? = some pub) (cid : Nat) (hpub : ∃ rd ctx x, pub.job = .srtPub cid rd ctx x)
    (hn : Spec.apart (st.host ++ st.path) L1) :
    ∃ pub' conn k n log ctx x after, s.conns[i]? = some pub' ∧ s.conns[(requestsOf A).length]? = some conn ∧ ((∃ mux, conn.job = .view k mux) ∨ ∃ e, conn.job = .done (.player k) e) ∧
      188 * n ≤ b.length ∧ Ts.feed (Ts.recorder TsCodec.handler) TsCtx.create ([], {}) (Ts.chunks n b) = some (Err.SUCCESS, ctx, (log, x)) ∧
      (∀ us, Spec.TsCodec.areUnits us log → ∃ waiting, Spec.TsCodec.flow none us (publishedTo cid L1 ++ after ++ waiting) ∧ (stopped pub' → waiting = [])) ∧
      (stopped pub' → b.length < 188 * (n + 1) ∨ ∃ e x, e ≠ Err.SUCCESS ∧ Ts.feed TsTap.handler TsCtx.create ({}, []) (Ts.chunks (n + 1) b) = some (e, x)) ∧
      conn.snk.out <+: flvResponse env.reason (startup (publishedTo cid L1) ++ after) ∧
      ((∃ mux, conn.job = .view k mux) → pendingOf s.w k = [] → conn.snk.out = flvResponse env.reason (startup (publishedTo cid L1) ++ after)) := by
  obtain ⟨p1, -⟩ := arrived hp forp ap
  obtain ⟨L2, e1, e2, i1, i2⟩ := m.split
  have hact := (pub_view i1 hi asked hpub).2.2
  rw [p1] at hact
  obtain ⟨conn, k, after, c1, c2, c3, c4, c5⟩ := C106_player_partial env hf web hw player st for_ hm c bytes e ha memv tagv q hq A D s1 s L1 L m cid (.inl ⟨hact, hn⟩)
  have happ : ∃ t, (s1.request env q).1.conns = s1.conns ++ t := by
    unfold request httpRequest rtmpRequest srtRequest
    simp only
    repeat' split
    all_goals exact ⟨_, rfl⟩
  obtain ⟨t, ht⟩ := happ
  have hgetp : (s1.request env q).1.conns[i]? = some pub := by
    rw [ht, List.getElem?_append_left (List.getElem?_eq_some_iff.1 hi).1]
    exact hi
  obtain ⟨pub', d1, d2⟩ := run_kind env D e1 hgetp (x := (5, cid)) (by obtain ⟨rd, ctx, x, hjob⟩ := hpub; rw [hjob]; rfl)
  have hpubs : publishes pub' cid := by
    obtain ⟨job, r, snk⟩ := pub'
    simp only at d2
    cases job with
    | srtPub c rd ctx x => simp [kind] at d2; subst d2; exact .inl ⟨_, _, _, rfl⟩
    | done was e =>
      cases was <;> simp [kind] at d2
      subst d2
      exact .inr ⟨e, rfl⟩
    | _ => simp [kind] at d2
  have asked' : (requestsOf (A ++ .request q :: D))[i]? = some qp := by
    rw [RtmpConn.requestsOf_append, List.getElem?_append_left (List.getElem?_eq_some_iff.1 asked).1]
    exact asked
  obtain ⟨-, n, r, log, ctx, x, h1, -, -, h4, h5, h6⟩ := C107_published_partial env site hp id st mode forp io fails mem tag qp ap b cl hb h0 _ m.ok s L m.run m.fits i asked' pub' d1 cid hpubs
  rw [c3] at h5
  exact ⟨pub', conn, k, n, log, ctx, x, after, d1, c1, c2, h1, h4, h5, h6, c4, c5⟩

/-! ## An execution -/

/-- A server with the host block of C106's example. -/
def server : SrtSite := ⟨Sps.Names.readUrl, Router.new.history [streams]⟩

/-- The publisher's id, without a mode, and the player's. -/
def publishing : Id := ⟨[(ascii "u", ascii "me"), (ascii "h", ascii "a.com/live/x")], ascii "s=1"⟩
def playing : Id := ⟨[(ascii "h", ascii "a.com/live/y"), (ascii "m", ascii "request"), (ascii "h", ascii "a.com/live/x")], []⟩

example : publishing.text = ascii "#!::u=me,h=a.com/live/x,s=1" ∧ playing.text = ascii "#!::h=a.com/live/y,m=request,h=a.com/live/x," := by decide +kernel

theorem publishing_for : publishing.For RtmpConn.stream [] :=
  ⟨RtmpConn.stream_ok, by unfold Net.word; decide +kernel, by decide +kernel, .inl ⟨[(ascii "u", ascii "me")], [], rfl, by decide +kernel⟩, .inr ⟨by decide +kernel, rfl⟩⟩
theorem playing_for : playing.For RtmpConn.stream (ascii "request") :=
  ⟨RtmpConn.stream_ok, by unfold Net.word; decide +kernel, by decide +kernel, .inl ⟨[(ascii "h", ascii "a.com/live/y"), (ascii "m", ascii "request")], [], rfl, by decide +kernel⟩,
    .inl ⟨[(ascii "h", ascii "a.com/live/y")], [(ascii "h", ascii "a.com/live/x")], rfl, by decide +kernel⟩⟩

/-- Their sockets. -/
def socket (b : List UInt8) : Io := { evs := [.data (b.take 100), .data (b.drop 100)].filter (· ≠ .data []), closed := Err.ERROR_IO_EOF }

theorem socket_arrives : Arrives (socket sent) sent Err.ERROR_IO_EOF := ⟨by decide +kernel, by decide +kernel, by decide +kernel, rfl⟩

/-- The request that becomes of an id. -/
def reqFor (id : Id) (b : List UInt8) : Req :=
  match server.arrive id.text (socket b) [] (List.replicate 188 0) (List.replicate 29 0) with
  | .stream q => q
  | .refused _ => SrtServe.srt "publish" []

theorem arrive_publishing : server.arrive publishing.text (socket sent) [] (List.replicate 188 0) (List.replicate 29 0) = .stream (reqFor publishing sent) := by
  obtain ⟨-, h, -⟩ := C107_admission_partial server Sps.Names.readsUrls_readUrl [streams] (by decide +kernel) rfl publishing _ _ publishing_for (socket sent) [] (List.replicate 188 0) (List.replicate 29 0)
  obtain ⟨q, hq, -⟩ := h streams rfl
  simp only [reqFor, hq]

theorem arrive_playing : server.arrive playing.text (socket []) [] (List.replicate 188 0) (List.replicate 29 0) = .stream (reqFor playing []) := by
  obtain ⟨-, h, -⟩ := C107_admission_partial server Sps.Names.readsUrls_readUrl [streams] (by decide +kernel) rfl playing _ _ playing_for (socket []) [] (List.replicate 188 0) (List.replicate 29 0)
  obtain ⟨q, hq, -⟩ := h streams rfl
  simp only [reqFor, hq]

theorem req_ok : ReqOk (reqFor publishing sent) ∧ ReqOk (reqFor playing []) := by
  obtain ⟨-, -, a1, -, a2, a3, a4⟩ := arrived Sps.Names.readsUrls_readUrl publishing_for arrive_publishing
  obtain ⟨-, -, b1, -, b2, b3, b4⟩ := arrived Sps.Names.readsUrls_readUrl playing_for arrive_playing
  refine ⟨⟨?_, ?_, ?_, ?_⟩, ⟨?_, ?_, ?_, ?_⟩⟩
  · rw [a4]; exact List.length_replicate
  · rw [a3, List.length_replicate]; decide
  · rw [a2]; simp
  · rw [a1]; show _ = 188; rw [a3]; exact List.length_replicate
  · rw [b4]; exact List.length_replicate
  · rw [b3, List.length_replicate]; decide
  · rw [b2]; simp
  · rw [b1]; show _ = 188; rw [b3]; exact List.length_replicate

/-- The publisher has sent its tables when the player comes; the player reads, the publisher goes on, an HTTP player comes, and they play to the end. -/
def opening : List Sys.Op := [.request (reqFor publishing sent), .run 0, .run 0]
def middle : List Sys.Op := [.run 1, .run 0, .run 0, .run 0]
def ending : List Sys.Op := [.run 0, .run 1, .run 2, .run 0]

/-- The hypotheses of C107 are met: the SRT player comes while the publisher publishes, and is sent all that the publisher sends; the HTTP player comes while the publisher publishes, and is sent the picture. -/
example : ∃ s1 s2 s L1 L2 L, Comes ServeProps.site opening (middle ++ .request (HttpLive.reqFor gets.head) :: ending) (reqFor playing []) s1 s L1 L ∧
    Comes ServeProps.site (opening ++ .request (reqFor playing []) :: middle) ending (HttpLive.reqFor gets.head) s2 s L2 L ∧
    (∃ pub cid rd ctx x, s1.conns[0]? = some pub ∧ pub.job = .srtPub cid rd ctx x) ∧ (∃ pub cid rd ctx x, s2.conns[0]? = some pub ∧ pub.job = .srtPub cid rd ctx x) ∧
    (Spec.apart (RtmpConn.stream.host ++ RtmpConn.stream.path) L1 ∧ rawFree (RtmpConn.stream.host ++ RtmpConn.stream.path) L1 = true) ∧ Spec.apart (RtmpConn.stream.host ++ RtmpConn.stream.path) L2 ∧
    s.conns.map shown = [([6, 0, Err.ERROR_IO_EOF], [], []), ([4, 0], [], sent), ([3, 1], [], flvResponse ServeProps.site.reason carried)] := by
  have h : ((Sys.run ServeProps.site Sys.init opening).map fun x => x.1.conns.map fun k => match k.job with | .srtPub _ _ _ _ => true | _ => false) = some [true] := by decide +kernel
  have h' : ((Sys.run ServeProps.site Sys.init (opening ++ .request (reqFor playing []) :: middle)).map fun x => x.1.conns.map fun k => match k.job with | .srtPub _ _ _ _ => true | _ => false) =
    some [true, false] := by decide +kernel
  have g : ((Sys.run ServeProps.site Sys.init (opening ++ .request (reqFor playing []) :: (middle ++ .request (HttpLive.reqFor gets.head) :: ending))).map fun x => decide (
      x.1.conns.map shown = [([6, 0, Err.ERROR_IO_EOF], [], []), ([4, 0], [], sent), ([3, 1], [], flvResponse ServeProps.site.reason carried)] ∧
      (x.2.all fun x => match x.1 with | .put _ p => decide ((Flv.body p).length < 2 ^ 24) | _ => true) = true)) = some true := by decide +kernel
  have f : ((Sys.run ServeProps.site Sys.init opening).map fun x => decide (pullOpened (RtmpConn.stream.host ++ RtmpConn.stream.path) x.2 = false ∧ rawFree (RtmpConn.stream.host ++ RtmpConn.stream.path) x.2 = true)) = some true := by
    decide +kernel
  have f' : ((Sys.run ServeProps.site Sys.init (opening ++ .request (reqFor playing []) :: middle)).map fun x => decide (pullOpened (RtmpConn.stream.host ++ RtmpConn.stream.path) x.2 = false)) = some true := by
    decide +kernel
  have hpub : ∀ {l : List Conn} {t : List Bool}, (l.map fun k => match k.job with | .srtPub _ _ _ _ => true | _ => false) = true :: t →
      ∃ (pub : Conn) (cid : Nat) (rd : Reader) (ctx : TsCtx) (x : TsCodec), l[0]? = some pub ∧ pub.job = .srtPub cid rd ctx x := by
    intro l t hl
    cases l with
    | nil => simp at hl
    | cons k l =>
      simp only [List.map_cons, List.cons.injEq] at hl
      have hl := hl.1
      split at hl
      · rename_i hk
        exact ⟨k, _, _, _, _, rfl, hk⟩
      · simp at hl
  cases hr : Sys.run ServeProps.site Sys.init opening with
  | none => rw [hr] at h; simp at h
  | some x =>
    cases hr2 : Sys.run ServeProps.site Sys.init (opening ++ .request (reqFor playing []) :: middle) with
    | none => rw [hr2] at h'; simp at h'
    | some z =>
      cases hr' : Sys.run ServeProps.site Sys.init (opening ++ .request (reqFor playing []) :: (middle ++ .request (HttpLive.reqFor gets.head) :: ending)) with
      | none => rw [hr'] at g; simp at g
      | some y =>
        rw [hr] at h
        rw [hr2] at h'
        rw [hr'] at g
        simp only [Option.map_some, Option.some.injEq, decide_eq_true_eq] at h h' g
        rw [hr] at f
        rw [hr2] at f'
        simp only [Option.map_some, Option.some.injEq, decide_eq_true_eq] at f f'
        obtain ⟨g1, g4⟩ := g
        have hok : ∀ q ∈ requestsOf (opening ++ .request (reqFor playing []) :: (middle ++ .request (HttpLive.reqFor gets.head) :: ending)), ReqOk q := by
          intro q hq'
          have : q ∈ [reqFor publishing sent, reqFor playing [], HttpLive.reqFor gets.head] := hq'
          rcases List.mem_cons.1 this with h | h
          · rw [h]; exact req_ok.1
          · rcases List.mem_cons.1 h with h | h
            · rw [h]; exact req_ok.2
            · rw [List.mem_singleton.1 h]; exact HttpLive.req_ok.2
        exact ⟨x.1, z.1, y.1, x.2, z.2, y.2, ⟨hok, hr, hr', ServeProps.fitsFlv_of_all g4⟩,
          ⟨by simpa using hok, hr2, by simpa using hr', ServeProps.fitsFlv_of_all g4⟩, hpub h, hpub h', ⟨(World.apart_of_none f.1).1, f.2⟩, (World.apart_of_none f').1, g1⟩

end Sps.SrtLive
